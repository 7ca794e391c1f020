import Verif.Model.HandlerCalls
import Verif.Spec.HandlerCalls
import Verif.Lemmas.HandshakeRecord
/-
Calls on a handshake message handler.
-/
namespace S2A.Handler
open Spec (HsCall HsAnswer HsState hsAnswers hsSplit verdict finalKeyUpdate)

/-- A call of the model, in the words of the specification. -/
def Call.toSpec : Call → HsCall
  | .process d => .bytes d
  | .getStoredTickets => .tickets

/-- An answer of the specification, in the words of the model; no request byte is 0xff
(handshake_message_handler.cc:40). -/
def told : HsAnswer → Answer
  | .summary m u k t n => .result ⟨m, u, k.getD 0xff, t, n⟩
  | .tickets ts => .tickets (ts.map ([·]))
  | .invalidArgument => .status .invalidArgument
  | .internal => .status .internal

/-- An answer with the fragments of each ticket joined. -/
def Answer.joined : Answer → Answer
  | .tickets ts => .tickets (ts.map fun t => [t.flatten])
  | a => a

/-- The handler's state and the caller's knowledge of it. -/
structure CallerKnows (h : Handler) (s : HsState) : Prop where
  rel : Rel h s.unfinished
  tinv : TInv h
  kept : s.kept = h.fullTickets.map fun ts => ts.map List.flatten
  typed : s.unfinished = [] ∨ s.unfinished.head? = some Spec.ticketType ∨
    s.unfinished.head? = some Spec.updateType

theorem CallerKnows.init : CallerKnows Handler.init HsState.new :=
  ⟨init_rel, init_tinv, rfl, Or.inl rfl⟩

theorem typed_after_accept {ms : List Bytes} {q : Bytes} (h : verdict ms q = .accept) :
    q = [] ∨ q.head? = some Spec.ticketType ∨ q.head? = some Spec.updateType := by
  induction ms with
  | nil =>
    unfold verdict at h
    split at h
    · assumption
    · cases h
  | cons m ms ih =>
    unfold verdict at h
    split at h
    · split at h
      · cases h
      · exact ih h
    · split at h
      · split at h
        · cases h
        · split at h
          · rename_i e; exact Or.inl e.2
          · cases h
      · cases h

theorem TInv.caller_kept {h : Handler} (ti : TInv h) :
    (h.retrieved = true ∧ h.fullTickets.map (fun ts => ts.map List.flatten) = none) ∨
    (h.retrieved = false ∧ h.fullTickets.map (fun ts => ts.map List.flatten) = some (stored h) ∧
      h.numFull = (stored h).length) := by
  rcases ti with ⟨a, b, _⟩ | ⟨a, ts, b, c, _⟩
  · exact Or.inl ⟨a, by simp [b]⟩
  · exact Or.inr ⟨a, by simp [b, stored], by simp [stored, b, c]⟩

theorem calls_say {h : Handler} {s : HsState} (k : CallerKnows h s) (cs : List Call)
    (want : List HsAnswer) (hw : hsAnswers s (cs.map Call.toSpec) = some want) :
    ∃ got, h.calls cs = .ok got ∧ got.map Answer.joined = want.map told := by
  induction cs generalizing h s want with
  | nil =>
    simp [hsAnswers] at hw
    subst hw
    exact ⟨[], rfl, rfl⟩
  | cons c cs ih =>
    match c with
    | .process none =>
      simp only [List.map_cons, Call.toSpec, hsAnswers, Option.map_eq_some_iff] at hw
      obtain ⟨w, hw, rfl⟩ := hw
      obtain ⟨got, e, f⟩ := ih k w hw
      exact ⟨.status .invalidArgument :: got, by simp [calls, call, e], by simp [f, Answer.joined, told]⟩
    | .process (some d) =>
      simp only [List.map_cons, Call.toSpec, hsAnswers] at hw
      obtain ⟨ms, q, hs⟩ : ∃ ms q, hsSplit (s.unfinished ++ d) = (ms, q) := ⟨_, _, rfl⟩
      rw [hs] at hw
      obtain ⟨acc, ref⟩ := loop_verdict (ku := false) (tk := false) k.rel k.tinv hs
        (Nat.lt_succ_self _) k.typed
      cases hv : verdict ms q with
      | emptyBody => simp [hv] at hw
      | refuse =>
        obtain ⟨h', e⟩ := ref hv
        cases cs with
        | cons => simp [hv] at hw
        | nil =>
          simp [hv] at hw
          subst hw
          exact ⟨[.status .internal], by simp [calls, call, process, e], rfl⟩
      | accept =>
        obtain ⟨h', e, r', ti', hr, hst⟩ := acc hv
        simp only [hv, Option.map_eq_some_iff] at hw
        obtain ⟨w, hw, rfl⟩ := hw
        have hk : s.kept.map (fun ts => (ts ++ Spec.tickets ms).take 5) =
            h'.fullTickets.map fun ts => ts.map List.flatten := by
          rw [k.kept]
          rcases k.tinv.caller_kept with ⟨a, b⟩ | ⟨a, b, _⟩ <;>
          rcases ti'.caller_kept with ⟨a', b'⟩ | ⟨a', b', _⟩ <;> rw [b, b']
          · rfl
          · rw [a', a] at hr; cases hr
          · rw [a', a] at hr; cases hr
          · simp [hst, keep, a]
        have hn : h'.numFull =
            ((s.kept.map (fun ts => (ts ++ Spec.tickets ms).take 5)).getD []).length := by
          rw [hk]
          rcases ti' with ⟨_, b, c⟩ | ⟨_, ts, b, c, _⟩ <;> simp [b, c]
        obtain ⟨got, e', f⟩ := ih ⟨r', ti', hk, typed_after_accept hv⟩ w hw
        have ep : h.process d = .ok (h', .ok ⟨!q.isEmpty,
            !d.isEmpty && Spec.mentionsType Spec.updateType ms q,
            (finalKeyUpdate ms).getD kInvalidKeyUpdateType,
            !d.isEmpty && Spec.mentionsType Spec.ticketType ms q, h'.numFull⟩) := e
        refine ⟨.result _ :: got, by simp only [calls, call, ep, exec_bind_ok, exec_pure, e']; rfl, ?_⟩
        simp [Answer.joined, told, hn, f]
    | .getStoredTickets =>
      simp only [List.map_cons, Call.toSpec, hsAnswers] at hw
      rcases k.tinv.caller_kept with ⟨a, b⟩ | ⟨a, b, _⟩
      · rw [k.kept, b] at hw
        simp only [Option.map_eq_some_iff] at hw
        obtain ⟨w, hw, rfl⟩ := hw
        obtain ⟨got, e, f⟩ := ih k w hw
        exact ⟨.status .internal :: got, by simp [calls, call, getStoredTickets, a, e],
          by simp [f, Answer.joined, told]⟩
      · obtain ⟨ts, hts⟩ : ∃ ts, h.fullTickets = some ts := by
          cases hf : h.fullTickets with
          | none => simp [hf] at b
          | some ts => exact ⟨ts, rfl⟩
        rw [k.kept, b] at hw
        simp only at hw
        have hget : h.getStoredTickets =
            if s.unfinished.head? = some Spec.ticketType then .ok (h, .error .internal)
            else .ok ({ h with retrieved := true, numFull := 0, fullTickets := none }, .ok ts) := by
          unfold getStoredTickets
          rw [k.rel.expecting, if_neg (by simp [a]), hts]
          cases hu : s.unfinished with
          | nil => simp
          | cons t q =>
            have ht := (hu ▸ k.rel : Rel h (t :: q)).type
            simp [ht, Spec.ticketType]
        split at hw
        · rename_i hh
          simp only [Option.map_eq_some_iff] at hw
          obtain ⟨w, hw, rfl⟩ := hw
          obtain ⟨got, e, f⟩ := ih k w hw
          refine ⟨.status .internal :: got, ?_, by simp [f, Answer.joined, told]⟩
          simp only [calls, call, hget, if_pos hh, exec_bind_ok, exec_pure, e]
        · rename_i hh
          simp only [Option.map_eq_some_iff] at hw
          obtain ⟨w, hw, rfl⟩ := hw
          obtain ⟨got, e, f⟩ := ih (h := { h with retrieved := true, numFull := 0, fullTickets := none })
            (s := ⟨s.unfinished, none⟩)
            ⟨⟨k.rel.ne, k.rel.hdr, fun h4 => by
                obtain ⟨x1, x2, x3, x4, x5⟩ := k.rel.dat h4
                refine ⟨x1, x2, x3, x4, ?_⟩
                rw [x5, if_neg (fun x => hh x.2), if_neg (fun x => hh x.2)], k.rel.cut⟩,
              Or.inl ⟨rfl, rfl, rfl⟩, rfl, k.typed⟩ w hw
          refine ⟨.tickets ts :: got, ?_, by simp [Answer.joined, told, stored, hts, f]⟩
          simp only [calls, call, hget, if_neg hh, exec_bind_ok, exec_pure, e]

end S2A.Handler
