import Verif.Lemmas.Views
/-
C117: how long the strings given to `PrepareResumptionTicketReq` must stay.
-/
namespace S2A
open S2A.Proto S2A.Util S2A.Views S2A.Views.Spec

/-- C117: in every history of preparing, serialising and using memory in which the caller leaves
alone the tickets of all successful calls and the identity of the last one, the code never leaves
defined behaviour, and every result, in particular every serialised request, is the one that
copies of the strings, made when they were passed, would have given. -/
theorem C117_as_prepared (m : Mem) (q : SessionReq) (es : List Ev)
    (h : Careful m .nothing es) : run m (.ofReq q) es = .ok (copied m q es) := by
  obtain ⟨r', _, hrun⟩ := run_careful es [] (rel_ofReq m q) h
  rw [List.append_nil] at hrun
  rw [hrun]
  show Except.ok (copied m q es ++ []) = _
  rw [List.append_nil]

/-- C117: what is held must be left alone: if after any such history the caller frees a non-empty
ticket, or the identity of the last successful call, serialising the request reads freed
memory. -/
theorem C117_freed (m : Mem) (q : SessionReq) (es : List Ev) (h : Careful m .nothing es)
    (b : Block)
    (hb : b ∈ (Held.nothing.after es).tickets ∧ str (memAfter m es) b ≠ [] ∨
      (Held.nothing.after es).identity = some b ∧ cstr (str (memAfter m es) b) ≠ []) :
    run m (.ofReq q) (es ++ [.touch b none, .serialize]) = .error .useAfterFree := by
  obtain ⟨r', hr', hrun⟩ := run_careful es [.touch b none, .serialize] (rel_ofReq m q) h
  rw [hrun]
  have : run (memAfter m es) r' [.touch b none, .serialize] = .error .useAfterFree := by
    rw [run_cons_ok (m' := (memAfter m es).set b none) (r' := r') (o := .nothing) _ rfl,
      run_cons_error (u := .useAfterFree)]
    · rfl
    · simp only [step, hr'.freed hb]; rfl
  rw [this]; rfl

/-- C117: and if the caller changes a ticket in place, the request says what is there when it is
serialised, cut to the length the ticket had. -/
theorem C117_changed (m : Mem) (c : UInt64) (i : IdObj) (b : Block) (d : Bytes) (p : PIdentity)
    (hi : Alive m i.block) (hb : Alive m b) (hne : i.block ≠ b)
    (hp : identityToProto ⟨i.type, str m i.block⟩ = some p) (hd : (str m b).length ≤ d.length) :
    run m (.ofReq ⟨.unset, []⟩) [.prepare c i (some [some b]), .touch b (some d), .serialize] =
      .ok [.prepared true, .nothing, .bytes (SessionReq.serialize
        ⟨.resumptionTicket ⟨[d.take (str m b).length], c.toNat, some p⟩, []⟩)] := by
  have hty : i.type ≠ .none := by
    intro h; rw [h] at hp; cases hp
  obtain ⟨iv, p', hv, hp', hread, hin, _⟩ := idView_alive hty hi
  rw [hp] at hp'
  injection hp' with hp'
  subst hp'
  have hin' : iv.In (· ≠ b) := IdV.In.mono (fun x hx => hx ▸ hne) hin
  have ht : [some b].mapM (makeTicket m) = .ok [.of b (str m b).length] := by
    rw [List.mapM_cons, makeTicket_alive hb]; rfl
  have hpre : Views.prepare m c i (some [some b]) (.ofReq ⟨.unset, []⟩) =
      .ok (true, ⟨.ticket ⟨[.of b (str m b).length], c.toNat, some iv⟩, []⟩) := by
    unfold Views.prepare
    simp only [hv, ht]
    rfl
  have hrd : View.read (m.set b (some d)) (.of b (str m b).length) =
      .ok (d.take (str m b).length) := by
    simp only [View.read, Mem.set, if_pos, hd]
    by_cases h0 : (str m b).length = 0
    · rw [if_pos h0, h0]; rfl
    · rw [if_neg h0]
  have hr : ReqV.read (m.set b (some d))
      ⟨.ticket ⟨[.of b (str m b).length], c.toNat, some iv⟩, []⟩ =
      .ok ⟨.resumptionTicket ⟨[d.take (str m b).length], c.toNat, some p⟩, []⟩ := by
    have hm : [View.of b (str m b).length].mapM (View.read (m.set b (some d))) =
        .ok [d.take (str m b).length] := by
      rw [List.mapM_cons, hrd]; rfl
    have hid : readId (m.set b (some d)) (some iv) = .ok (some p) := by
      simp only [readId, IdV.read_set hin', hread]; rfl
    unfold ReqV.read
    simp only [hm, hid]
    rfl
  have hstep : step m (.ofReq ⟨.unset, []⟩) (.prepare c i (some [some b])) =
      .ok (m, ⟨.ticket ⟨[.of b (str m b).length], c.toNat, some iv⟩, []⟩, .prepared true) := by
    simp only [step, hpre]; rfl
  have hser : step (m.set b (some d)) ⟨.ticket ⟨[.of b (str m b).length], c.toNat, some iv⟩, []⟩
      .serialize = .ok (m.set b (some d),
        ⟨.ticket ⟨[.of b (str m b).length], c.toNat, some iv⟩, []⟩, .bytes (SessionReq.serialize
        ⟨.resumptionTicket ⟨[d.take (str m b).length], c.toNat, some p⟩, []⟩)) := by
    simp only [step, hr]; rfl
  rw [run_cons_ok _ hstep, run_cons_ok (m' := m.set b (some d)) (o := .nothing) _ rfl,
    run_cons_ok _ hser]
  rfl

/-- C117: the request keeps no hold of the identity of an earlier call: once a later call has
succeeded, freeing the string of the first is harmless. -/
theorem C117_earlier_identity (m : Mem) (q : SessionReq) (c c' : UInt64) (i i' : IdObj)
    (ts ts' : List (Option Block)) (hi : i.type ≠ .none) (hi' : i'.type ≠ .none)
    (ha : Alive m i.block) (ha' : Alive m i'.block)
    (hts : ∀ t ∈ ts ++ ts', ∃ b, t = some b ∧ Alive m b ∧ b ≠ i.block)
    (hne : i'.block ≠ i.block) :
    run m (.ofReq q) [.prepare c i (some ts), .prepare c' i' (some ts'), .touch i.block none,
      .serialize] =
    .ok (copied m q [.prepare c i (some ts), .prepare c' i' (some ts'), .touch i.block none,
      .serialize]) := by
  refine C117_as_prepared m q _ ⟨fun _ => ⟨ha, fun t ht => ?_⟩, fun _ => ⟨ha', fun t ht => ?_⟩,
    ⟨?_, ?_⟩, trivial, trivial⟩
  · obtain ⟨b, h1, h2, _⟩ := hts t (List.mem_append.mpr (.inl ht))
    exact ⟨b, h1, h2⟩
  · obtain ⟨b, h1, h2, _⟩ := hts t (List.mem_append.mpr (.inr ht))
    exact ⟨b, h1, h2⟩
  · simp [Held.next, Looks, hi, hi', hne]
  · have h1 : Looks i (some ts) := ⟨hi, by simp⟩
    have h2 : Looks i' (some ts') := ⟨hi', by simp⟩
    simp only [Held.next, if_pos h1, if_pos h2, Held.nothing, List.nil_append, Option.getD_some,
      List.mem_append, List.mem_filterMap, id_eq]
    rintro (⟨t, ht, rfl⟩ | ⟨t, ht, rfl⟩)
    · obtain ⟨b, h1, _, h3⟩ := hts _ (List.mem_append.mpr (.inl ht))
      injection h1 with h1; exact h3 h1.symm
    · obtain ⟨b, h1, _, h3⟩ := hts _ (List.mem_append.mpr (.inr ht))
      injection h1 with h1; exact h3 h1.symm

/-- C117: the strings must be there when they are passed: after any such history, passing an
identity whose string is freed, a freed ticket or a null ticket has no defined outcome. -/
theorem C117_passed (m : Mem) (q : SessionReq) (es : List Ev) (h : Careful m .nothing es)
    (c : UInt64) (i : IdObj) (pre post : List (Option Block)) (t : Option Block)
    (hi : i.type ≠ .none) (hpre : ∀ t ∈ pre, ∃ b, t = some b ∧ Alive (memAfter m es) b) :
    (memAfter m es i.block = none →
      run m (.ofReq q) (es ++ [.prepare c i (some (pre ++ t :: post))]) =
        .error .useAfterFree) ∧
    (Alive (memAfter m es) i.block → (∃ b, t = some b ∧ memAfter m es b = none) →
      run m (.ofReq q) (es ++ [.prepare c i (some (pre ++ t :: post))]) =
        .error .useAfterFree) ∧
    (Alive (memAfter m es) i.block → t = none →
      run m (.ofReq q) (es ++ [.prepare c i (some (pre ++ t :: post))]) =
        .error .assertFail) := by
  refine ⟨fun hn => ?_, fun ha ht => ?_, fun ha ht => ?_⟩
  · exact run_last_error h fun r => prepare_bad_identity hi hn c _ r
  · obtain ⟨b, rfl, hb⟩ := ht
    refine run_last_error h fun r => prepare_bad_ticket hi ha c post r hpre ?_
    simp only [makeTicket, hb]
  · subst ht
    exact run_last_error h fun r => prepare_bad_ticket hi ha c post r hpre rfl

/-- A memory with an identity and two tickets, the second of which contains a NUL. -/
private def m₀ : Mem := fun b =>
  if b = 1 then some [97, 98, 0]
  else if b = 2 then some [5, 6, 7, 0]
  else if b = 3 then some [8, 0, 9, 0]
  else none

/-- The history of `C117_as_prepared` may use all other memory. -/
private def es₀ : List Ev :=
  [.prepare 7 ⟨.hostname, 1⟩ (some [some 2, some 3]), .touch 4 (some [1]), .touch 4 none,
   .serialize, .serialize]

private theorem careful₀ : Careful m₀ .nothing es₀ := by
  refine ⟨fun _ => ⟨⟨[97, 98], rfl⟩, ?_⟩, ⟨by decide, by decide⟩, ⟨by decide, by decide⟩, trivial,
    trivial, trivial⟩
  intro t ht
  have : t = some 2 ∨ t = some 3 := by simpa using ht
  rcases this with rfl | rfl
  · exact ⟨2, rfl, [5, 6, 7], rfl⟩
  · exact ⟨3, rfl, [8, 0, 9], rfl⟩

example : run m₀ (.ofReq ⟨.unset, []⟩) es₀ = .ok [.prepared true, .nothing, .nothing,
    .bytes (SessionReq.serialize
      ⟨.resumptionTicket ⟨[[5, 6, 7], [8, 0, 9]], 7, some (.hostname [97, 98])⟩, []⟩),
    .bytes (SessionReq.serialize
      ⟨.resumptionTicket ⟨[[5, 6, 7], [8, 0, 9]], 7, some (.hostname [97, 98])⟩, []⟩)] := by
  rw [C117_as_prepared m₀ _ es₀ careful₀]; rfl

example : run m₀ (.ofReq ⟨.unset, []⟩) (es₀ ++ [.touch 3 none, .serialize]) =
    .error .useAfterFree :=
  C117_freed m₀ _ es₀ careful₀ 3 (.inl ⟨by decide, by decide⟩)

example : run m₀ (.ofReq ⟨.unset, []⟩) (es₀ ++ [.touch 1 none, .serialize]) =
    .error .useAfterFree :=
  C117_freed m₀ _ es₀ careful₀ 1 (.inr ⟨by decide, by decide⟩)

example : run m₀ (.ofReq ⟨.unset, []⟩) [.prepare 7 ⟨.hostname, 1⟩ (some [some 2]),
    .touch 2 (some [1, 1, 1, 1]), .serialize] =
    .ok [.prepared true, .nothing, .bytes (SessionReq.serialize
      ⟨.resumptionTicket ⟨[[1, 1, 1]], 7, some (.hostname [97, 98])⟩, []⟩)] :=
  C117_changed m₀ 7 ⟨.hostname, 1⟩ 2 [1, 1, 1, 1] (.hostname [97, 98]) ⟨[97, 98], rfl⟩
    ⟨[5, 6, 7], rfl⟩ (by decide) rfl (by decide)

/-- The hypotheses of `C117_earlier_identity` are met. -/
example : run m₀ (.ofReq ⟨.unset, []⟩) [.prepare 7 ⟨.hostname, 1⟩ (some [some 3]),
    .prepare 8 ⟨.uid, 2⟩ (some [some 2]), .touch 1 none, .serialize] =
    .ok [.prepared true, .prepared true, .nothing, .bytes (SessionReq.serialize
      ⟨.resumptionTicket ⟨[[8, 0, 9], [5, 6, 7]], 8, some (.uid [5, 6, 7])⟩, []⟩)] := by
  rw [C117_earlier_identity m₀ _ 7 8 ⟨.hostname, 1⟩ ⟨.uid, 2⟩ [some 3] [some 2] (by decide)
    (by decide) ⟨[97, 98], rfl⟩ ⟨[5, 6, 7], rfl⟩ (by
      intro t ht
      have : t = some 3 ∨ t = some 2 := by simpa using ht
      rcases this with rfl | rfl
      · exact ⟨3, rfl, ⟨[8, 0, 9], rfl⟩, by decide⟩
      · exact ⟨2, rfl, ⟨[5, 6, 7], rfl⟩, by decide⟩) (by decide)]
  rfl

example : run m₀ (.ofReq ⟨.unset, []⟩) (es₀ ++ [.prepare 9 ⟨.uid, 1⟩ (some [some 2, none])]) =
    .error .assertFail :=
  (C117_passed m₀ _ es₀ careful₀ 9 ⟨.uid, 1⟩ [some 2] [] none (by decide) (by
    intro t ht
    have : t = some 2 := by simpa using ht
    exact ⟨2, this, [5, 6, 7], rfl⟩)).2.2 ⟨[97, 98], rfl⟩ rfl

end S2A
