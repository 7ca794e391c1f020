import Verif.Model.NullCopy
import Verif.Spec.NullCopy
import Verif.Lemmas.Proxy
import Verif.Lemmas.Handshake
namespace S2A.NullCopy
open Proto Util Wire Spec.NullCopy

theorem copy_nil : copy [] = .error .nullDeref := rfl

theorem copy_ne {d : Bytes} (h : d ≠ []) : copy d = .ok d := by
  unfold copy
  rw [if_neg (by simpa using h)]

theorem copy_cases (d : Bytes) : d = [] ∧ copy d = .error .nullDeref ∨ d ≠ [] ∧ copy d = .ok d := by
  by_cases h : d = []
  · exact .inl ⟨h, h ▸ rfl⟩
  · exact .inr ⟨h, copy_ne h⟩

/-! ### The proxy -/

/-- One of the traffic secrets that are copied is empty. -/
def NoSecret (r : SessionResult) : Prop :=
  ∃ st v cs, r.state = some st ∧ Spec.wireTlsVersion v = some st.tlsVersion ∧
    Spec.wireCiphersuite cs = some st.ciphersuite ∧ (st.inKey = [] ∨ st.outKey = [])

theorem handleResult_cases (s : Proxy.State) (r : SessionResult) :
    NoSecret r ∧ handleResult s r = .error .nullDeref ∨
    ¬ NoSecret r ∧ handleResult s r = .ok (Proxy.handleResult s r) := by
  unfold handleResult Proxy.handleResult NoSecret
  cases hs : r.state with
  | none => exact .inr ⟨by simp, rfl⟩
  | some st =>
    simp only []
    cases hv : tlsVersionFromProto st.tlsVersion with
    | error c =>
      refine .inr ⟨?_, rfl⟩
      rintro ⟨st', v, cs, he, h1, _⟩
      cases he
      rw [Proxy.tlsVersionFromProto_ok.2 h1] at hv
      cases hv
    | ok v =>
      simp only []
      cases hc : ciphersuiteFromProto st.ciphersuite with
      | error c =>
        refine .inr ⟨?_, rfl⟩
        rintro ⟨st', v, cs, he, _, h1, _⟩
        cases he
        rw [Proxy.ciphersuiteFromProto_ok.2 h1] at hc
        cases hc
      | ok cs =>
        simp only []
        rcases copy_cases st.inKey with ⟨h1, e1⟩ | ⟨h1, e1⟩
        · refine .inl ⟨⟨st, v, cs, rfl, Proxy.tlsVersionFromProto_ok.1 hv,
            Proxy.ciphersuiteFromProto_ok.1 hc, .inl h1⟩, ?_⟩
          simp only [e1, exec_bind_error]
        · rcases copy_cases st.outKey with ⟨h2, e2⟩ | ⟨h2, e2⟩
          · refine .inl ⟨⟨st, v, cs, rfl, Proxy.tlsVersionFromProto_ok.1 hv,
              Proxy.ciphersuiteFromProto_ok.1 hc, .inr h2⟩, ?_⟩
            simp only [e1, e2, exec_bind_error, exec_bind_ok]
          · refine .inr ⟨?_, ?_⟩
            · rintro ⟨st', v, cs, he, _, _, h3⟩
              cases he
              rcases h3 with h3 | h3
              · exact h1 h3
              · exact h2 h3
            · simp only [e1, e2, exec_bind_ok, exec_pure]
              cases r.localIdentity <;> rfl

theorem getBytesForPeer_bad {dec : Bytes → Option SessionResp} {s : Proxy.State}
    {bytes : Option Bytes}
    (h : ∀ resp, Proxy.response dec bytes = some resp → ¬ Spec.Good resp) :
    getBytesForPeer dec s bytes = .ok (Proxy.getBytesForPeer dec s bytes) := by
  unfold getBytesForPeer Proxy.getBytesForPeer
  unfold Proxy.response at h
  split
  · rfl
  · rename_i hb
    rw [if_neg hb] at h
    rw [copy_ne (by simpa using hb)]
    simp only [exec_bind_ok]
    cases hd : dec (bytes.getD []) with
    | none => rfl
    | some resp =>
      have hg := h resp hd
      unfold Spec.Good at hg
      cases hs : resp.status with
      | none => simp only [hs]; rfl
      | some st =>
        simp only [hs]
        rw [if_pos (fun hz => hg ⟨st, hs, hz⟩), if_pos (fun hz => hg ⟨st, hs, hz⟩)]
        rfl

theorem getBytesForPeer_good {dec : Bytes → Option SessionResp} {s : Proxy.State}
    {bytes : Option Bytes} {resp : SessionResp} (h : Proxy.response dec bytes = some resp)
    (hg : Spec.Good resp) :
    getBytesForPeer dec s bytes =
      match resp.result with
      | none => copy resp.outFrames >>= fun out =>
          .ok (Proxy.select s resp, ⟨.ok, resp.bytesConsumed, some out⟩)
      | some r =>
        handleResult { Proxy.select s resp with finished := true } r >>= fun x =>
        match x with
        | (s, some c) => .ok (s, .fail c)
        | (s, none) => copy resp.outFrames >>= fun out =>
            .ok (s, ⟨.ok, resp.bytesConsumed, some out⟩) := by
  unfold Proxy.response at h
  split at h
  · cases h
  · rename_i hb
    obtain ⟨st, h1, h2⟩ := hg
    unfold getBytesForPeer
    rw [if_neg hb, copy_ne (by simpa using hb)]
    simp only [exec_bind_ok, h, h1]
    rw [if_neg (by simp [h2])]
    simp only [Proxy.identityFromProto_eq]
    unfold Proxy.select
    cases resp.result with
    | none => rfl
    | some r => rfl

/-- A result that ends in no error is complete. -/
theorem handleResult_none {s s' : Proxy.State} {r : SessionResult}
    (h : Proxy.handleResult s r = (s', none)) :
    ∃ st v cs, r.state = some st ∧ Spec.wireTlsVersion v = some st.tlsVersion ∧
      Spec.wireCiphersuite cs = some st.ciphersuite ∧ r.localIdentity.isSome = true := by
  unfold Proxy.handleResult at h
  cases hs : r.state with
  | none => simp [hs] at h
  | some st =>
    simp only [hs] at h
    cases hv : tlsVersionFromProto st.tlsVersion with
    | error c => simp [hv] at h
    | ok v =>
      simp only [hv] at h
      cases hc : ciphersuiteFromProto st.ciphersuite with
      | error c => simp [hc] at h
      | ok cs =>
        simp only [hc] at h
        cases hl : r.localIdentity with
        | none => simp [hl] at h
        | some li =>
          exact ⟨st, v, cs, rfl, Proxy.tlsVersionFromProto_ok.1 hv,
            Proxy.ciphersuiteFromProto_ok.1 hc, rfl⟩

/-- A result that ends in an error is not complete. -/
theorem handleResult_some {s s' : Proxy.State} {r : SessionResult} {c : StatusCode}
    (h : Proxy.handleResult s r = (s', some c)) :
    ¬ ∃ st v cs, r.state = some st ∧ Spec.wireTlsVersion v = some st.tlsVersion ∧
      Spec.wireCiphersuite cs = some st.ciphersuite ∧ r.localIdentity.isSome = true := by
  rintro ⟨st, v, cs, h1, h2, h3, h4⟩
  obtain ⟨li, hl⟩ := Option.isSome_iff_exists.1 h4
  unfold Proxy.handleResult at h
  simp [h1, Proxy.tlsVersionFromProto_ok.2 h2, Proxy.ciphersuiteFromProto_ok.2 h3, hl] at h

theorem getBytesForPeer_cases (dec : Bytes → Option SessionResp) (s : Proxy.State)
    (bytes : Option Bytes) :
    (∃ resp, Proxy.response dec bytes = some resp ∧ CopiesNothing resp) ∧
      getBytesForPeer dec s bytes = .error .nullDeref ∨
    (¬ ∃ resp, Proxy.response dec bytes = some resp ∧ CopiesNothing resp) ∧
      getBytesForPeer dec s bytes = .ok (Proxy.getBytesForPeer dec s bytes) := by
  by_cases hx : ∃ resp, Proxy.response dec bytes = some resp ∧ Spec.Good resp
  · obtain ⟨resp, h, hg⟩ := hx
    have key : (∃ r, Proxy.response dec bytes = some r ∧ CopiesNothing r) ↔ CopiesNothing resp := by
      constructor
      · rintro ⟨r, h1, h2⟩
        rw [h] at h1
        cases h1
        exact h2
      · exact fun h1 => ⟨resp, h, h1⟩
    rw [key, getBytesForPeer_good h hg, Proxy.getBytesForPeer_good h hg]
    unfold CopiesNothing
    cases hr : resp.result with
    | none =>
      simp only []
      rcases copy_cases resp.outFrames with ⟨h1, e1⟩ | ⟨h1, e1⟩
      · exact .inl ⟨⟨hg, h1⟩, by rw [e1]; rfl⟩
      · exact .inr ⟨fun h2 => h1 h2.2, by rw [e1]; rfl⟩
    | some r =>
      simp only []
      rcases handleResult_cases { Proxy.select s resp with finished := true } r with
        ⟨h1, e1⟩ | ⟨h1, e1⟩
      · obtain ⟨st, v, cs, a, b, c, d⟩ := h1
        refine .inl ⟨⟨hg, st, v, cs, a, b, c, ?_⟩, by rw [e1]; rfl⟩
        rcases d with d | d
        · exact .inl d
        · exact .inr (.inl d)
      · rw [e1]
        simp only [exec_bind_ok]
        generalize hq : Proxy.handleResult { Proxy.select s resp with finished := true } r = q
        obtain ⟨s', o⟩ := q
        cases o with
        | some c =>
          refine .inr ⟨?_, rfl⟩
          rintro ⟨_, st, v, cs, a, b, c, d⟩
          rcases d with d | d | ⟨d, _⟩
          · exact h1 ⟨st, v, cs, a, b, c, .inl d⟩
          · exact h1 ⟨st, v, cs, a, b, c, .inr d⟩
          · exact handleResult_some hq ⟨st, v, cs, a, b, c, d⟩
        | none =>
          simp only []
          rcases copy_cases resp.outFrames with ⟨h2, e2⟩ | ⟨h2, e2⟩
          · obtain ⟨st, v, cs, a, b, c, d⟩ := handleResult_none hq
            exact .inl ⟨⟨hg, st, v, cs, a, b, c, .inr (.inr ⟨d, h2⟩)⟩, by rw [e2]; rfl⟩
          · refine .inr ⟨?_, by rw [e2]; rfl⟩
            rintro ⟨_, st, v, cs, a, b, c, d⟩
            rcases d with d | d | ⟨_, d⟩
            · exact h1 ⟨st, v, cs, a, b, c, .inl d⟩
            · exact h1 ⟨st, v, cs, a, b, c, .inr d⟩
            · exact h2 d
  · refine .inr ⟨?_, getBytesForPeer_bad fun resp h1 h2 => hx ⟨resp, h1, h2⟩⟩
    rintro ⟨resp, h1, h2⟩
    exact hx ⟨resp, h1, h2.1⟩

/-! ### Messages -/

theorem varint_ne (n : Nat) : varint n ≠ [] := by
  rw [varint.eq_def]
  split <;> simp

theorem encodeField_ne (f : Field) : encodeField f ≠ [] := by
  obtain ⟨n, v⟩ := f
  cases v <;> simp [encodeField, varint_ne]

theorem encode_nil {fs : List Field} : encode fs = [] ↔ fs = [] := by
  unfold encode
  cases fs with
  | nil => simp
  | cons f fs => simp [encodeField_ne]

theorem finishRequest_ne {e : Proxy.Env} {s : Proxy.State} {k : ReqKind} {b : Bytes}
    (hk : k ≠ .unset) (h : (Proxy.finishRequest e s k).2.1.buffer = some b) : b ≠ [] := by
  unfold Proxy.finishRequest at h
  generalize Proxy.populate e s = p at h
  obtain ⟨s', asked⟩ := p
  simp only [] at h
  split at h
  · cases h
  · simp only [Option.some.injEq] at h
    rw [← h]
    unfold SessionReq.serialize SessionReq.fields
    intro hn
    rw [encode_nil] at hn
    cases k <;> simp [ReqKind.fields] at hn hk

theorem request_ne {e : Proxy.Env} {s : Proxy.State} {bytes : Option Bytes} {b : Bytes}
    (h : (Proxy.getBytesForS2A e s bytes).2.1.buffer = some b) : b ≠ [] := by
  unfold Proxy.getBytesForS2A at h
  split at h
  · split at h
    · cases h
    · simp only [] at h
      generalize hq : (if s.isClient = true then Proxy.getClientStart e s
        else Proxy.getServerStart e s bytes) = q at h
      have h : q.2.1.buffer = some b := h
      rw [← hq] at h
      split at h
      · unfold Proxy.getClientStart at h
        split at h
        · cases h
        · exact finishRequest_ne (by simp) h
      · unfold Proxy.getServerStart at h
        split at h
        · cases h
        · exact finishRequest_ne (by simp) h
  · split at h
    · cases h
    · exact finishRequest_ne (by simp) h

theorem getBytesForS2A_eq (e : Proxy.Env) (s : Proxy.State) (bytes : Option Bytes) :
    getBytesForS2A e s bytes = .ok (Proxy.getBytesForS2A e s bytes) := by
  unfold getBytesForS2A
  have hne := @request_ne e s bytes
  generalize Proxy.getBytesForS2A e s bytes = q at hne ⊢
  obtain ⟨s', ⟨c, n, o⟩, asked⟩ := q
  cases o with
  | none => rfl
  | some b =>
    simp only []
    rw [copy_ne (hne rfl)]
    rfl

theorem cstr_nil {d : Bytes} : cstr d = [] ↔ d.head?.getD 0 = 0 := by
  unfold cstr
  cases d with
  | nil => simp
  | cons x xs =>
    by_cases h : x = 0
    · simp [h]
    · simp [h]

theorem serialize_cases {c : Context} {b : Bytes} (h : c.serialize false = .ok b) :
    b = [] ↔ Blank c := by
  obtain ⟨p, v, cs, pi, li, pc, lc, r⟩ := c
  unfold Context.serialize at h
  cases hv : tlsVersionToProto v with
  | error e => simp [hv] at h; cases h
  | ok vn =>
    cases hc : ciphersuiteToProto cs with
    | error e => simp [hv, hc] at h; cases h
    | ok cn =>
      simp only [hv, hc] at h
      injection h with h
      rw [← h]
      unfold PContext.serialize PContext.fields
      rw [encode_nil]
      simp only [List.append_eq_nil_iff]
      constructor
      · rintro ⟨⟨⟨⟨⟨⟨⟨a1, a2⟩, a3⟩, a4⟩, a5⟩, a6⟩, a7⟩, a8⟩
        refine ⟨?_, ?_, ?_, ?_, ?_, ?_, ?_, ?_⟩
        · exact cstr_nil.1 (by simpa [putBytes] using a1)
        · cases v <;> simp [tlsVersionToProto] at hv <;> subst hv <;> simp_all [putNum]
        · cases cs <;> simp [ciphersuiteToProto] at hc <;> subst hc <;> simp_all [putNum]
        · obtain ⟨t, x⟩ := pi
          cases t <;> simp_all [identityToProto, putOpt]
        · obtain ⟨t, x⟩ := li
          cases t <;> simp_all [identityToProto, putOpt]
        · exact cstr_nil.1 (by simpa [putBytes] using a6)
        · exact cstr_nil.1 (by simpa [putBytes] using a7)
        · cases r <;> simp_all [putBool, putNum]
      · rintro ⟨a1, a2, a3, a4, a5, a6, a7, a8⟩
        simp only [] at a1 a2 a3 a4 a5 a6 a7 a8
        subst a2 a3 a8
        simp [tlsVersionToProto] at hv
        simp [ciphersuiteToProto] at hc
        subst hv hc
        obtain ⟨t, x⟩ := pi
        obtain ⟨t', x'⟩ := li
        simp only [] at a4 a5
        subst a4 a5
        simp [cstr_nil.2 a1, cstr_nil.2 a6, cstr_nil.2 a7, putBytes, putNum, putOpt, putBool,
          identityToProto]

end S2A.NullCopy
