import Verif.Spec.RecordSays
import Verif.Props.AeadSays
import Verif.Lemmas.Unprotect
import Verif.Lemmas.Heard
import Verif.Lemmas.IntCast
import Verif.Props.Frame
/-
What the message of a failing `Protect` or `Unprotect` says is so, whatever the library does (C124).
-/
namespace S2A.Spec
open Aead (Crypter)

/-- The statuses of a failing `Encrypt`. -/
theorem SealSays.status {L : Lib} {c : Crypter} {f : EvpFault} {errs : String} {nonce : Bytes}
    {aad pt : List Iovec} {room : Nat} {e : StatusCode} {m : String}
    (h : SealSays L c f errs nonce aad pt room e m) : e = .invalidArgument ∨ e = .internal := by
  cases h <;> simp

end S2A.Spec

namespace S2A.Record
open HalfConn (exec_bind_eq_ok)
open Spec (ProtectSays UnprotectSays Unusable)

/-- `Protect` of a connection, in any state, for all arguments and all failures of the library: OK
without a message, or a code and a message that say what was wrong. -/
theorem C124_protect_says (L : Lib) (f : EvpFault) (errs : String) (c c' : Conn) (rt : RecordType)
    (pt : List Iovec) (record : Iovec) (r : Result) (said : Said)
    (h : protectT L f errs c rt pt record = .ok ((c', r), said)) :
    r.code = .ok ∧ said.message = "" ∨
      ProtectSays L c f errs rt pt record.len r.code said.message := by
  unfold protectT at h
  simp only at h
  split at h
  · next h1 => cases h; exact Or.inr (.tooLong h1)
  split at h
  · next h2 => cases h; exact Or.inr (.tooSmall h2)
  next h1 h2 =>
  cases record with
  | null n => cases h
  | buf rb =>
    simp only [exec_bind_eq_ok] at h
    obtain ⟨rb', hw, h⟩ := h
    have hl : rb'.length = rb.length := by
      unfold writeAt at hw
      split at hw
      · cases hw; simp; omega
      · cases hw
    have key : ∀ t : UInt8, (do
        let rest ← (Iovec.buf rb').slice kHeaderLength (rb'.length - kHeaderLength)
        let ((outC, call, r), m) ← c.outC.encryptT L f errs
          [.buf (headerBytes (totalLen pt + 1 + c.outC.tagLength))] (pt ++ [.buf [t]]) rest
        let c := { c with outC := outC }
        if r.status ≠ .ok then
          return ((c, ⟨convertStatus r.status, 0, .buf (zeros rb'.length), call, none, none⟩),
            ⟨["Encryption failure: " ++ m], m⟩)
        else
          return ((c, ⟨.ok, r.written + kHeaderLength,
            .buf (rb'.take kHeaderLength ++ r.out.bytes), call, none, none⟩), ⟨[], ""⟩) :
        Exec ((Conn × Result) × Said)) = .ok ((c', r), said) →
        r.code = .ok ∧ said.message = "" ∨
          ProtectSays L c f errs rt pt rb.length r.code said.message := by
      intro t h
      simp only [exec_bind_eq_ok] at h
      obtain ⟨rest, hs, ⟨⟨o, call, a⟩, m⟩, he, h⟩ := h
      obtain ⟨b, rfl, hb⟩ : ∃ b, rest = .buf b ∧ b.length = rb.length - 5 := by
        unfold Iovec.slice at hs
        simp only at hs
        split at hs
        · cases hs; exact ⟨_, rfl, by simp [kHeaderLength]; omega⟩
        · cases hs
      have hsay := HalfConn.C123_half_encrypt_says L f errs _ _ _ _ _ _ _ _ he
      simp only at h
      split at h
      · next hne =>
        cases h
        rcases hsay with hsay | ⟨hu, _, rfl, rfl⟩ | ⟨a', _, _, _, hsay⟩
        · exact absurd hsay.1 hne
        · exact Or.inr (.unusable hu)
        · right
          have e : headerBytes (totalLen pt + 1 + c.outC.tagLength) =
              Spec.recordHeader (totalLen pt + (1 + 16)) := headerBytes_eq _
          rw [hb, e] at hsay
          rcases hsay.status with he | he
          · simp only [he, convertStatus] at hsay ⊢
            exact .argument _ t _ hsay
          · simp only [he, convertStatus] at hsay ⊢
            exact .library _ t _ hsay
      · cases h; exact Or.inl ⟨rfl, rfl⟩
    cases rt with
    | other n => cases h; exact Or.inr (.badType (by simp) (by simp) (by simp))
    | applicationData => exact key _ h
    | alert => exact key _ h
    | handshake => exact key _ h

theorem handleResultT_message {L : Lib} {f : KeyFault} {msg : String} {c c' : Conn}
    {r : Except StatusCode Handler.Result} {st : StatusCode} {rekey : Option StatusCode} {said : Said}
    (h : handleResultT L f msg c r = .ok ((c', st, rekey), said)) :
    st = .ok ∧ said.message = "" ∨
    (∃ e, rekey = some e ∧ e ≠ .ok) ∧ said.message = "Key update failed." ∨
    ∃ e, r = .error e ∧ said.message = msg := by
  unfold handleResultT at h
  cases r with
  | error e => cases h; exact Or.inr (Or.inr ⟨_, rfl, rfl⟩)
  | ok r =>
    simp only at h
    split at h
    · simp only [exec_bind_eq_ok] at h
      obtain ⟨⟨inC, st'⟩, _, h⟩ := h
      simp only at h
      split at h
      · next hne => cases h; exact Or.inr (Or.inl ⟨⟨_, rfl, hne⟩, rfl⟩)
      · simp only [exec_bind_eq_ok] at h
        obtain ⟨_, _, h⟩ := h
        cases h; exact Or.inl ⟨rfl, rfl⟩
    · simp only [exec_bind_eq_ok] at h
      obtain ⟨_, _, h⟩ := h
      cases h; exact Or.inl ⟨rfl, rfl⟩

theorem dispatchT_message {L : Lib} {f : KeyFault} {c0 c c' : Conn} {call : Option HalfConn.AeadCall}
    {pt : Bytes} {w : Nat} {r : Result} {said : Said} {g : EvpFault} {errs : String} {header : Iovec}
    {payload : List Iovec} {room : Nat} (hh : c.handler = c0.handler) (hx : c.expecting = c0.expecting)
    (h : dispatchT L f c call pt w = .ok ((c', r), said)) :
    r.code = .ok ∧ said.message = "" ∨
      UnprotectSays L c0 g errs header payload room r.inner r.rekey r.code said.message := by
  unfold dispatchT at h
  simp only [exec_bind_eq_ok] at h
  obtain ⟨o, ho, h⟩ := h
  have hw := lastNonzero_le ho
  have hsplit : pt = pt.take w ++ pt.drop w := (List.take_append_drop w pt).symm
  have hlen : (pt.take w).length = w := by simp; omega
  have hu := lastNonzero_unpad (pt.take w) (pt.drop w)
  rw [← hsplit, hlen, ho] at hu
  cases hp : Spec.unpad (pt.take w) with
  | none =>
    rw [hp] at hu
    cases hu
    cases h
    exact Or.inr (.noType _ rfl hp)
  | some x =>
    obtain ⟨content, t⟩ := x
    rw [hp, Option.map_some] at hu
    cases hu
    obtain ⟨_, h2, h3, _⟩ := unpad_length hp
    have htake : pt.take content.length = content := by
      rw [List.take_take, Nat.min_eq_left (by omega)] at h3
      exact h3
    have hget : content.length ≥ 2 → pt[1]? = content[1]? := by
      intro hc
      rw [← htake, List.getElem?_take_of_lt (by omega)]
    simp only at h
    split at h
    · next ht =>
      cases ht
      split at h
      · next hc => cases h; exact Or.inr (.shortAlert _ content rfl hp hc)
      · next hc =>
        split at h
        · cases h
        · next d hd =>
          rw [hget (by omega)] at hd
          split at h
          · next hz => cases h; cases hz; exact Or.inr (.closing _ content rfl hp hd)
          · next hz => cases h; exact Or.inr (.alert _ content d rfl hp hd hz)
    · next hta =>
      split at h
      · next ht =>
        cases ht
        simp only [exec_bind_eq_ok] at h
        obtain ⟨⟨hd, pr⟩, hpr, ⟨⟨c1, st, rekey⟩, said'⟩, hr, h⟩ := h
        rw [htake, hh] at hpr
        simp only at h
        split at h
        · next hne =>
          cases h
          right
          rcases handleResultT_message hr with hs | ⟨⟨e, h1, h2⟩, hm⟩ | ⟨e, rfl, hm⟩
          · exact absurd hs.1 hne
          · simp only [hm]
            exact .update _ content e rfl hp h1 h2
          · simp only [hm]
            unfold processMessage
            split
            · next t' ht' =>
              split
              · next hk => exact .updateNotLast _ content hd e rfl hp hpr (by rw [ht', hk])
              · next hk =>
                exact .unexpected _ content hd e rfl hp hpr (by
                  rw [ht']; intro hc; cases hc; exact hk rfl)
            · next e' he' =>
              exact .unexpected _ content hd e rfl hp hpr (by rw [he']; simp)
        · cases h; exact Or.inl ⟨rfl, rfl⟩
      · next hth =>
        split at h
        · next ht =>
          cases ht
          split at h
          · next he => cases h; exact Or.inr (.interrupted _ content rfl hp (hx ▸ he))
          · split at h
            · simp only [exec_bind_eq_ok] at h
              obtain ⟨_, _, h⟩ := h
              cases h; exact Or.inl ⟨rfl, rfl⟩
            · cases h; exact Or.inl ⟨rfl, rfl⟩
        · next htd => cases h; exact Or.inr (.badType _ content t rfl hp hta hth htd)

/-- `Unprotect` of a connection, in any state, for all arguments and all failures of the library: OK
without a message, or a code and a message that say what was wrong. -/
theorem C124_unprotect_says (L : Lib) (f : Fault) (errs : String) (c c' : Conn) (header : Iovec)
    (payload : List Iovec) (out : Iovec) (r : Result) (said : Said)
    (h : unprotectT L f errs c header payload out = .ok ((c', r), said)) :
    r.code = .ok ∧ said.message = "" ∨
      UnprotectSays L c f.evp errs header payload out.len r.inner r.rekey r.code said.message := by
  unfold unprotectT at h
  simp only at h
  split at h
  · next h1 => cases h; exact Or.inr (.closed h1)
  split at h
  · next h2 => cases h; exact Or.inr (.short h2)
  split at h
  · next h3 => cases h; exact Or.inr (.long h3)
  next h2 h3 =>
  have hbig : header.len + totalLen payload ≤ 22 + 16384 := by
    have : kMaxPlaintext = 16384 := rfl
    have := recordOverhead_eq c
    omega
  split at h
  · next h4 =>
    cases h
    refine Or.inr (.header fun he => ?_)
    rw [(validateHeader_iff header (totalLen payload) (by omega)).2 he] at h4
    cases h4
  · simp only [exec_bind_eq_ok] at h
    obtain ⟨⟨⟨inC, call, a⟩, m⟩, hd, h⟩ := h
    have hsay := HalfConn.C123_half_decrypt_says L f.evp errs _ _ _ _ _
      (Aead.intLens_of_total (by simp; omega)) (Aead.intLens_of_total (by omega)) _ _ _ hd
    simp only at h
    split at h
    · next hne =>
      simp only [exec_bind_eq_ok] at h
      obtain ⟨z, _, h⟩ := h
      cases h
      rcases hsay with hsay | ⟨hu, _, rfl, rfl⟩ | ⟨a', _, _, _, hsay⟩
      · exact absurd hsay.1 hne
      · exact Or.inr (.unusable hu)
      · exact Or.inr (.refused _ _ _ hsay)
    · split at h
      · cases h
      · exact dispatchT_message (c := { c with inC := inC }) (c0 := c) rfl rfl h

/-- Calls that meet the hypotheses: a plaintext that is too long, a failing library, a half connection
that gave up, and records with a key update that fails, a key update that is not the last message and
an alert, after failures of the library that do not concern them. -/
example :
    let said {α : Type} (x : Exec (α × Said)) : Option String := x.toOption.map (·.2.message)
    let c := Demo.right
    let open' (f : Fault) (c : Conn) (inner : Bytes) := said (unprotectT Lib.toy f "q" c
      (.buf (Spec.recordHeader (inner.length + 16)))
      [.buf ((Frame.Demo.record 0 inner).drop 5)] (.buf (zeros 40)))
    said (protectT Lib.toy .none "q" c .alert [.buf (zeros 9), .buf (zeros 16376)] (.buf [])) =
      some "|plaintext| contains more bytes than are allowed in a single TLS 1.3 record." ∧
    said (protectT Lib.toy { EvpFault.none with final := true } "q" c .alert [.buf [1, 0]]
      (.buf (zeros 24))) = some "Finalizing encryption failed. q" ∧
    said (protectT Lib.toy .none "q" { c with outC := { c.outC with overflowed := true } } .alert
      [.buf [1, 0]] (.buf (zeros 24))) = some "|S2AHalfConnection| is in unusable state." ∧
    open' { Fault.none with key := { KeyFault.none with key := { HkdfFault.none with init := true } } } c
      [24, 0, 0, 1, 0, 22] = some "Failed to process handshake message result: Key update failed." ∧
    open' .none c [24, 0, 0, 1, 0, 4, 22] = some ("Failed to process handshake message result: " ++
      "Key update should be the last message in a plaintext.") ∧
    open' { Fault.none with key := { KeyFault.none with create := true } } c [1, 0, 21, 0, 0] =
      some "Received close notify alert." := by decide +kernel

end S2A.Record
