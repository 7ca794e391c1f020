import Verif.Lemmas.IntCut
import Verif.Props.Frame
import Verif.Props.KeySchedule
/-
C115: whether S2A works the same on machines of either byte order.
C116: buffers of 2^31 bytes and more, whose lengths do not fit the `int` of the library.
-/
set_option maxRecDepth 10000

namespace S2A
open Spec (noAad noUpdate onMachine UsesEvp Refused cut32)

/-! ## C115: the conversions themselves -/

/-- The library writes a length of `v` bytes through an `int*` that points to a `size_t` of value 0.
On a little-endian machine the `size_t` is `v` afterwards, on a big-endian one `v * 2^32`. -/
theorem C115_conversion (v : Nat) (h : v < 2 ^ 31) :
    throughInt .little v = v ∧ throughInt .big v = v * 2 ^ 32 :=
  ⟨throughInt_little (by omega), throughInt_big (by omega)⟩

example : throughInt .big 5 = 21474836480 ∧ throughInt .little 5 = 5 := by decide

namespace Aead

/-! ## C115: the AEAD crypters -/

/-- On a little-endian machine, with buffers of fewer than 2^31 bytes, `Encrypt` and `Decrypt` do
what all other theorems say. -/
theorem C115_little_partial (L : Lib) (f : EvpFault) (c : Crypter) (nonce : Bytes)
    (aad data : List Iovec) (out : Iovec) (ha : IntLens aad) (hd : IntLens data) :
    c.encryptI .little L f nonce aad data out = c.encrypt L f nonce aad data out ∧
      c.decryptI .little L f nonce aad data out = c.decrypt L f nonce aad data out :=
  ⟨encryptI_eq .little L f c nonce aad data out ha hd,
    decryptI_eq .little L f c nonce aad data out ha hd⟩

/-- On a big-endian machine a crypter of the EVP interface refuses every call that has associated
data: the number of bytes the library says it took is not the length of the buffer. -/
theorem C115_big (L : Lib) (f : EvpFault) (c : Crypter) (hc : UsesEvp L c) (nonce : Bytes)
    (aad data : List Iovec) (out : Iovec) (ha : IntLens aad) (hd : IntLens data)
    (h0 : 0 < totalLen aad) (r : Result)
    (h : c.encryptI .big L f nonce aad data out = .ok r ∨
      c.decryptI .big L f nonce aad data out = .ok r) : r.status ≠ .ok := by
  rcases h with h | h
  · rw [encryptI_eq .big L f c nonce aad data out ha hd] at h
    exact encrypt_noAad rfl hc h0 h
  · rw [decryptI_eq .big L f c nonce aad data out ha hd] at h
    exact decrypt_noAad rfl hc h0 h

/-- Without associated data it encrypts there, but does not decrypt what it encrypted. -/
theorem C115_big_no_aad (L : Lib) (f : EvpFault) (c : Crypter) (nonce : Bytes) (data : List Iovec)
    (out : Iovec) (hd : IntLens data) :
    c.encryptI .big L f nonce [] data out = c.encrypt L f nonce [] data out ∧
      c.decryptI .big L f nonce [] data out = c.decrypt L (noUpdate f) nonce [] data out := by
  have h0 : IntLens [] := fun v hv => by cases hv
  refine ⟨?_, decryptI_eq .big L f c nonce [] data out h0 hd⟩
  rw [encryptI_eq .big L f c nonce [] data out h0 hd]
  unfold Crypter.encrypt
  split
  · rfl
  · unfold evpEncrypt
    have e : ∀ g k c, setAad g k c [] = .ok (.ok c) := fun _ _ _ => rfl
    have e2 : ∀ k c ob off rem, encLoop L (encFault .big f) k c ob off rem data =
        encLoop L f k c ob off rem data := fun k c ob off rem => by
      rw [← encLoopI_eq L f f rfl data hd, ← encLoopI_eq L f (encFault .big f) rfl data hd]
    simp only [e, e2]
    rfl

/-- With BoringSSL, ChaCha20-Poly1305 works on machines of either byte order, whatever the lengths. -/
theorem C115_one_shot (o : ByteOrder) (L : Lib) (f : EvpFault) (c : Crypter) (hc : ¬ UsesEvp L c)
    (nonce : Bytes) (aad data : List Iovec) (out : Iovec) :
    c.encryptI o L f nonce aad data out = c.encrypt L f nonce aad data out ∧
      c.decryptI o L f nonce aad data out = c.decrypt L f nonce aad data out := by
  have h : (L.boring && decide (c.alg = .chachaPoly)) = true := by
    simpa [UsesEvp] using hc
  constructor
  · unfold Crypter.encryptI Crypter.encrypt
    rw [if_pos h, if_pos h]
  · unfold Crypter.decryptI Crypter.decrypt
    rw [if_pos h, if_pos h]

/-- The same call on machines of the two byte orders: one encrypts, one refuses. -/
example :
    let c : Crypter := ⟨.aes128gcm, zeros 16⟩
    let call := fun o => c.encryptI o Lib.toy .none (zeros 12) [.buf [7]] [.buf [1, 2]] (.buf (zeros 18))
    (match call .little with | .ok r => r.status = .ok && r.written = 18 | _ => false) = true ∧
      call .big = .ok ⟨.internal, 0, .buf (zeros 18)⟩ := by
  decide +kernel

/-- And `Decrypt` of what was encrypted without associated data. -/
example :
    let c : Crypter := ⟨.aes128gcm, zeros 16⟩
    let call := fun o => c.decryptI o Lib.toy .none (zeros 12) []
      [.buf (Spec.aeadSeal Lib.toy .aes128gcm (zeros 16) (zeros 12) [] [1, 2])] (.buf (zeros 2))
    call .little = .ok ⟨.ok, 2, .buf [1, 2]⟩ ∧ call .big = .ok ⟨.internal, 0, .buf (zeros 2)⟩ := by
  decide +kernel

end Aead

namespace Frame

/-! ## C115: the frame protector -/

/-- On a little-endian machine a frame protector does what all other theorems say, whatever the
lengths: what it gives to the crypters is never longer than a record. -/
theorem C115_little_partial (L : Lib) (A : Allocator) (s : State) (ops : List Op) :
    runI .little L A s ops = run L A s ops := by
  rw [runI_eq]
  congr 1
  induction ops with
  | nil => rfl
  | cons op ops ih => rw [List.map_cons, ih]; rfl

/-- On a big-endian machine it does what it does on a machine whose library fails on associated
data: with all the guarantees for a failing library. -/
theorem C115_big_is_failing (L : Lib) (A : Allocator) (s : State) (ops : List Op) :
    runI .big L A s ops = run L A s (ops.map (onMachine .big)) :=
  runI_eq .big L A s ops

/-- But then it is of no use: on a big-endian machine, of a protector that was created (and so, as
far as the caller can see, works), every call of every history is refused and gives out no bytes,
unless the library is BoringSSL and the cipher suite is the one with ChaCha20-Poly1305. -/
theorem C115_big (L : Lib) (A : Allocator) (o : Options) (s : State) (hs : Created L o s)
    (hb : L.boring = true → o.crypter.ciphersuite ≠ .chacha20Poly1305Sha256) (ops : List Op)
    (s' : State) (evs : List Event) (h : runI .big L A s ops = .ok (s', evs)) :
    evs.length = ops.length ∧ ∀ e ∈ evs, Refused e := by
  refine runI_big ?_ h
  obtain ⟨_, _, _, ⟨fi, fo, h1⟩, _⟩ := created_inv hs
  obtain ⟨_, _, _, _, h2, h3, _⟩ := Record.create_inv h1
  have key : ∀ f seq secret hc, HalfConn.create L f o.args.ciphersuite seq secret = .ok (.ok hc) →
      UsesEvp L hc.aead := by
    intro f seq secret hc h
    obtain ⟨su, g1, _, _, g2⟩ := HalfConn.Created.good ⟨f, h⟩
    rintro ⟨b1, b2⟩
    have hcs := hb b1
    have hcs : o.args.ciphersuite ≠ .chacha20Poly1305Sha256 := hcs
    rw [g2.alg] at b2
    cases hc : o.args.ciphersuite <;> rw [hc] at g1 hcs <;>
      simp only [Spec.suite, Option.some.injEq, reduceCtorEq] at g1
    · subst g1; cases b2
    · subst g1; cases b2
    · exact hcs rfl
  exact ⟨key _ _ _ _ h2, key _ _ _ _ h3⟩

/-- The hypotheses can be met, and the same protector on a little-endian machine protects. -/
example : Created Lib.toy Demo.leftO Demo.leftS ∧
    (match runI .big Lib.toy Demo.alloc Demo.leftS [.protect (fun _ => .none) [.buf [104, 105]],
        .unprotect (fun _ => .none) [.buf (Demo.record 0 [104, 23])]] with
      | .ok (_, [.result r, .result q]) =>
        r.status = .internal && decide (r.bytes = []) && decide (q.status ≠ .ok)
      | _ => false) = true ∧
    (match runI .little Lib.toy Demo.alloc Demo.leftS [.protect (fun _ => .none) [.buf [104, 105]]] with
      | .ok (_, [.result r]) => decide (r.status = .ok)
      | _ => false) = true := by
  refine ⟨Demo.left_created, ?_, ?_⟩ <;> decide +kernel

end Frame

namespace Aead

/-! ## C116: `Decrypt` and long buffers -/

/-- If `Decrypt` succeeds, on a little-endian machine, it opened all the bytes of all the buffers,
whatever their lengths. -/
theorem C116_decrypt_whole_partial (L : Lib) (f : EvpFault) (c : Crypter) (nonce : Bytes)
    (aad ct : List Iovec) (hw : AllWF ct) (out : Iovec) (r : Result)
    (h : c.decryptI .little L f nonce aad ct out = .ok r) (hr : r.status = .ok) :
    ∃ p, Spec.aeadOpen L c.alg c.key nonce (flat aad) (flat ct) = some p ∧
      r.written = p.length ∧ p.length ≤ out.len ∧
      r.out = out.setBytes (p ++ out.bytes.drop p.length) := by
  unfold Crypter.decryptI at h
  split at h
  · have ho : out.WF := by
      unfold boringDecrypt at h
      split at h
      · cases h
      next ho => simpa using ho
    obtain ⟨st, w, ob', e, _, _, h3, _⟩ :=
      boringDecrypt_spec L f c.alg c.key nonce aad ct out hw ho
    rw [h] at e
    cases e
    obtain ⟨_, _, p, h4, h5, h6, h7⟩ := h3 hr
    exact ⟨p, h4, h5, h6, by rw [h7]⟩
  · obtain ⟨h1, h2⟩ := evpDecryptI_ok h hr
    exact evpDecrypt_done h2 hw h1 hr

/-- The hypotheses can be met. -/
example : (⟨.aes128gcm, zeros 16⟩ : Crypter).decryptI .little Lib.toy .none (zeros 12) [.buf [9]]
      [.buf (Spec.aeadSeal Lib.toy .aes128gcm (zeros 16) (zeros 12) [9] [1, 2])] (.buf (zeros 2)) =
    .ok ⟨.ok, 2, .buf [1, 2]⟩ := by decide +kernel

/-- A call that succeeds has no buffer of 2^31 bytes or more in the associated data: such buffers
are never cut, on machines of either byte order. -/
theorem C116_aad_partial (o : ByteOrder) (L : Lib) (f : EvpFault) (c : Crypter) (hc : UsesEvp L c)
    (nonce : Bytes) (aad data : List Iovec) (out : Iovec) (r : Result)
    (h : c.encryptI o L f nonce aad data out = .ok r) (hr : r.status = .ok) :
    ∀ v ∈ aad, v.len < 2 ^ 31 := by
  unfold Crypter.encryptI at h
  rw [if_neg (by simpa [UsesEvp] using hc)] at h
  exact (evpEncryptI_ok h hr).2.1

/-! ## C116: `Encrypt` and long buffers -/

/-- If `Encrypt` succeeds, it sealed the first bytes of each buffer, as many as its length modulo
2^32, and nothing more. -/
theorem C116_encrypt_cut (o : ByteOrder) (L : Lib) (f : EvpFault) (c : Crypter) (hc : UsesEvp L c)
    (nonce : Bytes) (aad pt : List Iovec) (ob : Bytes) (r : Result)
    (h : c.encryptI o L f nonce aad pt (.buf ob) = .ok r) (hr : r.status = .ok) :
    r.written = (flat (pt.map cut32)).length + 16 ∧
      r.out = .buf (Spec.aeadSeal L c.alg c.key nonce (flat aad) (flat (pt.map cut32)) ++
        ob.drop ((flat (pt.map cut32)).length + 16)) := by
  unfold Crypter.encryptI at h
  rw [if_neg (by simpa [UsesEvp] using hc)] at h
  obtain ⟨h1, h2, h3⟩ := evpEncryptI_ok h hr
  obtain ⟨st, w, ob', e, _, _, h4, _⟩ :=
    evpEncrypt_spec L f c.alg c.key nonce aad (pt.map cut32) ob h2 h3
  rw [h1] at e
  cases e
  obtain ⟨_, _, _, _, h5, h6⟩ := h4 hr
  exact ⟨h5, by rw [h6]⟩

/-- So it sealed all the bytes if and only if there are fewer than 2^32 in each buffer. -/
theorem C116_encrypt_whole_partial (o : ByteOrder) (L : Lib) (f : EvpFault) (c : Crypter)
    (hc : UsesEvp L c) (nonce : Bytes) (aad pt : List Iovec) (ob : Bytes) (r : Result)
    (h : c.encryptI o L f nonce aad pt (.buf ob) = .ok r) (hr : r.status = .ok) :
    r.written = (flat pt).length + 16 ↔ ∀ v ∈ pt, v.bytes.length < 2 ^ 32 := by
  rw [(C116_encrypt_cut o L f c hc nonce aad pt ob r h hr).1]
  have hle : ∀ vs : List Iovec, (flat (vs.map cut32)).length ≤ (flat vs).length ∧
      ((flat (vs.map cut32)).length = (flat vs).length ↔ ∀ v ∈ vs, v.bytes.length < 2 ^ 32) := by
    intro vs
    induction vs with
    | nil => simp
    | cons v vs ih =>
      rw [List.map_cons, flat_cons, flat_cons, List.length_append, List.length_append]
      have hv : (cut32 v).bytes.length ≤ v.bytes.length ∧
          ((cut32 v).bytes.length = v.bytes.length ↔ v.bytes.length < 2 ^ 32) := by
        cases v with
        | null n => simp [cut32, Iovec.bytes]
        | buf d =>
          simp only [cut32, Iovec.bytes, List.length_take]
          have := Nat.mod_le d.length (2 ^ 32)
          omega
      simp only [List.mem_cons, forall_eq_or_imp]
      rw [← hv.2, ← ih.2]
      omega
  rw [← (hle pt).2]
  omega

/-- And it does succeed with longer buffers: with no failure of the library and room for all the
bytes, `Encrypt` of any buffers, whose lengths modulo 2^32 are less than 2^31, on a little-endian
machine, reports success and seals only the first bytes of each. -/
theorem C116_encrypt_loses (L : Lib) (c : Crypter) (hc : UsesEvp L c) (nonce : Bytes)
    (aad pt : List Iovec) (ob : Bytes) (hn : nonce.length = 12) (ha : IntLens aad) (wa : AllWF aad)
    (wp : AllWF pt) (hl : ∀ v ∈ pt, v.len % 2 ^ 32 < 2 ^ 31) (hr : totalLen pt + 16 ≤ ob.length) :
    c.encryptI .little L .none nonce aad pt (.buf ob) =
      .ok ⟨.ok, (flat (pt.map cut32)).length + 16,
        .buf (Spec.aeadSeal L c.alg c.key nonce (flat aad) (flat (pt.map cut32)) ++
          ob.drop ((flat (pt.map cut32)).length + 16))⟩ := by
  have hi : IntLens (pt.map cut32) := by
    intro w hw
    obtain ⟨v, hv, rfl⟩ := List.mem_map.1 hw
    have := hl v hv
    have hb : intBound = 2 ^ 31 := rfl
    cases v with
    | null n => exact this
    | buf d =>
      simp only [cut32, Iovec.len, List.length_take] at this ⊢
      omega
  have hcw : AllWF (pt.map cut32) := by
    intro w hw
    obtain ⟨v, hv, rfl⟩ := List.mem_map.1 hw
    have := wp v hv
    cases v with
    | null n => simp only [Iovec.WF] at this; simp [cut32, Iovec.WF, this]
    | buf d => trivial
  have hlen : (flat (pt.map cut32)).length ≤ totalLen pt := by
    rw [wp.totalLen_eq]
    clear hi hcw hr hl wp
    induction pt with
    | nil => simp
    | cons v vs ih =>
      rw [List.map_cons, flat_cons, flat_cons, List.length_append, List.length_append]
      have hv : (cut32 v).bytes.length ≤ v.bytes.length := by
        cases v with
        | null n => simp [cut32, Iovec.bytes]
        | buf d => simp only [cut32, Iovec.bytes, List.length_take]; omega
      omega
  unfold Crypter.encryptI
  rw [if_neg (by simpa [UsesEvp] using hc), evpEncryptI_cut L _ _ _ _ _ _ ha wp (by omega) hi]
  obtain ⟨st, w, ob', e, _, _, h4, h5⟩ :=
    evpEncrypt_spec L .none c.alg c.key nonce aad (pt.map cut32) ob ha hi
  have hst := h5 rfl hn wa hcw (by omega)
  obtain ⟨_, _, _, _, h6, h7⟩ := h4 hst
  rw [e, hst, h6, h7]

/-- For instance: of 2^32 + 5 bytes it seals 5, and reports success and 21 bytes. -/
theorem C116_counterexample (L : Lib) (c : Crypter) (hc : UsesEvp L c) (d ob : Bytes)
    (hd : d.length = 2 ^ 32 + 5) (ho : ob.length = 2 ^ 32 + 21) :
    ∃ r, c.encryptI .little L .none (zeros 12) [.buf [1]] [.buf d] (.buf ob) = .ok r ∧
      r.status = .ok ∧ r.written = 21 ∧
      r.out.bytes.take 21 = Spec.aeadSeal L c.alg c.key (zeros 12) [1] (d.take 5) := by
  have hcut : flat ([.buf d].map cut32) = d.take 5 := by
    simp only [List.map_cons, List.map_nil, flat_cons, flat_nil, cut32, Iovec.bytes,
      List.append_nil, hd]
  have h5 : (d.take 5).length = 5 := by rw [List.length_take, hd]; decide
  have e := C116_encrypt_loses L c hc (zeros 12) [.buf [1]] [.buf d] ob rfl
    (by intro v hv; simp only [List.mem_singleton] at hv; subst hv; decide)
    (by intro v hv; simp only [List.mem_singleton] at hv; subst hv; trivial)
    (by intro v hv; simp only [List.mem_singleton] at hv; subst hv; trivial)
    (by
      intro v hv
      simp only [List.mem_singleton] at hv
      subst hv
      simp only [Iovec.len, hd]
      decide)
    (by simp only [totalLen_cons, totalLen_nil, Iovec.len, hd, ho]; decide)
  rw [hcut, h5] at e
  refine ⟨_, e, rfl, rfl, ?_⟩
  have hl : (Spec.aeadSeal L c.alg c.key (zeros 12) (flat [.buf [1]]) (d.take 5)).length = 21 := by
    simp only [Spec.aeadSeal, List.length_append, stream_length, L.mac_len, h5]
  simp only [Iovec.bytes]
  rw [List.take_append_of_le_length (by omega), List.take_of_length_le (by omega)]
  rfl

example : ∃ d ob : Bytes, d.length = 2 ^ 32 + 5 ∧ ob.length = 2 ^ 32 + 21 :=
  ⟨List.replicate _ 7, List.replicate _ 0, List.length_replicate, List.length_replicate⟩

example : UsesEvp Lib.toy ⟨.aes128gcm, zeros 16⟩ := by simp [UsesEvp]

/-- What `Encrypt` does is not defined only if the length of a buffer, cut to 32 bits, is a negative
`int` (or if there is no buffer for the result). -/
theorem C116_encrypt_undefined (o : ByteOrder) (L : Lib) (f : EvpFault) (c : Crypter) (nonce : Bytes)
    (aad pt : List Iovec) (ob : Bytes) (u : UB)
    (h : c.encryptI o L f nonce aad pt (.buf ob) = .error u) :
    UsesEvp L c ∧ ∃ d, .buf d ∈ aad ++ pt ∧ 2 ^ 31 ≤ d.length % 2 ^ 32 := by
  unfold Crypter.encryptI at h
  split at h
  · obtain ⟨_, _, _, e, _⟩ := boringEncrypt_spec L f c.alg c.key nonce aad pt ob
    rw [h] at e; cases e
  · next hc => exact ⟨by simpa [UsesEvp] using hc, evpEncryptI_error h⟩

/-- And then it is: for instance with 2^31 bytes of associated data. -/
theorem C116_aad_undefined (o : ByteOrder) (L : Lib) (c : Crypter) (hc : UsesEvp L c) (d ob : Bytes)
    (hd : d.length = 2 ^ 31) :
    c.encryptI o L .none (zeros 12) [.buf d] [] (.buf ob) = .error .intRange := by
  unfold Crypter.encryptI
  rw [if_neg (by simpa [UsesEvp] using hc)]
  unfold evpEncryptI setAadI
  have h2 : toInt (2 ^ 31) = none := by decide
  simp only [Iovec.len, hd, h2]
  rfl

example : ∃ d : Bytes, d.length = 2 ^ 31 := ⟨List.replicate _ 7, List.length_replicate⟩

end Aead
end S2A
