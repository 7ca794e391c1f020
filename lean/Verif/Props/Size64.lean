import Verif.Lemmas.Size64
/-
C114: what becomes of the calls if the lengths of the buffers add up to 2^64 bytes or more.
-/
set_option maxRecDepth 10000

namespace S2A
open Spec (firstBytes Fits FitsRecord)

/-- 2^24 times the same 2^40 bytes: 2^64 bytes in all.  In memory they take 2^40 bytes of address
space and 2^28 bytes for the list. -/
def Demo.wide : List Iovec := List.replicate (2 ^ 24) (.buf (List.replicate (2 ^ 40) 0))

theorem Demo.wide_total : totalLen Demo.wide = 2 ^ 64 := by
  simp only [totalLen, Demo.wide, List.map_replicate, Iovec.len, List.length_replicate,
    List.sum_replicate_nat]

/-! ## When all lengths fit -/

/-- In a history of calls on a frame protector whose lengths fit in 64 bits, the code does what it
does with sums of any size. -/
theorem Frame.C114_same_partial (L : Lib) (A : Frame.Allocator) (s : Frame.State)
    (ops : List Frame.Op) (h : ∀ op ∈ ops, Fits op) :
    Frame.run64 L A s ops = Frame.run L A s ops :=
  Frame.run64_small L A s ops h

example : ∀ op ∈ [Frame.Op.protect (fun _ => .none) [.buf [104, 105], .buf []],
    .unprotect (fun _ => .none) [.buf (Frame.Demo.record 0 [104, 23])]], Fits op := by
  intro op hop
  simp only [List.mem_cons, List.not_mem_nil, or_false] at hop
  rcases hop with rfl | rfl
  · show 2 + 0 + 22 * ((2 + 0) / 16384 + 1) < 2 ^ 64
    omega
  · show totalLen _ < 2 ^ 64
    decide +kernel

/-- The same for the record layer. -/
theorem Record.C114_same_partial (L : Lib) (c : Record.Conn) (ops : List Record.Op)
    (h : ∀ op ∈ ops, FitsRecord op) : Record.run64 L c ops = Record.run L c ops :=
  Record.run64_small L c ops h

example : ∀ op ∈ [Record.Op.protect .none .applicationData [.buf [1, 2]] (.buf (zeros 24)),
    .updateOutboundKey .none], FitsRecord op := by
  intro op hop
  simp only [List.mem_cons, List.not_mem_nil, or_false] at hop
  rcases hop with rfl | rfl
  · show 2 + 0 < 2 ^ 64
    omega
  · exact True.intro

namespace Frame

/-! ## Protect -/

/-- Whatever the lengths, `Protect` into a buffer does with the list of buffers what it does with
its first bytes, as many as the total length modulo 2^64. -/
theorem C114_protect_prefix (L : Lib) (f : Nat → EvpFault) (s : State) (vs : List Iovec)
    (hw : AllWF vs) (out : Iovec) :
    ∃ ws, flat ws = (flat vs).take (totalLen vs % 2 ^ 64) ∧
      totalLen ws = totalLen vs % 2 ^ 64 ∧
      protectInto64 L f s .caller vs out = protectInto L f s .caller ws out :=
  ⟨firstBytes (totalLen vs % 2 ^ 64) vs, firstBytes_flat _ _ hw,
    firstBytes_total _ _ (Nat.mod_le _ _), protectInto64_first L f s .caller vs out⟩

/-- So does the `Protect` that allocates, if the size of the output fits in 64 bits. -/
theorem C114_protect_prefix_allocating (L : Lib) (A : Allocator) (f : Nat → EvpFault) (s : State)
    (vs : List Iovec) (hw : AllWF vs) (n : Nat) (hn : totalLen vs % 2 ^ 64 = n)
    (h : n + 22 * (n / 16384 + 1) < 2 ^ 64) :
    ∃ ws, flat ws = (flat vs).take n ∧ totalLen ws = n ∧
      protect64 L A f s vs = protect L A f s ws :=
  ⟨firstBytes n vs, firstBytes_flat _ _ hw, firstBytes_total _ _ (hn ▸ Nat.mod_le _ _),
    protect64_small L A f s vs n hn h⟩

example : AllWF (.buf [104, 105] :: Demo.wide) ∧
    totalLen (.buf [104, 105] :: Demo.wide) % 2 ^ 64 = 2 := by
  constructor
  · intro v hv
    simp only [Demo.wide, List.mem_cons, List.mem_replicate] at hv
    rcases hv with rfl | ⟨_, rfl⟩ <;> trivial
  · rw [totalLen_cons, Demo.wide_total, show (Iovec.buf [104, 105]).len = 2 from rfl]

/-- Buffers with a multiple of 2^64 bytes behind the others are ignored by `Protect`: the call is
the one without them. -/
theorem C114_protect_ignores (L : Lib) (A : Allocator) (f : Nat → EvpFault) (s : State)
    (vs X : List Iovec) (h : totalLen vs + 22 * (totalLen vs / 16384 + 1) < 2 ^ 64)
    (hX : totalLen X % 2 ^ 64 = 0) :
    protect64 L A f s (vs ++ X) = protect L A f s vs := by
  have ht : totalLen (vs ++ X) = totalLen vs + totalLen X := by
    simp only [totalLen, List.map_append, List.sum_append]
  rw [protect64_small L A f s (vs ++ X) (totalLen vs) (by rw [ht]; omega) h, firstBytes_append,
    protect_first L A f s vs (by omega)]

example : totalLen [Iovec.buf [104, 105]] + 22 * (totalLen [Iovec.buf [104, 105]] / 16384 + 1)
    < 2 ^ 64 ∧ totalLen Demo.wide % 2 ^ 64 = 0 :=
  ⟨by decide, by rw [Demo.wide_total]⟩

/-- Against the claim: a message of 2^64 + 2 bytes is given to `Protect`, which succeeds with a
single record, and the peer gets two bytes out of it. -/
theorem C114_protect_drops_bytes :
    ∃ vs, totalLen vs = 2 ^ 64 + 2 ∧ (flat vs).length = 2 ^ 64 + 2 ∧
      ∃ s' id w, protect64 Lib.toy Demo.alloc (fun _ => .none) Demo.leftS vs
        = .ok (s', ⟨.ok, [(id, w)]⟩) ∧ w.length = 24 ∧
        Demo.status (unprotect64 Lib.toy Demo.alloc (fun _ => .none) Demo.rightS [.buf w])
          (fun r => (r.status, r.bytes.map (·.2))) = some (.ok, [[104, 105]]) := by
  refine ⟨[.buf [104, 105]] ++ S2A.Demo.wide, ?_, ?_, ?_⟩
  · rw [List.singleton_append, totalLen_cons, S2A.Demo.wide_total]
    rfl
  · rw [flat_append, List.length_append]
    rw [show flat S2A.Demo.wide = List.replicate (2 ^ 24 * 2 ^ 40) 0 by
      simp only [flat, S2A.Demo.wide, List.flatMap_replicate, Iovec.bytes, List.flatten_replicate_replicate]]
    rw [List.length_replicate]
    rfl
  · rw [C114_protect_ignores Lib.toy Demo.alloc _ Demo.leftS [.buf [104, 105]] S2A.Demo.wide
      (by decide) (by rw [S2A.Demo.wide_total])]
    have key : (match protect Lib.toy Demo.alloc (fun _ => .none) Demo.leftS [.buf [104, 105]] with
        | .ok (_, ⟨.ok, [(_, w)]⟩) => decide (w.length = 24 ∧
          Demo.status (unprotect64 Lib.toy Demo.alloc (fun _ => .none) Demo.rightS [.buf w])
            (fun r => (r.status, r.bytes.map (·.2))) = some (.ok, [[104, 105]]))
        | _ => false) = true := by decide +kernel
    split at key
    · next s' id w h => exact ⟨s', id, w, h, of_decide_eq_true key⟩
    · cases key

/-! ## Unprotect -/

/-- Whatever the lengths, `Unprotect` into a buffer says FAILED_PRECONDITION if the total length
modulo 2^64 is below 22, and else does what it does with sums of any size. -/
theorem C114_unprotect_into (L : Lib) (f : Record.Fault) (s : State) (vs : List Iovec)
    (out : Iovec) :
    unprotectInto64 L f s vs out =
      if totalLen vs % 2 ^ 64 < 22 then .ok (s, .failedPrecondition, out.len, out)
      else unprotectInto L f s vs out :=
  unprotectInto64_eq L f s vs out

/-- Buffers with a multiple of 2^64 bytes behind the others are ignored by the `Unprotect` that
allocates: if the call without them succeeds, then the call with them does the same. -/
theorem C114_unprotect_ignores (L : Lib) (A : Allocator) (f : Nat → Record.Fault) (s : State)
    (vs X : List Iovec) (s' : State) (d : List (BufId × Bytes)) (h64 : totalLen vs < 2 ^ 64)
    (hX : totalLen X % 2 ^ 64 = 0) (h : unprotect L A f s vs = .ok (s', ⟨.ok, d⟩)) :
    unprotect64 L A f s (vs ++ X) = .ok (s', ⟨.ok, d⟩) :=
  unprotect64_append L A f s vs X s' d h64 hX h

/-- All but `n` of the bytes in `wide`. -/
def Demo.wideBut (n : Nat) : List Iovec :=
  List.replicate (2 ^ 24 - 1) (.buf (List.replicate (2 ^ 40) 0)) ++
    [.buf (List.replicate (2 ^ 40 - n) 0)]

theorem Demo.wideBut_total (n : Nat) (h : n ≤ 2 ^ 40) : totalLen (Demo.wideBut n) = 2 ^ 64 - n := by
  simp only [totalLen, Demo.wideBut, List.map_append, List.map_replicate, Iovec.len,
    List.length_replicate, List.sum_append, List.sum_replicate_nat, List.map_cons, List.map_nil,
    List.sum_cons, List.sum_nil]
  omega

/-- Against the claim: of two records that the peer sent, `Unprotect` returns the first and OK and
does not touch the second, which comes right behind it: the sequence number stays in front of it.
With sums of any size the call would go on to the second record. -/
theorem C114_unprotect_ignores_records :
    ∃ X, totalLen X = 2 ^ 64 ∧ X.head? = some (.buf (Demo.record 1 [105, 23])) ∧
      Demo.status (unprotect64 Lib.toy Demo.alloc (fun _ => .none) Demo.rightS
          ([.buf (Demo.record 0 [104, 23])] ++ X))
        (fun r => (r.status, r.bytes.map (·.2))) = some (.ok, [[104]]) ∧
      Demo.status (unprotect64 Lib.toy Demo.alloc (fun _ => .none) Demo.rightS
          [.buf (Demo.record 0 [104, 23]), .buf (Demo.record 1 [105, 23])])
        (fun r => (r.status, r.bytes.map (·.2))) = some (.ok, [[104], [105]]) := by
  refine ⟨.buf (Demo.record 1 [105, 23]) :: Demo.wideBut 23, ?_, rfl, ?_, by decide +kernel⟩
  · rw [totalLen_cons, Demo.wideBut_total 23 (by omega),
      show (Iovec.buf (Demo.record 1 [105, 23])).len = 23 by decide +kernel]
  · have key : (match unprotect Lib.toy Demo.alloc (fun _ => .none) Demo.rightS
          [.buf (Demo.record 0 [104, 23])] with
        | .ok (_, ⟨.ok, d⟩) => decide (d.map (·.2) = [[104]])
        | _ => false) = true := by decide +kernel
    split at key
    · next s' d h =>
      rw [C114_unprotect_ignores _ _ _ _ _ _ s' d (by decide +kernel) ?_ h]
      · show some (StatusCode.ok, d.map (·.2)) = _
        rw [of_decide_eq_true key]
      · rw [totalLen_cons, Demo.wideBut_total 23 (by omega),
          show (Iovec.buf (Demo.record 1 [105, 23])).len = 23 by decide +kernel]
    · cases key

/-- Whatever the lengths, the frame protector does nothing undefined in `Unprotect` that it would
not do with sums of any size, and if the two differ then it returns OK or FAILED_PRECONDITION. -/
theorem C114_unprotect_defined (L : Lib) (A : Allocator) (f : Nat → Record.Fault) (s : State)
    (vs : List Iovec) :
    unprotect64 L A f s vs = unprotect L A f s vs ∨
      ∃ s' r, unprotect64 L A f s vs = .ok (s', r) ∧
        (r.status = .ok ∨ r.status = .failedPrecondition) :=
  unprotect64_or L A f s vs

end Frame

/-! ## The record layer -/

/-- Against the claim: on every connection that can still receive, with AES-GCM or (where OpenSSL
is used) ChaCha20-Poly1305, a header that announces 17 bytes and a payload of 2^64 + 17 bytes, of
which more than 17 are in the first buffer, make `Unprotect` write beyond the end of an array. -/
theorem Record.C114_unprotect_overflow (L : Lib) (c : Conn) (d o : Bytes) (vs : List Iovec)
    (hopen : c.closeNotify = false) (hu : c.inC.alwaysFail = false)
    (hover : c.inC.overflowed = false) (hn : c.inC.nonce.length = 12)
    (hevp : ¬ (L.boring = true ∧ c.inC.aead.alg = .chachaPoly)) (hd : 17 < d.length)
    (ht : totalLen (.buf d :: vs) = 2 ^ 64 + 17) (ho : 1 ≤ o.length) :
    unprotect64 L .none c (.buf [23, 3, 3, 0, 17]) (.buf d :: vs) (.buf o) = .error .outOfBounds := by
  have h22 : c.recordOverhead = 22 := recordOverhead_eq _
  have ht' : totalLen64 (.buf d :: vs) = 17 := by rw [totalLen64_eq, ht]
  have hnl : (Spec.recordNonce c.inC.nonce c.inC.seq.toNat).length = 12 := by
    simp [Spec.recordNonce, hn]
  unfold unprotect64
  rw [if_neg (by simp [hopen]), ht', h22]
  simp only
  rw [show size64 ((Iovec.buf [23, 3, 3, 0, 17]).len + 17) = 22 from rfl,
    if_neg (by omega), if_neg (by omega),
    show validateHeader (.buf [23, 3, 3, 0, 17]) 22 = true by decide]
  have e : c.inC.decrypt64 L Fault.none.evp [.buf [23, 3, 3, 0, 17]] (.buf d :: vs) (.buf o) =
      .error .outOfBounds := by
    unfold HalfConn.decrypt64
    rw [if_neg (by simp [hu, hover]), HalfConn.nonceMask_spec _ hn]
    simp only [exec_bind_ok]
    unfold Aead.Crypter.decrypt64
    rw [if_neg (by simpa using hevp),
      show Fault.none.evp = EvpFault.none from rfl,
      Aead.evpDecrypt64_overflow L _ _ _ [23, 3, 3, 0, 17] o d vs hnl rfl hd ho ht']
    rfl
  rw [e]
  rfl

example : Record.Demo.right.closeNotify = false ∧ Record.Demo.right.inC.alwaysFail = false ∧
    Record.Demo.right.inC.overflowed = false ∧ Record.Demo.right.inC.nonce.length = 12 ∧
    ¬ (Lib.toy.boring = true ∧ Record.Demo.right.inC.aead.alg = .chachaPoly) ∧
    ∃ d vs, 17 < d.length ∧ totalLen (.buf d :: vs) = 2 ^ 64 + 17 := by
  refine ⟨rfl, rfl, rfl, by decide +kernel, by decide +kernel, List.replicate 18 7,
    Frame.Demo.wideBut 1, by decide, ?_⟩
  rw [totalLen_cons, Frame.Demo.wideBut_total 1 (by omega)]
  rfl

end S2A
