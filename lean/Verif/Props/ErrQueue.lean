import Verif.Lemmas.ErrQueueFrame
import Verif.Lemmas.Reach
import Verif.Props.Proxy
import Verif.Props.Frame
/-
C113: errors of the cryptographic library stay with the call that has caused them.  A failing call
quotes the errors that the library has reported for it and no others, and a call leaves the error
queue of the thread as it has found it.  Both are so for a thread whose queue is empty, if no HMAC
fails; neither is so in general.
-/
namespace S2A
open Spec (Quotes AnyHmacFails DerivationFails Kept Drained KeptKeys DrainedKeys keyFault callStatus)

/-! ## The frame protector -/

namespace Frame

/-- Any state of a frame protector, any history of calls in a thread that begins with an empty
queue and leaves none of its own errors there, any results of the library, any errors `es i` that
it reports for the `i`-th record of a call: if no HMAC fails at a key update, then the queue is
empty at the end, and the calls do and say what they do and say if the queue consists of their own
errors.  Missing: queues that are not empty at the start of a call, and HMACs that fail. -/
theorem C113_own_errors_partial (L : Lib) (A : Allocator) (s : State)
    (ops : List (Op × (Nat → ErrQueue) × (ErrQueue → ErrQueue)))
    (hleft : ∀ op es left, (op, es, left) ∈ ops → left [] = [])
    (hkey : ∀ op es left, (op, es, left) ∈ ops → ∀ i, ¬ DerivationFails (keyFault op i)) :
    runQ L A s [] ops =
      (runT L A s (ops.map fun x => (x.1, fun i => String.join (x.2.1 i)))).map (·, []) := by
  induction ops generalizing s with
  | nil => rfl
  | cons x ops ih =>
    obtain ⟨op, es, left⟩ := x
    have hl : left [] = [] := hleft op es left (by simp)
    obtain ⟨r, e, h⟩ := stepQ_ends L A es [] s op
    have ht : texts [] es = fun i => String.join (es i) := by funext i; simp [texts]
    rw [ht] at e h
    simp only [withQ] at e h
    simp only [runQ, List.map_cons, runT]
    rw [hl, e]
    cases hx : stepT L A (fun i => String.join (es i)) s op with
    | error u => rfl
    | ok y =>
      obtain ⟨⟨s', ev⟩, said⟩ := y
      have hr : r = [] := by
        rcases h _ hx with ⟨_, i, hk⟩ | ⟨i, hd⟩
        · cases hk with
          | same => rfl
          | derivation _ hf => exact absurd hf (hkey op es left (by simp) i)
          | cipher => rfl
        · exact hd.2.1
      subst hr
      show (runQ L A s' [] ops >>= fun z => pure ((z.1.1, (ev, said) :: z.1.2), z.2)) = _
      rw [ih s' (fun op es left h => hleft op es left (by simp [h]))
        (fun op es left h => hkey op es left (by simp [h]))]
      show _ = Except.map (·, []) (runT L A s' _ >>= fun z => pure (z.1, (ev, said) :: z.2))
      cases runT L A s' (ops.map fun x => (x.1, fun i => String.join (x.2.1 i))) <;> rfl

/-- Any state, any call, any queue `q` that it finds, any errors of the library: the call does and
says what it does if the queue has the text of `q` followed by the errors of the library.  Either
the message has nothing to do with the queue; then the queue is as before, or a key update has
failed, and the errors stay in the queue (HMAC) or are thrown away together with what was there
before (cipher).  Or the call has failed, the message ends with all errors, the older ones
included, and the queue is empty. -/
theorem C113_queue_partial (L : Lib) (A : Allocator) (es : Nat → ErrQueue) (q q' : ErrQueue)
    (s s' : State) (op : Op) (e : Event) (said : Said)
    (h : stepQ L A es q s op = .ok (((s', e), said), q')) :
    stepT L A (fun i => String.join (q ++ es i)) s op = .ok ((s', e), said) ∧
    ((∀ errs, stepT L A errs s op = .ok ((s', e), said)) ∧
        (∃ i, Kept (callStatus e ≠ .ok) said.message (keyFault op i) (es i) q q') ∨
      ∃ i, Drained (callStatus e ≠ .ok) said.message (es i) q q') := by
  obtain ⟨r, e1, h1⟩ := stepQ_ends L A es q s op
  rw [h] at e1
  simp only [withQ] at e1 h1
  generalize hx : stepT L A (fun i => String.join (q ++ es i)) s op = x at e1 h1 ⊢
  cases x with
  | error u => cases e1
  | ok y => cases e1; exact ⟨rfl, h1 _ rfl⟩

/-- The outcomes that are left: a call has undefined behaviour with a queue if and only if it has
it without. -/
theorem C113_undefined_alike (L : Lib) (A : Allocator) (es : Nat → ErrQueue) (q : ErrQueue)
    (s : State) (op : Op) (u : UB) :
    stepQ L A es q s op = .error u ↔
      stepT L A (fun i => String.join (q ++ es i)) s op = .error u := by
  obtain ⟨r, e1, -⟩ := stepQ_ends L A es q s op
  rw [e1]
  simp only [withQ]
  cases stepT L A (fun i => String.join (q ++ es i)) s op with
  | error v => exact ⟨fun h => by cases h; rfl, fun h => by cases h; rfl⟩
  | ok y => exact ⟨nofun, nofun⟩

/-- Any state, any queue, any call that succeeds: the queue is as before, and nothing that the call
does or says depends on it. -/
theorem C113_success_keeps_queue (L : Lib) (A : Allocator) (es : Nat → ErrQueue) (q q' : ErrQueue)
    (s s' : State) (op : Op) (e : Event) (said : Said)
    (h : stepQ L A es q s op = .ok (((s', e), said), q')) (hok : callStatus e = .ok) :
    q' = q ∧ ∀ errs, stepT L A errs s op = .ok ((s', e), said) := by
  obtain ⟨-, ⟨ht, i, hk⟩ | ⟨i, hd⟩⟩ := C113_queue_partial L A es q q' s s' op e said h
  · exact ⟨hk.ok (fun hn => hn hok), ht⟩
  · exact absurd hok hd.1

end Frame

/-! ## Key updates -/

namespace Record

/-- Any connection with any history, any record that makes it update its keys: if the update fails,
then either an HMAC has failed, and its errors are in the queue afterwards, or the new cipher could
not be made, and the queue is empty. -/
theorem C113_failed_update (L : Lib) (a : CreateArgs) (c c' : Conn) (evs : List Event)
    (hc : Reach L a c evs) (f : Fault) (es q q' : ErrQueue) (header : Iovec)
    (payload : List Iovec) (out : Iovec) (r : Result) (said : Said) (st : StatusCode)
    (h : unprotectQ L f es q c header payload out = .ok (((c', r), said), q'))
    (hst : r.rekey = some st) (hfail : st ≠ .ok) :
    DerivationFails f.key ∧ q' = q ++ es ∨ f.key.create = true ∧ q' = [] := by
  obtain ⟨s, hs⟩ := hc.suite
  obtain ⟨r', e, h1⟩ := unprotectQ_ends L f es q c header payload out
  rw [h] at e
  simp only [withQ] at e h1
  generalize hx : unprotectT L f (String.join (q ++ es)) c header payload out = x at e h1
  cases x with
  | error u => cases e
  | ok y =>
    cases e
    rcases h1 _ rfl with ⟨_, h2⟩ | ⟨_, h2⟩
    · exact h2.2 ⟨s, (hc.good hs).1⟩ st hst hfail
    · rw [hst] at h2
      cases h2

end Record

/-! ## AEAD operations -/

namespace Aead

/-- Any cipher, any arguments of `Encrypt`, any queue: either the queue is as before and nothing
depends on it; or a call of the library has failed, the message ends with the older errors and its
own, and the queue is empty; or the buffer is too short, which is no error of the library: the
message ends with the older errors, and the queue is empty too. -/
theorem C113_encrypt (L : Lib) (f : EvpFault) (es q q' : ErrQueue) (c : Crypter) (nonce : Bytes)
    (aad plaintext : List Iovec) (out : Iovec) (r : Result) (m : String)
    (h : c.encryptQ L f es q nonce aad plaintext out = .ok ((r, m), q')) :
    (q' = q ∧ ∀ t, c.encryptT L f t nonce aad plaintext out = .ok (r, m)) ∨
    (q' = [] ∧ Quotes m (q ++ es) ∧ r.status = .internal ∧
      c.encryptT L f (String.join (q ++ es)) nonce aad plaintext out = .ok (r, m)) ∨
    (q' = [] ∧ Quotes m q ∧ r.status = .invalidArgument ∧ out.len < totalLen plaintext ∧
      c.encryptT L f (String.join q) nonce aad plaintext out = .ok (r, m)) := by
  rcases encryptQ_follows L f es q c nonce aad plaintext out with ⟨q1, h1, h2⟩ | ⟨t, a, h1, h2, h3⟩
  · refine .inl ⟨?_, fun t => ?_⟩
    · have := h1 ""
      rw [h] at this
      simp only at this
      cases hx : c.encryptT L f "" nonce aad plaintext out with
      | error u => rw [hx] at this; cases this
      | ok y => rw [hx] at this; cases this; exact (h2 _ h).1
    · have := h1 t
      rw [h] at this
      simp only at this
      cases hx : c.encryptT L f t nonce aad plaintext out with
      | error u => rw [hx] at this; cases this
      | ok y => rw [hx] at this; cases this; rfl
  · rw [h] at h1
    cases h1
    rcases h3 with ⟨rfl, h4, h5⟩ | ⟨rfl, h4, h5, h6⟩
    · exact .inr (.inl ⟨rfl, h5, h4, h2⟩)
    · exact .inr (.inr ⟨rfl, h6, h5, h4, h2⟩)

/-- Any cipher, any arguments of `Decrypt`, any queue: either the queue is as before and nothing
depends on it; or a call of the library has failed, the message ends with the older errors and its
own, and the queue is empty. -/
theorem C113_decrypt (L : Lib) (f : EvpFault) (es q q' : ErrQueue) (c : Crypter) (nonce : Bytes)
    (aad ct : List Iovec) (out : Iovec) (r : Result) (m : String)
    (h : c.decryptQ L f es q nonce aad ct out = .ok ((r, m), q')) :
    (q' = q ∧ ∀ t, c.decryptT L f t nonce aad ct out = .ok (r, m)) ∨
    (q' = [] ∧ Quotes m (q ++ es) ∧ r.status = .internal ∧
      c.decryptT L f (String.join (q ++ es)) nonce aad ct out = .ok (r, m)) := by
  rcases decryptQ_follows L f es q c nonce aad ct out with ⟨q1, h1, h2⟩ | ⟨t, a, h1, h2, h3⟩
  · refine .inl ⟨?_, fun t => ?_⟩
    · have := h1 ""
      rw [h] at this
      simp only at this
      cases hx : c.decryptT L f "" nonce aad ct out with
      | error u => rw [hx] at this; cases this
      | ok y => rw [hx] at this; cases this; exact (h2 _ h).1
    · have := h1 t
      rw [h] at this
      simp only at this
      cases hx : c.decryptT L f t nonce aad ct out with
      | error u => rw [hx] at this; cases this
      | ok y => rw [hx] at this; cases this; rfl
  · rw [h] at h1
    cases h1
    rcases h3 with ⟨rfl, h4, h5⟩ | ⟨_, h4, _⟩
    · exact .inr ⟨rfl, h5, h4, h2⟩
    · exact h4.elim

end Aead

/-! ## New connections -/

namespace Proxy

/-- Any state of a proxy, any queue, any result of the library for the keys of the two directions:
`CreateFrameProtector` leaves the queue as it was, unless the library has failed (which it reports
as an internal error).  If an HMAC has failed, the errors stay in the queue and are not in the
message.  If the cipher could not be made, the message ends with the older errors and its own, and
the queue is empty. -/
theorem C113_create_partial (L : Lib) (fIn fOut : KeyFault) (lateIn lateOut : Bool)
    (esIn esOut q q' : ErrQueue) (s s' : State) (x : Except StatusCode Frame.State) (said : Said)
    (h : createFrameProtectorQ L fIn fOut lateIn lateOut esIn esOut q s =
      .ok (((s', x), said), q')) :
    createFrameProtectorT L fIn fOut ⟨String.join (q ++ esIn), lateIn⟩
        ⟨String.join (q ++ esOut), lateOut⟩ s = .ok ((s', x), said) ∧
    ((∀ tIn tOut, createFrameProtectorT L fIn fOut ⟨tIn, lateIn⟩ ⟨tOut, lateOut⟩ s =
          .ok ((s', x), said)) ∧
        (KeptKeys fIn esIn q q' (x.mapError (·, said.message)) ∨
          KeptKeys fOut esOut q q' (x.mapError (·, said.message))) ∨
      DrainedKeys fIn esIn q q' (x.mapError (·, said.message)) ∨
      DrainedKeys fOut esOut q q' (x.mapError (·, said.message))) := by
  obtain ⟨r, e, h1⟩ := createFrameProtectorQ_ends L fIn fOut lateIn lateOut esIn esOut q s
  rw [h] at e
  simp only [withQ] at e h1
  generalize hx : createFrameProtectorT L fIn fOut ⟨String.join (q ++ esIn), lateIn⟩
    ⟨String.join (q ++ esOut), lateOut⟩ s = y at e h1 ⊢
  cases y with
  | error u => cases e
  | ok y =>
    cases e
    have hr : asResult ((s', x), said) = x.mapError (·, said.message) := by cases x <;> rfl
    refine ⟨rfl, ?_⟩
    rcases h1 _ rfl with ⟨ht, hk⟩ | hd
    · rw [hr] at hk
      exact .inl ⟨fun tIn tOut => ht (tIn, tOut), hk⟩
    · rw [hr] at hd
      exact .inr hd

end Proxy

/-! ## Witnesses, and where the claim is false -/

namespace QueueDemo
open Frame Frame.Demo

/-- What is said, and the queue that is left. -/
def ends {α : Type} (x : Exec ((α × Said) × ErrQueue)) : Option (String × ErrQueue) :=
  match x with
  | .ok ((_, said), q) => some (said.message, q)
  | .error _ => none

/-- What is said in a history, and the queue that is left. -/
def said (x : Exec ((State × List (Event × Said)) × ErrQueue)) : Option (List String × ErrQueue) :=
  match x with
  | .ok ((_, es), q) => some (es.map (·.2.message), q)
  | .error _ => none

/-- A record that nobody has sealed. -/
def forged : Op := .unprotect (fun _ => .none) [.buf ([23, 3, 3, 0, 17] ++ zeros 17)]

/-- A call that fails while it encrypts. -/
def badSeal : Op := .protect (fun _ => { EvpFault.none with final := true }) [.buf [1, 2]]

/-- A key update for which the first HMAC fails. -/
def badUpdate : Op := .unprotect
  (fun _ => { (.none : Record.Fault) with
    key := { KeyFault.none with advance := { HkdfFault.none with ctxNew := true } } })
  [.buf (record 0 [24, 0, 0, 1, 0, 22])]

/-- A key update for which the new cipher cannot be made. -/
def badCipher : Op := .unprotect
  (fun _ => { (.none : Record.Fault) with key := { KeyFault.none with create := true } })
  [.buf (record 0 [24, 0, 0, 1, 0, 22])]

end QueueDemo
open QueueDemo

/-- Two failing calls in a thread with an empty queue: each quotes its own errors. -/
example : said (Frame.runQ Lib.toy Frame.Demo.alloc Frame.Demo.rightS []
    [(forged, fun _ => ["bad tag;", "open;"], id), (badSeal, fun _ => ["final;"], id)]) =
    some (["Failed to unprotect bytes from peer: Decryption failed: Checking tag failed: bad tag;open;",
      "Finalizing encryption failed. final;"], []) ∧
    (∀ i, ¬ DerivationFails (keyFault forged i)) ∧ ∀ i, ¬ DerivationFails (keyFault badSeal i) := by
  refine ⟨by decide +kernel, fun i => ?_, fun i => ?_⟩ <;>
    rintro ((h | h | ⟨j, h⟩) | (h | h | ⟨j, h⟩) | (h | h | ⟨j, h⟩)) <;> cases h

/-- A successful call leaves the errors of the application alone. -/
example : ends (Frame.stepQ Lib.toy Frame.Demo.alloc (fun _ => ["new;"]) ["old;"] Frame.Demo.rightS
    (.unprotect (fun _ => .none) [.buf (Frame.Demo.record 0 [1, 2, 23])])) = some ("", ["old;"]) := by
  decide +kernel

/-- Negation of C113: errors that the application has left in the queue are quoted as reasons why a
record was refused, and they are gone afterwards. -/
theorem C113_foreign_errors_quoted :
    ends (Frame.stepQ Lib.toy Frame.Demo.alloc (fun _ => ["new;"]) ["old;"] Frame.Demo.rightS
      forged) =
    some ("Failed to unprotect bytes from peer: Decryption failed: Checking tag failed: old;new;",
      []) := by decide +kernel

/-- Negation of C113: a key update that fails for an HMAC leaves its errors in the queue, and its
message has none of them; a later call quotes them as its own. -/
theorem C113_update_errors_misplaced :
    said (Frame.runQ Lib.toy Frame.Demo.alloc Frame.Demo.rightS []
      [(badUpdate, fun _ => ["no memory;"], id), (badSeal, fun _ => ["final;"], id)]) =
    some (["Failed to unprotect bytes from peer: " ++
        "Failed to process handshake message result: Key update failed.",
      "Finalizing encryption failed. no memory;final;"], []) ∧
    ends (Frame.stepQ Lib.toy Frame.Demo.alloc (fun _ => ["no memory;"]) [] Frame.Demo.rightS
      badUpdate) =
    some ("Failed to unprotect bytes from peer: " ++
      "Failed to process handshake message result: Key update failed.", ["no memory;"]) := by
  decide +kernel

/-- Negation of C113: a key update that fails for its cipher throws away its errors and those that
the application has left. -/
theorem C113_update_errors_lost :
    ends (Frame.stepQ Lib.toy Frame.Demo.alloc (fun _ => ["no cipher;"]) ["old;"]
      Frame.Demo.rightS badCipher) =
    some ("Failed to unprotect bytes from peer: " ++
      "Failed to process handshake message result: Key update failed.", []) := by
  decide +kernel

/-- Negation of C113: with a buffer that is too short `Encrypt` quotes errors that have nothing to
do with it, and removes them. -/
theorem C113_short_buffer_quotes :
    (⟨.aes128gcm, List.replicate 16 1⟩ : Aead.Crypter).encryptQ Lib.toy .none [] ["old;"]
      (List.replicate 12 2) [] [.buf [1, 2, 3]] (.buf [9, 9]) =
    .ok ((⟨.invalidArgument, 0, .buf [9, 9]⟩,
      "|ciphertext_and_tag| is not large enough to hold the result of encrypting |plaintext|. " ++
        "old;"), []) := by decide +kernel

/-- Negation of C113: a connection that cannot be made for an HMAC leaves the errors in the queue,
and the message has none of them. -/
theorem C113_create_errors_left :
    ends (Proxy.createFrameProtectorQ Lib.toy
      { KeyFault.none with key := { HkdfFault.none with init := true } } .none false false
      ["no memory;"] [] ["old;"]
      (Proxy.Demo.hist Proxy.Demo.client [.forS2A Proxy.Demo.env none,
        Proxy.Demo.says Proxy.Demo.done]).1) =
    some ("Initializing HMAC failed.", ["old;", "no memory;"]) := by decide +kernel

/-- A connection whose cipher cannot be made. -/
example : ends (Proxy.createFrameProtectorQ Lib.toy .none { KeyFault.none with create := true }
      false false ["in;"] ["out;"] ["old;"]
      (Proxy.Demo.hist Proxy.Demo.client [.forS2A Proxy.Demo.env none,
        Proxy.Demo.says Proxy.Demo.done]).1) =
    some ("Initialization of |EVP_AEAD_CTX| failed: old;out;", []) := by decide +kernel

/-- The hypotheses of `C113_failed_update` are met. -/
example : Record.Reach Lib.toy Record.Demo.rightArgs Record.Demo.right [] ∧
    (match Record.unprotectQ Lib.toy ⟨.none, { KeyFault.none with create := true }⟩ ["no;"]
        ["old;"] Record.Demo.right (.buf ((Frame.Demo.record 0 [24, 0, 0, 1, 0, 22]).take 5))
        [.buf ((Frame.Demo.record 0 [24, 0, 0, 1, 0, 22]).drop 5)] (.buf (zeros 22)) with
      | .ok (((_, r), _), q') => some (r.rekey, q')
      | .error _ => none) = some (some .internal, []) :=
  ⟨⟨_, [], Record.Demo.right_created, rfl⟩, by decide +kernel⟩

/-- The first two ends of `C113_encrypt`: nothing fails; the last call of the library fails. -/
example :
    (match (⟨.aes128gcm, List.replicate 16 1⟩ : Aead.Crypter).encryptQ Lib.toy .none ["new;"]
        ["old;"] (List.replicate 12 2) [] [.buf [1, 2, 3]] (.buf (List.replicate 19 9)) with
      | .ok ((r, m), q') => some (r.status, r.written, m, q')
      | .error _ => none) = some (.ok, 19, "", ["old;"]) ∧
    (match (⟨.aes128gcm, List.replicate 16 1⟩ : Aead.Crypter).encryptQ Lib.toy
        { EvpFault.none with final := true } ["new;"] ["old;"] (List.replicate 12 2) []
        [.buf [1, 2, 3]] (.buf (List.replicate 19 9)) with
      | .ok ((r, m), q') => some (r.status, r.written, m, q')
      | .error _ => none) =
        some (.internal, 0, "Finalizing encryption failed. old;new;", []) ∧
    (match (⟨.aes128gcm, List.replicate 16 1⟩ : Aead.Crypter).decryptQ Lib.toy .none ["new;"]
        ["old;"] (List.replicate 12 2) [] [.buf (zeros 19)] (.buf (List.replicate 3 9)) with
      | .ok ((r, m), q') => some (r.status, r.written, m, q')
      | .error _ => none) = some (.internal, 0, "Checking tag failed: old;new;", []) := by
  decide +kernel

end S2A
