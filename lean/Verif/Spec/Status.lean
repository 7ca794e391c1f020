import Verif.Spec.Proxy
/-
Why a call may be refused.
-/
namespace S2A.Spec
open Proto

/-- Arguments with which a frame protector can be made. -/
structure GoodArguments (o : Frame.Options) : Prop where
  allocator : o.hasAllocator = true
  destroy : o.hasDestroy = true
  logger : o.crypter.hasLogger = true
  address : o.crypter.url ≠ []
  version : o.crypter.tlsVersion = .tls1_3
  secrets : ∃ su, suite o.crypter.ciphersuite = some su ∧
    o.crypter.inSecret.length = su.hash.digestSize ∧
    o.crypter.outSecret.length = su.hash.digestSize

/-- One of the calls made to derive one block of key material fails. -/
def HmacFails (f : HkdfFault) : Prop := f.ctxNew = true ∨ f.init = true ∨ f.step 0 = true

/-- One of the calls of the cryptographic library made for the keys of one direction fails. -/
def LibraryFails (f : KeyFault) : Prop :=
  HmacFails f.key ∨ HmacFails f.nonce ∨ f.create = true

/-- There is nothing that could be sent to the S2A: after the first request, if there are no
bytes from the peer; before it, if a client was given bytes, or if the configuration has no
wire form. -/
def NothingToSend (isClient : Bool) (opts : TlsOptions) (evs : List Proxy.Event)
    (bytes : Bytes) : Prop :=
  (requests evs ≠ [] ∧ bytes = []) ∨
  (requests evs = [] ∧ isClient = true ∧ (bytes ≠ [] ∨ ¬ ValidClient opts)) ∨
  (requests evs = [] ∧ isClient = false ∧ ¬ ValidCommon opts)

end S2A.Spec
