import Verif.Spec.Alike
/-
Two histories of calls on a proxy that differ in access tokens, or in traffic secrets.
-/
namespace S2A.Spec
open Proto Util

/-- Two lists of the same length, with related entries. -/
inductive Pairs {α β : Type} (R : α → β → Prop) : List α → List β → Prop
  | nil : Pairs R [] []
  | cons {a b as bs} : R a b → Pairs R as bs → Pairs R (a :: as) (b :: bs)

/-- The same, but that there may be nothing on both sides. -/
inductive Maybe {α β : Type} (R : α → β → Prop) : Option α → Option β → Prop
  | none : Maybe R none none
  | some {a b} : R a b → Maybe R (some a) (some b)

/-! ### Tokens -/

/-- Two answers of the token manager: the same error, or two tokens. -/
inductive SameButToken (R : Bytes → Bytes → Prop) :
    Except StatusCode Bytes → Except StatusCode Bytes → Prop
  | token {t t'} : R t t' → SameButToken R (.ok t) (.ok t')
  | error (c) : SameButToken R (.error c) (.error c)

/-- Two entries of a map from identities to tokens. -/
structure SameEntry (R : Bytes → Bytes → Prop) (a b : Identity × Bytes) : Prop where
  identity : a.1 = b.1
  token : R a.2 b.2

/-- Two environments that are the same but for the tokens: the token manager fails in the same
questions, and the order of iteration over a map does not depend on the tokens in it. -/
structure SameButTokens (R : Bytes → Bytes → Prop) (e e' : Proxy.Env) : Prop where
  answer : ∀ n q, SameButToken R (e.answer n q) (e'.answer n q)
  orderIds : ∀ l, e.orderIds l = e'.orderIds l
  orderTokens : ∀ l l', Pairs (SameEntry R) l l' →
    Pairs (SameEntry R) (e.orderTokens l) (e'.orderTokens l')
  serializeFails : e.serializeFails = e'.serializeFails

/-- Two requests to the S2A that are the same but for the tokens (which end at a NUL, if they have
one). -/
def SameRequest (R : Bytes → Bytes → Prop) (b b' : Bytes) : Prop :=
  ∃ (kind : ReqKind) (ms ms' : List AuthMechanism),
    b = (SessionReq.mk kind ms).serialize ∧ b' = (SessionReq.mk kind ms').serialize ∧
    Pairs (fun m m' => m.identity = m'.identity ∧
      ∃ t t', R t t' ∧ m.token = some (cstr t) ∧ m'.token = some (cstr t')) ms ms'

/-! ### Secrets -/

/-- A response of the S2A without the traffic secrets. -/
def withoutKeys (r : SessionResp) : SessionResp :=
  { r with result := r.result.map fun x =>
      { x with state := x.state.map fun y => { y with inKey := [], outKey := [] } } }

/-! ### Histories -/

/-- Two calls that are the same, but for the tokens that the token manager gives in it (which are
related), and, if `keys`, the traffic secrets in a response of the S2A. -/
inductive SameCall (R : Bytes → Bytes → Prop) (keys : Prop) : Proxy.Op → Proxy.Op → Prop
  | forS2A {e e'} (bytes) : SameButTokens R e e' → SameCall R keys (.forS2A e bytes) (.forS2A e' bytes)
  | forPeer {dec dec' b b'} : (b.getD [] = [] ↔ b'.getD [] = []) →
      (Proxy.response dec b).map withoutKeys = (Proxy.response dec' b').map withoutKeys →
      (¬ keys → Proxy.response dec b = Proxy.response dec' b') →
      SameCall R keys (.forPeer dec b) (.forPeer dec' b')
  | isFinished : SameCall R keys .isFinished .isFinished
  | createFrameProtector (fIn fOut) :
      SameCall R keys (.createFrameProtector fIn fOut) (.createFrameProtector fIn fOut)
  | getContext : SameCall R keys .getContext .getContext

/-- What is seen of two calls: the results, the questions to the token manager, and the texts.  All
is the same, but for the tokens (and the secrets) that went in, the tokens in a request to the S2A,
and, if `keys`, the frame protector and the reason why none was made. -/
inductive SameSeen (R : Bytes → Bytes → Prop) (keys : Prop) :
    Proxy.Event × Said → Proxy.Event × Said → Prop
  | forS2A {bytes code consumed b b' q q' said} : Maybe (SameRequest R) b b' →
      Pairs (fun a a' => a.1 = a'.1 ∧ SameButToken R a.2 a'.2) q q' →
      SameSeen R keys (.forS2A bytes ⟨code, consumed, b⟩ q, said) (.forS2A bytes ⟨code, consumed, b'⟩ q', said)
  | forPeer {r r' st said} : r.map withoutKeys = r'.map withoutKeys → (¬ keys → r = r') →
      SameSeen R keys (.forPeer r st, said) (.forPeer r' st, said)
  | isFinished (b said) : SameSeen R keys (.isFinished b, said) (.isFinished b, said)
  | createFrameProtector {p p' said said'} : (¬ keys → p = p' ∧ said = said') →
      SameSeen R keys (.createFrameProtector p, said) (.createFrameProtector p', said')
  | getContext (c said) : SameSeen R keys (.getContext c, said) (.getContext c, said)

/-- Two calls that are the same, but for the traffic secrets in a response of the S2A. -/
inductive OtherSecrets : Proxy.Op → Proxy.Op → Prop
  | same (op) : OtherSecrets op op
  | forPeer {dec dec' b b'} : (b.getD [] = [] ↔ b'.getD [] = []) →
      (Proxy.response dec b).map withoutKeys = (Proxy.response dec' b').map withoutKeys →
      OtherSecrets (.forPeer dec b) (.forPeer dec' b')

/-- What is seen of two calls is the same, but for the secrets in the response that went in, and
for the frame protector, if that is what was asked for. -/
inductive SameButProtector : Proxy.Event × Said → Proxy.Event × Said → Prop
  | same (x) : SameButProtector x x
  | forPeer {r r' st said} : r.map withoutKeys = r'.map withoutKeys →
      SameButProtector (.forPeer r st, said) (.forPeer r' st, said)
  | createFrameProtector (p p' said said') :
      SameButProtector (.createFrameProtector p, said) (.createFrameProtector p', said')

end S2A.Spec
