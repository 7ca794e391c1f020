import Verif.Lemmas.Secrets
import Verif.Props.Proxy
import Verif.Props.Text
/-
C95: access tokens go only into requests to the S2A.
C96: traffic secrets go only into frame protectors.
-/
set_option maxRecDepth 100000
namespace S2A.Proxy
open S2A.Proto S2A.Util
open Spec (Pairs Maybe SameButTokens SameCall SameSeen OtherSecrets SameButProtector withoutKeys Both)

/-- **C95.**  Two histories of calls on the same proxy that differ only in the tokens that the token
manager gives (the one is `R`-related to the other, for any relation: "any two tokens", "one is the
other spelt backwards", …) go the same way: they have the same undefined behaviour, or in each call
the same statuses, messages, log lines, frames for the peer, contexts and frame protectors come
out, and the same questions are put to the token manager.  Only the requests to the S2A differ, and
those only in the tokens, which are related in turn. -/
theorem C95_tokens_only_to_the_S2A (L : Lib) (R : Bytes → Bytes → Prop) (o : Options) (s : State)
    (h : create o = some s) (ops ops' : List (Op × Texts))
    (ho : Pairs (fun a b => SameCall R False a.1 b.1 ∧ a.2 = b.2) ops ops') :
    Both (fun x y => Pairs (SameSeen R False) x.2 y.2) (runT L s ops) (runT L s ops') := by
  have h1 := runT_alike L ho (Alike.created h)
  generalize runT L s ops = x at h1
  generalize runT L s ops' = y at h1
  cases x <;> cases y
  · exact h1
  · exact h1.elim
  · exact h1.elim
  · exact h1.2

/-- **C96.**  Two histories of calls on the same proxy that differ only in the traffic secrets that
the S2A sends go the same way: they have the same undefined behaviour, or in each call the same
statuses, messages, log lines, requests, frames for the peer and contexts come out.  Only the frame
protectors (and the reason why one cannot be made) depend on the secrets. -/
theorem C96_secrets_only_into_protectors (L : Lib) (o : Options) (s : State)
    (h : create o = some s) (ops ops' : List (Op × Texts))
    (ho : Pairs (fun a b => OtherSecrets a.1 b.1 ∧ a.2 = b.2) ops ops') :
    Both (fun x y => Pairs SameButProtector x.2 y.2) (runT L s ops) (runT L s ops') := by
  have h1 := runT_alike L (R := Eq) (keys := True)
    (Pairs.imp ho fun _ _ h => ⟨OtherSecrets.call h.1, h.2⟩) (Alike.created h)
  generalize runT L s ops = x at h1
  generalize runT L s ops' = y at h1
  cases x <;> cases y
  · exact h1
  · exact h1.elim
  · exact h1.elim
  · exact Pairs.imp h1.2 fun _ _ h => SameSeen.secret h

namespace Demo
open S2A.Demo (texts libText)

/-- The token of an identity is its name and `t`. -/
def envWith (t : Bytes) : Env :=
  { env with answer := fun _ q => if (q.getD .empty).type = .uid then .error .notFound
      else .ok ((q.getD .empty).value ++ t) }

def calm : Texts := ⟨texts, libText, libText⟩

/-- A handshake of a server with the tokens ending in `t` and the inbound secret `k`. -/
def story (t k : Bytes) : List (Op × Texts) :=
  [(.forS2A (envWith t) (some [1]), calm), (says announce, calm), (.forS2A (envWith t) (some [2]), calm),
   (says { done with result := some { result with state := some { state with inKey := k } } }, calm),
   (.isFinished, calm), (.createFrameProtector .none .none, calm), (.getContext, calm)]

end Demo
open Demo

/-- Witness for `C95_tokens_only_to_the_S2A`. -/
example (k : Bytes) : create server = some (made server) ∧
    Pairs (fun a b => SameCall (fun _ _ => True) False a.1 b.1 ∧ a.2 = b.2) (story [7] k) (story [8, 9] k) := by
  have he : SameButTokens (fun _ _ => True) (envWith [7]) (envWith [8, 9]) := by
    refine ⟨?_, fun _ => rfl, fun _ _ h => h, rfl⟩
    intro n q
    show Spec.SameButToken _ (if _ then _ else _) (if _ then _ else _)
    by_cases h : (q.getD Identity.empty).type = .uid
    · rw [if_pos h, if_pos h]; exact .error _
    · rw [if_neg h, if_neg h]; exact .token trivial
  exact ⟨rfl, .cons ⟨.forS2A _ he, rfl⟩ (.cons ⟨.forPeer Iff.rfl rfl (fun _ => rfl), rfl⟩
    (.cons ⟨.forS2A _ he, rfl⟩ (.cons ⟨.forPeer Iff.rfl rfl (fun _ => rfl), rfl⟩ (.cons ⟨.isFinished, rfl⟩
    (.cons ⟨.createFrameProtector _ _, rfl⟩ (.cons ⟨.getContext, rfl⟩ .nil))))))⟩

/-- Witness for `C96_secrets_only_into_protectors`. -/
example (t : Bytes) : create server = some (made server) ∧
    Pairs (fun a b => OtherSecrets a.1 b.1 ∧ a.2 = b.2) (story t (List.replicate 32 1))
      (story t (List.replicate 32 3)) :=
  ⟨rfl, .cons ⟨.same _, rfl⟩ (.cons ⟨.same _, rfl⟩ (.cons ⟨.same _, rfl⟩
    (.cons ⟨.forPeer Iff.rfl rfl, rfl⟩ (.cons ⟨.same _, rfl⟩ (.cons ⟨.same _, rfl⟩ (.cons ⟨.same _, rfl⟩ .nil))))))⟩

/-- What these histories come to: all calls succeed, the tokens differ, and so do the frame
protectors with the secrets. -/
def shows (t k : Bytes) : Option (List StatusCode × List Bytes × List (Option Bytes) × List (List String)) :=
  match runT Lib.toy (made server) (story t k) with
  | .ok (_, es) => some (es.map (fun e => match e.1 with
      | .forS2A _ st _ => st.code
      | .forPeer _ st => st.code
      | .isFinished _ => .ok
      | .createFrameProtector (.ok _) => .ok
      | .createFrameProtector (.error c) => c
      | .getContext (.ok _) => .ok
      | .getContext (.error c) => c),
    es.flatMap (fun e => match e.1 with
      | .forS2A _ _ q => q.filterMap fun a => match a.2 with | .ok t => some t | _ => none
      | _ => []),
    es.filterMap (fun e => match e.1 with
      | .createFrameProtector (.ok p) => some (some p.conn.inC.secret)
      | _ => none),
    es.map (·.2.log))
  | .error _ => none

example : ((shows [7] (List.replicate 32 1)).map (·.1)) = some (List.replicate 7 .ok) ∧
    (shows [7] (List.replicate 32 1)).map (·.2.1) ≠ (shows [8, 9] (List.replicate 32 1)).map (·.2.1) ∧
    (shows [7] (List.replicate 32 1)).map (·.2.2) = (shows [8, 9] (List.replicate 32 1)).map (·.2.2) ∧
    (shows [7] (List.replicate 32 1)).map (·.2.2.1) ≠ (shows [7] (List.replicate 32 3)).map (·.2.2.1) ∧
    (shows [7] (List.replicate 32 1)).map (·.2.2.2) =
      some [["Unable to retrieve access token: reason 1"], [], ["Unable to retrieve access token: reason 0", "Unable to retrieve access token: reason 1"], [], [], [], []] := by
  decide +kernel

end S2A.Proxy
