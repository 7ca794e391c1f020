import Verif.Model.TlsOptions
/-
src/token_manager/single_token_access_token_manager.cc.  The token manager for tests
(fake_access_token_manager.cc), which always answers with the same constant, is not modelled.
-/
namespace S2A.TokenManager

/-- `SingleTokenAccessTokenManager` (single_token_access_token_manager.h:37-67). -/
structure Single where
  token : Except StatusCode Bytes
  deriving DecidableEq

/-- The constructor (single_token_access_token_manager.cc:30-39), with the value of the
environment variable `S2A_ACCESS_TOKEN`.  `BuildAccessTokenManager` (lines 54-57) does nothing
else. -/
def Single.create (env : Option Bytes) : Single :=
  match env with
  | none => ⟨.error .notFound⟩
  | some t => ⟨.ok t⟩

/-- `GetDefaultToken` (single_token_access_token_manager.cc:41-43). -/
def Single.getDefaultToken (m : Single) : Except StatusCode Bytes := m.token

/-- `GetToken` (single_token_access_token_manager.cc:45-48). -/
def Single.getToken (m : Single) (_ : Identity) : Except StatusCode Bytes := m.token

/-- A process with an environment variable and the token managers made so far.
[src/token_manager/single_token_access_token_manager.cc:30-58] -/
structure Process where
  env : Option Bytes
  managers : List Single

/-- What the process does: change the variable, make a manager, ask one for a token.
[src/token_manager/single_token_access_token_manager.cc:30-58] -/
inductive Op
  | setEnv (v : Option Bytes)
  | build
  | getDefaultToken (i : Nat)
  | getToken (i : Nat) (id : Identity)

/-- One step, with the answer of a manager if one was asked.
[src/token_manager/single_token_access_token_manager.cc:30-58] -/
def step (p : Process) : Op → Process × Option (Except StatusCode Bytes)
  | .setEnv v => ({ p with env := v }, none)
  | .build => ({ p with managers := p.managers ++ [Single.create p.env] }, none)
  | .getDefaultToken i => (p, p.managers[i]?.map Single.getDefaultToken)
  | .getToken i id => (p, p.managers[i]?.map (·.getToken id))

/-- A history. [the user of include/access_token_manager.h] -/
def run (p : Process) (ops : List Op) : Process := ops.foldl (fun p op => (step p op).1) p

end S2A.TokenManager
