import Verif.Model.Prog

/-! # How many questions a run asks -/

set_option autoImplicit false

namespace DIDComm

/-- The event asks the DID resolver. -/
def Event.isResolve (e : Event) : Bool := match e.query with | .resolve _ => true | _ => false
/-- The event asks which secrets there are. -/
def Event.isFind (e : Event) : Bool := match e.query with | .findSecrets _ => true | _ => false
/-- The event reads a secret. -/
def Event.isGet (e : Event) : Bool := match e.query with | .getSecret _ => true | _ => false

/-- Number of resolutions in a run. -/
def resolutions (tr : List Event) : Nat := tr.countP Event.isResolve
/-- Number of searches for secrets in a run. -/
def searches (tr : List Event) : Nat := tr.countP Event.isFind
/-- Number of secrets read in a run. -/
def secretReads (tr : List Event) : Nat := tr.countP Event.isGet

end DIDComm
