/- Specification vocabulary for the methods for orbits and tails. -/
import Verif.Model.PathMethods
import Verif.Spec.Session

namespace CT

noncomputable section

/-- Calls of the kind considered: conversions and queries as in `SCall.Admissible`; `orbital_path` without `initialize`. -/
def TrCall.Admissible (w : World) : TrCall → Prop
  | .call a => a.Admissible w
  | .orbitalPath _ _ _ _ init => init = false
  | _ => True

/-- The conversions of a session. -/
def pathConversions : List TrCall → List Op
  | [] => []
  | .call (.convert op) :: l => op :: pathConversions l
  | _ :: l => pathConversions l

/-- Calls that set `tpath, xpath, …`. -/
def TrCall.setsPath : TrCall → Bool
  | .orbitalPath .. => true
  | .tailPath .. => true
  | _ => false

/-- Calls that set `tstar, dprog, dpath`. -/
def TrCall.setsMatched : TrCall → Bool
  | .orbitalPathMatch .. => true
  | .tailPathMatch .. => true
  | _ => false

/-- Calls that set `x_tail, …, r_tail, v_tail`. -/
def TrCall.setsTail : TrCall → Bool
  | .toTail .. => true
  | _ => false

end

end CT
