/- Specification vocabulary for save_cluster and return_cluster. -/
import Verif.Model.Saved
import Verif.Spec.Session

namespace CT

noncomputable section

/-- Conversions between linear units and origins with analysis on, observing queries, and the two methods. -/
def KCall.Admissible (w : World) : KCall → Prop
  | .convert op => op.linear ∧ op.analysed
  | .ask q => q.Observing w
  | _ => True

/-- A call between a `save_cluster()` and its `return_cluster()` that does not save by itself. -/
def KCall.Plain : KCall → Prop
  | .convert op => op.linear ∧ op.analysed
  | .restore => True
  | _ => False

end

end CT
