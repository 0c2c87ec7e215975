/- Vocabulary for sessions with methods. -/
import Verif.Model.Methods
import Verif.Spec.Session

namespace CT

noncomputable section

/-- The last value returned for an attribute. -/
def lastResult (a : Attr) (L : List (Attr × List ℝ)) : Option (List ℝ) := ((L.filter (fun e => e.1 = a)).getLast?).map Prod.snd

/-- Core radii of clusters without a known centre store the centre they find (`C77`). -/
def Method.Observing (w : World) : Method → Prop
  | .coreRelaxationTime .. => ¬ (w.centre.x = 0 ∧ w.centre.y = 0 ∧ w.centre.z = 0)
  | .rcore .. => ¬ (w.centre.x = 0 ∧ w.centre.y = 0 ∧ w.centre.z = 0)
  | _ => True

/-- The method whose results an attribute is documented to hold (cluster.py:370-399). -/
def Attr.SourceIs (m : Method) : Attr → Prop
  | .trelax => ∃ r γ p, m = .relaxationTime r γ p
  | .trh => ∃ γ p, m = .halfMassRelaxationTime γ p
  | .trc => ∃ kd γ p, m = .coreRelaxationTime kd γ p
  | .rn => ∃ n p, m = .rlagrange n p
  | .rv => ∃ f p, m = .virialRadius f p
  | .alpha => ∃ a p e i mem, m = .massFunction a p e i mem
  | .eta => ∃ a p e i mem, m = .etaFunction a p e i mem
  | .meq => ∃ a p q e i mem, m = .meqFunction a p q e i mem
  | .ck => ∃ a p q e i mem, m = .ckin a p q e i mem
  | .rc => ∃ kd k p, m = .rcore kd k p
  | .rt => ∃ f a i, m = .rtidal f a i
  | .rl => ∃ f a n p e, m = .rlimiting f a n p e
  | .dclosest => ∃ kd p, m = .closestStar kd p

/-- Calls considered: as for `C124`. -/
def NCall.Admissible (w : World) : NCall → Prop
  | .convert op => op.linear ∧ op.analysed
  | .ask q => q.Observing w
  | .method m => m.Observing w

/-- The conversions of a session, in order. -/
def nconversions : List NCall → List Op
  | [] => []
  | .convert op :: l => op :: nconversions l
  | .ask _ :: l => nconversions l
  | .method _ :: l => nconversions l

end

end CT
