/- Specification vocabulary for sessions. -/
import Verif.Model.Session
import Verif.Spec.Order

namespace CT

noncomputable section

/-- `c` is an analysed description of the world `w`, in some of the linear units and from some linear origin: the scales are positive, masses and
rows are aligned, radii and totals belong to the rows, and a stored radial order is one of the frame it was made in. -/
structure Describes (g : Galpy) (w : World) (c : Cluster) : Prop where
  pos : Pos g c
  lin : Lin c
  good : Good c
  fresh : Fresh c
  world : world g c = some w
  order : OrderInv w c

/-- Conversions of a session, in order. -/
def conversions : List SCall → List Op
  | [] => []
  | .convert op :: l => op :: conversions l
  | .query _ :: l => conversions l

/-- The calls that leave the cluster alone by design: a core radius asked for without a known centre stores the centre it finds
(`C77`), and an empty selection makes `find_centre` return early. -/
def Query.Observing (w : World) : Query → Prop
  | .coreRelaxationTime .. => ¬ (w.centre.x = 0 ∧ w.centre.y = 0 ∧ w.centre.z = 0)
  | .rcore .. => ¬ (w.centre.x = 0 ∧ w.centre.y = 0 ∧ w.centre.z = 0)
  | .rcoreDensity .. => ¬ (w.centre.x = 0 ∧ w.centre.y = 0 ∧ w.centre.z = 0)
  | .findCentre _ _ _ mask _ => ∀ m, mask = some m → true ∈ m
  | _ => True

/-- A call of the kind considered: conversions between linear units and origins with analysis on, and observing queries. -/
def SCall.Admissible (w : World) : SCall → Prop
  | .convert op => op.linear ∧ op.analysed
  | .query q => q.Observing w

end

end CT
