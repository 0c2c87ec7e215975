/- Specification vocabulary for the scatter plots. -/
import Verif.Spec.Sky
import Verif.Model.Plots

namespace CT

noncomputable section

/-- The length in pc that a unit written on an axis stands for (no entry: nothing is claimed). -/
def axisLength (g : Galpy) (rbar : ℝ) : String → Option ℝ
  | "(pc)" => some 1
  | "(kpc)" => some 1000
  | "(NBODY)" => some rbar
  | "(GALPY)" => some (1000 * g.ro)
  | _ => none

/-- Points of a panel multiplied by the length of the axis unit. -/
def inPc (L : ℝ) (pts : List (ℝ × ℝ)) : List (ℝ × ℝ) := pts.map (fun q => (q.1 * L, q.2 * L))

/-- The panels of a star plot and the two coordinates each shows. -/
def panels (k : StarCoords) (rows : List Ph) : List (List (ℝ × ℝ)) :=
  match k with
  | .xyz => [rows.map (fun p => (p.x, p.z)), rows.map (fun p => (p.x, p.y))]
  | .xz => [rows.map (fun p => (p.x, p.z))]
  | .yz => [rows.map (fun p => (p.y, p.z))]
  | .xy => [rows.map (fun p => (p.x, p.y))]

/-- A session of conversions and plots. -/
inductive PCall
  | call (k : Call)
  | star (k : StarCoords) (overplot doCentre : Bool)
  | sky (k : SkyCoords) (overplot doCentre : Bool)

/-- One step: the figures it draws and the cluster afterwards. -/
def PCall.exec (g : Galpy) : PCall → Cluster → Except Err (List Figure × Cluster)
  | .call k, c => (k.exec g c).map (fun d => ([], d))
  | .star k o dc, c => (starplot g k o dc c).map (fun r => ([r.1], r.2))
  | .sky k o dc, c => (skyplot g k o dc c).map (fun r => ([r.1], r.2))

/-- A whole session: all figures in order, and the final cluster. -/
def pcalls (g : Galpy) : List PCall → Cluster → Except Err (List Figure × Cluster)
  | [], c => .ok ([], c)
  | k :: ks, c => (k.exec g c).bind fun r => (pcalls g ks r.2).map fun s => (r.1 ++ s.1, s.2)

end

end CT
