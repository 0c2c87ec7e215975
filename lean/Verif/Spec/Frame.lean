/- Specification vocabulary: rows of the stars relative to the cluster. -/
import Verif.Spec.Valid
import Verif.Spec.Order

namespace CT

noncomputable section

/-- The rows of the stars in the cluster's own frame: rows given from the galactic centre minus the orbit position;
rows given from the cluster position or the cluster centre as they are. -/
def inner (c : Cluster) : List Ph :=
  if c.origin = some .galaxy then
    c.st.map (fun p => ⟨p.x - c.gc.x, p.y - c.gc.y, p.z - c.gc.z, p.vx - c.gc.vx, p.vy - c.gc.vy, p.vz - c.gc.vz⟩)
  else c.st

/-- Squared speed (in projection without the `z` component). -/
def speedSq (projected : Bool) (p : Ph) : ℝ := p.vx ^ 2 + p.vy ^ 2 + if projected then 0 else p.vz ^ 2

end

end CT
