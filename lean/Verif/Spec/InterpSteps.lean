/- Specification vocabulary for moving a cluster in several steps. -/
import Verif.Spec.InterpSky

namespace CT

noncomputable section

/-- The method `interpolate_orbit` called once for every time of the list. -/
def moveSteps (g : Galpy) (flow : ℝ → Ph → Ph) (nt : ℕ) : List ℝ → Cluster → Except Err Cluster
  | [], c => .ok c
  | T :: l, c => (interpolateOrbitMethod g flow { tfinal := some T, nt := nt } c).bind (fun r => moveSteps g flow nt l r.2)

/-- The method `interpolate_orbits` called on the sky once for every time of the list. -/
def moveStepsSky (g : Galpy) (flow : ℝ → Ph → Ph) (nt : ℕ) : List ℝ → Cluster → Except Err Cluster
  | [], c => .ok c
  | T :: l, c => (interpolateOrbitsSkyMethod g flow { tfinal := some T, nt := nt } c).bind (fun r => moveStepsSky g flow nt l r.2)

end

end CT
