/- Vocabulary for the tidal radius of a cluster in `radec` units. -/
import Verif.Spec.Sky
import Verif.Spec.Tidal
import Mathlib.Analysis.SpecialFunctions.Trigonometric.Arctan

namespace CT

noncomputable section

/-- The angle, in degrees, under which a length of `ρ` pc is seen across the line of sight at a distance of `D` kpc. -/
def seenAngle (ρ D : ℝ) : ℝ := Real.arctan (ρ / 1000 / D) * (180 / Real.pi)

/-- Where the potential is to be evaluated for a cluster at the galactocentric position `p` (pc): distance from the axis and height (kpc), unless
given by the caller. -/
def tideAtPos (a : TideArgs) (p : Ph) : ℝ × ℝ :=
  (a.rgc.getD (Real.sqrt (p.x ^ 2 + p.y ^ 2) / 1000), a.zgc.getD (p.z / 1000))

end

end CT
