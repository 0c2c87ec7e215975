/- The virial radius of the stars of a world. -/
import Verif.Spec.Neighbours

namespace CT

noncomputable section

/-- The virial radius (pc) of the stars of a world: `M²` over twice the sum of `m_i m_j / r_ij` over the pairs of stars. -/
def World.virial (w : World) (projected : Bool) : ℝ :=
  w.mass.sum ^ 2 / (2 * ∑ i ∈ Finset.range w.stars.length, ∑ j ∈ Finset.Ico (i + 1) w.stars.length,
    w.mass[i]! * w.mass[j]! / w.apart projected i j)

end

end CT
