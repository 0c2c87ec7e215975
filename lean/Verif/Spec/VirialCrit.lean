/- Specification vocabulary for the radius of a given overdensity. -/
import Verif.Spec.Relax
import Verif.Model.VirialCrit

namespace CT

noncomputable section

/-- The critical density of the universe, `3H²/(8πG)`, in Msun/pc³ for `H` in km/s/Mpc. -/
def criticalDensity (H : ℝ) : ℝ := 3 * (H / 1000000) ^ 2 / (8 * Real.pi * gravPc)

open Classical in
/-- Mean density within radius `x`. -/
def meanDensity (m r : List ℝ) (x : ℝ) : ℝ := massWhere (· ≤ x) m r / (4 / 3 * Real.pi * x ^ 3)

/-- `ρv` is where the mean density passes `ρ`: between two neighbouring star radii whose mean densities enclose `ρ`, interpolated
linearly. -/
def IsCrossing (m r : List ℝ) (ρ rv : ℝ) : Prop :=
  ∃ a ∈ r, ∃ b ∈ r, a < b ∧ (∀ x ∈ r, x ≤ a ∨ b ≤ x) ∧ meanDensity m r b ≤ ρ ∧ ρ ≤ meanDensity m r a ∧ a ≤ rv ∧ rv ≤ b ∧
    (rv - a) * (meanDensity m r a - meanDensity m r b) = (b - a) * (meanDensity m r a - ρ)

/-- The star radius whose mean density is nearest to `ρ`. -/
def IsNearestDensity (m r : List ℝ) (ρ x : ℝ) : Prop := x ∈ r ∧ ∀ y ∈ r, |meanDensity m r x - ρ| ≤ |meanDensity m r y - ρ|

/-- Smallest or largest. -/
def IsExtreme (r : List ℝ) (x : ℝ) : Prop := (∀ y ∈ r, x ≤ y) ∨ ∀ y ∈ r, y ≤ x

/-- The stars have different, positive radii, and the mean density within a star's radius decreases outwards. -/
structure Decreasing (m r : List ℝ) : Prop where
  nodup : r.Nodup
  pos : ∀ x ∈ r, 0 < x
  anti : ∀ x ∈ r, ∀ y ∈ r, x < y → meanDensity m r y < meanDensity m r x

end

end CT
