/- Vocabulary for stars matched to a path on the sky; rows are `ra, dec` (degrees) `, …`. -/
import Verif.Spec.Orbits

namespace CT

noncomputable section

/-- The points of the path follow each other along a straight line. -/
def Straight (P : ℕ → Ph) (n : ℕ) : Prop :=
  ∃ (e q : Ph) (τ : ℕ → ℝ), Monotone τ ∧ ∀ j < n, (P j).x = q.x + τ j * e.x ∧ (P j).y = q.y + τ j * e.y ∧ (P j).z = q.z + τ j * e.z

/-- `x` is a distance along the path of `n` points from entry `i` to entry `k` (negative if backwards): no more than the length of the path between
them, and that length if the path is straight. -/
structure AlongPath (P : ℕ → Ph) (n i k : ℕ) (x : ℝ) : Prop where
  forth : i ≤ k → 0 ≤ x ∧ x ≤ pathLength true P i k
  back : k ≤ i → 0 ≤ -x ∧ -x ≤ pathLength true P k i
  straight : Straight P n → (i ≤ k → x = pathLength true P i k) ∧ (k ≤ i → x = -pathLength true P k i)

/-- `d` is the distance of `p` from point `k` of a path of `n` points, with the sign of the difference in declination from the path point nearest in
declination; zero if some point of the path has the declination of `p`. -/
structure OffPath (P : ℕ → Ph) (n : ℕ) (p : Ph) (k : ℕ) (d : ℝ) : Prop where
  far : (∀ j < n, (P j).y ≠ p.y) → |d| = between true (P k) p
  level : (∃ j < n, (P j).y = p.y) → d = 0
  side : ∃ y < n, (∀ j < n, |(P y).y - p.y| ≤ |(P j).y - p.y|) ∧ (d < 0 → (P y).y < p.y) ∧ (0 < d → p.y < (P y).y)

/-- `t`, `x` and `d` are the time of the path point nearest to `p`, the distance along the path from entry `i0` to it, and the distance of `p`
from it. -/
def MatchedOnSky (path : List PathPt) (i0 : ℕ) (p : Ph) (t x d : ℝ) : Prop :=
  ∃ k, Nearest true (fun j => (path[j]!).p) path.length p k ∧ t = (path[k]!).t ∧ AlongPath (fun j => (path[j]!).p) path.length i0 k x ∧
    OffPath (fun j => (path[j]!).p) path.length p k d

end

end CT
