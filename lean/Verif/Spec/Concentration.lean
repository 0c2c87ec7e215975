/- Specification vocabulary for tables. -/
import Mathlib.Data.Real.Basic

namespace CT

/-- The graph of the broken line through the points `(xs[i], ys[i])`. -/
def OnBrokenLine (xs ys : List ℝ) (x y : ℝ) : Prop :=
  ∃ i, i + 1 < xs.length ∧ ∃ t, 0 ≤ t ∧ t ≤ 1 ∧ x = xs[i]! + t * (xs[i + 1]! - xs[i]!) ∧ y = ys[i]! + t * (ys[i + 1]! - ys[i]!)

/-- The entries grow. -/
def Growing (l : List ℝ) : Prop := ∀ i j, i < j → j < l.length → l[i]! < l[j]!

end CT
