/- Specification vocabulary for binned data. -/
import Mathlib.Data.Real.Basic

namespace CT

/-- `Contig a b P`: the intervals `P` are non-empty, contiguous, in increasing order, starting at `a` and
ending at `b`. -/
inductive Contig : ℝ → ℝ → List (ℝ × ℝ) → Prop
  | one {a b : ℝ} : a < b → Contig a b [(a, b)]
  | cons {a b c : ℝ} {P : List (ℝ × ℝ)} : a < b → Contig b c P → Contig a c ((a, b) :: P)

/-- Value `v` belongs to interval number `i`: intervals are half open, the last one also holds its upper
edge. -/
def InBin (P : List (ℝ × ℝ)) (i : ℕ) (v : ℝ) : Prop :=
  ∃ lo hi, P[i]? = some (lo, hi) ∧ lo ≤ v ∧ (v < hi ∨ (i + 1 = P.length ∧ v = hi))

open Classical in
/-- The values of `x` that belong to interval `i`. -/
noncomputable def inBin (P : List (ℝ × ℝ)) (x : List ℝ) (i : ℕ) : List ℝ := x.filter (fun v => InBin P i v)

end CT
