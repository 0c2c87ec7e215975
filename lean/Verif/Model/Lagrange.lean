/- Lagrange radii (analysis/functions.py:978-1045). -/
import Verif.Model.Ops

namespace CT

noncomputable section

/-- The loop over Lagrange shells (functions.py:1028-1033): for `i in range(1,nlagrange)` the first sorted star
with `msum >= sum(m)*i/nlagrange`, then `max(r)` appended until there are `nlagrange` entries (once, unless
`nlagrange = 0`). -/
def lagrangeLoop (n : ℕ) (m r : List ℝ) (order : List ℕ) : Except Err (List ℝ) := do
  let rn ← (List.range' 1 (n - 1)).mapM (fun (i : ℕ) => massFracRadius ((i : ℝ) / (n : ℝ)) m.sum m r order)
  return if n = 0 then rn else rn ++ [maxOf r]

/-- `rlagrange(cluster, nlagrange, mfrac=None, projected)` (functions.py:978-1045) on a cluster in non-radec
units.  `cluster.r`, `cluster.rpro` are the stored derived arrays.  The result in `amuse` units is the same
numbers in pc. -/
def rlagrange (g : Galpy) (n : ℕ) (projected : Bool) (c : Cluster) : Except Err (List ℝ × Cluster) := do
  let c1 ← if c.units = some .amuse then toPckms g true c else .ok c
  let c2 ←
    if c.origin ≠ some .cluster ∧ c.origin ≠ some .centre then toCentre true none c1
    else .ok (sortstars true c1.d.r c1.d.rpro c1)
  let order := if projected then c2.rproorder else c2.rorder
  let r := if projected then c2.d.rpro else c2.d.r
  match order with
  | none => throw .indexError
  | some o =>
    let rn ← lagrangeLoop n c2.m r o
    let c3 ← returnCluster g (saveCluster c) false none c2
    return (rn, c3)

end

end CT
