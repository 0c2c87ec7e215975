/- Adding rotation (cluster/operations.py:1492-1532). -/
import Verif.Model.Coords

namespace CT

noncomputable section

/-- Lines 1516-1528 of operations.py for one star: in cylindrical coordinates a negative `vtheta` is replaced by its
absolute value if the star's random number is below `qrot`. -/
def rotateStar (qrot u : ℝ) (p : Ph) : Ph :=
  let s := cartToCyl p
  cylToCart { s with vT := if s.vT < 0 ∧ u < qrot then Real.sqrt (s.vT * s.vT) else s.vT }

/-- `add_rotation` (operations.py:1492-1532); `draws` is `np.random.rand(cluster.ntot)`. -/
def addRotation (g : Galpy) (qrot : ℝ) (draws : List ℝ) (c : Cluster) : Except Err (List Ph × Cluster) := do
  let c1 ← if c.origin ≠ some .cluster ∧ c.origin ≠ some .centre then toCentre true none c else .ok c
  let rows := List.zipWith (rotateStar qrot) draws c1.st
  let c2 ← returnCluster g (saveCluster c) false none c1
  return (rows, c2)

/-- `StarCluster.add_rotation` (cluster.py:2051-2070): the rows are stored after the cluster has been returned to the
caller's frame. -/
def addRotationMethod (g : Galpy) (qrot : ℝ) (draws : List ℝ) (c : Cluster) : Except Err Cluster := do
  let r ← addRotation g qrot draws c
  return { r.2 with st := r.1 }

end

end CT
