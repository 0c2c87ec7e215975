/- Nearest stars and the core radius (analysis/functions.py:928-976, 2062-2301, 594-653). -/
import Verif.Model.Centre
import Verif.Model.Relax

namespace CT

noncomputable section

/-- `np.column_stack([x, y])` or `np.column_stack([x, y, z])`; in two dimensions the third coordinate is zero. -/
def columnStack (projected : Bool) (st : List Ph) : List (ℝ × ℝ × ℝ) :=
  st.map (fun p => (p.x, p.y, if projected then 0 else p.z))

/-- scipy's `cKDTree(x).query(x, k=k)`: for every point the list of `k` pairs of distance and index. -/
abbrev KDTree := List (ℝ × ℝ × ℝ) → ℕ → List (List (ℝ × ℕ))

/-- `closest_star` (functions.py:928-976): `dist[:,1]` and `arg[:,1]`.  For `units='radec'`, `origin='sky'` nothing is
returned (`None`). -/
def closestStar (kd : KDTree) (projected : Bool) (c : Cluster) : Option (List ℝ × List ℕ) :=
  if c.units = some .radec ∧ c.origin = some .sky then none
  else
    let q := kd (columnStack projected c.st) 2
    some (q.map (fun l => (l[1]!).1), q.map (fun l => (l[1]!).2))

/-- The method `StarCluster.closest_star` (cluster.py:2570-2604): `None` cannot be unpacked when `argument=True`. -/
def closestStarMethod (kd : KDTree) (projected : Option Bool) (argument : Bool) (c : Cluster) :
    Except Err (Option (List ℝ) × Option (List ℕ)) :=
  (closestStar kd (projected.getD c.projected) c).elim (if argument then .error .typeError else .ok (none, none))
    (fun r => .ok (some r.1, if argument then some r.2 else none))

/-- Lines 2132-2144 of functions.py: the densities at the stars, and the root of the mean of `r²` weighted with their squares. -/
def coreRhos (kd : KDTree) (k : ℕ) (projected : Bool) (m : List ℝ) (st : List Ph) : List ℝ :=
  (kd (columnStack projected st) k).map (fun l =>
    let mass := (l.map (fun q => m[q.2]!)).sum - m[(l.getLastD (0, 0)).2]!
    mass / (l.getLastD (0, 0)).1 ^ (if projected then 2 else 3))

/-- `np.sqrt(np.sum((rhos**2)*(r**2))/np.sum(rhos**2))`. -/
def coreRadius (rhos r : List ℝ) : ℝ :=
  Real.sqrt ((List.zipWith (fun ρ x => ρ ^ 2 * x ^ 2) rhos r).sum / (rhos.map (· ^ 2)).sum)

/-- The answer of the query in the form `casertano` takes it (functions.py:296-302). -/
def knnOf (kd : KDTree) (k : ℕ) (st : List Ph) : List (List ℕ × ℝ) :=
  (kd (columnStack false st) k).map (fun l => (l.map Prod.snd, (l.getLastD (0, 0)).1))

/-- Lines 2115-2119: without a known centre it is found, and stored, by the density method. -/
def rcoreCentre (g : Galpy) (kd : KDTree) (c : Cluster) : Except Err Cluster :=
  if c.c.x = 0 ∧ c.c.y = 0 ∧ c.c.z = 0 then
    (findCentreMethod g {} (.casertano (knnOf kd 6 c.st)) 0 none [] false c).map Prod.snd
  else .ok c

/-- Lines 2114-2121: the cluster is centred unless it is given from its centre. -/
def rcoreStart (g : Galpy) (kd : KDTree) (c1 : Cluster) : Except Err Cluster :=
  if c1.origin ≠ some .centre then (rcoreCentre g kd c1).bind (toCentre true none) else .ok c1

/-- `rcore(method='casertano')` (functions.py:2062-2155) without plotting; also the method (cluster.py:3135-3192), which only stores
the result.  The test of `origin0` in line 2114 is the origin before the conversion to pc, which does not change it. -/
def rcore (g : Galpy) (kd : KDTree) (k : ℕ) (projected : Bool) (c : Cluster) : Except Err (ℝ × Cluster) := do
  let c1 ← if c.units = some .amuse then toPckms g true c else .ok c
  let c2 ← rcoreStart g kd c1
  let rc := coreRadius (coreRhos kd k projected c2.m c2.st) (if projected then c2.d.rpro else c2.d.r)
  let c3 ← returnCluster g (saveCluster c) false none c2
  return (if c3.units = some .amuse then convertLength g c3 .pckms .amuse rc else rc, c3)

/-- `core_relaxation_time` (functions.py:594-653). -/
def coreRelaxationTime (g : Galpy) (kd : KDTree) (coulomb : ℝ) (projected : Bool) (c : Cluster) : Except Err (ℝ × Cluster) := do
  let c2 ← pcStart g c
  let grav := getGrav c2.units
  let lnlambda := Real.log (coulomb * c2.st.length)
  let mtot := c2.m.sum
  let mbar := mean c2.m
  let r ← rcore g kd 6 projected c2
  let rc := r.1
  let c3 := r.2
  let rh ← attr (if projected then c3.d.rmpro else c3.d.rm)
  let trc := 0.39 / lnlambda * Real.sqrt (rc ^ 3 / (grav * mtot)) * (mtot / mbar) * Real.sqrt (rc * rh) / (rc + rh) * myrFactor
  let c4 ← returnCluster g (saveCluster c) false none c3
  return (c4.units.elim trc (fun t => convertTime g c4 .pckms t trc), c4)

end

end CT
