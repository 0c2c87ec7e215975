/- Gravitational constant, virial radius and N-body scale (constants.py, functions.py, operations.py). -/
import Verif.Model.Ops

namespace CT

noncomputable section

/-- `_get_grav` (util/constants.py:79-100). -/
def getGrav (u : Option Units) : ℝ :=
  match u with
  | some .nbody => 1.0
  | some .pckms => 4.302e-3
  | some .amuse => 4.302e-3
  | some .pcmyr => 4.302e-3 * 1.022712165045695 ^ 2
  | some .kpckms => 4.302e-6
  | some .kpcgyr => 4.302e-6 * 1.022712165045695 ^ 2
  | _ => 1.0

/-- A row `[x,y,z,m]` of the arrays handed to the numba kernels (functions.py:728-745, 1136-1138). -/
structure P4 where
  x : ℝ
  y : ℝ
  z : ℝ
  m : ℝ

instance : Inhabited P4 := ⟨⟨0, 0, 0, 0⟩⟩

/-- `np.array([x, y, z or zeros, m]).T` (functions.py:743-745, 1136-1138). -/
def rows4 (projected : Bool) (m : List ℝ) (st : List Ph) : List P4 :=
  List.zipWith (fun p m => ⟨p.x, p.y, if projected then 0 else p.z, m⟩) st m

/-- `distance` (util/recipes.py:760-785). -/
def distance (a b : P4) : ℝ :=
  Real.sqrt ((b.x - a.x) ^ 2 + (b.y - a.y) ^ 2 + (b.z - a.z) ^ 2)

/-- `_weighted_inverse_distance_sum` (functions.py:1176-1200): the two nested loops, in order. -/
def weightedInverseDistanceSum (s : List P4) : ℝ :=
  (List.range (s.length - 1)).foldl (fun acc i =>
    (List.range' (i + 1) (s.length - (i + 1))).foldl (fun acc j =>
      acc + s[i]!.m * s[j]!.m / distance s[i]! s[j]!) acc) 0

/-- The `full=False` branch (functions.py:1144-1164): one vectorised sum per star. -/
def partialSumLoop (s : List P4) : ℝ :=
  (List.range (s.length - 1)).foldl (fun acc i =>
    acc + ((s.drop (i + 1)).map (fun q =>
      s[i]!.m * q.m / Real.sqrt ((s[i]!.x - q.x) * (s[i]!.x - q.x) + (s[i]!.y - q.y) * (s[i]!.y - q.y)
        + (s[i]!.z - q.z) * (s[i]!.z - q.z)))).sum) 0

/-- `virial_radius_inverse_distance` after the frame change (functions.py:1134-1166). -/
def virialRadius (full projected : Bool) (m : List ℝ) (st : List Ph) : ℝ :=
  let s := rows4 projected m st
  m.sum ^ 2 / (2 * (if full then weightedInverseDistanceSum s else partialSumLoop s))

/-- `virial_radius(cluster, method='inverse_distance', full, projected)` (functions.py:1047-1174).  The result in `amuse` units is the
same number in pc.  Stars at one place (numba raises `ZeroDivisionError`) and single stars (the result is `inf`) are not modelled. -/
def virialInverse (g : Galpy) (full projected : Bool) (c : Cluster) : Except Err (ℝ × Cluster) := do
  let c1 ← if c.units = some .amuse then toPckms g true c else .ok c
  let c2 ← if c.origin ≠ some .cluster ∧ c.origin ≠ some .centre then toCentre false none c1 else .ok c1
  let c3 ← returnCluster g (saveCluster c) false none c2
  return (virialRadius full projected c2.m c2.st, c3)

/-- `StarCluster.reset_nbody_scale` (cluster.py:2011-2049, operations.py:1374-1448) with the default virial
method `inverse_distance`, `full=True`.  `rm` is the half-mass radius stored by `analyze`. -/
def resetNbodyScale (g : Galpy) (mass radii rvirial projected : Bool) (c : Cluster) : Except Err Cluster := do
  let c1 ←
    if c.origin ≠ some .cluster ∧ c.origin ≠ some .centre then toCentre true none c else .ok c
  let c2 ← toPckms g true c1
  let zmbar := if mass then c2.m.sum else c2.zmbar
  let rbar ←
    if radii then
      if rvirial then .ok (virialRadius true projected c2.m c2.st)
      else match c2.d.rm with
        | some rm => .ok (4 * rm / 3)
        | none => .error .valueError
    else .ok c2.rbar
  let vbar := 0.06557 * Real.sqrt (zmbar / rbar)
  let tbar := rbar / (1.023 * vbar)
  let c3 ← returnCluster g (saveCluster c) false none c2
  return { c3 with zmbar := zmbar, rbar := rbar, vbar := vbar, tbar := tbar }

end

end CT
