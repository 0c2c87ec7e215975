/- Moving the cluster and its stars along their orbits (analysis/orbits.py and the methods of cluster.py). -/
import Verif.Model.Orbits
import Verif.Model.IO

namespace CT

noncomputable section

/-- Lines 240-249 (303-312) of orbits.py: the time of integration in natural units, 12 Gyr when none is given. -/
def integrateTime (g : Galpy) (c : Cluster) (tfinal : Option ℝ) : ℝ :=
  tfinal.elim (12 / g.timeGyr) (fun t => naturalTime g c (some t))

/-- Lines 383-385 (465-467) of orbits.py: AMUSE units are stripped, which needs a time. -/
def interpStart (g : Galpy) (tfinal : Option ℝ) (c : Cluster) : Except Err Cluster :=
  if c.units = some .amuse then do
    let c1 ← toPckms g true c
    if tfinal.isNone then throw .attributeError
    return c1
  else .ok c

/-- `ts[-1]` for `ts = np.linspace(0, tfinal, nt)`. -/
def lastTime (tf : ℝ) (nt : ℕ) : Except Err ℝ := (linspace 0 tf nt).getLast?.elim (.error .indexError) .ok

/-- Lines 403-408 (489-494) of orbits.py: a row in kpc and km/s in the units of the cluster. -/
def convertRow (g : Galpy) (c : Cluster) (q : Ph) : Ph :=
  c.units.elim q (fun t =>
    { x := convertLength g c .kpckms t q.x
      y := convertLength g c .kpckms t q.y
      z := convertLength g c .kpckms t q.z
      vx := convertVelocity g c .kpckms t q.vx
      vy := convertVelocity g c .kpckms t q.vy
      vz := convertVelocity g c .kpckms t q.vz })

/-- `interpolate_orbit` (orbits.py:325-410, with `_integrate_orbit` 193-257); `flow t p` is galpy's integration in `pot` over the time
`t`.  The keywords `ro`, `vo`, `zo`, `solarmotion` are left at their defaults (see `InterpScales` for them). -/
def interpolateOrbit (g : Galpy) (flow : ℝ → Ph → Ph) (a : PathArgs) (c : Cluster) : Except Err (Ph × Cluster) := do
  let c1 ← interpStart g a.tfinal c
  let o ← initializeOrbit g a.fromCentre c1
  let t ← lastTime (integrateTime g o.2 a.tfinal) a.nt
  let row := orbitRow g (flow t o.1)
  if o.2.units = some .radec then do
    let c2 ← if o.2.origin ≠ some .sky then toSky g true none o.2 else .ok o.2
    let c3 ← returnCluster g (saveCluster c) false none c2
    return (g.toSky row, c3)
  else do
    let c3 ← returnCluster g (saveCluster c) false none o.2
    return (convertRow g c3 row, c3)

/-- Lines 3414-3416 (3528-3530) of cluster.py. -/
def setSkyGc (q : Ph) (c : Cluster) : Cluster :=
  if c.units = some .radec ∧ c.origin = some .sky then { c with skyGc := q } else c

/-- The method `interpolate_orbit` (cluster.py:3368-3420). -/
def interpolateOrbitMethod (g : Galpy) (flow : ℝ → Ph → Ph) (a : PathArgs) (c : Cluster) : Except Err (Ph × Cluster) := do
  let r ← interpolateOrbit g flow a c
  let c1 ← toCluster true none r.2
  let c2 := setSkyGc r.1 (addOrbit g r.1 none none c1)
  let c3 ← r.2.origin.elim (.ok c2) (fun o => toOrigin g o.target true none c2)
  return (c3.gc, c3)

/-- `initialize_orbits` (orbits.py:121-190): the rows of the stars in natural units.  In `radec` units with the origin at the cluster or its
centre nothing is assigned and `os` is unbound. -/
def initializeOrbits (g : Galpy) (c : Cluster) : Except Err (List Ph × Cluster) :=
  if c.units = some .radec ∧ c.origin = some .sky then
    .ok (c.sky.map (fun q => ((g.ofSky q).divPos g.ro).divVel g.vo), c)
  else if c.units = some .radec ∧ (c.origin = some .cluster ∨ c.origin = some .centre) then .error .nameError
  else do
    let c1 ← toGalpy g c
    let c2 ← returnCluster g (saveCluster c) false none c1
    return (c1.st.map (fun p => cylToCart (cartToCyl p)), c2)

/-- `interpolate_orbits` (orbits.py:412-496, with `_integrate_orbits` 259-323) for units other than `radec` (there: `interpolateOrbitsSky`). -/
def interpolateOrbits (g : Galpy) (flow : ℝ → Ph → Ph) (a : PathArgs) (c : Cluster) : Except Err (List Ph × Cluster) := do
  let c1 ← interpStart g a.tfinal c
  let tf := integrateTime g c1 a.tfinal
  let o ← initializeOrbits g c1
  let t ← lastTime tf a.nt
  let c3 ← returnCluster g (saveCluster c) false none o.2
  return (o.1.map (fun p => convertRow g c3 (orbitRow g (flow t p))), c3)

/-- The method `interpolate_orbits` (cluster.py:3466-3532) for units other than `radec`: the rows are assigned; unless the origin is the
cluster or its centre, the cluster is moved as well. -/
def interpolateOrbitsMethod (g : Galpy) (flow : ℝ → Ph → Ph) (a : PathArgs) (c : Cluster) : Except Err (List Ph × Cluster) := do
  let r ← interpolateOrbits g flow a c
  let c1 := { r.2 with st := r.1 }
  if c1.origin ≠ some .centre ∧ c1.origin ≠ some .cluster then do
    let q ← interpolateOrbit g flow { a with fromCentre := false } c1
    let c2 := setSkyGc q.1 (addOrbit g q.1 none none q.2)
    return (c2.st, c2)
  else return (c1.st, c1)

/-! ### the legacy names -/

/-- How Python binds a call to a function with the parameters `params`, of which the first `required` have no default: too many
positional arguments, an unknown or doubly given keyword, or a missing argument is a `TypeError`. -/
def bindCall (params : List String) (required : ℕ) (npos : ℕ) (kw : List String) : Except Err Unit :=
  if params.length < npos ∨ (∃ k ∈ kw, k ∉ params) ∨ (∃ k ∈ kw, k ∈ params.take npos) ∨
      (∃ q ∈ (params.take required).drop npos, q ∉ kw) then .error .typeError
  else .ok ()

/-- Parameters of the function `interpolate_orbit` (orbits.py:325-335); the first has no default. -/
def interpolateOrbitParams : List String := ["cluster", "pot", "tfinal", "nt", "from_centre", "ro", "vo", "zo", "solarmotion"]

/-- Parameters of the method `interpolate_orbit` (cluster.py:3368), `self` included. -/
def interpolateOrbitMethodParams : List String := ["self", "pot", "tfinal", "nt", "from_centre", "ro", "vo", "zo", "solarmotion"]

/-- Parameters of the method `interpolate_orbits` (cluster.py:3466), `self` included. -/
def interpolateOrbitsMethodParams : List String := ["self", "pot", "tfinal", "nt", "ro", "vo", "zo", "solarmotion"]

/-- The legacy function `orbit_interpolate` (orbits.py:499-548): passes `plot=False` on. -/
def orbitInterpolate (g : Galpy) (flow : ℝ → Ph → Ph) (a : PathArgs) (c : Cluster) : Except Err (Ph × Cluster) := do
  bindCall interpolateOrbitParams 1 1 ["pot", "tfinal", "nt", "ro", "vo", "zo", "solarmotion", "plot"]
  interpolateOrbit g flow { a with fromCentre := false } c

/-- The legacy function `orbits_interpolate` (orbits.py:550-595): its argument `cluster_pot` is no parameter or variable of the function
or its module; a name is looked up in `known`. -/
def orbitsInterpolate (g : Galpy) (known : List String) (flow : ℝ → Ph → Ph) (a : PathArgs) (c : Cluster) :
    Except Err (List Ph × Cluster) := do
  if "cluster_pot" ∉ known then throw .nameError
  bindCall ["cluster", "pot", "tfinal", "nt", "ro", "vo", "zo", "solarmotion"] 1 1
    ["cluster_pot", "pot", "tfinal", "nt", "ro", "vo", "zo", "solarmotion", "plot"]
  interpolateOrbits g flow a c

/-- The legacy method `orbit_interpolate` (cluster.py:3422-3463): a bound method called with `self` again, so with two positional
arguments. -/
def orbitInterpolateMethod (g : Galpy) (flow : ℝ → Ph → Ph) (a : PathArgs) (c : Cluster) : Except Err (Ph × Cluster) := do
  bindCall interpolateOrbitMethodParams 1 2 ["pot", "tfinal", "nt", "from_centre", "ro", "vo", "zo", "solarmotion"]
  interpolateOrbitMethod g flow a c

/-- The legacy method `orbits_interpolate` (cluster.py:3535-3574), as above. -/
def orbitsInterpolateMethod (g : Galpy) (flow : ℝ → Ph → Ph) (a : PathArgs) (c : Cluster) : Except Err (List Ph × Cluster) := do
  bindCall interpolateOrbitsMethodParams 1 2 ["pot", "tfinal", "nt", "ro", "vo", "zo", "solarmotion"]
  interpolateOrbitsMethod g flow a c

end

end CT
