/- `interpolate_orbit` with the keywords `ro`, `vo`, `zo`, `solarmotion` given (analysis/orbits.py and the method of cluster.py). -/
import Verif.Model.InterpSky

namespace CT

noncomputable section

/-- `initialize_orbit` (orbits.py:41-118) called with scales of its own: `h` is galpy at the given `ro`, `vo`, `zo`, `solarmotion`, `g` galpy at
those of the cluster.  The rows in natural units are made by `to_galpy`, which knows the cluster's scales only (operations.py:626). -/
def initializeOrbitWith (g h : Galpy) (fromCentre : Bool) (c : Cluster) : Except Err (Ph × Cluster) :=
  if c.units = some .radec then .ok (((h.ofSky c.skyGc).divPos h.ro).divVel h.vo, c)
  else do
    let c1 ← toGalpy g c
    let p := if fromCentre then c1.gc.add c1.c else c1.gc
    let c2 ← returnCluster g (saveCluster c) false none c1
    return (cylToCart (cartToCyl p), c2)

/-- `interpolate_orbit` (orbits.py:325-410, with `_integrate_orbit` 193-257) called with scales of its own: the time is converted and the end of
the orbit read off with them. -/
def interpolateOrbitWith (g h : Galpy) (flow : ℝ → Ph → Ph) (a : PathArgs) (c : Cluster) : Except Err (Ph × Cluster) := do
  let c1 ← interpStart g a.tfinal c
  let o ← initializeOrbitWith g h a.fromCentre c1
  let t ← lastTime (integrateTime h o.2 a.tfinal) a.nt
  let row := orbitRow h (flow t o.1)
  if o.2.units = some .radec then do
    let c2 ← if o.2.origin ≠ some .sky then toSky g true none o.2 else .ok o.2
    let c3 ← returnCluster g (saveCluster c) false none c2
    return (h.toSky row, c3)
  else do
    let c3 ← returnCluster g (saveCluster c) false none o.2
    return (convertRow g c3 row, c3)

/-- Lines 3405-3420 of cluster.py: the returned place becomes the position of the cluster. -/
def placeAt (g : Galpy) (r : Ph × Cluster) : Except Err (Ph × Cluster) := do
  let c1 ← toCluster true none r.2
  let c2 := setSkyGc r.1 (addOrbit g r.1 none none c1)
  let c3 ← r.2.origin.elim (.ok c2) (fun o => toOrigin g o.target true none c2)
  return (c3.gc, c3)

/-- The method `interpolate_orbit` (cluster.py:3368-3420) called with scales of its own. -/
def interpolateOrbitMethodWith (g h : Galpy) (flow : ℝ → Ph → Ph) (a : PathArgs) (c : Cluster) : Except Err (Ph × Cluster) := do
  placeAt g (← interpolateOrbitWith g h flow a c)

/-- `initialize_orbits` (orbits.py:121-190) called with scales of its own. -/
def initializeOrbitsWith (g h : Galpy) (c : Cluster) : Except Err (List Ph × Cluster) :=
  if c.units = some .radec ∧ c.origin = some .sky then
    .ok (c.sky.map (fun q => ((h.ofSky q).divPos h.ro).divVel h.vo), c)
  else if c.units = some .radec ∧ (c.origin = some .cluster ∨ c.origin = some .centre) then .error .nameError
  else do
    let c1 ← toGalpy g c
    let c2 ← returnCluster g (saveCluster c) false none c1
    return (c1.st.map (fun p => cylToCart (cartToCyl p)), c2)

/-- `interpolate_orbits` (orbits.py:412-496, with `_integrate_orbits` 259-323) called with scales of its own, for units other than `radec`. -/
def interpolateOrbitsWith (g h : Galpy) (flow : ℝ → Ph → Ph) (a : PathArgs) (c : Cluster) : Except Err (List Ph × Cluster) := do
  let c1 ← interpStart g a.tfinal c
  let tf := integrateTime h c1 a.tfinal
  let o ← initializeOrbitsWith g h c1
  let t ← lastTime tf a.nt
  let c3 ← returnCluster g (saveCluster c) false none o.2
  return (o.1.map (fun p => convertRow g c3 (orbitRow h (flow t p))), c3)

/-- The method `interpolate_orbits` (cluster.py:3466-3532) called with scales of its own, for units other than `radec`. -/
def interpolateOrbitsMethodWith (g h : Galpy) (flow : ℝ → Ph → Ph) (a : PathArgs) (c : Cluster) : Except Err (List Ph × Cluster) := do
  let r ← interpolateOrbitsWith g h flow a c
  let c1 := { r.2 with st := r.1 }
  if c1.origin ≠ some .centre ∧ c1.origin ≠ some .cluster then do
    let q ← interpolateOrbitWith g h flow { a with fromCentre := false } c1
    let c2 := setSkyGc q.1 (addOrbit g q.1 none none q.2)
    return (c2.st, c2)
  else return (c1.st, c1)

end

end CT
