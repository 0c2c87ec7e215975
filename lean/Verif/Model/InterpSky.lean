/- Moving the stars of a cluster in `radec` units along their orbits (analysis/orbits.py and the method of cluster.py). -/
import Verif.Model.Interp

namespace CT

noncomputable section

/-- `interpolate_orbits` (orbits.py:412-496, with `_integrate_orbits` 259-323) in `radec` units: the sky coordinates of the orbits at the last
time.  Orbits of single stars given from the cluster cannot be initialised there: `os` is unbound in `initialize_orbits` (orbits.py:121-190). -/
def interpolateOrbitsSky (g : Galpy) (flow : ℝ → Ph → Ph) (a : PathArgs) (c : Cluster) : Except Err (List Ph × Cluster) := do
  let o ← initializeOrbits g c
  let t ← lastTime (integrateTime g c a.tfinal) a.nt
  let c3 ← returnCluster g (saveCluster c) false none o.2
  return (o.1.map (fun p => g.toSky (orbitRow g (flow t p))), c3)

/-- The method `interpolate_orbits` (cluster.py:3466-3532) in `radec` units at the origin `sky`: the rows become both the sky columns and the
coordinates (in the code the same arrays; here two copies, told apart only by `add_orbit` filling a column of zeros), then the cluster is
moved. -/
def interpolateOrbitsSkyMethod (g : Galpy) (flow : ℝ → Ph → Ph) (a : PathArgs) (c : Cluster) : Except Err (List Ph × Cluster) := do
  let r ← interpolateOrbitsSky g flow a c
  let c1 ← toSky g true none r.2
  let c2 : Cluster := { c1 with
    sky := r.1
    st := r.1 }
  let q ← interpolateOrbit g flow { a with fromCentre := false } c2
  let c3 := setSkyGc q.1 (addOrbit g q.1 none none q.2)
  return (c3.st, c3)

end

end CT
