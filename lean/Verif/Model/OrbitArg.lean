/- The keyword `orbit` of `load_cluster` and `advance_cluster` (io/load.py). -/
import Verif.Model.IO

namespace CT

noncomputable section

/-- Where `load_cluster` puts the cluster (load.py:291-324).  `orb t` is `(orbit.x(t), …, orbit.vz(t))`, in kpc and km/s, and
`T0` is `conversion.time_in_Gyr(ro=solar_ro, vo=solar_vo)`.  In `kpckms` the variable `t` has no value.  The attribute
`cluster.orbit` itself is not modelled. -/
def orbitGiven (g : Galpy) (orb : ℝ → Ph) (T0 : ℝ) (c : Cluster) : Except Err Cluster :=
  match c.units with
  | some .pckms =>
    let q := orb (c.tphys / 1000 / T0)
    .ok (addOrbit g ⟨q.x * 1000, q.y * 1000, q.z * 1000, q.vx, q.vy, q.vz⟩ none none c)
  | some .kpckms => .error .nameError
  | some .nbody =>
    let q := orb (c.tphys * c.tbar / 1000 / T0)
    .ok (addOrbit g ⟨q.x * 1000 / c.rbar, q.y * 1000 / c.rbar, q.z * 1000 / c.rbar, q.vx / c.vbar, q.vy / c.vbar,
      q.vz / c.vbar⟩ none none c)
  | some .galpy =>
    let q := orb c.tphys
    .ok (addOrbit g ⟨q.x / 8, q.y / 8, q.z / 8, q.vx / 220, q.vy / 220, q.vz / 220⟩ none none c)
  | _ => .ok c

/-- `load_cluster(…, orbit=orbit)` after the reader has returned `c` (load.py:290-334).  `fc` is `cluster.find_centre()`. -/
def loadOrbit (g : Galpy) (fc : Cluster → Except Err Cluster) (orb : ℝ → Ph) (T0 : ℝ) (c : Cluster) : Except Err Cluster := do
  let c1 ← orbitGiven g orb T0 c
  if c1.origin.isSome then
    let c2 ← toCluster false none c1
    let c3 ← fc c2
    returnCluster g (saveCluster c1) false none c3
  else fc c1

/-- The time handed to the orbit by `advance_cluster` (load.py:626-635); in other units `t` has no value. -/
def advanceTime (T0 : ℝ) (c : Cluster) : Except Err ℝ :=
  match c.units with
  | some .pckms => .ok (c.tphys / 1000 / T0)
  | some .kpckms => .ok (c.tphys / 1000 / T0)
  | some .nbody => .ok (c.tphys * c.tbar / 1000 / T0)
  | some .galpy => .ok c.tphys
  | _ => .error .nameError

/-- `advance_cluster(…, orbit=orbit)` after the reader has returned `c`, which has stars (load.py:623-645). -/
def advanceOrbit (g : Galpy) (orb : ℝ → Ph) (T0 : ℝ) (c : Cluster) : Except Err Cluster := do
  let t ← advanceTime T0 c
  return addOrbit g (orb t) none none c

end

end CT
