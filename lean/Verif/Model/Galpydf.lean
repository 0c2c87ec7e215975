/- Making a cluster of galpy orbits (io/galpydf.py, io/load.py:276-278). -/
import Verif.Model.AstropyTable

namespace CT

noncomputable section

/-- A galpy `Orbit` instance with several objects: what `orbits.x(ro=ro, vo=vo)`, … are computed from, namely the coordinates in
galpy's internal units, and the scales it was made with, which are ignored when `ro` and `vo` are passed. -/
structure GOrbits where
  nat : List Ph
  ro : ℝ
  vo : ℝ

/-- `orbits.x(ro=ro, vo=vo)`, …, `orbits.vz(ro=ro, vo=vo)`: kpc and km/s for the scales passed. -/
def GOrbits.at (o : GOrbits) (ro vo : ℝ) : List Ph := o.nat.map (fun p => (p.mulPos ro).mulVel vo)

/-- `masses` (galpydf.py:63-68): 1, a number for all, or one number per orbit. -/
def galpyMasses (n : ℕ) (m : Option (Val ℝ)) : List ℝ :=
  m.elim (List.replicate n 1) (fun v => match v with
    | .scalar a => List.replicate n (1 * a)
    | .arr l => l)

/-- `mo` (galpydf.py:57-60).  `conversion.mass_in_msol(ro, vo)` is `K * vo**2 * ro` for a constant `K`. -/
def galpyMo (K ro vo : ℝ) (units : Option Units) : ℝ := if units = some .galpy then K * vo ^ 2 * ro else 1

/-- The arguments of `add_stars` (galpydf.py:62-73). -/
def galpyCols (K ro vo : ℝ) (units : Option Units) (o : GOrbits) (m : Option (Val ℝ)) : ATCols :=
  { x := (o.at ro vo).map (·.x), y := (o.at ro vo).map (·.y), z := (o.at ro vo).map (·.z)
    vx := (o.at ro vo).map (·.vx), vy := (o.at ro vo).map (·.vy), vz := (o.at ro vo).map (·.vz)
    m := some ((galpyMasses o.nat.length m).map (· / galpyMo K ro vo units))
    id := some ((List.range o.nat.length).map (fun i : ℕ => ((i : ℝ) + 1))) }

/-- The end of `_get_galpy_orbits` (galpydf.py:75-95).  `advance` has no value: whenever the orbit file is to be read the code
raises `NameError`. -/
def settleGalpy (g : Galpy) (fc : Cluster → Except Err Cluster) (kw : Kw) (origin : Option Origin) (ofile : Option (List Line))
    (c : Cluster) : Except Err Cluster :=
  if origin = some .galaxy then
    if ofile.isNone then do
      let c ← fc c
      settleGalaxy g fc kw c
    else .error .nameError
  else if origin = some .cluster ∨ origin = some .centre then do
    let c ← fc c
    let c ← analyzeKw kw c
    if ofile.isSome then throw .nameError
    return c
  else .ok c

/-- `load_cluster('galpy', particles=orbits, m=…, ro=…, vo=…, …)` without `orbit` and `initialize` (galpydf.py:13-97,
load.py:276-278).  `StarCluster(tphys=0.0, …, **kwargs)` raises `TypeError` when `tphys` is among the keyword arguments. -/
def loadGalpy (g : Galpy) (fc : Cluster → Except Err Cluster) (K ro vo : ℝ) (o : GOrbits) (m : Option (Val ℝ))
    (units : Option Units) (origin : Option Origin) (ofile : Option (List Line)) (kw : Kw) : Except Err Run := do
  if kw.tphys.isSome then throw .typeError
  let T ← addStars (galpyCols K ro vo units o m).args 0 false true (blankTab units origin 0)
  let c ← settleGalpy g fc kw origin ofile T.base
  return { runOf kw units origin T [] c with ofile := ofile }

end

end CT
