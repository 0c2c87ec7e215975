/- Clusters from the catalogues and from limepy models (io/limepydf.py). -/
import Verif.Model.Concentration
import Verif.Model.IO
import Verif.Model.Grav

namespace CT

noncomputable section

/-- A row of `data/deBoer2019.dat`: the columns used (limepydf.py:836-839). -/
structure DRow where
  name : String
  W : ℝ
  g : ℝ
  rt : ℝ
  M : ℝ

/-- A row of `data/harris2010.dat` (limepydf.py:890-898). -/
structure HRow where
  name : String
  name2 : String
  mgc : ℝ
  rc : ℝ
  rh : ℝ
  rl : ℝ

/-- The keyword `source`, by which of the tests in the code it satisfies (limepydf.py:761-778).  Strings that contain the names of
both catalogues are not modelled. -/
inductive Source
  | default | deBoer | harris | other
  deriving DecidableEq

/-- The call `_sample_limepy(g=…, phi0=…, M=…, rt=…, N=…)`. -/
structure Sample where
  phi0 : ℝ
  g : ℝ
  M : ℝ
  rt : ℝ
  N : ℤ

/-- The call `_get_deBoer_cluster(ddata, gcname, mbar, **kwargs)` as far as `_sample_limepy` (limepydf.py:814-842); `kwargs` is not
used. -/
def deBoerSample (D : List DRow) (nm : String) (mbar : ℝ) : Except Err Sample :=
  (D.find? (fun r => r.name = nm)).elim (.error .indexError) (fun r => .ok ⟨r.W, r.g, r.M, r.rt, truncZ (r.M / mbar)⟩)

/-- The call `_get_harris_cluster(hdata, gcname, mbar, **kwargs)` as far as `_sample_limepy` (limepydf.py:890-904). -/
def harrisSample (H : List HRow) (nm : String) (mbar : ℝ) (N : Option ℝ) : Except Err Sample :=
  (H.find? (fun r => r.name = nm ∨ r.name2 = nm)).elim (.error .indexError) (fun r => do
    let w ← cToW0 (Real.logb 10 (r.rl / r.rc))
    return ⟨w, 1, r.mgc, r.rl, truncZ (N.getD (r.mgc / mbar))⟩)

/-- The branch of `_get_cluster` for de Boer's catalogue when the name is not in it (limepydf.py:765-775).  If the name is in
neither column of Harris's catalogue `cluster` has no value. -/
def deBoerOther (D : List DRow) (H : List HRow) (nm : String) (mbar : ℝ) : Except Err Sample :=
  (H.find? (fun r => r.name = nm)).elim
    ((H.find? (fun r => r.name2 = nm)).elim (.error .nameError) (fun r => deBoerSample D r.name mbar))
    (fun r => deBoerSample D r.name2 mbar)

/-- `_get_cluster(gcname, source, mbar, N=…)` (limepydf.py:705-789): which model is sampled, `none` for the empty cluster.  `up` is
`str.upper`. -/
def getClusterSample (up : String → String) (D : List DRow) (H : List HRow) (gcname : String) (s : Source) (mbar : ℝ) (N : Option ℝ) :
    Except Err (Option Sample) :=
  if s = .default ∨ s = .deBoer then
    if up gcname ∈ D.map DRow.name then (deBoerSample D (up gcname) mbar).map some
    else (deBoerOther D H (up gcname) mbar).map some
  else if s = .harris ∧ (up gcname ∈ H.map HRow.name ∨ up gcname ∈ H.map HRow.name2) then (harrisSample H (up gcname) mbar N).map some
  else .ok none

/-- `cluster.orbit = orbit; …; cluster.add_orbit(…, "kpckms")`, or the call of the function of the same name with the orbit file
(limepydf.py:113-128, 927): it has no parameter `advance`. -/
def limepyOrbit (g : Galpy) (orbit : Option (ℝ → Ph)) (T0 : ℝ) (ofile : Option (List Line)) (c : Cluster) : Except Err Cluster :=
  orbit.elim (if ofile.isSome then .error .typeError else .ok c)
    (fun orb => .ok (addOrbit g (orb (c.tphys / 1000 / T0)) (some .kpckms) none c))

/-- The end of `_get_limepy` (limepydf.py:109-133) for a cluster with stars. -/
def limepyEnd (g : Galpy) (o : Origin) (orbit : Option (ℝ → Ph)) (T0 : ℝ) (ofile : Option (List Line)) (c : Cluster) : Except Err Cluster := do
  let c ← limepyOrbit g orbit T0 ofile c
  let c ← if o = .galaxy then toGalaxy g true c else .ok c
  analyze true c

/-- `if cluster.origin!=origin: cluster.to_origin(origin)` (limepydf.py:98-99, 106-107). -/
def limepyOrigin (g : Galpy) (o : Origin) (c : Cluster) : Except Err Cluster :=
  if c.origin ≠ some o then toOrigin g o.target true none c else .ok c

/-- `_get_limepy(units, origin, orbit, ofile, model=…)` after `_sample_limepy` has returned `c` (limepydf.py:101-144). -/
def limepyModel (g : Galpy) (u : Units) (o : Origin) (orbit : Option (ℝ → Ph)) (T0 : ℝ) (ofile : Option (List Line)) (c : Cluster) :
    Except Err Cluster := do
  let c ← limepyOrigin g o { c with units := some u, bunits := bunitsOfUnits (some u) }
  limepyEnd g o orbit T0 ofile c

/-- `if cluster.units!=units: …; cluster.to_units(units)` (limepydf.py:94-96), for units other than `nbody`. -/
def limepyUnits (g : Galpy) (u : Units) (c : Cluster) : Except Err Cluster :=
  if c.units ≠ some u then toUnits g u c else .ok c

/-- `_get_limepy(units, origin, orbit, ofile, gcname=…)` after `_get_cluster` has returned `c` (limepydf.py:89-99, 109-144), for units
other than `nbody`. -/
def limepyNamed (g : Galpy) (u : Units) (o : Origin) (orbit : Option (ℝ → Ph)) (T0 : ℝ) (ofile : Option (List Line)) (c : Cluster) :
    Except Err Cluster := do
  let c ← limepyUnits g u c
  let c ← limepyOrigin g o c
  limepyEnd g o orbit T0 ofile c

end

end CT
