/-
Model of the state held by `StarCluster` that unit and origin conversions act on, of
`StarCluster.analyze` / `StarCluster.sortstars`, and of every conversion in
`clustertools/cluster/operations.py`.

Exact arithmetic over `ℝ`; exceptions are values (`Except Err`).
-/
import Mathlib.Analysis.SpecialFunctions.Trigonometric.Basic
import Mathlib.Analysis.Real.Sqrt

namespace CT

noncomputable section

/-- Unit labels.  cluster/cluster.py:40-118 (docstring), operations.py:811-851.  `other` stands for any
string the library does not know. -/
inductive Units
  | nbody | pckms | pcmyr | kpckms | kpcgyr | galpy | WDunits | radec | amuse | other
  deriving DecidableEq, Repr

/-- Origin labels, operations.py:1301-1313. `other`: any unknown string. -/
inductive Origin
  | centre | cluster | galaxy | sky | other
  deriving DecidableEq, Repr

/-- Binary-unit labels, operations.py:421-432, 853-920.  `StarCluster.__init__` (cluster.py:148) copies the
cluster's unit label into `bunits`, hence `other` for e.g. `"pckms"`. -/
inductive BUnits
  | nbody | audays | sudays | other
  deriving DecidableEq, Repr

/-- `centre_method` values, operations.py:956-960, 1056-1060. -/
inductive CentreMethod
  | orthographic | vandeven | other
  deriving DecidableEq, Repr

/-- Python exceptions reachable in the modelled functions. -/
inductive Err
  | valueError | indexError | shapeError | nameError | typeError | keyError | attributeError | structError | linAlgError | osError
  deriving DecidableEq, Repr

/-- One row of the six parallel phase-space arrays `x,y,z,vx,vy,vz`. -/
@[ext] structure Ph where
  x : ℝ
  y : ℝ
  z : ℝ
  vx : ℝ
  vy : ℝ
  vz : ℝ

instance : Inhabited Ph := ⟨⟨0, 0, 0, 0, 0, 0⟩⟩

/-- In-place `x*=k; y*=k; z*=k`. -/
def Ph.mulPos (p : Ph) (k : ℝ) : Ph := { p with x := p.x * k, y := p.y * k, z := p.z * k }
/-- In-place `x/=k; y/=k; z/=k`. -/
def Ph.divPos (p : Ph) (k : ℝ) : Ph := { p with x := p.x / k, y := p.y / k, z := p.z / k }
/-- In-place `vx*=k; vy*=k; vz*=k`. -/
def Ph.mulVel (p : Ph) (k : ℝ) : Ph := { p with vx := p.vx * k, vy := p.vy * k, vz := p.vz * k }
/-- In-place `vx/=k; vy/=k; vz/=k`. -/
def Ph.divVel (p : Ph) (k : ℝ) : Ph := { p with vx := p.vx / k, vy := p.vy / k, vz := p.vz / k }
/-- In-place `x+=q.x; …; vz+=q.vz`. -/
def Ph.add (p q : Ph) : Ph :=
  ⟨p.x + q.x, p.y + q.y, p.z + q.z, p.vx + q.vx, p.vy + q.vy, p.vz + q.vz⟩
/-- In-place `x-=q.x; …; vz-=q.vz`. -/
def Ph.sub (p q : Ph) : Ph :=
  ⟨p.x - q.x, p.y - q.y, p.z - q.z, p.vx - q.vx, p.vy - q.vy, p.vz - q.vz⟩

/-- What the accessors of a galpy `Orbit` return: `cart` for `.x() … .vz()` (kpc, km/s, galactocentric),
`sky` for `.ra() … .vlos()`. -/
structure OrbitObj where
  cart : Ph
  sky : Ph

/-- External galpy functions (parameters of the model).
`toSky`/`ofSky`: the coordinate map inside `Orbit` for the cluster's `ro,vo,zo,solarmotion`;
`toSky0` the same with `solarmotion=[0,0,0]` (orbits.py:183);
`timeGyr, massMsol, velKpcGyr` are `conversion.time_in_Gyr, mass_in_msol, velocity_in_kpcGyr` at the
cluster's `ro, vo`. -/
structure Galpy where
  toSky : Ph → Ph
  ofSky : Ph → Ph
  toSky0 : Ph → Ph
  ro : ℝ
  vo : ℝ
  timeGyr : ℝ
  massMsol : ℝ
  velKpcGyr : ℝ

/-- `Orbit([R,vR,vT,z,vz,phi], ro, vo, …)` built from galpy-unit cartesian `p` (orbits.py:109-113, 177-185;
operations.py:475-480).  The cylindrical detour is folded into the parameter. -/
def Galpy.orbitOfGalpy (g : Galpy) (p : Ph) : OrbitObj :=
  { cart := (p.mulPos g.ro).mulVel g.vo, sky := g.toSky ((p.mulPos g.ro).mulVel g.vo) }

/-- As above with `solarmotion=[0,0,0]` (orbits.py:183). -/
def Galpy.orbitOfGalpy0 (g : Galpy) (p : Ph) : OrbitObj :=
  { cart := (p.mulPos g.ro).mulVel g.vo, sky := g.toSky0 ((p.mulPos g.ro).mulVel g.vo) }

/-- `Orbit([ra,dec,dist,pmra,pmdec,vlos], radec=True, …)` (orbits.py:75-89, 154-163). -/
def Galpy.orbitOfSky (g : Galpy) (s : Ph) : OrbitObj := { cart := g.ofSky s, sky := s }

/-- Result of `StarCluster.analyze` (cluster.py:1390-1422). -/
structure Derived where
  units : Option Units
  origin : Option Origin
  r : List ℝ
  rpro : List ℝ
  v : List ℝ
  vpro : List ℝ
  mtot : ℝ
  mmean : ℝ
  rmean : ℝ
  rmeanpro : ℝ
  rmax : ℝ
  rmaxpro : ℝ
  rm : Option ℝ
  r10 : Option ℝ
  rmpro : Option ℝ
  r10pro : Option ℝ

/-- Binary-star attributes converted by `to_audays/to_sudays/to_nbody` (cluster.py:340-344, 1185-1270). -/
structure Bin where
  semi : List ℝ
  pb : List ℝ
  m1 : List ℝ
  m2 : List ℝ

/-- The part of `StarCluster` the conversions act on (cluster.py:120-406). -/
structure Cluster where
  units : Option Units
  origin : Option Origin
  tphys : ℝ
  m : List ℝ
  /-- rows of `x,y,z,vx,vy,vz` -/
  st : List Ph
  /-- `xc … vzc` -/
  c : Ph
  /-- `xgc … vzgc` -/
  gc : Ph
  zmbar : ℝ
  rbar : ℝ
  vbar : ℝ
  tbar : ℝ
  /-- binaries -/
  bunits : Option BUnits
  nb : ℕ
  bin : Bin
  rbarSu : ℝ
  rbarAu : ℝ
  tbarDays : ℝ
  /-- sky coordinates `ra,dec,dist,pmra,pmdec,vlos` of the stars, of the orbit position and of the centre -/
  sky : List Ph
  skyGc : Ph
  skyC : Ph
  /-- cached galpy orbits `cluster.orbit`, `cluster.orbits` -/
  orbit : Option OrbitObj
  orbits : Option (List OrbitObj)
  /-- `xcn,ycn,zcn` -/
  xcn : Option (ℝ × ℝ × ℝ)
  centreMethod : Option CentreMethod
  /-- `self.projected` -/
  projected : Bool
  rorder : Option (List ℕ)
  rorderOrigin : Option Origin
  rproorder : Option (List ℕ)
  d : Derived

/-- 1 km/s in pc/Myr as written in the code: `1.022712165045695` (operations.py:130 and passim). -/
def kmsToPcMyr : ℝ := 1.022712165045695

/-- `mcon` (operations.py:266, 688). -/
def mconWD : ℝ := 222288.4543021174

/-! ### analyze and sortstars -/

/-- `np.argsort`: indices of `r` in non-decreasing order of value (stable; numpy leaves ties unspecified). -/
def argsort (r : List ℝ) : List ℕ :=
  (List.range r.length).mergeSort (fun i j => decide (r.getD i 0 ≤ r.getD j 0))

/-- `np.cumsum` started from `acc`. -/
def cumsumFrom (acc : ℝ) : List ℝ → List ℝ
  | [] => []
  | a :: l => (acc + a) :: cumsumFrom (acc + a) l

/-- `np.cumsum`. -/
def cumsum (l : List ℝ) : List ℝ := cumsumFrom 0 l

/-- `order[np.cumsum(m[order]) >= f*mtot][0]` and then `r[…]` (cluster.py:1411-1415, 1418-1422).
Out-of-range fancy indexing and an empty selection raise `IndexError`. -/
def massFracRadius (f mtot : ℝ) (m r : List ℝ) (order : List ℕ) : Except Err ℝ :=
  match order.mapM (fun i => m[i]?) with
  | none => .error .indexError
  | some ms =>
    match (cumsum ms).findIdx? (fun s => decide (s ≥ f * mtot)) with
    | none => .error .indexError
    | some k =>
      match order[k]? with
      | none => .error .indexError
      | some i =>
        match r[i]? with
        | none => .error .indexError
        | some v => .ok v

/-- The `if self.rorder is not None:` / `if self.rproorder is not None:` blocks of analyze
(cluster.py:1410-1422); `None` leaves the previous values in place. -/
def massRadii (order : Option (List ℕ)) (mtot : ℝ) (m r : List ℝ) (old : Option ℝ × Option ℝ) :
    Except Err (Option ℝ × Option ℝ) :=
  match order with
  | none => .ok old
  | some o => do
    let a ← massFracRadius 0.5 mtot m r o
    let b ← massFracRadius 0.1 mtot m r o
    return (some a, some b)

/-- `np.sqrt(x**2+y**2+z**2)` (cluster.py:1393). -/
def Ph.r (p : Ph) : ℝ := Real.sqrt (p.x ^ 2 + p.y ^ 2 + p.z ^ 2)
/-- `np.sqrt(x**2+y**2)` (cluster.py:1394). -/
def Ph.rpro (p : Ph) : ℝ := Real.sqrt (p.x ^ 2 + p.y ^ 2)
/-- `np.sqrt(vx**2+vy**2+vz**2)` (cluster.py:1395). -/
def Ph.v (p : Ph) : ℝ := Real.sqrt (p.vx ^ 2 + p.vy ^ 2 + p.vz ^ 2)
/-- `np.sqrt(vx**2+vy**2)` (cluster.py:1396). -/
def Ph.vpro (p : Ph) : ℝ := Real.sqrt (p.vx ^ 2 + p.vy ^ 2)

/-- `np.mean`. -/
def mean (l : List ℝ) : ℝ := l.sum / l.length

/-- `np.max` of a non-empty array (the empty case is rejected in `analyze`). -/
def maxOf (l : List ℝ) : ℝ := l.foldl max (l.headD 0)

/-- `StarCluster.sortstars` (cluster.py:1488-1513), reading `r`, `rpro` from the given lists (they have just
been stored in `self.r`, `self.rpro`). -/
def sortstars (projected : Bool) (r rpro : List ℝ) (c : Cluster) : Cluster :=
  let c1 :=
    match c.rorder with
    | none => { c with rorder := some (argsort r), rorderOrigin := c.origin }
    | some o =>
      if c.rorderOrigin ≠ c.origin ∨ r.length ≠ o.length then
        { c with rorder := some (argsort r), rorderOrigin := c.origin }
      else c
  if projected || c1.projected then
    match c1.rproorder with
    | none => { c1 with rproorder := some (argsort rpro) }
    | some o =>
      if c1.rorderOrigin ≠ c1.origin ∨ rpro.length ≠ o.length then
        { c1 with rproorder := some (argsort rpro) }
      else c1
  else c1

/-- `StarCluster.analyze` (cluster.py:1370-1440).  Simplification: clusters without luminosities
(`len(self.lum)==0`), so the half-light block 1425-1440 is skipped. -/
def analyze (sort : Bool) (c : Cluster) (projected : Bool := true) : Except Err Cluster := do
  let r := c.st.map Ph.r
  let rpro := c.st.map Ph.rpro
  if c.st = [] then throw .valueError
  let mtot := c.m.sum
  let c1 := if sort then sortstars projected r rpro c else c
  let (rm, r10) ← massRadii c1.rorder mtot c.m r (c.d.rm, c.d.r10)
  let (rmpro, r10pro) ← massRadii c1.rproorder mtot c.m rpro (c.d.rmpro, c.d.r10pro)
  return { c1 with d :=
    { units := c.units, origin := c.origin, r := r, rpro := rpro,
      v := c.st.map Ph.v, vpro := c.st.map Ph.vpro,
      mtot := mtot, mmean := mean c.m, rmean := mean r, rmeanpro := mean rpro,
      rmax := maxOf r, rmaxpro := maxOf rpro,
      rm := rm, r10 := r10, rmpro := rmpro, r10pro := r10pro } }

/-- `if analyze: cluster.analyze()`. -/
def analyzeIf (a : Bool) (c : Cluster) : Except Err Cluster := if a then analyze true c else .ok c

/-! ### unit conversions -/

/-- `from_amuse` (operations.py:763-808).  An AMUSE quantity is represented by its value in
pc, km/s, MSun, Myr, so stripping the unit changes no number. -/
def fromAmuse (c : Cluster) : Cluster :=
  if c.units = some .amuse then { c with units := some .pckms } else c

/-- `to_sky` restricted to `units == 'radec'` (operations.py:1257-1269, 1275); the other branch is `toSky`. -/
def toSkyRadec (sort : Bool) (c : Cluster) : Except Err Cluster :=
  match c.origin with
  | none => .ok c
  | some _ =>
    analyze sort (if c.origin ≠ some .sky then { c with st := c.sky, origin := some .sky } else c)

/-- `self.initialize_orbit()` in radec units (orbits.py:74-89, cluster.py:3337). -/
def initOrbitSky (g : Galpy) (c : Cluster) : Cluster := { c with orbit := some (g.orbitOfSky c.skyGc) }

/-- `self.initialize_orbits()` in radec units with origin sky (orbits.py:152-163, cluster.py:3365). -/
def initOrbitsSky (g : Galpy) (c : Cluster) : Cluster :=
  { c with orbits := some (c.sky.map g.orbitOfSky) }

/-- operations.py:568-587: the centre is taken from `xcn` or from the stored sky centre. -/
def fromRadecCentre (g : Galpy) (c : Cluster) : Ph :=
  match c.xcn with
  | some (a, b, d) => ⟨a * (c.rbar / 1000), b * (c.rbar / 1000), d * (c.rbar / 1000), 0, 0, 0⟩
  | none => (g.orbitOfSky c.skyC).cart

/-- `from_radec` (operations.py:534-604). -/
def fromRadec (g : Galpy) (c : Cluster) : Except Err Cluster :=
  match c.units with
  | none => .ok c
  | some u => do
    let c ← if u = .radec ∧ c.origin ≠ some .sky then toSkyRadec true c else .ok c
    if c.units = some .radec ∧ c.origin = some .sky then
      let c := match c.orbit with | none => initOrbitSky g c | some _ => c
      let c := match c.orbits with | none => initOrbitsSky g c | some _ => c
      let c := { c with c := fromRadecCentre g c }
      let c := match c.orbits with
        | some os => { c with st := os.map OrbitObj.cart }
        | none => c
      let c := match c.orbit with
        | some o => { c with gc := o.cart }
        | none => c
      return { c with origin := some .galaxy, units := some .kpckms }
    else return c

/-- The second `if/elif` chain of `to_pckms` (operations.py:84-142). -/
def pckmsStep (c : Cluster) : Cluster :=
  if c.units = some .nbody then
    { c with
      tphys := c.tphys * c.tbar
      m := c.m.map (· * c.zmbar)
      st := c.st.map (fun p => (p.mulPos c.rbar).mulVel c.vbar)
      c := (c.c.mulPos c.rbar).mulVel c.vbar
      gc := (c.gc.mulPos c.rbar).mulVel c.vbar
      units := some .pckms }
  else if c.units = some .kpckms then
    { c with
      tphys := c.tphys * 1000
      st := c.st.map (·.mulPos 1000)
      gc := c.gc.mulPos 1000
      c := c.c.mulPos 1000
      units := some .pckms }
  else if c.units = some .pcmyr then
    { c with
      st := c.st.map (·.divVel kmsToPcMyr)
      gc := c.gc.divVel kmsToPcMyr
      c := c.c.divVel kmsToPcMyr
      units := some .pckms }
  else c

/-- The second `if/elif` chain of `to_kpckms` (operations.py:179-278). -/
def kpckmsStep (g : Galpy) (c : Cluster) : Cluster :=
  if c.units = some .galpy then
    { c with
      tphys := c.tphys * g.timeGyr
      m := c.m.map (· * g.massMsol)
      st := c.st.map (fun p => (p.mulPos g.ro).mulVel g.vo)
      c := (c.c.mulPos g.ro).mulVel g.vo
      gc := (c.gc.mulPos g.ro).mulVel g.vo
      units := some .kpckms }
  else if c.units = some .nbody then
    { c with
      tphys := c.tphys * (c.tbar / 1000)
      m := c.m.map (· * c.zmbar)
      st := c.st.map (fun p => (p.mulPos (c.rbar / 1000)).mulVel c.vbar)
      c := (c.c.mulPos (c.rbar / 1000)).mulVel c.vbar
      gc := (c.gc.mulPos (c.rbar / 1000)).mulVel c.vbar
      units := some .kpckms }
  else if c.units = some .pckms then
    { c with
      tphys := c.tphys / 1000
      st := c.st.map (·.divPos 1000)
      gc := c.gc.divPos 1000
      c := c.c.divPos 1000
      units := some .kpckms }
  else if c.units = some .kpcgyr then
    { c with
      st := c.st.map (·.divVel kmsToPcMyr)
      gc := c.gc.divVel kmsToPcMyr
      c := c.c.divVel kmsToPcMyr
      units := some .kpckms }
  else if c.units = some .WDunits then
    { c with
      m := c.m.map (· * mconWD)
      st := c.st.map (·.mulVel (g.vo / g.velKpcGyr))
      c := c.c.mulVel (g.vo / g.velKpcGyr)
      gc := c.gc.mulVel (g.vo / g.velKpcGyr)
      units := some .kpckms }
  else c

/-- `to_kpckms` (operations.py:146-281).  The recursive call `cluster.to_pckms(analyze=False)` happens only
for `pcmyr`, where `to_pckms` reduces to `pckmsStep`. -/
def toKpckms (g : Galpy) (a : Bool) (c : Cluster) : Except Err Cluster :=
  match c.units with
  | none => .ok c
  | some u => do
    let c ←
      if u = .radec then fromRadec g c
      else if u = .pcmyr then .ok (pckmsStep c)
      else if u = .amuse then .ok (fromAmuse c)
      else .ok c
    analyzeIf a (kpckmsStep g c)

/-- `to_pckms` (operations.py:56-144). -/
def toPckms (g : Galpy) (a : Bool) (c : Cluster) : Except Err Cluster :=
  match c.units with
  | none => .ok c
  | some u => do
    let c ←
      if u = .galpy ∨ u = .radec ∨ u = .WDunits ∨ u = .kpcgyr then toKpckms g false c
      else if u = .amuse then .ok (fromAmuse c)
      else .ok c
    analyzeIf a (pckmsStep c)

/-- operations.py:310-322 (also 351-363): `v*=1.0227…` on stars, orbit position and centre, new label. -/
def mulVelLabel (u : Units) (c : Cluster) : Cluster :=
  { c with
    st := c.st.map (·.mulVel kmsToPcMyr)
    gc := c.gc.mulVel kmsToPcMyr
    c := c.c.mulVel kmsToPcMyr
    units := some u }

/-- `to_pcmyr` (operations.py:283-323). -/
def toPcmyr (g : Galpy) (a : Bool) (c : Cluster) : Except Err Cluster :=
  match c.units with
  | none => .ok c
  | some u => do
    let c ← if u ≠ .pckms ∧ u ≠ .pcmyr then toPckms g false c else .ok c
    if c.units ≠ some .pcmyr then analyzeIf a (mulVelLabel .pcmyr c) else return c

/-- `to_kpcgyr` (operations.py:325-364). -/
def toKpcgyr (g : Galpy) (a : Bool) (c : Cluster) : Except Err Cluster :=
  match c.units with
  | none => .ok c
  | some u => do
    let c ← if u ≠ .kpckms ∧ u ≠ .kpcgyr then toKpckms g false c else .ok c
    if c.units ≠ some .kpcgyr then analyzeIf a (mulVelLabel .kpcgyr c) else return c

/-- The star part of `to_nbody` (operations.py:395-419). -/
def nbodyStep (c : Cluster) : Cluster :=
  if c.units ≠ some .nbody then
    { c with
      tphys := c.tphys / c.tbar
      m := c.m.map (· / c.zmbar)
      st := c.st.map (fun p => (p.divPos c.rbar).divVel c.vbar)
      c := (c.c.divPos c.rbar).divVel c.vbar
      gc := (c.gc.divPos c.rbar).divVel c.vbar
      units := some .nbody }
  else c

/-- `semi/=a; pb/=t; m1/=z; m2/=z`. -/
def Bin.div (b : Bin) (a t z : ℝ) : Bin :=
  { semi := b.semi.map (· / a), pb := b.pb.map (· / t), m1 := b.m1.map (· / z), m2 := b.m2.map (· / z) }
/-- `semi*=a; pb*=t; m1*=z; m2*=z`. -/
def Bin.mul (b : Bin) (a t z : ℝ) : Bin :=
  { semi := b.semi.map (· * a), pb := b.pb.map (· * t), m1 := b.m1.map (· * z), m2 := b.m2.map (· * z) }

/-- The binary part of `to_nbody` (operations.py:421-432). -/
def nbodyBinStep (c : Cluster) : Cluster :=
  if c.bunits = some .audays ∧ c.nb > 0 then
    { c with bin := c.bin.div c.rbarAu c.tbarDays c.zmbar, bunits := some .nbody }
  else if c.bunits = some .sudays ∧ c.nb > 0 then
    { c with bin := c.bin.div c.rbarSu c.tbarDays c.zmbar, bunits := some .nbody }
  else c

/-- `to_nbody` (operations.py:367-434).  The `analyze` argument is ignored by the code: it always analyses. -/
def toNbody (g : Galpy) (c : Cluster) : Except Err Cluster :=
  match c.units with
  | none => .ok c
  | some u => do
    let c ← if u ≠ .pckms ∧ u ≠ .nbody then toPckms g false c else .ok c
    analyze true (nbodyBinStep (nbodyStep c))

/-- operations.py:634-658. -/
def galpyStep (g : Galpy) (c : Cluster) : Cluster :=
  if c.units = some .kpckms then
    { c with
      tphys := c.tphys / g.timeGyr
      m := c.m.map (· / g.massMsol)
      st := c.st.map (fun p => (p.divPos g.ro).divVel g.vo)
      c := (c.c.divPos g.ro).divVel g.vo
      gc := (c.gc.divPos g.ro).divVel g.vo
      units := some .galpy }
  else c

/-- `to_galpy` (operations.py:606-660); always analyses. -/
def toGalpy (g : Galpy) (c : Cluster) : Except Err Cluster :=
  match c.units with
  | none => .ok c
  | some u => do
    let c ← if u ≠ .kpckms ∧ u ≠ .galpy then toKpckms g false c else .ok c
    analyze true (galpyStep g c)

/-- `to_WDunits` (operations.py:662-708). -/
def toWD (g : Galpy) (c : Cluster) : Except Err Cluster :=
  match c.units with
  | none => .ok c
  | some u => do
    let c ← if u ≠ .kpckms ∧ u ≠ .WDunits then toKpckms g false c else .ok c
    if c.units ≠ some .WDunits then
      analyze true { c with
        m := c.m.map (· / mconWD)
        st := c.st.map (·.divVel (g.vo / g.velKpcGyr))
        c := c.c.divVel (g.vo / g.velKpcGyr)
        gc := c.gc.divVel (g.vo / g.velKpcGyr)
        units := some .WDunits }
    else return c

/-- `to_amuse` (operations.py:710-761).  No `units is None` guard in the code. -/
def toAmuse (g : Galpy) (a : Bool) (c : Cluster) : Except Err Cluster :=
  if c.units ≠ some .amuse then do
    let c ← toPckms g false c
    analyzeIf a { c with units := some .amuse }
  else .ok c

/-- `to_units` (operations.py:811-851) for every target except `radec` (see `toUnits`). -/
def toUnitsNR (g : Galpy) (t : Units) (c : Cluster) : Except Err Cluster :=
  match c.units with
  | none => .ok c
  | some _ =>
    match t with
    | .nbody => toNbody g c
    | .galpy => toGalpy g c
    | .pckms => toPckms g true c
    | .kpckms => toKpckms g true c
    | .WDunits => toWD g c
    | .pcmyr => toPcmyr g true c
    | .kpcgyr => toKpcgyr g true c
    | .amuse => toAmuse g true c
    | .radec => .ok c
    | .other => .ok c

/-! ### binary units -/

/-- `to_sudays` (operations.py:853-886). -/
def toSudays (c : Cluster) : Cluster :=
  match c.bunits with
  | none => c
  | some _ =>
    let c := if c.bunits = some .audays then
        { c with bin := c.bin.div c.rbarAu c.tbarDays c.zmbar, bunits := some .nbody } else c
    let c := if c.bunits = some .nbody then
        { c with bin := c.bin.mul c.rbarSu c.tbarDays c.zmbar } else c
    { c with bunits := some .sudays }

/-- `to_audays` (operations.py:888-920). -/
def toAudays (c : Cluster) : Cluster :=
  match c.bunits with
  | none => c
  | some _ =>
    let c := if c.bunits = some .sudays then
        { c with bin := c.bin.div c.rbarSu c.tbarDays c.zmbar, bunits := some .nbody } else c
    if c.bunits = some .nbody then
        { c with bin := c.bin.mul c.rbarAu c.tbarDays c.zmbar, bunits := some .audays } else c

/-! ### origin changes -/

/-- `np.radians`. -/
def radians (x : ℝ) : ℝ := x * (Real.pi / 180)

/-- Row of `_get_orthographic_centre` (operations.py:1103-1142); `pm` is the row's stored `pmdec`,
`q` the reference point (centre or orbit position), `gc` the orbit position (used for the velocity offset in
both cases). -/
def orthographicRow (q gc : Ph) (p : Ph) (pmdec : ℝ) : Ph :=
  let ra := radians p.x
  let dec := radians p.y
  let ra0 := radians q.x
  let dec0 := radians q.y
  { x := Real.cos dec * Real.sin (ra - ra0) * (180 / Real.pi)
    y := (Real.sin dec * Real.cos dec0 - Real.cos dec * Real.sin dec0 * Real.cos (ra - ra0))
          * (180 / Real.pi)
    z := p.z - q.z
    vx := (p.vx * Real.cos (ra - ra0) - p.vy * Real.sin dec * Real.sin (ra - ra0)) - gc.vx
    vy := (p.vx * Real.sin dec0 * Real.sin (ra - ra0)
            + pmdec * (Real.cos dec * Real.cos dec0 + Real.sin dec * Real.sin dec0 * Real.cos (ra - ra0)))
          - gc.vy
    vz := p.vz - q.vz }

/-- Row of `_get_vandeven_centre` (operations.py:1155-1187). -/
def vandevenRow (q : Ph) (p : Ph) : Ph :=
  let ra := radians p.x
  let dec := radians p.y
  let ra0 := radians q.x
  let dec0 := radians q.y
  { x := (180 / Real.pi) * Real.cos dec * Real.sin (ra - ra0)
    y := (180 / Real.pi) *
          (Real.sin dec * Real.cos dec0 - Real.cos dec * Real.sin dec0 * Real.cos (ra - ra0))
    z := p.z - q.z
    vx := p.vx - q.vx
    vy := p.vy - q.vy
    vz := p.vz - q.vz }

/-- Row of the default sky recentring (operations.py:962-969, 1062-1069). -/
def flatRow (q : Ph) (p : Ph) : Ph :=
  { x := (p.x - q.x) * Real.cos (radians q.y)
    y := p.y - q.y
    z := p.z - q.z
    vx := p.vx - q.vx
    vy := p.vy - q.vy
    vz := p.vz - q.vz }

/-- The `centre_method` switch (operations.py:956-969, 1056-1069) about reference point `q`. -/
def skyRecentre (q : Ph) (c : Cluster) : Except Err Cluster :=
  match c.centreMethod with
  | some .orthographic =>
    if c.sky.length = c.st.length then
      .ok { c with st := List.zipWith (fun p s => orthographicRow q c.gc p s.vy) c.st c.sky }
    else .error .shapeError
  | some .vandeven => .ok { c with st := c.st.map (vandevenRow q) }
  | _ => .ok { c with st := c.st.map (flatRow q) }

/-- `if centre_method is not None: cluster.centre_method = centre_method`. -/
def setMethod (cm : Option CentreMethod) (c : Cluster) : Cluster :=
  match cm with
  | none => c
  | some k => { c with centreMethod := some k }

/-- `to_cluster` (operations.py:1013-1089). -/
def toCluster (sort : Bool) (cm : Option CentreMethod) (c : Cluster) : Except Err Cluster :=
  match c.origin with
  | none => .ok c
  | some o =>
    let c := setMethod cm c
    if o ≠ .cluster then do
      let c ←
        if c.units = some .radec then do
          let c ← if o ≠ .sky then toSkyRadec true c else .ok c
          skyRecentre c.gc c
        else if o = .centre then .ok { c with st := c.st.map (·.add c.c) }
        else if o = .galaxy then .ok { c with st := c.st.map (·.sub c.gc) }
        else .ok c
      analyze sort { c with origin := some .cluster }
    else .ok c

/-- `to_centre` (operations.py:922-985; `to_center` 987-1010 forwards to it). -/
def toCentre (sort : Bool) (cm : Option CentreMethod) (c : Cluster) : Except Err Cluster :=
  match c.origin with
  | none => .ok c
  | some o =>
    let c := setMethod cm c
    if o ≠ .centre then do
      let c ←
        if c.units = some .radec then do
          let c ← if o ≠ .sky then toSkyRadec true c else .ok c
          skyRecentre c.c c
        else do
          let c ← if o ≠ .cluster then toCluster true cm c else .ok c
          .ok { c with st := c.st.map (·.sub c.c) }
      analyze sort { c with origin := some .centre }
    else .ok c

/-- `to_galaxy` (operations.py:1189-1231). -/
def toGalaxy (g : Galpy) (sort : Bool) (c : Cluster) : Except Err Cluster :=
  match c.origin with
  | none => .ok c
  | some o => do
    let c ←
      if c.units = some .radec then do
        let c ← if o ≠ .sky then toSkyRadec true c else .ok c
        fromRadec g c
      else if o ≠ .galaxy then do
        let c ← if o = .centre then toCluster false none c else .ok c
        .ok { c with st := c.st.map (·.add c.gc), origin := some .galaxy }
      else .ok c
    analyze sort c

/-- The end of `StarCluster.return_cluster` as used by `initialize_orbit(s)` outside radec units
(orbits.py:92-115; cluster.py:1981-2009; operations.py:1365-1372): `to_galpy` changed the units only, so
only the unit branch can fire. -/
def returnUnitsNR (g : Galpy) (units0 : Option Units) (rorder0 : Option (List ℕ))
    (rorderOrigin0 : Option Origin) (c : Cluster) : Except Err Cluster := do
  let c ← match units0 with
    | none => .ok c
    | some u => if c.units ≠ some u then toUnitsNR g u c else .ok c
  analyze true { c with rorder := rorder0, rorderOrigin := rorderOrigin0 }

/-- `self.initialize_orbit()` outside radec units, `from_centre=False` (orbits.py:90-118, cluster.py:3337). -/
def initOrbit (g : Galpy) (c : Cluster) : Except Err Cluster := do
  let c1 ← toGalpy g c
  let o := g.orbitOfGalpy c1.gc
  let c2 ← returnUnitsNR g c.units c.rorder c.rorderOrigin c1
  return { c2 with orbit := some o }

/-- `self.initialize_orbits()` outside radec units (orbits.py:167-190, cluster.py:3365). -/
def initOrbits (g : Galpy) (c : Cluster) : Except Err Cluster := do
  let c1 ← toGalpy g c
  let os :=
    if c1.origin = some .cluster ∨ c1.origin = some .centre then c1.st.map g.orbitOfGalpy0
    else c1.st.map g.orbitOfGalpy
  let c2 ← returnUnitsNR g c.units c.rorder c.rorderOrigin c1
  return { c2 with orbits := some os }

/-- operations.py:475-525: fill the sky attributes from the cached orbits and switch to them. -/
def radecFill (g : Galpy) (c : Cluster) : Cluster :=
  let oc : Ph := g.toSky (c.gc.add c.c)
  let c := match c.orbits with
    | some os => { c with sky := os.map OrbitObj.sky }
    | none => c
  let c := match c.orbit with
    | some o => { c with skyGc := o.sky }
    | none => c
  { c with skyC := oc, st := c.sky, gc := c.skyGc, c := oc,
           units := some .radec, origin := some .sky }

/-- `to_radec` (operations.py:436-532). -/
def toRadec (g : Galpy) (sort : Bool) (cm : Option CentreMethod) (a : Bool) (c : Cluster) :
    Except Err Cluster :=
  match c.units with
  | none => .ok c
  | some u =>
    let origin0 := c.origin
    if u ≠ .radec then do
      let c ← toKpckms g false c
      let c ← toGalaxy g true c
      let c ← match c.orbit with | none => initOrbit g c | some _ => .ok c
      let c ← match c.orbits with | none => initOrbits g c | some _ => .ok c
      let c := radecFill g c
      let c ←
        if origin0 = some .cluster then toCluster true cm c
        else if origin0 = some .centre then toCentre true cm c
        else .ok c
      if a then analyze sort c else return c
    else .ok c

/-- `to_sky` (operations.py:1234-1275). -/
def toSky (g : Galpy) (sort : Bool) (cm : Option CentreMethod) (c : Cluster) : Except Err Cluster :=
  match c.origin with
  | none => .ok c
  | some _ => do
    if c.units = some .radec then toSkyRadec sort c
    else
      let c ← toGalaxy g true c
      let c ← toRadec g sort cm true c
      analyze sort c

/-- `to_units` (operations.py:811-851). -/
def toUnits (g : Galpy) (t : Units) (c : Cluster) : Except Err Cluster :=
  match c.units with
  | none => .ok c
  | some _ => if t = .radec then toRadec g false none true c else toUnitsNR g t c

/-- The target names accepted by `to_origin` (operations.py:1304-1313): the origins plus `"radec"`. -/
inductive OriginTarget
  | centre | cluster | galaxy | sky | radec | other
  deriving DecidableEq, Repr

/-- `to_origin` (operations.py:1277-1316). -/
def toOrigin (g : Galpy) (t : OriginTarget) (sort : Bool) (cm : Option CentreMethod) (c : Cluster) :
    Except Err Cluster :=
  match c.origin with
  | none => .ok c
  | some _ => do
    let c ← match t with
      | .centre => toCentre sort cm c
      | .cluster => toCluster sort cm c
      | .galaxy => toGalaxy g sort c
      | .sky => toSky g sort cm c
      | .radec => toRadec g sort cm true c
      | .other => .ok c
    analyze sort c

/-- The origin label as a `to_origin` target. -/
def Origin.target : Origin → OriginTarget
  | .centre => .centre
  | .cluster => .cluster
  | .galaxy => .galaxy
  | .sky => .sky
  | .other => .other

/-- `save_cluster` (operations.py:1319-1337). -/
def saveCluster (c : Cluster) :
    Option Units × Option Origin × Option (List ℕ) × Option Origin :=
  (c.units, c.origin, c.rorder, c.rorderOrigin)

/-- `return_cluster` (operations.py:1340-1372).  `to_units(None)`/`to_origin(None)` match no branch
(but `to_origin` still analyses). -/
def returnCluster (g : Galpy) (s : Option Units × Option Origin × Option (List ℕ) × Option Origin)
    (sort : Bool) (cm : Option CentreMethod) (c : Cluster) : Except Err Cluster := do
  let c ←
    if c.units ≠ s.1 then
      match s.1 with
      | some u => toUnits g u c
      | none => .ok c
    else .ok c
  let c ←
    if c.origin ≠ s.2.1 then
      match s.2.1 with
      | some o => toOrigin g o.target sort cm c
      | none => toOrigin g .other sort cm c
    else .ok c
  analyze true { c with rorder := s.2.2.1, rorderOrigin := s.2.2.2 }

end

end CT
