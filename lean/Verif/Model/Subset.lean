/- Selecting stars: `_get_subset`, `sub_cluster`, `overlap_cluster` (cluster/cluster.py). -/
import Verif.Model.Stars
import Verif.Model.Energy

namespace CT

noncomputable section

/-- Keyword arguments of `_get_subset` (cluster.py:3838-3854) other than the mask. -/
structure SubArgs where
  rmin : Option ℝ := none
  rmax : Option ℝ := none
  mmin : Option ℝ := none
  mmax : Option ℝ := none
  vmin : Option ℝ := none
  vmax : Option ℝ := none
  emin : Option ℝ := none
  emax : Option ℝ := none
  kwmin : ℤ := 0
  kwmax : ℤ := 15
  npop : Option ℤ := none
  projected : Bool := false

/-- The attributes `_get_subset` reads (cluster.py:3887-3945). -/
structure View where
  ntot : ℕ
  r : List ℝ
  rpro : List ℝ
  v : List ℝ
  vpro : List ℝ
  m : List ℝ
  npop : List ℤ
  kw : List ℤ
  etot : List ℝ

/-- `np.amin`; an empty array raises. -/
def aminE (l : List ℝ) : Except Err ℝ :=
  match l with
  | [] => .error .valueError
  | a :: l => .ok (l.foldl min a)

/-- `np.amax`; an empty array raises. -/
def amaxE (l : List ℝ) : Except Err ℝ :=
  match l with
  | [] => .error .valueError
  | a :: l => .ok (l.foldl max a)

/-- `if rmin == None: rmin = np.amin(r)` (cluster.py:3894-3905). -/
def orMin (b : Option ℝ) (l : List ℝ) : Except Err ℝ :=
  match b with
  | some b => .ok b
  | none => aminE l

/-- `if rmax == None: rmax = np.amax(r)`. -/
def orMax (b : Option ℝ) (l : List ℝ) : Except Err ℝ :=
  match b with
  | some b => .ok b
  | none => amaxE l

/-- `l >= b`. -/
def geMask (l : List ℝ) (b : ℝ) : List Bool := l.map (fun x => decide (b ≤ x))
/-- `l <= b`. -/
def leMask (l : List ℝ) (b : ℝ) : List Bool := l.map (fun x => decide (x ≤ b))

/-- `a * b` of boolean arrays with numpy broadcasting; `none` is a raised shape error. -/
def mulMask (a b : List Bool) : Option (List Bool) :=
  if a.length = b.length then some (List.zipWith and a b)
  else match a, b with
    | [u], b => some (b.map (and u))
    | a, [v] => some (a.map (fun u => and u v))
    | _, _ => none

/-- `npopindx` (cluster.py:3907-3910). -/
def npopMask (q : SubArgs) (c : View) : List Bool :=
  match q.npop with
  | none => List.replicate c.ntot true
  | some p => c.npop.map (fun x => decide (x = p))

/-- `eindx` (cluster.py:3912-3919). -/
def energyMask (q : SubArgs) (c : View) : List Bool :=
  match q.emin, q.emax with
  | none, some b => leMask c.etot b
  | some a, none => geMask c.etot a
  | some a, some b => List.zipWith and (leMask c.etot b) (geMask c.etot a)
  | none, none => List.replicate c.ntot true

/-- `kwindx` (cluster.py:3921-3924). -/
def kwMask (q : SubArgs) (c : View) : List Bool :=
  if 0 < c.kw.length then
    List.zipWith and (c.kw.map (fun x => decide (q.kwmin ≤ x))) (c.kw.map (fun x => decide (x ≤ q.kwmax)))
  else List.replicate c.ntot true

/-- `a` multiplied by the masks in turn. -/
def mulAll (a : List Bool) : List (List Bool) → Option (List Bool)
  | [] => some a
  | b :: bs => (mulMask a b).bind (fun ab => mulAll ab bs)

/-- The masks of the filter in the order they are multiplied (cluster.py:3887-3945). -/
def filterMasks (q : SubArgs) (c : View) : Except Err (List Bool × List (List Bool)) := do
  let r := if q.projected then c.rpro else c.r
  let v := if q.projected then c.vpro else c.v
  let rmin ← orMin q.rmin r
  let rmax ← orMax q.rmax r
  let vmin ← orMin q.vmin v
  let vmax ← orMax q.vmax v
  let mmin ← orMin q.mmin c.m
  let mmax ← orMax q.mmax c.m
  return (geMask r rmin, [leMask r rmax, geMask c.m mmin, leMask c.m mmax, geMask v vmin, leMask v vmax,
    npopMask q c, kwMask q c, energyMask q c])

/-- Boolean arrays in memory; a mask held by the caller is an index into it. -/
abbrev Mem := List (List Bool)

/-- `indx *= f` in place (cluster.py:3935): the array must keep its shape. -/
def mulInPlace (a f : List Bool) : Option (List Bool) :=
  if a.length = f.length then some (List.zipWith and a f)
  else match f with
    | [v] => some (a.map (fun u => and u v))
    | _ => none

/-- `_get_subset` (cluster.py:3838-3951).  Without a mask (`indx=None` or the default `[None]`) a new array is made;
otherwise the caller's array is multiplied *in place* and returned.  A shape error inside the `try` gives `-1`
(`none`). -/
def getSubset (q : SubArgs) (c : View) (indx : Option ℕ) (mem : Mem) : Except Err (Option ℕ × Mem) := do
  let (a, bs) ← filterMasks q c
  let p := indx.getD mem.length
  let mem := match indx with
    | none => mem ++ [List.replicate c.ntot true]
    | some _ => mem
  match (mulAll a bs).bind (fun f => mulInPlace mem[p]! f) with
  | none => return (none, mem)
  | some w => return (some p, mem.set p w)

/-- A sequence of analyses given the same mask. -/
def subsets : List SubArgs → View → ℕ → Mem → Except Err (List (List Bool) × Mem)
  | [], _, _, mem => .ok ([], mem)
  | q :: qs, c, p, mem => do
    let (r, mem) ← getSubset q c (some p) mem
    let used := match r with
      | none => []
      | some k => mem[k]!
    let (rest, mem) ← subsets qs c p mem
    return (used :: rest, mem)

/-! ### sub_cluster -/

/-- What `sub_cluster` copies besides the star table (cluster.py:4077-4164).  `tab.base` has units, origin, age, centre,
orbit position, scales, `bunits`, `semi/pb/m1/m2`; `tab.id2` is `id2`.  The other binary columns (`kw1 … ospin2`) and
the gyrfalcon columns are selected like these and are not modelled. -/
structure Full where
  tab : Tab
  kw : List ℤ
  logl : List ℝ
  logr : List ℝ
  ep : List ℝ
  ospin : List ℝ
  kin : List ℝ
  pot : List ℝ
  etot : List ℝ
  id1 : List ℤ

/-- The attributes of a cluster that the filter reads. -/
def Full.view (f : Full) : View :=
  { ntot := f.tab.ntot, r := f.tab.base.d.r, rpro := f.tab.base.d.rpro, v := f.tab.base.d.v, vpro := f.tab.base.d.vpro,
    m := f.tab.m, npop := f.tab.npop, kw := f.kw, etot := f.etot }

/-- A new `StarCluster(tphys, units=…, origin=…)` (cluster.py:120-406). -/
def newCluster (units : Option Units) (origin : Option Origin) (bunits : Option BUnits) (tphys : ℝ) : Cluster :=
  { units := units, origin := origin, tphys := tphys, m := [], st := [], c := ⟨0, 0, 0, 0, 0, 0⟩,
    gc := ⟨0, 0, 0, 0, 0, 0⟩, zmbar := 1, rbar := 1, vbar := 1, tbar := 1, bunits := bunits, nb := 0,
    bin := ⟨[], [], [], []⟩, rbarSu := 1, rbarAu := 1, tbarDays := 1, sky := [], skyGc := ⟨0, 0, 0, 0, 0, 0⟩,
    skyC := ⟨0, 0, 0, 0, 0, 0⟩, orbit := none, orbits := none, xcn := none, centreMethod := none, projected := false,
    rorder := none, rorderOrigin := none, rproorder := none,
    d := { units := none, origin := none, r := [], rpro := [], v := [], vpro := [], mtot := 0, mmean := 0, rmean := 0,
           rmeanpro := 0, rmax := 0, rmaxpro := 0, rm := none, r10 := none, rmpro := none, r10pro := none } }

def newTab (b : Cluster) : Tab :=
  { x := [], y := [], z := [], vx := [], vy := [], vz := [], m := [], m0 := [], npop := [], id := [], b1 := [],
    mb1 := [], b2 := [], mb2 := [], id2 := [], nb := 0, ntot := 0, ns := 0, base := b }

def newFull (b : Cluster) : Full :=
  { tab := newTab b, kw := [], logl := [], logr := [], ep := [], ospin := [], kin := [], pot := [], etot := [], id1 := [] }

/-- `self.bunits = units` of the constructor (cluster.py:148): of the unit labels only `nbody` is also a label of
binary units. -/
def bunitsOfUnits : Option Units → Option BUnits
  | some .nbody => some .nbody
  | some _ => some .other
  | none => none

/-- The call of `add_stars` in `sub_cluster` (cluster.py:4051-4063). -/
def subArgs (mask : List Bool) (t : Tab) : StarArgs :=
  { x := .arr (maskSel mask t.x), y := .arr (maskSel mask t.y), z := .arr (maskSel mask t.z)
    vx := .arr (maskSel mask t.vx), vy := .arr (maskSel mask t.vy), vz := .arr (maskSel mask t.vz)
    m := some (.arr (maskSel mask t.m)), id := some (.arr (maskSel mask t.id))
    m0 := some (.arr (maskSel mask t.m0)), npop := some (.arr (maskSel mask t.npop)) }

/-- `np.isin`. -/
def isinMask (l ids : List ℤ) : List Bool := l.map (fun x => decide (x ∈ ids))

/-- Sky columns, scales, centre and method (cluster.py:4065-4083): `add_nbody6` copies `ns` and `nb` of the parent;
`u**1.5` is written `sqrt(u^3)`. -/
def subNbody6 (mask : List Bool) (p : Full) (s : Full) : Full :=
  let b := { s.tab.base with
    sky := if p.tab.base.sky.length = p.tab.x.length then maskSel mask p.tab.base.sky else s.tab.base.sky
    rbar := p.tab.base.rbar, zmbar := p.tab.base.zmbar, vbar := p.tab.base.vbar, tbar := p.tab.base.tbar
    rbarSu := 1.49597870700e13 * (1296000 / (2 * Real.pi)) / 6.957e10 * p.tab.base.rbar
    rbarAu := 1296000 / (2 * Real.pi) * p.tab.base.rbar
    tbarDays := 365.25 * (Real.sqrt ((p.tab.base.rbar * 1296000 / (2 * Real.pi)) ^ 3) / Real.sqrt p.tab.base.zmbar)
    c := { s.tab.base.c with x := p.tab.base.c.x, y := p.tab.base.c.y, z := p.tab.base.c.z }
    xcn := some (p.tab.base.c.x, p.tab.base.c.y, p.tab.base.c.z)
    projected := p.tab.base.projected, centreMethod := p.tab.base.centreMethod }
  { s with tab := { s.tab with base := b, ns := p.tab.ns, nb := p.tab.nb } }

/-- Stellar evolution columns (cluster.py:4085-4101, 1168-1183): `add_sse` on the empty columns; missing `ep`, `ospin`
become zeros. -/
def subSse (mask : List Bool) (p : Full) (s : Full) : Full :=
  if 0 < p.logl.length then
    let kw := maskSel mask p.kw
    if p.ep.length ≠ 0 ∧ p.ospin.length ≠ 0 then
      { s with kw := s.kw ++ kw, logl := s.logl ++ maskSel mask p.logl, logr := s.logr ++ maskSel mask p.logr
               ep := s.ep ++ maskSel mask p.ep, ospin := s.ospin ++ maskSel mask p.ospin }
    else
      { s with kw := s.kw ++ kw, logl := s.logl ++ maskSel mask p.logl, logr := s.logr ++ maskSel mask p.logr
               ep := s.ep ++ List.replicate kw.length 0, ospin := s.ospin ++ List.replicate kw.length 0 }
  else if 0 < p.kw.length then { s with kw := maskSel mask p.kw }
  else s

/-- Binary columns (cluster.py:4104-4148, 1248-1270). -/
def subBse (mask : List Bool) (p : Full) (s : Full) : Full :=
  if 0 < p.tab.id2.length then
    let ids := maskSel mask p.tab.id
    let b := List.zipWith or (isinMask p.id1 ids) (isinMask p.tab.id2 ids)
    let bin := p.tab.base.bin
    let sb := s.tab.base.bin
    let id1 := s.id1 ++ maskSel b p.id1
    { s with
      id1 := id1
      tab := { s.tab with
        id2 := s.tab.id2 ++ maskSel b p.tab.id2
        nb := id1.length
        base := { s.tab.base with
          nb := id1.length
          bin := { semi := sb.semi ++ maskSel b bin.semi, pb := sb.pb ++ maskSel b bin.pb
                   m1 := sb.m1 ++ maskSel b bin.m1, m2 := sb.m2 ++ maskSel b bin.m2 } } } }
  else s

/-- Energies (cluster.py:4150-4153, 1306-1310): `etot` is not copied but recomputed. -/
def subEnergies (mask : List Bool) (p : Full) (s : Full) : Full :=
  if 0 < p.etot.length then
    let kin := maskSel mask p.kin
    let pot := maskSel mask p.pot
    { s with kin := kin, pot := pot, etot := List.zipWith (· + ·) kin pot }
  else s

/-- Orbit position and centre, `reset_centre=False` (cluster.py:4182-4207, 960-993). -/
def subOrbit (p : Full) (s : Full) : Full :=
  { s with tab := { s.tab with base := { s.tab.base with
      gc := p.tab.base.gc, c := p.tab.base.c, skyGc := p.tab.base.skyGc } } }

/-- `sub_cluster(cluster, …, indx=…)` with `reset_centre`, `reset_nbody*` all `False` (cluster.py:3953-4229): the new
cluster and the memory of masks.  For `units == 'radec'` the correction of missing sky data by `add_orbit`
(cluster.py:980-993) is not modelled.  The unit and origin conversions of lines 4222-4223 are never executed, since the
new cluster has the units and origin of the old one. -/
def subCluster (q : SubArgs) (sort : Bool) (p : Full) (indx : Option ℕ) (mem : Mem) : Except Err (Full × Mem) := do
  let (r, mem) ← getSubset q p.view indx mem
  match r with
  | none => return (newFull (newCluster none none none p.tab.base.tphys), mem)
  | some k =>
    let mask := mem[k]!
    if 0 < mask.count true then
      let s := newTab (newCluster p.tab.base.units p.tab.base.origin (bunitsOfUnits p.tab.base.units) p.tab.base.tphys)
      let t ← addStars (subArgs mask p.tab) 0 sort true s
      let s := { newFull s.base with tab := t }
      let s := subOrbit p (subEnergies mask p (subBse mask p (subSse mask p (subNbody6 mask p s))))
      let t ← analyzeTab sort s.tab
      return ({ s with tab := t }, mem)
    else return (newFull (newCluster none none none p.tab.base.tphys), mem)

/-! ### overlap_cluster -/

/-- `dr` (cluster.py:4260-4267). -/
def sepOf (projected : Bool) (a b : Ph) : ℝ :=
  let dx := a.x - b.x
  let dy := a.y - b.y
  if !projected then
    let dz := a.z - b.z
    Real.sqrt (dx ^ 2 + dy ^ 2 + dz ^ 2)
  else Real.sqrt (dx ^ 2 + dy ^ 2)

/-- The loop of `overlap_cluster` (cluster.py:4256-4271). -/
def overlapMask (tol : ℝ) (projected : Bool) (a b : List Ph) : Except Err (List Bool) :=
  a.mapM (fun p => do
    let dr := b.map (sepOf projected p)
    let lo ← aminE dr
    return decide (lo < tol))

/-- `overlap_cluster(…, return_cluster=True)` (cluster.py:4273-4274). -/
def overlapCluster (tol : ℝ) (projected : Bool) (p : Full) (b : List Ph) (mem : Mem) : Except Err (Full × Mem) := do
  let t := p.tab
  let mask ← overlapMask tol projected (rowsOf t.x t.y t.z t.vx t.vy t.vz) b
  subCluster {} true p (some mem.length) (mem ++ [mask])

end

end CT
