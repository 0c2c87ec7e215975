/- HDF5 output of NBODY6++ (files snap.40_<n>.h5part, io/nbody6pp.py), and loading and advancing a cluster from it (io/load.py). -/
import Verif.Model.Nbody6pp
import Verif.Model.Grav
import Verif.Model.History

namespace CT

noncomputable section

/-- A single star of a group: the datasets NAM, X1..X3, V1..V3, M, POT, KW, L, RS (nbody6pp.py:457-479).  The datasets of a group have
the same length. -/
structure H5Star where
  id : ℤ
  row : Ph
  m : ℝ
  pot : ℝ
  kw : ℝ
  lum : ℝ
  rad : ℝ

/-- A binary: the datasets of `Binaries` that are used (nbody6pp.py:481-493). -/
structure H5Pair where
  id1 : ℤ
  id2 : ℤ
  /-- XC, VC: centre of mass; XR, VR: relative position and velocity -/
  com : Ph
  rel : Ph
  m1 : ℝ
  m2 : ℝ
  pot : ℝ
  kw1 : ℝ
  kw2 : ℝ
  kwc : ℝ
  lum1 : ℝ
  lum2 : ℝ
  rad1 : ℝ
  rad2 : ℝ
  a : ℝ
  ecc : ℝ
  p : ℝ

/-- A group `Step#<n>`: attribute `Time`, attribute `N_SINGLE`, the stars, and the binaries if the group has them. -/
structure H5Group where
  time : ℝ
  nSingle : ℕ
  stars : List H5Star
  pairs : Option (List H5Pair)

/-- `f['/Step#%d' % ngroup]` (nbody6pp.py:460): the groups of a file are numbered from 0; a missing one raises `KeyError`. -/
def h5Group (f : List H5Group) (n : ℕ) : Except Err H5Group := (f[n]?).elim (.error .keyError) .ok

/-- Values handed on to the next cluster of the same file (load.py:446-455), and by `add_nbody6` (cluster.py:1065-1094); `rc`, `rtide`,
`rscale`, `ns` are not kept. -/
structure H5Scales where
  nc : ℝ
  rbar : ℝ
  xc : ℝ
  yc : ℝ
  zc : ℝ
  zmbar : ℝ
  vbar : ℝ
  tbar : ℝ
  nb : ℝ
  np : ℝ

/-- `_get_nbody6pp_conf3(…, return_alist_only=True)` (nbody6pp.py:246-322) and the arguments of `add_nbody6` (nbody6pp.py:101-103).  A
file without stars makes the reader return thirteen values, the last of which has number 12: `alist[13]` raises `IndexError`. -/
def headScales (f : Bytes) (nSingle nb : ℕ) : Except Err H5Scales := do
  let s ← readConf3 (some f)
  if ¬ 0 < s.base.n then throw .indexError
  let nc ← alistAt s.base 13
  let _rc ← alistAt s.base 12
  let rbar ← alistAt s.base 2
  let _rtide ← alistAt s.base 4
  let xc ← alistAt s.base 6
  let yc ← alistAt s.base 7
  let zc ← alistAt s.base 8
  let zmbar ← alistAt s.base 3
  let vbar ← alistAt s.base 11
  let tbar ← alistAt s.base 10
  let _rscale ← alistAt s.base 17
  let b ← alistAt s.base 1
  return ⟨nc, rbar, xc, yc, zc, zmbar, vbar, tbar, nb, nSingle + b⟩

/-- `cluster.add_nbody6(…)`. -/
def H5Scales.add (s : H5Scales) (t : Tab) : Tab := addNbody6 s.rbar s.xc s.yc s.zc s.zmbar s.vbar s.tbar s.nb t

/-- The arguments of `add_stars` for binaries (nbody6pp.py:108). -/
def pairStars (l : List H5Pair) : StarArgs :=
  { x := .arr (l.map (fun b => b.com.x)), y := .arr (l.map (fun b => b.com.y)), z := .arr (l.map (fun b => b.com.z))
    vx := .arr (l.map (fun b => b.com.vx)), vy := .arr (l.map (fun b => b.com.vy)), vz := .arr (l.map (fun b => b.com.vz))
    m := some (.arr (l.map (fun b => b.m1 + b.m2))), id := some (.arr (l.map H5Pair.id1)), m0 := none, npop := none }

/-- The arguments of `add_stars` for single stars (nbody6pp.py:139). -/
def singleStars (l : List H5Star) : StarArgs :=
  { x := .arr (l.map (fun s => s.row.x)), y := .arr (l.map (fun s => s.row.y)), z := .arr (l.map (fun s => s.row.z))
    vx := .arr (l.map (fun s => s.row.vx)), vy := .arr (l.map (fun s => s.row.vy)), vz := .arr (l.map (fun s => s.row.vz))
    m := some (.arr (l.map H5Star.m)), id := some (.arr (l.map H5Star.id)), m0 := none, npop := none }

/-- What `add_sse` and `add_bse` store besides the columns kept in `Tab` (cluster.py:1106-1270). -/
structure H5Ev where
  kw : List ℝ
  logl : List ℝ
  logr : List ℝ
  lum : List ℝ
  ltot : ℝ
  id1 : List ℤ
  kw1 : List ℝ
  kw2 : List ℝ
  kcm : List ℝ
  ecc : List ℝ
  logl1 : List ℝ
  logl2 : List ℝ
  logr1 : List ℝ
  logr2 : List ℝ
  eb : List ℝ
  pot : List ℝ

/-- `add_sse(kw, logl, logr)` (cluster.py:1168-1183). -/
def H5Ev.addSse (kw logl logr : List ℝ) (e : H5Ev) : H5Ev :=
  { e with kw := e.kw ++ kw, logl := e.logl ++ logl, logr := e.logr ++ logr
           lum := (e.logl ++ logl).map (fun x : ℝ => (10 : ℝ) ^ x), ltot := ((e.logl ++ logl).map (fun x : ℝ => (10 : ℝ) ^ x)).sum }

/-- `np.log10`; of a positive number. -/
def lg (x : ℝ) : ℝ := Real.logb 10 x

/-- `add_bse(…)` and `add_sse(kw1,lbtot,np.maximum(r1b,r2b))` for the binaries (nbody6pp.py:76-81, 109-118, cluster.py:1248-1270), on a
cluster that has none. -/
def bseOf (l : List H5Pair) : H5Ev :=
  { kw := l.map H5Pair.kw1, logl := l.map (fun b => lg ((10 : ℝ) ^ lg b.lum1 + (10 : ℝ) ^ lg b.lum2)), logr := l.map (fun b => max b.rad1 b.rad2)
    lum := l.map (fun b => (10 : ℝ) ^ lg ((10 : ℝ) ^ lg b.lum1 + (10 : ℝ) ^ lg b.lum2))
    ltot := (l.map (fun b => (10 : ℝ) ^ lg ((10 : ℝ) ^ lg b.lum1 + (10 : ℝ) ^ lg b.lum2))).sum
    id1 := l.map H5Pair.id1, kw1 := l.map H5Pair.kw1, kw2 := l.map H5Pair.kw2, kcm := l.map H5Pair.kwc, ecc := l.map H5Pair.ecc
    logl1 := l.map (fun b => lg b.lum1), logl2 := l.map (fun b => lg b.lum2), logr1 := l.map H5Pair.rad1, logr2 := l.map H5Pair.rad2
    eb := l.map (fun b => 0.5 * b.m1 * b.m2 / b.a), pot := [] }

/-- Nothing stored. -/
def emptyEv : H5Ev := ⟨[], [], [], [], 0, [], [], [], [], [], [], [], [], [], [], []⟩

/-- Component positions and velocities relative to the centre of mass (nbody6pp.py:120-134), `k` being `bm2/bm` or `-bm1/bm`. -/
def relPh (k : ℝ) (p : Ph) : Ph := ⟨k * p.x, k * p.y, k * p.z, k * p.vx, k * p.vy, k * p.vz⟩

/-- The block `if binaries` (nbody6pp.py:107-136): stars at the centres of mass, `add_bse`, `add_binary_stars` with `set_com=False` and
without masses. -/
def addPairs (l : List H5Pair) (t : Tab) : Except Err Tab := do
  let t ← addStars (pairStars l) 0 false false t
  let t := { t with
    id2 := t.id2 ++ l.map H5Pair.id2, nb := l.length
    base := { t.base with bin := ⟨l.map H5Pair.a, l.map H5Pair.p, l.map H5Pair.m1, l.map H5Pair.m2⟩, bunits := some .audays } }
  let t := storeBinaries (l.map (fun b => relPh (b.m2 / (b.m1 + b.m2)) b.rel)) (l.map (fun b => relPh (-b.m1 / (b.m1 + b.m2)) b.rel)) none none t
  return { t with base := { t.base with nb := t.nb } }

/-- All stars of a group (nbody6pp.py:107-145). -/
def addGroup (q : H5Group) (t : Tab) : Except Err (Tab × H5Ev) := do
  let t ← q.pairs.elim (.ok t) (fun l => addPairs l t)
  let t ← addStars (singleStars q.stars) 0 false false t
  let e := (q.pairs.elim emptyEv bseOf).addSse (q.stars.map H5Star.kw) (q.stars.map (fun s => lg s.lum)) (q.stars.map H5Star.rad)
  return (t, { e with pot := q.pairs.elim [] (List.map H5Pair.pot) ++ q.stars.map H5Star.pot })

/-- A conversion applied to the cluster and seen in its columns. -/
def onCluster (f : Cluster → Except Err Cluster) (t : Tab) : Except Err Tab := do
  let c ← f { t.base with st := rowsOf t.x t.y t.z t.vx t.vy t.vz, m := t.m }
  return { t with x := c.st.map Ph.x, y := c.st.map Ph.y, z := c.st.map Ph.z, vx := c.st.map Ph.vx, vy := c.st.map Ph.vy, vz := c.st.map Ph.vz
                  m := c.m, base := c }

/-- `cluster.xc*=cluster.rbar; …; cluster.tphys*=cluster.tbar` (nbody6pp.py:148-152, 155-158). -/
def scaleCentre (t : Tab) : Tab :=
  { t with base := { t.base with c := { t.base.c with x := t.base.c.x * t.base.rbar, y := t.base.c.y * t.base.rbar, z := t.base.c.z * t.base.rbar }
                                 tphys := t.base.tphys * t.base.tbar } }

/-- nbody6pp.py:147-158: with the scales of a header or of the previous cluster; otherwise, at loading, scales are determined from
the stars. -/
def settleScales (g : Galpy) (s : Option H5Scales) (advance : Bool) (t : Tab) : Except Err Tab :=
  if s.isSome then .ok (scaleCentre t)
  else if advance then .ok t
  else do
    let t ← onCluster (resetNbodyScale g true true true t.base.projected) t
    return scaleCentre t

/-- A cluster loaded from HDF5 output. -/
structure H5Run where
  tab : Tab
  ev : H5Ev
  /-- `nc`, `n_p` -/
  nc : ℝ
  np : ℝ
  file : List H5Group
  ngroups : ℕ
  ngroup : ℕ
  nsnap : ℕ
  wdir : String
  snapdir : String
  ofile : Option (List Line)

/-- The scales that are used: of the header, or else those handed on (nbody6pp.py:100-105). -/
def chooseScales (conf3 : Option Bytes) (handed : Option H5Scales) (q : H5Group) : Except Err (Option H5Scales) :=
  conf3.elim (.ok handed) (fun f => do return some (← headScales f q.nSingle (q.pairs.elim 0 List.length)))

/-- `if binaries: cluster.nb = len(semi)` (nbody6pp.py:162). -/
def setNb (q : H5Group) (t : Tab) : Tab :=
  q.pairs.elim t (fun l => { t with nb := l.length, base := { t.base with nb := l.length } })

/-- `_get_nbody6pp` with `snap40` (nbody6pp.py:73-162, 228-243). -/
def getNbody6ppH5 (g : Galpy) (conf3 : Option Bytes) (file : List H5Group) (ngroup : ℕ) (ofile : Option (List Line)) (advance : Bool)
    (handed : Option H5Scales) (kw : Kw) (nsnap dtout : ℕ) : Except Err H5Run := do
  let q ← h5Group file ngroup
  let t := blankTab (some .pckms) (some .cluster) q.time
  let s ← chooseScales conf3 handed q
  let t := s.elim t (fun s => s.add t)
  let r ← addGroup q t
  let t ← settleScales g s advance r.1
  let t ← onCluster (toNbody g) t
  let t := setNb q t
  let t ← nbAnalyze kw t
  let o ← readOrbitIf g { kw with nsnap := some (nsnap / dtout) } advance ofile t.base
  return { tab := { t with base := o.1 }, ev := r.2, nc := s.elim 0 H5Scales.nc, np := s.elim 0 H5Scales.np, file := file, ngroups := file.length
           ngroup := ngroup, nsnap := nsnap, wdir := dirSlash (kw.wdir.getD ""), snapdir := "", ofile := o.2 }

/-- The files of a run: conf.3 and snap.40. -/
structure H5Files where
  conf3 : String → Option Bytes
  snap40 : String → Option (List H5Group)

/-- `"%s%ssnap.40_%s.h5part" % (wdir,snapdir,nsnap)` (load.py:205, 463). -/
def snap40Name (wdir snapdir : String) (nsnap : ℕ) : String :=
  dirSlash wdir ++ dirSlash snapdir ++ "snap.40_" ++ Nat.repr nsnap ++ ".h5part"

/-- `load_cluster('nbody6pp', hdf5=True, ngroup=…, …)` (load.py:186-206).  A missing snap.40 makes `h5py.File` raise. -/
def loadNbody6ppH5 (g : Galpy) (fs : H5Files) (ofile : Option (List Line)) (kw : Kw) (ngroup dtout : ℕ) : Except Err H5Run :=
  let n := kw.nsnap.getD 0
  let w := kw.wdir.getD ""
  let d := kw.snapdir.getD ""
  (fs.snap40 (snap40Name w d n)).elim (.error .osError) (fun f =>
    getNbody6ppH5 g (fs.conf3 (conf3Name w d n)) f ngroup ofile false none kw n dtout)

/-- The conversion to N-body units and back around reading the scales (load.py:443-457): `cluster.to_units(units0)`. -/
def handOn (g : Galpy) (c : H5Run) : Except Err (Option H5Scales) :=
  if c.nc ≠ 0 ∧ c.np ≠ 0 then do
    let b ← if c.tab.base.units ≠ some .nbody then toNbody g c.tab.base else .ok c.tab.base
    return some ⟨c.nc, b.rbar, b.c.x, b.c.y, b.c.z, b.zmbar, b.vbar, b.tbar, c.tab.nb, c.np⟩
  else .ok none

/-- `advance_cluster` of a cluster read from HDF5 (load.py:434-464, 614-618, 712-777), when there is no directory `cont/`: the next
group of the file, or else the first group of the next file. -/
def advanceNbody6ppH5 (g : Galpy) (fs : H5Files) (a : Kw) (dtout : ℕ) (c : H5Run) : Except Err H5Run := do
  let n := max (a.nsnap.getD 0) c.nsnap + 1
  let w := a.wdir.getD c.wdir
  let d := a.snapdir.getD c.snapdir
  let kw : Kw := { nbAdvKw a with wdir := some w, snapdir := some d }
  if c.ngroup + 1 < c.ngroups then do
    let h ← handOn g c
    let r ← getNbody6ppH5 g none c.file (c.ngroup + 1) c.ofile true h kw (n - 1) dtout
    return if r.tab.ntot = 0 then { r with ofile := none } else r
  else do
    let f ← (fs.snap40 (snap40Name w d (n + dtout - 1))).elim (.error .osError) .ok
    let r ← getNbody6ppH5 g (fs.conf3 (conf3Name w d (n + dtout - 1))) f 0 c.ofile true none kw (n + dtout - 1) dtout
    return if r.tab.ntot = 0 then { r with ofile := none } else r

/-- Several advances, each after some conversions of the cluster. -/
def advanceNbody6ppH5Many (g : Galpy) (fs : H5Files) (a : Kw) (dtout : ℕ) : List (List Op) → H5Run → Except Err H5Run
  | [], c => .ok c
  | ops :: rest, c => do
    let t ← onCluster (run g ops) c.tab
    let c ← advanceNbody6ppH5 g fs a dtout { c with tab := t }
    advanceNbody6ppH5Many g fs a dtout rest c

end

end CT
