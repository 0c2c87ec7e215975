/- Stellar evolution files of NBODY6++: bev.82_<n> (binaries) and sev.83_<n> (single stars), read together with conf.3_<n>
(io/nbody6pp.py, cluster.py `add_sse`, `add_bse`, io/load.py). -/
import Verif.Model.Nbody6pp

namespace CT

noncomputable section

/-- A text file with a header line: the integer that starts the header, and the lines that follow.  Files whose header does not
start with an integer and another number are not modelled. -/
structure EvFile where
  count : ℤ
  body : List Line

/-- `data=np.loadtxt(bev.name,skiprows=1); if nb==1: data=data.reshape(1,len(data))` (nbody6pp.py:344-347): with several rows
the new shape does not fit.  Files with one column are not modelled. -/
def bevTable (f : EvFile) : Except Err Arr2 := do
  let a ← loadtxt 0 f.body
  if f.count = 1 ∧ 2 ≤ a.rows.length then throw .valueError
  return a

/-- `data[:,k]` for all `k < n`: a table of one row is two-dimensional only after the `reshape`. -/
def bevHas (f : EvFile) (a : Arr2) (n : ℕ) : Bool := decide (n ≤ a.ncol ∧ (f.count = 1 ∨ 2 ≤ a.rows.length))

/-- The columns of a line of bev.82 that are used. -/
structure BevRow where
  arg1 : ℤ
  arg2 : ℤ
  id1 : ℤ
  id2 : ℤ
  kw1 : ℤ
  kw2 : ℤ
  kwb : ℤ
  ecc : ℝ
  pb : ℝ
  semi : ℝ
  m1 : ℝ
  m2 : ℝ
  zl1 : ℝ
  zl2 : ℝ
  r1 : ℝ
  r2 : ℝ

/-- The columns of one row (nbody6pp.py:349-377); luminosities and radii are zero unless `len(data)>=14`.  `rib`, `te1`, `te2` are
not used by the caller. -/
def bevRow (long : Bool) (l : List ℝ) : BevRow :=
  { arg1 := truncZ l[1]!, arg2 := truncZ l[2]!, id1 := truncZ l[3]!, id2 := truncZ l[4]!, kw1 := truncZ l[5]!, kw2 := truncZ l[6]!
    kwb := truncZ l[7]!, ecc := l[9]!, pb := l[10]!, semi := l[11]!, m1 := l[12]!, m2 := l[13]!
    zl1 := if long then l[14]! else 0, zl2 := if long then l[15]! else 0
    r1 := if long then l[16]! else 0, r2 := if long then l[17]! else 0 }

/-- The file bev.82 (nbody6pp.py:339-377, 408-425).  `len(data)` is the number of rows. -/
def readBev (f : EvFile) : Except Err (List BevRow) :=
  if 0 < f.count then do
    let a ← bevTable f
    if !bevHas f a (if 14 ≤ a.rows.length then 20 else 14) then throw .indexError
    return a.rows.map (bevRow (decide (14 ≤ a.rows.length)))
  else .ok []

/-- One entry of the arrays `arg, kw, zl1, r1`. -/
structure EvStar where
  arg : ℤ
  kw : ℤ
  zl : ℝ
  r : ℝ

/-- The two components of a binary (nbody6pp.py:388-404). -/
def BevRow.members (b : BevRow) : List EvStar := [⟨b.arg1, b.kw1, b.zl1, b.r1⟩, ⟨b.arg2, b.kw2, b.zl2, b.r2⟩]

/-- The columns of one row of sev.83 (nbody6pp.py:432-439): `zl1=data[:,6].astype(int)`.  `i_d, ri, m1, te` are not used by the
caller. -/
def sevRow (l : List ℝ) : EvStar := ⟨truncZ l[1]!, truncZ l[3]!, (truncZ l[6]! : ℝ), l[7]!⟩

/-- The file sev.83 (nbody6pp.py:427-443): a table of one row is one-dimensional, and `data[:,1]` raises `IndexError`. -/
def readSev (f : EvFile) : Except Err (List EvStar) := do
  let a ← loadtxt 0 f.body
  if a.rows.length < 2 ∨ a.ncol < 9 then throw .indexError
  return a.rows.map sevRow

/-- `_get_nbody6pp_ev` (nbody6pp.py:324-454): the binaries, and the stars with the components of the binaries in front. -/
def getEv (bev sev : EvFile) : Except Err (List BevRow × List EvStar) := do
  let b ← readBev bev
  let s ← readSev sev
  return (b, b.flatMap BevRow.members ++ s)

/-- `a[binargs]=v` (nbody6pp.py:204-206) for the first `nb` entries: an array of one element is repeated, other lengths raise
`ValueError`. -/
def setFirst (nb : ℕ) (v a : List ℝ) : Except Err (List ℝ) :=
  if v.length = nb then .ok (v ++ a.drop nb)
  else if v.length = 1 then .ok (List.replicate nb v[0]! ++ a.drop nb)
  else .error .valueError

/-- The position `i` of an array of length `n`, counted from the end if negative. -/
def pyPos (n : ℕ) (i : ℤ) : Except Err ℕ :=
  if 0 ≤ i ∧ i < n then .ok i.toNat else if -n ≤ i ∧ i < 0 then .ok (i + n).toNat else .error .indexError

/-- `a[args]=v` with an integer array `args` (nbody6pp.py:213-215). -/
def setAt : List (ℤ × ℝ) → List ℝ → Except Err (List ℝ)
  | [], a => .ok a
  | (i, v) :: t, a => do
    let k ← pyPos a.length i
    setAt t (a.set k v)

/-- `kws[binargs]=…` and `kws[args]=…` for one array (nbody6pp.py:196-215). -/
def evColumn (n nb : ℕ) (pairs : List ℝ) (args : List ℤ) (vals : List ℝ) : Except Err (List ℝ) := do
  let a := List.replicate (n - nb) (-10 : ℝ)
  let a ← if 0 < nb then setFirst nb pairs a else .ok a
  setAt (args.zip vals) a

/-- `args=arg[2*nb:]-nb-1` or `args=arg-1` (nbody6pp.py:207-211). -/
def evArgs (nb : ℕ) (s : List EvStar) : List ℤ :=
  if 0 < nb then (s.drop (2 * nb)).map (fun e : EvStar => e.arg - nb - 1) else s.map (fun e : EvStar => e.arg - 1)

/-- What `add_sse` and `add_bse` store besides the columns kept in `Tab`. -/
structure PPEv where
  kw : List ℝ
  logl : List ℝ
  logr : List ℝ
  lum : List ℝ
  ltot : ℝ
  id1 : List ℤ
  kw1 : List ℤ
  kw2 : List ℤ
  kcm : List ℤ
  ecc : List ℝ
  logl1 : List ℝ
  logl2 : List ℝ
  logr1 : List ℝ
  logr2 : List ℝ
  eb : List ℝ

/-- `add_sse` and `add_bse` on a cluster without such data (nbody6pp.py:217-225, cluster.py:1168-1183, 1248-1270). -/
def storeEv (b : List BevRow) (k l r : List ℝ) (t : Tab) : Tab × PPEv :=
  let semi := b.map (fun e : BevRow => (10 : ℝ) ^ e.semi / t.base.rbarSu)
  let pb := b.map (fun e : BevRow => (10 : ℝ) ^ e.pb / t.base.tbarDays)
  let m1 := b.map (fun e : BevRow => e.m1 / t.base.zmbar)
  let m2 := b.map (fun e : BevRow => e.m2 / t.base.zmbar)
  ({ t with id2 := b.map BevRow.id2, nb := b.length, base := { t.base with nb := b.length, bin := ⟨semi, pb, m1, m2⟩ } },
   { kw := k, logl := l, logr := r, lum := l.map (fun x : ℝ => (10 : ℝ) ^ x), ltot := (l.map (fun x : ℝ => (10 : ℝ) ^ x)).sum
     id1 := b.map BevRow.id1, kw1 := b.map BevRow.kw1, kw2 := b.map BevRow.kw2, kcm := b.map BevRow.kwb, ecc := b.map BevRow.ecc
     logl1 := b.map BevRow.zl1, logl2 := b.map BevRow.zl2, logr1 := b.map BevRow.r1, logr2 := b.map BevRow.r2
     eb := List.zipWith (fun m s : ℝ => m / s) (List.zipWith (fun x y : ℝ => 0.5 * x * y) m1 m2) semi })

/-- The arrays and the binaries for `n` stars, `2*nb` of them in binaries (nbody6pp.py:194-225). -/
def attachEv (n nb : ℕ) (bev sev : EvFile) (t : Tab) : Except Err (Tab × PPEv) := do
  let e ← getEv bev sev
  let args := evArgs nb e.2
  let stars := e.2.drop (2 * nb)
  let k ← evColumn n nb (e.1.map (fun b : BevRow => ((max b.kw1 b.kw2 : ℤ) : ℝ))) args (stars.map (fun s : EvStar => (s.kw : ℝ)))
  let l ← evColumn n nb (e.1.map (fun b : BevRow => b.zl1 + b.zl2)) args (stars.map EvStar.zl)
  let r ← evColumn n nb (e.1.map (fun b : BevRow => b.r1 + b.r2)) args (stars.map EvStar.r)
  return storeEv e.1 k l r t

/-- `if bev82 is not None and sev83 is not None` (nbody6pp.py:192): for an empty snapshot `nb` is undefined. -/
def addEv (s : PPSnap) (bev sev : Option EvFile) (t : Tab) : Except Err (Tab × Option PPEv) :=
  bev.elim (.ok (t, none)) (fun b => sev.elim (.ok (t, none)) (fun v =>
    if 0 < s.base.n then do
      let a ← alistAt s.base 1
      let r ← attachEv s.base.n.toNat (truncZ a).toNat b v t
      return (r.1, some r.2)
    else .error .nameError))

/-- A cluster with its stellar evolution data. -/
structure PPEvRun where
  run : PPRun
  ev : Option PPEv

/-- `_get_nbody6pp` without HDF5 (nbody6pp.py:18-66, 152-231). -/
def getNbody6ppEv (g : Galpy) (conf3 : Option Bytes) (bev sev : Option EvFile) (ofile : Option (List Line)) (advance : Bool)
    (kw : Kw) (nsnap dtout : ℕ) : Except Err PPEvRun := do
  let s ← readConf3 conf3
  let t0 ← alistAt s.base 0
  let r ← addPP s (blankTab (some .nbody) (some .cluster) t0)
  let e ← addEv s bev sev r.1
  let t ← nbAnalyze kw e.1
  let o ← readOrbitIf g { kw with nsnap := some (nsnap / dtout) } advance ofile t.base
  return ⟨{ tab := { t with base := o.1 }, rhos := r.2.1, kin := r.2.2.1, pot := r.2.2.2
            ektot := r.2.2.1.sum, ptot := r.2.2.2.sum / 2
            nsnap := nsnap, wdir := dirSlash (kw.wdir.getD ""), snapdir := "", ofile := o.2 }, e.2⟩

/-- `"%s%sbev.82_%s"`, `"%s%ssev.83_%s"` (load.py:216-226, 476-486). -/
def evName (base wdir snapdir : String) (nsnap : ℕ) : String :=
  dirSlash wdir ++ dirSlash snapdir ++ base ++ Nat.repr nsnap

/-- The files of a run. -/
structure PPFiles where
  conf3 : String → Option Bytes
  ev : String → Option EvFile

/-- `load_cluster('nbody6pp', …)` (load.py:186-228). -/
def loadNbody6ppEv (g : Galpy) (fs : PPFiles) (ofile : Option (List Line)) (kw : Kw) (dtout : ℕ) : Except Err PPEvRun :=
  let n := kw.nsnap.getD 0
  let w := kw.wdir.getD ""
  let d := kw.snapdir.getD ""
  getNbody6ppEv g (fs.conf3 (conf3Name w d n)) (fs.ev (evName "bev.82_" w d n)) (fs.ev (evName "sev.83_" w d n)) ofile false kw n dtout

/-- `advance_cluster` (load.py:466-488, 712-777), when there is no directory `cont/`. -/
def advanceNbody6ppEv (g : Galpy) (fs : PPFiles) (a : Kw) (dtout : ℕ) (c : PPEvRun) : Except Err PPEvRun := do
  let n := max (a.nsnap.getD 0) c.run.nsnap + 1 + dtout - 1
  let w := a.wdir.getD c.run.wdir
  let d := a.snapdir.getD c.run.snapdir
  let kw : Kw := { nbAdvKw a with wdir := some w, snapdir := some d }
  let r ← getNbody6ppEv g (fs.conf3 (conf3Name w d n)) (fs.ev (evName "bev.82_" w d n)) (fs.ev (evName "sev.83_" w d n)) c.run.ofile true kw
    n dtout
  return if r.run.tab.ntot = 0 then { r with run := { r.run with ofile := none } } else r

/-- `k` advances. -/
def advanceNbody6ppEvMany (g : Galpy) (fs : PPFiles) (a : Kw) (dtout : ℕ) : ℕ → PPEvRun → Except Err PPEvRun
  | 0, c => .ok c
  | k + 1, c => do
    let c ← advanceNbody6ppEv g fs a dtout c
    advanceNbody6ppEvMany g fs a dtout k c

end

end CT
