/- Reading and writing snapshots (io/snapshot.py, io/orbit.py, io/load.py, util/output.py) and the cluster's orbital
position (`StarCluster.add_orbit`). -/
import Verif.Model.Subset
import Verif.Model.Centre

namespace CT

noncomputable section

/-! ### add_orbit -/

/-- A position and a time, as converted together by `add_orbit`. -/
structure OrbitPos where
  p : Ph
  t : ℝ

/-- `# First convert to kpckms` (cluster.py:888-928).  `radec` goes through a galpy orbit; other labels leave the values
unchanged. -/
def orbitToKpckms (g : Galpy) (c : Cluster) (u : Units) (a : OrbitPos) : OrbitPos :=
  match u with
  | .nbody => ⟨(a.p.mulPos (c.rbar / 1000)).mulVel c.vbar, a.t * c.tbar⟩
  | .galpy => ⟨(a.p.mulPos g.ro).mulVel g.vo, a.t * g.timeGyr⟩
  | .pckms => ⟨a.p.divPos 1000, a.t / 1000⟩
  | .pcmyr => ⟨(a.p.divPos 1000).divVel kmsToPcMyr, a.t / 1000⟩
  | .kpcgyr => ⟨a.p.divVel kmsToPcMyr, a.t⟩
  | .radec => ⟨g.ofSky a.p, a.t⟩
  | _ => a

/-- From kpckms to the cluster's units (cluster.py:930-950): only three labels are known. -/
def orbitFromKpckms (g : Galpy) (c : Cluster) (a : OrbitPos) : OrbitPos :=
  match c.units with
  | some .pckms => ⟨a.p.mulPos 1000, a.t * 1000⟩
  | some .nbody => ⟨(a.p.mulPos (1000 / c.rbar)).divVel c.vbar, a.t * (1000 / c.tbar)⟩
  | some .galpy => ⟨(a.p.divPos g.ro).divVel g.vo, a.t / g.timeGyr⟩
  | _ => a

open Classical in
/-- `if np.array_equal(self.ra,np.zeros(len(self.ra))): self.ra += self.ra_gc` for one column (cluster.py:974-986). -/
def fillCol (l : List ℝ) (v : ℝ) : List ℝ := if ∀ x ∈ l, x = 0 then l.map (· + v) else l

/-- The six sky columns filled (cluster.py:973-986). -/
def fillSky (sky : List Ph) (q : Ph) : List Ph :=
  rowsOf (fillCol (sky.map Ph.x) q.x) (fillCol (sky.map Ph.y) q.y) (fillCol (sky.map Ph.z) q.z)
    (fillCol (sky.map Ph.vx) q.vx) (fillCol (sky.map Ph.vy) q.vy) (fillCol (sky.map Ph.vz) q.vz)

/-- `StarCluster.add_orbit` with `initialize=False` (cluster.py:836-1002).  `t = none` is `tphys=None`. -/
def addOrbit (g : Galpy) (p : Ph) (ounits : Option Units) (t : Option ℝ) (c : Cluster) : Cluster :=
  let a : OrbitPos := ⟨p, t.getD 0⟩
  let a := ounits.elim a (fun u =>
    if some u ≠ c.units then orbitFromKpckms g c (if u ≠ .kpckms then orbitToKpckms g c u a else a) else a)
  let c1 := { c with gc := a.p, tphys := if t.isSome then a.t else c.tphys }
  if c.units = some .radec then
    let c2 := { c1 with skyGc := a.p }
    if c.origin = some .sky then { c2 with sky := fillSky c2.sky a.p } else c2
  else c1

/-! ### files -/

/-- A line of a text file: numbers separated by the delimiter, or something that is not a row of numbers.  Blank lines and
`#` comments (which `np.loadtxt` ignores) are left out of the model. -/
inductive Line
  | row (l : List ℝ)
  | text

/-- The file system: the lines of each file, and the directories that exist. -/
structure FS where
  file : String → Option (List Line)
  dir : String → Bool

/-- Every line must be a row of numbers, otherwise `np.loadtxt` raises `ValueError`. -/
def rowsOnly : List Line → Except Err (List (List ℝ))
  | [] => .ok []
  | .row l :: t => do return l :: (← rowsOnly t)
  | .text :: _ => .error .valueError

/-- A table read from a file. -/
structure Arr2 where
  rows : List (List ℝ)
  ncol : ℕ

/-- `np.loadtxt(file, skiprows=skip)`: rows of different lengths raise `ValueError`. -/
def loadtxt (skip : ℕ) (f : List Line) : Except Err Arr2 := do
  let rows ← rowsOnly (f.drop skip)
  let n := (rows.headD []).length
  if ∀ r ∈ rows, r.length = n then return ⟨rows, n⟩ else throw .valueError

/-- `data[:, k]`.  `np.loadtxt` squeezes its result, so a file with fewer than two rows or fewer than two columns is a
one-dimensional array, for which the index raises `IndexError`. -/
def Arr2.col (a : Arr2) (k : ℕ) : Except Err (List ℝ) :=
  if 2 ≤ a.rows.length ∧ 2 ≤ a.ncol ∧ k < a.ncol then .ok (a.rows.map (fun r => r[k]!)) else .error .indexError

/-! ### snapshots -/

/-- The keyword arguments of `load_cluster` / `advance_cluster` used here; `none`: not given. -/
structure Kw where
  nsnap : Option ℕ := none
  nzfill : Option ℕ := none
  wdir : Option String := none
  snapdir : Option String := none
  snapbase : Option String := none
  snapend : Option String := none
  skiprows : Option ℕ := none
  tphys : Option ℝ := none
  names : Option (List String) := none
  nums : Option (List ℕ) := none
  analyze : Option Bool := none
  sort : Option Bool := none
  ounits : Option Units := none
  otime : Option Bool := none
  ocolNames : Option (List String) := none
  ocolNums : Option (List ℕ) := none

/-- `str(nsnap).zfill(nzfill)`. -/
def zfill (w n : ℕ) : String := String.ofList (List.replicate (w - (Nat.repr n).length) '0') ++ Nat.repr n

/-- `if wdir != "": if wdir[-1] != '/': wdir+='/'` (snapshot.py:66-72, load.py:406-414, 676-683). -/
def dirSlash (d : String) : String := if d ≠ "" ∧ d.toList.getLast? ≠ some '/' then d ++ "/" else d

/-- The file that is read (snapshot.py:63-138): the first that exists. -/
def snapFile (fs : FS) (filename : Option String) (kw : Kw) : Option (List Line) :=
  let wdir := dirSlash (kw.wdir.getD "")
  let snapdir := dirSlash (kw.snapdir.getD "")
  let num := zfill (kw.nzfill.getD 5) (kw.nsnap.getD 0)
  let base := kw.snapbase.getD ""
  let ext := kw.snapend.getD ".dat"
  filename.elim
    ((fs.file (wdir ++ (snapdir ++ (base ++ (num ++ ext))))).or (fs.file (wdir ++ (base ++ (num ++ ext)))))
    (fun f => ((fs.file (wdir ++ (snapdir ++ f))).or (fs.file (wdir ++ f))).or (fs.file f))

/-- A cluster obtained from a snapshot: the cluster, its remaining per-star arrays, and the attributes remembered for
advancing (cluster.py:152-174). -/
structure Run where
  base : Cluster
  id : List ℤ
  m0 : List ℝ
  npop : List ℤ
  kw : List ℝ
  ntot : ℕ
  unitsInit : Option Units
  originInit : Option Origin
  nsnap : ℕ
  nzfill : ℕ
  wdir : String
  snapdir : String
  snapbase : String
  snapend : String
  skiprows : ℕ
  /-- `self.ofile`: the lines not read yet -/
  ofile : Option (List Line)

/-- `StarCluster(tphys, units=units, origin=origin, ctype=ctype, **kwargs)` with the stars of `t` (cluster.py:120-184). -/
def runOf (kw : Kw) (units : Option Units) (origin : Option Origin) (t : Tab) (kws : List ℝ) (b : Cluster) : Run :=
  { base := b, id := t.id, m0 := t.m0, npop := t.npop, kw := kws, ntot := t.ntot
    unitsInit := units, originInit := origin, nsnap := kw.nsnap.getD 0, nzfill := kw.nzfill.getD 5
    wdir := kw.wdir.getD "./", snapdir := kw.snapdir.getD "", snapbase := kw.snapbase.getD ""
    snapend := kw.snapend.getD ".dat", skiprows := kw.skiprows.getD 0, ofile := none }

/-- A new cluster without stars. -/
def blankTab (units : Option Units) (origin : Option Origin) (t : ℝ) : Tab :=
  newTab (newCluster units origin (bunitsOfUnits units) t)

/-- `StarCluster(0., ctype=ctype, **kwargs)`, returned when no file is found (snapshot.py:88-91, 122-138): without units
and origin. -/
def emptyRun (kw : Kw) : Run :=
  runOf kw none none (blankTab none none 0) [] (newCluster none none none 0)

def defaultNames : List String := ["m", "x", "y", "z", "vx", "vy", "vz"]
def defaultNums : List ℕ := [0, 1, 2, 3, 4, 5, 6]

/-- `if "x" in col_names: xindx = np.argwhere(col_names == "x")[0][0]; x = data[:, col_nums[xindx]]` (snapshot.py:140-196). -/
def namedCol (kw : Kw) (a : Arr2) (nm : String) : Except Err (Option (List ℝ)) :=
  let names := kw.names.getD defaultNames
  let nums := kw.nums.getD defaultNums
  if nm ∈ names then
    if names.idxOf nm < nums.length then do return some (← a.col nums[names.idxOf nm]!) else .error .indexError
  else .ok none

/-- `.astype(int)` of a float: truncation towards zero (cluster.py:584). -/
def truncZ (x : ℝ) : ℤ := if 0 ≤ x then ⌊x⌋ else ⌈x⌉

/-- A column, or the number used when it is missing (snapshot.py:143-186). -/
def colOr (o : Option (List ℝ)) (d : ℝ) : Val ℝ := (o.map Val.arr).getD (.scalar d)

/-- The arguments of `add_stars` (snapshot.py:140-206) and the stellar types. -/
def snapArgs (kw : Kw) (a : Arr2) : Except Err (StarArgs × List ℝ) := do
  let m ← namedCol kw a "m"
  let x ← namedCol kw a "x"
  let y ← namedCol kw a "y"
  let z ← namedCol kw a "z"
  let vx ← namedCol kw a "vx"
  let vy ← namedCol kw a "vy"
  let vz ← namedCol kw a "vz"
  let id ← namedCol kw a "id"
  let k ← namedCol kw a "kw"
  return ({ x := colOr x 0, y := colOr y 0, z := colOr z 0, vx := colOr vx 0, vy := colOr vy 0, vz := colOr vz 0
            m := some (colOr m 1), id := id.map (fun l => .arr (l.map truncZ)), m0 := none, npop := none }, k.getD [])

/-! ### the orbit file -/

/-- The values collected from a line of the orbit file (orbit.py:53-69). -/
structure OrbitVals where
  t : ℝ
  p : Ph

/-- `float(data[ocol_nums[i]])`; at the end of the file `data` is empty, so the index raises. -/
def orbitCell (line : Option Line) (k : ℕ) : Except Err ℝ :=
  match line with
  | none => .error .indexError
  | some .text => .error .valueError
  | some (.row l) => if k < l.length then .ok l[k]! else .error .indexError

/-- One round of the loop over `ocol_names` (orbit.py:55-69). -/
def orbitStep (line : Option Line) (nm : String) (k : Option ℕ) (v : OrbitVals) : Except Err OrbitVals :=
  if nm ∈ ["t", "x", "y", "z", "vx", "vy", "vz"] then do
    let q ← k.elim (.error .indexError) (orbitCell line)
    return if nm = "t" then { v with t := q }
      else if nm = "x" then { v with p := { v.p with x := q } }
      else if nm = "y" then { v with p := { v.p with y := q } }
      else if nm = "z" then { v with p := { v.p with z := q } }
      else if nm = "vx" then { v with p := { v.p with vx := q } }
      else if nm = "vy" then { v with p := { v.p with vy := q } }
      else { v with p := { v.p with vz := q } }
  else .ok v

/-- The loop over `ocol_names` (orbit.py:55-69). -/
def orbitVals (line : Option Line) : List String → List ℕ → OrbitVals → Except Err OrbitVals
  | [], _, v => .ok v
  | nm :: names, nums, v => do
    let v ← orbitStep line nm nums.head? v
    orbitVals line names nums.tail v

/-- How many lines are read (orbit.py:43-47). -/
def orbitLines (kw : Kw) (advance : Bool) : ℕ :=
  if kw.nsnap.getD 0 ≠ 0 ∧ ¬advance then kw.nsnap.getD 0 + 1 else 1

/-- `_get_cluster_orbit` (orbit.py:4-84): the line used, and the lines left in the file. -/
def readOrbit (g : Galpy) (kw : Kw) (advance : Bool) (f : List Line) (c : Cluster) :
    Except Err (Cluster × List Line) := do
  let v ← orbitVals f[orbitLines kw advance - 1]? (kw.ocolNames.getD ["t", "x", "y", "z", "vx", "vy", "vz"])
    (kw.ocolNums.getD [0, 1, 2, 3, 4, 5, 6]) ⟨0, ⟨0, 0, 0, 0, 0, 0⟩⟩
  return (addOrbit g v.p kw.ounits (if kw.otime.getD false then some v.t else none) c,
    f.drop (orbitLines kw advance))

/-- Reading the orbit file if there is one. -/
def readOrbitIf (g : Galpy) (kw : Kw) (advance : Bool) (f : Option (List Line)) (c : Cluster) :
    Except Err (Cluster × Option (List Line)) :=
  f.elim (.ok (c, none)) (fun f => do
    let r ← readOrbit g kw advance f c
    return (r.1, some r.2))

/-- `if ofile == None: cluster.find_centre() else: _get_cluster_orbit(…)` (snapshot.py:209-212). -/
def placeGalaxy (g : Galpy) (fc : Cluster → Except Err Cluster) (kw : Kw) (advance : Bool) (f : Option (List Line))
    (c : Cluster) : Except Err (Cluster × Option (List Line)) :=
  if f.isNone then do return ((← fc c), none) else readOrbitIf g kw advance f c

/-- `kwargs.get("analyze", True)` blocks of the galaxy branch (snapshot.py:213-219). -/
def settleGalaxy (g : Galpy) (fc : Cluster → Except Err Cluster) (kw : Kw) (c : Cluster) : Except Err Cluster :=
  if kw.analyze.getD true then do
    let c ← toCluster false none c
    let c ← fc c
    let c ← toCentre (kw.sort.getD true) none c
    toGalaxy g true c
  else .ok c

/-- `if kwargs.get("analyze", True): cluster.find_centre(); cluster.analyze(sortstars=sortstars)` (snapshot.py:222-225). -/
def settleCluster (fc : Cluster → Except Err Cluster) (kw : Kw) (c : Cluster) : Except Err Cluster :=
  if kw.analyze.getD true then do
    let c ← fc c
    analyze (kw.sort.getD true) c
  else .ok c

/-- The end of `_get_snapshot` (snapshot.py:208-228), and the lines left in the orbit file.  `fc` is
`cluster.find_centre()`. -/
def settle (g : Galpy) (fc : Cluster → Except Err Cluster) (kw : Kw) (origin : Option Origin) (advance : Bool)
    (ofile : Option (List Line)) (c : Cluster) : Except Err (Cluster × Option (List Line)) :=
  if origin = some .galaxy then do
    let r ← placeGalaxy g fc kw advance ofile c
    let c ← settleGalaxy g fc kw r.1
    return (c, r.2)
  else if origin = some .cluster ∨ origin = some .centre then do
    let c ← settleCluster fc kw c
    readOrbitIf g kw advance ofile c
  else .ok (c, ofile)

/-- `_get_snapshot` (snapshot.py:13-228), and the lines left in the orbit file. -/
def getSnapshot (g : Galpy) (fc : Cluster → Except Err Cluster) (fs : FS) (filename : Option String) (kw : Kw)
    (units : Option Units) (origin : Option Origin) (ofile : Option (List Line)) (advance : Bool) :
    Except Err (Run × Option (List Line)) :=
  (snapFile fs filename kw).elim (.ok (emptyRun kw, ofile)) (fun f => do
    let a ← loadtxt (kw.skiprows.getD 0) f
    let s ← snapArgs kw a
    let t ← addStars s.1 0 false true (blankTab units origin (kw.tphys.getD 0))
    let r ← settle g fc kw origin advance ofile t.base
    return (runOf kw units origin t s.2 r.1, r.2))

/-- `load_cluster(ctype='snapshot', …)` without a galpy orbit and `initialize` (load.py:45-352). -/
def loadCluster (g : Galpy) (fc : Cluster → Except Err Cluster) (fs : FS) (filename : Option String) (kw : Kw)
    (units : Option Units) (origin : Option Origin) (ofile : Option (List Line)) : Except Err Run := do
  let r ← getSnapshot g fc fs filename kw units origin ofile false
  return { r.1 with ofile := r.2 }

/-- `_get_advanced_kwargs` (load.py:712-777) merged with the other keyword arguments. -/
def advKw (a : Kw) (c : Run) : Kw :=
  { a with
    nsnap := some (max (a.nsnap.getD 0) c.nsnap + 1)
    nzfill := some (a.nzfill.getD c.nzfill)
    wdir := some (a.wdir.getD c.wdir)
    snapdir := some (a.snapdir.getD c.snapdir)
    snapbase := some (a.snapbase.getD c.snapbase)
    snapend := some (a.snapend.getD c.snapend)
    skiprows := some (a.skiprows.getD c.skiprows)
    analyze := some (a.analyze.getD true)
    sort := some (a.sort.getD true)
    otime := some (a.otime.getD false) }

/-- `advance_cluster` of a cluster with `ctype='snapshot'` without a galpy orbit and without the keyword `ofilename`
(load.py:396-647), with the restart from the directory `cont/` (584-612). -/
def advanceCluster (g : Galpy) (fc : Cluster → Except Err Cluster) (fs : FS) (filename : Option String) (a : Kw)
    (ofile : Option (List Line)) (c : Run) : Except Err Run := do
  let kw := advKw a c
  let of := ofile.or c.ofile
  let r ← getSnapshot g fc fs filename kw c.unitsInit c.originInit of true
  if r.1.ntot = 0 then
    if fs.dir (r.1.wdir ++ "cont/") then
      if of.isSome then .error .keyError
      else
        loadCluster g fc fs filename { kw with wdir := some (r.1.wdir ++ "cont/"), names := none, nums := none }
          r.1.unitsInit r.1.originInit none
    else .ok r.1
  else .ok { r.1 with ofile := r.2 }

/-- `k` advances with the same arguments. -/
def advanceMany (g : Galpy) (fc : Cluster → Except Err Cluster) (fs : FS) (a : Kw) : ℕ → Run → Except Err Run
  | 0, c => .ok c
  | k + 1, c => do
    let c ← advanceCluster g fc fs none a none c
    advanceMany g fc fs a k c

/-! ### snapout -/

/-- The rows written by `snapout` with `energies=False, radec=False` (output.py:134-165): mass, position, velocity, id, and
the stellar type when there is one for every star.  `np.savetxt` is taken to write the numbers exactly. -/
def snapoutRows (r : Run) : List (List ℝ) :=
  (List.range r.base.st.length).map (fun (i : ℕ) =>
    let p := r.base.st[i]!
    [r.base.m[i]!, p.x, p.y, p.z, p.vx, p.vy, p.vz, (r.id[i]! : ℝ)] ++
      (if r.kw.length = r.ntot then [r.kw[i]!] else []))

/-- `snapout(cluster, filename)`: the file system afterwards. -/
def snapout (r : Run) (filename : String) (fs : FS) : FS :=
  { fs with file := fun f => if f = filename then some ((snapoutRows r).map Line.row) else fs.file f }

end

end CT
