/- Reading gyrfalcON/NEMO ascii output (io/gyrfalcon.py, io/load.py). -/
import Verif.Model.IO

namespace CT

noncomputable section

/-! ### lines -/

/-- A line of a text file as `readline().split()` gives it.  `[]` is a blank line; reading at the end of the file gives `[]` too. -/
abbrev Toks := List String

/-- Python's `float` and `int` of a string (`ValueError` if it is not a number): any functions. -/
structure Parse where
  flt : String → Except Err ℝ
  int : String → Except Err ℤ

/-- `data[k]`. -/
def tokAt (d : Toks) (k : ℕ) : Except Err String := if k < d.length then .ok d[k]! else .error .indexError

/-- `any(s in dat for dat in data)`: some word contains `s`. -/
def mentions (s : String) (d : Toks) : Prop := ∃ w ∈ d, s.toList <:+: w.toList

/-- `sntot[:-1]`. -/
def chop (s : String) : String := String.ofList s.toList.dropLast

/-- What the header gives: `ntot`, `tphys` (gyrfalcon.py:77-78, 220-221). -/
structure GHead where
  ntot : ℤ := 0
  tphys : ℝ := 0

open Classical in
/-- One header line (gyrfalcon.py:89-93, 234-238). -/
def gyrHeadLine (P : Parse) (d : Toks) (h : GHead) : Except Err GHead := do
  let n ← if mentions "Ntot" d then (do let s ← tokAt d 2; P.int (chop s)) else .ok h.ntot
  let t ← if mentions "time" d then (do let s ← tokAt d 2; P.flt s) else .ok h.tphys
  return ⟨n, t⟩

/-- The loop over `skiprows` header lines (gyrfalcon.py:80-93, 225-238): `none` at a blank line or the end of the file (`END OF FILE`);
otherwise what was found, the line that is already a row of the table (`OVER HEAD`), and the rest of the file. -/
def gyrHead (P : Parse) : ℕ → GHead → List Toks → Except Err (Option (GHead × Option Toks × List Toks))
  | 0, h, f => .ok (some (h, none, f))
  | k + 1, h, f =>
    if f.headD [] = [] then .ok none
    else if "#" ∉ f.headD [] then .ok (some (h, some (f.headD []), f.tail))
    else do
      let h ← gyrHeadLine P (f.headD []) h
      gyrHead P k h f.tail

/-- `float(data[k])` for several `k` (gyrfalcon.py:115-131). -/
def floats (P : Parse) (d : Toks) : List ℕ → Except Err (List ℝ)
  | [] => .ok []
  | k :: ks => do
    let s ← tokAt d k
    let v ← P.flt s
    let t ← floats P d ks
    return v :: t

/-- The loop over the stars (gyrfalcon.py:106-131): the numbers of each row, and the rest of the file.  A line with `#` ends it. -/
def gyrBody (P : Parse) (cols : ℕ) : ℕ → Option Toks → List Toks → Except Err (List (List ℝ) × List Toks)
  | 0, _, f => .ok ([], f)
  | k + 1, over, f =>
    if "#" ∈ over.getD (f.headD []) then .ok ([], if over.isSome then f else f.tail)
    else do
      let r ← floats P (over.getD (f.headD [])) (List.range cols)
      let t ← gyrBody P cols k none (if over.isSome then f else f.tail)
      return (r :: t.1, t.2)

/-! ### the cluster -/

/-- The keyword arguments: those of `Kw`, `give` and `dt`. -/
structure GKw where
  kw : Kw := {}
  give : Option String := none
  dt : Option ℝ := none

/-- How many columns are read (gyrfalcon.py:65-72, 115-131). -/
def gyrCols (give : Option String) : ℕ :=
  if give = some "mxvpqael" then 12 else if give = some "mxve" then 8 else 7

/-- A cluster read from gyrfalcON output, with the attributes only such clusters have. -/
structure GyrRun where
  run : Run
  /-- `self.sfile`: the lines of the open file not read yet (`_get_gyrfalcon`), or the file (`_get_new_gyrfalcon`).  The open file is one
  object shared by all clusters read from it; here each cluster has its own reading position, so the model is about histories in which
  each cluster is advanced at most once. -/
  sfile : Option (List Toks)
  /-- `self.dt` -/
  dt : Option ℝ
  /-- `self.eps`, if it was read -/
  eps : Option (List ℝ)
  /-- `gyrpot, gyrq, gyracc, gyrlev`, if they were read -/
  gyr : Option (List ℝ × List ℝ × List ℝ × List ℝ)

/-- The columns read besides `mxv` (gyrfalcon.py:155-162, 331-338). -/
def withExtra (give : Option String) (rows : List (List ℝ)) (r : GyrRun) : GyrRun :=
  if give = some "mxvpqael" then
    { r with
      gyr := some (rows.map (fun l => l[7]!), rows.map (fun l => l[8]!), rows.map (fun l => l[9]!), rows.map (fun l => l[11]!))
      eps := some (rows.map (fun l => l[10]!)) }
  else if give = some "mxve" then { r with eps := some (rows.map (fun l => l[7]!)) }
  else r

/-- The arguments of `add_stars` (gyrfalcon.py:137, 313): `id0` is the number of the first star. -/
def gyrArgs (id0 : ℤ) (rows : List (List ℝ)) : StarArgs :=
  { m := some (.arr (rows.map (fun l => l[0]!))), x := .arr (rows.map (fun l => l[1]!)), y := .arr (rows.map (fun l => l[2]!))
    z := .arr (rows.map (fun l => l[3]!)), vx := .arr (rows.map (fun l => l[4]!)), vy := .arr (rows.map (fun l => l[5]!))
    vz := .arr (rows.map (fun l => l[6]!)), id := some (.arr ((List.range rows.length).map (fun (i : ℕ) => id0 + (i : ℤ))))
    m0 := none, npop := none }

/-- `if kwargs.get("analyze", True)` (gyrfalcon.py:144-153, 320-329). -/
def gyrAnalyze (g : Galpy) (fc : Cluster → Except Err Cluster) (kw : Kw) (origin : Option Origin) (c : Cluster) : Except Err Cluster :=
  origin.elim
    (do
      let c ← fc c
      analyze (kw.sort.getD true) c)
    (fun o => do
      let c ← toCluster false none c
      let c ← fc c
      let c ← toCentre (kw.sort.getD true) none c
      toOrigin g o.target true none c)

/-- The orbit file or `find_centre`, then the analysis (gyrfalcon.py:139-153, 315-329), and the lines left in the orbit file. -/
def gyrSettle (g : Galpy) (fc : Cluster → Except Err Cluster) (kw : Kw) (origin : Option Origin) (advance : Bool) (ofile : Option (List Line))
    (c : Cluster) : Except Err (Cluster × Option (List Line)) := do
  let r ← placeGalaxy g fc kw advance ofile c
  let c ← if kw.analyze.getD true then gyrAnalyze g fc kw origin r.1 else .ok r.1
  return (c, r.2)

/-- `StarCluster(0.0, ctype="nemo", **kwargs)` at the end of the file (gyrfalcon.py:84, 229): `skiprows` was popped. -/
def emptyGyr (k : GKw) : GyrRun :=
  { run := emptyRun { k.kw with skiprows := none }, sfile := none, dt := none, eps := none, gyr := none }

/-- The cluster with the rows that were read (gyrfalcon.py:95-104, 135-165; 264-273, 311-340). -/
def gyrStars (g : Galpy) (fc : Cluster → Except Err Cluster) (k : GKw) (skip : ℕ) (id0 : ℤ) (units : Option Units) (origin : Option Origin)
    (ofile : Option (List Line)) (advance : Bool) (ntot : ℤ) (t : ℝ) (rows : List (List ℝ)) (sfile : List Toks) (dt : Option ℝ) :
    Except Err (GyrRun × Option (List Line)) :=
  if 0 < ntot then do
    let T ← addStars (gyrArgs id0 rows) 0 false true (blankTab units origin t)
    let r ← gyrSettle g fc k.kw origin advance ofile T.base
    return (withExtra k.give rows
      { run := runOf { k.kw with skiprows := some skip } units origin T [] r.1, sfile := some sfile, dt := dt, eps := none, gyr := none }, r.2)
  else .ok ({ run := runOf { k.kw with skiprows := some skip } units origin (blankTab units origin t) []
                       (newCluster units origin (bunitsOfUnits units) t)
              sfile := some sfile, dt := dt, eps := none, gyr := none }, ofile)

/-- `_get_gyrfalcon` (gyrfalcon.py:13-165) of an open file. -/
def getGyrfalcon (g : Galpy) (fc : Cluster → Except Err Cluster) (P : Parse) (k : GKw) (units : Option Units) (origin : Option Origin)
    (ofile : Option (List Line)) (advance : Bool) (f : List Toks) : Except Err (GyrRun × Option (List Line)) := do
  let h ← gyrHead P (k.kw.skiprows.getD 13) {} f
  h.elim (.ok (emptyGyr k, ofile)) (fun h => do
    let b ← gyrBody P (gyrCols k.give) h.1.ntot.toNat h.2.1 h.2.2
    gyrStars g fc k (k.kw.skiprows.getD 13) 1 units origin ofile advance h.1.ntot h.1.tphys b.1 b.2 none)

/-! ### files -/

/-- The file system. -/
structure GFS where
  file : String → Option (List Toks)
  dir : String → Bool

/-- `_get_filename` (load.py:649-709) and the file of that name: the first that exists.  The default `nzfill` is 1. -/
def gyrFile (fs : GFS) (filename : Option String) (kw : Kw) : Option (List Toks) :=
  let wdir := dirSlash (kw.wdir.getD "")
  let snapdir := dirSlash (kw.snapdir.getD "")
  let num := zfill (kw.nzfill.getD 1) (kw.nsnap.getD 0)
  let base := kw.snapbase.getD ""
  let ext := kw.snapend.getD ".dat"
  filename.elim
    ((fs.file (wdir ++ (snapdir ++ (base ++ (num ++ ext))))).or (fs.file (wdir ++ (base ++ (num ++ ext)))))
    (fun f => ((fs.file f).or (fs.file (wdir ++ (snapdir ++ f)))).or (fs.file (wdir ++ f)))

/-- The keyword arguments of an advance (load.py:712-777): `give` is not remembered. -/
def advGKw (a : GKw) (c : GyrRun) : GKw :=
  { kw := advKw a.kw c.run, give := some (a.give.getD "mxv"), dt := a.dt.or c.dt }

/-- `load_cluster(ctype='gyrfalcon' or 'nemo', …)` without a galpy orbit and `initialize` (load.py:227-232): `ofile` is not passed on, only
stored (load.py:287-289).  A missing file is a failed `open`. -/
def loadGyr (g : Galpy) (fc : Cluster → Except Err Cluster) (P : Parse) (fs : GFS) (filename : Option String) (k : GKw)
    (units : Option Units) (origin : Option Origin) (ofile : Option (List Line)) : Except Err GyrRun :=
  (gyrFile fs filename k.kw).elim (.error .typeError) (fun f => do
    let r ← getGyrfalcon g fc P k units origin none false f
    return { r.1 with run := { r.1.run with ofile := ofile } })

/-- `advance_cluster` of such a cluster without the arguments `filename`, `orbit`, `ofilename` (load.py:508-533, 588-647).  Simplified: if a
numbered file was found and held no snapshot, a restart is given its name; here it is given none. -/
def advanceGyr (g : Galpy) (fc : Cluster → Except Err Cluster) (P : Parse) (fs : GFS) (a : GKw) (ofile : Option (List Line)) (c : GyrRun) :
    Except Err GyrRun :=
  ((gyrFile fs none (advGKw a c).kw).or c.sfile).elim (.error .attributeError) (fun f => do
    let r ← getGyrfalcon g fc P (advGKw a c) c.run.unitsInit c.run.originInit (ofile.or c.run.ofile) true f
    if r.1.run.ntot = 0 then
      if fs.dir (r.1.run.wdir ++ "cont/") then
        if (ofile.or c.run.ofile).isSome then .error .keyError
        else
          loadGyr g fc P fs none { (advGKw a c) with kw := { (advGKw a c).kw with wdir := some (r.1.run.wdir ++ "cont/") } }
            r.1.run.unitsInit r.1.run.originInit none
      else .ok r.1
    else .ok { r.1 with run := { r.1.run with ofile := r.2 } })

/-- `k` advances with the same arguments. -/
def advanceGyrMany (g : Galpy) (fc : Cluster → Except Err Cluster) (P : Parse) (fs : GFS) (a : GKw) : ℕ → GyrRun → Except Err GyrRun
  | 0, c => .ok c
  | k + 1, c => do
    let c ← advanceGyr g fc P fs a none c
    advanceGyrMany g fc P fs a k c

/-! ### the other reader -/

open Classical in
/-- The header of the second snapshot (gyrfalcon.py:245-255): only the time is used; `none` at the end of the file. -/
def gyrTime (P : Parse) : ℕ → Option ℝ → List Toks → Except Err (Option (Option ℝ))
  | 0, t, _ => .ok (some t)
  | k + 1, t, f =>
    if f.headD [] = [] then .ok none
    else if "#" ∉ f.headD [] then .ok (some t)
    else do
      let t ← if mentions "time" (f.headD []) then (do let s ← tokAt (f.headD []) 2; let v ← P.flt s; return some v) else .ok t
      gyrTime P k t f.tail

/-- The time between snapshots when advancing (gyrfalcon.py:240-259): `none` at the end of the file; `tphys2` unbound raises. -/
def gyrDt (P : Parse) (k : GKw) (h : GHead) (rest : List Toks) : Except Err (Option ℝ) :=
  k.dt.elim (do
      let t ← gyrTime P (k.kw.skiprows.getD 13) none (rest.drop h.ntot.toNat)
      t.elim (.ok none) (fun t => t.elim (.error .nameError) (fun t => .ok (some (t - h.tphys)))))
    (fun dt => .ok (some dt))

/-- The part of a line before a comment. -/
def uncomment (d : Toks) : Toks := d.takeWhile (fun w => '#' ∉ w.toList)

/-- The numbers of lines. -/
def allFloats (P : Parse) : List Toks → Except Err (List (List ℝ))
  | [] => .ok []
  | d :: ds => do
    let r ← floats P d (List.range d.length)
    let t ← allFloats P ds
    return r :: t

/-- `np.loadtxt(filename, skiprows=skip, max_rows=n)` (numpy ≥ 1.23: blank lines and comments are not counted as rows; beyond the end of
the file the result is empty, `StopIteration` is not raised). -/
def loadRows (P : Parse) (skip n : ℕ) (f : List Toks) : Except Err Arr2 := do
  let rows ← allFloats P ((((f.drop skip).map uncomment).filter (· ≠ [])).take n)
  if ∀ r ∈ rows, r.length = (rows.headD []).length then return ⟨rows, (rows.headD []).length⟩ else throw .valueError

/-- The columns `data[:,0] … data[:,c-1]` (gyrfalcon.py:290-307), back as rows. -/
def arrCols (a : Arr2) : List ℕ → Except Err (List (List ℝ))
  | [] => .ok []
  | k :: ks => do
    let x ← a.col k
    let t ← arrCols a ks
    return x :: t

/-- `_get_new_gyrfalcon` (gyrfalcon.py:167-340).  `int(ntot)` below 0 is not followed. -/
def getNewGyr (g : Galpy) (fc : Cluster → Except Err Cluster) (P : Parse) (k : GKw) (units : Option Units) (origin : Option Origin)
    (ofile : Option (List Line)) (advance : Bool) (f : List Toks) : Except Err (GyrRun × Option (List Line)) := do
  let skip := k.kw.skiprows.getD 13
  let h ← gyrHead P skip {} f
  h.elim (.ok (emptyGyr k, ofile)) (fun h => do
    let dt ← if advance then gyrDt P k h.1 h.2.2 else .ok (some 0)
    dt.elim (.ok (emptyGyr k, ofile)) (fun dt => do
      let n := k.kw.nsnap.getD 0
      let a ← loadRows P (if advance then (skip + h.1.ntot.toNat) * n + skip else skip) h.1.ntot.toNat f
      let _ ← arrCols a (List.range (gyrCols k.give))
      gyrStars g fc k skip 0 units origin ofile advance h.1.ntot (if advance then h.1.tphys + dt * n else h.1.tphys) a.rows f
        (if advance then some dt else none)))

/-- `load_cluster(ctype='new_gyrfalcon' or 'new_nemo', …)` (load.py:234-238). -/
def loadNewGyr (g : Galpy) (fc : Cluster → Except Err Cluster) (P : Parse) (fs : GFS) (filename : Option String) (k : GKw)
    (units : Option Units) (origin : Option Origin) (ofile : Option (List Line)) : Except Err GyrRun :=
  (gyrFile fs filename k.kw).elim (.error .typeError) (fun f => do
    let r ← getNewGyr g fc P k units origin none false f
    return { r.1 with run := { r.1.run with ofile := ofile } })

/-- `advance_cluster` of such a cluster (load.py:535-561, 588-647).  The empty cluster returned at the end of the file has `ctype='nemo'`, so
a restart uses the other reader. -/
def advanceNewGyr (g : Galpy) (fc : Cluster → Except Err Cluster) (P : Parse) (fs : GFS) (a : GKw) (ofile : Option (List Line)) (c : GyrRun) :
    Except Err GyrRun :=
  ((gyrFile fs none (advGKw a c).kw).or c.sfile).elim (.error .typeError) (fun f => do
    let r ← getNewGyr g fc P (advGKw a c) c.run.unitsInit c.run.originInit (ofile.or c.run.ofile) true f
    if r.1.run.ntot = 0 then
      if fs.dir (r.1.run.wdir ++ "cont/") then
        if (ofile.or c.run.ofile).isSome then .error .keyError
        else
          loadGyr g fc P fs none { (advGKw a c) with kw := { (advGKw a c).kw with wdir := some (r.1.run.wdir ++ "cont/") } }
            r.1.run.unitsInit r.1.run.originInit none
      else .ok r.1
    else .ok { r.1 with run := { r.1.run with ofile := r.2 } })

/-- `k` advances with the same arguments. -/
def advanceNewGyrMany (g : Galpy) (fc : Cluster → Except Err Cluster) (P : Parse) (fs : GFS) (a : GKw) : ℕ → GyrRun → Except Err GyrRun
  | 0, c => .ok c
  | k + 1, c => do
    let c ← advanceNewGyr g fc P fs a none c
    advanceNewGyrMany g fc P fs a k c

end

end CT
