/- Reading a cluster from an astropy table (io/astropy_table.py, io/load.py:262-273). -/
import Verif.Model.IO

namespace CT

noncomputable section

/-- An astropy table: named columns of numbers.  Units of columns are ignored by the code. -/
structure ATable where
  cols : List (String × List ℝ)

/-- The eight columns used. -/
structure ATCols where
  x : List ℝ
  y : List ℝ
  z : List ℝ
  vx : List ℝ
  vy : List ℝ
  vz : List ℝ
  m : Option (List ℝ)
  id : Option (List ℝ)

/-- A dictionary with string keys and values. -/
abbrev Mapper := String → Option String

/-- `table[name]`. -/
def ATable.get (t : ATable) (nm : String) : Except Err (List ℝ) :=
  (t.cols.find? (fun c => c.1 = nm)).elim (.error .keyError) (fun c => .ok c.2)

/-- `_helper(*vs, …)` (astropy_table.py:78-90): the first of the names `vs` that is the lower-cased name of a column.  `low` is
`str.lower`. -/
def searchCol (low : String → String) (t : ATable) (vs : List String) : Option (List ℝ) :=
  vs.findSome? (fun v => (t.cols.find? (fun c => low c.1 = v)).map Prod.snd)

/-- `raise ValueError` when a column that is not optional is not found (astropy_table.py:84-90). -/
def needCol (o : Option (List ℝ)) : Except Err (List ℝ) := o.elim (.error .valueError) .ok

/-- The names searched for (astropy_table.py:94-124). -/
def searchNames (sky : Bool) (q : String) : List String :=
  match q, sky with
  | "id", _ => ["id"]
  | "m", _ => ["m", "mass"]
  | "x", true => ["right ascension", "ra"]
  | "y", true => ["declination", "dec"]
  | "z", true => ["distance", "dist", "d"]
  | "vx", true => ["pm_ra_cosdec", "pm_ra", "pmra"]
  | "vy", true => ["pm_dec", "pmdec"]
  | "vz", true => ["radial_velocity", "rvel", "v_los", "vlos"]
  | "x", false => ["x"]
  | "y", false => ["y"]
  | "z", false => ["z"]
  | "vx", false => ["v_x", "vx"]
  | "vy", false => ["v_y", "vy"]
  | "vz", false => ["v_z", "vz"]
  | _, _ => []

/-- The search without `column_mapper` (astropy_table.py:74-124). -/
def searchTable (low : String → String) (t : ATable) (sky : Bool) : Except Err ATCols := do
  let id := searchCol low t (searchNames sky "id")
  let m := searchCol low t (searchNames sky "m")
  let x ← needCol (searchCol low t (searchNames sky "x"))
  let y ← needCol (searchCol low t (searchNames sky "y"))
  let z ← needCol (searchCol low t (searchNames sky "z"))
  let vx ← needCol (searchCol low t (searchNames sky "vx"))
  let vy ← needCol (searchCol low t (searchNames sky "vy"))
  let vz ← needCol (searchCol low t (searchNames sky "vz"))
  return ⟨x, y, z, vx, vy, vz, m, id⟩

/-- `table[cm.pop(key)]` (astropy_table.py:127-132), without the effect on the dictionary. -/
def popCol (t : ATable) (cm : Mapper) (key : String) : Except Err (List ℝ) :=
  (cm key).elim (.error .keyError) t.get

/-- `table[cm.pop("m")] if "m" in cm else None` (astropy_table.py:134-135). -/
def popColIf (t : ATable) (cm : Mapper) (key : String) : Except Err (Option (List ℝ)) :=
  (cm key).elim (.ok none) (fun nm => do return some (← t.get nm))

/-- The keys taken out of the caller's dictionary. -/
def poppedKeys : List String := ["x", "y", "z", "vx", "vy", "vz", "m", "id"]

/-- The branch with a `column_mapper` (astropy_table.py:126-135): the columns, and the caller's dictionary afterwards. -/
def mapTable (t : ATable) (cm : Mapper) : Except Err (ATCols × Mapper) := do
  let x ← popCol t cm "x"
  let y ← popCol t cm "y"
  let z ← popCol t cm "z"
  let vx ← popCol t cm "vx"
  let vy ← popCol t cm "vy"
  let vz ← popCol t cm "vz"
  let m ← popColIf t cm "m"
  let id ← popColIf t cm "id"
  return (⟨x, y, z, vx, vy, vz, m, id⟩, fun k => if k ∈ poppedKeys then none else cm k)

/-- The columns, and the caller's dictionary afterwards. -/
def tableCols (low : String → String) (t : ATable) (mapper : Option Mapper) (units : Option Units) (origin : Option Origin) :
    Except Err (ATCols × Option Mapper) :=
  mapper.elim (do return ((← searchTable low t (decide (units = some .radec ∧ origin = some .sky))), none))
    (fun cm => do
      let r ← mapTable t cm
      return (r.1, some r.2))

/-- The arguments of `add_stars` (astropy_table.py:142-152). -/
def ATCols.args (k : ATCols) : StarArgs :=
  { x := .arr k.x, y := .arr k.y, z := .arr k.z, vx := .arr k.vx, vy := .arr k.vy, vz := .arr k.vz
    m := k.m.map .arr, id := k.id.map (fun l => .arr (l.map truncZ)), m0 := none, npop := none }

/-- `if kwargs.get("analyze", True): cluster.analyze(sortstars=sortstars)` (astropy_table.py:168-170). -/
def analyzeKw (kw : Kw) (c : Cluster) : Except Err Cluster :=
  if kw.analyze.getD true then analyze (kw.sort.getD true) c else .ok c

/-- The end of `_get_astropy_table` (astropy_table.py:154-173), and the lines left in the orbit file. -/
def settleTable (g : Galpy) (fc : Cluster → Except Err Cluster) (kw : Kw) (origin : Option Origin) (advance : Bool)
    (ofile : Option (List Line)) (c : Cluster) : Except Err (Cluster × Option (List Line)) :=
  if origin = some .galaxy then do
    let r ← placeGalaxy g fc kw advance ofile c
    let c ← settleGalaxy g fc kw r.1
    return (c, r.2)
  else if origin = some .cluster ∨ origin = some .centre then do
    let c ← analyzeKw kw c
    readOrbitIf g kw advance ofile c
  else .ok (c, ofile)

/-- `load_cluster('astropy_table', particles=table, column_mapper=…, …)` without a galpy orbit and `initialize`
(astropy_table.py:7-179, load.py:262-288): the cluster, and the caller's dictionary afterwards.  The call
`StarCluster(0., …, **kwargs)` raises `TypeError` when `tphys` is among the keyword arguments. -/
def loadTable (g : Galpy) (fc : Cluster → Except Err Cluster) (low : String → String) (t : ATable) (mapper : Option Mapper)
    (units : Option Units) (origin : Option Origin) (ofile : Option (List Line)) (kw : Kw) : Except Err (Run × Option Mapper) := do
  let k ← tableCols low t mapper units origin
  if kw.tphys.isSome then throw .typeError
  let T ← addStars k.1.args 0 false true (blankTab units origin 0)
  let r ← settleTable g fc kw origin false ofile T.base
  return ({ runOf kw units origin T [] r.1 with ofile := r.2 }, k.2)

end

end CT
