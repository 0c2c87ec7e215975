/- Specification vocabulary for reading snapshots. -/
import Verif.Model.IO
import Verif.Spec.Valid
import Verif.Spec.Order
import Verif.Lemmas.Ops

namespace CT

noncomputable section

/-- The options in force after advancing with keyword arguments `a` a cluster loaded with `kw`: file-name options and the
number of header lines are remembered, everything else is what the call of `advance_cluster` says. -/
def Kw.then (kw a : Kw) : Kw :=
  { a with
    nzfill := a.nzfill.or kw.nzfill, wdir := a.wdir.or kw.wdir, snapdir := a.snapdir.or kw.snapdir
    snapbase := a.snapbase.or kw.snapbase, snapend := a.snapend.or kw.snapend, skiprows := a.skiprows.or kw.skiprows }

/-- A file with `skip` header lines followed by the rows of a table with `w` columns. -/
def IsTable (skip w : ℕ) (rows : List (List ℝ)) (f : List Line) : Prop :=
  ∃ header : List Line, header.length = skip ∧ f = header ++ rows.map Line.row ∧ ∀ r ∈ rows, r.length = w

/-- A column layout: as many numbers as names, all inside the table. -/
def LayoutOk (names : List String) (nums : List ℕ) (w : ℕ) : Prop :=
  names.length = nums.length ∧ ∀ k ∈ nums, k < w

/-- The quantity called `nm` of star `i` of a table, or `d` if there is no such column. -/
def cell (names : List String) (nums : List ℕ) (rows : List (List ℝ)) (nm : String) (d : ℝ) (i : ℕ) : ℝ :=
  if nm ∈ names then (rows[i]!)[nums[names.idxOf nm]!]! else d

/-- Star `i` of a table. -/
def tableStar (names : List String) (nums : List ℕ) (rows : List (List ℝ)) (i : ℕ) : Ph :=
  ⟨cell names nums rows "x" 0 i, cell names nums rows "y" 0 i, cell names nums rows "z" 0 i,
    cell names nums rows "vx" 0 i, cell names nums rows "vy" 0 i, cell names nums rows "vz" 0 i⟩

/-- Same stars, masses, labels and time, up-to-date derived quantities. -/
structure SameStars (c c' : Cluster) : Prop where
  units : c'.units = c.units
  origin : c'.origin = c.origin
  tphys : c'.tphys = c.tphys
  m : c'.m = c.m
  st : c'.st = c.st
  rest : c'.rest = c.rest
  good : Good c'
  fresh : Fresh c'

/-- What is assumed of `cluster.find_centre()`: it succeeds and sets nothing but the centre; in the cluster frame it does
not move the cluster in the galaxy. -/
def CentreFinder (g : Galpy) (fc : Cluster → Except Err Cluster) : Prop :=
  ∀ c, Pos g c → Lin c → Good c → Fresh c →
    ∃ c', fc c = .ok c' ∧ SameStars c c' ∧ (c.origin = some .cluster → c'.gc = c.gc)

/-- galpy's conversion constants are positive. -/
structure Galpy.Positive (g : Galpy) : Prop where
  ro : 0 < g.ro
  vo : 0 < g.vo
  time : 0 < g.timeGyr
  mass : 0 < g.massMsol
  vel : 0 < g.velKpcGyr

/-- Line `n` of an orbit file: time, position, velocity, possibly more columns. -/
def OrbitAt (f : List Line) (n : ℕ) (t : ℝ) (p : Ph) : Prop :=
  ∃ more : List ℝ, f[n]? = some (.row (t :: p.x :: p.y :: p.z :: p.vx :: p.vy :: p.vz :: more))

/-- What the orbit file, if there is one, says about the cluster: line `nsnap` (the next line when advancing) has time `t`
and phase-space position `p`, in the default columns and in the cluster's own units. -/
def OrbitOk (kw : Kw) (advance : Bool) (f : Option (List Line)) (t : ℝ) (p : Ph) : Prop :=
  ∀ L, f = some L → kw.ocolNames = none ∧ kw.ocolNums = none ∧ kw.ounits = none ∧
    OrbitAt L (if advance then 0 else kw.nsnap.getD 0) t p

/-- The stars of a loaded cluster are those of a table. -/
structure HasTable (names : List String) (nums : List ℕ) (rows : List (List ℝ)) (r : Run) : Prop where
  ntot : r.ntot = rows.length
  st : r.base.st.length = rows.length
  m : r.base.m.length = rows.length
  id : r.id.length = rows.length
  star : ∀ i < rows.length, r.base.st[i]! = tableStar names nums rows i
  mass : ∀ i < rows.length, r.base.m[i]! = cell names nums rows "m" 1 i
  ids : "id" ∈ names → ∀ i < rows.length, ∀ k : ℤ, cell names nums rows "id" 0 i = k → r.id[i]! = k
  noIds : "id" ∉ names → ∀ i < rows.length, r.id[i]! = (i : ℤ)
  kw : "kw" ∈ names → r.kw.length = rows.length ∧ ∀ i < rows.length, r.kw[i]! = cell names nums rows "kw" 0 i

end

end CT
