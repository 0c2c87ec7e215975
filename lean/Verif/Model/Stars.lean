/- Adding stars and binaries to a cluster (cluster/cluster.py). -/
import Verif.Model.Ops

namespace CT

noncomputable section

/-- An argument of `add_stars` that is given: a number or an array (cluster.py:445-471). -/
inductive Val (α : Type)
  | scalar (a : α)
  | arr (l : List α)

/-- `1` for a number, `len(p)` for an array (cluster.py:456-460). -/
def Val.count {α : Type} : Val α → ℕ
  | .scalar _ => 1
  | .arr l => l.length

/-- `np.ones(npmax)*p` for a number, the array itself otherwise (cluster.py:462-471). -/
def Val.expand {α : Type} (n : ℕ) : Val α → List α
  | .scalar a => List.replicate n a
  | .arr l => l

/-- The arguments of `add_stars` (cluster.py:408-410); `none` for the optional ones is Python's `None`. -/
structure StarArgs where
  x : Val ℝ
  y : Val ℝ
  z : Val ℝ
  vx : Val ℝ
  vy : Val ℝ
  vz : Val ℝ
  m : Option (Val ℝ)
  id : Option (Val ℤ)
  m0 : Option (Val ℝ)
  npop : Option (Val ℤ)

/-- `npmax` (cluster.py:445-460). -/
def StarArgs.npmax (a : StarArgs) : ℕ :=
  [a.x.count, a.y.count, a.z.count, a.vx.count, a.vy.count, a.vz.count, (a.m.map Val.count).getD 0,
    (a.id.map Val.count).getD 0, (a.m0.map Val.count).getD 0, (a.npop.map Val.count).getD 0].foldl max 0

/-- The per-star arrays of a `StarCluster` as separate columns, the binary-component arrays, the counters, and
everything else (`base`; its `st` and `m` are refreshed from the columns by `analyze`). -/
structure Tab where
  x : List ℝ
  y : List ℝ
  z : List ℝ
  vx : List ℝ
  vy : List ℝ
  vz : List ℝ
  m : List ℝ
  m0 : List ℝ
  npop : List ℤ
  id : List ℤ
  /-- components `xb1 … vzb1`, `mb1`, `xb2 … vzb2`, `mb2` -/
  b1 : List Ph
  mb1 : List ℝ
  b2 : List Ph
  mb2 : List ℝ
  id2 : List ℤ
  nb : ℕ
  ntot : ℕ
  ns : ℤ
  base : Cluster

/-- Rows built from six columns (as many as the shortest has). -/
def rowsOf : List ℝ → List ℝ → List ℝ → List ℝ → List ℝ → List ℝ → List Ph
  | a :: x, b :: y, c :: z, d :: vx, e :: vy, f :: vz => ⟨a, b, c, d, e, f⟩ :: rowsOf x y z vx vy vz
  | _, _, _, _, _, _ => []

/-- The lengths compared by the length check (cluster.py:589-616). -/
def Tab.lens (t : Tab) : List ℕ :=
  [t.id.length, t.m.length, t.x.length, t.y.length, t.z.length, t.vx.length, t.vy.length, t.vz.length,
    t.m0.length, t.npop.length]

/-- `np.ones(nmax) * c[0]` if the column has length one (cluster.py:619-667). -/
def fixCol {α : Type} (nmax : ℕ) (l : List α) : List α :=
  match l with
  | [a] => List.replicate nmax a
  | l => l

/-- The length check (cluster.py:588-671).  Otherwise wrong lengths are only reported by a print. -/
def fixLengths (t : Tab) : Tab :=
  let nmax := t.lens.foldl max 0
  let nmin := t.lens.foldl min nmax
  if nmax ≠ nmin then
    { t with
      id := match t.id with | [_] => (List.range nmax).map (fun (k : ℕ) => (k : ℤ)) | l => l
      m := fixCol nmax t.m, x := fixCol nmax t.x, y := fixCol nmax t.y, z := fixCol nmax t.z
      vx := fixCol nmax t.vx, vy := fixCol nmax t.vy, vz := fixCol nmax t.vz
      m0 := fixCol nmax t.m0, npop := fixCol nmax t.npop }
  else t

/-- `np.amax(ids)` of a non-empty array. -/
def amaxZ (l : List ℤ) : ℤ := l.foldl max (l.headD 0)

/-- `idstart` (cluster.py:571-576): one past the largest id present, one more when there are binaries. -/
def idStart (ids : List ℤ) (binaries : Bool) : ℤ :=
  if ids ≠ [] then amaxZ ids + 1 + (if binaries then 1 else 0) else 0

/-- numpy broadcasting of a binary operation on 1-d arrays. -/
def bcast (f : ℝ → ℝ → ℝ) (a b : List ℝ) : Except Err (List ℝ) :=
  if a.length = b.length then .ok (List.zipWith f a b)
  else match a, b with
    | [u], b => .ok (b.map (f u))
    | a, [v] => .ok (a.map (fun u => f u v))
    | _, _ => .error .shapeError

/-- One line of `xcom=(xb1*self.mb1+xb2*self.mb2)/mcom` (cluster.py:761-766, 827-832). -/
def comCol (m1 m2 mcom u1 u2 : List ℝ) : Except Err (List ℝ) := do
  let p ← bcast (· * ·) u1 m1
  let q ← bcast (· * ·) u2 m2
  let s ← bcast (· + ·) p q
  bcast (· / ·) s mcom

/-- The centre-of-mass columns returned by `add_binary_stars` (cluster.py:759-766, 825-834): the *new* positions are
combined with *all* accumulated masses. -/
structure Com where
  x : List ℝ
  y : List ℝ
  z : List ℝ
  vx : List ℝ
  vy : List ℝ
  vz : List ℝ
  m : List ℝ

def comOf (m1 m2 : List ℝ) (b1 b2 : List Ph) : Except Err Com := do
  let mcom ← bcast (· + ·) m1 m2
  let x ← comCol m1 m2 mcom (b1.map Ph.x) (b2.map Ph.x)
  let y ← comCol m1 m2 mcom (b1.map Ph.y) (b2.map Ph.y)
  let z ← comCol m1 m2 mcom (b1.map Ph.z) (b2.map Ph.z)
  let vx ← comCol m1 m2 mcom (b1.map Ph.vx) (b2.map Ph.vx)
  let vy ← comCol m1 m2 mcom (b1.map Ph.vy) (b2.map Ph.vy)
  let vz ← comCol m1 m2 mcom (b1.map Ph.vz) (b2.map Ph.vz)
  return ⟨x, y, z, vx, vy, vz, mcom⟩

/-- The first part of `add_binary_stars` (cluster.py:731-757): count and store the components.  Missing masses
are ones. -/
def storeBinaries (b1 b2 : List Ph) (m1 m2 : Option (List ℝ)) (t : Tab) : Tab :=
  { t with
    nb := t.nb + b1.length
    b1 := t.b1 ++ b1, b2 := t.b2 ++ b2
    mb1 := t.mb1 ++ m1.getD (List.replicate b1.length 1)
    mb2 := t.mb2 ++ m2.getD (List.replicate b2.length 1) }

/-- `np.append(xcom,self.x)` … `np.append(mcom,self.m)` (cluster.py:506-512, 768-774). -/
def prependCom (k : Com) (t : Tab) : Tab :=
  { t with x := k.x ++ t.x, y := k.y ++ t.y, z := k.z ++ t.z, vx := k.vx ++ t.vx, vy := k.vy ++ t.vy,
           vz := k.vz ++ t.vz, m := k.m ++ t.m }

/-- `StarCluster.add_binary_stars` called by the user with arrays, `set_com=True`, and with `m01,m02` absent
(cluster.py:731-823).  `npop` is extended only if both `npop1` and `npop2` are given. -/
def addBinaryStars (b1 b2 : List Ph) (m1 m2 : Option (List ℝ)) (ids1 ids2 : Option (List ℤ))
    (npop1 npop2 : Option (List ℤ)) (t : Tab) : Except Err Tab := do
  let t := storeBinaries b1 b2 m1 m2 t
  let k ← comOf t.mb1 t.mb2 b1 b2
  let start := idStart t.id false
  let ids := ids1.getD ((List.range k.x.length).map (fun (i : ℕ) => start + 2 * (i : ℤ)))
  let t := prependCom k t
  let npop := match npop1, npop2 with
    | some p, some q => List.zipWith max p q ++ t.npop
    | _, _ => t.npop
  let t := { t with
    id := ids ++ t.id
    id2 := t.id2 ++ ids2.getD (ids.map (· + 1))
    m0 := List.replicate k.x.length 0 ++ t.m0
    npop := npop }
  return { t with ntot := t.x.length, ns := (t.x.length : ℤ) - t.nb }

/-- `a[arg1]` / `a[arg2]` with `arg1 = 0,2,…,2nb-2`, `arg2 = arg1+1` (cluster.py:494-498); an array that is too
short raises `IndexError`. -/
def pick {α : Type} [Inhabited α] (off nb : ℕ) (l : List α) : Except Err (List α) :=
  if 2 * nb ≤ l.length then .ok ((List.range nb).map (fun (k : ℕ) => l[2 * k + off]!)) else .error .indexError

/-- Picking from an optional array. -/
def pickOpt {α : Type} [Inhabited α] (off nb : ℕ) : Option (List α) → Except Err (Option (List α))
  | none => .ok none
  | some l => do return some (← pick off nb l)

/-- The expanded arguments (cluster.py:462-471). -/
structure Cols where
  x : List ℝ
  y : List ℝ
  z : List ℝ
  vx : List ℝ
  vy : List ℝ
  vz : List ℝ
  m : Option (List ℝ)
  id : Option (List ℤ)
  m0 : Option (List ℝ)
  npop : Option (List ℤ)

def StarArgs.expand (a : StarArgs) : Cols :=
  let n := a.npmax
  { x := a.x.expand n, y := a.y.expand n, z := a.z.expand n, vx := a.vx.expand n, vy := a.vy.expand n,
    vz := a.vz.expand n, m := a.m.map (Val.expand n), id := a.id.map (Val.expand n),
    m0 := a.m0.map (Val.expand n), npop := a.npop.map (Val.expand n) }

/-- The phase-space rows `off, off+2, …` of the arguments (cluster.py:501-503). -/
def pickRows (off nb : ℕ) (a : Cols) : Except Err (List Ph) := do
  return rowsOf (← pick off nb a.x) (← pick off nb a.y) (← pick off nb a.z) (← pick off nb a.vx)
    (← pick off nb a.vy) (← pick off nb a.vz)

/-- The `if nb>0:` block of `add_stars` (cluster.py:493-536).  With `nb==1` the components are numbers, and missing
masses raise (`len()` of a number, cluster.py:753). -/
def addBinaryBlock (nb : ℕ) (a : Cols) (t : Tab) : Except Err Tab := do
  let b1 ← pickRows 0 nb a
  let b2 ← pickRows 1 nb a
  let m1 ← pickOpt 0 nb a.m
  let m2 ← pickOpt 1 nb a.m
  if nb = 1 ∧ a.m = none then throw .valueError
  let t := storeBinaries b1 b2 m1 m2 t
  let k ← comOf t.mb1 t.mb2 b1 b2
  let t := prependCom k t
  let start := idStart t.id false
  let ids ← pickOpt 0 nb a.id
  let m01 ← pickOpt 0 nb a.m0
  let m02 ← pickOpt 1 nb a.m0
  let np ← pickOpt 0 nb a.npop
  return { t with
    id := ids.getD ((List.range nb).map (fun (i : ℕ) => start + 2 * (i : ℤ))) ++ t.id
    m0 := (match m01, m02 with
      | some p, some q => List.zipWith (· + ·) p q
      | _, _ => List.replicate nb 0) ++ t.m0
    npop := np.getD (List.replicate nb 1) ++ t.npop }

/-- The single-star part (cluster.py:543-584). -/
def addSingles (args : ℕ) (a : Cols) (t : Tab) : Tab :=
  let k := (a.x.drop args).length
  { t with
    x := t.x ++ a.x.drop args, y := t.y ++ a.y.drop args, z := t.z ++ a.z.drop args
    vx := t.vx ++ a.vx.drop args, vy := t.vy ++ a.vy.drop args, vz := t.vz ++ a.vz.drop args
    m := t.m ++ (a.m.map (List.drop args)).getD (List.replicate k 1)
    m0 := t.m0 ++ (a.m0.map (List.drop args)).getD (List.replicate k 0)
    npop := t.npop ++ (a.npop.map (List.drop args)).getD (List.replicate k 1)
    id := t.id ++ (a.id.map (List.drop args)).getD
      ((List.range k).map (fun (i : ℕ) => idStart t.id (decide (0 < t.nb)) + (i : ℤ))) }

/-- `if self.units == "radec" and self.origin == "sky":` append the *whole* argument arrays to `ra … vlos`
(cluster.py:673-679). -/
def addSkyCols (a : Cols) (t : Tab) : Tab :=
  if t.base.units = some .radec ∧ t.base.origin = some .sky then
    { t with base := { t.base with sky := t.base.sky ++ rowsOf a.x a.y a.z a.vx a.vy a.vz } }
  else t

/-- `self.analyze(sortstars=sortstars)` on the columns (cluster.py:1370-1440).  Columns of different lengths make the
array arithmetic raise. -/
def analyzeTab (sort : Bool) (t : Tab) : Except Err Tab := do
  if t.x.length ≠ t.y.length ∨ t.x.length ≠ t.z.length ∨ t.x.length ≠ t.vx.length ∨ t.x.length ≠ t.vy.length ∨
      t.x.length ≠ t.vz.length then throw .shapeError
  let b ← analyze sort { t.base with st := rowsOf t.x t.y t.z t.vx t.vy t.vz, m := t.m }
  return { t with base := b }

/-- `StarCluster.add_stars` (cluster.py:408-689) without AMUSE quantities. -/
def addStars (a : StarArgs) (nb : ℕ) (sort an : Bool) (t : Tab) : Except Err Tab := do
  let t ← if 0 < nb then addBinaryBlock nb a.expand t else .ok t
  let t := addSkyCols a.expand (fixLengths (addSingles (2 * nb) a.expand t))
  let t ← if an then analyzeTab sort t else .ok t
  return { t with ntot := t.x.length, ns := (t.x.length : ℤ) - t.nb }

/-- A history of `add_stars` calls. -/
def addMany : List (StarArgs × Bool × Bool) → Tab → Except Err Tab
  | [], t => .ok t
  | (a, sort, an) :: rest, t => (addStars a 0 sort an t).bind (addMany rest)

end

end CT
