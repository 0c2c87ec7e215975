/- Energies and virialisation (analysis/functions.py, cluster/cluster.py, cluster/operations.py). -/
import Verif.Model.Grav
import Mathlib.Algebra.Order.Monoid.Unbundled.WithTop

namespace CT

noncomputable section

/-- A float that may be NaN: `⊤` is NaN, which absorbs addition. -/
abbrev NanR := WithTop ℝ

/-- Multiplication/division of a possibly-NaN value by an ordinary number. -/
def NanR.mul (x : NanR) (k : ℝ) : NanR := x.map (· * k)
def NanR.div (x : NanR) (k : ℝ) : NanR := x.map (· / k)

/-- `np.nan_to_num`. -/
def NanR.toNum (x : NanR) : ℝ := x.untopD 0

/-- The term added for a pair in the full kernels (functions.py:810-816): a zero distance is replaced by NaN. -/
def pairTerm (soft : ℝ) (a b : P4) : NanR :=
  if distance a b = 0 then ⊤
  else ((-(a.m * b.m) / Real.sqrt (distance a b ^ 2 + soft ^ 2) : ℝ) : NanR)

/-- The updates made by iteration `i` of the outer loop of `_potential_energy` and of
`_potential_energy_parallel` (functions.py:809-816, 844-851), in program order: for each `j` first `pot[i] += …`,
then `pot[j] += …`. -/
def rowUpdates (soft : ℝ) (s : List P4) (i : ℕ) : List (ℕ × NanR) :=
  (List.range' (i + 1) (s.length - (i + 1))).flatMap (fun j =>
    [(i, pairTerm soft s[i]! s[j]!), (j, pairTerm soft s[i]! s[j]!)])

/-- `pot[k] += v`. -/
def addAt (pot : List NanR) (u : ℕ × NanR) : List NanR := pot.modify u.1 (· + u.2)

/-- `_potential_energy` (functions.py:786-818): the serial loops. -/
def potentialFull (soft : ℝ) (s : List P4) : List NanR :=
  (List.range (s.length - 1)).foldl (fun pot i => (rowUpdates soft s i).foldl addAt pot)
    (List.replicate s.length ((0 : ℝ) : NanR))

/-- The updates made by iteration `i` of `_potential_energy_subset(_parallel)` (functions.py:880-887, 916-923). -/
def subsetUpdates (soft : ℝ) (sub full : List P4) (i : ℕ) : List (ℕ × NanR) :=
  (List.range full.length).flatMap (fun j =>
    if distance sub[i]! full[j]! ≠ 0 then
      [(i, ((-(sub[i]!.m * full[j]!.m) / Real.sqrt (distance sub[i]! full[j]! ^ 2 + soft ^ 2) : ℝ) : NanR))]
    else [])

/-- `_potential_energy_subset` (functions.py:856-890). -/
def potentialSubset (soft : ℝ) (sub full : List P4) : List NanR :=
  (List.range sub.length).foldl (fun pot i => (subsetUpdates soft sub full i).foldl addAt pot)
    (List.replicate sub.length ((0 : ℝ) : NanR))

/-- The `full=False` loop (functions.py:754-773): one vectorised sum per star, skipping entries whose softened
distance is zero.  `r2 i j` there is `dx²+dy²(+dz²)`. -/
def potentialLoop (specific : Bool) (grav soft : ℝ) (s : List P4) : List NanR :=
  s.map (fun a =>
    (((s.filter (fun b => decide (Real.sqrt ((a.x - b.x) ^ 2 + (a.y - b.y) ^ 2 + (a.z - b.z) ^ 2 + soft ^ 2) ≠ 0))).map
      (fun b => -grav * (if specific then b.m else a.m * b.m) /
        Real.sqrt ((a.x - b.x) ^ 2 + (a.y - b.y) ^ 2 + (a.z - b.z) ^ 2 + soft ^ 2))).sum : ℝ))

/-- The kinetic energies (functions.py:703-713), from the stored speeds. -/
def kinetic (specific projected : Bool) (c : Cluster) : List NanR :=
  let v := if projected then c.d.vpro else c.d.v
  if specific then v.map (fun v => ((0.5 * v ^ 2 : ℝ) : NanR))
  else List.zipWith (fun m v => ((0.5 * m * v ^ 2 : ℝ) : NanR)) c.m v

/-- The potential energies (functions.py:741-773). -/
def potential (specific full projected : Bool) (soft : ℝ) (c : Cluster) : List NanR :=
  let grav := getGrav c.units
  let s := rows4 projected c.m c.st
  if full then
    let pot := (potentialFull soft s).map (fun x => NanR.mul x grav)
    if specific then List.zipWith NanR.div pot c.m else pot
  else potentialLoop specific grav soft s

/-- `energies(cluster, specific, ids=None, projected, softening, full, parallel=False)` (functions.py:656-783). -/
def energies (g : Galpy) (specific full projected : Bool) (soft : ℝ) (c : Cluster) :
    Except Err (List NanR × List NanR × Cluster) := do
  let c1 ← if c.origin ≠ some .cluster ∧ c.origin ≠ some .centre then toCluster false none c else .ok c
  let c2 ← if c1.units = some .amuse then toPckms g true c1 else .ok c1
  let c3 ← returnCluster g (saveCluster c) false none c2
  return (kinetic specific projected c2, potential specific full projected soft c2, c3)

/-- `a[ids]` for a boolean mask. -/
def maskSel {α : Type} (mask : List Bool) (l : List α) : List α :=
  ((List.zip mask l).filter Prod.fst).map Prod.snd

/-- Kinetic energies of the selected stars (functions.py:726, 737-739). -/
def kineticIds (specific : Bool) (mask : List Bool) (c : Cluster) : List NanR :=
  let ms := maskSel mask c.m
  let kin := List.zipWith (fun m v => ((0.5 * m * v ^ 2 : ℝ) : NanR)) ms (maskSel mask c.d.v)
  if specific then List.zipWith NanR.div kin ms else kin

/-- Potential energies of the selected stars (functions.py:724, 728-739). -/
def potentialIds (specific : Bool) (mask : List Bool) (soft : ℝ) (c : Cluster) : List NanR :=
  let s := rows4 false c.m c.st
  let pot := (potentialSubset soft (maskSel mask s) s).map (fun x => NanR.mul x (getGrav c.units))
  if specific then List.zipWith NanR.div pot (maskSel mask c.m) else pot

/-- `energies` with a boolean `ids` mask (functions.py:715-739).  The `projected` argument is not used there. -/
def energiesIds (g : Galpy) (specific _projected : Bool) (mask : List Bool) (soft : ℝ) (c : Cluster) :
    Except Err (List NanR × List NanR × Cluster) := do
  let c1 ← if c.origin ≠ some .cluster ∧ c.origin ≠ some .centre then toCluster false none c else .ok c
  let c2 ← if c1.units = some .amuse then toPckms g true c1 else .ok c1
  let c3 ← returnCluster g (saveCluster c) false none c2
  return (kineticIds specific mask c2, potentialIds specific mask soft c2, c3)

/-- A cluster together with what `add_energies` stores on it (cluster.py:1306-1320); `none` before the first
call (`__init__` does not set `qvir`). -/
structure ECluster where
  c : Cluster
  kin : List NanR
  pot : List NanR
  ektot : ℝ
  ptot : ℝ
  qvir : Option ℝ

/-- `StarCluster.add_energies(kin, pot)` (cluster.py:1272-1320). -/
def addEnergies (kin pot : List NanR) (e : ECluster) : ECluster :=
  { e with kin := kin, pot := pot, ektot := (kin.map NanR.toNum).sum, ptot := (pot.map NanR.toNum).sum / 2,
           qvir := some ((kin.map NanR.toNum).sum / ((pot.map NanR.toNum).sum / 2)) }

/-- `StarCluster.energies(...)` with `ids=None` (cluster.py:2474-2568). -/
def energiesMethod (g : Galpy) (specific full projected : Bool) (soft : ℝ) (e : ECluster) : Except Err ECluster := do
  let c := e.c
  let c1 ← if c.origin ≠ some .cluster ∧ c.origin ≠ some .centre then toCluster false none c else .ok c
  let c2 ← if c1.units = some .amuse then toPckms g true c1 else .ok c1
  let r ← energies g specific full projected soft c2
  let c4 ← returnCluster g (saveCluster c) false none r.2.2
  return addEnergies r.1 r.2.1 { e with c := c4 }

/-- `try: qv = np.sqrt(np.abs(qvir / cluster.qvir)) except: cluster.energies(...)` (operations.py:1481-1486): the
energies are computed only if no ratio is stored yet. -/
def ensureQvir (g : Galpy) (projected : Bool) (soft : ℝ) (e : ECluster) : Except Err ECluster :=
  match e.qvir with
  | some _ => .ok e
  | none => energiesMethod g true true projected soft e

/-- `virialize` (operations.py:1450-1490) as called by the method (cluster.py:2103: `specific=True, full=True`
whatever the caller passes): the factor and the cluster afterwards. -/
def virializeFactor (g : Galpy) (q : ℝ) (projected : Bool) (soft : ℝ) (e : ECluster) : Except Err (ℝ × ECluster) := do
  let c1 ← if e.c.origin ≠ some .cluster ∧ e.c.origin ≠ some .centre then toCentre true none e.c else .ok e.c
  let e2 ← ensureQvir g projected soft { e with c := c1 }
  let c3 ← returnCluster g (saveCluster e.c) false none e2.c
  return (Real.sqrt |q / e2.qvir.getD 0|, { e2 with c := c3 })

/-- `StarCluster.virialize` (cluster.py:2073-2115). -/
def virialize (g : Galpy) (q : ℝ) (projected : Bool) (soft : ℝ) (e : ECluster) : Except Err ECluster := do
  let r ← virializeFactor g q projected soft e
  let c := r.2.c
  let c1 ← if c.origin ≠ some .cluster ∧ c.origin ≠ some .centre then toCentre false none c else .ok c
  let c2 := { c1 with st := c1.st.map (fun p => p.mulVel r.1) }
  let c3 ← returnCluster g (saveCluster c) false none c2
  return { r.2 with c := c3 }

/-! ### parallel execution -/

/-- One worker: the updates it still has to make, and the value it has loaded for the first of them (if it has). -/
structure Worker where
  todo : List (ℕ × NanR)
  reg : Option NanR

/-- Shared memory and workers.  `pot[k] += v` is a load followed by a store; workers interleave between them. -/
structure Machine where
  mem : ℕ → NanR
  w : ℕ → Worker

/-- Worker `t` executes its next load or store. -/
def Machine.step (M : Machine) (t : ℕ) : Machine :=
  match (M.w t).todo with
  | [] => M
  | (k, v) :: rest =>
    match (M.w t).reg with
    | none => { M with w := Function.update M.w t ⟨(k, v) :: rest, some (M.mem k)⟩ }
    | some r => { mem := Function.update M.mem k (r + v), w := Function.update M.w t ⟨rest, none⟩ }

/-- A schedule: which worker moves at each moment. -/
def Machine.run (M : Machine) (sched : List ℕ) : Machine := sched.foldl Machine.step M

/-- All work is done. -/
def Machine.done (M : Machine) : Prop := ∀ t, (M.w t).todo = []

/-- `_potential_energy_parallel` (functions.py:821-853): iteration `i < n-1` of the `prange` is worker `i`. -/
def parallelFull (soft : ℝ) (s : List P4) : Machine :=
  { mem := fun _ => ((0 : ℝ) : NanR)
    w := fun i => ⟨if i < s.length - 1 then rowUpdates soft s i else [], none⟩ }

/-- `_potential_energy_subset_parallel` (functions.py:892-925): iteration `i` of the `prange` is worker `i`. -/
def parallelSubset (soft : ℝ) (sub full : List P4) : Machine :=
  { mem := fun _ => ((0 : ℝ) : NanR)
    w := fun i => ⟨if i < sub.length then subsetUpdates soft sub full i else [], none⟩ }

end

end CT
