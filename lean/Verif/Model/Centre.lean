/- Centre finding (analysis/functions.py:57-453, cluster/cluster.py:2119-2369). -/
import Verif.Model.Subset

namespace CT

noncomputable section

/-- A star as the centre finders see it: mass and row.  The parallel arrays `m, x, …, vz` are zipped. -/
abbrev MStar := ℝ × Ph

/-- `np.sum(m * x) / np.sum(m)`. -/
def wmean (f : Ph → ℝ) (l : List MStar) : ℝ := (l.map (fun a => a.1 * f a.2)).sum / (l.map Prod.fst).sum

/-- The six weighted means (functions.py:173-179, 397-403, 445-451). -/
def comOfStars (l : List MStar) : Ph :=
  ⟨wmean Ph.x l, wmean Ph.y l, wmean Ph.z l, wmean Ph.vx l, wmean Ph.vy l, wmean Ph.vz l⟩

/-- `find_centre_of_mass` (functions.py:428-453). -/
def findCentreOfMass (c : Cluster) : Ph := comOfStars (List.zip c.m c.st)

/-! ### loops -/

/-- `while`: `body s = none` leaves the loop.  `loopN body k s` is the final state if the loop ends within `k` tests,
`none` otherwise. -/
def loopN {σ : Type} (body : σ → Option σ) : ℕ → σ → Option σ
  | 0, _ => none
  | k + 1, s => (body s).elim (some s) (loopN body k)

/-! ### shrinking spheres (Harfst et al.) -/

/-- Variables of the loop of `find_centre_of_density_harfst`: positions relative to the current centre, the centre,
`rlim`, `n`. -/
structure Harfst where
  rows : List MStar
  centre : Ph
  rlim : ℝ
  n : ℕ

/-- `x**2 + y**2 + z**2`. -/
def Ph.r2 (p : Ph) : ℝ := p.x ^ 2 + p.y ^ 2 + p.z ^ 2

/-- One round (functions.py:386-423). -/
def harfstBody (nsphere : ℕ) (rmin : ℝ) (nmax : ℕ) (s : Harfst) : Option Harfst :=
  if rmin < s.rlim ∧ s.n < nmax then
    let inside := s.rows.filter (fun a => decide (a.2.r2 < s.rlim ^ 2))
    let nc := inside.length
    let mc := (inside.map Prod.fst).sum
    let cc := if mc = 0 then ⟨0, 0, 0, 0, 0, 0⟩ else comOfStars inside
    if 0 < mc ∧ nsphere < nc then
      some { rows := s.rows.map (fun a => (a.1, a.2.sub cc)), centre := s.centre.add cc, rlim := s.rlim * 0.8,
             n := s.n + 1 }
    else none
  else none

/-- The state before the loop (functions.py:363-384); `rmax=None` takes the largest radius, which raises without
stars.  `mask` is `indx`. -/
def harfstInit (start : Ph) (rmax : Option ℝ) (l : List MStar) : Except Err Harfst := do
  let rows := l.map (fun a => (a.1, a.2.sub start))
  let rlim ← orMax rmax (rows.map (fun a => Real.sqrt a.2.r2))
  return { rows := rows, centre := start, rlim := rlim, n := 0 }

/-- `find_centre_of_density_harfst` on the selected stars, given a bound on the number of loop tests. -/
def harfst (start : Ph) (nsphere : ℕ) (rmin : ℝ) (rmax : Option ℝ) (nmax fuel : ℕ) (l : List MStar) :
    Except Err (Option Ph) := do
  let s ← harfstInit start rmax l
  return (loopN (harfstBody nsphere rmin nmax) fuel s).map Harfst.centre

/-! ### density weights (Casertano & Hut) -/

/-- `find_centre_of_density_casertano` (functions.py:266-313) given the result of the KD-tree query: for every star the
indices of its `k` nearest stars (itself included) and the distance to the last of them. -/
def casertano (knn : List (List ℕ × ℝ)) (l : List MStar) : Ph :=
  let rhos := knn.map (fun q => ((q.1.map (fun j => (l[j]!).1)).sum - (l[q.1.getLastD 0]!).1) / q.2 ^ 3)
  let tot := rhos.sum
  let at_ (f : Ph → ℝ) := (List.zipWith (fun rho a => rho * f a.2 / tot) rhos l).sum
  ⟨at_ Ph.x, at_ Ph.y, at_ Ph.z, at_ Ph.vx, at_ Ph.vy, at_ Ph.vz⟩

/-! ### sigma clipping -/

/-- A star in the clipping loop: id and position relative to the current centre. -/
structure Clip where
  id : ℤ
  x : ℝ
  y : ℝ
  z : ℝ

def Clip.r (a : Clip) : ℝ := Real.sqrt (a.x ^ 2 + a.y ^ 2 + a.z ^ 2)

/-- `np.std`. -/
def stdDev (l : List ℝ) : ℝ := Real.sqrt (mean (l.map (fun x => (x - mean l) ^ 2)))

/-- `x - np.mean(x)` for the three positions (functions.py:163-165). -/
def recentre (l : List Clip) : List Clip :=
  l.map (fun a => { a with x := a.x - mean (l.map Clip.x), y := a.y - mean (l.map Clip.y), z := a.z - mean (l.map Clip.z) })

/-- One round of the loop of `find_centre(density=False)` (functions.py:157-168). -/
def clipBody (nsigma : ℝ) (nsphere : ℕ) (l : List Clip) : Option (List Clip) :=
  if nsphere < l.length then
    let sigma := nsigma * stdDev (l.map Clip.r)
    let k := l.filter (fun a => decide (a.r < sigma))
    if nsphere < k.length then some (recentre k) else none
  else none

/-- The clipped centre (functions.py:151-179): ids that survive, then the centre of mass of all stars with such an
id. -/
def clipCentre (nsigma : ℝ) (nsphere fuel : ℕ) (start : Ph) (mask : List Bool) (ids : List ℤ) (l : List MStar) :
    Option Ph :=
  let rows := List.zipWith (fun i (a : MStar) => ({ id := i, x := a.2.x - start.x, y := a.2.y - start.y, z := a.2.z - start.z } : Clip))
    (maskSel mask ids) (maskSel mask l)
  (loopN (clipBody nsigma nsphere) fuel rows).map (fun r =>
    comOfStars (maskSel (isinMask ids (r.map Clip.id)) l))

/-! ### find_centre -/

/-- Arguments of `find_centre` (functions.py:57-74). -/
structure CentreArgs where
  start : Ph := ⟨0, 0, 0, 0, 0, 0⟩
  nsigma : ℝ := 1
  nsphere : ℕ := 100
  density : Bool := true
  rmin : ℝ := 0.1
  rmax : Option ℝ := none
  nmax : ℕ := 100

/-- The method string: `harfst`, `casertano` (with the answer of the KD-tree), or anything else, for which the result
variables are never assigned. -/
inductive DensityMethod
  | harfst
  | casertano (knn : List (List ℕ × ℝ))
  | other

/-- The centre computed on the stars (functions.py:132-179, 252-257); `some none` is not used: `none` means the loop has
not ended within `fuel` tests. -/
def centreOf (a : CentreArgs) (meth : DensityMethod) (fuel : ℕ) (mask : List Bool) (ids : List ℤ) (l : List MStar) :
    Except Err (Option Ph) :=
  if a.density then
    match meth with
    | .harfst => harfst a.start a.nsphere a.rmin a.rmax a.nmax fuel (maskSel mask l)
    | .casertano knn => .ok (some (casertano knn l))
    | .other => .error .nameError
  else .ok (clipCentre a.nsigma a.nsphere fuel a.start mask ids l)

/-- `find_centre` (functions.py:57-186); `mask = none` is `indx=None`.  An empty selection returns zeros at once,
without `return_cluster`.  The inner save/return of `find_centre_of_density` happens in units that are not AMUSE, so it
only analyses again. -/
def findCentre (g : Galpy) (a : CentreArgs) (meth : DensityMethod) (fuel : ℕ) (mask : Option (List Bool)) (ids : List ℤ)
    (c : Cluster) : Except Err (Option Ph × Cluster) := do
  let c1 ← if c.units = some .amuse then toPckms g true c else .ok c
  if (mask.map (fun m => m.count true)).getD 1 = 0 then
    return (some ⟨0, 0, 0, 0, 0, 0⟩, c1)
  let r ← centreOf a meth fuel (mask.getD (List.replicate c.st.length true)) ids (List.zip c1.m c1.st)
  let c2 ← if a.density then returnCluster g (saveCluster c1) false none c1 else .ok c1
  let c3 ← returnCluster g (saveCluster c) false none c2
  return (r, c3)

open Classical in
/-- `_set_centre` (cluster.py:2288-2369). -/
def setCentre (reset : Bool) (p : Ph) (c : Cluster) : Cluster :=
  let zero : Ph := ⟨0, 0, 0, 0, 0, 0⟩
  match c.origin with
  | some .cluster => { c with c := p }
  | some .galaxy =>
    if c.gc = zero ∨ reset then { c with gc := p, c := zero }
    else if c.gc = p then c
    else { c with c := p.sub c.gc }
  | some .sky => if c.gc = zero ∨ reset then { c with gc := p, c := zero } else c
  | none => { c with c := p }
  | _ => c

/-- The method `StarCluster.find_centre_of_mass` (cluster.py:2264-2285). -/
def findCentreOfMassMethod (reset : Bool) (c : Cluster) : Ph × Cluster :=
  (findCentreOfMass c, setCentre reset (findCentreOfMass c) c)

/-- The method `StarCluster.find_centre` (cluster.py:2119-2189). -/
def findCentreMethod (g : Galpy) (a : CentreArgs) (meth : DensityMethod) (fuel : ℕ) (mask : Option (List Bool))
    (ids : List ℤ) (reset : Bool) (c : Cluster) : Except Err (Option Ph × Cluster) := do
  let (r, c1) ← findCentre g a meth fuel mask ids c
  return (r, (r.map (fun p => setCentre reset p c1)).getD c1)

end

end CT
