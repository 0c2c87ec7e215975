/- Binning and generic helpers (util/recipes.py). -/
import Verif.Model.Grav
import Mathlib.Analysis.SpecialFunctions.Log.Base

namespace CT

noncomputable section

/-- `np.searchsorted(a, v, side="right")`: number of leading entries `≤ v` (numpy bisects; the two agree on the
sorted arrays it is specified for). -/
def searchsortedRight (a : List ℝ) (v : ℝ) : ℕ := (a.takeWhile (fun u => decide (u ≤ v))).length

/-- `bin_index(x, x_lower, x_upper)` (recipes.py:787-808).  `x_lower` is not used by the code.  With no bins
at all the clipped index is `-1`, hence the integers. -/
def binIndex (x _lower upper : List ℝ) : List ℤ :=
  x.map (fun v => min (searchsortedRight upper v : ℤ) ((upper.length : ℤ) - 1))

/-- `np.bincount(idx, weights, minlength)`: entry `k` is the total weight of the positions holding `k`;
negative entries raise `ValueError`.  (Entries never exceed `minlength-1` in this code base, so the output
length is `minlength`; larger entries are ignored here.) -/
def bincount (idx : List ℤ) (weights : List ℝ) (minlength : ℕ) : Except Err (List ℝ) :=
  if idx.any (fun k => decide (k < 0)) then .error .valueError
  else .ok ((List.range minlength).map (fun (k : ℕ) =>
    ((List.zip idx weights).map (fun p => if p.1 = (k : ℤ) then p.2 else 0)).sum))

/-- Result of the bin makers: `x_lower, x_mid, x_upper, x_hist, x_sum`. -/
structure BinTable where
  lower : List ℝ
  mid : List ℝ
  upper : List ℝ
  hist : List ℝ
  sum : List ℝ

/-- `x[order[k]]`. -/
def fancy (x : List ℝ) (order : List ℕ) (k : ℕ) : Except Err ℝ :=
  match order[k]? with
  | none => .error .indexError
  | some i =>
    match x[i]? with
    | none => .error .indexError
    | some v => .ok v

/-- `nbinmaker(x, nbin)` (recipes.py:29-85).  `cut_idx = (arange(nbin)*len(x)/nbin).astype(int)` is integer
division (exact arithmetic).  `nbin = 0` fails on the boolean index of line 75. -/
def nbinmaker (x : List ℝ) (nbin : ℕ) : Except Err BinTable := do
  let order := argsort x
  let cut := (List.range nbin).map (fun i => i * x.length / nbin)
  let lower0 ← cut.mapM (fancy x order)
  if nbin = 0 then throw .indexError
  let upper0 := lower0.tail ++ [maxOf x]
  let keep := (List.zip lower0 upper0).filter (fun p => decide (p.1 ≠ p.2))
  let lower := keep.map Prod.fst
  let upper := keep.map Prod.snd
  let idx := binIndex x lower upper
  let hist ← bincount idx (x.map (fun _ => 1)) lower.length
  let sum ← bincount idx x lower.length
  return { lower := lower, mid := List.zipWith (· / ·) sum hist, upper := upper, hist := hist, sum := sum }

/-- `np.amin` of a non-empty array. -/
def minOf (l : List ℝ) : ℝ := l.foldl min (l.headD 0)

/-- `np.linspace(a, b, n)`. -/
def linspace (a b : ℝ) (n : ℕ) : List ℝ :=
  (List.range n).map (fun (i : ℕ) => a + (i : ℝ) * ((b - a) / ((n : ℝ) - 1)))

/-- `np.logspace(a, b, n)`. -/
def logspace (a b : ℝ) (n : ℕ) : List ℝ := (linspace a b n).map (fun e => (10 : ℝ) ^ e)

/-- `np.log10`. -/
def log10 (x : ℝ) : ℝ := Real.logb 10 x

/-- The loop body shared by `binmaker` (recipes.py:136-143) and `roaming_binmaker` (276-283): the entries of `x`
in `[lower[j], upper[j])`, the last interval closed. -/
def binMembers (x lower upper : List ℝ) (j : ℕ) : List ℝ :=
  if j + 1 < lower.length then
    x.filter (fun v => decide (lower.getD j 0 ≤ v) && decide (v < upper.getD j 0))
  else
    x.filter (fun v => decide (lower.getD j 0 ≤ v) && decide (v ≤ upper.getD j 0))

/-- `x_hist`, `x_sum` from the members of each bin. -/
def tabulate (x lower mid upper : List ℝ) : BinTable :=
  { lower := lower, mid := mid, upper := upper,
    hist := (List.range lower.length).map (fun j => ((binMembers x lower upper j).length : ℝ)),
    sum := (List.range lower.length).map (fun j => (binMembers x lower upper j).sum) }

/-- `binmaker(x, nbin, steptype)` (recipes.py:88-148). -/
def binmaker (x : List ℝ) (nbin : ℕ) (linear : Bool) : Except Err BinTable :=
  if x = [] then .error .valueError
  else
    let steps := if linear then linspace (minOf x) (maxOf x) (nbin + 1)
      else logspace (log10 (minOf x)) (log10 (maxOf x)) (nbin + 1)
    let lower := steps.dropLast
    let upper := steps.tail
    .ok (tabulate x lower (List.zipWith (fun u l => (u + l) / 2) upper lower) upper)

/-- `roaming_binmaker(x, nbin, ntot, steptype)` (recipes.py:217-288). -/
def roamingBinmaker (x : List ℝ) (nbin ntot : ℕ) (linear : Bool) : Except Err BinTable :=
  if x = [] then .error .valueError
  else if linear then
    let xmin := minOf x
    let xmax := maxOf x
    let dx := |xmax - xmin| / (nbin : ℝ)
    let lower := linspace xmin (xmax - dx) ntot
    let upper := lower.map (· + dx)
    .ok (tabulate x lower (List.zipWith (fun u l => (u + l) / 2) upper lower) upper)
  else
    let xmin := minOf (x.map log10)
    let xmax := maxOf (x.map log10)
    let dx := |xmax - xmin| / (nbin : ℝ)
    let lower := logspace xmin (xmax - dx) ntot
    let upper := logspace (xmin + dx) xmax ntot
    .ok (tabulate x lower (List.zipWith (fun u l => (10 : ℝ) ^ ((log10 u + log10 l) / 2)) upper lower) upper)

/-- `np.sort`. -/
def npSort (x : List ℝ) : List ℝ := x.mergeSort (fun a b => decide (a ≤ b))

/-- The selection of line 203-206 of `roaming_nbinmaker`; the last interval has no upper bound. -/
def roamMembers (x : List ℝ) (keep : List (ℝ × ℝ)) (i : ℕ) : List ℝ :=
  if i + 1 < keep.length then
    x.filter (fun v => decide ((keep.getD i (0, 0)).1 ≤ v) && decide (v < (keep.getD i (0, 0)).2))
  else x.filter (fun v => decide ((keep.getD i (0, 0)).1 ≤ v))

/-- The loop of `roaming_nbinmaker` (recipes.py:202-215) over the non-degenerate intervals. -/
def roamTable (x : List ℝ) (keep : List (ℝ × ℝ)) : BinTable :=
  let hist := (List.range keep.length).map (fun i => ((roamMembers x keep i).length : ℝ))
  let sum := (List.range keep.length).map (fun i => (roamMembers x keep i).sum)
  { lower := keep.map Prod.fst, mid := List.zipWith (· / ·) sum hist, upper := keep.map Prod.snd,
    hist := hist, sum := sum }

/-- `roaming_nbinmaker(x, nbin, ntot)` (recipes.py:150-215).  `astype(int)` of a non-negative number is its
floor. -/
def roamingNbinmaker (x : List ℝ) (nbin ntot : ℕ) : Except Err BinTable := do
  let xs := npSort x
  let dx := 1 / (nbin : ℝ)
  let flow := linspace 0 (1 - dx) ntot
  let fup := flow.map (· + dx)
  let pick := fun (f : ℝ) =>
    match xs[⌊f * ((x.length : ℝ) - 1)⌋₊]? with
    | none => Except.error Err.indexError
    | some v => .ok v
  let lower0 ← flow.mapM pick
  let upper0 ← fup.mapM pick
  return roamTable x ((List.zip lower0 upper0).filter (fun p => decide (p.1 ≠ p.2)))

/-- `np.median` of a non-empty array. -/
def median (l : List ℝ) : ℝ :=
  let s := npSort l
  if l.length % 2 = 1 then s.getD (l.length / 2) 0
  else (s.getD (l.length / 2 - 1) 0 + s.getD (l.length / 2) 0) / 2

/-- `np.std` (population standard deviation). -/
def npStd (l : List ℝ) : ℝ := Real.sqrt (mean (l.map (fun v => (v - mean l) ^ 2)))

/-- `y[bin_idx == i]`. -/
def selectBin (idx : List ℤ) (y : List ℝ) (i : ℕ) : List ℝ :=
  ((List.zip idx y).filter (fun p => decide (p.1 = (i : ℤ)))).map Prod.snd

/-- The loop of `mean_prof` (recipes.py:570-596) over given bins, returning `(x_bin, y_bin, y_sig)` rows for the
bins that contain at least one element.  `smooth` (651-676) runs the same loop over `range(nbin)`. -/
def meanProfLoop (useMedian : Bool) (x y lower mid upper : List ℝ) : List (ℝ × ℝ × ℝ) :=
  let idx := binIndex x lower upper
  (List.range lower.length).filterMap (fun i =>
    let sel := selectBin idx y i
    if sel.length = 0 then none
    else if sel.length = 1 then some (mid.getD i 0, sel.getD 0 0, 0)
    else some (mid.getD i 0, if useMedian then median sel else mean sel, npStd sel))

/-- `mean_prof(x, y, nbin, bintype, steptype, median)` (recipes.py:530-596), bins made from `x`. -/
def meanProf (num lin useMedian : Bool) (x y : List ℝ) (nbin : ℕ) : Except Err (List (ℝ × ℝ × ℝ)) := do
  let T ← if num then nbinmaker x nbin else binmaker x nbin lin
  return meanProfLoop useMedian x y T.lower T.mid T.upper

/-- The loop of `smooth` (recipes.py:651-678): rows `(x_bin, y_bin, y_sig, y_min, y_max)`, `i in range(nbin)`;
the number of elements of a bin is read from `x_hist`. -/
def smoothLoop (useMedian : Bool) (nbin : ℕ) (x y : List ℝ) (T : BinTable) : List (ℝ × ℝ × ℝ × ℝ × ℝ) :=
  let idx := binIndex x T.lower T.upper
  (List.range nbin).filterMap (fun i =>
    let sel := selectBin idx y i
    if sel.length = 0 then none
    else if T.hist.getD i 0 > 1 then
      some (T.mid.getD i 0, if useMedian then median sel else mean sel, npStd sel, minOf sel, maxOf sel)
    else if T.hist.getD i 0 = 1 then some (T.mid.getD i 0, sel.getD 0 0, 0, sel.getD 0 0, sel.getD 0 0)
    else some (T.mid.getD i 0, 0, 0, 0, 0))

/-- `smooth(x, y, dx, bintype, median)` (recipes.py:599-678). -/
def smooth (num useMedian : Bool) (x y : List ℝ) (dx : ℝ) : Except Err (List (ℝ × ℝ × ℝ × ℝ × ℝ)) := do
  if x = [] then throw .valueError
  let nbin := ⌊(maxOf x - minOf x) / dx⌋₊
  let T ← if num then nbinmaker x nbin else binmaker x nbin true
  return smoothLoop useMedian nbin x y T

/-- `interpolate(r1, r2, x, y)` (recipes.py:681-722); the result `0` when neither is given.  Division by zero
is not modelled (theorems assume distinct abscissae/ordinates). -/
def interpolate (x1 y1 x2 y2 : ℝ) (x y : Option ℝ) : ℝ :=
  let m := (y2 - y1) / (x2 - x1)
  let b := y1 - m * x1
  match x with
  | some x => m * x + b
  | none =>
    match y with
    | some y => (y - b) / m
    | none => 0

/-- The update of one entry in `minimum_distance` (recipes.py:746-749): `-1` marks "not set". -/
def minUpd (r cur : ℝ) : ℝ := if cur < 0 then r else min cur r

/-- `minimum_distance(x)` (recipes.py:724-756). -/
def minimumDistance (x : List P4) : List ℝ :=
  (List.range (x.length - 1)).foldl (fun md i =>
    (List.range' (i + 1) (x.length - (i + 1))).foldl (fun md j =>
      let r := distance x[i]! x[j]!
      let md := md.set i (minUpd r (md.getD i 0))
      md.set j (minUpd r (md.getD j 0))) md) (List.replicate x.length (-1))

/-- `power_law_distribution_function(n, alpha, xmin, xmax)` (recipes.py:290-328) as a function of the uniform
draws `u ∈ [0,1)` (`np.random.random/rand`) and of the draws `p` of `np.random.power(eta, n)`, which lie in
`[0,1]`.  One value per draw (`xmin == xmax` returns the single value `xmin`). -/
def powerLaw (alpha xmin xmax : ℝ) (draws : List ℝ) : List ℝ :=
  let eta := alpha + 1
  if xmin = xmax then [xmin]
  else if alpha = 0 then draws.map (fun u => xmin + u * (xmax - xmin))
  else if alpha > 0 then draws.map (fun p => xmin + p * (xmax - xmin))
  else if alpha ≠ -1 then
    draws.map (fun u => (xmin ^ eta + (xmax ^ eta - xmin ^ eta) * u) ^ (1 / eta))
  else draws.map (fun u => (10 : ℝ) ^ (log10 xmin + u * (log10 xmax - log10 xmin)))

end

end CT
