/- Number densities and mass functions (util/recipes.py, analysis/functions.py). -/
import Verif.Model.Profiles

namespace CT

noncomputable section

/-- What `np.polyfit(x, y, 1, cov=True)` is used for: slope, its error, intercept, its error. -/
structure LineFit where
  slope : ℝ
  eslope : ℝ
  icept : ℝ
  eicept : ℝ

/-- `Σ (x - x̄)²`. -/
def sxx (x : List ℝ) : ℝ := (x.map (fun v => (v - mean x) ^ 2)).sum

/-- `Σ (x - x̄)(y - ȳ)`. -/
def sxy (x y : List ℝ) : ℝ := ((List.zip x y).map (fun p => (p.1 - mean x) * (p.2 - mean y))).sum

/-- Sum of the squared residuals of the line `a·x + b`. -/
def rss (x y : List ℝ) (a b : ℝ) : ℝ := ((List.zip x y).map (fun p => (p.2 - (a * p.1 + b)) ^ 2)).sum

open Classical in
/-- `np.polyfit(x, y, 1, cov=True)` (numpy, trusted): the solution of the normal equations and the square roots of the
diagonal of `(XᵀX)⁻¹ · rss / (n - 2)`.  An empty vector or different lengths raise `TypeError`; `XᵀX` singular (all `x` equal)
raises `LinAlgError`; no more than two points raise `ValueError` ("the number of data points must exceed order to scale
the covariance matrix"). -/
def polyfit1 (x y : List ℝ) : Except Err LineFit :=
  if x = [] then .error .typeError
  else if x.length ≠ y.length then .error .typeError
  else if sxx x = 0 then .error .linAlgError
  else if x.length ≤ 2 then .error .valueError
  else
    let a := sxy x y / sxx x
    let b := mean y - a * mean x
    let fac := rss x y a b / ((x.length : ℝ) - 2)
    .ok { slope := a, eslope := Real.sqrt (fac * (1 / sxx x)), icept := b,
          eicept := Real.sqrt (fac * (1 / (x.length : ℝ) + mean x ^ 2 / sxx x)) }

open Classical in
/-- The fit of `log10(y)` against `log10(x)` (recipes.py:378-383, functions.py:1456-1462).  The logarithm of a number that is
not positive is `-inf` or `nan`; depending on the LAPACK library the fit then raises `LinAlgError` or is `nan`: both are
modelled by this error (no finite fit). -/
def polyfitLog (x y : List ℝ) : Except Err LineFit :=
  if x = [] then .error .typeError
  else if (∃ v ∈ x, v ≤ 0) ∨ ∃ v ∈ y, v ≤ 0 then .error .linAlgError
  else polyfit1 (x.map log10) (y.map log10)

/-- The first lines of `x_hist` (recipes.py:516-523) and `dx_function` (366-373): bins from the data, or the caller's
`x_lower, x_mean, x_upper` (whose sums are not used). -/
def xBins (num : Bool) (given : Option (List ℝ × List ℝ × List ℝ)) (x : List ℝ) (nx : ℕ) : Except Err BinTable :=
  match given with
  | none => if num then nbinmaker x nx else binmaker x nx true
  | some b => do
    let h ← bincount (binIndex x b.1 b.2.2) (x.map (fun _ => 1)) b.1.length
    return { lower := b.1, mid := b.2.1, upper := b.2.2, hist := h, sum := [] }

/-- `x_hist(x, nx, bintype, bins, …)` (recipes.py:485-528): mean and number of every bin (with `bins=True` also the edges,
which are in the table). -/
def xHist (num : Bool) (given : Option (List ℝ × List ℝ × List ℝ)) (x : List ℝ) (nx : ℕ) : Except Err BinTable :=
  xBins num given x nx

/-- What `dx_function` returns. -/
structure DxOut where
  mean : List ℝ
  hist : List ℝ
  dx : List ℝ
  fit : LineFit

/-- `x_hist / (x_upper - x_lower)` (recipes.py:375). -/
def densityOf (T : BinTable) : List ℝ :=
  List.zipWith (fun h p => h / p) T.hist (List.zipWith (fun u l => u - l) T.upper T.lower)

/-- The entries of `l` where `dx > 0` (recipes.py:376). -/
def whereDense (dx l : List ℝ) : List ℝ := maskSel (dx.map (fun d => decide (0 < d))) l

/-- `dx_function(x, nx, bintype, …)` (recipes.py:331-401), without the plot. -/
def dxFunction (num : Bool) (given : Option (List ℝ × List ℝ × List ℝ)) (x : List ℝ) (nx : ℕ) : Except Err DxOut := do
  let T ← xBins num given x nx
  let dx := densityOf T
  let fit ← polyfitLog (whereDense dx T.mid) (whereDense dx dx)
  return { mean := whereDense dx T.mid, hist := whereDense dx T.hist, dx := whereDense dx dx, fit := fit }

/-- Keyword arguments of `mass_function` (functions.py:1338-1357); `fix` is `bintype='fix'` or `mbintype='fix'`. -/
structure MassArgs where
  sub : SubArgs := { kwmax := 1 }
  nmass : ℕ := 10
  fix : Bool := false
  mcorr : Option (List ℝ) := none

/-- What `mass_function` returns; `err` is `mbinerror`, only with `mcorr`. -/
structure MassOut where
  mean : List ℝ
  hist : List ℝ
  dm : List ℝ
  fit : LineFit
  err : Option (List ℝ)

/-- The answer when there are not enough stars (functions.py:1485-1509). -/
def MassArgs.tooFew (a : MassArgs) : MassOut :=
  { mean := List.replicate a.nmass 0, hist := List.replicate a.nmass 0, dm := List.replicate a.nmass 0,
    fit := ⟨-1000, -1000, -1000, -1000⟩, err := a.mcorr.map (fun _ => List.replicate a.nmass 0) }

/-- The bins are made like those of a profile, from the masses of the selected stars (functions.py:1441-1446). -/
def MassArgs.prof (a : MassArgs) : ProfArgs := { sub := a.sub, nrad := a.nmass, fix := a.fix }

/-- Number of selected stars (functions.py:1439); the answer `-1` of a failed selection is less than any `nmass`. -/
def enough (nmass : ℕ) (sel : Option ℕ × Mem) : Bool :=
  sel.1.elim false (fun k => decide (nmass ≤ (sel.2[k]!).count true))

/-- The bins and the fit (functions.py:1441-1462); `mcorr = np.ones(ntot)` if not given.  A `mcorr` of another length cannot be
indexed by the masks. -/
def massFit (a : MassArgs) (m : List ℝ) (sel : Option ℕ × Mem) : Except Err MassOut := do
  let B ← profBinned a.prof m sel
  let mcorr := a.mcorr.getD (m.map (fun _ => 1))
  if mcorr.length ≠ m.length then throw .indexError
  let hist := (List.range B.mid.length).map (fun i => ((B.at i).count true : ℝ))
  let corr := (List.range B.mid.length).map (fun i => ((maskSel (B.at i) mcorr).map (fun v => 1 / v)).sum)
  let dm := List.zipWith (fun h p => h / p) corr (List.zipWith (fun u l => u - l) B.upper B.lower)
  let fit ← polyfitLog B.mid dm
  return { mean := B.mid, hist := hist, dm := dm, fit := fit, err := a.mcorr.map (fun _ => List.zipWith (· / ·) hist corr) }

/-- `mass_function(cluster, …)` (functions.py:1338-1509), without the plot.  Returns the result, the cluster and the
boolean arrays. -/
def massFunction (g : Galpy) (a : MassArgs) (e : PStars) (indx : Option ℕ) (mem : Mem) (c : Cluster) :
    Except Err (MassOut × Cluster × Mem) := do
  let c1 ← if c.units = some .amuse then toPckms g true c else .ok c
  let sel ← getSubset a.sub (viewOf c1 e) indx mem
  let out ← if enough a.nmass sel then massFit a c1.m sel else .ok a.tooFew
  let c2 ← returnCluster g (saveCluster c) false none c1
  return (out, c2, sel.2)

/-- The method `cluster.mass_function(…)` (cluster.py:2683-2775): it unpacks exactly seven values and stores and returns the
slope.  `npop` reaches the function among the further keywords. -/
def massFunctionMethod (g : Galpy) (a : MassArgs) (e : PStars) (indx : Option ℕ) (mem : Mem) (c : Cluster) :
    Except Err (ℝ × Cluster × Mem) := do
  let r ← massFunction g a e indx mem c
  if r.1.err.isSome then throw .valueError
  return (r.1.fit.slope, r.2.1, r.2.2)

end

end CT
