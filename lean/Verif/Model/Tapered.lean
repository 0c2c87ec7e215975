/- Tapered mass functions (analysis/functions.py `tapered_mass_function` 1513-1669, `tpl_func` 1672-1676; util/recipes.py
`tapered_dx_function` 403-477, `tapered_func` 479-483), without the plots and without the keyword arguments `lower_bounds` and
`upper_bounds`. -/
import Verif.Model.MassFunction

namespace CT

noncomputable section

/-- What `curve_fit` returns for the tapered power law: the four parameters and the square roots of the diagonal of the covariance
matrix (functions.py:1630-1635, recipes.py:452-457). -/
structure TplFit where
  A : ℝ
  alpha : ℝ
  mc : ℝ
  beta : ℝ
  eA : ℝ
  ealpha : ℝ
  emc : ℝ
  ebeta : ℝ

/-- `tpl_func`, `tapered_func` (functions.py:1672-1676, recipes.py:479-483). -/
def tplFunc (f : TplFit) (m : ℝ) : ℝ := f.A * m ^ f.alpha * (1 - Real.exp (-(m / f.mc) ^ f.beta))

/-- scipy's `curve_fit` for this function with bounds `0 ≤ A` and `lo ≤ mc ≤ hi`, as a parameter of the model. -/
abbrev TplCurve := ℝ → ℝ → List ℝ → List ℝ → Except Err TplFit

open Classical in
/-- `10.0**log10(v)`: the logarithm of zero is `-inf`, and `10**-inf` is 0; the logarithm of a negative number is `nan`, which
`curve_fit` rejects (`ValueError`). -/
def pow10log (v : ℝ) : Except Err ℝ :=
  if 0 < v then .ok ((10 : ℝ) ^ log10 v) else if v = 0 then .ok 0 else .error .valueError

open Classical in
/-- The call of `curve_fit` (functions.py:1627-1630, recipes.py:452): the points are `10**log10(mean)` and `10**log10(dm)`; the bounds of
`mc` are the smallest and the largest of the values `all`.  A lower bound that is not below the upper one raises `ValueError`. -/
def callFit (cf : TplCurve) (all mean dm : List ℝ) : Except Err TplFit := do
  let xs ← mean.mapM pow10log
  let ys ← dm.mapM pow10log
  if maxOf all ≤ minOf all then throw .valueError
  cf (minOf all) (maxOf all) xs ys

/-- The eleven values returned. -/
structure TapOut where
  mean : List ℝ
  hist : List ℝ
  dm : List ℝ
  fit : TplFit

/-- What `tapered_mass_function` returns: eleven values, or seven when there are not enough stars (functions.py:1655-1669): three arrays
of zeros and four times -1000. -/
inductive TapResult
  | eleven (o : TapOut)
  | seven (arrays : List (List ℝ)) (numbers : List ℝ)

/-- functions.py:1655-1669. -/
def tapFew (nmass : ℕ) : TapResult := .seven (List.replicate 3 (List.replicate nmass 0)) (List.replicate 4 (-1000))

/-- `m_mean, m_hist, dm, A, eA, alpha, ealpha, mc, emc, beta, ebeta = …`, the way the documentation and `StarCluster` use the result
(cluster.py:2849): a tuple of another length raises `ValueError`. -/
def TapResult.unpack : TapResult → Except Err TapOut
  | .eleven o => .ok o
  | .seven _ _ => .error .valueError

/-- The bins and the fit (functions.py:1608-1635).  The bins always hold equal numbers; the bounds of `mc` come from all stars. -/
def tapFit (cf : TplCurve) (a : MassArgs) (m : List ℝ) (sel : Option ℕ × Mem) : Except Err TapOut := do
  let B ← profBinned a.prof m sel
  let mcorr := a.mcorr.getD (m.map (fun _ => 1))
  if mcorr.length ≠ m.length then throw .indexError
  let hist := (List.range B.mid.length).map (fun i => ((B.at i).count true : ℝ))
  let corr := (List.range B.mid.length).map (fun i => ((maskSel (B.at i) mcorr).map (fun v => 1 / v)).sum)
  let dm := List.zipWith (fun h p => h / p) corr (List.zipWith (fun u l => u - l) B.upper B.lower)
  let fit ← callFit cf m B.mid dm
  return { mean := B.mid, hist := hist, dm := dm, fit := fit }

/-- `tapered_mass_function(cluster, …)` (functions.py:1513-1669).  There is no `bintype`. -/
def taperedMassFunction (g : Galpy) (cf : TplCurve) (a : MassArgs) (e : PStars) (indx : Option ℕ) (mem : Mem) (c : Cluster) :
    Except Err (TapResult × Cluster × Mem) := do
  let c1 ← if c.units = some .amuse then toPckms g true c else .ok c
  let sel ← getSubset a.sub (viewOf c1 e) indx mem
  let out ← if enough a.nmass sel then (tapFit cf { a with fix := false } c1.m sel).map TapResult.eleven else .ok (tapFew a.nmass)
  let c2 ← returnCluster g (saveCluster c) false none c1
  return (out, c2, sel.2)

/-- `tapered_dx_function(x, nx, bintype, …)` (recipes.py:403-477). -/
def taperedDx (cf : TplCurve) (num : Bool) (given : Option (List ℝ × List ℝ × List ℝ)) (x : List ℝ) (nx : ℕ) : Except Err TapOut := do
  let T ← xBins num given x nx
  let dx := densityOf T
  let fit ← callFit cf x (whereDense dx T.mid) (whereDense dx dx)
  return { mean := whereDense dx T.mid, hist := whereDense dx T.hist, dm := whereDense dx dx, fit := fit }

end

end CT
