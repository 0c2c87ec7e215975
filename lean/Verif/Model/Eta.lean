/- Velocity dispersion against mass (analysis/functions.py: `eta_function`, `meq_func`, `meq_function`, `ckin`). -/
import Verif.Model.MassFunction
import Verif.Model.Lagrange
import Mathlib.Analysis.SpecialFunctions.Pow.Real

namespace CT

noncomputable section

/-- Keyword arguments of `eta_function` (functions.py:1678-1697). -/
structure EtaArgs where
  sub : SubArgs := { kwmax := 1 }
  nmass : ℕ := 10

/-- The bins are made like those of a mass function (functions.py:1770-1772), always with equal numbers of stars. -/
def EtaArgs.mass (a : EtaArgs) : MassArgs := { sub := a.sub, nmass := a.nmass }

/-- What `eta_function` returns: mean mass and dispersion of every bin, slope (or equipartition mass) and intercept (or `sigma0`) with
their errors. -/
structure EtaOut where
  mean : List ℝ
  sig : List ℝ
  fit : LineFit

/-- `curve_fit(meq_func, m, sig, bounds=([lo, 0], [hi, inf]))` of scipy: an arbitrary function of the points and the bounds. -/
abbrev CurveFit := List ℝ → List ℝ → ℝ → ℝ → Except Err LineFit

/-- The bins and the fit (functions.py:1770-1788); `v` are speeds.  The dispersions are computed for `range(nmass)`: if the bin maker
left bins out, the arrays have different lengths, which `polyfit` refuses with `TypeError` and `curve_fit` (which also refuses the `nan`
of an empty bin) with `ValueError`.  `meq = none` is `meq=False`. -/
def etaFit (a : EtaArgs) (meq : Option CurveFit) (m v : List ℝ) (sel : Option ℕ × Mem) : Except Err EtaOut := do
  let B ← profBinned a.mass.prof m sel
  let sig := (List.range a.nmass).map (fun i => npStd (maskSel (B.at i) v))
  if B.mid.length ≠ a.nmass then throw (meq.elim .typeError (fun _ => .valueError))
  let lo ← aminE m
  let hi ← amaxE m
  let fit ← meq.elim (polyfitLog B.mid sig) (fun q => q B.mid sig lo hi)
  return { mean := B.mid, sig := sig, fit := fit }

/-- The answer when there are not enough stars (functions.py:1813-1821). -/
def EtaArgs.tooFew (a : EtaArgs) : EtaOut :=
  { mean := List.replicate a.nmass 0, sig := List.replicate a.nmass 0, fit := ⟨-1000, -1000, -1000, -1000⟩ }

/-- `eta_function(cluster, …)` (functions.py:1678-1821), without the plot. -/
def etaFunction (g : Galpy) (a : EtaArgs) (meq : Option CurveFit) (e : PStars) (indx : Option ℕ) (mem : Mem) (c : Cluster) :
    Except Err (EtaOut × Cluster × Mem) := do
  let c1 ← if c.units = some .amuse then toPckms g true c else .ok c
  let sel ← getSubset a.sub (viewOf c1 e) indx mem
  let out ← if enough (2 * a.nmass) sel then etaFit a meq c1.m (if a.sub.projected then c1.d.vpro else c1.d.v) sel else .ok a.tooFew
  let c2 ← returnCluster g (saveCluster c) false none c1
  return (out, c2, sel.2)

/-- `meq_func(m, meq, sigma0)` (functions.py:1823-1838) for a float; an array is mapped entry by entry. -/
def meqFunc (m meq sigma0 : ℝ) : ℝ :=
  if m ≤ meq then sigma0 * Real.exp (-0.5 * m / meq) else sigma0 * Real.exp (-0.5) * (m / meq) ^ (-0.5 : ℝ)

/-- `meq_function(cluster, …)` (functions.py:1840-1945): its default `npop` is 1. -/
def meqFunction (g : Galpy) (a : EtaArgs) (q : CurveFit) (e : PStars) (indx : Option ℕ) (mem : Mem) (c : Cluster) :
    Except Err (EtaOut × Cluster × Mem) := do
  let c1 ← if c.units = some .amuse then toPckms g true c else .ok c
  let r ← etaFunction g a (some q) e indx mem c1
  let c2 ← returnCluster g (saveCluster c) false none r.2.1
  return (r.1, c2, r.2.2)

/-- `ckin(cluster, …)` (functions.py:1947-2060): the caller's `rmin`, `rmax` are not used.  Division by zero is excluded by the model of
real division only where a theorem says so. -/
def ckin (g : Galpy) (a : EtaArgs) (q : CurveFit) (e : PStars) (indx : Option ℕ) (mem : Mem) (c : Cluster) :
    Except Err (ℝ × Cluster × Mem) := do
  let c1 ← if c.units = some .amuse then toPckms g true c else .ok c
  let L ← rlagrange g 10 a.sub.projected c1
  let half ← etaFunction g { a with sub := { a.sub with rmin := some L.1[3]!, rmax := some L.1[5]! } } (some q) e indx mem L.2
  let inner ← etaFunction g { a with sub := { a.sub with rmin := some 0, rmax := some L.1[4]! } } (some q) e indx half.2.2 half.2.1
  let c2 ← returnCluster g (saveCluster c) false none inner.2.1
  return (inner.1.fit.slope / half.1.fit.slope, c2, inner.2.2)

end

end CT
