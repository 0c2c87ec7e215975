/- Radial profiles of fitted slopes (analysis/profiles.py: `alpha_prof`, `eta_prof`, `meq_prof`). -/
import Verif.Model.Eta

namespace CT

noncomputable section

/-- Keyword arguments of `alpha_prof` (profiles.py:390-415): those of all profiles (with `kwmax=1`), `nmass`, `mbintype='fix'`, `mcorr`.
`r_lower`, `r_upper` and `plot` do not change what is returned. -/
structure AlphaArgs where
  prof : ProfArgs := { sub := { kwmax := 1 } }
  nmass : ℕ := 10
  mfix : Bool := false
  mcorr : Option (List ℝ) := none

/-- Arguments of the mass function of one radial bin (profiles.py:551, 554): no limits and the default range of stellar types.
`bintype` is removed from the keywords only if there are no `bins` (profiles.py:515, 527). -/
def AlphaArgs.inner (a : AlphaArgs) : MassArgs :=
  { sub := { kwmax := 1, projected := a.prof.sub.projected }, nmass := a.nmass,
    fix := a.mfix || (a.prof.bins.isSome && a.prof.fix), mcorr := a.mcorr }

/-- The radii of the bins (profiles.py:515-530): for given `bins` their second entry is replaced by the mean radii of the selected stars
(`nan` for an empty bin, here `0/0 = 0`: no theorem looks at it). -/
def meanRadii (a : ProfArgs) (r : List ℝ) (B : Binned) : List ℝ :=
  if a.bins.isSome then (List.range B.lower.length).map (fun i => mean (maskSel (B.at i) r)) else B.mid

/-- `if alpha > -100` else the zeros of `np.zeros` (profiles.py:557-559, 1667). -/
def keepSlope (f : LineFit) : ℝ × ℝ := if -100 < f.slope then (f.slope, f.eslope) else (0, 0)

/-- The loop over the radial bins (profiles.py:547-559); every mask `indx * (bin_idx==i)` is a new array. -/
def alphaBins (g : Galpy) (q : MassArgs) (e : PStars) (B : Binned) : List ℕ → Cluster → Mem → Except Err (List (ℝ × ℝ) × Cluster × Mem)
  | [], c, mem => .ok ([], c, mem)
  | i :: is, c, mem => do
    let r ← massFunction g q e (some mem.length) (mem ++ [B.at i]) c
    let t ← alphaBins g q e B is r.2.1 r.2.2
    return (keepSlope r.1.fit :: t.1, t.2)

open Classical in
/-- `np.polyfit(np.log(r_mean/cluster.rm), y, 1, cov=True)` (profiles.py:565-570, 1672-1676).  Logarithms that are not finite numbers: as in
`polyfitLog`. -/
def fitLn (mid : List ℝ) (rm : Option ℝ) (y : List ℝ) : Except Err LineFit :=
  rm.elim (.error .typeError) (fun k =>
    if ∃ v ∈ mid, v / k ≤ 0 then .error .linAlgError else polyfit1 (mid.map (fun v => Real.log (v / k))) y)

/-- The answer without a fit (profiles.py:573-581, 1678-1681). -/
def noFit : LineFit := ⟨-100, 0, 0, 0⟩

/-- `except:` of `alpha_prof` (profiles.py:571-576) catches everything. -/
def orNoFit (x : Except Err LineFit) : LineFit :=
  match x with
  | .ok f => f
  | .error _ => noFit

/-- What the slope profiles return: radii, slopes, the line fitted to them and (with `aerror`) the errors of the slopes. -/
structure SlopeOut where
  r : List ℝ
  slope : List ℝ
  fit : LineFit
  err : List ℝ

/-- The half-mass radius used (profiles.py:540-543, 564-567). -/
def rmOf (projected : Bool) (c : Cluster) : Option ℝ := if projected then c.d.rmpro else c.d.rm

/-- `alpha_prof(cluster, …)` (profiles.py:390-620).  With normalised radii the unit conversion at the end is still called. -/
def alphaProf (g : Galpy) (a : AlphaArgs) (e : PStars) (indx : Option ℕ) (mem : Mem) (c : Cluster) : Except Err (SlopeOut × After) := do
  let c1 ← profStart g a.prof.normalize a.prof.normalize c
  let sel ← getSubset a.prof.sub (viewOf c1 e) indx mem
  let B ← profBinned a.prof (if a.prof.sub.projected then c1.d.rpro else c1.d.r) sel
  let mid := meanRadii a.prof (if a.prof.sub.projected then c1.d.rpro else c1.d.r) B
  let rn ← velRadii a.prof c1 mid
  let t ← alphaBins g a.inner e B (List.range mid.length) c1 sel.2
  let fit := if 3 < mid.length then orNoFit (fitLn mid (rmOf a.prof.sub.projected t.2.1) (t.1.map Prod.fst)) else noFit
  let c2 ← returnCluster g (saveCluster c) false none t.2.1
  let rn ← convUnits (fun u v x => .ok (convertLength g c2 u v x)) t.2.1 c2 rn
  return ({ r := rn, slope := t.1.map Prod.fst, fit := fit, err := t.1.map Prod.snd }, ⟨c2, t.2.2, a.prof.bins.map (fun b => b.2.1)⟩)

/-- Keyword arguments of `eta_prof` (profiles.py:1495-1517) and `meq_prof` (1729-1751). -/
structure EtaProfArgs where
  prof : ProfArgs := {}
  nmass : ℕ := 10

/-- Arguments of `eta_function` for one radial bin (profiles.py:1651-1665): no energies, population or mask. -/
def EtaProfArgs.inner (a : EtaProfArgs) (lo hi : ℝ) : EtaArgs :=
  { sub := { rmin := some lo, rmax := some hi, mmin := a.prof.sub.mmin, mmax := a.prof.sub.mmax, vmin := a.prof.sub.vmin, vmax := a.prof.sub.vmax,
             kwmin := a.prof.sub.kwmin, kwmax := a.prof.sub.kwmax, projected := a.prof.sub.projected },
    nmass := a.nmass }

/-- The loop over the radial bins (profiles.py:1649-1668). -/
def etaBins (g : Galpy) (a : EtaProfArgs) (q : Option CurveFit) (e : PStars) : List (ℝ × ℝ) → Cluster → Mem → Except Err (List ℝ × Cluster × Mem)
  | [], c, mem => .ok ([], c, mem)
  | b :: bs, c, mem => do
    let r ← etaFunction g (a.inner b.1 b.2) q e none mem c
    let t ← etaBins g a q e bs r.2.1 r.2.2
    return ((keepSlope r.1.fit).1 :: t.1, t.2)

/-- `eta_prof(cluster, …)` (profiles.py:1495-1727), with a fit for `meq=True`.  The bins are made from the distances in space, also if
`projected` (profiles.py:1635-1637).  A mask `-1` (failed selection) indexes the last star only: not followed here (`TypeError`). -/
def etaProf (g : Galpy) (a : EtaProfArgs) (q : Option CurveFit) (e : PStars) (indx : Option ℕ) (mem : Mem) (c : Cluster) :
    Except Err (SlopeOut × After) := do
  let c1 ← profStart g a.prof.normalize a.prof.normalize c
  let sel ← getSubset a.prof.sub (viewOf c1 e) indx mem
  let B ← profBinned a.prof c1.d.r sel
  let rn ← velRadii a.prof c1 B.mid
  let t ← etaBins g a q e (List.zip B.lower B.upper) c1 sel.2
  let fit ← if 3 < B.mid.length then fitLn B.mid (rmOf a.prof.sub.projected t.2.1) t.1 else .ok noFit
  let c2 ← returnCluster g (saveCluster c) false none t.2.1
  let rn ← if a.prof.normalize then .ok rn else convUnits (fun u v x => .ok (convertLength g c2 u v x)) t.2.1 c2 rn
  return ({ r := rn, slope := t.1, fit := fit, err := [] }, ⟨c2, t.2.2, a.prof.bins.map (fun b => b.2.1)⟩)

/-- `meq_prof(cluster, …)` (profiles.py:1729-1834): its argument `meq` is not used. -/
def meqProf (g : Galpy) (a : EtaProfArgs) (q : CurveFit) (e : PStars) (indx : Option ℕ) (mem : Mem) (c : Cluster) :
    Except Err (SlopeOut × After) := etaProf g a (some q) e indx mem c

end

end CT
