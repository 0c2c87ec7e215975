/- Specification vocabulary for number densities and mass functions. -/
import Verif.Model.MassFunction
import Verif.Spec.Profiles

namespace CT

noncomputable section

/-- Sum of the squared vertical distances of the points from the line `a·x + b`. -/
def sqDist (pts : List (ℝ × ℝ)) (a b : ℝ) : ℝ := (pts.map (fun p => (p.2 - (a * p.1 + b)) ^ 2)).sum

/-- The least-squares line of the points, with the textbook standard errors of slope and intercept. -/
structure IsLineFit (pts : List (ℝ × ℝ)) (f : LineFit) : Prop where
  many : 2 < pts.length
  best : ∀ a b, sqDist pts f.slope f.icept ≤ sqDist pts a b
  only : ∀ a b, (∀ a' b', sqDist pts a b ≤ sqDist pts a' b') → a = f.slope ∧ b = f.icept
  eslope0 : 0 ≤ f.eslope
  eslope : f.eslope ^ 2 * (((pts.length : ℝ) - 2) *
      (pts.length * (pts.map (fun p => p.1 ^ 2)).sum - (pts.map Prod.fst).sum ^ 2)) =
    pts.length * sqDist pts f.slope f.icept
  eicept0 : 0 ≤ f.eicept
  eicept : f.eicept ^ 2 * (((pts.length : ℝ) - 2) *
      (pts.length * (pts.map (fun p => p.1 ^ 2)).sum - (pts.map Prod.fst).sum ^ 2)) =
    (pts.map (fun p => p.1 ^ 2)).sum * sqDist pts f.slope f.icept

/-- The points of a doubly logarithmic plot. -/
def logPoints (x y : List ℝ) : List (ℝ × ℝ) := List.zip (x.map (Real.logb 10)) (y.map (Real.logb 10))

open Classical in
/-- The numbers of the bins that hold a value. -/
def fullBins (P : List (ℝ × ℝ)) (x : List ℝ) : List ℕ := (List.range P.length).filter (fun k => decide (inBin P x k ≠ []))

/-- Number densities of the values `x` over the bins `P`, bins without values left out. -/
structure IsNumberDensity (x : List ℝ) (P : List (ℝ × ℝ)) (o : DxOut) : Prop where
  hist : o.hist = (fullBins P x).map (fun k => ((inBin P x k).length : ℝ))
  dx : o.dx = (fullBins P x).map (fun k => ((inBin P x k).length : ℝ) / (P[k]!.2 - P[k]!.1))
  len : o.mean.length = (fullBins P x).length
  total : o.hist.sum = x.length
  fit : IsLineFit (logPoints o.mean o.dx) o.fit

/-- The stars a mass function is made of: those of the mask that pass the filter, with positions and velocities as they
are in the current frame of the cluster. -/
def MassSelected (q : SubArgs) (e : PStars) (indx : Option ℕ) (mem : Mem) (c : Cluster) (i : ℕ) : Prop :=
  InMask indx mem i ∧ Passes q (rowsView c.st c.m e) i

/-- The selected stars with a mass in bin `k`. -/
def InMassBin (q : SubArgs) (e : PStars) (indx : Option ℕ) (mem : Mem) (c : Cluster) (P : List (ℝ × ℝ)) (k i : ℕ) : Prop :=
  MassSelected q e indx mem c i ∧ InBin P k c.m[i]!

/-- Weight of star `i`: one over its completeness correction. -/
def MassArgs.weight (a : MassArgs) (i : ℕ) : ℝ := a.mcorr.elim 1 (fun l => 1 / l[i]!)

/-- A mass function over the bins `P`. -/
structure IsMassFunction (a : MassArgs) (e : PStars) (indx : Option ℕ) (mem : Mem) (c : Cluster) (P : List (ℝ × ℝ)) (o : MassOut) :
    Prop where
  contig : ∃ lo hi, Contig lo hi P ∧ (∀ i < c.st.length, MassSelected a.sub e indx mem c i → lo ≤ c.m[i]! ∧ c.m[i]! ≤ hi) ∧
    (∃ i < c.st.length, MassSelected a.sub e indx mem c i ∧ c.m[i]! = lo) ∧
    ∃ i < c.st.length, MassSelected a.sub e indx mem c i ∧ c.m[i]! = hi
  few : P.length ≤ a.nmass
  lens : o.mean.length = P.length ∧ o.hist.length = P.length ∧ o.dm.length = P.length
  mean : a.fix = false → ∀ k < P.length, 0 < numOver c.st.length (InMassBin a.sub e indx mem c P k) ∧
    o.mean[k]! = meanOver c.st.length (InMassBin a.sub e indx mem c P k) (fun i => c.m[i]!)
  mid : a.fix = true → ∀ k < P.length, o.mean[k]! = (P[k]!.1 + P[k]!.2) / 2
  number : ∀ k < P.length, o.hist[k]! = numOver c.st.length (InMassBin a.sub e indx mem c P k)
  density : ∀ k < P.length, o.dm[k]! * (P[k]!.2 - P[k]!.1) =
    sumOver c.st.length (InMassBin a.sub e indx mem c P k) a.weight
  total : o.hist.sum = numOver c.st.length (MassSelected a.sub e indx mem c)
  weights : (List.zipWith (fun d p => d * (p.2 - p.1)) o.dm P).sum = sumOver c.st.length (MassSelected a.sub e indx mem c) a.weight
  fit : IsLineFit (logPoints o.mean o.dm) o.fit
  err : o.err.isSome = a.mcorr.isSome ∧ ∀ l, o.err = some l → l.length = P.length ∧ ∀ k < P.length,
    l[k]! * sumOver c.st.length (InMassBin a.sub e indx mem c P k) a.weight = numOver c.st.length (InMassBin a.sub e indx mem c P k)

end

end CT
