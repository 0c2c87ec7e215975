/- Specification vocabulary for tapered mass functions. -/
import Verif.Model.Tapered
import Verif.Spec.MassFunction

namespace CT

noncomputable section

/-- What is assumed of scipy's `curve_fit` with bounds: the parameters found lie within them. -/
def TplCurve.Bounded (cf : TplCurve) : Prop :=
  ∀ lo hi xs ys f, cf lo hi xs ys = .ok f → 0 ≤ f.A ∧ lo ≤ f.mc ∧ f.mc ≤ hi

/-- A histogram of the masses of the selected stars over the bins `P`. -/
structure IsMassHistogram (a : MassArgs) (e : PStars) (indx : Option ℕ) (mem : Mem) (c : Cluster) (P : List (ℝ × ℝ))
    (o : TapOut) : Prop where
  contig : ∃ lo hi, Contig lo hi P ∧ (∀ i < c.st.length, MassSelected a.sub e indx mem c i → lo ≤ c.m[i]! ∧ c.m[i]! ≤ hi) ∧
    (∃ i < c.st.length, MassSelected a.sub e indx mem c i ∧ c.m[i]! = lo) ∧
    ∃ i < c.st.length, MassSelected a.sub e indx mem c i ∧ c.m[i]! = hi
  few : P.length ≤ a.nmass
  lens : o.mean.length = P.length ∧ o.hist.length = P.length ∧ o.dm.length = P.length
  mean : ∀ k < P.length, 0 < numOver c.st.length (InMassBin a.sub e indx mem c P k) ∧
    o.mean[k]! = meanOver c.st.length (InMassBin a.sub e indx mem c P k) (fun i => c.m[i]!)
  number : ∀ k < P.length, o.hist[k]! = numOver c.st.length (InMassBin a.sub e indx mem c P k)
  density : ∀ k < P.length, o.dm[k]! * (P[k]!.2 - P[k]!.1) =
    sumOver c.st.length (InMassBin a.sub e indx mem c P k) a.weight
  total : o.hist.sum = numOver c.st.length (MassSelected a.sub e indx mem c)

/-- Numbers and number densities of the values `x` over the bins `P`, bins without values left out. -/
structure IsDensityHistogram (x : List ℝ) (P : List (ℝ × ℝ)) (mean num dx : List ℝ) : Prop where
  number : num = (fullBins P x).map (fun k => ((inBin P x k).length : ℝ))
  density : dx = (fullBins P x).map (fun k => ((inBin P x k).length : ℝ) / (P[k]!.2 - P[k]!.1))
  len : mean.length = (fullBins P x).length
  total : num.sum = x.length

/-- The smallest and the largest entry of a list. -/
def IsRange (l : List ℝ) (lo hi : ℝ) : Prop := lo ∈ l ∧ hi ∈ l ∧ ∀ v ∈ l, lo ≤ v ∧ v ≤ hi

end

end CT
