/- Specification vocabulary for radial profiles of fitted slopes. -/
import Verif.Model.SlopeProf
import Verif.Spec.Eta

namespace CT

noncomputable section

/-- Slopes against the natural logarithm of the radii in units of `rm`. -/
def lnPoints (rm : ℝ) (r s : List ℝ) : List (ℝ × ℝ) := List.zip (r.map (fun v => Real.log (v / rm))) s

/-- The radii of the bins: the mean radius of the stars in them, or with `bintype='fix'` (and no bins given) their middle. -/
structure MeanRadii (a : ProfArgs) (e : PStars) (indx : Option ℕ) (mem : Mem) (c : Cluster) (P : List (ℝ × ℝ)) (rs : List ℝ) : Prop where
  len : rs.length = P.length
  mean : a.bins.isSome ∨ a.fix = false → ∀ k < P.length, 0 < numOver c.st.length (InProfBin a e indx mem c P k) →
    rs[k]! = meanOver c.st.length (InProfBin a e indx mem c P k) (radiusOf a.sub c)
  fix : a.bins = none → a.fix = true → ∀ k < P.length, rs[k]! = (P[k]!.1 + P[k]!.2) / 2

/-- The stars the mass function of radial bin `k` is made of: those of the profile that are on or before the main sequence (if the cluster
has stellar types). -/
def AlphaStar (a : AlphaArgs) (e : PStars) (indx : Option ℕ) (mem : Mem) (c : Cluster) (P : List (ℝ × ℝ)) (k i : ℕ) : Prop :=
  InProfBin a.prof e indx mem c P k i ∧ (e.kw ≠ [] → 0 ≤ e.kw[i]! ∧ e.kw[i]! ≤ 1)

/-- `o` is the mass function (with bins `Q`) that `mass_function` has for the stars of radial bin `k`, given as a mask `w`. -/
def BinMassFunction (a : AlphaArgs) (e : PStars) (indx : Option ℕ) (mem : Mem) (c : Cluster) (P : List (ℝ × ℝ)) (k : ℕ)
    (Q : List (ℝ × ℝ)) (o : MassOut) : Prop :=
  ∃ w : List Bool, w.length = c.st.length ∧ (∀ i < c.st.length, w[i]! = true ↔ InProfBin a.prof e indx mem c P k i) ∧
    IsMassFunction a.inner e (some 0) [w] c Q o

/-- Star `i` lies between the radii `b` (both included) and its mass, speed and type are within the caller's limits. -/
def ShellStar (a : EtaProfArgs) (e : PStars) (c : Cluster) (b : ℝ × ℝ) (i : ℕ) : Prop :=
  b.1 ≤ radiusOf a.prof.sub c i ∧ radiusOf a.prof.sub c i ≤ b.2 ∧ Within a.prof.sub.mmin a.prof.sub.mmax c.m[i]! ∧
    Within a.prof.sub.vmin a.prof.sub.vmax (speed0 a.prof.sub.projected (centred c)[i]!) ∧
    (e.kw ≠ [] → a.prof.sub.kwmin ≤ e.kw[i]! ∧ e.kw[i]! ≤ a.prof.sub.kwmax)

/-- `o` is what `eta_function` has for the stars `S`, given as a mask `w`, and no other filter, in the frame of the cluster centre. -/
def EtaOf (a : EtaProfArgs) (e : PStars) (c : Cluster) (S : ℕ → Prop) (Q : List (ℝ × ℝ)) (o : EtaOut) : Prop :=
  ∃ w : List Bool, w.length = c.st.length ∧ (∀ i < c.st.length, w[i]! = true ↔ S i) ∧
    IsEtaFunction { sub := { projected := a.prof.sub.projected }, nmass := a.nmass } { e with kw := [] } (some 0) [w] { c with st := centred c } Q o

/-- Where the fitted line or equipartition mass comes from: least squares, or `curve_fit` between the smallest and the largest mass. -/
def FitOf (q : Option CurveFit) (c : Cluster) (o : EtaOut) : Prop :=
  (q = none → IsLineFit (logPoints o.mean o.sig) o.fit) ∧
  ∀ f, q = some f → ∃ lo hi, IsLeast {v | v ∈ c.m} lo ∧ IsGreatest {v | v ∈ c.m} hi ∧ f o.mean o.sig lo hi = .ok o.fit

/-- The stars of the profile between the edges of bin `k`, both included. -/
def BetweenEdges (a : ProfArgs) (e : PStars) (indx : Option ℕ) (mem : Mem) (c : Cluster) (P : List (ℝ × ℝ)) (k i : ℕ) : Prop :=
  Chosen a.sub e indx mem c i ∧ P[k]!.1 ≤ radiusOf a.sub c i ∧ radiusOf a.sub c i ≤ P[k]!.2

end

end CT
