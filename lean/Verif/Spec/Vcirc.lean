/- Specification vocabulary for the circular velocity profile. -/
import Verif.Spec.Profiles

namespace CT

noncomputable section

/-- Mass of the chosen stars within radius `ρ`. -/
def massWithin (q : SubArgs) (e : PStars) (indx : Option ℕ) (mem : Mem) (c : Cluster) (ρ : ℝ) : ℝ :=
  sumOver c.st.length (fun i => Chosen q e indx mem c i ∧ radiusOf q c i ≤ ρ) (fun i => c.m[i]!)

/-- `v` is the speed of a circular orbit of radius `ρ` around the mass `M`: `v²/ρ = G M/ρ²`. -/
def IsCircVel (G M ρ v : ℝ) : Prop := 0 ≤ v ∧ v ^ 2 * ρ = G * M

/-- `i` is a chosen star whose radius is nearest to `ρ`. -/
def NearestStar (q : SubArgs) (e : PStars) (indx : Option ℕ) (mem : Mem) (c : Cluster) (ρ : ℝ) (i : ℕ) : Prop :=
  ∀ j < c.st.length, Chosen q e indx mem c j → |radiusOf q c i - ρ| ≤ |radiusOf q c j - ρ|

/-- What `vcirc_prof` promises: entry `k` belongs to the chosen star `stars[k]`, has its radius (divided by `s`) and the
circular velocity of the chosen mass within it; `rvmax, vmax` belong to the chosen star with the largest one.  Without bins the
entries are all chosen stars in order of radius; with bins of radii `mid` they are the chosen stars nearest to these. -/
structure VcircOk (G : ℝ) (q : SubArgs) (e : PStars) (indx : Option ℕ) (mem : Mem) (c : Cluster) (mid : Option (List ℝ)) (s : ℝ)
    (stars : List ℕ) (rs vs : List ℝ) (rvmax vmax : ℝ) : Prop where
  chosen : ∀ i ∈ stars, i < c.st.length ∧ Chosen q e indx mem c i
  radii : rs = stars.map (fun i => radiusOf q c i / s)
  len : vs.length = stars.length
  vel : ∀ k < stars.length, IsCircVel G (massWithin q e indx mem c (radiusOf q c stars[k]!)) (radiusOf q c stars[k]!) vs[k]!
  all : mid = none → (∀ i < c.st.length, Chosen q e indx mem c i → i ∈ stars) ∧
    stars.Pairwise (fun i j => radiusOf q c i < radiusOf q c j)
  near : ∀ l, mid = some l → stars.length = l.length ∧ ∀ k < l.length, NearestStar q e indx mem c l[k]! stars[k]!
  top : ∃ i < c.st.length, Chosen q e indx mem c i ∧ rvmax = radiusOf q c i ∧
    IsCircVel G (massWithin q e indx mem c (radiusOf q c i)) (radiusOf q c i) vmax
  max : ∀ i < c.st.length, Chosen q e indx mem c i → ∀ v, IsCircVel G (massWithin q e indx mem c (radiusOf q c i)) (radiusOf q c i) v →
    v ≤ vmax

end

end CT
