/- Specification vocabulary for radial profiles. -/
import Verif.Spec.Subset
import Verif.Spec.Bins
import Verif.Model.Profiles
import Mathlib.Analysis.SpecialFunctions.Trigonometric.Basic
import Mathlib.Algebra.BigOperators.Group.Finset.Basic

namespace CT

noncomputable section

/-- The rows of the stars relative to the cluster centre: rows given from the galactic centre minus orbit position and
centre; rows given from the cluster position or the cluster centre as they are. -/
def centred (c : Cluster) : List Ph :=
  if c.origin = some .galaxy then
    c.st.map (fun p => ⟨p.x - c.gc.x - c.c.x, p.y - c.gc.y - c.c.y, p.z - c.gc.z - c.c.z,
      p.vx - c.gc.vx - c.c.vx, p.vy - c.gc.vy - c.c.vy, p.vz - c.gc.vz - c.c.vz⟩)
  else c.st

/-- Distance from the origin, in space or on the sky. -/
def dist0 (projected : Bool) (p : Ph) : ℝ :=
  if projected then Real.sqrt (p.x ^ 2 + p.y ^ 2) else Real.sqrt (p.x ^ 2 + p.y ^ 2 + p.z ^ 2)

/-- Speed, in space or on the sky. -/
def speed0 (projected : Bool) (p : Ph) : ℝ :=
  if projected then Real.sqrt (p.vx ^ 2 + p.vy ^ 2) else Real.sqrt (p.vx ^ 2 + p.vy ^ 2 + p.vz ^ 2)

/-- What a filter sees of stars with the given rows. -/
def rowsView (rows : List Ph) (m : List ℝ) (e : PStars) : View :=
  { ntot := rows.length, r := rows.map (dist0 false), rpro := rows.map (dist0 true), v := rows.map (speed0 false),
    vpro := rows.map (speed0 true), m := m, npop := e.npop, kw := e.kw, etot := e.etot }

/-- The star attributes have one entry per star; stellar types may be absent, energies are only needed if asked for. -/
structure PStars.Ok (e : PStars) (q : SubArgs) (n : ℕ) : Prop where
  npop : e.npop.length = n
  kw : e.kw = [] ∨ e.kw.length = n
  etot : (q.emin = none ∧ q.emax = none) ∨ e.etot.length = n

/-- Star `i` is in the caller's mask (if there is one). -/
def InMask (indx : Option ℕ) (mem : Mem) (i : ℕ) : Prop := ∀ p, indx = some p → (mem[p]!)[i]! = true

/-- The stars a profile of `c` is made of: those of the mask that pass the filter, with positions and velocities
relative to the cluster centre. -/
def Chosen (q : SubArgs) (e : PStars) (indx : Option ℕ) (mem : Mem) (c : Cluster) (i : ℕ) : Prop :=
  InMask indx mem i ∧ Passes q (rowsView (centred c) c.m e) i

/-- Radius of star `i`. -/
def radiusOf (q : SubArgs) (c : Cluster) (i : ℕ) : ℝ := dist0 q.projected (centred c)[i]!

open Classical in
/-- Sum of `f i` over the `n` stars that satisfy `S`. -/
def sumOver (n : ℕ) (S : ℕ → Prop) (f : ℕ → ℝ) : ℝ := ∑ i ∈ (Finset.range n).filter S, f i

open Classical in
/-- Number of the `n` stars that satisfy `S`. -/
def numOver (n : ℕ) (S : ℕ → Prop) : ℕ := ((Finset.range n).filter S).card

open Classical in
/-- The values `f i` of the `n` stars that satisfy `S`. -/
def valuesOf (n : ℕ) (S : ℕ → Prop) (f : ℕ → ℝ) : List ℝ := ((List.range n).filter (fun i => S i)).map f

open Classical in
/-- Bins with equal numbers of the values `X` (in increasing order): bin `i` of `k` reaches from the value of rank `⌊i N / k⌋` to that of rank
`⌊(i + 1) N / k⌋`, the last one to the largest value; bins between equal values are left out. -/
def rankBins (X : List ℝ) (k : ℕ) : List (ℝ × ℝ) :=
  ((List.range k).map (fun i => (X[i * X.length / k]!, if i + 1 < k then X[(i + 1) * X.length / k]! else X[X.length - 1]!))).filter
    (fun p => p.1 ≠ p.2)

/-- `P` are such bins for the stars that satisfy `S`. -/
def EqualNumberBins (n : ℕ) (S : ℕ → Prop) (f : ℕ → ℝ) (k : ℕ) (P : List (ℝ × ℝ)) : Prop :=
  ∃ X : List ℝ, X.Pairwise (· ≤ ·) ∧ X.Perm (valuesOf n S f) ∧ P = rankBins X k

/-- Volume between two spheres, or area between two circles. -/
def shellSize (projected : Bool) (lo hi : ℝ) : ℝ :=
  if projected then Real.pi * hi ^ 2 - Real.pi * lo ^ 2 else 4 / 3 * Real.pi * hi ^ 3 - 4 / 3 * Real.pi * lo ^ 3

/-- Bins that cover the radii: made by the function from at least two different radii, or given by the caller. -/
def BinsCover (a : ProfArgs) (n : ℕ) (S : ℕ → Prop) (r : ℕ → ℝ) : Prop :=
  (a.bins = none ∧ 0 < a.nrad ∧ ∃ i j, i < n ∧ j < n ∧ S i ∧ S j ∧ r i ≠ r j) ∨
  ∃ b lo hi, a.bins = some b ∧ b.1.length = b.2.2.length ∧ b.2.1.length = b.1.length ∧
    Contig lo hi (List.zip b.1 b.2.2) ∧ ∀ i < n, S i → lo ≤ r i ∧ r i ≤ hi

/-- The stars of bin `k` of a profile with bins `P`. -/
def InProfBin (a : ProfArgs) (e : PStars) (indx : Option ℕ) (mem : Mem) (c : Cluster) (P : List (ℝ × ℝ)) (k i : ℕ) : Prop :=
  Chosen a.sub e indx mem c i ∧ InBin P k (radiusOf a.sub c i)

/-- The bins a profile reports: contiguous, covering the radii of the chosen stars; made by the function they reach from
the smallest to the largest of them and are at most `nrad` in number, with equal numbers of stars unless `bintype='fix'`; given by
the caller they are the caller's. -/
structure ReportedBins (a : ProfArgs) (e : PStars) (indx : Option ℕ) (mem : Mem) (c : Cluster) (P : List (ℝ × ℝ)) : Prop where
  contig : ∃ lo hi, Contig lo hi P ∧
    (∀ i < c.st.length, Chosen a.sub e indx mem c i → lo ≤ radiusOf a.sub c i ∧ radiusOf a.sub c i ≤ hi) ∧
    (a.bins = none → (∃ i < c.st.length, Chosen a.sub e indx mem c i ∧ radiusOf a.sub c i = lo) ∧
      ∃ i < c.st.length, Chosen a.sub e indx mem c i ∧ radiusOf a.sub c i = hi)
  few : a.bins = none → P.length ≤ a.nrad
  given : ∀ b, a.bins = some b → P = List.zip b.1 b.2.2
  ranks : a.bins = none → a.fix = false → EqualNumberBins c.st.length (Chosen a.sub e indx mem c) (radiusOf a.sub c) a.nrad P

/-- The radii of the bins: the mean radius of their stars (equal-number bins), their middle (`bintype='fix'`), or the
caller's values. -/
structure BinRadii (a : ProfArgs) (e : PStars) (indx : Option ℕ) (mem : Mem) (c : Cluster) (P : List (ℝ × ℝ)) (rs : List ℝ) : Prop where
  len : rs.length = P.length
  num : a.bins = none → a.fix = false → ∀ k < P.length, 0 < numOver c.st.length (InProfBin a e indx mem c P k) ∧
    rs[k]! * numOver c.st.length (InProfBin a e indx mem c P k) = sumOver c.st.length (InProfBin a e indx mem c P k) (radiusOf a.sub c)
  fix : a.bins = none → a.fix = true → ∀ k < P.length, rs[k]! = (P[k]!.1 + P[k]!.2) / 2
  given : ∀ b, a.bins = some b → rs = b.2.1

/-- The radii `rs` a mass-type profile returns: the radii of the bins, divided by the half-mass radius of the restored
cluster `c'` if `normalize` is set. -/
def RadiiOut (a : ProfArgs) (e : PStars) (indx : Option ℕ) (mem : Mem) (c c' : Cluster) (P : List (ℝ × ℝ)) (rs : List ℝ) : Prop :=
  ∃ mid rm, BinRadii a e indx mem c P mid ∧ c'.d.rm = some rm ∧ (a.normalize = false → rs = mid) ∧
    (a.normalize = true → rs = mid.map (· / rm))

/-! ### Velocities -/

/-- A component of the velocity of a star: along the radius, around the z axis, along the meridian, along an axis, or the
speed; in projection radius and speed are those in the x-y plane. -/
def component (projected : Bool) (coord : VCoord) (p : Ph) : ℝ :=
  match coord with
  | .r => if projected then (p.x * p.vx + p.y * p.vy) / Real.sqrt (p.x ^ 2 + p.y ^ 2)
    else (p.x * p.vx + p.y * p.vy + p.z * p.vz) / Real.sqrt (p.x ^ 2 + p.y ^ 2 + p.z ^ 2)
  | .phi => (p.x * p.vy - p.y * p.vx) / Real.sqrt (p.x ^ 2 + p.y ^ 2)
  | .theta => (p.z * (p.x * p.vx + p.y * p.vy) - (p.x ^ 2 + p.y ^ 2) * p.vz) /
      (Real.sqrt (p.x ^ 2 + p.y ^ 2) * Real.sqrt (p.x ^ 2 + p.y ^ 2 + p.z ^ 2))
  | .x => p.vx
  | .y => p.vy
  | .z => p.vz
  | _ => speed0 projected p

/-- Mean of `f` over the stars that satisfy `S`. -/
def meanOver (n : ℕ) (S : ℕ → Prop) (f : ℕ → ℝ) : ℝ := sumOver n S f / numOver n S

/-- Standard deviation of `f` over the stars that satisfy `S`. -/
def stdOver (n : ℕ) (S : ℕ → Prop) (f : ℕ → ℝ) : ℝ := Real.sqrt (meanOver n S (fun i => (f i - meanOver n S f) ^ 2))

/-- The statistic a velocity profile is documented to give. -/
def statOver (k : VKind) (n : ℕ) (S : ℕ → Prop) (f : ℕ → ℝ) : ℝ :=
  match k with
  | .disp => stdOver n S f
  | .mean => meanOver n S f
  | .meanSq => meanOver n S (fun i => f i ^ 2)

/-- The velocity of star `i` the profile is about; without `coord` the speed. -/
def velOf (projected : Bool) (coord : Option VCoord) (c : Cluster) (i : ℕ) : ℝ :=
  component projected (coord.getD .v) (centred c)[i]!

/-- Where the code computes what `coord` asks for: no meridional component in projection; without projection the z component
only in `sigv_prof`; `v2_prof` does not know `x` and `y`. -/
def Supported (k : VKind) (projected : Bool) (coord : VCoord) : Prop :=
  match coord with
  | .r => True
  | .phi => True
  | .theta => projected = false
  | .x => k ≠ .meanSq
  | .y => k ≠ .meanSq
  | .z => projected = true ∨ k = .disp
  | .v => True
  | .other => False

/-- The star is not on the axis around which angles are measured. -/
def OffAxis (p : Ph) : Prop := p.x ^ 2 + p.y ^ 2 ≠ 0

/-- The half-mass radii are there. -/
def HasRm (c : Cluster) : Prop := c.d.rm ≠ none ∧ c.d.rmpro ≠ none

/-- The radii a velocity-type profile returns: the radii of the bins, or these divided by the half-mass radius that is stored
after the stars were put at the centre. -/
def VelRadii (a : ProfArgs) (e : PStars) (indx : Option ℕ) (mem : Mem) (c : Cluster) (P : List (ℝ × ℝ)) (rs : List ℝ) : Prop :=
  ∃ mid, BinRadii a e indx mem c P mid ∧ (a.normalize = false → rs = mid) ∧ (a.normalize = true → ∃ s, rs = mid.map (· / s))

/-- Anisotropy of the stars that satisfy `S`: `1 - (σθ² + σφ²) / (2 σr²)`, in projection `σφ / σR - 1`. -/
def anisotropyOver (projected : Bool) (c : Cluster) (S : ℕ → Prop) : ℝ :=
  let σ := fun q => stdOver c.st.length S (velOf projected (some q) c)
  if projected then σ .phi / σ .r - 1 else 1 - (σ .theta ^ 2 + σ .phi ^ 2) / (2 * σ .r ^ 2)

end

end CT
