/- Specification vocabulary for nearest neighbours and the core radius. -/
import Verif.Model.Neighbours
import Verif.Spec.Orbits
import Verif.Spec.Order
import Verif.Spec.Relax

namespace CT

noncomputable section

/-- Distance of two points. -/
def dist3 (a b : ℝ × ℝ × ℝ) : ℝ := Real.sqrt ((a.1 - b.1) ^ 2 + (a.2.1 - b.2.1) ^ 2 + (a.2.2 - b.2.2) ^ 2)

/-- `l` answers the query for the `k` points nearest to `a`: `k` different points with their distances, nearest first, no
point outside the list being nearer than one in it. -/
structure IsNearest (pts : List (ℝ × ℝ × ℝ)) (k : ℕ) (a : ℝ × ℝ × ℝ) (l : List (ℝ × ℕ)) : Prop where
  size : l.length = k
  nodup : (l.map Prod.snd).Nodup
  index : ∀ q ∈ l, q.2 < pts.length
  dist : ∀ q ∈ l, q.1 = dist3 a pts[q.2]!
  sorted : l.Pairwise (fun p q => p.1 ≤ q.1)
  others : ∀ j < pts.length, j ∉ l.map Prod.snd → ∀ q ∈ l, q.1 ≤ dist3 a pts[j]!

/-- What scipy promises of `cKDTree(pts).query(pts, k)` when there are at least `k` points. -/
structure IsKD (kd : KDTree) : Prop where
  len : ∀ pts k, 1 ≤ k → k ≤ pts.length → (kd pts k).length = pts.length
  row : ∀ pts k, 1 ≤ k → k ≤ pts.length → ∀ i < pts.length, IsNearest pts k pts[i]! (kd pts k)[i]!

/-- Galactocentric position and velocity of star `i` of a world, in pc and km/s. -/
def World.star (w : World) (i : ℕ) : Ph := ((w.stars[i]?).join).getD ⟨0, 0, 0, 0, 0, 0⟩

/-- Distance of two stars of a world in pc, in space or in the xy-plane. -/
def World.apart (w : World) (projected : Bool) (i j : ℕ) : ℝ := between projected (w.star i) (w.star j)

/-- `ρ` is the density at star `i` estimated from its `k` nearest stars, itself included (Casertano & Hut 1985): the mass of those inside
the sphere reaching to the last of them, over the cube (in projection the square) of its radius. -/
def IsCoreDensity (w : World) (projected : Bool) (k i : ℕ) (ρ : ℝ) : Prop :=
  ∃ (S : Finset ℕ) (last : ℕ), S.card + 1 = k ∧ (∀ j ∈ S, j < w.stars.length) ∧ last < w.stars.length ∧ last ∉ S ∧
    (∀ j ∈ S, w.apart projected i j ≤ w.apart projected i last) ∧
    (∀ j < w.stars.length, j ∉ S → w.apart projected i last ≤ w.apart projected i j) ∧
    ρ = (∑ j ∈ S, w.mass[j]!) / w.apart projected i last ^ (if projected then 2 else 3)

/-- Radius of star `i` from the centre. -/
def World.coreDist (w : World) (projected : Bool) (i : ℕ) : ℝ :=
  if projected then w.radiusPro .centre i else w.radius .centre i

/-- `rc` is the density-weighted core radius in pc: its square is the mean of the squared radii weighted with the squared densities. -/
def IsCoreRadius (w : World) (projected : Bool) (k : ℕ) (rc : ℝ) : Prop :=
  ∃ ρ : ℕ → ℝ, (∀ i < w.stars.length, IsCoreDensity w projected k i (ρ i)) ∧
    rc = Real.sqrt ((∑ i ∈ Finset.range w.stars.length, ρ i ^ 2 * w.coreDist projected i ^ 2) /
      ∑ i ∈ Finset.range w.stars.length, ρ i ^ 2)

/-- No two stars at the same place. -/
def World.Apart (w : World) (projected : Bool) : Prop :=
  ∀ i < w.stars.length, ∀ j < w.stars.length, i ≠ j → 0 < w.apart projected i j

/-- All distances from a star are different (general position). -/
def World.Generic (w : World) (projected : Bool) : Prop :=
  ∀ i < w.stars.length, ∀ j < w.stars.length, ∀ k < w.stars.length, j ≠ k → w.apart projected i j ≠ w.apart projected i k

/-- Spitzer's core relaxation time in Myr as the code has it: `0.39/ln(γN) · √(rc³/(GM)) · N · √(rc rh)/(rc + rh)`. -/
def coreTime (γ : ℝ) (m : List ℝ) (rc rh : ℝ) : ℝ :=
  0.39 / Real.log (γ * m.length) * Real.sqrt (rc ^ 3 / (gravPc * m.sum)) * m.length * (Real.sqrt (rc * rh) / (rc + rh)) * pcKmsInMyr

end

end CT
