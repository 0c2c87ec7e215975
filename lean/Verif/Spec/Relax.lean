/- Specification vocabulary for relaxation times. -/
import Verif.Model.Relax
import Verif.Spec.Order

namespace CT

noncomputable section

/-- The gravitational constant in pc (km/s)² / Msun. -/
def gravPc : ℝ := 4.302e-3

/-- One parsec per km/s in Myr: a parsec of `3.086·10¹³` km over the `31 536 000` seconds of 365 days, per million. -/
def pcKmsInMyr : ℝ := 30860000000000 / 31536000 / 1000000

/-- Spitzer's half-mass relaxation time in Myr: `0.138 N / ln(γN) · √(rh³ / (G M))`, for masses `m` in Msun and `rh` in pc. -/
def spitzerHalfMass (γ : ℝ) (m : List ℝ) (rh : ℝ) : ℝ :=
  0.138 * m.length / Real.log (γ * m.length) * Real.sqrt (rh ^ 3 / (gravPc * m.sum)) * pcKmsInMyr

open Classical in
/-- Number of stars within `rh`. -/
def numWithin (R : List ℝ) (rh : ℝ) : ℝ := (R.filter (fun x => x ≤ rh)).length

open Classical in
/-- Spitzer's local relaxation time in Myr, `⟨v²⟩^(3/2) / (15.4 G² ⟨m⟩² n ln(γN))`, with the mean mass and the mean number density `n`
within `rh`; `V2` are squared speeds in (km/s)². -/
def spitzerLocal (γ : ℝ) (m R V2 : List ℝ) (rh : ℝ) : ℝ :=
  let mbar := massWhere (· ≤ rh) m R / numWithin R rh
  let n := numWithin R rh / (4 / 3 * Real.pi * rh ^ 3)
  (V2.sum / V2.length) ^ (3 / 2 : ℝ) / (15.4 * gravPc ^ 2 * mbar ^ 2 * n * Real.log (γ * m.length)) * pcKmsInMyr

/-- Squared speed of star `i` of a world in frame `f`. -/
def World.speedSq (w : World) (f : Origin) (i : ℕ) : ℝ :=
  match w.stars[i]? with
  | some (some P) =>
    (P.vx - (frameOffset f w.centre w.gc).vx) ^ 2 + (P.vy - (frameOffset f w.centre w.gc).vy) ^ 2
      + (P.vz - (frameOffset f w.centre w.gc).vz) ^ 2
  | _ => 0

/-- Radius of star `i` of a world in frame `f`, seen along the z axis. -/
def World.radiusPro (w : World) (f : Origin) (i : ℕ) : ℝ :=
  match w.stars[i]? with
  | some (some P) =>
    Real.sqrt ((P.x - (frameOffset f w.centre w.gc).x) ^ 2 + (P.y - (frameOffset f w.centre w.gc).y) ^ 2)
  | _ => 0

/-- The frame in which the analysis of a cluster works: its position if it is given from there, else its centre. -/
def workFrame (c : Cluster) : Origin := if c.origin = some .cluster then .cluster else .centre

/-- Radii of the stars of a world in a frame. -/
def World.radii (w : World) (f : Origin) (n : ℕ) : List ℝ := (List.range n).map (w.radius f)

/-- Projected radii. -/
def World.radiiPro (w : World) (f : Origin) (n : ℕ) : List ℝ := (List.range n).map (w.radiusPro f)

/-- Squared speeds. -/
def World.speedsSq (w : World) (f : Origin) (n : ℕ) : List ℝ := (List.range n).map (w.speedSq f)

end

end CT
