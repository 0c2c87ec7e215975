/- Specification vocabulary for centres. -/
import Verif.Model.Centre

namespace CT

noncomputable section

/-- Total mass. -/
def massOf (l : List MStar) : ℝ := (l.map Prod.fst).sum

/-- `p` is the centre of mass (and mean velocity) of the stars: the mass-weighted displacements from it add up to
zero. -/
structure IsCom (l : List MStar) (p : Ph) : Prop where
  x : (l.map (fun a => a.1 * (a.2.x - p.x))).sum = 0
  y : (l.map (fun a => a.1 * (a.2.y - p.y))).sum = 0
  z : (l.map (fun a => a.1 * (a.2.z - p.z))).sum = 0
  vx : (l.map (fun a => a.1 * (a.2.vx - p.vx))).sum = 0
  vy : (l.map (fun a => a.1 * (a.2.vy - p.vy))).sum = 0
  vz : (l.map (fun a => a.1 * (a.2.vz - p.vz))).sum = 0

/-- The same stars displaced (and boosted) by `d`. -/
def shifted (d : Ph) (l : List MStar) : List MStar := l.map (fun a => (a.1, a.2.add d))

/-- The stars nearer than `R` to `p`. -/
def insideOf (l : List MStar) (p : Ph) (R : ℝ) : List MStar :=
  l.filter (fun a => decide ((a.2.x - p.x) ^ 2 + (a.2.y - p.y) ^ 2 + (a.2.z - p.z) ^ 2 < R ^ 2))

/-- More than `nsphere` stars with positive total mass. -/
def Enough (nsphere : ℕ) (l : List MStar) : Prop := 0 < massOf l ∧ nsphere < l.length

/-- Shrinking spheres, as published: as long as the radius is above `rmin`, rounds are left, and the sphere around the
current centre holds enough stars, move to their centre of mass and shrink the radius by 0.8.  `Shrinks … p R n q`:
starting at `p` with radius `R` and `n` rounds left one ends at `q`. -/
inductive Shrinks (l : List MStar) (nsphere : ℕ) (rmin : ℝ) : Ph → ℝ → ℕ → Ph → Prop
  | stop {p : Ph} {R : ℝ} {n : ℕ} (h : R ≤ rmin ∨ n = 0 ∨ ¬ Enough nsphere (insideOf l p R)) :
      Shrinks l nsphere rmin p R n p
  | step {p q r : Ph} {R : ℝ} {n : ℕ} (h1 : rmin < R) (h2 : Enough nsphere (insideOf l p R))
      (h3 : IsCom (insideOf l p R) q) (h4 : Shrinks l nsphere rmin q (R * 0.8) n r) :
      Shrinks l nsphere rmin p R (n + 1) r

/-- The loop started in `s` ends. -/
def Ends {σ : Type} (body : σ → Option σ) (s : σ) : Prop := ∃ k r, loopN body k s = some r

end

end CT
