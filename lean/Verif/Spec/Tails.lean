/- Specification vocabulary for tidal tails. -/
import Verif.Model.Tails
import Verif.Spec.Orbits
import Verif.Spec.Profiles

namespace CT

noncomputable section

/-- A rotation that turns `v` to the x-axis: an orthogonal matrix (rows times matrix) of determinant 1 that puts `v` on the positive x-axis. -/
structure TurnsToX (v : ℝ × ℝ × ℝ) (rot : Mat3) : Prop where
  orthogonal : ∀ i j, rot i 0 * rot j 0 + rot i 1 * rot j 1 + rot i 2 * rot j 2 = if i = j then 1 else 0
  proper : rot 0 0 * (rot 1 1 * rot 2 2 - rot 1 2 * rot 2 1) - rot 0 1 * (rot 1 0 * rot 2 2 - rot 1 2 * rot 2 0) +
    rot 0 2 * (rot 1 0 * rot 2 1 - rot 1 1 * rot 2 0) = 1
  x : v.1 * rot 0 0 + v.2.1 * rot 1 0 + v.2.2 * rot 2 0 = Real.sqrt (v.1 ^ 2 + v.2.1 ^ 2 + v.2.2 ^ 2)
  y : v.1 * rot 0 1 + v.2.1 * rot 1 1 + v.2.2 * rot 2 1 = 0
  z : v.1 * rot 0 2 + v.2.1 * rot 1 2 + v.2.2 * rot 2 2 = 0

/-- Scalar product of two positions. -/
def dotPos (p q : Ph) : ℝ := p.x * q.x + p.y * q.y + p.z * q.z

/-- Scalar product of two velocities. -/
def dotVel (p q : Ph) : ℝ := p.vx * q.vx + p.vy * q.vy + p.vz * q.vz

/-- Scalar product of the position of one with the velocity of the other. -/
def dotPosVel (p q : Ph) : ℝ := p.x * q.vx + p.y * q.vy + p.z * q.vz

/-- Volume spanned by three positions: its sign tells right- from left-handed. -/
def volume (p q r : Ph) : ℝ :=
  p.x * (q.y * r.z - q.z * r.y) - p.y * (q.x * r.z - q.z * r.x) + p.z * (q.x * r.y - q.y * r.x)

/-- The star is counted in bin `k` of the times: it is matched to a point of the path whose time (Gyr) lies in the bin, and is within `dmax`
(pc) of that point. -/
def InTailBin (path : List PathPt) (near : ℕ → ℕ) (dmax : Option ℝ) (dist : ℕ → ℝ) (B : List (ℝ × ℝ)) (k i : ℕ) : Prop :=
  (∀ d, dmax = some d → dist i ≤ d) ∧ InBin B k (path[near i]!).t

/-- The path is the cluster's orbit: `n` points at equal intervals of time from `-T` to `T` Gyr (kpc, km/s). -/
def IsOrbit (g : Galpy) (flow : ℝ → Ph → Ph) (start : Ph) (T : ℝ) (n : ℕ) (path : List PathPt) : Prop :=
  path.length = n ∧ ∀ k < n, (path[k]!).t = -T + k * (2 * T / (n - 1)) ∧
    PosEq (kpcScale.ph (path[k]!).p) (orbitAt g flow ((path[k]!).t * 1000) start) ∧
    VelEq (kpcScale.ph (path[k]!).p) (orbitAt g flow ((path[k]!).t * 1000) start)

/-- Bins of the times of the path, and the times that stand for them: `nt` bins of equal width and their middles, or at most `nt` bins and the
mean times of the path's points in them. -/
structure TailBins (a : TailArgs) (times : List ℝ) (T : ℝ) (B : List (ℝ × ℝ)) (mid : List ℝ) : Prop where
  contig : Contig (-|T|) |T| B
  few : B.length ≤ a.nt
  fix : a.num = false → B.length = a.nt ∧ ∀ k < B.length, (B[k]!).2 - (B[k]!).1 = 2 * |T| / a.nt ∧ mid[k]! = ((B[k]!).1 + (B[k]!).2) / 2
  num : a.num = true → ∀ k < B.length, 0 < (inBin B times k).length ∧ mid[k]! * (inBin B times k).length = (inBin B times k).sum

/-- Beginning of window `k` of `ntail` overlapping windows, each `2|T| / nt` wide, from `-|T|` to `|T|`. -/
def windowStart (a : TailArgs) (T : ℝ) (k : ℕ) : ℝ := -|T| + k * ((2 * |T| - 2 * |T| / a.nt) / (a.ntail - 1))

/-- End of window `k`. -/
def windowEnd (a : TailArgs) (T : ℝ) (k : ℕ) : ℝ := windowStart a T k + 2 * |T| / a.nt

/-- What `tail_path` does with `ntail > nt`: the entries stand for the middles of the windows, but a star is counted only in the first
window that holds it. -/
structure RoamBins (a : TailArgs) (T : ℝ) (B : List (ℝ × ℝ)) (mid : List ℝ) : Prop where
  contig : Contig (-|T|) |T| B
  len : B.length = a.ntail
  mid : ∀ k < a.ntail, mid[k]! = (windowStart a T k + windowEnd a T k) / 2
  upper : ∀ k < a.ntail, (B[k]!).2 = windowEnd a T k
  lower : ∀ k, k + 1 < a.ntail → (B[k + 1]!).1 = windowEnd a T k
  short : ∀ k, k + 1 < a.ntail → windowStart a T (k + 1) < (B[k + 1]!).1

/-- The entry `row` is the mean over the stars that satisfy `S`: position, and velocity if `vel`. -/
structure IsMeanRow (s : Scale) (c : Cluster) (S : ℕ → Prop) (vel : Prop) (row : Ph) : Prop where
  x : (s.ph row).x = meanOver c.st.length S (fun i => (galStar s c i).x)
  y : (s.ph row).y = meanOver c.st.length S (fun i => (galStar s c i).y)
  z : (s.ph row).z = meanOver c.st.length S (fun i => (galStar s c i).z)
  vx : vel → (s.ph row).vx = meanOver c.st.length S (fun i => (galStar s c i).vx)
  vy : vel → (s.ph row).vy = meanOver c.st.length S (fun i => (galStar s c i).vy)
  vz : vel → (s.ph row).vz = meanOver c.st.length S (fun i => (galStar s c i).vz)

end

end CT
