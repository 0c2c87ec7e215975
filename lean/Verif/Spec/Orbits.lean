/- Specification vocabulary for orbits and paths. -/
import Verif.Model.Orbits
import Verif.Spec.Physical

namespace CT

noncomputable section

/-- Integration in a static potential: no time, no change; times add up. -/
structure IsFlow (flow : ℝ → Ph → Ph) : Prop where
  zero : ∀ p, flow 0 p = p
  add : ∀ s t p, flow (s + t) p = flow s (flow t p)

/-- The orbit in physical terms: where a body at `P` (pc, km/s, galactocentric) is after `t` Myr, galpy's integration being in units of
`ro` kpc and `vo` km/s. -/
def orbitAt (g : Galpy) (flow : ℝ → Ph → Ph) (t : ℝ) (P : Ph) : Ph :=
  let L := 1000 * g.ro
  let q := flow (t / (1000 * g.timeGyr)) ⟨P.x / L, P.y / L, P.z / L, P.vx / g.vo, P.vy / g.vo, P.vz / g.vo⟩
  ⟨q.x * L, q.y * L, q.z * L, q.vx * g.vo, q.vy * g.vo, q.vz * g.vo⟩

/-- Where the orbit starts (pc, km/s): the cluster's galactocentric position or that of its centre. -/
def orbitStart (s : Scale) (fromCentre : Bool) (c : Cluster) : Ph :=
  s.ph (if fromCentre then phAdd c.gc c.c else c.gc)

/-- Same position. -/
def PosEq (p q : Ph) : Prop := p.x = q.x ∧ p.y = q.y ∧ p.z = q.z

/-- Same velocity. -/
def VelEq (p q : Ph) : Prop := p.vx = q.vx ∧ p.vy = q.vy ∧ p.vz = q.vz

/-- Distance of two positions, in space or in the xy-plane. -/
def between (projected : Bool) (p q : Ph) : ℝ :=
  Real.sqrt ((p.x - q.x) ^ 2 + (p.y - q.y) ^ 2 + if projected then 0 else (p.z - q.z) ^ 2)

/-- Length of a path of points, from entry `i` to entry `j`. -/
def pathLength (projected : Bool) (P : ℕ → Ph) (i j : ℕ) : ℝ :=
  ∑ k ∈ Finset.Ico i j, between projected (P k) (P (k + 1))

/-- The point of the line through `p` and `q` with parameter `l`. -/
def onLine (p q : Ph) (l : ℝ) : Ph :=
  ⟨p.x + l * (q.x - p.x), p.y + l * (q.y - p.y), p.z + l * (q.z - p.z), 0, 0, 0⟩

/-- The end of the step of the path at entry `k`; at the last entry the last step is repeated. -/
def nextPoint (P : ℕ → Ph) (n k : ℕ) : Ph :=
  if k + 1 < n then P (k + 1)
  else ⟨2 * (P k).x - (P (k - 1)).x, 2 * (P k).y - (P (k - 1)).y, 2 * (P k).z - (P (k - 1)).z, 0, 0, 0⟩

/-- Galactocentric position and velocity (pc, km/s) of star `i`. -/
def galStar (s : Scale) (c : Cluster) (i : ℕ) : Ph :=
  s.ph (if c.origin = some .galaxy then c.st[i]! else if c.origin = some .cluster then phAdd c.st[i]! c.gc
    else phAdd (phAdd c.st[i]! c.c) c.gc)

/-- Entry `k` of the path is nearest to `p`. -/
def Nearest (projected : Bool) (P : ℕ → Ph) (n : ℕ) (p : Ph) (k : ℕ) : Prop :=
  k < n ∧ ∀ j < n, between projected (P k) p ≤ between projected (P j) p

/-- Entry `k` of the path is nearest in time to the present. -/
def Present (path : List PathPt) (k : ℕ) : Prop := k < path.length ∧ ∀ j < path.length, |(path[k]!).t| ≤ |(path[j]!).t|

/-- The kpc, km/s, Gyr unit system. -/
def kpcScale : Scale := ⟨1000, 1, 1, 1000⟩

/-- The star is on the side of the orbital plane opposite to the angular momentum at the path point `q`. -/
def Below (q p : Ph) : Prop :=
  (q.y * q.vz - q.z * q.vy) * (p.x - q.x) + (q.z * q.vx - q.x * q.vz) * (p.y - q.y) + (q.x * q.vy - q.y * q.vx) * (p.z - q.z) < 0

end

end CT
