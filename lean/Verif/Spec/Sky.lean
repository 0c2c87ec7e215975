/- Specification vocabulary for clusters that may be expressed on the sky. -/
import Verif.Spec.Valid

namespace CT

noncomputable section

/-- A physical row (pc, km/s) in kpc and km/s. -/
def kpcRow (p : Ph) : Ph := ⟨p.x / 1000, p.y / 1000, p.z / 1000, p.vx, p.vy, p.vz⟩

/-- The true physical content: time (Myr), masses (Msun), galactocentric rows of the stars and of the cluster's
orbit position (pc, km/s), and the sizes of the N-body units (Msun, pc, km/s, Myr). -/
structure Truth where
  time : ℝ
  mass : List ℝ
  stars : List Ph
  gc : Ph
  nbody : ℝ × ℝ × ℝ × ℝ

/-- A cluster in a linear unit system describes `S`. -/
def DescribesLinear (g : Galpy) (S : Truth) (c : Cluster) : Prop :=
  ∃ W, world g c = some W ∧ W.time = S.time ∧ W.mass = S.mass ∧ W.stars = S.stars.map some ∧ W.gc = S.gc ∧
    (c.zmbar, c.rbar, c.vbar, c.tbar) = S.nbody

/-- A cluster in radec units describes `S`: the stored sky rows are the sky coordinates of the true galactocentric
rows, the orbit position likewise; masses in Msun, time in Gyr; and when the origin is the sky itself the star
coordinates are those sky rows. -/
def DescribesSky (g : Galpy) (S : Truth) (c : Cluster) : Prop :=
  c.units = some .radec ∧ c.sky = S.stars.map (fun p => g.toSky (kpcRow p)) ∧ c.gc = g.toSky (kpcRow S.gc) ∧
  c.m = S.mass ∧ c.tphys * 1000 = S.time ∧ (c.origin = some .sky → c.st = c.sky) ∧
  (c.zmbar, c.rbar, c.vbar, c.tbar) = S.nbody

/-- Any conversion call, including the ones to and on the sky. -/
inductive Call
  | op (o : Op)
  | toRadec (sort : Bool) (cm : Option CentreMethod) (analyze : Bool)
  | toSky (sort : Bool) (cm : Option CentreMethod)

def Call.exec (g : Galpy) : Call → Cluster → Except Err Cluster
  | .op o, c => o.exec g c
  | .toRadec s cm a, c => CT.toRadec g s cm a c
  | .toSky s cm, c => CT.toSky g s cm c

/-- Run a sequence of calls. -/
def calls (g : Galpy) : List Call → Cluster → Except Err Cluster
  | [], c => .ok c
  | k :: ks, c => (k.exec g c).bind (calls g ks)

/-- The cached galpy orbits, if any, are those of the true positions. -/
def CachesOf (g : Galpy) (S : Truth) (c : Cluster) : Prop :=
  (∀ o, c.orbit = some o → o = ⟨kpcRow S.gc, g.toSky (kpcRow S.gc)⟩) ∧
  (∀ os, c.orbits = some os → os = S.stars.map (fun p => ⟨kpcRow p, g.toSky (kpcRow p)⟩))

end

end CT
