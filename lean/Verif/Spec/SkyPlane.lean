/- Specification vocabulary for projections on the plane of the sky: unit vectors of spherical astronomy.  Angles in degrees. -/
import Verif.Model.Ops

namespace CT

noncomputable section

/-- A vector in space. -/
abbrev Vec3 := ℝ × ℝ × ℝ

def Vec3.dot (a b : Vec3) : ℝ := a.1 * b.1 + a.2.1 * b.2.1 + a.2.2 * b.2.2

/-- An angle given in degrees, in radians. -/
def rad (a : ℝ) : ℝ := a * (Real.pi / 180)

/-- The direction of right ascension `ra` and declination `dec`. -/
def skyDir (ra dec : ℝ) : Vec3 := (Real.cos (rad dec) * Real.cos (rad ra), Real.cos (rad dec) * Real.sin (rad ra), Real.sin (rad dec))

/-- The unit vector to the east there. -/
def skyEast (ra _dec : ℝ) : Vec3 := (-Real.sin (rad ra), Real.cos (rad ra), 0)

/-- The unit vector to the north there. -/
def skyNorth (ra dec : ℝ) : Vec3 := (-(Real.sin (rad dec) * Real.cos (rad ra)), -(Real.sin (rad dec) * Real.sin (rad ra)), Real.cos (rad dec))

/-- The motion across the sky of a row (`vx` and `vy` are the proper motions to the east and north). -/
def skyMotion (p : Ph) : Vec3 :=
  (p.vx * (skyEast p.x p.y).1 + p.vy * (skyNorth p.x p.y).1, p.vx * (skyEast p.x p.y).2.1 + p.vy * (skyNorth p.x p.y).2.1,
    p.vx * (skyEast p.x p.y).2.2 + p.vy * (skyNorth p.x p.y).2.2)

/-- The row `r` has, in degrees, the components of the direction of `p` along the east and the north of `q` as coordinates, and the
difference of the distances and of the line-of-sight velocities. -/
structure OnPlane (q p r : Ph) : Prop where
  east : rad r.x = (skyDir p.x p.y).dot (skyEast q.x q.y)
  north : rad r.y = (skyDir p.x p.y).dot (skyNorth q.x q.y)
  dist : r.z = p.z - q.z
  los : r.vz = p.vz - q.vz

end

end CT
