/- Specification: giving stars a sense of rotation about the z axis. -/
import Verif.Model.Ops

namespace CT

noncomputable section

/-- Angular momentum about the z axis, per mass. -/
def Lz (p : Ph) : ℝ := p.x * p.vy - p.y * p.vx

/-- `p'` is `p` with, if `turned`, its sense of rotation made positive: the position, the vertical velocity, the motion
away from the axis and the speed are those of `p`, and the angular momentum is the absolute value of that of `p`; if not
`turned`, `p'` is `p`. -/
structure Rotated (turned : Prop) (p p' : Ph) : Prop where
  same : ¬ turned → p' = p
  x : p'.x = p.x
  y : p'.y = p.y
  z : p'.z = p.z
  vz : p'.vz = p.vz
  radial : p'.x * p'.vx + p'.y * p'.vy = p.x * p.vx + p.y * p.vy
  speed : p'.vx ^ 2 + p'.vy ^ 2 = p.vx ^ 2 + p.vy ^ 2
  momentum : turned → Lz p' = |Lz p|

end

end CT
