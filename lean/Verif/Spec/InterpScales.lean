/- Specification vocabulary for orbits integrated with scales of their own. -/
import Verif.Model.InterpScales
import Verif.Spec.InterpSky

namespace CT

noncomputable section

/-- The body whose distances are those of `P` times `h.ro / g.ro` and whose velocities are those of `P` times `h.vo / g.vo`. -/
def rescaled (g h : Galpy) (P : Ph) : Ph :=
  ⟨P.x * (h.ro / g.ro), P.y * (h.ro / g.ro), P.z * (h.ro / g.ro), P.vx * (h.vo / g.vo), P.vy * (h.vo / g.vo), P.vz * (h.vo / g.vo)⟩

/-- The time to move in (Myr) of a cluster in the units `u`: 12 Gyr if none is given; a number in galpy's units counts those of the scales `h`. -/
def spanWith (h : Galpy) (s : Scale) (u : Units) (tfinal : Option ℝ) : ℝ :=
  if u = .galpy then tfinal.elim 12000 (fun T => T * (1000 * h.timeGyr)) else spanMyr s tfinal

/-- Scales that make sense. -/
structure Galpy.Scales (h : Galpy) : Prop where
  ro : 0 < h.ro
  vo : 0 < h.vo
  time : 0 < h.timeGyr

end

end CT
