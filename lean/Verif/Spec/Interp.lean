/- Specification vocabulary for moving a cluster or its stars along their orbits. -/
import Verif.Model.Interp
import Verif.Spec.Orbits

namespace CT

noncomputable section

/-- The time (Myr) over which the orbit is followed: the caller's time, in units of `s.time` Myr, or 12 Gyr. -/
def spanMyr (s : Scale) (tfinal : Option ℝ) : ℝ := tfinal.elim 12000 (fun T => T * s.time)

/-- A body displaced by the difference of `Q` and `P`. -/
def displaced (P Q S : Ph) : Ph :=
  ⟨S.x + (Q.x - P.x), S.y + (Q.y - P.y), S.z + (Q.z - P.z), S.vx + (Q.vx - P.vx), S.vy + (Q.vy - P.vy), S.vz + (Q.vz - P.vz)⟩

/-- The world after the cluster is moved to `Q` with its stars: time, masses and the centre (from the cluster's position) stay. -/
def World.movedTo (w : World) (Q : Ph) : World := { w with gc := Q, stars := w.stars.map (Option.map (displaced w.gc Q)) }

/-- The galactocentric place of the cluster, or of its centre. -/
def World.place (w : World) (fromCentre : Bool) : Ph := if fromCentre then phAdd w.gc w.centre else w.gc

/-- `Q` is where a body at `P` is after `t` Myr; its velocity is only asked for if `vel`. -/
def Follows (g : Galpy) (flow : ℝ → Ph → Ph) (t : ℝ) (vel : Prop) (P Q : Ph) : Prop :=
  PosEq Q (orbitAt g flow t P) ∧ (vel → VelEq Q (orbitAt g flow t P))

/-- Units in which the converted velocities of orbits are right (see `C59_velocity_violated`). -/
def RightVelocities (u : Units) : Prop := u ≠ .pcmyr ∧ u ≠ .kpcgyr ∧ u ≠ .WDunits

/-- AMUSE units need a time. -/
def TimeGiven (a : PathArgs) (c : Cluster) : Prop := c.units = some .amuse → a.tfinal ≠ none

end

end CT
