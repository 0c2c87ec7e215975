/- Some of the stars of a world, and N-body scales. -/
import Verif.Spec.Virial
import Verif.Spec.Relax
import Verif.Spec.Centre

namespace CT

noncomputable section

/-- The stars of a world that are named, in the order given. -/
def World.only (w : World) (sel : List ℕ) : World :=
  { w with mass := sel.map (fun i => w.mass[i]!), stars := sel.map (fun i => w.stars[i]!) }

/-- The N-body scales of a cluster: units of mass (Msun) and length (pc), and those of velocity and time which follow. -/
structure Scales (c : Cluster) (M L : ℝ) : Prop where
  mass : c.zmbar = M
  len : c.rbar = L
  vel : c.vbar = 0.06557 * Real.sqrt (M / L)
  time : c.tbar = L / (1.023 * (0.06557 * Real.sqrt (M / L)))

/-- The unit of length asked for: the virial radius (in space or on the sky plane), or 4/3 of the half-mass radius about the origin of frame `f`. -/
def World.UnitOfLength (w : World) (f : Origin) (rvirial projected : Bool) (L : ℝ) : Prop :=
  if rvirial then L = w.virial projected
  else ∃ ρ, IsMassRadius 0.5 w.mass (w.radii f w.stars.length) ρ ∧ L = 4 * ρ / 3

/-- The centre of a cluster moved to `P`, a point in the frame (cluster or galaxy) that the cluster is given in. -/
def World.recentred (w : World) (o : Origin) (P : Ph) : World :=
  match o with
  | .galaxy => { w with gc := P, centre := ⟨0, 0, 0, 0, 0, 0⟩ }
  | _ => { w with centre := P }

end

end CT
