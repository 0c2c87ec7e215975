/- Specification vocabulary for clusters made of AMUSE particles. -/
import Verif.Model.Amuse
import Verif.Spec.Physical

namespace CT

noncomputable section

/-- The unit systems AMUSE particles can be converted to; without a label, the cluster keeps AMUSE's quantities. -/
def AmuseUnits (u : Option Units) : Prop :=
  u = some .pckms ∨ u = some .kpckms ∨ u = some .kpcgyr ∨ u = some .pcmyr ∨ u = some .amuse ∨ u = none

/-- The cluster has one star per particle, in the same order, at the same place with the same velocity, mass and key, whatever the
units of the numbers are; the labels are those asked for. -/
structure HasParticles (g : Galpy) (u : Option Units) (f : Origin) (ps : List APart) (r : Run) : Prop where
  stars : ∃ P, phys g r.base = some P ∧ P.stars = ps.map (·.p) ∧ P.mass = ps.map (·.m)
  id : r.id = ps.map (·.key)
  ntot : r.ntot = ps.length
  units : r.base.units = some (u.getD .amuse)
  origin : r.base.origin = some f

/-- A set of particles that can be a cluster: not empty, total mass not negative. -/
def PartsOk (ps : List APart) : Prop := ps ≠ [] ∧ 0 ≤ (ps.map (·.m)).sum

/-- The name of snapshot number `n` for a directory, subdirectory, base name, width of the number and ending. -/
def numbered (wdir snapdir base ext : String) (z n : ℕ) : String :=
  dirSlash wdir ++ (dirSlash snapdir ++ (base ++ (zfill z n ++ ext)))

/-- The same without the subdirectory. -/
def numberedTop (wdir base ext : String) (z n : ℕ) : String := dirSlash wdir ++ (base ++ (zfill z n ++ ext))

end

end CT
