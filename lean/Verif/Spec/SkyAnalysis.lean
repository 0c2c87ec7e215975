/- Vocabulary for analysis functions called on clusters in `radec` units. -/
import Verif.Spec.Sky
import Verif.Model.Relax

namespace CT

noncomputable section

/-- `c'` shows the same stars on the sky as `c`: labels, sky coordinates, the cluster's own sky coordinates, masses, time, N-body scales; and the
coordinates of the stars when they are the sky coordinates. -/
structure SameSky (c c' : Cluster) : Prop where
  units : c'.units = c.units
  origin : c'.origin = c.origin
  sky : c'.sky = c.sky
  gc : c'.gc = c.gc
  m : c'.m = c.m
  tphys : c'.tphys = c.tphys
  st : c.origin = some .sky → c'.st = c.st
  nbody : (c'.zmbar, c'.rbar, c'.vbar, c'.tbar) = (c.zmbar, c.rbar, c.vbar, c.tbar)

/-- A row `n` times added to another. -/
def addTimes : ℕ → Ph → Ph → Ph
  | 0, _, q => q
  | n + 1, p, q => phAdd p (addTimes n p q)

/-- `half_mass_relaxation_time` called `n` times on the same cluster: the cluster afterwards. -/
def askTimes (g : Galpy) (γ : ℝ) : ℕ → Cluster → Except Err Cluster
  | 0, c => .ok c
  | n + 1, c => (halfMassRelaxationTime g γ false c).bind (fun r => askTimes g γ n r.2)

end

end CT
