/- What sampling a limepy model is asked to do. -/
import Verif.Model.LimepySample
import Verif.Spec.AstropyTable

namespace CT

noncomputable section

/-- The keywords that give a radius. -/
inductive RadKey
  | rt | rv | rh | rm | r0 | rc
  deriving DecidableEq

/-- Limiting, virial, half-mass and scale radius; `rm` is a half-mass radius, `rc` a scale radius. -/
def RadKey.kind : RadKey → LRadius
  | .rt => .rt
  | .rv => .rv
  | .rh => .rh
  | .rm => .rh
  | .r0 => .r0
  | .rc => .r0

def LimeKw.radius (k : LimeKw) : RadKey → Option ℝ
  | .rt => k.rt
  | .rv => k.rv
  | .rh => k.rh
  | .rm => k.rm
  | .r0 => k.r0
  | .rc => k.rc

/-- `r` is the one radius given. -/
def LimeKw.OneRadius (k : LimeKw) (q : RadKey) (r : ℝ) : Prop :=
  k.radius q = some r ∧ ∀ q', q' ≠ q → k.radius q' = none

/-- The central potential that is given, under its name `W0` or `phi0`. -/
def LimeKw.Potential (k : LimeKw) (w : ℝ) : Prop := k.W0 = some w ∨ (k.W0 = none ∧ k.phi0 = some w)

/-- `sample(model, N=n)` gives `n` stars, with masses. -/
structure Sampled (n : ℕ) (s : ATCols) : Prop where
  x : s.x.length = n
  y : s.y.length = n
  z : s.z.length = n
  vx : s.vx.length = n
  vy : s.vy.length = n
  vz : s.vz.length = n
  m : ∃ l, s.m = some l ∧ l.length = n ∧ 0 ≤ l.sum

/-- The cluster `r` has the stars of the sample, in order, with ids from 1. -/
structure HasSample (n : ℕ) (s : ATCols) (r : Run) : Prop where
  ntot : r.ntot = n
  st : r.base.st.length = n
  m : r.base.m.length = n
  id : r.id.length = n
  star : ∀ i < n, r.base.st[i]! = ⟨s.x[i]!, s.y[i]!, s.z[i]!, s.vx[i]!, s.vy[i]!, s.vz[i]!⟩
  mass : ∀ l, s.m = some l → ∀ i < n, r.base.m[i]! = l[i]!
  ids : ∀ i < n, r.id[i]! = (i : ℤ) + 1

end

end CT
