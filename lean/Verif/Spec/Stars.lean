/- Specification vocabulary for adding stars. -/
import Verif.Model.Stars

namespace CT

noncomputable section

/-- A number, or an array with one entry per star. -/
def Val.fits {α : Type} (n : ℕ) : Val α → Prop
  | .scalar _ => True
  | .arr l => l.length = n

def Val.isArr {α : Type} : Val α → Prop
  | .scalar _ => False
  | .arr _ => True

/-- The value an argument gives to star `i`. -/
def Val.at {α : Type} [Inhabited α] (v : Val α) (i : ℕ) : α :=
  match v with
  | .scalar a => a
  | .arr l => l[i]!

/-- A well-formed call adding `n` stars: arrays of length `n` and numbers, at least one array unless `n = 1`. -/
structure StarArgs.Fits (a : StarArgs) (n : ℕ) : Prop where
  pos : 1 ≤ n
  x : a.x.fits n
  y : a.y.fits n
  z : a.z.fits n
  vx : a.vx.fits n
  vy : a.vy.fits n
  vz : a.vz.fits n
  m : ∀ v, a.m = some v → v.fits n
  id : ∀ v, a.id = some v → v.fits n
  m0 : ∀ v, a.m0 = some v → v.fits n
  npop : ∀ v, a.npop = some v → v.fits n
  arr : n = 1 ∨ a.x.isArr ∨ a.y.isArr ∨ a.z.isArr ∨ a.vx.isArr ∨ a.vy.isArr ∨ a.vz.isArr ∨
    (∃ v, a.m = some v ∧ v.isArr) ∨ (∃ v, a.id = some v ∧ v.isArr) ∨ (∃ v, a.m0 = some v ∧ v.isArr) ∨
    (∃ v, a.npop = some v ∧ v.isArr)

/-- Every per-star array has `n` entries. -/
structure Aligned (t : Tab) (n : ℕ) : Prop where
  x : t.x.length = n
  y : t.y.length = n
  z : t.z.length = n
  vx : t.vx.length = n
  vy : t.vy.length = n
  vz : t.vz.length = n
  m : t.m.length = n
  m0 : t.m0.length = n
  npop : t.npop.length = n
  id : t.id.length = n

/-- One star as the user sees it (without its id). -/
@[ext] structure Star where
  x : ℝ
  y : ℝ
  z : ℝ
  vx : ℝ
  vy : ℝ
  vz : ℝ
  m : ℝ
  m0 : ℝ
  npop : ℤ

/-- Star `i` of a cluster: entry `i` of every array. -/
def Tab.star (t : Tab) (i : ℕ) : Star :=
  ⟨t.x[i]!, t.y[i]!, t.z[i]!, t.vx[i]!, t.vy[i]!, t.vz[i]!, t.m[i]!, t.m0[i]!, t.npop[i]!⟩

/-- Star `i` of a call: its values, with the documented defaults (mass 1, initial mass 0, population 1). -/
def StarArgs.star (a : StarArgs) (i : ℕ) : Star :=
  ⟨a.x.at i, a.y.at i, a.z.at i, a.vx.at i, a.vy.at i, a.vz.at i, (a.m.map (·.at i)).getD 1,
    (a.m0.map (·.at i)).getD 0, (a.npop.map (·.at i)).getD 1⟩

end

end CT
