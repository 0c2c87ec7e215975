/- Specification vocabulary for clusters made of galpy orbits. -/
import Verif.Model.Galpydf
import Verif.Spec.Physical

namespace CT

noncomputable section

/-- Where the orbits really are: pc and km/s, from the scales the orbits were made with. -/
def GOrbits.really (o : GOrbits) : List Ph :=
  o.nat.map (fun p => ⟨p.x * o.ro * 1000, p.y * o.ro * 1000, p.z * o.ro * 1000, p.vx * o.vo, p.vy * o.vo, p.vz * o.vo⟩)

/-- The mass meant for orbit `i`: 1 unless given. -/
def massGiven (m : Option (Val ℝ)) (i : ℕ) : ℝ :=
  match m with
  | none => 1
  | some (.scalar a) => a
  | some (.arr l) => l[i]!

/-- The masses given fit `n` orbits: an array has one entry per orbit. -/
def massFits (m : Option (Val ℝ)) (n : ℕ) : Prop := ∀ l, m = some (.arr l) → l.length = n

end

end CT
