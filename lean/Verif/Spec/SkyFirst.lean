/- Specification vocabulary for clusters built from observations on the sky. -/
import Verif.Spec.Sky
import Verif.Spec.Stars
import Verif.Spec.Nbody6ppH5

namespace CT

noncomputable section

/-- A row in kpc and km/s written in pc and km/s. -/
def pcRow (p : Ph) : Ph := ⟨p.x * 1000, p.y * 1000, p.z * 1000, p.vx, p.vy, p.vz⟩

/-- The six values (right ascension … radial velocity) a call of `add_stars` gives to its star `i`. -/
def StarArgs.obs (a : StarArgs) (i : ℕ) : Ph := ⟨a.x.at i, a.y.at i, a.z.at i, a.vx.at i, a.vy.at i, a.vz.at i⟩

/-- All observations of a sequence of calls `(arguments, number of stars)`, in order. -/
def obsOf (l : List (StarArgs × ℕ)) : List Ph := l.flatMap (fun c => (List.range c.2).map c.1.obs)

/-- All masses of a sequence of calls, in order. -/
def massesOf (l : List (StarArgs × ℕ)) : List ℝ := l.flatMap (fun c => (List.range c.2).map (fun i => (c.1.star i).m))

/-- None of the six quantities is missing, i.e. zero for every star (unless it is zero for the cluster too). -/
def Complete (rows : List Ph) (p : Ph) : Prop :=
  ∀ f ∈ [Ph.x, Ph.y, Ph.z, Ph.vx, Ph.vy, Ph.vz], (∃ q ∈ rows, f q ≠ 0) ∨ f p = 0

open Classical in
/-- A quantity, or the cluster's value of it if it is missing for all stars. -/
def completedCol (rows : List Ph) (f : Ph → ℝ) (p q : Ph) : ℝ := if ∀ q' ∈ rows, f q' = 0 then f p else f q

/-- The observations with missing quantities replaced by those of the cluster. -/
def completed (rows : List Ph) (p : Ph) : List Ph :=
  rows.map (fun q => ⟨completedCol rows Ph.x p q, completedCol rows Ph.y p q, completedCol rows Ph.z p q,
    completedCol rows Ph.vx p q, completedCol rows Ph.vy p q, completedCol rows Ph.vz p q⟩)

/-- The cluster shows the observed rows `rows` and `p`, masses `ms` and the time `t` in Gyr: on the sky as they are, in other
units by the Galactocentric rows galpy assigns to them. -/
def Shows (g : Galpy) (rows : List Ph) (p : Ph) (ms : List ℝ) (t : ℝ) (c : Cluster) : Prop :=
  (c.units = some .radec → c.sky = rows ∧ c.gc = p ∧ (c.origin = some .sky → c.st = rows) ∧ c.m = ms ∧ c.tphys = t) ∧
  (c.units ≠ some .radec → ∃ W, world g c = some W ∧ W.stars = rows.map (fun q => some (pcRow (g.ofSky q))) ∧
    W.gc = pcRow (g.ofSky p) ∧ W.mass = ms ∧ W.time = t * 1000)

end

end CT
