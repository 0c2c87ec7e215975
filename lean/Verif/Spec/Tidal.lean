/- Specification vocabulary for the tidal radius. -/
import Verif.Spec.Profiles
import Verif.Model.Tidal
import Verif.Spec.Physical

namespace CT

noncomputable section

/-- Iterating a tidal radius at most `k` more times from the estimate `ρ`: `T M` is the tidal radius of a mass `M`, `M ρ` the mass within
`ρ`, `q` the convergence factor.  Each estimate is the tidal radius of the mass within the previous one.  The iteration ends with the
estimate itself when the next one is not smaller by the factor `q`, and with zero when no tidal radius is left. -/
inductive TideRun (T M : ℝ → ℝ) (q : ℝ) : ℕ → ℝ → ℝ → Prop
  | last (ρ : ℝ) : TideRun T M q 0 ρ ρ
  | lost (k : ℕ) (ρ : ℝ) : T (M ρ) = 0 → TideRun T M q (k + 1) ρ 0
  | done (k : ℕ) (ρ : ℝ) : T (M ρ) ≠ 0 → q * ρ ≤ T (M ρ) → TideRun T M q (k + 1) ρ ρ
  | next (k : ℕ) (ρ ρ' : ℝ) : T (M ρ) ≠ 0 → T (M ρ) < q * ρ → TideRun T M q k (T (M ρ)) ρ' → TideRun T M q (k + 1) ρ ρ'

/-- Mass (solar masses) of star `i`. -/
def pmass (s : Scale) (c : Cluster) (i : ℕ) : ℝ := c.m[i]! * s.mass

/-- Distance (pc) of star `i` from the cluster centre. -/
def pdist (s : Scale) (c : Cluster) (i : ℕ) : ℝ := dist0 false (centred c)[i]! * s.len

/-- Mass of the stars in `S` within `ρ` pc. -/
def massIn (s : Scale) (c : Cluster) (S : ℕ → Prop) (ρ : ℝ) : ℝ :=
  sumOver c.st.length (fun i => S i ∧ pdist s c i < ρ) (pmass s c)

/-- Mass of the stars in `S`. -/
def massAll (s : Scale) (c : Cluster) (S : ℕ → Prop) : ℝ := sumOver c.st.length S (pmass s c)

/-- The stars of the caller's selection. -/
def Selected (indx : Option (List Bool)) (i : ℕ) : Prop := ∀ w, indx = some w → w[i]! = true

/-- Position (kpc) at which the potential is evaluated: distance from the axis, and height. -/
def tideAt (s : Scale) (a : TideArgs) (c : Cluster) : ℝ × ℝ :=
  let p := if a.fromCentre then phAdd c.gc c.c else c.gc
  (a.rgc.getD (Real.sqrt (p.x ^ 2 + p.y ^ 2) * s.len / 1000), a.zgc.getD (p.z * s.len / 1000))

/-- The tidal radius (pc) of a mass (solar masses) at distance `at.1` and height `at.2` (kpc), from galpy's function. -/
def tidePc (g : Galpy) (tide : ℝ → ℝ → ℝ → ℝ) (pos : ℝ × ℝ) (M : ℝ) : ℝ :=
  tide (pos.1 / g.ro) (pos.2 / g.ro) (M / g.massMsol) * (1000 * g.ro)

end

end CT
