/- Vocabulary for tidal tails on the sky. -/
import Verif.Spec.SkyPath
import Verif.Spec.Sky
import Verif.Spec.Tails

namespace CT

noncomputable section

/-- The path is the orbit seen on the sky: `n` points at equal intervals of time from `-T` to `T` Gyr. -/
def IsSkyOrbit (g : Galpy) (flow : ℝ → Ph → Ph) (start : Ph) (T : ℝ) (n : ℕ) (path : List PathPt) : Prop :=
  path.length = n ∧ ∀ k < n, (path[k]!).t = -T + k * (2 * T / (n - 1)) ∧
    (path[k]!).p = g.toSky (kpcRow (orbitAt g flow ((path[k]!).t * 1000) start))

/-- Mean position and velocity of the selected stars. -/
def meanStar (stars : List Ph) (S : ℕ → Prop) : Ph :=
  { x := meanOver stars.length S (fun i => (stars[i]!).x), y := meanOver stars.length S (fun i => (stars[i]!).y)
    z := meanOver stars.length S (fun i => (stars[i]!).z), vx := meanOver stars.length S (fun i => (stars[i]!).vx)
    vy := meanOver stars.length S (fun i => (stars[i]!).vy), vz := meanOver stars.length S (fun i => (stars[i]!).vz) }

/-- Star by star, the point of the path nearest on the sky and the distance (degrees) from it. -/
def NearOnSky (g : Galpy) (stars : List Ph) (path : List PathPt) (near : ℕ → ℕ) (off : ℕ → ℝ) : Prop :=
  ∀ i < stars.length, Nearest true (fun j => (path[j]!).p) path.length (g.toSky (kpcRow stars[i]!)) (near i) ∧
    OffPath (fun j => (path[j]!).p) path.length (g.toSky (kpcRow stars[i]!)) (near i) (off i)

end

end CT
