/- Specification vocabulary for radii read off a density profile. -/
import Verif.Model.DensityRadius
import Verif.Spec.Profiles
import Verif.Spec.Relax
import Verif.Spec.Tidal

namespace CT

noncomputable section

/-- Star `i` has one of the stellar types 0 to 15 (or stellar types are not known): the stars a profile uses by default. -/
def Typed (e : PStars) (i : ℕ) : Prop := e.kw ≠ [] → 0 ≤ e.kw[i]! ∧ e.kw[i]! ≤ 15

/-- Distance of star `i` from the origin of a frame, in space or seen along the z axis. -/
def World.rad (w : World) (pr : Bool) (fr : Origin) (i : ℕ) : ℝ := if pr then w.radiusPro fr i else w.radius fr i

/-- The stars in bin `k` of the bins `P`. -/
def InShell (w : World) (pr : Bool) (fr : Origin) (e : PStars) (P : List (ℝ × ℝ)) (k i : ℕ) : Prop :=
  Typed e i ∧ InBin P k (w.rad pr fr i)

/-- `rs`, `ds` is a density profile (pc; solar masses per pc³, in projection per pc²) of the stars of a world: at most `nrad` contiguous
bins `P` with equal numbers of stars reach from the smallest to the largest radius; the radius of a bin is the mean radius of its stars, its density their mass over
the volume (area) of the bin. -/
structure ShellProfile (w : World) (pr : Bool) (fr : Origin) (e : PStars) (nrad : ℕ) (P : List (ℝ × ℝ)) (rs ds : List ℝ) : Prop where
  contig : ∃ lo hi, Contig lo hi P ∧ (∀ i < w.stars.length, Typed e i → lo ≤ w.rad pr fr i ∧ w.rad pr fr i ≤ hi) ∧
    (∃ i < w.stars.length, Typed e i ∧ w.rad pr fr i = lo) ∧ ∃ i < w.stars.length, Typed e i ∧ w.rad pr fr i = hi
  ranks : EqualNumberBins w.stars.length (Typed e) (w.rad pr fr) nrad P
  few : P.length ≤ nrad
  lenr : rs.length = P.length
  lend : ds.length = P.length
  mid : ∀ k < P.length, 0 < numOver w.stars.length (InShell w pr fr e P k) ∧
    rs[k]! * numOver w.stars.length (InShell w pr fr e P k) = sumOver w.stars.length (InShell w pr fr e P k) (w.rad pr fr)
  dens : ∀ k < P.length, 0 < shellSize pr P[k]!.1 P[k]!.2 ∧
    ds[k]! * shellSize pr P[k]!.1 P[k]!.2 = sumOver w.stars.length (InShell w pr fr e P k) (fun i => w.mass[i]!)

/-- Two stars of the profile are at different radii. -/
def TwoRadii (w : World) (pr : Bool) (fr : Origin) (e : PStars) : Prop :=
  ∃ i j, i < w.stars.length ∧ j < w.stars.length ∧ Typed e i ∧ Typed e j ∧ w.rad pr fr i ≠ w.rad pr fr j

/-- The star attributes have one entry per star; stellar types may be absent. -/
structure StarLists (e : PStars) (n : ℕ) : Prop where
  npop : e.npop.length = n
  kw : e.kw = [] ∨ e.kw.length = n

/-- `x` is where the profile falls to `ρ` for the first time going outwards: `k` is the first bin below `ρ`, and `x` lies on the straight
line between the bin before it and bin `k`. -/
def IsFirstFall (rs ds : List ℝ) (ρ x : ℝ) : Prop :=
  ∃ k, 1 ≤ k ∧ k < ds.length ∧ ds[k]! < ρ ∧ (∀ j < k, ρ ≤ ds[j]!) ∧ rs[k - 1]! ≤ x ∧ x < rs[k]! ∧
    (x - rs[k - 1]!) * (ds[k - 1]! - ds[k]!) = (ds[k - 1]! - ρ) * (rs[k]! - rs[k - 1]!)

/-- The limiting radius for a background density `ρ`: where the profile falls to `ρ`; the radius of the last bin if even that is denser
than the background; zero if already the first one is not as dense as the background. -/
def IsLimiting (rs ds : List ℝ) (ρ x : ℝ) : Prop :=
  (ρ < ds[ds.length - 1]! ∧ x = rs[rs.length - 1]!) ∨ (ds[ds.length - 1]! ≤ ρ ∧ ds[0]! < ρ ∧ x = 0) ∨
  (ds[ds.length - 1]! ≤ ρ ∧ ρ ≤ ds[0]! ∧ IsFirstFall rs ds ρ x)

/-- Mass density (solar masses per pc³) of galpy's potential at the position used for the cluster. -/
def localDensity (g : Galpy) (dens : ℝ → ℝ → ℝ) (s : Scale) (a : TideArgs) (c : Cluster) : ℝ :=
  dens ((tideAt s a c).1 / g.ro) ((tideAt s a c).2 / g.ro) * g.massMsol / (1000 * g.ro) ^ 3

/-- The background density the profile is compared with: in projection the local density times four thirds of the radius of the last
bin. -/
def background (g : Galpy) (dens : ℝ → ℝ → ℝ) (s : Scale) (a : TideArgs) (pr : Bool) (rs : List ℝ) (c : Cluster) : ℝ :=
  if pr then localDensity g dens s a c * (4 * rs[rs.length - 1]! / 3) else localDensity g dens s a c

/-- The same position (kpc), read off the world: the caller's values, or the cluster's place in the galaxy (or that of its centre). -/
def World.hostAt (w : World) (a : TideArgs) : ℝ × ℝ :=
  let p := if a.fromCentre then phAdd w.gc w.centre else w.gc
  (a.rgc.getD (Real.sqrt (p.x ^ 2 + p.y ^ 2) / 1000), a.zgc.getD (p.z / 1000))

/-- Mass density (solar masses per pc³) of galpy's potential there. -/
def World.hostDensity (g : Galpy) (dens : ℝ → ℝ → ℝ) (a : TideArgs) (w : World) : ℝ :=
  dens ((w.hostAt a).1 / g.ro) ((w.hostAt a).2 / g.ro) * g.massMsol / (1000 * g.ro) ^ 3

/-- The background density the profile is compared with: the density of the galaxy; in projection this times four thirds of the radius of
the last bin. -/
def World.background (g : Galpy) (dens : ℝ → ℝ → ℝ) (a : TideArgs) (pr : Bool) (rs : List ℝ) (w : World) : ℝ :=
  if pr then w.hostDensity g dens a * (4 * rs[rs.length - 1]! / 3) else w.hostDensity g dens a

/-- The density that defines the core: a third of the central density, in projection half of it. -/
def coreDensity (pr : Bool) (ds : List ℝ) : ℝ := if pr then (ds[0]! : ℝ) / 2 else (ds[0]! : ℝ) / 3

/-- Once a bin is below `ρ`, all further ones are. -/
def StaysBelow (ds : List ℝ) (ρ : ℝ) : Prop := ∀ j k, j ≤ k → k < ds.length → ds[j]! < ρ → ds[k]! < ρ

end

end CT
