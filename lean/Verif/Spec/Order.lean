/- Specification vocabulary: freshness of cached quantities, radial orders, mass-fraction radii. -/
import Verif.Spec.Valid
import Mathlib.Algebra.BigOperators.Group.List.Basic

namespace CT

noncomputable section

/-- Every entry of `l` is the Euclidean norm `sqrt (q p)` of the corresponding row. -/
def AreNorms (q : Ph → ℝ) (st : List Ph) (l : List ℝ) : Prop :=
  List.Forall₂ (fun p a => 0 ≤ a ∧ a ^ 2 = q p) st l

/-- The cached derived quantities describe the current rows, masses and labels. -/
structure Fresh (c : Cluster) : Prop where
  units : c.d.units = c.units
  origin : c.d.origin = c.origin
  r : AreNorms (fun p => p.x ^ 2 + p.y ^ 2 + p.z ^ 2) c.st c.d.r
  rpro : AreNorms (fun p => p.x ^ 2 + p.y ^ 2) c.st c.d.rpro
  v : AreNorms (fun p => p.vx ^ 2 + p.vy ^ 2 + p.vz ^ 2) c.st c.d.v
  vpro : AreNorms (fun p => p.vx ^ 2 + p.vy ^ 2) c.st c.d.vpro
  mtot : c.d.mtot = c.m.sum
  mmean : c.m ≠ [] → c.d.mmean * c.m.length = c.m.sum
  rmean : c.d.rmean * c.st.length = c.d.r.sum
  rmeanpro : c.d.rmeanpro * c.st.length = c.d.rpro.sum
  rmax : c.d.rmax ∈ c.d.r ∧ ∀ x ∈ c.d.r, x ≤ c.d.rmax
  rmaxpro : c.d.rmaxpro ∈ c.d.rpro ∧ ∀ x ∈ c.d.rpro, x ≤ c.d.rmaxpro

/-- A call made with analysis switched on. -/
def Op.analysed : Op → Prop
  | .toPckms a => a = true
  | .toKpckms a => a = true
  | .toPcmyr a => a = true
  | .toKpcgyr a => a = true
  | .toAmuse a => a = true
  | _ => True

/-- `o` lists all indices of `r` in non-decreasing order of `r`. -/
def SortedBy (r : List ℝ) (o : List ℕ) : Prop :=
  IsOrder r.length o ∧ o.Pairwise (fun i j => r.getD i 0 ≤ r.getD j 0)

/-- Total mass of the stars whose radius satisfies `P`. -/
def massWhere (P : ℝ → Prop) [DecidablePred P] (m r : List ℝ) : ℝ :=
  ((List.zip m r).map (fun x => if P x.2 then x.1 else 0)).sum

open Classical in
/-- `ρ` is the radius enclosing the mass fraction `f`: a star radius, the smallest one within which at least
`f` of the mass lies. -/
def IsMassRadius (f : ℝ) (m r : List ℝ) (ρ : ℝ) : Prop :=
  ρ ∈ r ∧ f * m.sum ≤ massWhere (· ≤ ρ) m r ∧ ∀ x ∈ r, x < ρ → massWhere (· ≤ x) m r < f * m.sum

/-- Position of the origin of frame `f` in the galaxy, given centre and orbit position. -/
def frameOffset (f : Origin) (c gc : Ph) : Ph :=
  match f with
  | .galaxy => ⟨0, 0, 0, 0, 0, 0⟩
  | .cluster => gc
  | .centre => phAdd c gc
  | _ => ⟨0, 0, 0, 0, 0, 0⟩

/-- Physical radius of star `i` of a world in frame `f`. -/
def World.radius (w : World) (f : Origin) (i : ℕ) : ℝ :=
  match w.stars[i]? with
  | some (some P) =>
    Real.sqrt ((P.x - (frameOffset f w.centre w.gc).x) ^ 2 + (P.y - (frameOffset f w.centre w.gc).y) ^ 2
      + (P.z - (frameOffset f w.centre w.gc).z) ^ 2)
  | _ => 0

/-- The stored radial order is sorted by radius in the frame it was made for. -/
def OrderInv (w : World) (c : Cluster) : Prop :=
  ∀ o, c.rorder = some o → ∃ f, c.rorderOrigin = some f ∧ f.linear ∧
    IsOrder w.stars.length o ∧ o.Pairwise (fun i j => w.radius f i ≤ w.radius f j)

end

end CT
