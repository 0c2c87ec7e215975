/- Specification vocabulary for moving a cluster on the sky along its orbit. -/
import Verif.Model.InterpSky
import Verif.Spec.Interp
import Verif.Spec.SkyAnalysis

namespace CT

noncomputable section

/-- The time in Myr: the caller's, in Gyr, or 12 Gyr. -/
def skySpan (tfinal : Option ℝ) : ℝ := tfinal.elim 12000 (fun T => T * 1000)

/-- Every star, and the cluster, `T` Myr later on its own orbit. -/
def Truth.movedAlong (g : Galpy) (flow : ℝ → Ph → Ph) (T : ℝ) (S : Truth) : Truth :=
  { S with
    stars := S.stars.map (orbitAt g flow T)
    gc := orbitAt g flow T S.gc }

/-- The cluster moved to `Q`, its stars with it. -/
def Truth.movedTo (Q : Ph) (S : Truth) : Truth :=
  { S with
    stars := S.stars.map (displaced S.gc Q)
    gc := Q }

/-- No column of the rows is all zeros. -/
def NoZeroColumn (l : List Ph) : Prop :=
  (∃ q ∈ l, q.x ≠ 0) ∧ (∃ q ∈ l, q.y ≠ 0) ∧ (∃ q ∈ l, q.z ≠ 0) ∧ (∃ q ∈ l, q.vx ≠ 0) ∧ (∃ q ∈ l, q.vy ≠ 0) ∧ (∃ q ∈ l, q.vz ≠ 0)

/-- galpy takes the sky coordinates of `P` back to `P`. -/
def SkyBack (g : Galpy) (P : Ph) : Prop := g.ofSky (g.toSky (kpcRow P)) = kpcRow P

end

end CT
