/- Specification vocabulary: admissible states and histories. -/
import Verif.Spec.Physical
import Verif.Model.History

namespace CT

noncomputable section

/-- `o` is a permutation of all `n` star indices. -/
def IsOrder (n : ℕ) (o : List ℕ) : Prop := o.Perm (List.range n)

/-- States in which no conversion raises: there is a star, masses and rows are aligned, the total mass is not
negative and stored orders are permutations. -/
structure Good (c : Cluster) : Prop where
  ne : c.st ≠ []
  len : c.m.length = c.st.length
  mass : 0 ≤ c.m.sum
  ro : ∀ o, c.rorder = some o → IsOrder c.st.length o
  rpo : ∀ o, c.rproorder = some o → IsOrder c.st.length o

/-- A call whose requested labels have a linear meaning. -/
def Op.linear (op : Op) : Prop :=
  (∀ u, op.unitTarget = some u → u.linear) ∧ (∀ o, op.originTarget = some o → o.linear)

/-- State with linear labels. -/
structure Lin (c : Cluster) : Prop where
  units : ∃ u, c.units = some u ∧ u.linear
  origin : ∃ o, c.origin = some o ∧ o.linear

end

end CT
