/- Specification vocabulary for the ids of stars. -/
import Verif.Model.Ids

namespace CT

/-- The ids a user expects after a history of calls: those given, in order; a call without ids counts on from the largest so far. -/
def wantedIds : List (Option IdArr × ℕ) → List ℤ → List ℤ
  | [], l => l
  | (some a, _) :: rest, l => wantedIds rest (l ++ a.vals)
  | (none, n) :: rest, l => wantedIds rest (l ++ (List.range n).map (fun i : ℕ => nextId l + i))

/-- Ids a float represents exactly in any case. -/
def SmallId (n : ℤ) : Prop := n.natAbs ≤ 2 ^ 53

end CT
