/- How `add_stars` stores the ids of stars (cluster.py:191, 568-584), with numpy's types: the other models treat ids as exact
integers. -/
import Mathlib.Data.Nat.Log
import Mathlib.Data.Int.Basic
import Mathlib.Algebra.Order.Group.Int
import Mathlib.Data.List.MinMax

namespace CT

/-- Element types of numpy arrays: `float64`, `int64`, `uint64`. -/
inductive DType
  | f64 | i64 | u64
  deriving DecidableEq, Repr

/-- A numpy array whose elements are whole numbers. -/
structure IdArr where
  ty : DType
  vals : List ℤ
  deriving Repr

/-- The nearest number with a 53-bit mantissa, ties to even, for a natural number: what conversion to `float64` does. -/
def roundNat (a : ℕ) : ℕ :=
  let e := Nat.log 2 a - 52
  let q := a / 2 ^ e
  let r := a % 2 ^ e
  (if 2 ^ e < 2 * r ∨ (2 ^ e = 2 * r ∧ q % 2 = 1) then q + 1 else q) * 2 ^ e

/-- Conversion of a whole number to `float64`. -/
def roundF64 (n : ℤ) : ℤ := if 0 ≤ n then (roundNat n.natAbs : ℤ) else -(roundNat n.natAbs : ℤ)

/-- Conversion of a whole number to `int64`; outside the range the result is the smallest number (x86). -/
def toI64 (n : ℤ) : ℤ := if -(2 ^ 63) ≤ n ∧ n < 2 ^ 63 then n else -(2 ^ 63)

/-- `arr.astype(t)`. -/
def IdArr.conv (t : DType) (a : IdArr) : List ℤ :=
  match t, a.ty with
  | .f64, .i64 => a.vals.map roundF64
  | .f64, .u64 => a.vals.map roundF64
  | .i64, .f64 => a.vals.map toI64
  | .i64, .u64 => a.vals.map toI64
  | _, _ => a.vals

/-- The common type of two arrays: integers of different signedness meet in `float64`. -/
def promote : DType → DType → DType
  | .i64, .i64 => .i64
  | .u64, .u64 => .u64
  | _, _ => .f64

/-- `np.append(a, b)`. -/
def npAppend (a b : IdArr) : IdArr :=
  ⟨promote a.ty b.ty, a.conv (promote a.ty b.ty) ++ b.conv (promote a.ty b.ty)⟩

/-- `np.amax(self.id)+1`, 0 for no stars (cluster.py:570-577, no binaries). -/
def nextId (a : List ℤ) : ℤ := (a.max?.map (· + 1)).getD 0

/-- The ids after a call of `add_stars` for `n` stars (cluster.py:568-584): `self.id = np.append(self.id, ids)`,
`self.id = self.id.astype(int)`.  Without binaries. -/
def addIds (cur : IdArr) (given : Option IdArr) (n : ℕ) : IdArr :=
  let ids := given.getD ⟨.i64, (List.range n).map (fun i : ℕ => nextId cur.vals + i)⟩
  ⟨.i64, (npAppend cur ids).conv .i64⟩

/-- The ids after a history of calls, starting from `self.id = np.array([])` (cluster.py:191), an array of `float64`. -/
def storedIds : List (Option IdArr × ℕ) → IdArr → IdArr
  | [], a => a
  | (g, n) :: rest, a => storedIds rest (addIds a g n)

/-- A new cluster has no ids. -/
def noIdsYet : IdArr := ⟨.f64, []⟩

end CT
