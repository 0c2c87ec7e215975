import Verif.Model.Grav
import Mathlib.Algebra.BigOperators.Group.Finset.Basic
import Mathlib.Algebra.BigOperators.Intervals
import Mathlib.Algebra.BigOperators.Ring.Finset
import Mathlib.Tactic.Ring

namespace CT

noncomputable section

theorem foldl_add_eq_sum {α : Type} (l : List α) (f : α → ℝ) (a : ℝ) :
    l.foldl (fun acc x => acc + f x) a = a + (l.map f).sum := by
  induction l generalizing a with
  | nil => simp
  | cons x l ih => simp [ih, add_assoc]

theorem sum_list_range (n : ℕ) (f : ℕ → ℝ) : ((List.range n).map f).sum = ∑ i ∈ Finset.range n, f i := by
  induction n with
  | zero => simp
  | succ n ih => simp [List.range_succ, Finset.sum_range_succ, ih]

theorem sum_list_range' (a n : ℕ) (f : ℕ → ℝ) :
    ((List.range' a n).map f).sum = ∑ i ∈ Finset.Ico a (a + n), f i := by
  induction n generalizing a with
  | zero => simp
  | succ n ih =>
    rw [List.range'_succ, List.map_cons, List.sum_cons, ih]
    rw [Finset.sum_eq_sum_Ico_succ_bot (by omega : a < a + (n + 1))]
    rw [show a + 1 + n = a + (n + 1) by omega]

/-- Nested upper-triangular loops. -/
theorem tri_loop (n : ℕ) (f : ℕ → ℕ → ℝ) :
    (List.range (n - 1)).foldl (fun acc i =>
      (List.range' (i + 1) (n - (i + 1))).foldl (fun acc j => acc + f i j) acc) 0
    = ∑ i ∈ Finset.range n, ∑ j ∈ Finset.Ico (i + 1) n, f i j := by
  have h1 : ∀ (l : List ℕ) (a : ℝ), l.foldl (fun acc i =>
      (List.range' (i + 1) (n - (i + 1))).foldl (fun acc j => acc + f i j) acc) a
      = l.foldl (fun acc i => acc + ((List.range' (i + 1) (n - (i + 1))).map (f i)).sum) a := by
    intro l a
    congr 1
    funext acc i
    rw [foldl_add_eq_sum]
  rw [h1, foldl_add_eq_sum, sum_list_range, zero_add]
  cases n with
  | zero => simp
  | succ k =>
    rw [Nat.add_sub_cancel, Finset.sum_range_succ (n := k)]
    rw [Finset.Ico_self, Finset.sum_empty, add_zero]
    refine Finset.sum_congr rfl fun i hi => ?_
    rw [sum_list_range']
    rw [show i + 1 + (k + 1 - (i + 1)) = k + 1 by have := Finset.mem_range.mp hi; omega]

theorem get!_map {α β : Type} [Inhabited α] [Inhabited β] (l : List α) (f : α → β) (i : ℕ)
    (h : i < l.length) : (l.map f)[i]! = f l[i]! := by
  rw [getElem!_pos (l.map f) i (by simpa using h), getElem!_pos l i h, List.getElem_map]

theorem sum_drop_map {α : Type} [Inhabited α] (l : List α) (k : ℕ) (f : α → ℝ) :
    ((l.drop k).map f).sum = ∑ j ∈ Finset.Ico k l.length, f l[j]! := by
  rcases Nat.lt_or_ge l.length k with h | h
  · rw [List.drop_eq_nil_of_le (by omega), Finset.Ico_eq_empty (by omega)]; simp
  · have : (l.drop k).map f = (List.range' k (l.length - k)).map (fun j => f l[j]!) := by
      apply List.ext_getElem
      · simp
      · intro i h1 h2
        simp at h1 h2
        simp
        rw [List.getElem?_eq_getElem (by omega)]
        rfl
    rw [this, sum_list_range']
    rw [show k + (l.length - k) = l.length by omega]

end

end CT
