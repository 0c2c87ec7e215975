import Verif.Model.Energy
import Verif.Lemmas.Pairs

namespace CT

noncomputable section

set_option linter.unusedSimpArgs false

theorem foldl_addAt (l : List (ℕ × NanR)) (pot : List NanR) (k : ℕ) :
    (l.foldl addAt pot)[k]? = pot[k]?.map (· + (l.map (fun u => if u.1 = k then u.2 else 0)).sum) := by
  induction l generalizing pot with
  | nil => simp
  | cons u l ih =>
    rw [List.foldl_cons, ih, addAt, List.getElem?_modify, List.map_cons, List.sum_cons]
    by_cases h : u.1 = k
    · simp only [h, if_true]
      cases pot[k]? <;> simp [add_assoc]
    · simp only [h, if_false, zero_add, Option.map_eq_map, id_eq]
      cases pot[k]? <;> simp

theorem foldl_rows (f : ℕ → List (ℕ × NanR)) (l : List ℕ) (pot : List NanR) :
    l.foldl (fun pot i => (f i).foldl addAt pot) pot = (l.flatMap f).foldl addAt pot := by
  induction l generalizing pot with
  | nil => rfl
  | cons i l ih => simp [ih, List.foldl_append]

theorem sum_flatMap {α : Type} (l : List α) (f : α → List (ℕ × NanR)) (w : ℕ × NanR → NanR) :
    ((l.flatMap f).map w).sum = (l.map (fun a => ((f a).map w).sum)).sum := by
  induction l with
  | nil => rfl
  | cons a l ih => simp [ih]

theorem sum_nan_range (n : ℕ) (f : ℕ → NanR) : ((List.range n).map f).sum = ∑ i ∈ Finset.range n, f i := by
  induction n with
  | zero => simp
  | succ n ih => simp [List.range_succ, Finset.sum_range_succ, ih]

theorem sum_nan_range' (a n : ℕ) (f : ℕ → NanR) :
    ((List.range' a n).map f).sum = ∑ i ∈ Finset.Ico a (a + n), f i := by
  induction n generalizing a with
  | zero => simp
  | succ n ih =>
    rw [List.range'_succ, List.map_cons, List.sum_cons, ih]
    rw [Finset.sum_eq_sum_Ico_succ_bot (by omega : a < a + (n + 1))]
    rw [show a + 1 + n = a + (n + 1) by omega]

theorem distance_comm (a b : P4) : distance a b = distance b a := by
  unfold distance; congr 1; ring

theorem pairTerm_comm (soft : ℝ) (a b : P4) : pairTerm soft a b = pairTerm soft b a := by
  unfold pairTerm; rw [distance_comm a b, mul_comm a.m b.m]

/-- Contribution of row `i` to entry `k`. -/
theorem rowUpdates_sum (soft : ℝ) (s : List P4) (i k : ℕ) (hi : i + 1 ≤ s.length) :
    ((rowUpdates soft s i).map (fun u => if u.1 = k then u.2 else 0)).sum =
      ∑ j ∈ Finset.Ico (i + 1) s.length,
        ((if i = k then pairTerm soft s[i]! s[j]! else 0) + (if j = k then pairTerm soft s[i]! s[j]! else 0)) := by
  unfold rowUpdates
  rw [sum_flatMap, sum_nan_range']
  rw [show i + 1 + (s.length - (i + 1)) = s.length by omega]
  refine Finset.sum_congr rfl fun j _ => ?_
  simp

/-- Every star gets the sum over all others. -/
theorem potentialFull_get (soft : ℝ) (s : List P4) (k : ℕ) (hk : k < s.length) :
    (potentialFull soft s)[k]? = some (∑ j ∈ (Finset.range s.length).erase k, pairTerm soft s[k]! s[j]!) := by
  unfold potentialFull
  rw [foldl_rows, foldl_addAt, List.getElem?_replicate, if_pos hk, sum_flatMap, sum_nan_range]
  simp only [Option.map_some, WithTop.coe_zero, zero_add]
  congr 1
  have e1 : ∀ i ∈ Finset.range (s.length - 1),
      ((rowUpdates soft s i).map (fun u => if u.1 = k then u.2 else 0)).sum =
      ∑ j ∈ Finset.Ico (i + 1) s.length,
        ((if i = k then pairTerm soft s[i]! s[j]! else 0) + (if j = k then pairTerm soft s[i]! s[j]! else 0)) := by
    intro i hi
    have := Finset.mem_range.mp hi
    exact rowUpdates_sum soft s i k (by omega)
  rw [Finset.sum_congr rfl e1]
  -- extend the outer range by the empty last row
  have e2 : ∑ i ∈ Finset.range (s.length - 1), ∑ j ∈ Finset.Ico (i + 1) s.length,
        ((if i = k then pairTerm soft s[i]! s[j]! else 0) + (if j = k then pairTerm soft s[i]! s[j]! else 0))
      = ∑ i ∈ Finset.range s.length, ∑ j ∈ Finset.Ico (i + 1) s.length,
        ((if i = k then pairTerm soft s[i]! s[j]! else 0) + (if j = k then pairTerm soft s[i]! s[j]! else 0)) := by
    obtain ⟨n, hn⟩ : ∃ n, s.length = n + 1 := ⟨s.length - 1, by omega⟩
    rw [hn, Nat.add_sub_cancel, Finset.sum_range_succ (n := n), Finset.Ico_self, Finset.sum_empty, add_zero]
  rw [e2]
  simp only [Finset.sum_add_distrib]
  have e3 : ∑ i ∈ Finset.range s.length, ∑ j ∈ Finset.Ico (i + 1) s.length,
      (if i = k then pairTerm soft s[i]! s[j]! else 0) = ∑ j ∈ Finset.Ico (k + 1) s.length, pairTerm soft s[k]! s[j]! := by
    rw [Finset.sum_eq_single k]
    · simp
    · intro i _ hne; simp [hne]
    · intro h; exact absurd (Finset.mem_range.mpr hk) h
  have e4 : ∑ i ∈ Finset.range s.length, ∑ j ∈ Finset.Ico (i + 1) s.length,
      (if j = k then pairTerm soft s[i]! s[j]! else 0) = ∑ i ∈ Finset.range k, pairTerm soft s[k]! s[i]! := by
    have : ∀ i ∈ Finset.range s.length, ∑ j ∈ Finset.Ico (i + 1) s.length,
        (if j = k then pairTerm soft s[i]! s[j]! else 0) = if i < k then pairTerm soft s[k]! s[i]! else 0 := by
      intro i _
      rw [Finset.sum_ite_eq' (Finset.Ico (i + 1) s.length) k (fun j => pairTerm soft s[i]! s[j]!)]
      simp only [Finset.mem_Ico]
      by_cases h : i < k
      · rw [if_pos ⟨by omega, hk⟩, if_pos h, pairTerm_comm]
      · rw [if_neg (by omega), if_neg h]
    rw [Finset.sum_congr rfl this, ← Finset.sum_filter]
    congr 1
    ext i; simp only [Finset.mem_filter, Finset.mem_range]; omega
  rw [e3, e4]
  have hsplit : (Finset.range s.length).erase k = Finset.range k ∪ Finset.Ico (k + 1) s.length := by
    ext j; simp only [Finset.mem_erase, Finset.mem_range, Finset.mem_union, Finset.mem_Ico]; omega
  rw [hsplit, Finset.sum_union, add_comm]
  rw [Finset.disjoint_left]
  intro j h1 h2
  simp only [Finset.mem_range, Finset.mem_Ico] at h1 h2
  omega

theorem potentialFull_length (soft : ℝ) (s : List P4) : (potentialFull soft s).length = s.length := by
  unfold potentialFull
  rw [foldl_rows]
  have : ∀ (l : List (ℕ × NanR)) (pot : List NanR), (l.foldl addAt pot).length = pot.length := by
    intro l
    induction l with
    | nil => simp
    | cons u l ih => intro pot; rw [List.foldl_cons, ih, addAt, List.length_modify]
  rw [this, List.length_replicate]

theorem potentialSubset_get (soft : ℝ) (sub full : List P4) (k : ℕ) (hk : k < sub.length) :
    (potentialSubset soft sub full)[k]? = some ((∑ j ∈ Finset.range full.length,
      if distance sub[k]! full[j]! ≠ 0 then
        -(sub[k]!.m * full[j]!.m) / Real.sqrt (distance sub[k]! full[j]! ^ 2 + soft ^ 2) else 0 : ℝ) : NanR) := by
  unfold potentialSubset
  rw [foldl_rows, foldl_addAt, List.getElem?_replicate, if_pos hk, sum_flatMap, sum_nan_range]
  simp only [Option.map_some, WithTop.coe_zero, zero_add]
  congr 1
  have row : ∀ i, ((subsetUpdates soft sub full i).map (fun u => if u.1 = k then u.2 else 0)).sum =
      if i = k then ((∑ j ∈ Finset.range full.length,
        if distance sub[k]! full[j]! ≠ 0 then
        -(sub[k]!.m * full[j]!.m) / Real.sqrt (distance sub[k]! full[j]! ^ 2 + soft ^ 2) else 0 : ℝ) : NanR) else 0 := by
    intro i
    unfold subsetUpdates
    rw [sum_flatMap, sum_nan_range]
    by_cases h : i = k
    · subst h
      rw [if_pos rfl, WithTop.coe_sum]
      refine Finset.sum_congr rfl fun j _ => ?_
      split <;> simp
    · rw [if_neg h]
      refine Finset.sum_eq_zero fun j _ => ?_
      split <;> simp [h]
  simp only [row]
  rw [Finset.sum_ite_eq' (Finset.range sub.length) k, if_pos (Finset.mem_range.mpr hk)]

theorem potentialSubset_length (soft : ℝ) (sub full : List P4) : (potentialSubset soft sub full).length = sub.length := by
  unfold potentialSubset
  rw [foldl_rows]
  have : ∀ (l : List (ℕ × NanR)) (pot : List NanR), (l.foldl addAt pot).length = pot.length := by
    intro l
    induction l with
    | nil => simp
    | cons u l ih => intro pot; rw [List.foldl_cons, ih, addAt, List.length_modify]
  rw [this, List.length_replicate]

/-! ### schedules -/

/-- Every worker only touches its own entry. -/
def Machine.owned (M : Machine) : Prop := ∀ t, ∀ u ∈ (M.w t).todo, u.1 = t

/-- Registers hold the current value. -/
def Machine.sync (M : Machine) : Prop := ∀ t r, (M.w t).reg = some r → r = M.mem t

def Machine.target (M : Machine) (t : ℕ) : NanR := M.mem t + ((M.w t).todo.map Prod.snd).sum

theorem step_inv {M : Machine} (h : M.owned) (h2 : M.sync) (t : ℕ) :
    (M.step t).owned ∧ (M.step t).sync ∧ ∀ k, (M.step t).target k = M.target k := by
  unfold Machine.step
  split
  · exact ⟨h, h2, fun _ => rfl⟩
  · rename_i k v rest hw
    have hk : k = t := by have := h t (k, v) (by rw [hw]; simp); exact this
    subst hk
    split
    · rename_i hr
      refine ⟨?_, ?_, ?_⟩
      · intro t' u hu
        by_cases e : t' = k
        · subst e; simp only [Function.update_self] at hu; exact h t' u (by rw [hw]; exact hu)
        · rw [show ({ M with w := Function.update M.w k ⟨(k, v) :: rest, some (M.mem k)⟩ } : Machine).w t' = M.w t' from
            Function.update_of_ne e _ _] at hu
          exact h t' u hu
      · intro t' r hr'
        by_cases e : t' = k
        · subst e; simp only [Function.update_self, Option.some.injEq] at hr'; exact hr'.symm
        · simp only [Function.update_of_ne e] at hr'; exact h2 t' r hr'
      · intro t'
        unfold Machine.target
        by_cases e : t' = k
        · subst e; simp only [Function.update_self, hw]
        · simp only [Function.update_of_ne e]
    · rename_i r hr
      have hrm : r = M.mem k := h2 k r hr
      refine ⟨?_, ?_, ?_⟩
      · intro t' u hu
        by_cases e : t' = k
        · subst e; simp only [Function.update_self] at hu; exact h t' u (by rw [hw]; simp [hu])
        · simp only [Function.update_of_ne e] at hu; exact h t' u hu
      · intro t' r' hr'
        by_cases e : t' = k
        · subst e; simp only [Function.update_self] at hr'; cases hr'
        · simp only [Function.update_of_ne e] at hr' ⊢; exact h2 t' r' hr'
      · intro t'
        unfold Machine.target
        by_cases e : t' = k
        · subst e
          simp only [Function.update_self, hw, List.map_cons, List.sum_cons, hrm, add_assoc]
        · simp only [Function.update_of_ne e]

theorem run_inv {M : Machine} (h : M.owned) (h2 : M.sync) (sched : List ℕ) :
    (M.run sched).owned ∧ (M.run sched).sync ∧ ∀ k, (M.run sched).target k = M.target k := by
  unfold Machine.run
  induction sched generalizing M with
  | nil => exact ⟨h, h2, fun _ => rfl⟩
  | cons t sched ih =>
    obtain ⟨a, b, c⟩ := step_inv h h2 t
    obtain ⟨a', b', c'⟩ := ih a b
    exact ⟨a', b', fun k => (c' k).trans (c k)⟩

end

end CT
