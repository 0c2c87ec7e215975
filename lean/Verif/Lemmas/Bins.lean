import Verif.Model.Recipes
import Verif.Spec.Bins
import Verif.Lemmas.Analyze
import Verif.Lemmas.Order
import Verif.Lemmas.Pairs
import Mathlib.Tactic.Linarith
import Mathlib.Tactic.FieldSimp
import Mathlib.Tactic.Push

namespace CT

noncomputable section

theorem Contig.lt {a b : ℝ} {P} (h : Contig a b P) : a < b := by
  induction h with
  | one h => exact h
  | cons h _ ih => exact h.trans ih

theorem Contig.ne {a b : ℝ} {P} (h : Contig a b P) : P ≠ [] := by
  cases h <;> simp

theorem Contig.ends {a b : ℝ} {P} (h : Contig a b P) {i : ℕ} {lo hi : ℝ} (hi' : P[i]? = some (lo, hi)) :
    a ≤ lo ∧ lo < hi ∧ hi ≤ b ∧ (i + 1 = P.length → hi = b) ∧ (0 < i → a < lo) ∧ (i = 0 → lo = a) := by
  induction h generalizing i with
  | one h =>
    cases i with
    | zero => simp at hi'; obtain ⟨rfl, rfl⟩ := hi'; exact ⟨le_rfl, h, le_rfl, fun _ => rfl, by simp, by simp⟩
    | succ i => simp at hi'
  | @cons a b c P h hP ih =>
    cases i with
    | zero =>
      simp at hi'; obtain ⟨rfl, rfl⟩ := hi'
      refine ⟨le_rfl, h, hP.lt.le, ?_, by simp, by simp⟩
      intro h2; simp at h2; exact absurd h2 hP.ne
    | succ i =>
      simp at hi'
      obtain ⟨h1, h2, h3, h4, h5, h6⟩ := ih hi'
      exact ⟨h.le.trans h1, h2, h3, fun e => h4 (by simpa using e), fun _ => h.trans_le h1, by simp⟩

theorem ssr_cons (u : ℝ) (l : List ℝ) (v : ℝ) :
    searchsortedRight (u :: l) v = if u ≤ v then searchsortedRight l v + 1 else 0 := by
  unfold searchsortedRight
  by_cases h : u ≤ v <;> simp [h]

/-- Search within contiguous bins. -/
theorem Contig.ssr {a b : ℝ} {P} (h : Contig a b P) (v : ℝ) :
    (v < b → ∃ lo hi, P[searchsortedRight (P.map Prod.snd) v]? = some (lo, hi) ∧ v < hi ∧ (a ≤ v → lo ≤ v)) ∧
    (b ≤ v → searchsortedRight (P.map Prod.snd) v = P.length) ∧
    (v < a → searchsortedRight (P.map Prod.snd) v = 0) := by
  induction h with
  | @one a b h =>
    refine ⟨?_, ?_, ?_⟩
    · intro hv
      refine ⟨a, b, ?_, hv, id⟩
      simp [ssr_cons, not_le.mpr hv]
    · intro hv; simp [ssr_cons, hv, searchsortedRight]
    · intro hv; simp [ssr_cons, not_le.mpr (hv.trans h)]
  | @cons a b c P h hP ih =>
    obtain ⟨i1, i2, i3⟩ := ih
    simp only [List.map_cons, ssr_cons]
    refine ⟨?_, ?_, ?_⟩
    · intro hv
      by_cases hb : b ≤ v
      · obtain ⟨lo, hi, e, h1, h2⟩ := i1 hv
        refine ⟨lo, hi, ?_, h1, fun _ => h2 hb⟩
        simp [hb, e]
      · refine ⟨a, b, ?_, not_le.mp hb, id⟩
        simp [hb]
    · intro hv
      simp [hP.lt.le.trans hv, i2 hv]
    · intro hv; simp [not_le.mpr (hv.trans h)]

theorem Contig.inBin_unique {a b : ℝ} {P} (h : Contig a b P) {v : ℝ} {i j : ℕ} (hi : InBin P i v)
    (hj : InBin P j v) : i = j := by
  induction h generalizing i j with
  | one h =>
    obtain ⟨_, _, e1, _⟩ := hi
    obtain ⟨_, _, e2, _⟩ := hj
    cases i <;> cases j <;> simp_all
  | @cons a b c P h hP ih =>
    have shift : ∀ {k}, InBin ((a, b) :: P) (k + 1) v → InBin P k v ∧ b ≤ v := by
      intro k hk
      obtain ⟨lo, hi, e, h1, h2⟩ := hk
      simp at e
      refine ⟨⟨lo, hi, e, h1, ?_⟩, (hP.ends e).1.trans h1⟩
      rcases h2 with h2 | ⟨h2, h3⟩
      · exact Or.inl h2
      · exact Or.inr ⟨by simpa using h2, h3⟩
    have zero : InBin ((a, b) :: P) 0 v → v < b := by
      rintro ⟨lo, hi, e, h1, h2⟩
      simp at e
      obtain ⟨rfl, rfl⟩ := e
      rcases h2 with h2 | ⟨h2, h3⟩
      · exact h2
      · simp at h2; exact absurd h2 hP.ne
    cases i with
    | zero =>
      cases j with
      | zero => rfl
      | succ j => exact absurd (zero hi) (not_lt.mpr (shift hj).2)
    | succ i =>
      cases j with
      | zero => exact absurd (zero hj) (not_lt.mpr (shift hi).2)
      | succ j => rw [ih (shift hi).1 (shift hj).1]

/-- Index of one value, and its bin. -/
theorem Contig.index {a b : ℝ} {P} (h : Contig a b P) (v : ℝ) (hv : a ≤ v ∧ v ≤ b) :
    ∃ i : ℕ, min (searchsortedRight (P.map Prod.snd) v : ℤ) (((P.map Prod.snd).length : ℤ) - 1) = i ∧
      InBin P i v := by
  obtain ⟨h1, h2, h3⟩ := h.ssr v
  have hpos : 0 < P.length := List.length_pos_iff.mpr h.ne
  rcases lt_or_eq_of_le hv.2 with hlt | rfl
  · obtain ⟨lo, hi, e, k1, k2⟩ := h1 hlt
    have hk : searchsortedRight (P.map Prod.snd) v < P.length := (List.getElem?_eq_some_iff.mp e).1
    refine ⟨searchsortedRight (P.map Prod.snd) v, ?_, lo, hi, e, k2 hv.1, Or.inl k1⟩
    rw [List.length_map]; omega
  · refine ⟨P.length - 1, ?_, ?_⟩
    · rw [h2 le_rfl, List.length_map]; omega
    · have hl : P.length - 1 < P.length := by omega
      have e : P[P.length - 1]? = some (P[P.length - 1].1, P[P.length - 1].2) := by
        rw [List.getElem?_eq_getElem hl]
      obtain ⟨a1, a2, a3, a4, -⟩ := h.ends e
      have := a4 (by omega)
      refine ⟨_, _, e, ?_, Or.inr ⟨by omega, this.symm⟩⟩
      rw [← this]; exact a2.le

/-- Dropping degenerate bins leaves contiguous bins. -/
theorem contig_filter (a : ℝ) (l : List ℝ) (M : ℝ) (hs : (a :: l ++ [M]).Pairwise (· ≤ ·)) (hne : a < M) :
    Contig a M ((List.zip (a :: l) (l ++ [M])).filter (fun p => decide (p.1 ≠ p.2))) ∧
      ∀ p ∈ (List.zip (a :: l) (l ++ [M])).filter (fun p => decide (p.1 ≠ p.2)), p.1 ∈ a :: l := by
  induction l generalizing a with
  | nil =>
    simp only [List.nil_append, List.zip_cons_cons, List.zip_nil_left]
    rw [List.filter_cons_of_pos (by simpa using hne.ne)]
    exact ⟨.one hne, by simp⟩
  | cons b l ih =>
    simp only [List.cons_append, List.zip_cons_cons]
    have hab : a ≤ b := by
      simp only [List.cons_append, List.pairwise_cons] at hs
      exact hs.1 b (by simp)
    have hs' : (b :: l ++ [M]).Pairwise (· ≤ ·) := by
      simp only [List.cons_append, List.pairwise_cons] at hs ⊢
      exact hs.2
    rcases eq_or_lt_of_le hab with rfl | hlt
    · rw [List.filter_cons_of_neg (by simp)]
      obtain ⟨i1, i2⟩ := ih a hs' hne
      exact ⟨i1, fun p hp => List.mem_cons_of_mem _ (i2 p hp)⟩
    · rw [List.filter_cons_of_pos (by simpa using hlt.ne)]
      have hbM : b ≤ M := by
        simp only [List.cons_append, List.pairwise_cons] at hs'
        exact hs'.1 M (by simp)
      rcases eq_or_lt_of_le hbM with rfl | hbM
      · -- everything after is degenerate
        have hall : ∀ x ∈ l, x = b := by
          intro x hx
          simp only [List.cons_append, List.pairwise_cons] at hs'
          refine le_antisymm ?_ (hs'.1 x (by simp [hx]))
          have := List.pairwise_append.mp hs'.2
          exact this.2.2 x hx b (by simp)
        have hnil : (List.zip (b :: l) (l ++ [b])).filter (fun p => decide (p.1 ≠ p.2)) = [] := by
          rw [List.filter_eq_nil_iff]
          intro p hp
          have h1 := List.of_mem_zip hp
          have e1 : p.1 = b := by
            rcases List.mem_cons.mp h1.1 with h | h
            · exact h
            · exact hall _ h
          have e2 : p.2 = b := by
            rcases List.mem_append.mp h1.2 with h | h
            · exact hall _ h
            · simpa using h
          simp [e1, e2]
        rw [hnil]
        exact ⟨.one hlt, by simp⟩
      · obtain ⟨i1, i2⟩ := ih b hs' hbM
        refine ⟨.cons hlt i1, ?_⟩
        intro p hp
        rcases List.mem_cons.mp hp with rfl | hp
        · simp
        · exact List.mem_cons_of_mem _ (i2 p hp)

/-- What the index of every value must satisfy. -/
def Indexed (P : List (ℝ × ℝ)) (x : List ℝ) (idx : List ℤ) : Prop :=
  List.Forall₂ (fun v (k : ℤ) => ∃ i : ℕ, k = i ∧ InBin P i v) x idx

theorem Contig.indexed {a b : ℝ} {P} (h : Contig a b P) {x lower : List ℝ} (hx : ∀ v ∈ x, a ≤ v ∧ v ≤ b) :
    Indexed P x (binIndex x lower (P.map Prod.snd)) := by
  unfold binIndex Indexed
  rw [List.forall₂_map_right_iff, List.forall₂_same]
  intro v hv
  obtain ⟨i, e, q⟩ := h.index v (hx v hv)
  exact ⟨i, e, q⟩

theorem indexed_select {a b : ℝ} {P} (h : Contig a b P) {x : List ℝ} {idx : List ℤ} (hi : Indexed P x idx)
    {α : Type} (w : List α) (hw : w.length = x.length) (k : ℕ) :
    ((List.zip idx w).filter (fun p => decide (p.1 = (k : ℤ)))).map Prod.snd =
      (open Classical in ((List.zip x w).filter (fun p => decide (InBin P k p.1))).map Prod.snd) := by
  induction hi generalizing w with
  | nil => simp
  | @cons v k' x idx hv _ ih =>
    cases w with
    | nil => simp
    | cons c w =>
      simp only [List.zip_cons_cons]
      obtain ⟨i, rfl, hb⟩ := hv
      by_cases hk : i = k
      · subst hk
        rw [List.filter_cons_of_pos (by simp), List.filter_cons_of_pos (by simp [hb]), List.map_cons, List.map_cons,
          ih w (by simpa using hw)]
      · have : ¬ InBin P k v := fun h' => hk (h.inBin_unique hb h')
        rw [List.filter_cons_of_neg (by simp; omega), List.filter_cons_of_neg (by simp [this]), ih w (by simpa using hw)]

theorem sum_ite_filter {α : Type} (l : List α) (q : α → Bool) (f : α → ℝ) :
    (l.map (fun p => if q p then f p else 0)).sum = ((l.filter q).map f).sum := by
  induction l with
  | nil => simp
  | cons a l ih => by_cases h : q a <;> simp [h, ih]

theorem zip_self_map {α β : Type} (l : List α) (f : α → β) : List.zip l (l.map f) = l.map (fun a => (a, f a)) := by
  induction l with
  | nil => rfl
  | cons a l ih => simp [ih]

/-- `bincount` of the bin indices sums the weights bin by bin. -/
theorem bincount_indexed {a b : ℝ} {P} (h : Contig a b P) {x : List ℝ} {idx : List ℤ} (hi : Indexed P x idx)
    (f : ℝ → ℝ) (n : ℕ) :
    bincount idx (x.map f) n = .ok ((List.range n).map (fun k => ((inBin P x k).map f).sum)) := by
  unfold bincount
  rw [if_neg]
  · congr 1
    apply List.map_congr_left
    intro k _
    have e := indexed_select h hi (x.map f) (by simp) k
    have := sum_ite_filter (List.zip idx (x.map f)) (fun p => decide (p.1 = (k : ℤ))) Prod.snd
    simp only [decide_eq_true_eq] at this
    rw [this, e, zip_self_map, List.filter_map, List.map_map]
    rfl
  · simp only [List.any_eq_true, decide_eq_true_eq, not_exists, not_and, not_lt]
    intro k hk
    have : ∀ k ∈ idx, 0 ≤ k := by
      clear hk
      induction hi with
      | nil => simp
      | cons hv _ ih =>
        obtain ⟨i, rfl, -⟩ := hv
        intro k hk
        rcases List.mem_cons.mp hk with rfl | hk
        · positivity
        · exact ih k hk
    exact this k hk

theorem sum_single {n i : ℕ} (hi : i < n) (c : ℝ) :
    ((List.range n).map (fun k => if k = i then c else 0)).sum = c := by
  rw [sum_list_range]
  rw [Finset.sum_ite_eq' (Finset.range n) i (fun _ => c)]
  simp [hi]

open Classical in
/-- Every value lies in exactly one bin, so bin sums add up to the total. -/
theorem Contig.sum_inBin {a b : ℝ} {P} (h : Contig a b P) (x : List ℝ) (hx : ∀ v ∈ x, a ≤ v ∧ v ≤ b)
    (f : ℝ → ℝ) :
    ((List.range P.length).map (fun k => ((inBin P x k).map f).sum)).sum = (x.map f).sum := by
  induction x with
  | nil => simp [inBin]
  | cons v x ih =>
    obtain ⟨i, -, hb⟩ := h.index v (hx v (by simp))
    have hil : i < P.length := by
      obtain ⟨_, _, e, _⟩ := hb
      exact (List.getElem?_eq_some_iff.mp e).1
    have e : ∀ k, ((inBin P (v :: x) k).map f).sum = (if k = i then f v else 0) + ((inBin P x k).map f).sum := by
      intro k
      unfold inBin
      by_cases hk : k = i
      · subst hk; rw [List.filter_cons_of_pos (by simp [hb])]; simp
      · have : ¬ InBin P k v := fun h' => hk (h.inBin_unique h' hb)
        rw [List.filter_cons_of_neg (by simp [this])]; simp [hk]
    simp only [e, List.sum_map_add, List.map_cons, List.sum_cons]
    rw [ih (fun v hv => hx v (by simp [hv])), sum_single hil]

theorem map_one_sum {α : Type} (l : List α) : (l.map (fun _ => (1 : ℝ))).sum = l.length := by
  induction l with
  | nil => simp
  | cons a l ih => simp [ih, add_comm]

/-- Consecutive intervals of a strictly increasing sequence are contiguous. -/
theorem contig_range (f : ℕ → ℝ) (n : ℕ) (hf : ∀ i, i < n + 1 → f i < f (i + 1)) :
    Contig (f 0) (f (n + 1)) ((List.range (n + 1)).map (fun i => (f i, f (i + 1)))) := by
  induction n generalizing f with
  | zero => simp; exact .one (hf 0 (by omega))
  | succ n ih =>
    rw [List.range_succ_eq_map, List.map_cons, List.map_map]
    exact .cons (hf 0 (by omega)) (ih (fun i => f (i + 1)) (fun i hi => hf (i + 1) (by omega)))

end

end CT
