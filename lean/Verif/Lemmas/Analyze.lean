import Verif.Lemmas.Origin
import Verif.Spec.Valid
import Mathlib.Algebra.BigOperators.Group.List.Basic
import Mathlib.Algebra.Order.BigOperators.Group.List
import Mathlib.Tactic.Linarith

namespace CT

noncomputable section

set_option linter.unusedSimpArgs false

/-! ### cumulative sums -/

theorem cumsumFrom_length (a : ℝ) (l : List ℝ) : (cumsumFrom a l).length = l.length := by
  induction l generalizing a with
  | nil => rfl
  | cons x l ih => simp [cumsumFrom, ih]

theorem cumsumFrom_getElem (a : ℝ) (l : List ℝ) (k : ℕ) (h : k < (cumsumFrom a l).length) :
    (cumsumFrom a l)[k] = a + (l.take (k + 1)).sum := by
  induction l generalizing a k with
  | nil => simp [cumsumFrom] at h
  | cons x l ih =>
    cases k with
    | zero => simp [cumsumFrom]
    | succ k =>
      simp only [cumsumFrom, List.getElem_cons_succ, List.take_succ_cons, List.sum_cons]
      rw [ih]; ring

theorem cumsum_length (l : List ℝ) : (cumsum l).length = l.length := cumsumFrom_length 0 l

theorem cumsum_getElem (l : List ℝ) (k : ℕ) (h : k < (cumsum l).length) :
    (cumsum l)[k] = (l.take (k + 1)).sum := by
  exact (cumsumFrom_getElem 0 l k h).trans (zero_add _)

/-! ### permutations of indices -/

theorem IsOrder.length {n : ℕ} {o : List ℕ} (h : IsOrder n o) : o.length = n := by
  simpa using h.length_eq

theorem IsOrder.lt {n : ℕ} {o : List ℕ} (h : IsOrder n o) {i : ℕ} (hi : i ∈ o) : i < n := by
  simpa using h.mem_iff.mp hi

theorem map_getD_range (l : List ℝ) : (List.range l.length).map (fun i => l.getD i 0) = l := by
  apply List.ext_getElem
  · simp
  · intro i h1 h2
    simp [List.getD_eq_getElem?_getD, h2]

theorem IsOrder.map_perm {l : List ℝ} {o : List ℕ} (h : IsOrder l.length o) :
    (o.map (fun i => l.getD i 0)).Perm l := by
  have := List.Perm.map (fun i => l.getD i 0) h
  rwa [map_getD_range] at this

theorem mapM_getElem? {l : List ℝ} {o : List ℕ} (h : ∀ i ∈ o, i < l.length) :
    o.mapM (fun i => l[i]?) = some (o.map (fun i => l.getD i 0)) := by
  induction o with
  | nil => rfl
  | cons i o ih =>
    have hi : i < l.length := h i (by simp)
    have ih' := ih (fun j hj => h j (by simp [hj]))
    rw [List.mapM_cons, ih']
    simp [hi]

/-- What the mass-fraction radius computation of `analyze` finds. -/
theorem massFracRadius_spec {f : ℝ} {m r : List ℝ} {o : List ℕ} (ho : IsOrder m.length o)
    (hr : r.length = m.length) (hn : m ≠ []) (h0 : 0 ≤ m.sum) (hf : f ≤ 1) :
    ∃ k, ∃ hk : k < o.length, massFracRadius f m.sum m r o = .ok (r.getD o[k] 0) ∧
      f * m.sum ≤ ((o.take (k + 1)).map (fun i => m.getD i 0)).sum ∧
      ∀ j < k, ((o.take (j + 1)).map (fun i => m.getD i 0)).sum < f * m.sum := by
  have hm := mapM_getElem? (l := m) (o := o) (fun i hi => ho.lt hi)
  set ms := o.map (fun i => m.getD i 0) with hms
  have hlen : (cumsum ms).length = o.length := by rw [cumsum_length]; simp [hms]
  have hsum : ms.sum = m.sum := ho.map_perm.sum_eq
  have hol := ho.length
  have hpos : 0 < m.length := List.length_pos_iff.mpr hn
  have hlast : f * m.sum ≤ (cumsum ms)[o.length - 1]'(by omega) := by
    rw [cumsum_getElem]
    rw [List.take_of_length_le (by simp [hms]; omega), hsum]
    nlinarith
  unfold massFracRadius
  rw [hm]
  simp only
  cases hfi : (cumsum ms).findIdx? (fun s => decide (s ≥ f * m.sum)) with
  | none =>
    exfalso
    rw [List.findIdx?_eq_none_iff] at hfi
    have := hfi _ (List.getElem_mem (by omega : o.length - 1 < (cumsum ms).length))
    simp at this
    linarith
  | some k =>
    rw [List.findIdx?_eq_some_iff_getElem] at hfi
    obtain ⟨hk, h1, h2⟩ := hfi
    have hko : k < o.length := by omega
    have hik : o[k] < r.length := by rw [hr]; exact ho.lt (List.getElem_mem hko)
    refine ⟨k, hko, ?_, ?_, ?_⟩
    · simp [hko, hik]
    · simp only [ge_iff_le, decide_eq_true_eq] at h1
      rw [cumsum_getElem] at h1
      simpa [hms, List.map_take] using h1
    · intro j hj
      have := h2 j hj
      simp only [ge_iff_le, decide_eq_true_eq, not_le] at this
      rw [cumsum_getElem] at this
      simpa [hms, List.map_take] using this

/-! ### argsort -/

theorem argsort_perm (r : List ℝ) : IsOrder r.length (argsort r) := List.mergeSort_perm _ _

theorem argsort_sorted (r : List ℝ) :
    (argsort r).Pairwise (fun i j => r.getD i 0 ≤ r.getD j 0) := by
  have := List.pairwise_mergeSort (le := fun i j => decide (r.getD i 0 ≤ r.getD j 0))
    (fun a b c h1 h2 => by simp at *; linarith) (fun a b => by simp; exact le_total _ _)
    (List.range r.length)
  unfold argsort
  simpa using this

/-! ### totality of analyze -/

theorem sortstars_good {p : Bool} {r rp : List ℝ} {c : Cluster} (g : Good c) (h1 : r.length = c.st.length)
    (h2 : rp.length = c.st.length) : Good (sortstars p r rp c) := by
  have ha : IsOrder c.st.length (argsort r) := h1 ▸ argsort_perm r
  have hb : IsOrder c.st.length (argsort rp) := h2 ▸ argsort_perm rp
  have hcore := sortstars_core p r rp c
  obtain ⟨k1, k2, k3, k4, k5, -⟩ := core_fields hcore
  refine ⟨by rw [k5]; exact g.ne, by rw [k4, k5]; exact g.len, by rw [k4]; exact g.mass, ?_, ?_⟩
  · intro o ho
    rw [k5]
    have hro := g.ro
    clear hcore k1 k2 k3 k4 k5
    unfold sortstars at ho
    dsimp only at ho
    repeat' split at ho
    all_goals first
      | (simp only [Option.some.injEq] at ho; subst ho; exact ha)
      | exact hro _ ho
      | (simp_all)
  · intro o ho
    rw [k5]
    have hro := g.rpo
    clear hcore k1 k2 k3 k4 k5
    unfold sortstars at ho
    dsimp only at ho
    repeat' split at ho
    all_goals first
      | (simp only [Option.some.injEq] at ho; subst ho; exact hb)
      | exact hro _ ho
      | (simp_all)

theorem massRadii_total {o : Option (List ℕ)} {m r : List ℝ} {old : Option ℝ × Option ℝ}
    (ho : ∀ x, o = some x → IsOrder m.length x) (hr : r.length = m.length) (hn : m ≠ []) (h0 : 0 ≤ m.sum) :
    ∃ x, massRadii o m.sum m r old = .ok x := by
  cases o with
  | none => exact ⟨_, rfl⟩
  | some x =>
    obtain ⟨k, hk, e, -⟩ := massFracRadius_spec (f := 0.5) (ho x rfl) hr hn h0 (by norm_num)
    obtain ⟨k', hk', e', -⟩ := massFracRadius_spec (f := 0.1) (ho x rfl) hr hn h0 (by norm_num)
    simp only [massRadii, e, e', bind, Except.bind, pure, Except.pure]
    exact ⟨_, rfl⟩

theorem analyze_total {s p : Bool} {c : Cluster} (g : Good c) :
    ∃ c', analyze s c p = .ok c' ∧ Good c' := by
  set c1 := if s then sortstars p (c.st.map Ph.r) (c.st.map Ph.rpro) c else c with hc1
  have g1 : Good c1 := by
    rw [hc1]; split
    · exact sortstars_good g (by simp) (by simp)
    · exact g
  have hcore : c1.core = c.core := by
    rw [hc1]; split
    · exact sortstars_core ..
    · rfl
  obtain ⟨k1, k2, k3, k4, k5, -⟩ := core_fields hcore
  have hmn : c.m ≠ [] := by
    intro h; have := g.len; rw [h] at this
    exact g.ne (List.length_eq_zero_iff.mp this.symm)
  obtain ⟨x, hx⟩ := massRadii_total (o := c1.rorder) (m := c.m) (r := c.st.map Ph.r) (old := (c.d.rm, c.d.r10))
    (fun o ho => by have := g1.ro o ho; rwa [k5, ← g.len] at this) (by simp [g.len]) hmn g.mass
  obtain ⟨y, hy⟩ := massRadii_total (o := c1.rproorder) (m := c.m) (r := c.st.map Ph.rpro)
    (old := (c.d.rmpro, c.d.r10pro))
    (fun o ho => by have := g1.rpo o ho; rwa [k5, ← g.len] at this) (by simp [g.len]) hmn g.mass
  unfold analyze
  simp only [g.ne, if_false, ← hc1, hx, hy, bind, Except.bind, pure, Except.pure]
  refine ⟨_, rfl, ?_⟩
  exact ⟨g1.ne, g1.len, g1.mass, g1.ro, g1.rpo⟩

end

end CT
