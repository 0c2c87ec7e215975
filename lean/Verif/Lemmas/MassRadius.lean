import Verif.Lemmas.Order2

namespace CT

noncomputable section

open Classical in
theorem massWhere_order {P : ℝ → Prop} {m r : List ℝ} {o : List ℕ} (hl : r.length = m.length)
    (ho : IsOrder m.length o) :
    massWhere P m r = (o.map (fun i => if P (r.getD i 0) then m.getD i 0 else 0)).sum := by
  have hz : (List.zip m r).map (fun x => if P x.2 then x.1 else 0) =
      (List.range m.length).map (fun i => if P (r.getD i 0) then m.getD i 0 else 0) := by
    apply List.ext_getElem
    · simp [hl]
    · intro i h1 h2
      simp at h1 h2
      simp [h1, h2]
  unfold massWhere
  rw [hz]
  exact ((ho.map _).sum_eq).symm

open Classical in
/-- With a sorted order, the element found by the cumulative-mass search is the mass-fraction radius. -/
theorem massFrac_isMassRadius {f : ℝ} {m r : List ℝ} {o : List ℕ} (hs : SortedBy r o)
    (hr : r.length = m.length) (hm : ∀ x ∈ m, 0 ≤ x) {k : ℕ} (hk : k < o.length)
    (h1 : f * m.sum ≤ ((o.take (k + 1)).map (fun i => m.getD i 0)).sum)
    (h2 : ∀ j < k, ((o.take (j + 1)).map (fun i => m.getD i 0)).sum < f * m.sum) :
    IsMassRadius f m r (r.getD o[k] 0) := by
  have ho : IsOrder m.length o := hr ▸ hs.1
  have hm0 : ∀ i, 0 ≤ m.getD i 0 := by
    intro i
    rcases Nat.lt_or_ge i m.length with h | h
    · rw [List.getD_eq_getElem?_getD, List.getElem?_eq_getElem h]; exact hm _ (List.getElem_mem h)
    · rw [List.getD_eq_getElem?_getD, List.getElem?_eq_none h]; simp
  have hpw := List.pairwise_iff_getElem.mp hs.2
  have hik : o[k] < r.length := hs.1.lt (List.getElem_mem hk)
  refine ⟨?_, ?_, ?_⟩
  · rw [List.getD_eq_getElem?_getD, List.getElem?_eq_getElem hik]; exact List.getElem_mem hik
  · refine h1.trans ?_
    rw [massWhere_order hr ho]
    have split_sum : ∀ F : ℕ → ℝ, (o.map F).sum = ((o.take (k + 1)).map F).sum + ((o.drop (k + 1)).map F).sum := by
      intro F
      rw [← List.sum_append, ← List.map_append, List.take_append_drop]
    rw [split_sum]
    have e1 : (o.take (k + 1)).map (fun i => if r.getD i 0 ≤ r.getD o[k] 0 then m.getD i 0 else 0) =
        (o.take (k + 1)).map (fun i => m.getD i 0) := by
      apply List.map_congr_left
      intro i hi
      obtain ⟨j, hj, rfl⟩ := List.mem_iff_getElem.mp hi
      simp only [List.length_take] at hj
      rw [List.getElem_take, if_pos]
      rcases Nat.lt_or_ge j k with h | h
      · exact hpw j k (by omega) hk h
      · have : j = k := by omega
        subst this; exact le_refl _
    rw [e1]
    have : 0 ≤ ((o.drop (k + 1)).map (fun i => if r.getD i 0 ≤ r.getD o[k] 0 then m.getD i 0 else 0)).sum := by
      apply List.sum_nonneg
      intro x hx
      obtain ⟨i, -, rfl⟩ := List.mem_map.mp hx
      split
      · exact hm0 i
      · exact le_refl _
    linarith
  · intro x hx hlt
    rw [massWhere_order hr ho]
    cases k with
    | zero =>
      exfalso
      obtain ⟨i, hi, rfl⟩ := List.mem_iff_getElem.mp hx
      have hio : i ∈ o := hs.1.mem_iff.mpr (by simpa using hi)
      obtain ⟨j, hj, rfl⟩ := List.mem_iff_getElem.mp hio
      have : r.getD o[0] 0 ≤ r.getD o[j] 0 := by
        rcases Nat.eq_zero_or_pos j with h | h
        · subst h; exact le_refl _
        · exact hpw 0 j hk hj h
      have e : r.getD o[j] 0 = r[o[j]] := by
        rw [List.getD_eq_getElem?_getD, List.getElem?_eq_getElem hi]; rfl
      rw [e] at this
      linarith
    | succ k =>
      refine lt_of_le_of_lt ?_ (h2 k (by omega))
      conv_lhs => rw [← List.take_append_drop (k + 1) o, List.map_append, List.sum_append]
      have e2 : (o.drop (k + 1)).map (fun i => if r.getD i 0 ≤ x then m.getD i 0 else 0) =
          (o.drop (k + 1)).map (fun _ => (0:ℝ)) := by
        apply List.map_congr_left
        intro i hi
        obtain ⟨j, hj, rfl⟩ := List.mem_iff_getElem.mp hi
        simp only [List.length_drop] at hj
        rw [List.getElem_drop, if_neg]
        rw [not_le]
        refine lt_of_lt_of_le hlt ?_
        rcases Nat.eq_zero_or_pos j with h | h
        · subst h; exact le_refl _
        · exact hpw (k + 1) (k + 1 + j) hk (by omega) (by omega)
      have e3 : ((o.drop (k + 1)).map (fun _ => (0:ℝ))).sum = 0 := by simp
      rw [e2, e3, add_zero]
      apply List.sum_le_sum
      intro i hi
      split
      · exact le_refl _
      · exact hm0 i

open Classical in
theorem IsMassRadius.mono {f f' ρ ρ' : ℝ} {m r : List ℝ} (h : IsMassRadius f m r ρ)
    (h' : IsMassRadius f' m r ρ') (hf : f * m.sum ≤ f' * m.sum) : ρ ≤ ρ' := by
  by_contra hc
  rw [not_le] at hc
  have := h.2.2 ρ' h'.1 hc
  have := h'.2.1
  linarith

theorem massFracRadius_isMassRadius {f : ℝ} {m r : List ℝ} {o : List ℕ} (hs : SortedBy r o)
    (hr : r.length = m.length) (hn : m ≠ []) (hm : ∀ x ∈ m, 0 ≤ x) (hf : f ≤ 1) :
    ∃ ρ, massFracRadius f m.sum m r o = .ok ρ ∧ IsMassRadius f m r ρ := by
  have ho : IsOrder m.length o := hr ▸ hs.1
  obtain ⟨k, hk, e, h1, h2⟩ := massFracRadius_spec (f := f) ho hr hn (List.sum_nonneg hm) hf
  exact ⟨_, e, massFrac_isMassRadius hs hr hm hk h1 h2⟩

/-- What `analyze` stores in `rm`, `r10`. -/
theorem analyze_rm {s p : Bool} {c c' : Cluster} {o : List ℕ} (h : analyze s c p = .ok c')
    (ho : c'.rorder = some o) : ∃ a b, c'.d.rm = some a ∧ c'.d.r10 = some b ∧
      massFracRadius 0.5 c.m.sum c.m (c.st.map Ph.r) o = .ok a ∧
      massFracRadius 0.1 c.m.sum c.m (c.st.map Ph.r) o = .ok b := by
  unfold analyze at h
  simp only [bind, Except.bind, pure, Except.pure] at h
  split at h
  · cases h
  · split at h
    · cases h
    · split at h
      · cases h
      · rename_i h1 _ _ h2
        injection h with h
        subst h
        simp only at ho
        rw [ho] at h1
        simp only [massRadii, bind, Except.bind, pure, Except.pure] at h1
        split at h1
        · cases h1
        · split at h1
          · cases h1
          · rename_i e1 _ _ e2
            injection h1 with h1
            subst h1
            exact ⟨_, _, rfl, rfl, e1, e2⟩

/-- What `analyze` stores in `rmpro`, `r10pro`. -/
theorem analyze_rmpro {s p : Bool} {c c' : Cluster} {o : List ℕ} (h : analyze s c p = .ok c')
    (ho : c'.rproorder = some o) : ∃ a b, c'.d.rmpro = some a ∧ c'.d.r10pro = some b ∧
      massFracRadius 0.5 c.m.sum c.m (c.st.map Ph.rpro) o = .ok a ∧
      massFracRadius 0.1 c.m.sum c.m (c.st.map Ph.rpro) o = .ok b := by
  unfold analyze at h
  simp only [bind, Except.bind, pure, Except.pure] at h
  split at h
  · cases h
  · split at h
    · cases h
    · split at h
      · cases h
      · rename_i h1 _ _ h2
        injection h with h
        subst h
        simp only at ho
        rw [ho] at h2
        simp only [massRadii, bind, Except.bind, pure, Except.pure] at h2
        split at h2
        · cases h2
        · split at h2
          · cases h2
          · rename_i e1 _ _ e2
            injection h2 with h2
            subst h2
            exact ⟨_, _, rfl, rfl, e1, e2⟩

end

end CT
