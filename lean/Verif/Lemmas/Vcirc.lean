/- Cumulated mass along a radial order. -/
import Verif.Lemmas.Profiles
import Verif.Lemmas.Analyze
import Verif.Model.Vcirc
import Verif.Spec.Vcirc

namespace CT

noncomputable section

set_option linter.unusedSimpArgs false

theorem maskSel_map {α β : Type} (w : List Bool) (l : List α) (f : α → β) : maskSel w (l.map f) = (maskSel w l).map f := by
  induction w generalizing l with
  | nil => simp [maskSel]
  | cons b w ih =>
    cases l with
    | nil => simp [maskSel]
    | cons a l =>
      have := ih l
      cases b <;> simp_all [maskSel]

theorem maskSel_sublist {α : Type} (w : List Bool) (l : List α) : (maskSel w l).Sublist l := by
  induction w generalizing l with
  | nil => simp [maskSel]
  | cons b w ih =>
    cases l with
    | nil => simp [maskSel]
    | cons a l =>
      have := ih l
      cases b
      · simpa [maskSel] using this.cons a
      · simpa [maskSel] using this.cons_cons a

theorem sumOver_list {n : ℕ} {S : ℕ → Prop} [DecidablePred S] {q : List ℕ} (hn : q.Nodup) (hq : ∀ i, i ∈ q ↔ i < n ∧ S i) (f : ℕ → ℝ) :
    sumOver n S f = (q.map f).sum := by
  classical
  unfold sumOver
  rw [← List.sum_toFinset _ hn]
  refine Finset.sum_congr ?_ fun _ _ => rfl
  ext i
  simp only [List.mem_toFinset, Finset.mem_filter, Finset.mem_range]
  exact (hq i).symm

/-- The stars used, in order of radius, and the mass cumulated along them. -/
theorem vcirc_core {r m : List ℝ} {o : List ℕ} {n : ℕ} (hs : SortedBy r o) (hr : r.length = n) (hm : m.length = n)
    {w : List Bool} (hw : w.length = n) {S : ℕ → Prop} (hal : ∀ k < n, w[k]! = true ↔ S o[k]!)
    (hd : ∀ i < n, ∀ j < n, S i → S j → r[i]! = r[j]! → i = j) :
    ∃ q : List ℕ, maskSel w (o.map (fun i => r.getD i 0)) = q.map (fun i => r[i]!) ∧
      maskSel w (o.map (fun i => m.getD i 0)) = q.map (fun i => m[i]!) ∧ (∀ i, i ∈ q ↔ i < n ∧ S i) ∧
      q.Pairwise (fun i j => r[i]! < r[j]!) ∧
      ∀ j < q.length, (cumsum (q.map (fun i => m[i]!)))[j]! = sumOver n (fun i => S i ∧ r[i]! ≤ r[q[j]!]!) (fun i => m[i]!) := by
  classical
  obtain ⟨hp, hso⟩ := hs
  rw [hr] at hp
  have hol : o.length = n := by rw [hp.length_eq, List.length_range]
  have hon : o.Nodup := hp.nodup_iff.mpr List.nodup_range
  have hom : ∀ i, i ∈ o ↔ i < n := fun i => by rw [hp.mem_iff, List.mem_range]
  have hget : ∀ (l : List ℝ), l.length = n → ∀ i ∈ o, l.getD i 0 = l[i]! := by
    intro l hl i hi
    have : i < l.length := by rw [hl]; exact (hom i).mp hi
    rw [getElem!_pos l i this, List.getD_eq_getElem?_getD, List.getElem?_eq_getElem this]; rfl
  have e1 : o.map (fun i => r.getD i 0) = o.map (fun i => r[i]!) := List.map_congr_left (hget r hr)
  have e2 : o.map (fun i => m.getD i 0) = o.map (fun i => m[i]!) := List.map_congr_left (hget m hm)
  have hsub := maskSel_sublist w o
  have hq : ∀ i, i ∈ maskSel w o ↔ i < n ∧ S i := by
    intro i
    rw [maskSel_eq w o (by omega), List.mem_map]
    simp only [List.mem_filter, List.mem_range, hol]
    constructor
    · rintro ⟨k, ⟨hk, hwk⟩, rfl⟩
      exact ⟨(hom _).mp (by rw [getElem!_pos o k (by omega)]; exact List.getElem_mem _), (hal k hk).mp hwk⟩
    · rintro ⟨hi, si⟩
      obtain ⟨k, hk, e⟩ := List.getElem_of_mem ((hom i).mpr hi)
      have e' : o[k]! = i := by rw [getElem!_pos o k hk, e]
      exact ⟨k, ⟨by omega, (hal k (by omega)).mpr (by rw [e']; exact si)⟩, e'⟩
  have hlt : (maskSel w o).Pairwise (fun i j => r[i]! < r[j]!) := by
    have h1 : o.Pairwise (fun i j => r[i]! ≤ r[j]! ∧ i ≠ j) := by
      refine List.Pairwise.and ?_ hon
      refine List.Pairwise.imp_of_mem ?_ hso
      intro i j hi hj h
      rw [hget r hr i hi, hget r hr j hj] at h
      exact h
    refine List.Pairwise.imp_of_mem ?_ (h1.sublist hsub)
    intro i j hi hj ⟨h2, h3⟩
    refine lt_of_le_of_ne h2 fun he => h3 ?_
    exact hd i ((hq i).mp hi).1 j ((hq j).mp hj).1 ((hq i).mp hi).2 ((hq j).mp hj).2 he
  refine ⟨maskSel w o, by rw [e1, maskSel_map], by rw [e2, maskSel_map], hq, hlt, ?_⟩
  intro j hj
  generalize maskSel w o = q at *
  rw [getElem!_pos (cumsum _) j (by rw [cumsum_length]; simpa using hj), cumsum_getElem, ← List.map_take]
  refine (sumOver_list (q := q.take (j + 1)) ((hon.sublist hsub).sublist (List.take_sublist _ _)) ?_ _).symm
  intro i
  have hp := List.pairwise_iff_getElem.mp hlt
  constructor
  · intro hi
    obtain ⟨k, hk, e⟩ := List.getElem_of_mem hi
    rw [List.length_take] at hk
    rw [List.getElem_take] at e
    have := (hq i).mp (by rw [← e]; exact List.getElem_mem _)
    refine ⟨this.1, this.2, ?_⟩
    rw [getElem!_pos q j hj, ← e]
    rcases Nat.lt_or_ge k j with h | h
    · exact (hp k j (by omega) hj h).le
    · have : k = j := by omega
      subst this; exact le_refl _
  · rintro ⟨hi, si, hle⟩
    obtain ⟨k, hk, e⟩ := List.getElem_of_mem ((hq i).mpr ⟨hi, si⟩)
    rw [getElem!_pos q j hj, ← e] at hle
    have hkj : k ≤ j := by
      by_contra hc
      exact absurd hle (not_le.mpr (hp j k hj hk (by omega)))
    rw [← e]
    rw [List.mem_iff_getElem]
    exact ⟨k, by rw [List.length_take]; omega, by rw [List.getElem_take]⟩

theorem argminE_spec {l : List ℝ} (h : l ≠ []) : ∃ j, argminE l = .ok j ∧ j < l.length ∧ ∀ x ∈ l, l[j]! ≤ x := by
  classical
  obtain ⟨h1, h2⟩ := minOf_spec h
  have hlt : l.findIdx (fun x => decide (x = minOf l)) < l.length := List.findIdx_lt_length_of_exists ⟨_, h1, by simp⟩
  refine ⟨_, if_neg h, ?_, ?_⟩
  · convert hlt
  · have e := List.findIdx_getElem (w := hlt)
    simp only [decide_eq_true_eq] at e
    intro x hx
    have : l[l.findIdx (fun x => decide (x = minOf l))]! = minOf l := by rw [getElem!_pos l _ hlt]; exact e
    convert h2 x hx using 1

theorem argmaxE_spec {l : List ℝ} (h : l ≠ []) : ∃ j, argmaxE l = .ok j ∧ j < l.length ∧ l[j]! = maxOf l := by
  classical
  obtain ⟨h1, -⟩ := maxOf_spec h
  have hlt : l.findIdx (fun x => decide (x = maxOf l)) < l.length := List.findIdx_lt_length_of_exists ⟨_, h1, by simp⟩
  refine ⟨_, if_neg h, ?_, ?_⟩
  · convert hlt
  · have e := List.findIdx_getElem (w := hlt)
    simp only [decide_eq_true_eq] at e
    have : l[l.findIdx (fun x => decide (x = maxOf l))]! = maxOf l := by rw [getElem!_pos l _ hlt]; exact e
    convert this

end

end CT
