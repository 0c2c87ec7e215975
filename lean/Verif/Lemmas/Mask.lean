import Verif.Model.Energy

namespace CT

noncomputable section

/-- A boolean mask selects the entries at the positions where it is true, in order. -/
theorem maskSel_eq {α : Type} [Inhabited α] (mask : List Bool) (l : List α) (h : mask.length = l.length) :
    maskSel mask l = ((List.range l.length).filter (fun i => mask[i]!)).map (fun i => l[i]!) := by
  have hz : List.zip mask l = (List.range l.length).map (fun i => (mask[i]!, l[i]!)) := by
    refine List.ext_getElem? fun i => ?_
    rw [List.getElem?_map]
    by_cases hi : i < l.length
    · rw [List.getElem?_range hi, List.getElem?_eq_getElem (by simpa [h] using hi), List.getElem_zip,
        Option.map_some, getElem!_pos l i hi, getElem!_pos mask i (by omega)]
    · rw [List.getElem?_eq_none (by simp; omega), List.getElem?_eq_none (by simpa using hi)]; rfl
  unfold maskSel
  rw [hz, List.filter_map, List.map_map]
  rfl

/-- Rows of a selection: the positions where the mask is true, in order. -/
def maskPos (mask : List Bool) : List ℕ := (List.range mask.length).filter (fun i => mask[i]!)

theorem maskSel_pos {α : Type} [Inhabited α] {mask : List Bool} {l : List α} (h : mask.length = l.length) :
    maskSel mask l = (maskPos mask).map (fun i => l[i]!) := by
  rw [maskSel_eq mask l h, maskPos, h]

theorem maskSel_length {α : Type} [Inhabited α] {mask : List Bool} {l : List α} (h : mask.length = l.length) :
    (maskSel mask l).length = (maskPos mask).length := by
  rw [maskSel_pos h, List.length_map]

theorem maskSel_get! {α : Type} [Inhabited α] {mask : List Bool} {l : List α} (h : mask.length = l.length) {j : ℕ}
    (hj : j < (maskPos mask).length) : (maskSel mask l)[j]! = l[(maskPos mask)[j]!]! := by
  rw [maskSel_pos h, getElem!_pos _ j (by simpa using hj), getElem!_pos (maskPos mask) j hj]
  simp

theorem maskPos_sorted (mask : List Bool) : (maskPos mask).Pairwise (· < ·) :=
  List.pairwise_lt_range.filter _

theorem mem_maskPos {mask : List Bool} {i : ℕ} : i ∈ maskPos mask ↔ i < mask.length ∧ mask[i]! = true := by
  simp only [maskPos, List.mem_filter, List.mem_range]

theorem count_pos_iff {mask : List Bool} : 0 < mask.count true ↔ maskPos mask ≠ [] := by
  rw [List.count_pos_iff]
  constructor
  · intro h
    obtain ⟨i, hi, e⟩ := List.getElem_of_mem h
    refine List.ne_nil_of_mem (a := i) (mem_maskPos.mpr ⟨hi, ?_⟩)
    rw [getElem!_pos mask i hi, e]
  · intro h
    obtain ⟨i, hi⟩ := List.exists_mem_of_ne_nil _ h
    obtain ⟨h1, h2⟩ := mem_maskPos.mp hi
    rw [getElem!_pos mask i h1] at h2
    exact h2 ▸ List.getElem_mem h1

end

end CT
