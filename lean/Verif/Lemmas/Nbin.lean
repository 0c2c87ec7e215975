import Verif.Lemmas.Bins
import Verif.Lemmas.MassRadius

namespace CT

noncomputable section

/-- `x[np.argsort(x)]`. -/
def sortedOf (x : List ℝ) : List ℝ := (argsort x).map (fun i => x.getD i 0)

theorem sortedOf_perm (x : List ℝ) : (sortedOf x).Perm x := by
  have := (argsort_perm x).map (fun i => x.getD i 0)
  rw [map_getD_range] at this
  exact this

theorem sortedOf_sorted (x : List ℝ) : (sortedOf x).Pairwise (· ≤ ·) := by
  unfold sortedOf
  rw [List.pairwise_map]
  exact argsort_sorted x

theorem sortedOf_length (x : List ℝ) : (sortedOf x).length = x.length := (sortedOf_perm x).length_eq

theorem fancy_ok (x : List ℝ) (k : ℕ) (hk : k < x.length) :
    fancy x (argsort x) k = .ok ((sortedOf x).getD k 0) := by
  have hl : (argsort x).length = x.length := by simpa using (argsort_perm x).length_eq
  have hk' : k < (argsort x).length := by omega
  have hmem : (argsort x)[k] < x.length := by
    have := (argsort_perm x).mem_iff.mp (List.getElem_mem hk')
    simpa using this
  unfold fancy sortedOf
  rw [List.getElem?_eq_getElem hk']
  simp only [List.getElem?_eq_getElem hmem, List.getD_eq_getElem?_getD, List.getElem?_map,
    List.getElem?_eq_getElem hk', Option.map_some, Option.getD_some]

theorem mapM_ok {α β : Type} (l : List α) (f : α → Except Err β) (g : α → β) (h : ∀ a ∈ l, f a = .ok (g a)) :
    l.mapM f = .ok (l.map g) := by
  induction l with
  | nil => rfl
  | cons a l ih =>
    rw [List.mapM_cons, h a (by simp), List.map_cons]
    simp only [bind, Except.bind]
    rw [ih (fun b hb => h b (by simp [hb]))]; rfl

theorem getD_mono {s : List ℝ} (hs : s.Pairwise (· ≤ ·)) {i j : ℕ} (hij : i ≤ j) (hj : j < s.length) :
    s.getD i 0 ≤ s.getD j 0 := by
  simp only [List.getD_eq_getElem?_getD]
  rw [List.getElem?_eq_getElem (by omega), List.getElem?_eq_getElem hj]
  simp only [Option.getD_some]
  rcases eq_or_lt_of_le hij with rfl | h
  · rfl
  · exact List.pairwise_iff_getElem.mp hs i j (by omega) hj h

theorem foldl_min_spec (l : List ℝ) (a : ℝ) :
    (l.foldl min a = a ∨ l.foldl min a ∈ l) ∧ l.foldl min a ≤ a ∧ ∀ x ∈ l, l.foldl min a ≤ x := by
  induction l generalizing a with
  | nil => simp
  | cons b l ih =>
    obtain ⟨h1, h2, h3⟩ := ih (min a b)
    refine ⟨?_, h2.trans (min_le_left _ _), ?_⟩
    · rcases h1 with h1 | h1
      · rcases min_choice a b with h | h
        · left; simpa [h] using h1
        · right; rw [h] at h1; simp [h1, h]
      · right; simp [h1]
    · intro x hx
      rcases List.mem_cons.mp hx with rfl | hx
      · exact h2.trans (min_le_right _ _)
      · exact h3 x hx

theorem minOf_spec {l : List ℝ} (h : l ≠ []) : minOf l ∈ l ∧ ∀ x ∈ l, minOf l ≤ x := by
  cases l with
  | nil => exact absurd rfl h
  | cons a l =>
    obtain ⟨h1, h2, h3⟩ := foldl_min_spec (a :: l) a
    refine ⟨?_, h3⟩
    rcases h1 with h1 | h1
    · unfold minOf; simp only [List.headD_cons]; rw [h1]; simp
    · exact h1

theorem cut_lt {n nbin i : ℕ} (hn : 0 < n) (hi : i < nbin) : i * n / nbin < n := by
  rw [Nat.div_lt_iff_lt_mul (by omega)]
  rw [Nat.mul_comm n nbin]
  exact Nat.mul_lt_mul_of_pos_right hi hn

/-- `nbinmaker` on data with at least two distinct values. -/
theorem nbinmaker_spec (x : List ℝ) (nbin : ℕ) (hb : 0 < nbin) (hd : ∃ u ∈ x, ∃ v ∈ x, u ≠ v) :
    ∃ P : List (ℝ × ℝ), Contig (minOf x) (maxOf x) P ∧ (∀ p ∈ P, p.1 ∈ x) ∧ P.length ≤ nbin ∧
      P = (List.zip ((List.range nbin).map (fun i => (sortedOf x).getD (i * x.length / nbin) 0))
        (((List.range nbin).map (fun i => (sortedOf x).getD (i * x.length / nbin) 0)).tail ++ [maxOf x])).filter
          (fun p => decide (p.1 ≠ p.2)) ∧
      nbinmaker x nbin = .ok
        { lower := P.map Prod.fst, upper := P.map Prod.snd,
          hist := (List.range P.length).map (fun k => ((inBin P x k).length : ℝ)),
          sum := (List.range P.length).map (fun k => (inBin P x k).sum),
          mid := (List.range P.length).map (fun k => (inBin P x k).sum / (inBin P x k).length) } := by
  obtain ⟨u, hu, v, hv, huv⟩ := hd
  have hne : x ≠ [] := List.ne_nil_of_mem hu
  have hpos : 0 < x.length := List.length_pos_iff.mpr hne
  obtain ⟨mx1, mx2⟩ := maxOf_spec hne
  obtain ⟨mn1, mn2⟩ := minOf_spec hne
  have hlt : minOf x < maxOf x := by
    rcases lt_or_gt_of_ne huv with h | h
    · exact (mn2 u hu).trans_lt (h.trans_le (mx2 v hv))
    · exact (mn2 v hv).trans_lt (h.trans_le (mx2 u hu))
  set s := sortedOf x with hs
  have hsl : s.length = x.length := sortedOf_length x
  have hsort := sortedOf_sorted x
  have hs0 : s.getD 0 0 = minOf x := by
    have h0 : 0 < s.length := by omega
    apply le_antisymm
    · obtain ⟨k, hk, e⟩ := List.mem_iff_getElem.mp ((sortedOf_perm x).mem_iff.mpr mn1)
      have := getD_mono hsort (i := 0) (j := k) (by omega) hk
      rw [List.getD_eq_getElem?_getD, List.getD_eq_getElem?_getD, List.getElem?_eq_getElem hk, e] at this
      rw [List.getD_eq_getElem?_getD]; exact this
    · rw [List.getD_eq_getElem?_getD, List.getElem?_eq_getElem h0]
      exact mn2 _ ((sortedOf_perm x).mem_iff.mp (List.getElem_mem h0))
  have hmem : ∀ k, k < x.length → s.getD k 0 ∈ x := by
    intro k hk
    rw [List.getD_eq_getElem?_getD, List.getElem?_eq_getElem (by omega)]
    exact (sortedOf_perm x).mem_iff.mp (List.getElem_mem _)
  set L := (List.range nbin).map (fun i => s.getD (i * x.length / nbin) 0) with hL
  have hLs : L.Pairwise (· ≤ ·) := by
    rw [hL, List.pairwise_map]
    refine List.pairwise_lt_range.imp_of_mem ?_
    intro i j hi hj hij
    refine getD_mono hsort ?_ ?_
    · exact Nat.div_le_div_right (Nat.mul_le_mul_right _ hij.le)
    · rw [hsl]; exact cut_lt hpos (List.mem_range.mp hj)
  have hLx : ∀ y ∈ L, y ∈ x := by
    intro y hy
    rw [hL] at hy
    obtain ⟨i, hi, rfl⟩ := List.mem_map.mp hy
    exact hmem _ (cut_lt hpos (List.mem_range.mp hi))
  have hmap : ((List.range nbin).map (fun i => i * x.length / nbin)).mapM (fancy x (argsort x)) = .ok L := by
    rw [mapM_ok _ _ (fun k => s.getD k 0), List.map_map]
    · rfl
    · intro k hk
      obtain ⟨i, hi, rfl⟩ := List.mem_map.mp hk
      exact fancy_ok x _ (cut_lt hpos (List.mem_range.mp hi))
  obtain ⟨a, l, hal⟩ : ∃ a l, L = a :: l := by
    cases hL' : L with
    | nil =>
      have := congrArg List.length hL'
      rw [hL] at this; simp at this; omega
    | cons a l => exact ⟨a, l, rfl⟩
  have ha : a = minOf x := by
    have : L[0]? = some a := by rw [hal]; rfl
    rw [hL] at this
    simp only [List.getElem?_map, List.getElem?_range hb, Option.map_some, Option.some.injEq, Nat.zero_mul,
      Nat.zero_div] at this
    rw [← this, hs0]
  have hsM : (a :: l ++ [maxOf x]).Pairwise (· ≤ ·) := by
    rw [← hal, List.pairwise_append]
    refine ⟨hLs, by simp, ?_⟩
    intro y hy z hz
    simp only [List.mem_singleton] at hz
    rw [hz]; exact mx2 y (hLx y hy)
  obtain ⟨hP, hPm⟩ := contig_filter a l (maxOf x) hsM (by rw [ha]; exact hlt)
  rw [ha] at hP
  set P := (List.zip L (L.tail ++ [maxOf x])).filter (fun p => decide (p.1 ≠ p.2)) with hPdef
  have hPe : (List.zip (a :: l) (l ++ [maxOf x])).filter (fun p => decide (p.1 ≠ p.2)) = P := by
    rw [hPdef, hal]; rfl
  have hP' : Contig (minOf x) (maxOf x) P := by rw [← hPe, ha]; exact hP
  have hx : ∀ v ∈ x, minOf x ≤ v ∧ v ≤ maxOf x := fun v hv => ⟨mn2 v hv, mx2 v hv⟩
  have hi := hP'.indexed (lower := P.map Prod.fst) hx
  have hlen : P.length ≤ nbin := by
    rw [hPdef]
    refine (List.length_filter_le _ _).trans ?_
    rw [List.length_zip]
    refine (Nat.min_le_left _ _).trans ?_
    rw [hL]; simp
  refine ⟨P, hP', ?_, hlen, rfl, ?_⟩
  · intro p hp
    rw [← hPe] at hp
    exact hLx _ (hal ▸ hPm p hp)
  · unfold nbinmaker
    dsimp only
    rw [hmap]
    simp only [bind, Except.bind, pure, Except.pure]
    rw [if_neg (by omega)]
    have h1 := bincount_indexed hP' hi (fun _ => 1) (P.map Prod.fst).length
    have h2 := bincount_indexed hP' hi (fun v => v) (P.map Prod.fst).length
    simp only [List.map_id'] at h2
    rw [← hPdef, h1, h2]
    simp only [map_one_sum, List.length_map]
    congr 2
    rw [List.zipWith_map]
    simp

end

end CT
