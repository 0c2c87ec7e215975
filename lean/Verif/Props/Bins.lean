/-
Property theorems C24–C27 and C47: binning helpers of util/recipes.py.
Vocabulary: `Verif/Spec/Bins.lean` (`Contig`, `InBin`, `inBin`).
-/
import Verif.Lemmas.Nbin

namespace CT

noncomputable section

/-! ### C24 -/

/-- C24: for contiguous increasing bins every value in their range is assigned the one bin it belongs to. -/
theorem C24_bin_index (a b : ℝ) (lower upper x : List ℝ) (hlen : lower.length = upper.length)
    (h : Contig a b (List.zip lower upper)) (hx : ∀ v ∈ x, a ≤ v ∧ v ≤ b) :
    List.Forall₂ (fun v k => ∃ i : ℕ, k = (i : ℤ) ∧ i < lower.length ∧ InBin (List.zip lower upper) i v ∧
      ∀ j, InBin (List.zip lower upper) j v → j = i) x (binIndex x lower upper) := by
  have hu : (List.zip lower upper).map Prod.snd = upper := List.map_snd_zip (by omega)
  have := h.indexed (lower := lower) hx
  rw [hu] at this
  refine this.imp ?_
  rintro v k ⟨i, e, hb⟩
  refine ⟨i, e, ?_, hb, fun j hj => h.inBin_unique hj hb⟩
  obtain ⟨_, _, e2, _⟩ := hb
  have := (List.getElem?_eq_some_iff.mp e2).1
  rw [List.length_zip] at this; omega

/-- C24: whatever the values and the (non-empty) bins, every assigned index is a valid bin number. -/
theorem C24_index_valid (lower upper x : List ℝ) (hu : upper ≠ []) :
    ∀ k ∈ binIndex x lower upper, 0 ≤ k ∧ k < upper.length := by
  intro k hk
  obtain ⟨v, -, rfl⟩ := List.mem_map.mp hk
  have : 0 < upper.length := List.length_pos_iff.mpr hu
  omega

/-- C24: values outside the range of the bins are not rejected: they are assigned to the first or last bin. -/
theorem C24_out_of_range (a b : ℝ) (lower upper : List ℝ) (v : ℝ) (hlen : lower.length = upper.length)
    (h : Contig a b (List.zip lower upper)) :
    (v < a → binIndex [v] lower upper = [0]) ∧ (b < v → binIndex [v] lower upper = [(upper.length : ℤ) - 1]) := by
  have hu : (List.zip lower upper).map Prod.snd = upper := List.map_snd_zip (by omega)
  have hp : 0 < (List.zip lower upper).length := List.length_pos_iff.mpr h.ne
  have hl : (List.zip lower upper).length = upper.length := by rw [List.length_zip]; omega
  obtain ⟨-, h2, h3⟩ := h.ssr v
  rw [hu] at h2 h3
  constructor
  · intro hv; simp only [binIndex, List.map_cons, List.map_nil, h3 hv]; congr 1; omega
  · intro hv; simp only [binIndex, List.map_cons, List.map_nil, h2 hv.le]; congr 1; omega

/-- Three contiguous bins exist. -/
example : Contig 0 7 (List.zip [0, 1, 4] [1, 4, 7]) :=
  .cons (by norm_num) (.cons (by norm_num) (.one (by norm_num)))

/-! ### C25 -/

/-- C25: for every input with at least two different values (ties allowed) and every `nbin ≥ 1`, `nbinmaker`
returns bins that are contiguous, strictly increasing and reach from the smallest to the largest value, at most
`nbin` of them; the histogram counts exactly the values in each bin and adds up to the number of values; the
bin sums add up to the total; no bin is empty, and each reported mean is the mean of its bin and lies in it. -/
theorem C25_equal_number_bins (x : List ℝ) (nbin : ℕ) (hb : 0 < nbin) (hd : ∃ u ∈ x, ∃ v ∈ x, u ≠ v) :
    ∃ (T : BinTable) (a b : ℝ), nbinmaker x nbin = .ok T ∧
      (a ∈ x ∧ b ∈ x ∧ ∀ v ∈ x, a ≤ v ∧ v ≤ b) ∧
      T.lower.length = T.upper.length ∧ T.lower.length ≤ nbin ∧ Contig a b (List.zip T.lower T.upper) ∧
      T.hist = (List.range T.lower.length).map (fun i => ((inBin (List.zip T.lower T.upper) x i).length : ℝ)) ∧
      T.sum = (List.range T.lower.length).map (fun i => (inBin (List.zip T.lower T.upper) x i).sum) ∧
      T.hist.sum = x.length ∧ T.sum.sum = x.sum ∧
      T.mid.length = T.lower.length ∧
      ∀ i, i < T.lower.length → 0 < T.hist.getD i 0 ∧ T.mid.getD i 0 * T.hist.getD i 0 = T.sum.getD i 0 ∧
        T.lower.getD i 0 ≤ T.mid.getD i 0 ∧ T.mid.getD i 0 ≤ T.upper.getD i 0 := by
  obtain ⟨P, hP, hPx, hPn, -, hT⟩ := nbinmaker_spec x nbin hb hd
  have hne : x ≠ [] := by obtain ⟨u, hu, -⟩ := hd; exact List.ne_nil_of_mem hu
  obtain ⟨mx1, mx2⟩ := maxOf_spec hne
  obtain ⟨mn1, mn2⟩ := minOf_spec hne
  have hx : ∀ v ∈ x, minOf x ≤ v ∧ v ≤ maxOf x := fun v hv => ⟨mn2 v hv, mx2 v hv⟩
  have hz : List.zip (P.map Prod.fst) (P.map Prod.snd) = P := by
    rw [List.zip_map']; simp
  refine ⟨_, minOf x, maxOf x, hT, ⟨mn1, mx1, hx⟩, by simp, by simpa using hPn, by simpa only [hz] using hP,
    by simp only [hz, List.length_map], by simp only [hz, List.length_map], ?_, ?_, by simp, ?_⟩
  · have := hP.sum_inBin x hx (fun _ => 1)
    simpa only [map_one_sum] using this
  · have := hP.sum_inBin x hx (fun v => v)
    simpa only [List.map_id'] using this
  · intro i hi
    simp only [List.length_map] at hi
    have g : ∀ (f : ℕ → ℝ), ((List.range P.length).map f).getD i 0 = f i := by
      intro f; rw [List.getD_eq_getElem?_getD, List.getElem?_map, List.getElem?_range hi]; rfl
    simp only [g]
    obtain ⟨lo, hi2, e⟩ : ∃ lo hi2, P[i]? = some (lo, hi2) := ⟨P[i].1, P[i].2, List.getElem?_eq_getElem hi⟩
    obtain ⟨e1, e2, e3, -⟩ := hP.ends e
    have gl : (P.map Prod.fst).getD i 0 = lo := by
      rw [List.getD_eq_getElem?_getD, List.getElem?_map, e]; rfl
    have gu : (P.map Prod.snd).getD i 0 = hi2 := by
      rw [List.getD_eq_getElem?_getD, List.getElem?_map, e]; rfl
    rw [gl, gu]
    have hlo : lo ∈ inBin P x i := by
      classical
      unfold inBin
      rw [List.mem_filter]
      refine ⟨hPx (lo, hi2) (List.mem_of_getElem? e), ?_⟩
      simp only [decide_eq_true_eq]
      exact ⟨lo, hi2, e, le_rfl, Or.inl e2⟩
    have hpos : (0 : ℝ) < (inBin P x i).length := by
      exact_mod_cast List.length_pos_iff.mpr (List.ne_nil_of_mem hlo)
    have hbd : ∀ v ∈ inBin P x i, lo ≤ v ∧ v ≤ hi2 := by
      classical
      intro v hv
      unfold inBin at hv
      rw [List.mem_filter] at hv
      have := hv.2
      simp only [decide_eq_true_eq] at this
      obtain ⟨lo', hi', e', k1, k2⟩ := this
      rw [e] at e'; cases e'
      exact ⟨k1, by rcases k2 with k | ⟨-, k⟩ <;> linarith⟩
    have hs : ∀ l : List ℝ, (∀ v ∈ l, lo ≤ v ∧ v ≤ hi2) → l.length * lo ≤ l.sum ∧ l.sum ≤ l.length * hi2 := by
      intro l
      induction l with
      | nil => simp
      | cons v l ih =>
        intro h
        obtain ⟨h1, h2⟩ := h v (by simp)
        obtain ⟨h3, h4⟩ := ih (fun w hw => h w (by simp [hw]))
        push_cast [List.length_cons, List.sum_cons]
        constructor <;> linarith
    obtain ⟨s1, s2⟩ := hs _ hbd
    refine ⟨hpos, by field_simp, ?_, ?_⟩
    · rw [le_div_iff₀ hpos]; linarith
    · rw [div_le_iff₀ hpos]; linarith

/-- C25 is false of the code for constant data: no bin is left after the degenerate-bin check and
`np.bincount` is given the index -1, so `nbinmaker` raises `ValueError` for every number of equal values. -/
theorem C25_constant_input_violated (a : ℝ) (n nbin : ℕ) (hn : 0 < n) (hb : 0 < nbin) :
    nbinmaker (List.replicate n a) nbin = .error .valueError := by
  have hlen : (List.replicate n a).length = n := by simp
  have hne : List.replicate n a ≠ [] := by
    intro h; have := congrArg List.length h; simp at this; omega
  have hmax : maxOf (List.replicate n a) = a := by
    have := (maxOf_spec hne).1
    exact List.eq_of_mem_replicate this
  have hs : ∀ k, k < n → (sortedOf (List.replicate n a)).getD k 0 = a := by
    intro k hk
    rw [List.getD_eq_getElem?_getD, List.getElem?_eq_getElem (by rw [sortedOf_length]; omega)]
    have := (sortedOf_perm (List.replicate n a)).mem_iff.mp (List.getElem_mem (by rw [sortedOf_length]; omega : k < _))
    exact List.eq_of_mem_replicate this
  have hmap : ((List.range nbin).map (fun i => i * (List.replicate n a).length / nbin)).mapM
      (fancy (List.replicate n a) (argsort (List.replicate n a))) = .ok (List.replicate nbin a) := by
    rw [mapM_ok _ _ (fun _ => a)]
    · congr 1; apply List.ext_getElem <;> simp
    · intro k hk
      obtain ⟨i, hi, rfl⟩ := List.mem_map.mp hk
      have := cut_lt hn (List.mem_range.mp hi)
      rw [hlen, fancy_ok _ _ (by rw [hlen]; exact this), hs _ this]
  unfold nbinmaker
  dsimp only
  rw [hmap]
  simp only [bind, Except.bind, pure, Except.pure]
  rw [if_neg (by omega), hmax]
  have hk : (List.zip (List.replicate nbin a) ((List.replicate nbin a).tail ++ [a])).filter
      (fun p => decide (p.1 ≠ p.2)) = [] := by
    rw [List.filter_eq_nil_iff]
    intro p hp
    have h1 := List.of_mem_zip hp
    have e1 := List.eq_of_mem_replicate h1.1
    have e2 : p.2 = a := by
      rcases List.mem_append.mp h1.2 with h | h
      · exact List.eq_of_mem_replicate (List.mem_of_mem_tail h)
      · simpa using h
    simp [e1, e2]
  rw [hk]
  obtain ⟨m, rfl⟩ : ∃ m, n = m + 1 := ⟨n - 1, by omega⟩
  simp [bincount, binIndex, searchsortedRight, List.replicate_succ]

/-- C25 instance: data with ties and more bins than distinct values. -/
example : ∃ T, nbinmaker [3, 1, 1, 2, 1] 4 = .ok T ∧ T.hist.sum = 5 := by
  obtain ⟨T, a, b, h, -, -, -, -, -, -, hs, -⟩ := C25_equal_number_bins [3, 1, 1, 2, 1] 4 (by norm_num)
    ⟨3, by simp, 1, by simp, by norm_num⟩
  exact ⟨T, h, by simpa using hs⟩

/-! ### C47: equal numbers -/

theorem getElem_strict {s : List ℝ} (hs : s.Pairwise (· < ·)) {i j : ℕ} (hi : i < s.length) (hj : j < s.length) :
    s[i] < s[j] ↔ i < j := by
  constructor
  · intro h
    by_contra hn
    rcases eq_or_lt_of_le (not_lt.mp hn) with rfl | h2
    · exact lt_irrefl _ h
    · exact lt_asymm h (List.pairwise_iff_getElem.mp hs j i hj hi h2)
  · intro h; exact List.pairwise_iff_getElem.mp hs i j hi hj h

open Classical in
theorem count_between {s : List ℝ} (hs : s.Pairwise (· < ·)) {p q : ℕ} (hpq : p ≤ q) (hq : q ≤ s.length)
    (Q : ℝ → Prop) (hQ : ∀ k (hk : k < s.length), Q s[k] ↔ p ≤ k ∧ k < q) :
    (s.filter (fun v => Q v)).length = q - p := by
  have hcut : s.filter (fun v => Q v) = (s.drop p).take (q - p) := by
    have hsplit : s = s.take p ++ ((s.drop p).take (q - p) ++ (s.drop p).drop (q - p)) := by
      rw [List.take_append_drop, List.take_append_drop]
    conv_lhs => rw [hsplit]
    rw [List.filter_append, List.filter_append]
    have h1 : (s.take p).filter (fun v => Q v) = [] := by
      rw [List.filter_eq_nil_iff]
      intro v hv
      obtain ⟨k, hk, rfl⟩ := List.mem_iff_getElem.mp hv
      simp only [List.length_take] at hk
      rw [List.getElem_take]
      simp only [decide_eq_true_eq, hQ k (by omega)]; omega
    have h2 : ((s.drop p).take (q - p)).filter (fun v => Q v) = (s.drop p).take (q - p) := by
      rw [List.filter_eq_self]
      intro v hv
      obtain ⟨k, hk, rfl⟩ := List.mem_iff_getElem.mp hv
      simp only [List.length_take, List.length_drop] at hk
      rw [List.getElem_take, List.getElem_drop]
      simp only [decide_eq_true_eq, hQ (p + k) (by omega)]; omega
    have h3 : ((s.drop p).drop (q - p)).filter (fun v => Q v) = [] := by
      rw [List.filter_eq_nil_iff]
      intro v hv
      obtain ⟨k, hk, rfl⟩ := List.mem_iff_getElem.mp hv
      simp only [List.length_drop] at hk
      rw [List.getElem_drop, List.getElem_drop]
      simp only [decide_eq_true_eq, hQ (p + (q - p + k)) (by omega)]; omega
    rw [h1, h2, h3]; simp
  rw [hcut, List.length_take, List.length_drop]; omega

/-- C47: on distinct values, with at least two per bin, `nbinmaker` makes exactly `nbin` bins and every bin
holds the average number of values up to rounding (`|count - n/nbin| < 1`). -/
theorem C47_equal_numbers (x : List ℝ) (nbin : ℕ) (hb : 0 < nbin) (hx : x.Nodup) (h2 : 2 * nbin ≤ x.length) :
    ∃ T, nbinmaker x nbin = .ok T ∧ T.hist.length = nbin ∧
      ∀ i, i < nbin → |T.hist.getD i 0 - (x.length : ℝ) / nbin| < 1 := by
  classical
  set n := x.length with hn
  have hnpos : 0 < n := by omega
  have hd : ∃ u ∈ x, ∃ v ∈ x, u ≠ v := by
    refine ⟨x[0], List.getElem_mem _, x[1], List.getElem_mem _, ?_⟩
    intro h
    have := (hx.getElem_inj_iff (hi := by omega) (hj := by omega)).mp h
    omega
  obtain ⟨P, hP, hPx, hPn, hPe, hT⟩ := nbinmaker_spec x nbin hb hd
  set s := sortedOf x with hsd
  have hsl : s.length = n := sortedOf_length x
  have hsn : s.Nodup := (sortedOf_perm x).nodup_iff.mpr hx
  have hss : s.Pairwise (· < ·) := by
    have := (sortedOf_sorted x).and hsn
    exact this.imp fun h => lt_of_le_of_ne h.1 h.2
  set cut : ℕ → ℕ := fun i => i * n / nbin with hcut
  have hcutlt : ∀ i, i < nbin → cut i < n := fun i hi => cut_lt hnpos hi
  have hdiv : 2 ≤ n / nbin := by rw [Nat.le_div_iff_mul_le hb]; omega
  have hstep : ∀ i, cut i + 2 ≤ cut (i + 1) := by
    intro i
    have h3 : i * n / nbin + n / nbin ≤ (i * n + n) / nbin := Nat.add_div_le_add_div _ _ _
    simp only [hcut, Nat.add_mul, one_mul]
    omega
  have hcutn : cut nbin = n := by simp [hcut, Nat.mul_div_cancel_left _ hb]
  have hgd : ∀ k, k < n → s.getD k 0 = s[k]! := by
    intro k hk
    rw [List.getD_eq_getElem?_getD, List.getElem?_eq_getElem (by omega), getElem!_pos s k (by omega)]; rfl
  have hmaxs : maxOf x = s[n - 1]'(by omega) := by
    have hne : x ≠ [] := by intro h; rw [h] at hn; simp at hn; omega
    obtain ⟨m1, m2⟩ := maxOf_spec hne
    apply le_antisymm
    · obtain ⟨k, hk, e⟩ := List.mem_iff_getElem.mp ((sortedOf_perm x).mem_iff.mpr m1)
      rw [← e]
      by_contra hlt
      have := (getElem_strict hss (by omega) hk).mp (not_le.mp hlt)
      have hk2 : k < n := by rw [← hsl]; exact hk
      omega
    · exact m2 _ ((sortedOf_perm x).mem_iff.mp (List.getElem_mem _))
  -- the bins are not degenerate
  have hPe2 : P = (List.range nbin).map (fun i =>
      (s.getD (cut i) 0, if i + 1 < nbin then s.getD (cut (i + 1)) 0 else maxOf x)) := by
    rw [hPe]
    have hzip : List.zip ((List.range nbin).map (fun i => s.getD (i * x.length / nbin) 0))
        (((List.range nbin).map (fun i => s.getD (i * x.length / nbin) 0)).tail ++ [maxOf x]) =
        (List.range nbin).map (fun i =>
          (s.getD (cut i) 0, if i + 1 < nbin then s.getD (cut (i + 1)) 0 else maxOf x)) := by
      apply List.ext_getElem
      · simp [List.length_zip]; omega
      · intro i h1 h3
        simp only [List.length_map, List.length_range] at h3
        rw [List.getElem_zip, List.getElem_map, List.getElem_map, List.getElem_range]
        congr 1
        by_cases hi : i + 1 < nbin
        · rw [if_pos hi, List.getElem_append_left (by simp; omega), List.getElem_tail, List.getElem_map,
            List.getElem_range]
        · rw [if_neg hi, List.getElem_append_right (by simp; omega)]
          simp
    rw [hzip, List.filter_eq_self]
    intro p hp
    obtain ⟨i, hi, rfl⟩ := List.mem_map.mp hp
    have hi := List.mem_range.mp hi
    have := hcutlt i hi
    simp only [decide_eq_true_eq]
    rw [hgd _ this, getElem!_pos s _ (by omega)]
    split
    · rename_i h3
      have := hcutlt (i + 1) h3
      rw [hgd _ this, getElem!_pos s _ (by omega)]
      refine ((getElem_strict hss (by omega) (by omega)).mpr ?_).ne
      have := hstep i; omega
    · rename_i h3
      rw [hmaxs]
      refine ((getElem_strict hss (by omega) (by omega)).mpr ?_).ne
      have := hstep i
      have e : i + 1 = nbin := by omega
      rw [e, hcutn] at this; omega
  have hPl : P.length = nbin := by rw [hPe2]; simp
  refine ⟨_, hT, by simp [hPl], ?_⟩
  intro i hi
  have hcount : (inBin P x i).length = cut (i + 1) - cut i := by
    have hperm : (inBin P x i).length = (s.filter (fun v => InBin P i v)).length := by
      unfold inBin
      exact (((sortedOf_perm x).filter _).length_eq).symm
    rw [hperm]
    have hci := hcutlt i hi
    have hst := hstep i
    have hc1 : cut (i + 1) ≤ n := by
      rcases Nat.lt_or_ge (i + 1) nbin with h | h
      · exact (hcutlt _ h).le
      · have e : i + 1 = nbin := by omega
        rw [e, hcutn]
    refine count_between hss (by omega) (by omega) (InBin P i) ?_
    intro k hk
    have hPi : P[i]? = some (s.getD (cut i) 0, if i + 1 < nbin then s.getD (cut (i + 1)) 0 else maxOf x) := by
      rw [hPe2, List.getElem?_map, List.getElem?_range hi]; rfl
    have hlo : s.getD (cut i) 0 ≤ s[k] ↔ cut i ≤ k := by
      rw [hgd _ hci, getElem!_pos s _ (by omega)]
      rw [← not_lt, getElem_strict hss hk (by omega), not_lt]
    have key : InBin P i s[k] ↔ (s.getD (cut i) 0 ≤ s[k] ∧
        (s[k] < (if i + 1 < nbin then s.getD (cut (i + 1)) 0 else maxOf x) ∨
          (i + 1 = P.length ∧ s[k] = (if i + 1 < nbin then s.getD (cut (i + 1)) 0 else maxOf x)))) := by
      constructor
      · rintro ⟨lo, hi', e, a1, a2⟩
        rw [hPi] at e; cases e
        exact ⟨a1, a2⟩
      · rintro ⟨a1, a2⟩
        exact ⟨_, _, hPi, a1, a2⟩
    rw [key, hlo]
    refine and_congr_right fun hle => ?_
    by_cases h3 : i + 1 < nbin
    · rw [if_pos h3]
      have h4 := hcutlt (i + 1) h3
      rw [hgd _ h4, getElem!_pos s _ (by omega), getElem_strict hss hk (by omega)]
      constructor
      · rintro (h | ⟨h, -⟩)
        · exact h
        · omega
      · exact Or.inl
    · have e : i + 1 = nbin := by omega
      rw [if_neg h3, e, hcutn, hmaxs, getElem_strict hss hk (by omega)]
      constructor
      · intro _; omega
      · intro _
        rcases Nat.lt_or_ge k (n - 1) with h5 | h5
        · exact Or.inl h5
        · refine Or.inr ⟨by omega, ?_⟩
          have : k = n - 1 := by omega
          subst this; rfl
  have hg : ((List.range P.length).map (fun k => ((inBin P x k).length : ℝ))).getD i 0
      = (cut (i + 1) : ℝ) - cut i := by
    rw [List.getD_eq_getElem?_getD, List.getElem?_map, List.getElem?_range (by omega)]
    simp only [Option.map_some, Option.getD_some, hcount]
    rw [Nat.cast_sub (by have := hstep i; omega)]
  simp only [hg]
  have hnb : (0 : ℝ) < nbin := by exact_mod_cast hb
  have bnd : ∀ k : ℕ, (cut k : ℝ) ≤ (k * n : ℕ) / (nbin : ℝ) ∧ ((k * n : ℕ) : ℝ) / nbin < cut k + 1 := by
    intro k
    constructor
    · rw [le_div_iff₀ hnb]; exact_mod_cast Nat.div_mul_le_self _ _
    · rw [div_lt_iff₀ hnb]
      have := Nat.lt_div_mul_add (a := k * n) hb
      have h5 : k * n < (k * n / nbin + 1) * nbin := by rw [Nat.add_mul, one_mul]; exact this
      exact_mod_cast h5
  obtain ⟨b1, b2⟩ := bnd i
  obtain ⟨b3, b4⟩ := bnd (i + 1)
  have e : (((i + 1) * n : ℕ) : ℝ) / nbin = (i * n : ℕ) / (nbin : ℝ) + n / nbin := by push_cast; ring
  rw [e] at b3 b4
  rw [abs_lt]
  constructor <;> linarith

/-- C47 instance. -/
example : ∃ T, nbinmaker [5, 1, 4, 2, 3] 2 = .ok T ∧ T.hist.length = 2 := by
  obtain ⟨T, h, h2, -⟩ := C47_equal_numbers [5, 1, 4, 2, 3] 2 (by norm_num) (by norm_num) (by simp)
  exact ⟨T, h, h2⟩

end

end CT
