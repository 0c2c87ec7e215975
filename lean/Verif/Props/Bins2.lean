/- Property theorems C26 (equal-width bins) and C27 (running bins). -/
import Verif.Lemmas.Nbin

namespace CT

noncomputable section

theorem binMembers_eq (x lower upper : List ℝ) (hl : lower.length = upper.length) (j : ℕ) (hj : j < lower.length) :
    binMembers x lower upper j = inBin (List.zip lower upper) x j := by
  classical
  have hz : (List.zip lower upper)[j]? = some (lower.getD j 0, upper.getD j 0) := by
    rw [List.getElem?_eq_getElem (by rw [List.length_zip]; omega), List.getElem_zip]
    simp only [List.getD_eq_getElem?_getD, List.getElem?_eq_getElem hj,
      List.getElem?_eq_getElem (hl ▸ hj : j < upper.length), Option.getD_some]
  have hlen : (List.zip lower upper).length = lower.length := by rw [List.length_zip]; omega
  unfold binMembers inBin
  split
  · rename_i h
    apply List.filter_congr
    intro v _
    rw [← Bool.decide_and, decide_eq_decide]
    constructor
    · rintro ⟨h1, h2⟩; exact ⟨_, _, hz, h1, Or.inl h2⟩
    · rintro ⟨lo, hi, e, h1, h2⟩
      rw [hz] at e; cases e
      rcases h2 with h2 | ⟨h2, -⟩
      · exact ⟨h1, h2⟩
      · omega
  · rename_i h
    apply List.filter_congr
    intro v _
    rw [← Bool.decide_and, decide_eq_decide]
    constructor
    · rintro ⟨h1, h2⟩
      refine ⟨_, _, hz, h1, ?_⟩
      rcases lt_or_eq_of_le h2 with h2 | h2
      · exact Or.inl h2
      · exact Or.inr ⟨by omega, h2⟩
    · rintro ⟨lo, hi, e, h1, h2⟩
      rw [hz] at e; cases e
      rcases h2 with h2 | ⟨-, h2⟩
      · exact ⟨h1, h2.le⟩
      · exact ⟨h1, h2.le⟩

/-- The histogram and sums of a table are those of the data values in its intervals. -/
def Counts (x : List ℝ) (T : BinTable) : Prop :=
  T.lower.length = T.upper.length ∧
  T.hist = (List.range T.lower.length).map (fun i => ((inBin (List.zip T.lower T.upper) x i).length : ℝ)) ∧
  T.sum = (List.range T.lower.length).map (fun i => (inBin (List.zip T.lower T.upper) x i).sum)

theorem tabulate_counts (x lower mid upper : List ℝ) (hl : lower.length = upper.length) :
    Counts x (tabulate x lower mid upper) := by
  refine ⟨hl, ?_, ?_⟩
  all_goals
    refine List.map_congr_left fun j hj => ?_
    simp only [binMembers_eq x lower upper hl j (List.mem_range.mp hj)]
    rfl

theorem steps_zip (f : ℕ → ℝ) (n : ℕ) :
    List.zip ((List.range (n + 1)).map f).dropLast ((List.range (n + 1)).map f).tail =
      (List.range n).map (fun i => (f i, f (i + 1))) := by
  apply List.ext_getElem
  · simp
  · intro i h1 h2
    simp only [List.length_map, List.length_range] at h2
    rw [List.getElem_zip, List.getElem_map, List.getElem_range, List.getElem_dropLast, List.getElem_tail,
      List.getElem_map, List.getElem_map, List.getElem_range, List.getElem_range]

theorem binmaker_steps (x : List ℝ) (nbin : ℕ) (lin : Bool) :
    (if lin then linspace (minOf x) (maxOf x) (nbin + 1)
      else logspace (log10 (minOf x)) (log10 (maxOf x)) (nbin + 1)) =
    (List.range (nbin + 1)).map (fun (i : ℕ) =>
      if lin then minOf x + (i : ℝ) * ((maxOf x - minOf x) / nbin)
      else (10 : ℝ) ^ (log10 (minOf x) + (i : ℝ) * ((log10 (maxOf x) - log10 (minOf x)) / nbin))) := by
  cases lin <;> simp [linspace, logspace]

theorem ten_log10 {v : ℝ} (h : 0 < v) : (10 : ℝ) ^ log10 v = v :=
  Real.rpow_logb (by norm_num) (by norm_num) h

/-- C26: on every non-empty input and for every `nbin ≥ 1` (positive data when the steps are logarithmic)
`binmaker` counts every value exactly once: histogram and sums are those of the values in each interval and add
up to the totals; when the data are not all equal the intervals are contiguous, increasing and span the data,
and (linear steps) have equal widths. -/
theorem C26_equal_width_bins (x : List ℝ) (nbin : ℕ) (lin : Bool) (hx : x ≠ []) (hb : 0 < nbin)
    (hp : lin = false → ∀ v ∈ x, 0 < v) :
    ∃ T, binmaker x nbin lin = .ok T ∧ T.lower.length = nbin ∧ Counts x T ∧
      T.hist.sum = x.length ∧ T.sum.sum = x.sum ∧
      (∀ a b, a ∈ x → b ∈ x → (∀ v ∈ x, a ≤ v ∧ v ≤ b) → a < b → Contig a b (List.zip T.lower T.upper) ∧
        (lin = true → ∀ i, i < nbin → T.upper.getD i 0 - T.lower.getD i 0 = (b - a) / nbin)) := by
  obtain ⟨mx1, mx2⟩ := maxOf_spec hx
  obtain ⟨mn1, mn2⟩ := minOf_spec hx
  have hbnd : ∀ v ∈ x, minOf x ≤ v ∧ v ≤ maxOf x := fun v hv => ⟨mn2 v hv, mx2 v hv⟩
  have hnb : (0 : ℝ) < nbin := by exact_mod_cast hb
  set f : ℕ → ℝ := fun i =>
      if lin then minOf x + (i : ℝ) * ((maxOf x - minOf x) / nbin)
      else (10 : ℝ) ^ (log10 (minOf x) + (i : ℝ) * ((log10 (maxOf x) - log10 (minOf x)) / nbin)) with hf
  set lower := ((List.range (nbin + 1)).map f).dropLast with hlow
  set upper := ((List.range (nbin + 1)).map f).tail with hupp
  have hll : lower.length = nbin := by simp [hlow]
  have hlu : upper.length = nbin := by simp [hupp]
  have hz : List.zip lower upper = (List.range nbin).map (fun i => (f i, f (i + 1))) := steps_zip f nbin
  have hT : ∃ mid, binmaker x nbin lin = .ok (tabulate x lower mid upper) := by
    refine ⟨List.zipWith (fun u l => (u + l) / 2) upper lower, ?_⟩
    unfold binmaker
    rw [if_neg hx, binmaker_steps]
  obtain ⟨mid, hT⟩ := hT
  have hc := tabulate_counts x lower mid upper (by omega)
  have hTl : (tabulate x lower mid upper).lower = lower := rfl
  have hTu : (tabulate x lower mid upper).upper = upper := rfl
  have h0 : f 0 = minOf x := by
    simp only [hf]
    cases hlin : lin
    · simpa using ten_log10 (hp hlin _ mn1)
    · simp
  have hn : f nbin = maxOf x := by
    simp only [hf]
    have : (nbin : ℝ) ≠ 0 := hnb.ne'
    cases hlin : lin
    · rw [if_neg (by simp)]
      rw [mul_div_cancel₀ _ this]
      rw [add_sub_cancel]
      exact ten_log10 (hp hlin _ mx1)
    · rw [if_pos rfl, mul_div_cancel₀ _ this]; ring
  have hcontig : minOf x < maxOf x → Contig (minOf x) (maxOf x) (List.zip lower upper) := by
    intro hlt
    rw [hz, ← h0, ← hn]
    obtain ⟨m, rfl⟩ : ∃ m, nbin = m + 1 := ⟨nbin - 1, by omega⟩
    refine contig_range f m ?_
    intro i _
    simp only [hf]
    cases hlin : lin
    · rw [if_neg (by simp), if_neg (by simp)]
      have hl2 : log10 (minOf x) < log10 (maxOf x) :=
        Real.logb_lt_logb (by norm_num) (hp hlin _ mn1) hlt
      apply Real.rpow_lt_rpow_of_exponent_lt (by norm_num)
      have : 0 < (log10 (maxOf x) - log10 (minOf x)) / ((m + 1 : ℕ) : ℝ) := div_pos (by linarith) hnb
      push_cast at this ⊢
      nlinarith
    · rw [if_pos rfl, if_pos rfl]
      have : 0 < (maxOf x - minOf x) / ((m + 1 : ℕ) : ℝ) := div_pos (by linarith) hnb
      push_cast at this ⊢
      nlinarith
  have htot : ∀ g : ℝ → ℝ, ((List.range nbin).map (fun k => ((inBin (List.zip lower upper) x k).map g).sum)).sum
      = (x.map g).sum := by
    intro g
    rcases lt_or_eq_of_le (mn2 _ mx1) with hlt | heq
    · have := (hcontig hlt).sum_inBin x hbnd g
      rwa [List.length_zip, hll, hlu, min_self] at this
    · -- constant data: everything is in the last interval
      have hfc : ∀ i, f i = minOf x := by
        intro i
        simp only [hf]
        simp only [← heq, sub_self, zero_div, mul_zero, add_zero]
        cases hlin : lin
        · simpa using ten_log10 (hp hlin _ mn1)
        · simp
      have hmem : ∀ k, k < nbin → ((inBin (List.zip lower upper) x k).map g).sum =
          if k = nbin - 1 then (x.map g).sum else 0 := by
        intro k hk
        rw [← binMembers_eq x lower upper (by omega) k (by omega)]
        have e1 : lower.getD k 0 = minOf x := by
          rw [List.getD_eq_getElem?_getD, List.getElem?_eq_getElem (by omega)]
          simp only [hlow, List.getElem_dropLast, List.getElem_map, hfc, Option.getD_some]
        have e2 : upper.getD k 0 = minOf x := by
          rw [List.getD_eq_getElem?_getD, List.getElem?_eq_getElem (by omega)]
          simp only [hupp, List.getElem_tail, List.getElem_map, hfc, Option.getD_some]
        unfold binMembers
        rw [hll, e1, e2]
        by_cases hk2 : k + 1 < nbin
        · rw [if_pos hk2, if_neg (by omega)]
          have : x.filter (fun v => decide (minOf x ≤ v) && decide (v < minOf x)) = [] := by
            rw [List.filter_eq_nil_iff]
            intro v _; simp
          rw [this]; simp
        · rw [if_neg hk2, if_pos (by omega)]
          have : x.filter (fun v => decide (minOf x ≤ v) && decide (v ≤ minOf x)) = x := by
            rw [List.filter_eq_self]
            intro v hv
            have := hbnd v hv
            simp only [Bool.and_eq_true, decide_eq_true_eq]
            exact ⟨this.1, heq ▸ this.2⟩
          rw [this]
      have e : (List.range nbin).map (fun k => ((inBin (List.zip lower upper) x k).map g).sum) =
          (List.range nbin).map (fun k => if k = nbin - 1 then (x.map g).sum else 0) :=
        List.map_congr_left fun k hk => hmem k (List.mem_range.mp hk)
      rw [e, sum_single (by omega)]
  refine ⟨_, hT, hll, hc, ?_, ?_, ?_⟩
  · rw [hc.2.1, hTl, hTu, hll]
    have := htot (fun _ => 1)
    simpa only [map_one_sum] using this
  · rw [hc.2.2, hTl, hTu, hll]
    have := htot (fun v => v)
    simpa only [List.map_id'] using this
  · intro a b ha hb' hab hlt
    have ea : a = minOf x := le_antisymm (hab _ mn1).1 (mn2 a ha)
    have eb : b = maxOf x := le_antisymm (mx2 b hb') (hab _ mx1).2
    subst ea; subst eb
    refine ⟨hcontig hlt, ?_⟩
    intro hlin i hi
    rw [hTl, hTu, List.getD_eq_getElem?_getD, List.getD_eq_getElem?_getD,
      List.getElem?_eq_getElem (by omega), List.getElem?_eq_getElem (by omega)]
    simp only [hlow, hupp, List.getElem_dropLast, List.getElem_tail, List.getElem_map, List.getElem_range,
      Option.getD_some, hf, hlin, if_true]
    push_cast; ring

/-- C26 instances: linear steps, logarithmic steps, and constant data. -/
example : (∃ T, binmaker [3, 1, 2, 1] 3 true = .ok T ∧ T.hist.sum = 4) ∧
    (∃ T, binmaker [3, 1, 2, 1] 3 false = .ok T ∧ T.hist.sum = 4) ∧
    (∃ T, binmaker [2, 2] 3 true = .ok T ∧ T.hist.sum = 2) := by
  refine ⟨?_, ?_, ?_⟩
  · obtain ⟨T, h, -, -, hs, -⟩ := C26_equal_width_bins [3, 1, 2, 1] 3 true (by simp) (by norm_num) (by simp)
    exact ⟨T, h, by simpa using hs⟩
  · obtain ⟨T, h, -, -, hs, -⟩ := C26_equal_width_bins [3, 1, 2, 1] 3 false (by simp) (by norm_num) (by simp)
    exact ⟨T, h, by simpa using hs⟩
  · obtain ⟨T, h, -, -, hs, -⟩ := C26_equal_width_bins [2, 2] 3 true (by simp) (by norm_num) (by simp)
    exact ⟨T, h, by simpa using hs⟩

/-! ### C27 -/

/-- C27: `roaming_binmaker` returns `ntot` intervals whose histogram and sums are exactly those of the inputs
in `[lower,upper)` (last one closed); the first starts at the smallest input, (linear) every width is
`(max-min)/nbin`, and the last one ends at the largest input. -/
theorem C27_roaming_bins (x : List ℝ) (nbin ntot : ℕ) (lin : Bool) (hx : x ≠ []) :
    ∃ T, roamingBinmaker x nbin ntot lin = .ok T ∧ T.lower.length = ntot ∧ Counts x T ∧
      (lin = true → 1 < ntot → T.lower.getD 0 0 = minOf x ∧ T.upper.getD (ntot - 1) 0 = maxOf x ∧
        ∀ i, i < ntot → T.upper.getD i 0 - T.lower.getD i 0 = (maxOf x - minOf x) / nbin) := by
  obtain ⟨mx1, mx2⟩ := maxOf_spec hx
  obtain ⟨mn1, mn2⟩ := minOf_spec hx
  have hab : |maxOf x - minOf x| = maxOf x - minOf x := abs_of_nonneg (by linarith [mn2 _ mx1])
  cases hlin : lin
  · refine ⟨_, by unfold roamingBinmaker; rw [if_neg hx, if_neg (by simp)], ?_, tabulate_counts _ _ _ _ ?_, ?_⟩
    · simp [tabulate, logspace, linspace]
    · simp [logspace, linspace]
    · simp
  · refine ⟨_, by unfold roamingBinmaker; rw [if_neg hx, if_pos rfl], ?_, tabulate_counts _ _ _ _ ?_, ?_⟩
    · simp [tabulate, linspace]
    · simp
    · intro _ hn
      have g : ∀ i, i < ntot → (linspace (minOf x) (maxOf x - |maxOf x - minOf x| / nbin) ntot).getD i 0 =
          minOf x + (i : ℝ) * ((maxOf x - |maxOf x - minOf x| / nbin - minOf x) / ((ntot : ℝ) - 1)) := by
        intro i hi
        rw [List.getD_eq_getElem?_getD, linspace, List.getElem?_map, List.getElem?_range hi]; rfl
      have g2 : ∀ i, i < ntot → ((linspace (minOf x) (maxOf x - |maxOf x - minOf x| / nbin) ntot).map
          (· + |maxOf x - minOf x| / nbin)).getD i 0 =
          minOf x + (i : ℝ) * ((maxOf x - |maxOf x - minOf x| / nbin - minOf x) / ((ntot : ℝ) - 1))
            + |maxOf x - minOf x| / nbin := by
        intro i hi
        rw [List.getD_eq_getElem?_getD, linspace, List.map_map, List.getElem?_map, List.getElem?_range hi]; rfl
      simp only [tabulate]
      refine ⟨?_, ?_, ?_⟩
      · rw [g 0 (by omega)]; simp
      · rw [g2 _ (by omega)]
        have h1 : ((ntot - 1 : ℕ) : ℝ) = (ntot : ℝ) - 1 := by rw [Nat.cast_sub (by omega)]; simp
        have h2 : (ntot : ℝ) - 1 ≠ 0 := by
          have : (1 : ℝ) < ntot := by exact_mod_cast hn
          linarith
        rw [h1, mul_div_cancel₀ _ h2]; ring
      · intro i hi
        rw [g _ hi, g2 _ hi, hab]; ring

/-- C27 instance. -/
example : ∃ T, roamingBinmaker [3, 1, 2, 1] 2 5 true = .ok T ∧ T.lower.length = 5 := by
  obtain ⟨T, h, h2, -⟩ := C27_roaming_bins [3, 1, 2, 1] 2 5 true (by simp)
  exact ⟨T, h, h2⟩

theorem npSort_perm (x : List ℝ) : (npSort x).Perm x := List.mergeSort_perm _ _

theorem npSort_sorted (x : List ℝ) : (npSort x).Pairwise (· ≤ ·) := by
  have := List.pairwise_mergeSort (le := fun (a b : ℝ) => decide (a ≤ b))
    (fun a b c h1 h2 => by simp only [decide_eq_true_eq] at *; exact h1.trans h2)
    (fun a b => by simp only [Bool.or_eq_true, decide_eq_true_eq]; exact le_total a b) x
  exact this.imp (by simp)

/-- C27: on distinct values (at least two), for `nbin ≥ 1` and `ntot ≥ 2`, `roaming_nbinmaker` returns a table
whose histogram and sums are exactly those of the inputs in `[lower,upper)` (last one closed).  Missing from
the full property: inputs with ties, where it is false (next theorem). -/
theorem C27_roaming_nbins_partial (x : List ℝ) (nbin ntot : ℕ) (hx : x.Nodup) (h2 : 2 ≤ x.length) (hb : 0 < nbin)
    (ht : 2 ≤ ntot) : ∃ T, roamingNbinmaker x nbin ntot = .ok T ∧ Counts x T ∧ T.lower ≠ [] := by
  classical
  set n := x.length with hn
  have hxs : (npSort x).length = n := (npSort_perm x).length_eq
  have hss : (npSort x).Pairwise (· < ·) := by
    have := (npSort_sorted x).and ((npSort_perm x).nodup_iff.mpr hx)
    exact this.imp fun h => lt_of_le_of_ne h.1 h.2
  have hne : x ≠ [] := by intro h; rw [h] at hn; simp at hn; omega
  obtain ⟨m1, m2⟩ := maxOf_spec hne
  have hnb : (0 : ℝ) < nbin := by exact_mod_cast hb
  have hnr : (2 : ℝ) ≤ n := by exact_mod_cast h2
  have hdx : (0 : ℝ) < 1 / nbin := by positivity
  have hdx1 : (1 : ℝ) / nbin ≤ 1 := by
    rw [div_le_one hnb]; exact_mod_cast hb
  have htr : (1 : ℝ) < (ntot : ℝ) := by exact_mod_cast (by omega : 1 < ntot)
  have hidx : ∀ f : ℝ, f ≤ 1 → ⌊f * ((n : ℝ) - 1)⌋₊ < (npSort x).length := by
    intro f hf
    have : ⌊f * ((n : ℝ) - 1)⌋₊ ≤ n - 1 := by
      have e : (n : ℝ) - 1 = ((n - 1 : ℕ) : ℝ) := by rw [Nat.cast_sub (by omega)]; simp
      calc ⌊f * ((n : ℝ) - 1)⌋₊ ≤ ⌊((n - 1 : ℕ) : ℝ)⌋₊ := by
            apply Nat.floor_le_floor
            rw [← e]; nlinarith
        _ = n - 1 := Nat.floor_natCast _
    omega
  set pk : ℝ → ℝ := fun f => (npSort x).getD ⌊f * ((n : ℝ) - 1)⌋₊ 0 with hpk
  have hpick : ∀ f : ℝ, f ≤ 1 → (match (npSort x)[⌊f * ((x.length : ℝ) - 1)⌋₊]? with
      | none => Except.error Err.indexError
      | some v => .ok v) = .ok (pk f) := by
    intro f hf
    rw [← hn, List.getElem?_eq_getElem (hidx f hf)]
    simp only [hpk, List.getD_eq_getElem?_getD, List.getElem?_eq_getElem (hidx f hf), Option.getD_some]
  set fl : ℕ → ℝ := fun i => 0 + (i : ℝ) * ((1 - 1 / (nbin : ℝ) - 0) / ((ntot : ℝ) - 1)) with hfl
  have hflow : linspace 0 (1 - 1 / (nbin : ℝ)) ntot = (List.range ntot).map fl := rfl
  have hfl1 : ∀ i, i < ntot → fl i ≤ 1 - 1 / (nbin : ℝ) := by
    intro i hi
    have h1 : (i : ℝ) ≤ (ntot : ℝ) - 1 := by
      have : ((i + 1 : ℕ) : ℝ) ≤ (ntot : ℝ) := by exact_mod_cast hi
      push_cast at this; linarith
    have h3 : (i : ℝ) / ((ntot : ℝ) - 1) ≤ 1 := by rw [div_le_one (by linarith)]; exact h1
    have e : fl i = (1 - 1 / (nbin : ℝ)) * ((i : ℝ) / ((ntot : ℝ) - 1)) := by simp only [hfl]; ring
    rw [e]
    exact mul_le_of_le_one_right (by linarith) h3
  have hfll : fl (ntot - 1) = 1 - 1 / (nbin : ℝ) := by
    have h1 : ((ntot - 1 : ℕ) : ℝ) = (ntot : ℝ) - 1 := by rw [Nat.cast_sub (by omega)]; simp
    have h3 : (ntot : ℝ) - 1 ≠ 0 := by linarith
    simp only [hfl]
    rw [h1, mul_div_cancel₀ _ h3]; ring
  set Z := (List.range ntot).map (fun i => (pk (fl i), pk (fl i + 1 / (nbin : ℝ)))) with hZ
  have hzip : List.zip ((List.range ntot).map (fun i => pk (fl i)))
      ((List.range ntot).map (fun i => pk (fl i + 1 / (nbin : ℝ)))) = Z := List.zip_map'
  set keep := Z.filter (fun p => decide (p.1 ≠ p.2)) with hkeep
  -- the last interval ends at the largest value
  have hlast1 : pk (fl (ntot - 1) + 1 / (nbin : ℝ)) = maxOf x := by
    rw [hfll, sub_add_cancel]
    have e : (n : ℝ) - 1 = ((n - 1 : ℕ) : ℝ) := by rw [Nat.cast_sub (by omega)]; simp
    simp only [hpk]
    rw [one_mul, e, Nat.floor_natCast, List.getD_eq_getElem?_getD, List.getElem?_eq_getElem (by omega), Option.getD_some]
    apply le_antisymm
    · exact m2 _ ((npSort_perm x).mem_iff.mp (List.getElem_mem _))
    · obtain ⟨k, hk, ek⟩ := List.mem_iff_getElem.mp ((npSort_perm x).mem_iff.mpr m1)
      rw [← ek]
      rcases Nat.lt_or_ge k (n - 1) with h | h
      · exact (List.pairwise_iff_getElem.mp hss k (n - 1) hk (by omega) h).le
      · have : k = n - 1 := by omega
        subst this; rfl
  have hlast0 : pk (fl (ntot - 1)) ≠ maxOf x := by
    have hf : ⌊(1 - 1 / (nbin : ℝ)) * ((n : ℝ) - 1)⌋₊ < n - 1 := by
      rw [Nat.floor_lt (mul_nonneg (by linarith) (by linarith))]
      rw [Nat.cast_sub (by omega)]
      have : 0 < 1 / (nbin : ℝ) * ((n : ℝ) - 1) := mul_pos hdx (by linarith)
      push_cast; linarith
    rw [← hlast1, hfll, sub_add_cancel]
    have e : (n : ℝ) - 1 = ((n - 1 : ℕ) : ℝ) := by rw [Nat.cast_sub (by omega)]; simp
    simp only [hpk]
    rw [one_mul]
    conv_rhs => rw [e, Nat.floor_natCast]
    rw [List.getD_eq_getElem?_getD, List.getElem?_eq_getElem (by omega), Option.getD_some, List.getD_eq_getElem?_getD,
      List.getElem?_eq_getElem (by omega), Option.getD_some]
    exact (List.pairwise_iff_getElem.mp hss _ _ (by omega) (by omega) hf).ne
  have hkl : ∃ K lo, keep = K ++ [(lo, maxOf x)] := by
    obtain ⟨t, rfl⟩ : ∃ t, ntot = t + 1 := ⟨ntot - 1, by omega⟩
    rw [hkeep, hZ, List.range_succ, List.map_append, List.filter_append]
    simp only [Nat.add_sub_cancel] at hlast0 hlast1
    refine ⟨((List.range t).map (fun i => (pk (fl i), pk (fl i + 1 / (nbin : ℝ))))).filter
      (fun p => decide (p.1 ≠ p.2)), pk (fl t), ?_⟩
    rw [List.map_cons, List.map_nil, List.filter_cons_of_pos, List.filter_nil, hlast1]
    simp only [decide_eq_true_eq]; rw [hlast1]; exact hlast0
  obtain ⟨K, lo, hK⟩ := hkl
  have hmem : ∀ i, i < keep.length →
      roamMembers x keep i = inBin keep x i := by
    intro i hi
    have e : keep[i]? = some (keep.getD i (0, 0)) := by
      rw [List.getD_eq_getElem?_getD, List.getElem?_eq_getElem hi]; rfl
    unfold inBin roamMembers
    split
    · rename_i h
      apply List.filter_congr
      intro v _
      rw [← Bool.decide_and, decide_eq_decide]
      constructor
      · rintro ⟨h1, h3⟩; exact ⟨_, _, e, h1, Or.inl h3⟩
      · rintro ⟨lo, hi, e', h1, h3⟩
        rw [e] at e'
        have e' := Option.some.inj e'
        rw [e']
        rcases h3 with h3 | ⟨h3, -⟩
        · exact ⟨h1, h3⟩
        · omega
    · rename_i h
      apply List.filter_congr
      intro v hv
      rw [decide_eq_decide]
      have hi2 : (keep.getD i (0, 0)).2 = maxOf x := by
        have hlen : i = K.length := by
          have := congrArg List.length hK
          simp at this; omega
        rw [List.getD_eq_getElem?_getD, hK, hlen, List.getElem?_append_right le_rfl]; simp
      constructor
      · intro h1
        refine ⟨(keep.getD i (0, 0)).1, (keep.getD i (0, 0)).2, e, h1, ?_⟩
        rw [hi2]
        rcases lt_or_eq_of_le (m2 v hv) with h3 | h3
        · exact Or.inl h3
        · exact Or.inr ⟨by omega, h3⟩
      · rintro ⟨lo, hi, e', h1, -⟩
        rw [e] at e'
        have e' := Option.some.inj e'
        rw [e']; exact h1
  have hz2 : List.zip (keep.map Prod.fst) (keep.map Prod.snd) = keep := by rw [List.zip_map']; simp
  obtain ⟨mid, hT⟩ : ∃ mid, roamingNbinmaker x nbin ntot = .ok
      { lower := keep.map Prod.fst, mid := mid, upper := keep.map Prod.snd,
        hist := (List.range keep.length).map (fun i => ((inBin keep x i).length : ℝ)),
        sum := (List.range keep.length).map (fun i => (inBin keep x i).sum) } := by
    refine ⟨List.zipWith (· / ·) ((List.range keep.length).map (fun i => (inBin keep x i).sum))
      ((List.range keep.length).map (fun i => ((inBin keep x i).length : ℝ))), ?_⟩
    unfold roamingNbinmaker
    dsimp only
    rw [hflow, List.map_map, mapM_ok _ _ pk, mapM_ok _ _ pk, List.map_map, List.map_map]
    · simp only [bind, Except.bind, pure, Except.pure, Function.comp_def]
      rw [hzip, ← hkeep]
      have e1 : ∀ G : List ℝ → ℝ, (List.range keep.length).map (fun i => G (roamMembers x keep i)) =
          (List.range keep.length).map (fun i => G (inBin keep x i)) := by
        intro G
        refine List.map_congr_left fun j hj => ?_
        rw [hmem j (List.mem_range.mp hj)]
      unfold roamTable
      rw [e1 List.sum, e1 (fun l => (l.length : ℝ))]
    · intro f hf
      obtain ⟨i, hi, rfl⟩ := List.mem_map.mp hf
      have := hfl1 i (List.mem_range.mp hi)
      exact hpick _ (by simp only [Function.comp]; linarith)
    · intro f hf
      obtain ⟨i, hi, rfl⟩ := List.mem_map.mp hf
      have := hfl1 i (List.mem_range.mp hi)
      exact hpick _ (by linarith)
  refine ⟨_, hT, ⟨by simp, ?_, ?_⟩, ?_⟩
  · simp only [hz2, List.length_map]
  · simp only [hz2, List.length_map]
  · simp only [hK]; simp

/-- C27 instance. -/
example : ∃ T, roamingNbinmaker [3, 1, 2, 5] 2 3 = .ok T ∧ Counts [3, 1, 2, 5] T := by
  obtain ⟨T, h, h2, -⟩ := C27_roaming_nbins_partial [3, 1, 2, 5] 2 3 (by norm_num) (by simp) (by norm_num)
    (by norm_num)
  exact ⟨T, h, h2⟩

theorem npSort_of_sorted {x : List ℝ} (h : x.Pairwise (· ≤ ·)) : npSort x = x :=
  List.mergeSort_eq_self _ (h.imp (by simp))

/-- C27 is false of the code on inputs with ties: here `roaming_nbinmaker(x, nbin=4, ntot=3)` returns the single
interval `[0,1)` and claims that all nine values lie in it, although only two do (six if it is closed). -/
theorem C27_roaming_nbins_violated :
    ∃ T, roamingNbinmaker [0, 0, 1, 1, 1, 1, 2, 2, 2] 4 3 = .ok T ∧ T.lower = [0] ∧ T.upper = [1] ∧ T.hist = [9] ∧
      ¬ Counts [0, 0, 1, 1, 1, 1, 2, 2, 2] T := by
  set x : List ℝ := [0, 0, 1, 1, 1, 1, 2, 2, 2] with hx
  have hs : npSort x = x := npSort_of_sorted (by simp [hx])
  have hfl : linspace 0 (1 - 1 / ((4 : ℕ) : ℝ)) 3 = [0, 3 / 8, 3 / 4] := by
    simp [linspace, List.range_succ]; norm_num
  have f1 : ∀ (q : ℝ) (k : ℕ), (k : ℝ) ≤ q → q < k + 1 → ⌊q⌋₊ = k := by
    intro q k h1 h2
    exact (Nat.floor_eq_iff (le_trans (by positivity) h1)).mpr ⟨h1, h2⟩
  have hl : (x.length : ℝ) - 1 = 8 := by simp [hx]; norm_num
  obtain ⟨T, hT⟩ : ∃ T, roamingNbinmaker x 4 3 = .ok T ∧ T.lower = [0] ∧ T.upper = [1] ∧ T.hist = [9] := by
    unfold roamingNbinmaker
    dsimp only
    rw [hfl, hs, hl]
    simp only [List.map_cons, List.map_nil]
    rw [mapM_ok _ _ (fun f => x.getD ⌊f * 8⌋₊ 0), mapM_ok _ _ (fun f => x.getD ⌊f * 8⌋₊ 0)]
    · simp only [List.map_cons, List.map_nil]
      rw [f1 (0 * 8) 0 (by norm_num) (by norm_num), f1 (3 / 8 * 8) 3 (by norm_num) (by norm_num),
        f1 (3 / 4 * 8) 6 (by norm_num) (by norm_num), f1 ((0 + 1 / ((4 : ℕ) : ℝ)) * 8) 2 (by norm_num) (by norm_num),
        f1 ((3 / 8 + 1 / ((4 : ℕ) : ℝ)) * 8) 5 (by norm_num) (by norm_num),
        f1 ((3 / 4 + 1 / ((4 : ℕ) : ℝ)) * 8) 8 (by norm_num) (by norm_num)]
      have hk : (List.zip [x.getD 0 0, x.getD 3 0, x.getD 6 0] [x.getD 2 0, x.getD 5 0, x.getD 8 0]).filter
          (fun p => decide (p.1 ≠ p.2)) = [(0, 1)] := by simp [hx]
      simp only [bind, Except.bind, pure, Except.pure]
      rw [hk]
      refine ⟨_, rfl, rfl, rfl, ?_⟩
      simp [roamTable, roamMembers, hx]
    · intro f hf
      simp only [List.mem_cons, List.not_mem_nil, or_false] at hf
      have : ⌊f * 8⌋₊ < x.length := by
        have : ⌊f * 8⌋₊ ≤ 8 := by
          rw [← Nat.floor_natCast (R := ℝ) 8]
          apply Nat.floor_le_floor
          rcases hf with rfl | rfl | rfl <;> norm_num
        have h9 : x.length = 9 := by simp [hx]
        omega
      rw [List.getElem?_eq_getElem this, List.getD_eq_getElem?_getD, List.getElem?_eq_getElem this]
      rfl
    · intro f hf
      simp only [List.mem_cons, List.not_mem_nil, or_false] at hf
      have : ⌊f * 8⌋₊ < x.length := by
        have : ⌊f * 8⌋₊ ≤ 8 := by
          rw [← Nat.floor_natCast (R := ℝ) 8]
          apply Nat.floor_le_floor
          rcases hf with rfl | rfl | rfl <;> norm_num
        have h9 : x.length = 9 := by simp [hx]
        omega
      rw [List.getElem?_eq_getElem this, List.getD_eq_getElem?_getD, List.getElem?_eq_getElem this]
      rfl
  obtain ⟨h0, h1, h2, h3⟩ := hT
  refine ⟨T, h0, h1, h2, h3, ?_⟩
  rintro ⟨-, hc, -⟩
  classical
  rw [h1, h2, h3] at hc
  simp only [List.length_singleton, List.range_one, List.map_cons, List.map_nil, List.cons.injEq, and_true,
    List.zip_cons_cons, List.zip_nil_left] at hc
  have hb : (inBin [((0 : ℝ), (1 : ℝ))] x 0).length < 9 := by
    unfold inBin
    have h9 : x.length = 9 := by simp [hx]
    rw [← h9]
    refine List.length_filter_lt_length_iff_exists.mpr ⟨2, by simp [hx], ?_⟩
    simp only [decide_eq_true_eq]
    rintro ⟨lo, hi, e, -, h⟩
    simp at e
    obtain ⟨rfl, rfl⟩ := e
    rcases h with h | ⟨-, h⟩ <;> norm_num at h
  have : ((inBin [((0 : ℝ), (1 : ℝ))] x 0).length : ℝ) < 9 := by exact_mod_cast hb
  linarith

end

end CT
