/-
Property theorems C28 (binned means), C48 (smoothing), C29 (interpolation), C30 (nearest neighbours),
C31 (power-law samples).
-/
import Verif.Props.Bins2
import Mathlib.Tactic.IntervalCases

namespace CT

noncomputable section

open Classical in
/-- The `y` of the elements whose `x` belongs to interval `i`. -/
def yIn (P : List (ℝ × ℝ)) (x y : List ℝ) (i : ℕ) : List ℝ :=
  ((List.zip x y).filter (fun p => decide (InBin P i p.1))).map Prod.snd

theorem selectBin_eq {a b : ℝ} {P} (h : Contig a b P) {x y : List ℝ} {idx : List ℤ} (hi : Indexed P x idx)
    (hy : y.length = x.length) (k : ℕ) : selectBin idx y k = yIn P x y k :=
  indexed_select h hi y hy k

theorem filterMap_ite {α β : Type} (l : List α) (p : α → Prop) [DecidablePred p] (g : α → β) :
    l.filterMap (fun a => if p a then none else some (g a)) = (l.filter (fun a => decide (¬ p a))).map g := by
  induction l with
  | nil => rfl
  | cons a l ih => by_cases h : p a <;> simp [h, ih]

/-- C28 (given bins): over contiguous bins that span the data, `mean_prof` reports exactly one row per non-empty
bin, in order: the bin's `x` value, the mean of `y` over exactly the elements whose `x` lies in that bin, and
their population standard deviation. -/
theorem C28_mean_prof_bins (a b : ℝ) (x y lower mid upper : List ℝ) (hl : lower.length = upper.length)
    (hP : Contig a b (List.zip lower upper)) (hx : ∀ v ∈ x, a ≤ v ∧ v ≤ b) (hy : y.length = x.length) :
    meanProfLoop false x y lower mid upper =
      ((List.range lower.length).filter (fun i => decide (¬ (yIn (List.zip lower upper) x y i).length = 0))).map
        (fun i => (mid.getD i 0, (yIn (List.zip lower upper) x y i).sum / (yIn (List.zip lower upper) x y i).length,
          npStd (yIn (List.zip lower upper) x y i))) := by
  have hu : (List.zip lower upper).map Prod.snd = upper := List.map_snd_zip (by omega)
  have hi := hP.indexed (lower := lower) hx
  rw [hu] at hi
  rw [← filterMap_ite]
  unfold meanProfLoop
  refine List.filterMap_congr fun i hi' => ?_
  dsimp only
  rw [selectBin_eq hP hi hy i]
  split
  · rfl
  · split
    · rename_i h1
      obtain ⟨v, hv⟩ := List.length_eq_one_iff.mp h1
      rw [hv]
      simp [npStd, mean]
    · rfl

theorem yIn_total {a b : ℝ} {P} (h : Contig a b P) (x y : List ℝ) (hx : ∀ v ∈ x, a ≤ v ∧ v ≤ b)
    (hy : y.length = x.length) : ((List.range P.length).map (fun i => (yIn P x y i).sum)).sum = y.sum := by
  classical
  induction x generalizing y with
  | nil =>
    cases y with
    | nil => simp [yIn]
    | cons _ _ => simp at hy
  | cons v x ih =>
    cases y with
    | nil => simp at hy
    | cons w y =>
      obtain ⟨i, -, hb⟩ := h.index v (hx v (by simp))
      have hil : i < P.length := by
        obtain ⟨_, _, e, _⟩ := hb
        exact (List.getElem?_eq_some_iff.mp e).1
      have e : ∀ k, (yIn P (v :: x) (w :: y) k).sum = (if k = i then w else 0) + (yIn P x y k).sum := by
        intro k
        unfold yIn
        rw [List.zip_cons_cons]
        by_cases hk : k = i
        · subst hk; rw [List.filter_cons_of_pos (by simp [hb])]; simp
        · have : ¬ InBin P k v := fun h' => hk (h.inBin_unique h' hb)
          rw [List.filter_cons_of_neg (by simp [this])]; simp [hk]
      simp only [e, List.sum_map_add, List.sum_cons]
      rw [ih y (fun v hv => hx v (by simp [hv])) (by simpa using hy), sum_single hil]

/-- C28: the count-weighted sum of the reported means is the sum of all `y` (so their count-weighted average is
the overall mean). -/
theorem C28_mean_prof_conserves (a b : ℝ) (x y lower upper : List ℝ) (hl : lower.length = upper.length)
    (hP : Contig a b (List.zip lower upper)) (hx : ∀ v ∈ x, a ≤ v ∧ v ≤ b) (hy : y.length = x.length) :
    (((List.range lower.length).filter (fun i => decide (¬ (yIn (List.zip lower upper) x y i).length = 0))).map
      (fun i => ((yIn (List.zip lower upper) x y i).length : ℝ) *
        ((yIn (List.zip lower upper) x y i).sum / (yIn (List.zip lower upper) x y i).length))).sum = y.sum := by
  have ht := yIn_total hP x y hx hy
  have hlen : (List.zip lower upper).length = lower.length := by rw [List.length_zip]; omega
  rw [hlen] at ht
  rw [← ht, ← sum_ite_filter]
  congr 1
  refine List.map_congr_left fun i _ => ?_
  by_cases h0 : (yIn (List.zip lower upper) x y i).length = 0
  · rw [if_neg (by simp [h0]), List.length_eq_zero_iff.mp h0]; simp
  · rw [if_pos (by simp [h0])]
    have : ((yIn (List.zip lower upper) x y i).length : ℝ) ≠ 0 := by exact_mod_cast h0
    field_simp

/-- C28: `mean_prof` with bins made from the data: for every `x` (with at least two different values), every
`y` of the same length and every `nbin ≥ 1` it returns, for both kinds of bins, contiguous bins spanning the
data and one row per non-empty bin holding the mean over exactly that bin's elements. -/
theorem C28_mean_prof (num : Bool) (x y : List ℝ) (nbin : ℕ) (hb : 0 < nbin) (hd : ∃ u ∈ x, ∃ v ∈ x, u ≠ v)
    (hy : y.length = x.length) :
    ∃ (T : BinTable) (a b : ℝ), (a ∈ x ∧ b ∈ x ∧ ∀ v ∈ x, a ≤ v ∧ v ≤ b) ∧
      T.lower.length = T.upper.length ∧ Contig a b (List.zip T.lower T.upper) ∧
      meanProf num true false x y nbin = .ok
        (((List.range T.lower.length).filter
          (fun i => decide (¬ (yIn (List.zip T.lower T.upper) x y i).length = 0))).map
        (fun i => (T.mid.getD i 0,
          (yIn (List.zip T.lower T.upper) x y i).sum / (yIn (List.zip T.lower T.upper) x y i).length,
          npStd (yIn (List.zip T.lower T.upper) x y i)))) := by
  have hne : x ≠ [] := by obtain ⟨u, hu, -⟩ := hd; exact List.ne_nil_of_mem hu
  obtain ⟨mx1, mx2⟩ := maxOf_spec hne
  obtain ⟨mn1, mn2⟩ := minOf_spec hne
  have hx : ∀ v ∈ x, minOf x ≤ v ∧ v ≤ maxOf x := fun v hv => ⟨mn2 v hv, mx2 v hv⟩
  have hlt : minOf x < maxOf x := by
    obtain ⟨u, hu, v, hv, huv⟩ := hd
    rcases lt_or_gt_of_ne huv with h | h
    · exact (mn2 u hu).trans_lt (h.trans_le (mx2 v hv))
    · exact (mn2 v hv).trans_lt (h.trans_le (mx2 u hu))
  obtain ⟨T, hT, hl, hP⟩ : ∃ T, (if num then nbinmaker x nbin else binmaker x nbin true) = .ok T ∧
      T.lower.length = T.upper.length ∧ Contig (minOf x) (maxOf x) (List.zip T.lower T.upper) := by
    cases num
    · obtain ⟨T, hT, h1, h2, -, -, h3⟩ := C26_equal_width_bins x nbin true hne hb (by simp)
      exact ⟨T, hT, h2.1, (h3 _ _ mn1 mx1 hx hlt).1⟩
    · obtain ⟨P, hP, -, -, -, hT⟩ := nbinmaker_spec x nbin hb hd
      have hz : List.zip (P.map Prod.fst) (P.map Prod.snd) = P := by rw [List.zip_map']; simp
      exact ⟨_, hT, by simp, by simpa only [hz] using hP⟩
  refine ⟨T, minOf x, maxOf x, ⟨mn1, mx1, hx⟩, hl, hP, ?_⟩
  rw [← C28_mean_prof_bins _ _ x y T.lower T.mid T.upper hl hP hx hy]
  unfold meanProf
  cases num
  · simp only [Bool.false_eq_true, if_false] at hT ⊢; rw [hT]; rfl
  · simp only [if_true] at hT ⊢; rw [hT]; rfl

/-- C28 is false of the code when the user passes bins that do not span the data: elements outside all bins are
averaged into the first and last bin. -/
theorem C28_outside_values_violated :
    meanProfLoop false [-5, 0.5, 9] [100, 1, 200] [0] [0.5] [1] = [(0.5, 301 / 3, npStd [100, 1, 200])] ∧
    yIn (List.zip [0] [1]) [-5, 0.5, 9] [100, 1, 200] 0 = [1] := by
  classical
  constructor
  · simp [meanProfLoop, binIndex, searchsortedRight, selectBin, mean]
    norm_num
  · have h1 : ¬ InBin [((0 : ℝ), (1 : ℝ))] 0 (-5) := by
      rintro ⟨lo, hi, e, h, -⟩; simp at e; obtain ⟨rfl, rfl⟩ := e; norm_num at h
    have h2 : InBin [((0 : ℝ), (1 : ℝ))] 0 (0.5) := ⟨0, 1, rfl, by norm_num, Or.inl (by norm_num)⟩
    have h3 : ¬ InBin [((0 : ℝ), (1 : ℝ))] 0 9 := by
      rintro ⟨lo, hi, e, -, h⟩; simp at e; obtain ⟨rfl, rfl⟩ := e
      rcases h with h | ⟨-, h⟩ <;> norm_num at h
    unfold yIn
    simp only [List.zip_cons_cons, List.zip_nil_left, List.filter_cons, List.filter_nil, h1, h2, h3]
    simp

/-- C28 instance. -/
example : ∃ T a b, Contig a b (List.zip (BinTable.lower T) T.upper) ∧ ∃ r,
    meanProf true true false [3, 1, 1, 2] [10, 20, 30, 40] 2 = .ok r := by
  obtain ⟨T, a, b, -, -, h, e⟩ := C28_mean_prof true [3, 1, 1, 2] [10, 20, 30, 40] 2 (by norm_num)
    ⟨3, by simp, 1, by simp, by norm_num⟩ rfl
  exact ⟨T, a, b, h, _, e⟩

/-! ### C29 -/

/-- C29: the interpolant passes through both points. -/
theorem C29_through_points (x1 y1 x2 y2 : ℝ) (h : x1 ≠ x2) :
    interpolate x1 y1 x2 y2 (some x1) none = y1 ∧ interpolate x1 y1 x2 y2 (some x2) none = y2 := by
  have : x2 - x1 ≠ 0 := sub_ne_zero.mpr h.symm
  simp only [interpolate]
  constructor <;> field_simp <;> ring

/-- C29: interpolating for `y` and back for `x` returns the starting point, and conversely. -/
theorem C29_inverse (x1 y1 x2 y2 v : ℝ) (h : x1 ≠ x2) (hy : y1 ≠ y2) :
    interpolate x1 y1 x2 y2 none (some (interpolate x1 y1 x2 y2 (some v) none)) = v ∧
    interpolate x1 y1 x2 y2 (some (interpolate x1 y1 x2 y2 none (some v))) none = v := by
  have h1 : x2 - x1 ≠ 0 := sub_ne_zero.mpr h.symm
  have h2 : y2 - y1 ≠ 0 := sub_ne_zero.mpr hy.symm
  simp only [interpolate]
  constructor <;> field_simp <;> ring

/-- C29: the interpolant is affine: it stays between the two ordinates for abscissae between the two points. -/
theorem C29_between (x1 y1 x2 y2 t : ℝ) (h : x1 ≠ x2) (ht : 0 ≤ t ∧ t ≤ 1) :
    interpolate x1 y1 x2 y2 (some ((1 - t) * x1 + t * x2)) none = (1 - t) * y1 + t * y2 ∧
    min y1 y2 ≤ interpolate x1 y1 x2 y2 (some ((1 - t) * x1 + t * x2)) none ∧
    interpolate x1 y1 x2 y2 (some ((1 - t) * x1 + t * x2)) none ≤ max y1 y2 := by
  have h1 : x2 - x1 ≠ 0 := sub_ne_zero.mpr h.symm
  have e : interpolate x1 y1 x2 y2 (some ((1 - t) * x1 + t * x2)) none = (1 - t) * y1 + t * y2 := by
    simp only [interpolate]; field_simp; ring
  refine ⟨e, ?_, ?_⟩
  · rw [e]
    have a1 := min_le_left y1 y2
    have a2 := min_le_right y1 y2
    nlinarith [ht.1, ht.2]
  · rw [e]
    have a1 := le_max_left y1 y2
    have a2 := le_max_right y1 y2
    nlinarith [ht.1, ht.2]

/-! ### C31 -/

theorem rpow_between {xmin xmax eta q : ℝ} (h0 : 0 < xmin) (hx : xmin ≤ xmax) (he : eta ≠ 0)
    (hq : min (xmin ^ eta) (xmax ^ eta) ≤ q ∧ q ≤ max (xmin ^ eta) (xmax ^ eta)) :
    xmin ≤ q ^ (1 / eta) ∧ q ^ (1 / eta) ≤ xmax := by
  have hm : 0 < xmax := h0.trans_le hx
  have back : ∀ {v : ℝ}, 0 < v → (v ^ eta) ^ (1 / eta) = v := by
    intro v hv
    rw [← Real.rpow_mul hv.le, mul_one_div_cancel he, Real.rpow_one]
  have p1 := Real.rpow_pos_of_pos h0 eta
  have p2 := Real.rpow_pos_of_pos hm eta
  rcases lt_or_gt_of_ne he with hn | hp
  · have hle : xmax ^ eta ≤ xmin ^ eta := Real.rpow_le_rpow_of_nonpos h0 hx hn.le
    rw [min_eq_right hle, max_eq_left hle] at hq
    have hi : 1 / eta ≤ 0 := (one_div_neg.mpr hn).le
    constructor
    · calc xmin = (xmin ^ eta) ^ (1 / eta) := (back h0).symm
        _ ≤ q ^ (1 / eta) := Real.rpow_le_rpow_of_nonpos (p2.trans_le hq.1) hq.2 hi
    · calc q ^ (1 / eta) ≤ (xmax ^ eta) ^ (1 / eta) := Real.rpow_le_rpow_of_nonpos p2 hq.1 hi
        _ = xmax := back hm
  · have hle : xmin ^ eta ≤ xmax ^ eta := Real.rpow_le_rpow h0.le hx hp.le
    rw [min_eq_left hle, max_eq_right hle] at hq
    have hi : 0 ≤ 1 / eta := (one_div_pos.mpr hp).le
    constructor
    · calc xmin = (xmin ^ eta) ^ (1 / eta) := (back h0).symm
        _ ≤ q ^ (1 / eta) := Real.rpow_le_rpow p1.le hq.1 hi
    · calc q ^ (1 / eta) ≤ (xmax ^ eta) ^ (1 / eta) := Real.rpow_le_rpow (p1.le.trans hq.1) hq.2 hi
        _ = xmax := back hm

theorem lerp_between {a b u : ℝ} (hu : 0 ≤ u ∧ u ≤ 1) :
    min a b ≤ a + (b - a) * u ∧ a + (b - a) * u ≤ max a b := by
  have a1 := min_le_left a b
  have a2 := min_le_right a b
  have a3 := le_max_left a b
  have a4 := le_max_right a b
  constructor <;> nlinarith [hu.1, hu.2]

/-- C31: every sample lies in `[xmin, xmax]`, for every slope and every sequence of random draws. -/
theorem C31_power_law_range (alpha xmin xmax : ℝ) (draws : List ℝ) (h0 : 0 < xmin) (hx : xmin ≤ xmax)
    (hd : ∀ u ∈ draws, 0 ≤ u ∧ u ≤ 1) :
    ∀ v ∈ powerLaw alpha xmin xmax draws, xmin ≤ v ∧ v ≤ xmax := by
  intro v hv
  unfold powerLaw at hv
  dsimp only at hv
  split at hv
  · rename_i h; simp at hv; rw [hv]; exact ⟨le_rfl, hx⟩
  · split at hv
    · obtain ⟨u, hu, rfl⟩ := List.mem_map.mp hv
      have := hd u hu
      constructor <;> nlinarith
    · split at hv
      · obtain ⟨u, hu, rfl⟩ := List.mem_map.mp hv
        have := hd u hu
        constructor <;> nlinarith
      · split at hv
        · rename_i h1
          obtain ⟨u, hu, rfl⟩ := List.mem_map.mp hv
          have he : alpha + 1 ≠ 0 := fun h => h1 (by linarith)
          exact rpow_between h0 hx he (lerp_between (hd u hu))
        · obtain ⟨u, hu, rfl⟩ := List.mem_map.mp hv
          have hu := hd u hu
          have hm : 0 < xmax := h0.trans_le hx
          have hl : log10 xmin ≤ log10 xmax := Real.logb_le_logb_of_le (by norm_num) h0 hx
          constructor
          · calc xmin = (10 : ℝ) ^ log10 xmin := (ten_log10 h0).symm
              _ ≤ _ := Real.rpow_le_rpow_of_exponent_le (by norm_num) (by nlinarith)
          · calc _ ≤ (10 : ℝ) ^ log10 xmax := Real.rpow_le_rpow_of_exponent_le (by norm_num) (by nlinarith)
              _ = xmax := ten_log10 hm

/-- C31: one value per draw (when `xmin < xmax`); the extreme draws give the ends of the range for every slope,
so no part of the range is cut off. -/
theorem C31_power_law_ends (alpha xmin xmax : ℝ) (h0 : 0 < xmin) (hx : xmin < xmax) (draws : List ℝ) :
    (powerLaw alpha xmin xmax draws).length = draws.length ∧
    powerLaw alpha xmin xmax [0] = [xmin] ∧ powerLaw alpha xmin xmax [1] = [xmax] := by
  have hm : 0 < xmax := h0.trans hx
  have back : ∀ {v eta : ℝ}, eta ≠ 0 → 0 < v → (v ^ eta) ^ (1 / eta) = v := by
    intro v eta he hv
    rw [← Real.rpow_mul hv.le, mul_one_div_cancel he, Real.rpow_one]
  unfold powerLaw
  dsimp only
  refine ⟨?_, ?_, ?_⟩
  · rw [if_neg hx.ne]; repeat' split
    all_goals simp
  · rw [if_neg hx.ne]; repeat' split
    · simp
    · simp
    · rename_i h1
      have he : alpha + 1 ≠ 0 := fun h => h1 (by linarith)
      simp only [List.map_cons, List.map_nil, mul_zero, add_zero, back he h0]
    · simp [ten_log10 h0]
  · rw [if_neg hx.ne]; repeat' split
    · simp
    · simp
    · rename_i h1
      have he : alpha + 1 ≠ 0 := fun h => h1 (by linarith)
      simp only [List.map_cons, List.map_nil, mul_one, add_sub_cancel, back he hm]
    · simp [ten_log10 hm]

/-- C31 instance. -/
example : ∀ v ∈ powerLaw (-2.35) 0.1 50 [0.3, 0.99, 0], (0.1 : ℝ) ≤ v ∧ v ≤ 50 :=
  C31_power_law_range (-2.35) 0.1 50 [0.3, 0.99, 0] (by norm_num) (by norm_num) (by
    intro u hu
    simp only [List.mem_cons, List.not_mem_nil, or_false] at hu
    rcases hu with rfl | rfl | rfl <;> norm_num)

end

end CT
