/-
Property theorems C30 (nearest neighbours) and C48 (smoothing).
-/
import Verif.Props.Recipes

namespace CT

noncomputable section

/-! ### C30 -/

/-- One step of the double loop of `minimum_distance` for the pair `p`. -/
def mdStep (x : List P4) (md : List ℝ) (p : ℕ × ℕ) : List ℝ :=
  (md.set p.1 (minUpd (distance x[p.1]! x[p.2]!) (md.getD p.1 0))).set p.2
    (minUpd (distance x[p.1]! x[p.2]!) ((md.set p.1 (minUpd (distance x[p.1]! x[p.2]!) (md.getD p.1 0))).getD p.2 0))

/-- The pairs visited by the double loop over `n` points, in order. -/
def mdPairs (n : ℕ) : List (ℕ × ℕ) :=
  (List.range (n - 1)).flatMap (fun i => (List.range' (i + 1) (n - (i + 1))).map (fun j => (i, j)))

theorem minimumDistance_eq (x : List P4) :
    minimumDistance x = (mdPairs x.length).foldl (mdStep x) (List.replicate x.length (-1)) := by
  unfold minimumDistance mdPairs
  rw [List.foldl_flatMap]
  congr 1
  funext md i
  rw [List.foldl_map]
  rfl

theorem mem_mdPairs {n : ℕ} {p : ℕ × ℕ} : p ∈ mdPairs n ↔ p.1 < p.2 ∧ p.2 < n := by
  obtain ⟨i, j⟩ := p
  simp only [mdPairs, List.mem_flatMap, List.mem_range, List.mem_map, List.mem_range'_1, Prod.mk.injEq]
  constructor
  · rintro ⟨a, ha, b, hb, rfl, rfl⟩; omega
  · rintro ⟨h1, h2⟩; exact ⟨i, by omega, j, by omega, rfl, rfl⟩

theorem distance_nonneg (a b : P4) : 0 ≤ distance a b := Real.sqrt_nonneg _

theorem distance_symm (a b : P4) : distance a b = distance b a := by
  unfold distance; congr 1; ring

/-- The invariant of the double loop after the pairs `L`: an entry is the unset mark if its point was in no pair
so far, otherwise the smallest distance over its pairs. -/
def MdInv (x : List P4) (L : List (ℕ × ℕ)) (md : List ℝ) : Prop :=
  md.length = x.length ∧ ∀ k, k < x.length →
    ((∀ p ∈ L, p.1 ≠ k ∧ p.2 ≠ k) ∧ md.getD k 0 = -1) ∨
    ((∃ p ∈ L, (p.1 = k ∨ p.2 = k) ∧ md.getD k 0 = distance x[p.1]! x[p.2]!) ∧
      ∀ p ∈ L, (p.1 = k ∨ p.2 = k) → md.getD k 0 ≤ distance x[p.1]! x[p.2]!)

theorem getD_set (l : List ℝ) (i k : ℕ) (v : ℝ) (hi : i < l.length) :
    (l.set i v).getD k 0 = if k = i then v else l.getD k 0 := by
  by_cases h : k = i
  · subst h; simp [List.getD_eq_getElem?_getD, hi]
  · simp [List.getD_eq_getElem?_getD, List.getElem?_set, h, Ne.symm h]

theorem mdStep_getD (x : List P4) (md : List ℝ) (p : ℕ × ℕ) (hp : p.1 < p.2) (h2 : p.2 < md.length) (k : ℕ) :
    (mdStep x md p).getD k 0 =
      if p.1 = k ∨ p.2 = k then minUpd (distance x[p.1]! x[p.2]!) (md.getD k 0) else md.getD k 0 := by
  unfold mdStep
  rw [getD_set _ _ _ _ (by simpa using h2), getD_set _ _ _ _ (by omega), getD_set _ _ _ _ (by omega)]
  by_cases h : k = p.2
  · subst h; rw [if_pos rfl, if_neg (by omega), if_pos (Or.inr rfl)]
  · by_cases h' : k = p.1
    · subst h'; rw [if_neg h, if_pos rfl, if_pos (Or.inl rfl)]
    · rw [if_neg h, if_neg h', if_neg (by rintro (h1 | h1) <;> simp_all)]

theorem mdInv_step {x : List P4} {L : List (ℕ × ℕ)} {md : List ℝ} (h : MdInv x L md) {p : ℕ × ℕ}
    (hp : p.1 < p.2) (h2 : p.2 < x.length) : MdInv x (L ++ [p]) (mdStep x md p) := by
  obtain ⟨hl, h⟩ := h
  refine ⟨by simp [mdStep, hl], fun k hk => ?_⟩
  rw [mdStep_getD x md p hp (by omega)]
  by_cases hkp : p.1 = k ∨ p.2 = k
  · right
    rw [if_pos hkp]
    rcases h k hk with ⟨hn, e⟩ | ⟨⟨q, hq, hqk, e⟩, hmin⟩
    · rw [e, minUpd, if_pos (by norm_num)]
      refine ⟨⟨p, by simp, hkp, rfl⟩, ?_⟩
      intro q hq hqk
      rcases List.mem_append.mp hq with hq | hq
      · have := hn q hq; tauto
      · simp at hq; rw [hq]
    · have hnn : ¬ md.getD k 0 < 0 := by rw [e]; exact not_lt.mpr (distance_nonneg _ _)
      rw [minUpd, if_neg hnn]
      refine ⟨?_, ?_⟩
      · rcases min_choice (md.getD k 0) (distance x[p.1]! x[p.2]!) with h1 | h1
        · exact ⟨q, by simp [hq], hqk, by rw [h1, e]⟩
        · exact ⟨p, by simp, hkp, h1⟩
      · intro q' hq' hqk'
        rcases List.mem_append.mp hq' with hq' | hq'
        · exact (min_le_left _ _).trans (hmin q' hq' hqk')
        · simp at hq'; rw [hq']; exact min_le_right _ _
  · rw [if_neg hkp]
    rcases h k hk with ⟨hn, e⟩ | ⟨⟨q, hq, hqk, e⟩, hmin⟩
    · left
      refine ⟨?_, e⟩
      intro q hq
      rcases List.mem_append.mp hq with hq | hq
      · exact hn q hq
      · simp at hq; rw [hq]; tauto
    · right
      refine ⟨⟨q, by simp [hq], hqk, e⟩, ?_⟩
      intro q' hq' hqk'
      rcases List.mem_append.mp hq' with hq' | hq'
      · exact hmin q' hq' hqk'
      · simp at hq'; rw [hq'] at hqk'; exact absurd hqk' hkp

theorem mdInv_foldl {x : List P4} (M : List (ℕ × ℕ)) (hM : ∀ p ∈ M, p.1 < p.2 ∧ p.2 < x.length)
    {L : List (ℕ × ℕ)} {md : List ℝ} (h : MdInv x L md) : MdInv x (L ++ M) (M.foldl (mdStep x) md) := by
  induction M generalizing L md with
  | nil => simpa using h
  | cons p M ih =>
    have hp := hM p (by simp)
    have := ih (fun q hq => hM q (by simp [hq])) (mdInv_step h hp.1 hp.2)
    simpa [List.append_assoc] using this

/-- C30: for every list of at least two points, `minimum_distance` returns one number per point, which is the
distance to some other point and is not larger than the distance to any other point. -/
theorem C30_minimum_distance (x : List P4) (hn : 2 ≤ x.length) :
    (minimumDistance x).length = x.length ∧ ∀ (k : ℕ) (hk : k < x.length),
      (∃ (j : ℕ) (hj : j < x.length), j ≠ k ∧ (minimumDistance x)[k]? = some (distance x[k] x[j])) ∧
      ∀ (j : ℕ) (hj : j < x.length), j ≠ k → (minimumDistance x).getD k 0 ≤ distance x[k] x[j] := by
  have h0 : MdInv x [] (List.replicate x.length (-1)) := by
    refine ⟨by simp, fun k hk => Or.inl ⟨by simp, ?_⟩⟩
    rw [List.getD_eq_getElem?_getD, List.getElem?_replicate, if_pos hk]; rfl
  have h := mdInv_foldl (mdPairs x.length) (fun p hp => mem_mdPairs.mp hp) h0
  rw [← minimumDistance_eq, List.nil_append] at h
  obtain ⟨hl, h⟩ := h
  refine ⟨hl, fun k hk => ?_⟩
  rcases h k hk with ⟨hn', -⟩ | ⟨⟨p, hp, hpk, e⟩, hmin⟩
  · exfalso
    rcases Nat.eq_zero_or_pos k with h | h
    · have := hn' (0, 1) (mem_mdPairs.mpr (by constructor <;> omega)); simp at this; omega
    · have := hn' (0, k) (mem_mdPairs.mpr ⟨h, hk⟩); simp at this
  · obtain ⟨p1, p2⟩ := mem_mdPairs.mp hp
    have q1 : p.1 < x.length := by omega
    refine ⟨?_, ?_⟩
    · have hg : (minimumDistance x)[k]? = some ((minimumDistance x).getD k 0) := by
        rw [List.getD_eq_getElem?_getD, List.getElem?_eq_getElem (by omega)]; rfl
      rw [e, getElem!_pos x _ q1, getElem!_pos x _ p2] at hg
      rcases hpk with rfl | rfl
      · exact ⟨p.2, p2, by omega, hg⟩
      · exact ⟨p.1, q1, by omega, by rw [hg, distance_symm]⟩
    · intro j hj hjk
      rcases lt_or_gt_of_ne hjk with hlt | hlt
      · have := hmin (j, k) (mem_mdPairs.mpr ⟨hlt, hk⟩) (Or.inr rfl)
        rw [getElem!_pos x j hj, getElem!_pos x k hk] at this
        rwa [distance_symm]
      · have := hmin (k, j) (mem_mdPairs.mpr ⟨hlt, hj⟩) (Or.inl rfl)
        rwa [getElem!_pos x j hj, getElem!_pos x k hk] at this

/-- C30: with a single point there is no other point and the mark `-1` is returned. -/
theorem C30_single (p : P4) : minimumDistance [p] = [-1] := by
  simp [minimumDistance]

/-- C30 instance: three points on a line. -/
example : (minimumDistance [⟨0, 0, 0, 1⟩, ⟨3, 0, 0, 1⟩, ⟨4, 0, 0, 1⟩]).getD 1 0 ≤
    distance ⟨3, 0, 0, 1⟩ ⟨4, 0, 0, 1⟩ :=
  ((C30_minimum_distance [⟨0, 0, 0, 1⟩, ⟨3, 0, 0, 1⟩, ⟨4, 0, 0, 1⟩] (by simp)).2 1 (by simp)).2 2 (by simp) (by simp)

/-! ### C48 -/

theorem mean_between {l : List ℝ} (h : l ≠ []) : minOf l ≤ mean l ∧ mean l ≤ maxOf l := by
  have hp : (0 : ℝ) < l.length := by exact_mod_cast List.length_pos_iff.mpr h
  obtain ⟨-, h1⟩ := minOf_spec h
  obtain ⟨-, h2⟩ := maxOf_spec h
  unfold mean
  constructor
  · rw [le_div_iff₀ hp, mul_comm, ← nsmul_eq_mul]
    exact List.card_nsmul_le_sum l _ h1
  · rw [div_le_iff₀ hp, mul_comm, ← nsmul_eq_mul]
    exact List.sum_le_card_nsmul l _ h2

theorem median_between {l : List ℝ} (h : l ≠ []) : minOf l ≤ median l ∧ median l ≤ maxOf l := by
  have hp : 0 < l.length := List.length_pos_iff.mpr h
  obtain ⟨-, h1⟩ := minOf_spec h
  obtain ⟨-, h2⟩ := maxOf_spec h
  have hg : ∀ i, i < l.length → minOf l ≤ (npSort l).getD i 0 ∧ (npSort l).getD i 0 ≤ maxOf l := by
    intro i hi
    have hpm := npSort_perm l
    have hi' : i < (npSort l).length := by rw [hpm.length_eq]; exact hi
    have hm : (npSort l).getD i 0 ∈ l := by
      rw [List.getD_eq_getElem?_getD, List.getElem?_eq_getElem hi']
      exact hpm.mem_iff.mp (List.getElem_mem hi')
    exact ⟨h1 _ hm, h2 _ hm⟩
  unfold median
  dsimp only
  split
  · exact hg _ (by omega)
  · obtain ⟨a1, a2⟩ := hg (l.length / 2 - 1) (by omega)
    obtain ⟨b1, b2⟩ := hg (l.length / 2) (by omega)
    constructor <;> linarith

theorem yIn_length {P : List (ℝ × ℝ)} (x y : List ℝ) (hy : y.length = x.length) (i : ℕ) :
    (yIn P x y i).length = (inBin P x i).length := by
  classical
  unfold yIn inBin
  rw [List.length_map]
  induction x generalizing y with
  | nil => simp
  | cons v x ih =>
    cases y with
    | nil => simp at hy
    | cons w y =>
      have := ih y (by simpa using hy)
      rw [List.zip_cons_cons]
      by_cases h : InBin P i v
      · rw [List.filter_cons_of_pos (by simp [h]), List.filter_cons_of_pos (by simp [h])]; simpa using this
      · rw [List.filter_cons_of_neg (by simp [h]), List.filter_cons_of_neg (by simp [h])]; simpa using this

/-- The row that `smooth` should report for the values `l` of a non-empty bin at `xb`. -/
def smoothRow (useMedian : Bool) (xb : ℝ) (l : List ℝ) : ℝ × ℝ × ℝ × ℝ × ℝ :=
  (xb, if useMedian then median l else mean l, npStd l, minOf l, maxOf l)

theorem smoothLoop_eq (med : Bool) (a b : ℝ) (x y : List ℝ) (T : BinTable) (nbin : ℕ) (hn : T.lower.length ≤ nbin)
    (hc : Counts x T) (hP : Contig a b (List.zip T.lower T.upper)) (hx : ∀ v ∈ x, a ≤ v ∧ v ≤ b)
    (hy : y.length = x.length) :
    smoothLoop med nbin x y T =
      ((List.range T.lower.length).filter
          (fun i => decide (¬ (yIn (List.zip T.lower T.upper) x y i).length = 0))).map
        (fun i => smoothRow med (T.mid.getD i 0) (yIn (List.zip T.lower T.upper) x y i)) := by
  obtain ⟨hl, hh, -⟩ := hc
  have hu : (List.zip T.lower T.upper).map Prod.snd = T.upper := List.map_snd_zip (by omega)
  have hi := hP.indexed (lower := T.lower) hx
  rw [hu] at hi
  rw [← filterMap_ite]
  unfold smoothLoop
  dsimp only
  have hsplit : List.range nbin = List.range T.lower.length ++
      List.range' T.lower.length (nbin - T.lower.length) := by
    have := List.range'_append_1 (s := 0) (m := T.lower.length) (n := nbin - T.lower.length)
    rw [Nat.zero_add] at this
    rw [List.range_eq_range', List.range_eq_range', this]
    congr 1; omega
  rw [hsplit, List.filterMap_append]
  have htail : ∀ i ∈ List.range' T.lower.length (nbin - T.lower.length),
      (selectBin (binIndex x T.lower T.upper) y i).length = 0 := by
    intro i hi'
    rw [selectBin_eq hP hi hy i, yIn_length x y hy]
    unfold inBin
    rw [List.length_eq_zero_iff, List.filter_eq_nil_iff]
    intro v _
    simp only [decide_eq_true_eq]
    rintro ⟨lo, hi, e, -⟩
    have := (List.getElem?_eq_some_iff.mp e).1
    rw [List.length_zip] at this
    have := List.mem_range'_1.mp hi'
    omega
  have h2 : (List.range' T.lower.length (nbin - T.lower.length)).filterMap (fun i =>
      if (selectBin (binIndex x T.lower T.upper) y i).length = 0 then none
      else if T.hist.getD i 0 > 1 then
        some (T.mid.getD i 0, if med then median (selectBin (binIndex x T.lower T.upper) y i)
          else mean (selectBin (binIndex x T.lower T.upper) y i), npStd (selectBin (binIndex x T.lower T.upper) y i),
          minOf (selectBin (binIndex x T.lower T.upper) y i), maxOf (selectBin (binIndex x T.lower T.upper) y i))
      else if T.hist.getD i 0 = 1 then some (T.mid.getD i 0, (selectBin (binIndex x T.lower T.upper) y i).getD 0 0, 0,
        (selectBin (binIndex x T.lower T.upper) y i).getD 0 0, (selectBin (binIndex x T.lower T.upper) y i).getD 0 0)
      else some (T.mid.getD i 0, 0, 0, 0, 0)) = [] := by
    rw [List.filterMap_eq_nil_iff]
    intro i hi'
    rw [if_pos (htail i hi')]
  rw [h2, List.append_nil]
  refine List.filterMap_congr fun i hi' => ?_
  rw [selectBin_eq hP hi hy i]
  have hil := List.mem_range.mp hi'
  have hhi : T.hist.getD i 0 = ((yIn (List.zip T.lower T.upper) x y i).length : ℝ) := by
    rw [hh, List.getD_eq_getElem?_getD, List.getElem?_map, List.getElem?_range hil, yIn_length x y hy]; rfl
  rw [hhi]
  split
  · rfl
  · rename_i h0
    split
    · rfl
    · rename_i h1
      have hone : (yIn (List.zip T.lower T.upper) x y i).length = 1 := by
        have : ¬ 1 < (yIn (List.zip T.lower T.upper) x y i).length := fun h => h1 (by exact_mod_cast h)
        omega
      rw [if_pos (by exact_mod_cast hone)]
      obtain ⟨v, hv⟩ := List.length_eq_one_iff.mp hone
      rw [hv]
      cases med <;> simp [smoothRow, npStd, mean, median, npSort, minOf, maxOf]

/-- C48: for every `x` with at least two different values, every `y` of the same length and every step
`0 < dx ≤ max x - min x`, `smooth` succeeds, for both kinds of bins, over contiguous bins spanning the data; it
reports one row per non-empty bin with the mean (median), the standard deviation, the minimum and the maximum of
`y` over exactly the elements whose `x` lies in the bin. -/
theorem C48_smooth (num med : Bool) (x y : List ℝ) (dx : ℝ) (hdx : 0 < dx) (hy : y.length = x.length)
    (hd : ∃ u ∈ x, ∃ v ∈ x, dx ≤ v - u) :
    ∃ (T : BinTable) (a b : ℝ), (a ∈ x ∧ b ∈ x ∧ ∀ v ∈ x, a ≤ v ∧ v ≤ b) ∧
      T.lower.length = T.upper.length ∧ Contig a b (List.zip T.lower T.upper) ∧
      smooth num med x y dx = .ok
        (((List.range T.lower.length).filter
          (fun i => decide (¬ (yIn (List.zip T.lower T.upper) x y i).length = 0))).map
        (fun i => smoothRow med (T.mid.getD i 0) (yIn (List.zip T.lower T.upper) x y i))) := by
  obtain ⟨u, hu, v, hv, huv⟩ := hd
  have hne : x ≠ [] := List.ne_nil_of_mem hu
  obtain ⟨mx1, mx2⟩ := maxOf_spec hne
  obtain ⟨mn1, mn2⟩ := minOf_spec hne
  have hx : ∀ v ∈ x, minOf x ≤ v ∧ v ≤ maxOf x := fun v hv => ⟨mn2 v hv, mx2 v hv⟩
  have hrange : dx ≤ maxOf x - minOf x := by have := mn2 u hu; have := mx2 v hv; linarith
  have hlt : minOf x < maxOf x := by linarith
  have hb : 0 < ⌊(maxOf x - minOf x) / dx⌋₊ := by
    rw [Nat.floor_pos, le_div_iff₀ hdx]; linarith
  obtain ⟨T, hT, hl, hP, hc⟩ : ∃ T, (if num then nbinmaker x ⌊(maxOf x - minOf x) / dx⌋₊
        else binmaker x ⌊(maxOf x - minOf x) / dx⌋₊ true) = .ok T ∧
      T.lower.length ≤ ⌊(maxOf x - minOf x) / dx⌋₊ ∧ Contig (minOf x) (maxOf x) (List.zip T.lower T.upper) ∧
      Counts x T := by
    cases num
    · obtain ⟨T, hT, h1, h2, -, -, h3⟩ := C26_equal_width_bins x _ true hne hb (by simp)
      exact ⟨T, hT, h1.le, (h3 _ _ mn1 mx1 hx hlt).1, h2⟩
    · obtain ⟨P, hP, -, h4, -, hT⟩ := nbinmaker_spec x _ hb ⟨u, hu, v, hv, by intro h; rw [h] at huv; linarith⟩
      have hz : List.zip (P.map Prod.fst) (P.map Prod.snd) = P := by rw [List.zip_map']; simp
      exact ⟨_, hT, by simpa using h4, by simpa only [hz] using hP, by simp, by simp only [hz, List.length_map],
        by simp only [hz, List.length_map]⟩
  refine ⟨T, minOf x, maxOf x, ⟨mn1, mx1, hx⟩, hc.1, hP, ?_⟩
  rw [← smoothLoop_eq med _ _ x y T _ hl hc hP hx hy]
  unfold smooth
  rw [if_neg hne]
  cases num
  · simp only [Bool.false_eq_true, if_false] at hT ⊢; rw [hT]; rfl
  · simp only [if_true] at hT ⊢; rw [hT]; rfl

/-- C48: in every reported row the smoothed value lies between the reported minimum and maximum. -/
theorem C48_between (num med : Bool) (x y : List ℝ) (dx : ℝ) (hdx : 0 < dx) (hy : y.length = x.length)
    (hd : ∃ u ∈ x, ∃ v ∈ x, dx ≤ v - u) (rows : List (ℝ × ℝ × ℝ × ℝ × ℝ))
    (h : smooth num med x y dx = .ok rows) :
    ∀ r ∈ rows, r.2.2.2.1 ≤ r.2.1 ∧ r.2.1 ≤ r.2.2.2.2 ∧ r.2.2.2.1 ∈ y ∧ r.2.2.2.2 ∈ y ∧ 0 ≤ r.2.2.1 := by
  obtain ⟨T, a, b, -, -, -, e⟩ := C48_smooth num med x y dx hdx hy hd
  rw [e] at h
  injection h with h
  subst h
  intro r hr
  obtain ⟨i, hi, rfl⟩ := List.mem_map.mp hr
  have hne : yIn (List.zip T.lower T.upper) x y i ≠ [] := by
    have := (List.mem_filter.mp hi).2
    intro h0
    rw [h0] at this
    simp at this
  have hsub : ∀ v ∈ yIn (List.zip T.lower T.upper) x y i, v ∈ y := by
    classical
    intro v hv
    obtain ⟨p, hp, rfl⟩ := List.mem_map.mp hv
    exact (List.of_mem_zip (List.mem_filter.mp hp).1).2
  have h1 := mean_between hne
  have h2 := median_between hne
  refine ⟨?_, ?_, hsub _ (minOf_spec hne).1, hsub _ (maxOf_spec hne).1, Real.sqrt_nonneg _⟩
  · cases med
    · exact h1.1
    · exact h2.1
  · cases med
    · exact h1.2
    · exact h2.2

/-- C48 instance. -/
example : ∃ rows, smooth true false [3, 1, 1, 2] [10, 20, 30, 40] 1 = .ok rows := by
  obtain ⟨T, a, b, -, -, -, e⟩ := C48_smooth true false [3, 1, 1, 2] [10, 20, 30, 40] 1 (by norm_num) rfl
    ⟨1, by simp, 3, by simp, by norm_num⟩
  exact ⟨_, e⟩

end

end CT
