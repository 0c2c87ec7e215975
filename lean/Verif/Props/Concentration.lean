/- King concentrations and central potentials (C118, C119). -/
import Verif.Model.Concentration
import Verif.Spec.Concentration
import Verif.Lemmas.Vcirc

namespace CT

noncomputable section

/-! ### broken lines -/

theorem OnBrokenLine.symm {xs ys : List ℝ} {x y : ℝ} (hl : xs.length = ys.length) (h : OnBrokenLine xs ys x y) : OnBrokenLine ys xs y x := by
  obtain ⟨i, hi, t, h0, h1, hx, hy⟩ := h
  exact ⟨i, by omega, t, h0, h1, hy, hx⟩

/-- A growing broken line grows. -/
theorem OnBrokenLine.mono {xs ys : List ℝ} {x x' y y' : ℝ} (gx : Growing xs) (gy : Growing ys) (hl : xs.length = ys.length)
    (h : OnBrokenLine xs ys x y) (h' : OnBrokenLine xs ys x' y') (hlt : x < x') : y < y' := by
  obtain ⟨i, hi, t, h0, h1, hx, hy⟩ := h
  obtain ⟨j, hj, t', h0', h1', hx', hy'⟩ := h'
  have le : ∀ {l : List ℝ}, Growing l → ∀ a b, a ≤ b → b < l.length → l[a]! ≤ l[b]! := by
    intro l g a b hab hb
    rcases Nat.lt_or_eq_of_le hab with h | h
    · exact (g a b h hb).le
    · rw [h]
  have gxi := gx i (i + 1) (by omega) hi
  have gyi := gy i (i + 1) (by omega) (by omega)
  have gxj := gx j (j + 1) (by omega) hj
  have gyj := gy j (j + 1) (by omega) (by omega)
  have hij : i ≤ j := by
    by_contra hc
    have := le gx (j + 1) i (by omega) (by omega)
    nlinarith
  rcases Nat.lt_or_eq_of_le hij with h | h
  · have hxx := le gx (i + 1) j (by omega) (by omega)
    have hyy := le gy (i + 1) j (by omega) (by omega)
    by_cases ht : t = 1
    · by_cases ht' : t' = 0
      · have hx2 : xs[i + 1]! < xs[j]! := by rw [hx, hx', ht, ht'] at hlt; linarith
        have hne : i + 1 ≠ j := by rintro e; rw [e] at hx2; exact lt_irrefl _ hx2
        have := gy (i + 1) j (by omega) (by omega)
        rw [hy, hy', ht, ht']
        linarith
      · have : 0 < t' := lt_of_le_of_ne h0' (Ne.symm ht')
        rw [hy, hy', ht]
        nlinarith
    · have : t < 1 := lt_of_le_of_ne h1 ht
      rw [hy, hy']
      nlinarith
  · subst h
    have : t < t' := by
      by_contra hc
      nlinarith
    rw [hy, hy']
    nlinarith

/-- A growing broken line has one point for each abscissa. -/
theorem OnBrokenLine.unique {xs ys : List ℝ} {x y y' : ℝ} (gx : Growing xs) (gy : Growing ys) (hl : xs.length = ys.length)
    (h : OnBrokenLine xs ys x y) (h' : OnBrokenLine xs ys x y') : y = y' := by
  by_contra hc
  rcases lt_or_gt_of_ne hc with k | k
  · exact lt_irrefl _ (OnBrokenLine.mono gy gx hl.symm (h.symm hl) (h'.symm hl) k)
  · exact lt_irrefl _ (OnBrokenLine.mono gy gx hl.symm (h'.symm hl) (h.symm hl) k)

/-- The broken line runs from the first to the last abscissa. -/
theorem OnBrokenLine.range {xs ys : List ℝ} {x y : ℝ} (gx : Growing xs) (h : OnBrokenLine xs ys x y) :
    xs[0]! ≤ x ∧ x ≤ xs[xs.length - 1]! := by
  obtain ⟨i, hi, t, h0, h1, hx, -⟩ := h
  have gi := gx i (i + 1) (by omega) hi
  constructor
  · have : xs[0]! ≤ xs[i]! := by
      rcases Nat.eq_zero_or_pos i with e | e
      · rw [e]
      · exact (gx 0 i e (by omega)).le
    nlinarith
  · have : xs[i + 1]! ≤ xs[xs.length - 1]! := by
      rcases Nat.lt_or_eq_of_le (show i + 1 ≤ xs.length - 1 by omega) with e | e
      · exact (gx _ _ e (by omega)).le
      · rw [e]
    nlinarith

/-! ### the nearest entry -/

theorem near_spec {xs : List ℝ} {x : ℝ} (h : xs ≠ []) :
    ∃ i, argminE (xs.map (fun a => |a - x|)) = .ok i ∧ i < xs.length ∧ ∀ j < xs.length, |xs[i]! - x| ≤ |xs[j]! - x| := by
  obtain ⟨i, h1, h2, h3⟩ := argminE_spec (l := xs.map (fun a => |a - x|)) (by simpa using h)
  rw [List.length_map] at h2
  have e : ∀ j < xs.length, (xs.map (fun a => |a - x|))[j]! = |xs[j]! - x| := by
    intro j hj
    rw [getElem!_pos _ j (by simpa using hj), List.getElem_map, getElem!_pos _ j hj]
  refine ⟨i, h1, h2, ?_⟩
  intro j hj
  rw [← e i h2, ← e j hj]
  apply h3
  rw [getElem!_pos _ j (by simpa using hj)]
  exact List.getElem_mem _

/-- Inside a growing table the result is on the broken line. -/
theorem nearInterp_line {xs ys : List ℝ} {x : ℝ} (gx : Growing xs) (hl : xs.length = ys.length) (hn : 2 ≤ xs.length)
    (h0 : xs[0]! ≤ x) (h1 : x ≤ xs[xs.length - 1]!) : ∃ y, nearInterp xs ys x = .ok y ∧ OnBrokenLine xs ys x y := by
  obtain ⟨i, e, hi, hmin⟩ := near_spec (xs := xs) (x := x) (by rintro rfl; simp at hn)
  unfold nearInterp nearSlope
  by_cases hlt : xs[i]! < x
  · have hi1 : i + 1 < xs.length := by
      by_contra hc
      have : i = xs.length - 1 := by omega
      rw [this] at hlt
      linarith
    have gi := gx i (i + 1) (by omega) hi1
    have hd : xs[i + 1]! - xs[i]! ≠ 0 := by linarith
    have hup : x ≤ xs[i + 1]! := by
      by_contra hc
      push Not at hc
      have := hmin (i + 1) hi1
      rw [abs_of_neg (by linarith), abs_of_neg (by linarith)] at this
      linarith
    simp only [e, hlt, bind, Except.bind, if_true, nextOf, hi1, hl ▸ hi1, pure, Except.pure]
    refine ⟨_, rfl, i, hi1, (x - xs[i]!) / (xs[i + 1]! - xs[i]!), ?_, ?_, ?_, ?_⟩
    · exact div_nonneg (by linarith) (by linarith)
    · rw [div_le_one (by linarith)]; linarith
    · field_simp; ring
    · field_simp; ring
  · push Not at hlt
    simp only [e, not_lt.mpr hlt, bind, Except.bind, if_false, pure, Except.pure]
    rcases Nat.eq_zero_or_pos i with hz | hz
    · subst hz
      have hx : x = xs[0]! := le_antisymm hlt h0
      refine ⟨_, rfl, 0, by omega, 0, le_refl _, zero_le_one, ?_, ?_⟩
      · rw [hx]; ring
      · rw [hx]; ring
    · obtain ⟨k, rfl⟩ : ∃ k, i = k + 1 := ⟨i - 1, by omega⟩
      have gi := gx k (k + 1) (by omega) hi
      have hd : xs[k + 1]! - xs[k]! ≠ 0 := by linarith
      have hlo : xs[k]! ≤ x := by
        by_contra hc
        push Not at hc
        have := hmin k (by omega)
        rw [abs_of_pos (by linarith), abs_of_pos (by linarith)] at this
        linarith
      have p1 : ∀ l : List ℝ, prevOf l (k + 1) = l[k]! := by
        intro l
        unfold prevOf
        rw [if_neg (by omega)]
        simp
      rw [p1, p1]
      refine ⟨_, rfl, k, hi, (x - xs[k]!) / (xs[k + 1]! - xs[k]!), ?_, ?_, ?_, ?_⟩
      · exact div_nonneg (by linarith) (by linarith)
      · rw [div_le_one (by linarith)]; linarith
      · field_simp; ring
      · field_simp; ring

/-- Above a growing table the next entry does not exist. -/
theorem nearInterp_above {xs ys : List ℝ} {x : ℝ} (gx : Growing xs) (hl : xs.length = ys.length) (hn : 1 ≤ xs.length)
    (h1 : xs[xs.length - 1]! < x) : nearInterp xs ys x = .error .indexError := by
  obtain ⟨i, e, hi, hmin⟩ := near_spec (xs := xs) (x := x) (by rintro rfl; simp at hn)
  have le : ∀ j < xs.length, xs[j]! ≤ xs[xs.length - 1]! := by
    intro j hj
    rcases Nat.lt_or_eq_of_le (show j ≤ xs.length - 1 by omega) with h | h
    · exact (gx _ _ h (by omega)).le
    · rw [h]
  have hii : i = xs.length - 1 := by
    by_contra hc
    have g := gx i (xs.length - 1) (by omega) (by omega)
    have := hmin (xs.length - 1) (by omega)
    rw [abs_of_neg (by linarith), abs_of_neg (by linarith)] at this
    linarith
  have hlt : xs[i]! < x := by rw [hii]; exact h1
  unfold nearInterp nearSlope
  have hno : ¬(i + 1 < ys.length) := by omega
  simp only [e, hlt, bind, Except.bind, if_true, nextOf, hno, if_false]

/-- Below a growing table the line goes through the first and the last point. -/
theorem nearInterp_below {xs ys : List ℝ} {x : ℝ} (gx : Growing xs) (hn : 1 ≤ xs.length) (h0 : x < xs[0]!) :
    nearInterp xs ys x = .ok (ys[0]! + (ys[0]! - ys[ys.length - 1]!) / (xs[0]! - xs[xs.length - 1]!) * (x - xs[0]!)) := by
  obtain ⟨i, e, hi, hmin⟩ := near_spec (xs := xs) (x := x) (by rintro rfl; simp at hn)
  have hii : i = 0 := by
    by_contra hc
    have g := gx 0 i (by omega) hi
    have := hmin 0 (by omega)
    rw [abs_of_pos (by linarith), abs_of_pos (by linarith)] at this
    linarith
  subst hii
  unfold nearInterp nearSlope
  simp only [e, not_lt.mpr h0.le, bind, Except.bind, if_false, pure, Except.pure, prevOf, if_true]
  congr 1
  ring

/-! ### the tables -/

theorem growing_micro {l : List ℕ} (h : l.IsChain (· < ·)) : Growing (l.map (fun n : ℕ => (n : ℝ) / 1000000)) := by
  have p := List.isChain_iff_pairwise.mp h
  intro i j hij hj
  rw [List.length_map] at hj
  rw [getElem!_pos _ i (by simp; omega), getElem!_pos _ j (by simpa using hj), List.getElem_map, List.getElem_map]
  have := List.pairwise_iff_getElem.mp p i j (by omega) hj hij
  have : (l[i] : ℝ) < (l[j] : ℝ) := by exact_mod_cast this
  linarith

set_option maxRecDepth 8000 in
theorem w0_growing : Growing w0Table := growing_micro (by decide)

set_option maxRecDepth 8000 in
theorem conc_growing : Growing concTable := growing_micro (by decide)

theorem w0_length : w0Table.length = 193 := by unfold w0Table; rw [List.length_map]; rfl
theorem conc_length : concTable.length = 193 := by unfold concTable; rw [List.length_map]; rfl

theorem micro_get {l : List ℕ} {i n : ℕ} (h : l[i]? = some n) : (l.map (fun n : ℕ => (n : ℝ) / 1000000))[i]! = (n : ℝ) / 1000000 := by
  obtain ⟨hi, rfl⟩ := List.getElem?_eq_some_iff.mp h
  rw [getElem!_pos _ i (by simpa using hi), List.getElem_map]

theorem w0_first : w0Table[0]! = 0.3 := by
  unfold w0Table
  rw [micro_get (n := 300000) (by rfl)]
  norm_num

theorem conc_first : concTable[0]! = 1.00471 := by
  unfold concTable
  rw [micro_get (n := 1004710) (by rfl)]
  norm_num

theorem w0_last : w0Table[192]! = 19.5 := by
  unfold w0Table
  rw [micro_get (n := 19500000) (by rfl)]
  norm_num

theorem conc_last : concTable[192]! = 22709.7 := by
  unfold concTable
  rw [micro_get (n := 22709700000) (by rfl)]
  norm_num

theorem conc_pos {w y : ℝ} (h : OnBrokenLine w0Table concTable w y) : 0 < y := by
  have := (h.symm (by rw [w0_length, conc_length])).range conc_growing
  rw [conc_first] at this
  linarith [this.1]

/-- **C118 (central potential to concentration and back).**  For every `W0` in the table's range, 0.3 to 19.5, `w0_to_c` gives the
logarithm of the broken line through the tables, and `c_to_w0` of it is `W0` again. -/
theorem C118_w0 {w : ℝ} (h0 : 0.3 ≤ w) (h1 : w ≤ 19.5) :
    ∃ c, w0ToC w = .ok (some c) ∧ OnBrokenLine w0Table concTable w ((10 : ℝ) ^ c) ∧ cToW0 c = .ok w := by
  have hl : w0Table.length = concTable.length := by rw [w0_length, conc_length]
  obtain ⟨y, e, hy⟩ := nearInterp_line (x := w) (ys := concTable) w0_growing hl (by rw [w0_length]; norm_num) (by rw [w0_first]; exact h0)
    (by rw [w0_length]; show w ≤ w0Table[192]!; rw [w0_last]; exact h1)
  have hp := conc_pos hy
  have hpow : (10 : ℝ) ^ Real.logb 10 y = y := Real.rpow_logb (by norm_num) (by norm_num) hp
  refine ⟨Real.logb 10 y, ?_, by rw [hpow]; exact hy, ?_⟩
  · unfold w0ToC logOrNan
    simp only [e, bind, Except.bind, pure, Except.pure, hp, if_true]
  · unfold cToW0
    rw [hpow]
    have hs := hy.symm hl
    obtain ⟨r1, r2⟩ := hs.range conc_growing
    obtain ⟨w', e', hw'⟩ := nearInterp_line (ys := w0Table) conc_growing hl.symm (by rw [conc_length]; norm_num) r1 r2
    rw [e', OnBrokenLine.unique conc_growing w0_growing hl.symm hs hw']

/-- **C118 (concentration to central potential and back).**  For every `c` between the logarithms of the first and the last tabulated
concentration. -/
theorem C118_c {c : ℝ} (h0 : Real.logb 10 1.00471 ≤ c) (h1 : c ≤ Real.logb 10 22709.7) :
    ∃ w, cToW0 c = .ok w ∧ OnBrokenLine concTable w0Table ((10 : ℝ) ^ c) w ∧ 0.3 ≤ w ∧ w ≤ 19.5 ∧ w0ToC w = .ok (some c) := by
  have hl : w0Table.length = concTable.length := by rw [w0_length, conc_length]
  have k0 : (1.00471 : ℝ) ≤ 10 ^ c := (Real.logb_le_iff_le_rpow (by norm_num) (by norm_num)).mp h0
  have k1 : (10 : ℝ) ^ c ≤ 22709.7 := (Real.le_logb_iff_rpow_le (by norm_num) (by norm_num)).mp h1
  obtain ⟨w, e, hw⟩ := nearInterp_line (x := (10 : ℝ) ^ c) (ys := w0Table) conc_growing hl.symm (by rw [conc_length]; norm_num) (by rw [conc_first]; exact k0)
    (by rw [conc_length]; show _ ≤ concTable[192]!; rw [conc_last]; exact k1)
  have hs := hw.symm hl.symm
  obtain ⟨r1, r2⟩ := hs.range w0_growing
  obtain ⟨y, e', hy⟩ := nearInterp_line (ys := concTable) w0_growing hl (by rw [w0_length]; norm_num) r1 r2
  have ey : y = (10 : ℝ) ^ c := OnBrokenLine.unique w0_growing conc_growing hl hy hs
  rw [w0_first] at r1
  rw [w0_length] at r2
  have r2' : w ≤ w0Table[192]! := r2
  rw [w0_last] at r2'
  refine ⟨w, e, hw, r1, r2', ?_⟩
  have hp : 0 < y := conc_pos hy
  unfold w0ToC logOrNan
  simp only [e', bind, Except.bind, pure, Except.pure, hp, if_true]
  rw [ey, Real.logb_rpow (by norm_num) (by norm_num)]

/-- **C118 (order).**  More concentrated clusters have deeper potentials. -/
theorem C118_mono {c c' w w' : ℝ} (h0 : Real.logb 10 1.00471 ≤ c) (h : c < c') (h1 : c' ≤ Real.logb 10 22709.7) (hw : cToW0 c = .ok w)
    (hw' : cToW0 c' = .ok w') : w < w' := by
  have hl : w0Table.length = concTable.length := by rw [w0_length, conc_length]
  obtain ⟨v, e, l, -⟩ := C118_c h0 (by linarith)
  obtain ⟨v', e', l', -⟩ := C118_c (by linarith) h1
  rw [hw] at e
  rw [hw'] at e'
  cases e
  cases e'
  exact OnBrokenLine.mono conc_growing w0_growing hl.symm l l' (Real.rpow_lt_rpow_of_exponent_lt (by norm_num) h)

/-- **C118 (entries).**  At the entries of the table the values are those of the table. -/
theorem C118_entries {i : ℕ} (hi : i < 193) : cToW0 (Real.logb 10 concTable[i]!) = .ok w0Table[i]! := by
  have hl : w0Table.length = concTable.length := by rw [w0_length, conc_length]
  have line : OnBrokenLine concTable w0Table concTable[i]! w0Table[i]! := by
    by_cases h : i + 1 < 193
    · exact ⟨i, by rw [conc_length]; exact h, 0, le_refl _, zero_le_one, by ring, by ring⟩
    · obtain ⟨k, rfl⟩ : ∃ k, i = k + 1 := ⟨i - 1, by omega⟩
      exact ⟨k, by rw [conc_length]; exact hi, 1, zero_le_one, le_refl _, by ring, by ring⟩
  have hp : 0 < concTable[i]! := conc_pos (line.symm hl.symm)
  obtain ⟨r1, r2⟩ := line.range conc_growing
  obtain ⟨w, e, hw⟩ := nearInterp_line (ys := w0Table) conc_growing hl.symm (by rw [conc_length]; norm_num) r1 r2
  unfold cToW0
  rw [Real.rpow_logb (by norm_num) (by norm_num) hp, e, OnBrokenLine.unique conc_growing w0_growing hl.symm hw line]

/-! ### what goes wrong outside the tables -/

/-- **C119 (violated: below).**  Every concentration below the tabulated ones is accepted, and all of them get practically the same
central potential, between 0.299 and 0.3. -/
theorem C119_below_violated {c : ℝ} (h : c < Real.logb 10 1.00471) : ∃ w, cToW0 c = .ok w ∧ 0.299 < w ∧ w < 0.3 := by
  have k0 : (10 : ℝ) ^ c < 1.00471 := (Real.lt_logb_iff_rpow_lt (by norm_num) (by norm_num)).mp h
  have kp : (0 : ℝ) < 10 ^ c := Real.rpow_pos_of_pos (by norm_num) c
  have e := nearInterp_below (ys := w0Table) conc_growing (by rw [conc_length]; norm_num) (x := (10 : ℝ) ^ c) (by rw [conc_first]; exact k0)
  rw [w0_length, conc_length] at e
  simp only [show 193 - 1 = 192 from rfl, w0_first, w0_last, conc_first, conc_last] at e
  refine ⟨_, e, ?_, ?_⟩
  · norm_num at k0 ⊢
    linarith
  · norm_num at k0 ⊢
    linarith

/-- **C119 (violated: above).**  Every concentration above the tabulated ones, and every central potential above 19.5, raises
`IndexError`. -/
theorem C119_above_violated : (∀ c, Real.logb 10 22709.7 < c → cToW0 c = .error .indexError) ∧ ∀ w, 19.5 < w → w0ToC w = .error .indexError := by
  have hl : w0Table.length = concTable.length := by rw [w0_length, conc_length]
  constructor
  · intro c h
    have k : (22709.7 : ℝ) < 10 ^ c := (Real.logb_lt_iff_lt_rpow (by norm_num) (by norm_num)).mp h
    exact nearInterp_above conc_growing hl.symm (by rw [conc_length]; norm_num) (by rw [conc_length]; show concTable[192]! < _; rw [conc_last]; exact k)
  · intro w h
    have := nearInterp_above (ys := concTable) w0_growing hl (by rw [w0_length]; norm_num) (x := w)
      (by rw [w0_length]; show w0Table[192]! < _; rw [w0_last]; exact h)
    unfold w0ToC
    rw [this]
    rfl

/-- **C119 (violated: shallow potentials).**  A central potential of 0.29 or less, for which King models exist, gives no number. -/
theorem C119_shallow_violated {w : ℝ} (h : w ≤ 0.29) : w0ToC w = .ok none := by
  have e := nearInterp_below (ys := concTable) w0_growing (by rw [w0_length]; norm_num) (x := w) (by rw [w0_first]; norm_num at h ⊢; linarith)
  rw [w0_length, conc_length] at e
  simp only [show 193 - 1 = 192 from rfl, w0_first, w0_last, conc_first, conc_last] at e
  unfold w0ToC logOrNan
  rw [e]
  simp only [bind, Except.bind, pure, Except.pure]
  rw [if_neg]
  norm_num at h ⊢
  linarith

/-! ### concrete cases -/

example : ∃ c, w0ToC 5.05 = .ok (some c) ∧ cToW0 c = .ok 5.05 := by
  obtain ⟨c, h, -, h'⟩ := C118_w0 (w := 5.05) (by norm_num) (by norm_num)
  exact ⟨c, h, h'⟩

example : cToW0 0 ≠ .error .indexError := by
  obtain ⟨w, h, -⟩ := C119_below_violated (c := 0) (Real.logb_pos (by norm_num) (by norm_num))
  rw [h]
  exact fun e => nomatch e

end

end CT
