/- Least squares. -/
import Verif.Spec.MassFunction
import Mathlib.Tactic.LinearCombination
import Mathlib.Tactic.FieldSimp

namespace CT

noncomputable section

/-- The sums over the points. -/
def pX (P : List (ℝ × ℝ)) : ℝ := (P.map Prod.fst).sum
def pY (P : List (ℝ × ℝ)) : ℝ := (P.map Prod.snd).sum
def pXX (P : List (ℝ × ℝ)) : ℝ := (P.map (fun p => p.1 ^ 2)).sum
def pXY (P : List (ℝ × ℝ)) : ℝ := (P.map (fun p => p.1 * p.2)).sum
def pYY (P : List (ℝ × ℝ)) : ℝ := (P.map (fun p => p.2 ^ 2)).sum

theorem sqDist_expand (P : List (ℝ × ℝ)) (a b : ℝ) : sqDist P a b =
    pYY P - 2 * a * pXY P - 2 * b * pY P + a ^ 2 * pXX P + 2 * a * b * pX P + P.length * b ^ 2 := by
  unfold sqDist pX pY pXX pXY pYY
  induction P with
  | nil => simp
  | cons p P ih => simp only [List.map_cons, List.sum_cons, ih, List.length_cons]; push_cast; ring

theorem sum_sq_shift (P : List (ℝ × ℝ)) (u : ℝ) : (P.map (fun p => (p.1 - u) ^ 2)).sum = pXX P - 2 * u * pX P + P.length * u ^ 2 := by
  unfold pX pXX
  induction P with
  | nil => simp
  | cons p P ih => simp only [List.map_cons, List.sum_cons, ih, List.length_cons]; push_cast; ring

theorem sum_cross_shift (P : List (ℝ × ℝ)) (u v : ℝ) : (P.map (fun p => (p.1 - u) * (p.2 - v))).sum =
    pXY P - v * pX P - u * pY P + P.length * (u * v) := by
  unfold pX pY pXY
  induction P with
  | nil => simp
  | cons p P ih => simp only [List.map_cons, List.sum_cons, ih, List.length_cons]; push_cast; ring

theorem sqDist_nonneg (P : List (ℝ × ℝ)) (a b : ℝ) : 0 ≤ sqDist P a b := by
  refine List.sum_nonneg fun x hx => ?_
  obtain ⟨p, -, rfl⟩ := List.mem_map.mp hx
  positivity

theorem sxx_nonneg (x : List ℝ) : 0 ≤ sxx x := by
  refine List.sum_nonneg fun v hv => ?_
  obtain ⟨p, -, rfl⟩ := List.mem_map.mp hv
  positivity

theorem zero_of_sum {l : List ℝ} (h0 : ∀ w ∈ l, 0 ≤ w) (hs : l.sum = 0) : ∀ w ∈ l, w = 0 := by
  induction l with
  | nil => simp
  | cons a l ih =>
    have ha := h0 a (by simp)
    have hl := List.sum_nonneg (fun w hw => h0 w (List.mem_cons_of_mem a hw))
    rw [List.sum_cons] at hs
    intro w hw
    rcases List.mem_cons.mp hw with rfl | hw
    · linarith
    · exact ih (fun w hw => h0 w (List.mem_cons_of_mem a hw)) (by linarith) w hw

/-- A successful fit is the least-squares line. -/
theorem polyfit1_fit {x y : List ℝ} {f : LineFit} (h : polyfit1 x y = .ok f) :
    x.length = y.length ∧ IsLineFit (List.zip x y) f := by
  unfold polyfit1 at h
  split_ifs at h with h1 h2 h3 h4
  have hl : x.length = y.length := not_not.mp h2
  refine ⟨hl, ?_⟩
  injection h with h
  set P := List.zip x y with hP
  have hPl : P.length = x.length := by rw [hP, List.length_zip, ← hl, min_self]
  have ex : P.map Prod.fst = x := List.map_fst_zip hl.le
  have ey : P.map Prod.snd = y := List.map_snd_zip hl.ge
  have hn0 : (0 : ℝ) < P.length := by
    rw [hPl]; exact_mod_cast List.length_pos_iff.mpr h1
  have hn2 : (0 : ℝ) < (P.length : ℝ) - 2 := by
    rw [hPl]; have : 2 < x.length := not_le.mp h4
    have : (2 : ℝ) < x.length := by exact_mod_cast this
    linarith
  have mx : mean x = pX P / P.length := by unfold mean pX; rw [ex, hPl]
  have my : mean y = pY P / P.length := by unfold mean pY; rw [ey, hPl, hl]
  have eSxx : sxx x = pXX P - pX P ^ 2 / P.length := by
    have : sxx x = (P.map (fun p => (p.1 - mean x) ^ 2)).sum := by
      unfold sxx; conv_lhs => rw [← ex]
      rw [List.map_map, ex]; rfl
    rw [this, sum_sq_shift, mx]; field_simp; ring
  have eSxy : sxy x y = pXY P - pX P * pY P / P.length := by
    unfold sxy
    rw [← hP, sum_cross_shift, mx, my]; field_simp; ring
  have eD : (P.length : ℝ) * (P.map (fun p => p.1 ^ 2)).sum - (P.map Prod.fst).sum ^ 2 = P.length * sxx x := by
    change (P.length : ℝ) * pXX P - pX P ^ 2 = _
    rw [eSxx]; field_simp
  have hpos : 0 < sxx x := lt_of_le_of_ne (sxx_nonneg x) (Ne.symm h3)
  have er : ∀ a b, rss x y a b = sqDist P a b := fun _ _ => rfl
  -- normal equations
  obtain ⟨a, ha⟩ : ∃ a, a = sxy x y / sxx x := ⟨_, rfl⟩
  obtain ⟨b, hb⟩ : ∃ b, b = mean y - a * mean x := ⟨_, rfl⟩
  have e1 : a * sxx x = sxy x y := by rw [ha]; field_simp
  have n1 : pY P = a * pX P + b * P.length := by rw [hb, mx, my]; field_simp; ring
  have n2 : pXY P = a * pXX P + b * pX P := by
    have q : (P.length : ℝ) * pXY P = P.length * (a * pXX P + b * pX P) := by
      rw [eSxx, eSxy] at e1
      field_simp at e1
      rw [n1] at e1
      linear_combination -e1
    exact mul_left_cancel₀ hn0.ne' q
  have key : ∀ a' b', (P.length : ℝ) * (sqDist P a' b' - sqDist P a b) =
      (a' - a) ^ 2 * (P.length * sxx x) + ((a' - a) * pX P + P.length * (b' - b)) ^ 2 := by
    intro a' b'
    rw [sqDist_expand, sqDist_expand, n2, n1, eSxx]
    field_simp
    ring
  have fs : f.slope = a := by rw [← h, ha]
  have fi : f.icept = b := by rw [← h, hb, ha]
  have hle : ∀ a' b', sqDist P a b ≤ sqDist P a' b' := by
    intro a' b'
    have := key a' b'
    have h0 : 0 ≤ (P.length : ℝ) * (sqDist P a' b' - sqDist P a b) := by rw [this]; positivity
    have := nonneg_of_mul_nonneg_right h0 hn0
    linarith
  have hR := sqDist_nonneg P a b
  refine ⟨by rw [hPl]; omega, by rw [fs, fi]; exact hle, ?_, ?_, ?_, ?_, ?_⟩
  · intro a' b' hmin
    rw [fs, fi]
    have e : sqDist P a' b' = sqDist P a b := le_antisymm (hmin a b) (hle a' b')
    have := key a' b'
    rw [e, sub_self, mul_zero] at this
    have p1 : 0 ≤ (a' - a) ^ 2 * (P.length * sxx x) := by positivity
    have p2 : 0 ≤ ((a' - a) * pX P + P.length * (b' - b)) ^ 2 := by positivity
    have q1 : (a' - a) ^ 2 * (P.length * sxx x) = 0 := by linarith
    have q2 : ((a' - a) * pX P + P.length * (b' - b)) ^ 2 = 0 := by linarith
    have r1 : a' - a = 0 := by
      rcases mul_eq_zero.mp q1 with h | h
      · exact pow_eq_zero_iff (by norm_num) |>.mp h
      · exact absurd h (by positivity)
    have r2 := pow_eq_zero_iff (by norm_num) |>.mp q2
    rw [r1, zero_mul, zero_add] at r2
    rcases mul_eq_zero.mp r2 with h | h
    · exact absurd h hn0.ne'
    · exact ⟨by linarith, by linarith⟩
  · rw [← h]; exact Real.sqrt_nonneg _
  · rw [eD, fs, fi]
    have : f.eslope = Real.sqrt (sqDist P a b / ((P.length : ℝ) - 2) * (1 / sxx x)) := by
      rw [← h]; simp only [er]; rw [hPl, ha, hb, ha]
    rw [this, Real.sq_sqrt (by positivity)]
    field_simp
  · rw [← h]; exact Real.sqrt_nonneg _
  · rw [eD, fs, fi]
    have : f.eicept = Real.sqrt (sqDist P a b / ((P.length : ℝ) - 2) * (1 / (P.length : ℝ) + mean x ^ 2 / sxx x)) := by
      rw [← h]; simp only [er]; rw [hPl, ha, hb, ha]
    rw [this, Real.sq_sqrt (by positivity)]
    change _ = pXX P * _
    have e3 : pXX P = sxx x + P.length * mean x ^ 2 := by rw [eSxx, mx]; field_simp; ring
    rw [e3]
    field_simp

theorem polyfitLog_fit {x y : List ℝ} {f : LineFit} (h : polyfitLog x y = .ok f) :
    x.length = y.length ∧ IsLineFit (logPoints x y) f ∧ (∀ v ∈ x, 0 < v) ∧ ∀ v ∈ y, 0 < v := by
  unfold polyfitLog at h
  split_ifs at h with h1 h2
  obtain ⟨h3, h4⟩ := polyfit1_fit h
  push Not at h2
  exact ⟨by simpa using h3, h4, h2.1, h2.2⟩

/-- When the fit succeeds. -/
theorem polyfitLog_ok {x y : List ℝ} (hl : x.length = y.length) (h2 : 2 < x.length) (hx : ∀ v ∈ x, 0 < v) (hy : ∀ v ∈ y, 0 < v)
    (hd : ∃ u ∈ x, ∃ v ∈ x, u ≠ v) : ∃ f, polyfitLog x y = .ok f := by
  unfold polyfitLog
  have hne : x ≠ [] := by rintro rfl; simp at h2
  rw [if_neg hne, if_neg]
  · unfold polyfit1
    rw [if_neg (by simpa using hne), if_neg (by simpa using hl), if_neg, if_neg (by simpa using h2)]
    · exact ⟨_, rfl⟩
    · intro h0
      obtain ⟨u, hu, v, hv, huv⟩ := hd
      have hz : ∀ w ∈ (x.map log10).map (fun v => (v - mean (x.map log10)) ^ 2), w = 0 :=
        zero_of_sum (fun w hw => by
          obtain ⟨z, -, rfl⟩ := List.mem_map.mp hw; positivity) h0
      have a1 : ∀ w ∈ x, log10 w = mean (x.map log10) := by
        intro w hw
        have := hz _ (List.mem_map_of_mem (List.mem_map_of_mem hw))
        have := pow_eq_zero_iff (by norm_num) |>.mp this
        linarith
      have e := (a1 u hu).trans (a1 v hv).symm
      exact huv (Real.logb_injOn_pos (by norm_num) (hx u hu) (hx v hv) e)
  · push Not
    exact ⟨hx, hy⟩

/-- An exact power law is recovered, with zero errors. -/
theorem IsLineFit.power_law {x y : List ℝ} {f : LineFit} (h : IsLineFit (logPoints x y) f) (hl : x.length = y.length)
    (hx : ∀ v ∈ x, 0 < v) (hd : ∃ u ∈ x, ∃ v ∈ x, u ≠ v) {A α : ℝ} (hA : 0 < A) (hy : y = x.map (fun v => A * v ^ α)) :
    f.slope = α ∧ f.icept = Real.logb 10 A ∧ f.eslope = 0 ∧ f.eicept = 0 := by
  have hz : logPoints x y = x.map (fun v => (Real.logb 10 v, Real.logb 10 A + α * Real.logb 10 v)) := by
    unfold logPoints
    rw [hy, List.map_map, List.zip_map']
    refine List.map_congr_left fun v hv => ?_
    have hv0 := hx v hv
    simp only [Function.comp]
    rw [Real.logb_mul hA.ne' (Real.rpow_pos_of_pos hv0 α).ne', Real.logb_rpow_eq_mul_logb_of_pos hv0]
  have h0 : sqDist (logPoints x y) α (Real.logb 10 A) = 0 := by
    rw [hz]; unfold sqDist
    rw [List.map_map]
    have : ((fun p : ℝ × ℝ => (p.2 - (α * p.1 + Real.logb 10 A)) ^ 2) ∘ fun v => (Real.logb 10 v, Real.logb 10 A + α * Real.logb 10 v)) =
        fun _ => (0 : ℝ) := by funext v; simp only [Function.comp]; ring
    rw [this]; simp
  obtain ⟨s1, s2⟩ := h.only α (Real.logb 10 A) (fun a b => by rw [h0]; exact sqDist_nonneg _ _ _)
  have hs : sqDist (logPoints x y) f.slope f.icept = 0 := by rw [← s1, ← s2]; exact h0
  have hD : (((logPoints x y).length : ℝ) - 2) *
      ((logPoints x y).length * ((logPoints x y).map (fun p => p.1 ^ 2)).sum - ((logPoints x y).map Prod.fst).sum ^ 2) ≠ 0 := by
    have hm := h.many
    set P := logPoints x y with hP
    have hn : (2 : ℝ) < P.length := by exact_mod_cast hm
    refine mul_ne_zero (by linarith) ?_
    intro e
    -- all abscissae equal
    have e1 : (P.map (fun p => (p.1 - pX P / P.length) ^ 2)).sum = 0 := by
      rw [sum_sq_shift]
      change (P.length : ℝ) * pXX P - pX P ^ 2 = 0 at e
      field_simp
      linear_combination e
    have hz2 := zero_of_sum (fun w hw => by
          obtain ⟨z, -, rfl⟩ := List.mem_map.mp hw; positivity) e1
    have a1 : ∀ p ∈ P, p.1 = pX P / P.length := by
      intro p hp
      have := hz2 _ (List.mem_map_of_mem hp)
      have := pow_eq_zero_iff (by norm_num) |>.mp this
      linarith
    obtain ⟨u, hu, v, hv, huv⟩ := hd
    have m1 := a1 _ (by rw [hz]; exact List.mem_map_of_mem hu)
    have m2 := a1 _ (by rw [hz]; exact List.mem_map_of_mem hv)
    exact huv (Real.logb_injOn_pos (by norm_num) (hx u hu) (hx v hv) (m1.trans m2.symm))
  refine ⟨s1.symm, s2.symm, ?_, ?_⟩
  · have := h.eslope
    rw [hs, mul_zero] at this
    rcases mul_eq_zero.mp this with h' | h'
    · exact pow_eq_zero_iff (by norm_num) |>.mp h'
    · exact absurd h' hD
  · have := h.eicept
    rw [hs, mul_zero] at this
    rcases mul_eq_zero.mp this with h' | h'
    · exact pow_eq_zero_iff (by norm_num) |>.mp h'
    · exact absurd h' hD

end

end CT
