/- Bins and fits of rescaled data. -/
import Verif.Lemmas.Fit

namespace CT

noncomputable section

set_option linter.unusedSimpArgs false

/-- The bins of data multiplied by `s`. -/
def BinTable.scale (s : ℝ) (T : BinTable) : BinTable :=
  { lower := T.lower.map (s * ·), mid := T.mid.map (s * ·), upper := T.upper.map (s * ·), hist := T.hist, sum := T.sum.map (s * ·) }

theorem getD_scale (s : ℝ) (x : List ℝ) (i : ℕ) : (x.map (s * ·)).getD i 0 = s * x.getD i 0 := by
  rw [List.getD_eq_getElem?_getD, List.getD_eq_getElem?_getD, List.getElem?_map]
  cases x[i]? <;> simp

theorem argsort_scale {s : ℝ} (hs : 0 < s) (x : List ℝ) : argsort (x.map (s * ·)) = argsort x := by
  unfold argsort
  simp only [List.length_map, getD_scale, mul_le_mul_iff_of_pos_left hs]

theorem fancy_scale (s : ℝ) (x : List ℝ) (o : List ℕ) (k : ℕ) :
    fancy (x.map (s * ·)) o k = (fancy x o k).map (s * ·) := by
  unfold fancy
  cases o[k]? with
  | none => rfl
  | some i =>
    simp only [List.getElem?_map]
    cases x[i]? <;> rfl

theorem mapM_map {α β γ : Type} (l : List α) (h : α → Except Err β) (q : β → γ) :
    l.mapM (fun k => (h k).map q) = (l.mapM h).map (List.map q) := by
  induction l with
  | nil => rfl
  | cons a l ih =>
    rw [List.mapM_cons, List.mapM_cons]
    cases h1 : h a with
    | error e => rfl
    | ok b =>
      rw [ih]
      cases List.mapM h l <;> rfl

theorem foldl_max_scale {s : ℝ} (hs : 0 < s) (x : List ℝ) (a : ℝ) :
    (x.map (s * ·)).foldl max (s * a) = s * x.foldl max a := by
  induction x generalizing a with
  | nil => rfl
  | cons b x ih => simp only [List.map_cons, List.foldl_cons]; rw [← mul_max_of_nonneg _ _ hs.le, ih]

theorem foldl_min_scale {s : ℝ} (hs : 0 < s) (x : List ℝ) (a : ℝ) :
    (x.map (s * ·)).foldl min (s * a) = s * x.foldl min a := by
  induction x generalizing a with
  | nil => rfl
  | cons b x ih => simp only [List.map_cons, List.foldl_cons]; rw [← mul_min_of_nonneg _ _ hs.le, ih]

theorem headD_scale (s : ℝ) (x : List ℝ) : (x.map (s * ·)).headD 0 = s * x.headD 0 := by
  cases x <;> simp

theorem maxOf_scale {s : ℝ} (hs : 0 < s) (x : List ℝ) : maxOf (x.map (s * ·)) = s * maxOf x := by
  unfold maxOf; rw [headD_scale, foldl_max_scale hs]

theorem minOf_scale {s : ℝ} (hs : 0 < s) (x : List ℝ) : minOf (x.map (s * ·)) = s * minOf x := by
  unfold minOf; rw [headD_scale, foldl_min_scale hs]

theorem ssr_scale {s : ℝ} (hs : 0 < s) (u : List ℝ) (v : ℝ) : searchsortedRight (u.map (s * ·)) (s * v) = searchsortedRight u v := by
  unfold searchsortedRight
  rw [List.takeWhile_map, List.length_map]
  congr 2
  funext w
  simp [mul_le_mul_iff_of_pos_left hs]

theorem binIndex_scale {s : ℝ} (hs : 0 < s) (x l l' u : List ℝ) :
    binIndex (x.map (s * ·)) l' (u.map (s * ·)) = binIndex x l u := by
  unfold binIndex
  rw [List.map_map]
  refine List.map_congr_left fun v _ => ?_
  simp only [Function.comp, ssr_scale hs, List.length_map]

theorem bincount_scale (s : ℝ) (idx : List ℤ) (w : List ℝ) (n : ℕ) :
    bincount idx (w.map (s * ·)) n = (bincount idx w n).map (List.map (s * ·)) := by
  unfold bincount
  split
  · rfl
  · simp only [Except.map, Except.ok.injEq, List.map_map]
    refine List.map_congr_left fun k _ => ?_
    simp only [Function.comp]
    rw [← List.sum_map_mul_left]
    rw [show List.zip idx (w.map (s * ·)) = (List.zip idx w).map (fun p => (p.1, s * p.2)) from by
      rw [List.zip_map_right]; rfl]
    rw [List.map_map]
    congr 1
    refine List.map_congr_left fun p _ => ?_
    simp only [Function.comp]
    split <;> simp

theorem keep_scale {s : ℝ} (hs : 0 < s) (L U : List ℝ) :
    (List.zip (L.map (s * ·)) (U.map (s * ·))).filter (fun p => decide (p.1 ≠ p.2)) =
      ((List.zip L U).filter (fun p => decide (p.1 ≠ p.2))).map (Prod.map (s * ·) (s * ·)) := by
  rw [List.zip_map, List.filter_map]
  congr 1
  refine List.filter_congr fun p _ => ?_
  simp [hs.ne']

theorem nbinmaker_scale {s : ℝ} (hs : 0 < s) (x : List ℝ) (n : ℕ) :
    nbinmaker (x.map (s * ·)) n = (nbinmaker x n).map (BinTable.scale s) := by
  unfold nbinmaker
  dsimp only
  rw [argsort_scale hs, List.length_map,
    show (fancy (x.map (s * ·)) (argsort x)) = fun k => (fancy x (argsort x) k).map (s * ·) from funext fun k => fancy_scale s x _ k,
    mapM_map]
  cases h : ((List.range n).map (fun i => i * x.length / n)).mapM (fancy x (argsort x)) with
  | error e => rfl
  | ok L =>
    simp only [bind, Except.bind, Except.map]
    by_cases hn : n = 0
    · simp only [hn, if_true]; rfl
    · simp only [hn, if_false, pure, Except.pure]
      rw [maxOf_scale hs, show (L.map (s * ·)).tail ++ [s * maxOf x] = (L.tail ++ [maxOf x]).map (s * ·) from by simp [List.map_tail],
        keep_scale hs]
      set K := (List.zip L (L.tail ++ [maxOf x])).filter (fun p => decide (p.1 ≠ p.2)) with hK
      have e1 : (K.map (Prod.map (s * ·) (s * ·))).map Prod.fst = (K.map Prod.fst).map (s * ·) := by simp [List.map_map, Function.comp_def]
      have e2 : (K.map (Prod.map (s * ·) (s * ·))).map Prod.snd = (K.map Prod.snd).map (s * ·) := by simp [List.map_map, Function.comp_def]
      rw [e1, e2, binIndex_scale hs x (K.map Prod.fst), List.length_map, bincount_scale]
      rw [show (x.map (s * ·)).map (fun _ => (1 : ℝ)) = x.map (fun _ => 1) from by simp [List.map_map, Function.comp_def]]
      cases bincount (binIndex x (K.map Prod.fst) (K.map Prod.snd)) (x.map fun _ => 1) (K.map Prod.fst).length with
      | error e => rfl
      | ok H =>
        cases bincount (binIndex x (K.map Prod.fst) (K.map Prod.snd)) x (K.map Prod.fst).length with
        | error e => rfl
        | ok S =>
          simp only [Except.map, Except.ok.injEq, BinTable.scale]
          congr 1
          rw [List.zipWith_map_left, List.map_zipWith]
          congr 1
          funext a b
          ring

theorem linspace_scale (s a b : ℝ) (n : ℕ) : linspace (s * a) (s * b) n = (linspace a b n).map (s * ·) := by
  unfold linspace
  rw [List.map_map]
  refine List.map_congr_left fun i _ => ?_
  simp only [Function.comp]
  ring

theorem binMembers_scale {s : ℝ} (hs : 0 < s) (x l u : List ℝ) (j : ℕ) :
    binMembers (x.map (s * ·)) (l.map (s * ·)) (u.map (s * ·)) j = (binMembers x l u j).map (s * ·) := by
  unfold binMembers
  rw [List.length_map]
  split
  all_goals
    rw [List.filter_map]
    congr 1
    refine List.filter_congr fun v _ => ?_
    simp only [Function.comp, getD_scale, mul_le_mul_iff_of_pos_left hs, mul_lt_mul_iff_of_pos_left hs]

theorem binmaker_scale {s : ℝ} (hs : 0 < s) (x : List ℝ) (n : ℕ) :
    binmaker (x.map (s * ·)) n true = (binmaker x n true).map (BinTable.scale s) := by
  unfold binmaker
  by_cases hx : x = []
  · simp [hx]; rfl
  · rw [if_neg (by simpa using hx), if_neg hx]
    simp only [if_true, maxOf_scale hs, minOf_scale hs, linspace_scale, Except.map, Except.ok.injEq]
    generalize linspace (minOf x) (maxOf x) (n + 1) = L
    rw [← List.map_dropLast, ← List.map_tail]
    unfold tabulate BinTable.scale
    simp only [List.length_map, binMembers_scale hs, List.map_map]
    congr 1
    · rw [List.zipWith_map, List.map_zipWith]
      congr 1
      funext a b; ring
    · refine List.map_congr_left fun j _ => ?_
      simp only [Function.comp]
      have := List.sum_map_mul_left (l := binMembers x L.dropLast L.tail j) (r := s) (f := fun v => v)
      simpa using this

/-! ### Fits of shifted data -/

theorem mean_shift {x : List ℝ} (hx : x ≠ []) (u : ℝ) : mean (x.map (· + u)) = mean x + u := by
  have h0 : (x.length : ℝ) ≠ 0 := by
    have := List.length_pos_iff.mpr hx
    exact_mod_cast this.ne'
  unfold mean
  have : (x.map (· + u)).sum = x.sum + x.length * u := by
    clear hx h0
    induction x with
    | nil => simp
    | cons a x ih => simp only [List.map_cons, List.sum_cons, ih, List.length_cons]; push_cast; ring
  rw [this, List.length_map]
  field_simp

theorem sxx_shift {x : List ℝ} (hx : x ≠ []) (u : ℝ) : sxx (x.map (· + u)) = sxx x := by
  unfold sxx
  rw [mean_shift hx, List.map_map]
  congr 1
  refine List.map_congr_left fun v _ => ?_
  simp only [Function.comp]; ring

theorem sxy_shift {x y : List ℝ} (hx : x ≠ []) (hy : y ≠ []) (u v : ℝ) : sxy (x.map (· + u)) (y.map (· + v)) = sxy x y := by
  unfold sxy
  rw [mean_shift hx, mean_shift hy, List.zip_map, List.map_map]
  congr 1
  refine List.map_congr_left fun p _ => ?_
  simp only [Function.comp, Prod.map]; ring

theorem rss_shift (x y : List ℝ) (u v a b : ℝ) : rss (x.map (· + u)) (y.map (· + v)) a (b + v - a * u) = rss x y a b := by
  unfold rss
  rw [List.zip_map, List.map_map]
  congr 1
  refine List.map_congr_left fun p _ => ?_
  simp only [Function.comp, Prod.map]; ring

theorem polyfit1_shift {x y : List ℝ} {f : LineFit} (h : polyfit1 x y = .ok f) (u v : ℝ) :
    ∃ f', polyfit1 (x.map (· + u)) (y.map (· + v)) = .ok f' ∧ f'.slope = f.slope ∧ f'.eslope = f.eslope ∧
      f'.icept = f.icept + v - f.slope * u := by
  unfold polyfit1 at h ⊢
  split_ifs at h with h1 h2 h3 h4
  have hl : x.length = y.length := not_not.mp h2
  have hy : y ≠ [] := by
    rintro rfl
    exact h1 (List.length_eq_zero_iff.mp (by simpa using hl))
  rw [if_neg (by simpa using h1), if_neg (by simpa using hl), sxx_shift h1, if_neg h3, if_neg (by simpa using h4)]
  injection h with h
  refine ⟨_, rfl, ?_, ?_, ?_⟩
  · simp only [← h, sxy_shift h1 hy]
  · simp only [← h, sxy_shift h1 hy, mean_shift h1, mean_shift hy, List.length_map]
    rw [show mean y + v - sxy x y / sxx x * (mean x + u) = (mean y - sxy x y / sxx x * mean x) + v - sxy x y / sxx x * u from by ring,
      rss_shift]
  · simp only [← h, sxy_shift h1 hy, mean_shift h1, mean_shift hy]
    ring

theorem polyfitLog_scale {x y : List ℝ} {f : LineFit} (h : polyfitLog x y = .ok f) {s t : ℝ} (hs : 0 < s) (ht : 0 < t) :
    ∃ f', polyfitLog (x.map (s * ·)) (y.map (t * ·)) = .ok f' ∧ f'.slope = f.slope ∧ f'.eslope = f.eslope ∧
      f'.icept = f.icept + log10 t - f.slope * log10 s := by
  obtain ⟨-, -, hx, hy⟩ := polyfitLog_fit h
  unfold polyfitLog at h ⊢
  split_ifs at h with h1 h2
  rw [if_neg (by simpa using h1), if_neg]
  · have e : ∀ (l : List ℝ) (k : ℝ), 0 < k → (∀ v ∈ l, 0 < v) → (l.map (k * ·)).map log10 = (l.map log10).map (· + log10 k) := by
      intro l k hk hl
      rw [List.map_map, List.map_map]
      refine List.map_congr_left fun v hv => ?_
      simp only [Function.comp, log10]
      rw [Real.logb_mul hk.ne' (hl v hv).ne', add_comm]
    rw [e x s hs hx, e y t ht hy]
    exact polyfit1_shift h _ _
  · push Not
    refine ⟨fun v hv => ?_, fun v hv => ?_⟩
    · obtain ⟨w, hw, rfl⟩ := List.mem_map.mp hv
      exact mul_pos hs (hx w hw)
    · obtain ⟨w, hw, rfl⟩ := List.mem_map.mp hv
      exact mul_pos ht (hy w hw)

end

end CT
