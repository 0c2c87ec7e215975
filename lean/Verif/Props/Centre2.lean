/- C35, C36: order of the stars, sigma clipping, density weights. -/
import Verif.Props.Centre

namespace CT

noncomputable section

set_option linter.unusedSimpArgs false

theorem Shrinks.perm {l l' : List MStar} (e : l.Perm l') {nsphere : ℕ} {rmin : ℝ} {p q : Ph} {R : ℝ} {n : ℕ}
    (h : Shrinks l nsphere rmin p R n q) : Shrinks l' nsphere rmin p R n q := by
  have ei : ∀ {p R}, (insideOf l p R).Perm (insideOf l' p R) := fun {p R} => e.filter _
  have en : ∀ {p R}, Enough nsphere (insideOf l' p R) ↔ Enough nsphere (insideOf l p R) := by
    intro p R
    unfold Enough massOf
    rw [(ei.map Prod.fst).sum_eq, ei.length_eq]
  induction h with
  | stop h => exact .stop (by rwa [en])
  | step h1 h2 h3 _ ih => exact .step h1 (en.mpr h2) (h3.perm ei) ih

/-- **C67 (shrinking spheres, order).**  The order of the stars does not matter. -/
theorem C67_harfst_perm {start : Ph} {nsphere : ℕ} {rmin : ℝ} {rmax : Option ℝ} {nmax fuel : ℕ} {l l' : List MStar}
    (e : l.Perm l') (hl : l ≠ [] ∨ rmax ≠ none) (hf : nmax < fuel) :
    ∃ p, harfst start nsphere rmin rmax nmax fuel l = .ok (some p) ∧
      harfst start nsphere rmin rmax nmax fuel l' = .ok (some p) := by
  obtain ⟨p, R, h1, h2, h3⟩ := C36_harfst (nsphere := nsphere) (rmin := rmin) (start := start) hl hf
  have hl' : l' ≠ [] ∨ rmax ≠ none := by
    refine hl.imp_left ?_
    rintro h rfl
    exact h e.eq_nil
  obtain ⟨p', R', h1', h2', h3'⟩ := C36_harfst (nsphere := nsphere) (rmin := rmin) (start := start) (l := l') hl' hf
  have eR : R' = R := by
    cases rmax with
    | some b => exact h2'.trans h2.symm
    | none =>
      obtain ⟨⟨a, ha, ea⟩, hmax⟩ := h2
      obtain ⟨⟨b, hb, eb⟩, hmax'⟩ := h2'
      refine le_antisymm ?_ ?_
      · rw [eb]; exact hmax b (e.mem_iff.mpr hb)
      · rw [ea]; exact hmax' a (e.mem_iff.mp ha)
  subst eR
  have := h3'.unique (h3.perm e)
  exact ⟨p, h1, by rw [h1', this]⟩

/-! ### sigma clipping -/

theorem sum_le_card_mul {l : List ℝ} {M : ℝ} (h : ∀ x ∈ l, x ≤ M) : l.sum ≤ l.length * M := by
  induction l with
  | nil => simp
  | cons a l ih =>
    have h1 := h a (by simp)
    have h2 := ih fun x hx => h x (by simp [hx])
    simp only [List.sum_cons, List.length_cons, Nat.cast_add, Nat.cast_one]
    linarith

/-- For values in `[0, M]` the standard deviation is at most `M/2`. -/
theorem stdDev_le {l : List ℝ} {M : ℝ} (hl : l ≠ []) (h0 : ∀ x ∈ l, 0 ≤ x) (hM : ∀ x ∈ l, x ≤ M) :
    stdDev l ≤ M / 2 := by
  have hn : (0 : ℝ) < l.length := by exact_mod_cast List.length_pos_iff.mpr hl
  obtain ⟨n, hnn⟩ : ∃ n : ℝ, n = l.length := ⟨_, rfl⟩
  obtain ⟨S, hS⟩ : ∃ S, S = l.sum := ⟨_, rfl⟩
  obtain ⟨μ, hμ⟩ : ∃ μ, μ = mean l := ⟨_, rfl⟩
  have hμS : S = n * μ := by rw [hμ, hS, hnn, mean]; field_simp
  have hM0 : 0 ≤ M := by
    obtain ⟨a, t, rfl⟩ := List.exists_cons_of_ne_nil hl
    exact le_trans (h0 a (by simp)) (hM a (by simp))
  have h2 : (l.map (fun x => x ^ 2)).sum ≤ S * M := by
    rw [hS, ← List.map_id l, List.map_map]
    have e : ((List.map id l).sum) * M = (l.map (fun x => x * M)).sum := by
      rw [List.map_id]
      have := sum_map_mulc l (fun x => x) M
      rw [this, List.map_id']
    rw [e]
    refine List.sum_le_sum fun x hx => ?_
    have a := h0 x hx
    have b := hM x hx
    simp only [Function.comp, id]
    nlinarith
  have hvar : (l.map (fun x => (x - μ) ^ 2)).sum ≤ n * (M / 2) ^ 2 := by
    have e : (l.map (fun x => (x - μ) ^ 2)).sum = (l.map (fun x => x ^ 2)).sum - 2 * μ * S + n * μ ^ 2 := by
      rw [hS, hnn]
      clear h2 hμS hS hμ hn hnn hM h0 hl
      induction l with
      | nil => simp
      | cons a l ih =>
        simp only [List.map_cons, List.sum_cons, ih, List.length_cons, Nat.cast_add, Nat.cast_one]
        ring
    rw [e]
    have hn' : 0 < n := by rw [hnn]; exact hn
    rw [hμS] at h2 ⊢
    have : n * μ * M - n * μ ^ 2 ≤ n * (M / 2) ^ 2 := by
      have : 0 ≤ n * (μ - M / 2) ^ 2 := by positivity
      nlinarith
    nlinarith
  unfold stdDev
  rw [← hμ]
  have : mean (l.map (fun x => (x - μ) ^ 2)) ≤ (M / 2) ^ 2 := by
    unfold mean
    rw [List.length_map, div_le_iff₀ hn, ← hnn, mul_comm]
    exact hvar
  calc Real.sqrt _ ≤ Real.sqrt ((M / 2) ^ 2) := Real.sqrt_le_sqrt this
    _ = M / 2 := Real.sqrt_sq (by linarith)

theorem stdDev_nonneg (l : List ℝ) : 0 ≤ stdDev l := Real.sqrt_nonneg _

/-- With `nsigma ≤ 2` every round drops a star. -/
theorem clip_drops {nsigma : ℝ} (h : nsigma ≤ 2) {l : List Clip} (hl : l ≠ []) :
    (l.filter (fun a => decide (a.r < nsigma * stdDev (l.map Clip.r)))).length < l.length := by
  obtain ⟨a, ha, hmax⟩ : ∃ a ∈ l, ∀ b ∈ l, b.r ≤ a.r := by
    clear h
    induction l with
    | nil => exact (hl rfl).elim
    | cons c l ih =>
      by_cases hl' : l = []
      · subst hl'; exact ⟨c, by simp, by simp⟩
      · obtain ⟨a, ha, hm⟩ := ih hl'
        by_cases hc : c.r ≤ a.r
        · exact ⟨a, by simp [ha], by simp only [List.mem_cons, forall_eq_or_imp]; exact ⟨hc, hm⟩⟩
        · refine ⟨c, by simp, ?_⟩
          simp only [List.mem_cons, forall_eq_or_imp]
          exact ⟨le_refl _, fun b hb => (hm b hb).trans (not_le.mp hc).le⟩
  have hs : stdDev (l.map Clip.r) ≤ a.r / 2 := by
    refine stdDev_le (by simpa using hl) ?_ ?_
    · intro x hx
      obtain ⟨b, -, rfl⟩ := List.mem_map.mp hx
      exact Real.sqrt_nonneg _
    · intro x hx
      obtain ⟨b, hb, rfl⟩ := List.mem_map.mp hx
      exact hmax b hb
  have h0 := stdDev_nonneg (l.map Clip.r)
  have : ¬ a.r < nsigma * stdDev (l.map Clip.r) := by
    have : nsigma * stdDev (l.map Clip.r) ≤ 2 * stdDev (l.map Clip.r) := mul_le_mul_of_nonneg_right h h0
    linarith
  refine lt_of_le_of_ne (List.length_filter_le _ _) fun e => ?_
  have := List.length_filter_eq_length_iff.mp e a ha
  simp only [decide_eq_true_eq] at this
  contradiction

theorem recentre_length (l : List Clip) : (recentre l).length = l.length := by simp [recentre]

/-- **C36 (sigma clipping ends).**  For `nsigma ≤ 2` (the default is 1) the clipping loop of `find_centre(density=False)`
ends for all stars, after at most as many rounds as there are stars. -/
theorem C36_clip_ends {nsigma : ℝ} (h : nsigma ≤ 2) (nsphere : ℕ) : ∀ {l : List Clip} {fuel : ℕ}, l.length < fuel →
    ∃ r, loopN (clipBody nsigma nsphere) fuel l = some r := by
  intro l
  induction hn : l.length using Nat.strong_induction_on generalizing l with
  | _ n ih =>
    intro fuel hf
    obtain ⟨fuel, rfl⟩ : ∃ f, fuel = f + 1 := ⟨fuel - 1, by omega⟩
    unfold loopN
    cases hb : clipBody nsigma nsphere l with
    | none => exact ⟨l, rfl⟩
    | some l' =>
      have hlt : l'.length < l.length := by
        unfold clipBody at hb
        split at hb
        · rename_i h1
          simp only at hb
          split at hb
          · rw [← Option.some.inj hb, recentre_length]
            exact clip_drops h (by rintro rfl; simp at h1)
          · cases hb
        · cases hb
      exact ih l'.length (by omega) rfl (by omega)

/-- Groups of four stars: two at the centre, one on either side. -/
def stuck (n : ℕ) : List Clip :=
  (List.range n).flatMap (fun (i : ℕ) =>
    [⟨4 * (i : ℤ), 0, 0, 0⟩, ⟨4 * (i : ℤ) + 1, 0, 0, 0⟩, ⟨4 * (i : ℤ) + 2, 1, 0, 0⟩, ⟨4 * (i : ℤ) + 3, -1, 0, 0⟩])

theorem stuck_sum (n : ℕ) (f : Clip → ℝ) (hf : ∀ a b, a.x = b.x → a.y = b.y → a.z = b.z → f a = f b) :
    ((stuck n).map f).sum = n * (2 * f ⟨0, 0, 0, 0⟩ + f ⟨0, 1, 0, 0⟩ + f ⟨0, -1, 0, 0⟩) := by
  unfold stuck
  induction n with
  | zero => simp
  | succ n ih =>
    rw [List.range_succ, List.flatMap_append, List.map_append, List.sum_append, ih]
    simp only [List.flatMap_cons, List.flatMap_nil, List.append_nil, List.map_cons, List.map_nil, List.sum_cons,
      List.sum_nil]
    rw [hf ⟨4 * (n : ℤ), 0, 0, 0⟩ ⟨0, 0, 0, 0⟩ rfl rfl rfl, hf ⟨4 * (n : ℤ) + 1, 0, 0, 0⟩ ⟨0, 0, 0, 0⟩ rfl rfl rfl,
      hf ⟨4 * (n : ℤ) + 2, 1, 0, 0⟩ ⟨0, 1, 0, 0⟩ rfl rfl rfl, hf ⟨4 * (n : ℤ) + 3, -1, 0, 0⟩ ⟨0, -1, 0, 0⟩ rfl rfl rfl]
    push_cast
    ring

theorem stuck_length (n : ℕ) : (stuck n).length = 4 * n := by
  unfold stuck
  induction n with
  | zero => simp
  | succ n ih =>
    rw [List.range_succ, List.flatMap_append, List.length_append, ih]
    simp; omega

theorem stuck_mem {n : ℕ} {a : Clip} (h : a ∈ stuck n) : (a.r = 0 ∨ a.r = 1) := by
  unfold stuck at h
  obtain ⟨i, -, hi⟩ := List.mem_flatMap.mp h
  simp only [List.mem_cons, List.not_mem_nil, or_false] at hi
  rcases hi with rfl | rfl | rfl | rfl <;> simp [Clip.r]

theorem stuck_recentre {n : ℕ} : recentre (stuck n) = stuck n := by
  have hx : mean ((stuck n).map Clip.x) = 0 := by
    unfold mean
    rw [stuck_sum n Clip.x (fun a b h _ _ => h)]
    simp
  have hy : mean ((stuck n).map Clip.y) = 0 := by
    unfold mean
    rw [stuck_sum n Clip.y (fun a b _ h _ => h)]
    simp
  have hz : mean ((stuck n).map Clip.z) = 0 := by
    unfold mean
    rw [stuck_sum n Clip.z (fun a b _ _ h => h)]
    simp
  unfold recentre
  rw [hx, hy, hz]
  simp

theorem stuck_std {n : ℕ} (hn : 1 ≤ n) : stdDev ((stuck n).map Clip.r) = 1 / 2 := by
  have hn' : (n : ℝ) ≠ 0 := by exact_mod_cast (by omega : n ≠ 0)
  have hr : ∀ a b : Clip, a.x = b.x → a.y = b.y → a.z = b.z → a.r = b.r := by
    intro a b h1 h2 h3; unfold Clip.r; rw [h1, h2, h3]
  have r0 : Clip.r ⟨0, 0, 0, 0⟩ = 0 := by simp [Clip.r]
  have r1 : Clip.r ⟨0, 1, 0, 0⟩ = 1 := by simp [Clip.r]
  have r2 : Clip.r ⟨0, -1, 0, 0⟩ = 1 := by simp [Clip.r]
  have hm : mean ((stuck n).map Clip.r) = 1 / 2 := by
    unfold mean
    rw [stuck_sum n Clip.r hr, List.length_map, stuck_length, r0, r1, r2]
    push_cast
    field_simp
    norm_num
  unfold stdDev
  rw [hm, List.map_map]
  have : mean ((stuck n).map ((fun x => (x - 1 / 2) ^ 2) ∘ Clip.r)) = (1 / 2) ^ 2 := by
    unfold mean
    rw [stuck_sum n _ (fun a b h1 h2 h3 => by simp only [Function.comp, hr a b h1 h2 h3]), List.length_map, stuck_length]
    simp only [Function.comp, r0, r1, r2]
    push_cast
    field_simp
    norm_num
  rw [this, Real.sqrt_sq (by norm_num)]

/-- **C36 is violated for `nsigma > 2`:** for every `nsphere` there is a cluster (with distinct ids) on which the loop
never ends. -/
theorem C36_clip_diverges_violated {nsigma : ℝ} (h : 2 < nsigma) (nsphere : ℕ) :
    ∃ l : List Clip, (l.map Clip.id).Nodup ∧ ¬ Ends (clipBody nsigma nsphere) l := by
  refine ⟨stuck (nsphere + 1), ?_, ?_⟩
  · have : ∀ n, (stuck n).map Clip.id = (List.range (4 * n)).map (fun (i : ℕ) => (i : ℤ)) := by
      intro n
      unfold stuck
      induction n with
      | zero => simp
      | succ n ih =>
        rw [List.range_succ, List.flatMap_append, List.map_append, ih, show 4 * (n + 1) = 4 * n + 1 + 1 + 1 + 1 by ring,
          List.range_succ, List.range_succ, List.range_succ, List.range_succ]
        simp
    rw [this]
    exact List.Nodup.map (fun a b h => by exact_mod_cast h) List.nodup_range
  · have hb : clipBody nsigma nsphere (stuck (nsphere + 1)) = some (stuck (nsphere + 1)) := by
      unfold clipBody
      rw [if_pos (by rw [stuck_length]; omega)]
      simp only [stuck_std (show 1 ≤ nsphere + 1 by omega)]
      have hf : (stuck (nsphere + 1)).filter (fun a => decide (a.r < nsigma * (1 / 2))) = stuck (nsphere + 1) := by
        rw [List.filter_eq_self]
        intro a ha
        rcases stuck_mem ha with e | e <;> rw [e, decide_eq_true_eq] <;> linarith
      rw [hf, if_pos (by rw [stuck_length]; omega), stuck_recentre]
    rintro ⟨k, r, hk⟩
    have : ∀ k, loopN (clipBody nsigma nsphere) k (stuck (nsphere + 1)) = none := by
      intro k
      induction k with
      | zero => rfl
      | succ k ih => unfold loopN; rw [hb]; exact ih
    rw [this] at hk
    cases hk

/-- What is left by the loop: stars of the start, more than `nsphere` of them unless there were not more to begin
with. -/
theorem clip_result {nsigma : ℝ} {nsphere : ℕ} : ∀ {fuel : ℕ} {l r : List Clip},
    loopN (clipBody nsigma nsphere) fuel l = some r →
    (r.map Clip.id).Sublist (l.map Clip.id) ∧ (l.length ≤ nsphere → r = l) ∧ (nsphere < l.length → nsphere < r.length) := by
  intro fuel
  induction fuel with
  | zero => intro l r h; cases h
  | succ k ih =>
    intro l r h
    unfold loopN at h
    cases hb : clipBody nsigma nsphere l with
    | none =>
      rw [hb] at h
      have : l = r := Option.some.inj h
      subst this
      exact ⟨List.Sublist.refl _, fun _ => rfl, fun h => h⟩
    | some l' =>
      rw [hb] at h
      obtain ⟨h1, h2, h3⟩ := ih h
      unfold clipBody at hb
      split at hb
      · rename_i hlen
        simp only at hb
        split at hb
        · rename_i hk
          have e := Option.some.inj hb
          have hids : (l'.map Clip.id).Sublist (l.map Clip.id) := by
            rw [← e]
            unfold recentre
            rw [List.map_map]
            exact (List.filter_sublist (l := l)).map Clip.id
          refine ⟨h1.trans hids, fun h => by omega, fun _ => ?_⟩
          refine h3 ?_
          rw [← e, recentre_length]
          exact hk
        · cases hb
      · cases hb

/-! ### density weights -/

/-- A valid answer of the KD-tree: for every star a list of `k` different stars and the distance to the last, no listed
star being farther, no other star nearer. -/
structure IsKnn (k : ℕ) (l : List MStar) (knn : List (List ℕ × ℝ)) : Prop where
  len : knn.length = l.length
  size : ∀ q ∈ knn, q.1.length = k ∧ q.1.Nodup ∧ ∀ j ∈ q.1, j < l.length
  dist : ∀ i < l.length, ∀ j ∈ (knn[i]!).1, Real.sqrt (((l[j]!).2.sub (l[i]!).2).r2) ≤ (knn[i]!).2
  last : ∀ i < l.length, Real.sqrt (((l[(knn[i]!).1.getLastD 0]!).2.sub (l[i]!).2).r2) = (knn[i]!).2
  others : ∀ i < l.length, ∀ j < l.length, j ∉ (knn[i]!).1 → (knn[i]!).2 ≤ Real.sqrt (((l[j]!).2.sub (l[i]!).2).r2)

theorem shifted_get {d : Ph} {l : List MStar} {j : ℕ} (hj : j < l.length) :
    (shifted d l)[j]! = ((l[j]!).1, (l[j]!).2.add d) := by
  unfold shifted
  rw [getElem!_pos _ j (by simpa using hj), getElem!_pos l j hj]
  simp

theorem add_sub_add (a b d : Ph) : (a.add d).sub (b.add d) = a.sub b := by
  ext <;> simp [Ph.add, Ph.sub]

theorem IsKnn.shift {k : ℕ} {l : List MStar} {knn : List (List ℕ × ℝ)} (hk : 1 ≤ k) (h : IsKnn k l knn) (d : Ph) :
    IsKnn k (shifted d l) knn := by
  have hl : (shifted d l).length = l.length := by simp [shifted]
  have hmem : ∀ i < l.length, (knn[i]!).1 ∈ knn.map Prod.fst ∧ ∀ j ∈ (knn[i]!).1, j < l.length := by
    intro i hi
    have hi' : i < knn.length := by rw [h.len]; exact hi
    rw [getElem!_pos knn i hi']
    exact ⟨List.mem_map.mpr ⟨_, List.getElem_mem hi', rfl⟩, (h.size _ (List.getElem_mem hi')).2.2⟩
  have hlast : ∀ i < l.length, (knn[i]!).1.getLastD 0 < l.length := by
    intro i hi
    have hi' : i < knn.length := by rw [h.len]; exact hi
    refine (hmem i hi).2 _ ?_
    have hne : (knn[i]!).1 ≠ [] := by
      have := (h.size _ (List.getElem_mem hi')).1
      rw [← getElem!_pos knn i hi'] at this
      intro e; rw [e] at this; simp at this; omega
    rw [List.getLastD_eq_getLast?, List.getLast?_eq_getLast_of_ne_nil hne]
    exact List.getLast_mem hne
  refine ⟨by rw [hl]; exact h.len, by rw [hl]; exact h.size, ?_, ?_, ?_⟩
  · intro i hi j hj
    rw [hl] at hi
    rw [shifted_get hi, shifted_get ((hmem i hi).2 j hj), add_sub_add]
    exact h.dist i hi j hj
  · intro i hi
    rw [hl] at hi
    rw [shifted_get hi, shifted_get (hlast i hi), add_sub_add]
    exact h.last i hi
  · intro i hi j hj hnot
    rw [hl] at hi hj
    rw [shifted_get hi, shifted_get hj, add_sub_add]
    exact h.others i hi j hj hnot

/-- The densities used as weights. -/
def rhosOf (knn : List (List ℕ × ℝ)) (l : List MStar) : List ℝ :=
  knn.map (fun q => ((q.1.map (fun j => (l[j]!).1)).sum - (l[q.1.getLastD 0]!).1) / q.2 ^ 3)

/-- **C67 (density centre).**  For a valid neighbour query and a non-zero total density, displacing and boosting all
stars displaces and boosts the density centre (`method='casertano'`). -/
theorem C67_casertano_shift {k : ℕ} {l : List MStar} {knn : List (List ℕ × ℝ)} (hk : 1 ≤ k) (h : IsKnn k l knn)
    (d : Ph) (ht : (rhosOf knn l).sum ≠ 0) :
    IsKnn k (shifted d l) knn ∧ casertano knn (shifted d l) = (casertano knn l).add d := by
  refine ⟨h.shift hk d, ?_⟩
  have hmass : ∀ j < l.length, ((shifted d l)[j]!).1 = (l[j]!).1 := fun j hj => by rw [shifted_get hj]
  have er : rhosOf knn (shifted d l) = rhosOf knn l := by
    unfold rhosOf
    refine List.map_congr_left fun q hq => ?_
    obtain ⟨h1, h2, h3⟩ := h.size q hq
    have hne : q.1 ≠ [] := by intro e; rw [e] at h1; simp at h1; omega
    rw [hmass (q.1.getLastD 0) (h3 _ (by
      rw [List.getLastD_eq_getLast?, List.getLast?_eq_getLast_of_ne_nil hne]; exact List.getLast_mem hne))]
    congr 3
    exact List.map_congr_left fun j hj => hmass j (h3 j hj)
  have key : ∀ (f : Ph → ℝ), (∀ p, f (p.add d) = f p + f d) →
      (List.zipWith (fun rho (a : MStar) => rho * f a.2 / (rhosOf knn l).sum) (rhosOf knn l) (shifted d l)).sum =
      (List.zipWith (fun rho (a : MStar) => rho * f a.2 / (rhosOf knn l).sum) (rhosOf knn l) l).sum + f d := by
    intro f hf
    have hlen : (rhosOf knn l).length = l.length := by unfold rhosOf; rw [List.length_map, h.len]
    obtain ⟨rhos, hr⟩ : ∃ rhos, rhos = rhosOf knn l := ⟨_, rfl⟩
    obtain ⟨T, hT⟩ : ∃ T, T = (rhosOf knn l).sum := ⟨_, rfl⟩
    rw [← hT] at ht ⊢
    rw [← hr] at hlen hT ⊢
    have gen : ∀ (rhos : List ℝ) (l : List MStar), rhos.length = l.length →
        (List.zipWith (fun rho (a : MStar) => rho * f a.2 / T) rhos (shifted d l)).sum =
        (List.zipWith (fun rho (a : MStar) => rho * f a.2 / T) rhos l).sum + rhos.sum * f d / T := by
      intro rhos
      induction rhos with
      | nil => intro l _; simp
      | cons r rhos ih =>
        intro l hl
        match l with
        | a :: l =>
          have := ih l (by simpa using hl)
          unfold shifted at this ⊢
          simp only [List.map_cons, List.zipWith_cons_cons, List.sum_cons, this, hf]
          ring
    rw [gen rhos l hlen, ← hT]
    field_simp
  have e1 : ∀ l', casertano knn l' =
      ⟨(List.zipWith (fun rho (a : MStar) => rho * a.2.x / (rhosOf knn l').sum) (rhosOf knn l') l').sum,
       (List.zipWith (fun rho (a : MStar) => rho * a.2.y / (rhosOf knn l').sum) (rhosOf knn l') l').sum,
       (List.zipWith (fun rho (a : MStar) => rho * a.2.z / (rhosOf knn l').sum) (rhosOf knn l') l').sum,
       (List.zipWith (fun rho (a : MStar) => rho * a.2.vx / (rhosOf knn l').sum) (rhosOf knn l') l').sum,
       (List.zipWith (fun rho (a : MStar) => rho * a.2.vy / (rhosOf knn l').sum) (rhosOf knn l') l').sum,
       (List.zipWith (fun rho (a : MStar) => rho * a.2.vz / (rhosOf knn l').sum) (rhosOf knn l') l').sum⟩ := fun _ => rfl
  rw [e1, e1, er]
  ext
  · exact key Ph.x (fun _ => rfl)
  · exact key Ph.y (fun _ => rfl)
  · exact key Ph.z (fun _ => rfl)
  · exact key Ph.vx (fun _ => rfl)
  · exact key Ph.vy (fun _ => rfl)
  · exact key Ph.vz (fun _ => rfl)

end

end CT
