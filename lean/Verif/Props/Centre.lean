/- C35, C36: centre of mass, shrinking spheres, sigma clipping. -/
import Verif.Spec.Centre
import Verif.Lemmas.Mask
import Mathlib.Tactic.Linarith
import Mathlib.Tactic.FieldSimp
import Mathlib.Tactic.Positivity
import Mathlib.Algebra.Order.BigOperators.Group.List
import Mathlib.Algebra.BigOperators.Ring.List

namespace CT

noncomputable section

set_option linter.unusedSimpArgs false

theorem sum_map_sub' {α : Type} (l : List α) (f g : α → ℝ) :
    (l.map (fun a => f a - g a)).sum = (l.map f).sum - (l.map g).sum := by
  induction l with
  | nil => simp
  | cons a l ih => simp only [List.map_cons, List.sum_cons, ih]; ring

theorem sum_map_mulc {α : Type} (l : List α) (f : α → ℝ) (k : ℝ) :
    (l.map (fun a => f a * k)).sum = (l.map f).sum * k := by
  induction l with
  | nil => simp
  | cons a l ih => simp only [List.map_cons, List.sum_cons, ih]; ring

theorem sum_map_add' {α : Type} (l : List α) (f g : α → ℝ) :
    (l.map (fun a => f a + g a)).sum = (l.map f).sum + (l.map g).sum := by
  induction l with
  | nil => simp
  | cons a l ih => simp only [List.map_cons, List.sum_cons, ih]; ring

theorem wsum_zero_iff {f : Ph → ℝ} {l : List MStar} (h : massOf l ≠ 0) (p : ℝ) :
    (l.map (fun a => a.1 * (f a.2 - p))).sum = 0 ↔ p = wmean f l := by
  have e : (l.map (fun a => a.1 * (f a.2 - p))).sum = (l.map (fun a => a.1 * f a.2)).sum - massOf l * p := by
    unfold massOf
    rw [← sum_map_mulc, ← sum_map_sub']
    congr 1
    exact List.map_congr_left fun a _ => by ring
  have e2 : wmean f l = (l.map (fun a => a.1 * f a.2)).sum / massOf l := rfl
  rw [e, e2, sub_eq_zero, eq_div_iff h, eq_comm, mul_comm p]

/-- **C35 (mean).**  For a non-zero total mass the computed point is the centre of mass, and the only one. -/
theorem C35_com {l : List MStar} (h : massOf l ≠ 0) (p : Ph) : IsCom l p ↔ p = comOfStars l := by
  constructor
  · rintro ⟨a, b, c, d, e, f⟩
    ext
    · exact (wsum_zero_iff (f := Ph.x) h _).mp a
    · exact (wsum_zero_iff (f := Ph.y) h _).mp b
    · exact (wsum_zero_iff (f := Ph.z) h _).mp c
    · exact (wsum_zero_iff (f := Ph.vx) h _).mp d
    · exact (wsum_zero_iff (f := Ph.vy) h _).mp e
    · exact (wsum_zero_iff (f := Ph.vz) h _).mp f
  · rintro rfl
    exact ⟨(wsum_zero_iff (f := Ph.x) h _).mpr rfl, (wsum_zero_iff (f := Ph.y) h _).mpr rfl,
      (wsum_zero_iff (f := Ph.z) h _).mpr rfl, (wsum_zero_iff (f := Ph.vx) h _).mpr rfl,
      (wsum_zero_iff (f := Ph.vy) h _).mpr rfl, (wsum_zero_iff (f := Ph.vz) h _).mpr rfl⟩

theorem massOf_shifted (d : Ph) (l : List MStar) : massOf (shifted d l) = massOf l := by
  unfold massOf shifted
  rw [List.map_map]; rfl

theorem IsCom.shift {l : List MStar} {p : Ph} (d : Ph) (h : IsCom l p) : IsCom (shifted d l) (p.add d) := by
  obtain ⟨a, b, c, e, f, g⟩ := h
  refine ⟨?_, ?_, ?_, ?_, ?_, ?_⟩ <;> unfold shifted <;> rw [List.map_map]
  · rw [← a]; congr 1; exact List.map_congr_left fun u _ => by simp [Ph.add]
  · rw [← b]; congr 1; exact List.map_congr_left fun u _ => by simp [Ph.add]
  · rw [← c]; congr 1; exact List.map_congr_left fun u _ => by simp [Ph.add]
  · rw [← e]; congr 1; exact List.map_congr_left fun u _ => by simp [Ph.add]
  · rw [← f]; congr 1; exact List.map_congr_left fun u _ => by simp [Ph.add]
  · rw [← g]; congr 1; exact List.map_congr_left fun u _ => by simp [Ph.add]

theorem IsCom.perm {l l' : List MStar} {p : Ph} (e : l.Perm l') (h : IsCom l p) : IsCom l' p :=
  have key : ∀ f : MStar → ℝ, (l'.map f).sum = (l.map f).sum := fun f => (e.map f).sum_eq.symm
  ⟨(key _).trans h.x, (key _).trans h.y, (key _).trans h.z, (key _).trans h.vx, (key _).trans h.vy, (key _).trans h.vz⟩

/-- **C35 (translations and boosts).**  Displacing and boosting all stars displaces and boosts the centre of mass. -/
theorem C35_shift {l : List MStar} (d : Ph) (h : massOf l ≠ 0) :
    comOfStars (shifted d l) = (comOfStars l).add d :=
  ((C35_com (by rw [massOf_shifted]; exact h) _).mp (((C35_com h _).mpr rfl).shift d)).symm

/-- **C35 (order).**  The order of the stars does not matter. -/
theorem C35_perm {l l' : List MStar} (e : l.Perm l') : comOfStars l = comOfStars l' := by
  unfold comOfStars wmean
  rw [(e.map Prod.fst).sum_eq]
  simp only [(e.map _).sum_eq]

/-- **C35 (units).**  In units of length and velocity `k`, `w` times smaller the centre of mass has the same
physical value, also if the masses are rescaled. -/
theorem C35_scale {l : List MStar} (k w u : ℝ) (hu : u ≠ 0) :
    comOfStars (l.map (fun a => (a.1 * u, ⟨a.2.x * k, a.2.y * k, a.2.z * k, a.2.vx * w, a.2.vy * w, a.2.vz * w⟩))) =
      ⟨(comOfStars l).x * k, (comOfStars l).y * k, (comOfStars l).z * k, (comOfStars l).vx * w,
        (comOfStars l).vy * w, (comOfStars l).vz * w⟩ := by
  have key : ∀ (f : Ph → ℝ) (t : ℝ) (F : MStar → MStar), (∀ a, (F a).1 = a.1 * u ∧ f (F a).2 = f a.2 * t) →
      wmean f (l.map F) = wmean f l * t := by
    intro f t F hF
    unfold wmean
    rw [List.map_map, List.map_map]
    have e1 : l.map ((fun a : MStar => a.1 * f a.2) ∘ F) = l.map (fun a => a.1 * f a.2 * (u * t)) :=
      List.map_congr_left fun a _ => by simp only [Function.comp, (hF a).1, (hF a).2]; ring
    have e2 : l.map (Prod.fst ∘ F) = l.map (fun a => a.1 * u) :=
      List.map_congr_left fun a _ => by simp only [Function.comp, (hF a).1]
    rw [e1, e2, sum_map_mulc, sum_map_mulc]
    by_cases hm : (l.map Prod.fst).sum = 0
    · have : (l.map (fun a : MStar => a.1)).sum = 0 := hm
      rw [this]; simp [hm]
    · have hm' : (l.map (fun a : MStar => a.1)).sum ≠ 0 := hm
      field_simp
  unfold comOfStars
  ext
  · exact key Ph.x k _ fun a => ⟨rfl, rfl⟩
  · exact key Ph.y k _ fun a => ⟨rfl, rfl⟩
  · exact key Ph.z k _ fun a => ⟨rfl, rfl⟩
  · exact key Ph.vx w _ fun a => ⟨rfl, rfl⟩
  · exact key Ph.vy w _ fun a => ⟨rfl, rfl⟩
  · exact key Ph.vz w _ fun a => ⟨rfl, rfl⟩

/-- **C35 (inside the cluster).**  For non-negative masses, not all zero, every coordinate of the centre of mass lies
between any bounds on that coordinate of the stars. -/
theorem C35_between {l : List MStar} (hm : ∀ a ∈ l, 0 ≤ a.1) (h : massOf l ≠ 0) {lo hi : ℝ}
    (hb : ∀ a ∈ l, lo ≤ a.2.x ∧ a.2.x ≤ hi) : lo ≤ (comOfStars l).x ∧ (comOfStars l).x ≤ hi := by
  have hpos : 0 < massOf l := by
    refine lt_of_le_of_ne (List.sum_nonneg ?_) (Ne.symm h)
    intro x hx
    obtain ⟨a, ha, rfl⟩ := List.mem_map.mp hx
    exact hm a ha
  have e : (comOfStars l).x = (l.map (fun a => a.1 * a.2.x)).sum / massOf l := rfl
  have e1 : massOf l * lo = (l.map (fun a => a.1 * lo)).sum := (sum_map_mulc _ _ _).symm
  have e2 : massOf l * hi = (l.map (fun a => a.1 * hi)).sum := (sum_map_mulc _ _ _).symm
  rw [e, le_div_iff₀ hpos, div_le_iff₀ hpos, mul_comm lo, mul_comm hi, e1, e2]
  constructor
  · exact List.sum_le_sum fun a ha => mul_le_mul_of_nonneg_left (hb a ha).1 (hm a ha)
  · exact List.sum_le_sum fun a ha => mul_le_mul_of_nonneg_left (hb a ha).2 (hm a ha)

/-- A binary of masses 1 and 3. -/
example : comOfStars [(1, ⟨0, 0, 0, 0, 0, 0⟩), (3, ⟨4, 8, 0, 4, 0, 0⟩)] = ⟨3, 6, 0, 3, 0, 0⟩ := by
  unfold comOfStars wmean; ext <;> norm_num

/-! ### shrinking spheres -/

theorem Ph.sub_add (p q : Ph) : (p.sub q).add q = p := by
  ext <;> simp [Ph.add, Ph.sub]

/-- The rows of the loop are the stars relative to the current centre. -/
def relTo (l : List MStar) (p : Ph) : List MStar := l.map (fun a => (a.1, a.2.sub p))

theorem relTo_inside (l : List MStar) (p : Ph) (R : ℝ) :
    (relTo l p).filter (fun a => decide (a.2.r2 < R ^ 2)) = relTo (insideOf l p R) p := by
  unfold relTo insideOf
  rw [List.filter_map]
  rfl

theorem massOf_relTo (l : List MStar) (p : Ph) : massOf (relTo l p) = massOf l := by
  unfold massOf relTo; rw [List.map_map]; rfl

theorem relTo_relTo (l : List MStar) (p q : Ph) : (relTo l p).map (fun a => (a.1, a.2.sub q)) = relTo l (p.add q) := by
  unfold relTo
  rw [List.map_map]
  refine List.map_congr_left fun a _ => ?_
  simp only [Function.comp, Prod.mk.injEq, true_and]
  ext <;> simp [Ph.sub, Ph.add] <;> ring

theorem shifted_relTo (l : List MStar) (p : Ph) : shifted p (relTo l p) = l := by
  unfold shifted relTo
  rw [List.map_map]
  conv_rhs => rw [← List.map_id l]
  exact List.map_congr_left fun a _ => by simp [Function.comp, Ph.sub_add]

/-- The refinement: the loop on relative coordinates computes the published iteration. -/
theorem harfst_refines {l : List MStar} {nsphere : ℕ} {rmin : ℝ} {nmax : ℕ} (k : ℕ) : ∀ {p : Ph} {R : ℝ} {n fuel : ℕ},
    n ≤ nmax → nmax - n = k → k < fuel →
    ∃ s, loopN (harfstBody nsphere rmin nmax) fuel ⟨relTo l p, p, R, n⟩ = some s ∧
      Shrinks l nsphere rmin p R k s.centre := by
  induction k with
  | zero =>
    intro p R n fuel hn hk hf
    obtain ⟨fuel, rfl⟩ : ∃ f, fuel = f + 1 := ⟨fuel - 1, by omega⟩
    refine ⟨⟨relTo l p, p, R, n⟩, ?_, .stop (.inr (.inl rfl))⟩
    have : harfstBody nsphere rmin nmax ⟨relTo l p, p, R, n⟩ = none := by
      unfold harfstBody
      rw [if_neg]
      rintro ⟨-, h⟩
      simp only at h
      omega
    unfold loopN
    rw [this]
    rfl
  | succ k ih =>
    intro p R n fuel hn hk hf
    obtain ⟨fuel, rfl⟩ : ∃ f, fuel = f + 1 := ⟨fuel - 1, by omega⟩
    by_cases h1 : rmin < R
    · by_cases h2 : Enough nsphere (insideOf l p R)
      · have hmass : ((relTo (insideOf l p R) p).map Prod.fst).sum = massOf (insideOf l p R) := massOf_relTo _ _
        have hne : massOf (insideOf l p R) ≠ 0 := ne_of_gt h2.1
        obtain ⟨cc, hcc⟩ : ∃ cc, cc = comOfStars (relTo (insideOf l p R) p) := ⟨_, rfl⟩
        have hb : harfstBody nsphere rmin nmax ⟨relTo l p, p, R, n⟩ =
            some ⟨relTo l (p.add cc), p.add cc, R * 0.8, n + 1⟩ := by
          unfold harfstBody
          rw [if_pos ⟨h1, by simp only; omega⟩]
          simp only [relTo_inside, hmass, if_neg hne, relTo_relTo, ← hcc]
          rw [if_pos ⟨h2.1, by simpa [relTo] using h2.2⟩]
        obtain ⟨s, hs, hS⟩ := ih (p := p.add cc) (R := R * 0.8) (n := n + 1) (fuel := fuel) (by omega) (by omega)
          (by omega)
        refine ⟨s, ?_, .step h1 h2 ?_ hS⟩
        · unfold loopN
          rw [hb]
          exact hs
        · have h3 : IsCom (relTo (insideOf l p R) p) cc := (C35_com (by rw [massOf_relTo]; exact hne) _).mpr hcc
          have h4 := h3.shift p
          rw [shifted_relTo] at h4
          have : cc.add p = p.add cc := by ext <;> simp [Ph.add, add_comm]
          rwa [this] at h4
      · refine ⟨⟨relTo l p, p, R, n⟩, ?_, .stop (.inr (.inr h2))⟩
        have : harfstBody nsphere rmin nmax ⟨relTo l p, p, R, n⟩ = none := by
          unfold harfstBody
          have hmass : ((relTo (insideOf l p R) p).map Prod.fst).sum = massOf (insideOf l p R) := massOf_relTo _ _
          split
          · simp only [relTo_inside, hmass]
            rw [if_neg]
            rintro ⟨a, b⟩
            exact h2 ⟨a, by simpa [relTo] using b⟩
          · rfl
        unfold loopN
        rw [this]
        rfl
    · refine ⟨⟨relTo l p, p, R, n⟩, ?_, .stop (.inl (not_lt.mp h1))⟩
      have : harfstBody nsphere rmin nmax ⟨relTo l p, p, R, n⟩ = none := by
        unfold harfstBody
        rw [if_neg]
        rintro ⟨h, -⟩
        exact h1 h
      unfold loopN
      rw [this]
      rfl

/-- The starting radius: `rmax`, or the largest distance from the starting point. -/
def StartRadius (start : Ph) (rmax : Option ℝ) (l : List MStar) (R : ℝ) : Prop :=
  match rmax with
  | some b => R = b
  | none => (∃ a ∈ l, R = Real.sqrt ((a.2.sub start).r2)) ∧ ∀ a ∈ l, Real.sqrt ((a.2.sub start).r2) ≤ R

theorem foldl_max_mem (l : List ℝ) (a : ℝ) : (l.foldl max a = a ∨ l.foldl max a ∈ l) ∧ a ≤ l.foldl max a ∧
    ∀ x ∈ l, x ≤ l.foldl max a := by
  induction l generalizing a with
  | nil => simp
  | cons b l ih =>
    obtain ⟨h1, h2, h3⟩ := ih (max a b)
    simp only [List.foldl_cons, List.mem_cons]
    refine ⟨?_, le_trans (le_max_left _ _) h2, ?_⟩
    · rcases h1 with h1 | h1
      · rcases max_choice a b with e | e
        · left; rw [h1, e]
        · right; left; rw [h1, e]
      · right; right; exact h1
    · rintro x (rfl | hx)
      · exact le_trans (le_max_right _ _) h2
      · exact h3 x hx

/-- **C36 (shrinking spheres end).**  `find_centre_of_density(method='harfst')` ends for all stars and parameters, after
at most `nmax` rounds, at the point the published iteration defines. -/
theorem C36_harfst {start : Ph} {nsphere : ℕ} {rmin : ℝ} {rmax : Option ℝ} {nmax fuel : ℕ} {l : List MStar}
    (hl : l ≠ [] ∨ rmax ≠ none) (hf : nmax < fuel) :
    ∃ p R, harfst start nsphere rmin rmax nmax fuel l = .ok (some p) ∧ StartRadius start rmax l R ∧
      Shrinks l nsphere rmin start R nmax p := by
  obtain ⟨R, h1, h2⟩ : ∃ R, orMax rmax ((relTo l start).map (fun a => Real.sqrt a.2.r2)) = .ok R ∧
      StartRadius start rmax l R := by
    cases rmax with
    | some b => exact ⟨b, rfl, rfl⟩
    | none =>
      have hl' : l ≠ [] := hl.resolve_right (by simp)
      obtain ⟨a, t, rfl⟩ := List.exists_cons_of_ne_nil hl'
      refine ⟨_, rfl, ?_⟩
      have := foldl_max_mem ((relTo t start).map (fun a => Real.sqrt a.2.r2)) (Real.sqrt (a.2.sub start).r2)
      obtain ⟨k1, k2, k3⟩ := this
      refine ⟨?_, ?_⟩
      · rcases k1 with k1 | k1
        · exact ⟨a, by simp, k1⟩
        · obtain ⟨b, hb, e⟩ := List.mem_map.mp k1
          obtain ⟨b', hb', rfl⟩ := List.mem_map.mp hb
          exact ⟨b', by simp [hb'], e.symm⟩
      · intro b hb
        rcases List.mem_cons.mp hb with rfl | hb
        · exact k2
        · exact k3 _ (List.mem_map.mpr ⟨_, List.mem_map.mpr ⟨b, hb, rfl⟩, rfl⟩)
  obtain ⟨s, hs, hS⟩ := harfst_refines (l := l) (nsphere := nsphere) (rmin := rmin) (nmax := nmax) nmax (p := start)
    (R := R) (n := 0) (fuel := fuel) (by omega) (by omega) hf
  refine ⟨s.centre, R, ?_, h2, hS⟩
  have h1' : orMax rmax (List.map (fun a => Real.sqrt a.2.r2) (List.map (fun a => (a.1, a.2.sub start)) l)) = .ok R := h1
  unfold harfst harfstInit
  simp only [bind, Except.bind, pure, Except.pure, h1']
  have hs' : loopN (harfstBody nsphere rmin nmax) fuel ⟨List.map (fun a => (a.1, a.2.sub start)) l, start, R, 0⟩ = some s := hs
  rw [hs']
  rfl

/-- Even without the limit `nmax` the loop ends, since the radius shrinks below `rmin > 0`: at most `k` rounds if
`R·0.8^k ≤ rmin`. -/
theorem C36_harfst_radius {nsphere : ℕ} {rmin : ℝ} {nmax : ℕ} (k : ℕ) : ∀ {s : Harfst}, s.rlim * 0.8 ^ k ≤ rmin →
    ∃ r, loopN (harfstBody nsphere rmin nmax) (k + 1) s = some r := by
  induction k with
  | zero =>
    intro s h
    refine ⟨s, ?_⟩
    unfold loopN harfstBody
    rw [if_neg (by rintro ⟨h', -⟩; simp at h; linarith)]
    rfl
  | succ k ih =>
    intro s h
    unfold loopN
    cases hb : harfstBody nsphere rmin nmax s with
    | none => exact ⟨s, rfl⟩
    | some s' =>
      have : s'.rlim = s.rlim * 0.8 := by
        unfold harfstBody at hb
        split at hb
        · simp only at hb
          split at hb
          · exact (Option.some.inj hb) ▸ rfl
          · cases hb
        · cases hb
      refine ih (s := s') ?_
      rw [this]
      rw [pow_succ] at h
      linarith

/-- The published iteration has one result. -/
theorem Shrinks.unique {l : List MStar} {nsphere : ℕ} {rmin : ℝ} {p q q' : Ph} {R : ℝ} {n : ℕ}
    (h : Shrinks l nsphere rmin p R n q) (h' : Shrinks l nsphere rmin p R n q') : q = q' := by
  induction h with
  | stop h =>
    cases h' with
    | stop _ => rfl
    | step h1 h2 _ _ =>
      rcases h with h | h | h
      · linarith
      · omega
      · exact (h h2).elim
  | step h1 h2 h3 h4 ih =>
    cases h' with
    | stop h =>
      rcases h with h | h | h
      · linarith
      · omega
      · exact (h h2).elim
    | step _ _ h3' h4' =>
      have e := ((C35_com (ne_of_gt h2.1) _).mp h3).trans ((C35_com (ne_of_gt h2.1) _).mp h3').symm
      subst e
      exact ih h4'

theorem insideOf_shifted (l : List MStar) (p d : Ph) (R : ℝ) :
    insideOf (shifted d l) (p.add d) R = shifted d (insideOf l p R) := by
  unfold insideOf shifted
  rw [List.filter_map]
  congr 1
  refine List.filter_congr fun a _ => ?_
  simp only [Function.comp, Ph.add, decide_eq_decide]
  ring_nf

theorem Shrinks.shift {l : List MStar} {nsphere : ℕ} {rmin : ℝ} {p q : Ph} {R : ℝ} {n : ℕ} (d : Ph)
    (h : Shrinks l nsphere rmin p R n q) : Shrinks (shifted d l) nsphere rmin (p.add d) R n (q.add d) := by
  have en : ∀ {p R}, Enough nsphere (insideOf (shifted d l) (p.add d) R) ↔ Enough nsphere (insideOf l p R) := by
    intro p R
    rw [insideOf_shifted]
    unfold Enough
    rw [massOf_shifted]
    simp [shifted]
  induction h with
  | stop h => exact .stop (by rwa [en])
  | step h1 h2 h3 _ ih =>
    refine .step h1 (en.mpr h2) ?_ ih
    rw [insideOf_shifted]
    exact h3.shift d

/-- **C67 (shrinking spheres are equivariant).**  Displacing and boosting all stars and the starting point displaces and
boosts the centre found. -/
theorem C67_harfst_shift {start d : Ph} {nsphere : ℕ} {rmin : ℝ} {rmax : Option ℝ} {nmax fuel : ℕ} {l : List MStar}
    (hl : l ≠ [] ∨ rmax ≠ none) (hf : nmax < fuel) :
    ∃ p, harfst start nsphere rmin rmax nmax fuel l = .ok (some p) ∧
      harfst (start.add d) nsphere rmin rmax nmax fuel (shifted d l) = .ok (some (p.add d)) := by
  obtain ⟨p, R, h1, h2, h3⟩ := C36_harfst (nsphere := nsphere) (rmin := rmin) (start := start) hl hf
  obtain ⟨p', R', h1', h2', h3'⟩ := C36_harfst (nsphere := nsphere) (rmin := rmin) (start := start.add d)
    (l := shifted d l) (rmax := rmax) (by simpa [shifted] using hl) hf
  have hs : ∀ a : Ph, (a.add d).sub (start.add d) = a.sub start := by
    intro a; ext <;> simp [Ph.add, Ph.sub]
  have e : R' = R := by
    cases rmax with
    | some b => exact h2'.trans h2.symm
    | none =>
      obtain ⟨⟨a, ha, ea⟩, hmax⟩ := h2
      obtain ⟨⟨b, hb, eb⟩, hmax'⟩ := h2'
      obtain ⟨b', hb', rfl⟩ := List.mem_map.mp hb
      refine le_antisymm ?_ ?_
      · rw [eb]; simp only [hs]; exact hmax b' hb'
      · have := hmax' (a.1, a.2.add d) (List.mem_map.mpr ⟨a, ha, rfl⟩)
        rw [ea]; simpa only [hs] using this
  subst e
  have := h3'.unique (h3.shift d)
  exact ⟨p, h1, by rw [h1', this]⟩

end

end CT
