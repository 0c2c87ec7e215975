/- Matching stars to a path: the geometry. -/
import Verif.Lemmas.Vcirc
import Verif.Lemmas.Nbin
import Verif.Spec.Orbits
import Mathlib.Analysis.InnerProductSpace.PiL2

namespace CT

noncomputable section

set_option linter.unusedSimpArgs false

theorem mapM_rel {α β : Type} (l : List α) (f : α → Except Err β) (R : α → β → Prop) (h : ∀ a ∈ l, ∃ b, f a = .ok b ∧ R a b) :
    ∃ out, l.mapM f = .ok out ∧ List.Forall₂ R l out := by
  induction l with
  | nil => exact ⟨[], rfl, .nil⟩
  | cons a l ih =>
    obtain ⟨b, h1, h2⟩ := h a (by simp)
    obtain ⟨out, h3, h4⟩ := ih fun b hb => h b (by simp [hb])
    exact ⟨b :: out, by rw [List.mapM_cons, h1]; simp only [bind, Except.bind]; rw [h3]; rfl, .cons h2 h4⟩

theorem forall₂_get {α β : Type} [Inhabited α] [Inhabited β] {R : α → β → Prop} {l : List α} {o : List β} (h : List.Forall₂ R l o) {i : ℕ}
    (hi : i < l.length) : R l[i]! o[i]! := by
  have hl := h.length_eq
  rw [getElem!_pos l i hi, getElem!_pos o i (by omega)]
  exact List.forall₂_iff_get.mp h |>.2 i hi (by omega)

theorem map_at {α β : Type} [Inhabited α] [Inhabited β] {l : List α} {f : α → β} {k : ℕ} (h : k < l.length) :
    (l.map f)[k]! = f l[k]! := by
  rw [getElem!_pos _ k (by simpa using h), getElem!_pos l k h]
  simp

/-! ### distances -/

theorem mag_sub (pr : Bool) (p q : Ph) : mag pr (p.sub q) = between pr p q := by
  cases pr <;> simp [mag, between, Ph.sub]

theorem between_nonneg (pr : Bool) (p q : Ph) : 0 ≤ between pr p q := Real.sqrt_nonneg _

theorem between_scale {s : Scale} (h : 0 ≤ s.len) (pr : Bool) (p q : Ph) : between pr (s.ph p) (s.ph q) = between pr p q * s.len := by
  unfold between
  rw [show ∀ x : ℝ, Real.sqrt x * s.len = Real.sqrt (x * s.len ^ 2) from fun x => by
    rw [Real.sqrt_mul' _ (sq_nonneg _), Real.sqrt_sq h]]
  congr 1
  cases pr <;> simp [Scale.ph] <;> ring

/-- The Euclidean length of three numbers, the last one dropped in projection. -/
def len3 (pr : Bool) (a b c : ℝ) : ℝ := Real.sqrt (a ^ 2 + b ^ 2 + if pr then 0 else c ^ 2)

theorem mag_len3 (pr : Bool) (d : Ph) : mag pr d = len3 pr d.x d.y d.z := by
  cases pr <;> simp [mag, len3]

theorem len3_norm (pr : Bool) (a b c : ℝ) : len3 pr a b c = ‖!₂[a, b, if pr then 0 else c]‖ := by
  unfold len3
  rw [EuclideanSpace.norm_eq]
  congr 1
  cases pr <;> simp [Fin.sum_univ_three]

theorem len3_triangle (pr : Bool) (a b c a' b' c' : ℝ) : len3 pr (a + a') (b + b') (c + c') ≤ len3 pr a b c + len3 pr a' b' c' := by
  rw [len3_norm, len3_norm, len3_norm]
  refine le_trans (le_of_eq ?_) (norm_add_le _ _)
  congr 1
  cases pr <;> ext i <;> fin_cases i <;> simp

theorem len3_mono (pr : Bool) {a b c a' b' c' : ℝ} (ha : 0 ≤ a) (hb : 0 ≤ b) (hc : 0 ≤ c) (h1 : a ≤ a') (h2 : b ≤ b') (h3 : c ≤ c') :
    len3 pr a b c ≤ len3 pr a' b' c' := by
  unfold len3
  refine Real.sqrt_le_sqrt ?_
  have e1 : a ^ 2 ≤ a' ^ 2 := by gcongr
  have e2 : b ^ 2 ≤ b' ^ 2 := by gcongr
  have e3 : c ^ 2 ≤ c' ^ 2 := by gcongr
  cases pr <;> simp <;> linarith

/-! ### progress along the path -/

/-- The sums of the absolute steps up to entry `k`. -/
def steps (f : Ph → ℝ) (P : ℕ → Ph) (k : ℕ) : ℝ := ∑ j ∈ Finset.range k, |f (P (j + 1)) - f (P j)|

theorem pathSteps_length (path : List PathPt) : (pathSteps path).length = path.length - 1 := by
  simp [pathSteps]

theorem pathSteps_get {path : List PathPt} {j : ℕ} (h : j + 1 < path.length) :
    (pathSteps path)[j]! = ((path[j + 1]!).p).sub (path[j]!).p := by
  rw [getElem!_pos _ j (by rw [pathSteps_length]; omega), getElem!_pos path (j + 1) h, getElem!_pos path j (by omega)]
  simp [pathSteps]

theorem cumsum_steps {f : Ph → ℝ} (hf : ∀ a b : Ph, f (a.sub b) = f a - f b) {path : List PathPt} {k : ℕ} (h : k < path.length) :
    (0 :: cumsum ((pathSteps path).map (fun q => |f q|)))[k]! = steps f (fun j => (path[j]!).p) k := by
  cases k with
  | zero => simp [steps]
  | succ k =>
    have hl : k < ((pathSteps path).map (fun q => |f q|)).length := by
      rw [List.length_map, pathSteps_length]; omega
    rw [getElem!_pos _ (k + 1) (by simp only [List.length_cons, cumsum_length]; omega), List.getElem_cons_succ, cumsum_getElem]
    unfold steps
    have key : ∀ n, n ≤ ((pathSteps path).map (fun q => |f q|)).length →
        (((pathSteps path).map (fun q => |f q|)).take n).sum =
          ∑ j ∈ Finset.range n, |f ((path[j + 1]!).p) - f ((path[j]!).p)| := by
      intro n
      induction n with
      | zero => simp
      | succ n ih =>
        intro hn
        rw [List.take_add_one, List.sum_append, ih (by omega), Finset.sum_range_succ]
        congr 1
        rw [List.getElem?_eq_getElem (by omega)]
        have hn' : n < (pathSteps path).length := by simpa using hn
        have e := pathSteps_get (path := path) (j := n) (by rw [pathSteps_length] at hn'; omega)
        rw [getElem!_pos _ n hn'] at e
        simp only [List.getElem_map, Option.toList_some, List.sum_cons, List.sum_nil, add_zero, e, hf]
    exact key (k + 1) hl

theorem progress_get {pr : Bool} {path : List PathPt} {k : ℕ} (h : k < path.length) :
    (progress pr path)[k]! = len3 pr (steps Ph.x (fun j => (path[j]!).p) k) (steps Ph.y (fun j => (path[j]!).p) k)
      (steps Ph.z (fun j => (path[j]!).p) k) := by
  unfold progress
  rw [getElem!_pos _ k (by simpa using h)]
  simp only [List.getElem_map, List.getElem_range]
  rw [mag_len3]
  simp only
  rw [cumsum_steps (f := Ph.x) (fun _ _ => rfl) h, cumsum_steps (f := Ph.y) (fun _ _ => rfl) h, cumsum_steps (f := Ph.z) (fun _ _ => rfl) h]

theorem steps_nonneg (f : Ph → ℝ) (P : ℕ → Ph) (k : ℕ) : 0 ≤ steps f P k := Finset.sum_nonneg fun _ _ => abs_nonneg _

/-- Progress grows by at most the distance covered. -/
theorem progress_between {pr : Bool} {path : List PathPt} {i k : ℕ} (hik : i ≤ k) (hk : k < path.length) :
    0 ≤ (progress pr path)[k]! - (progress pr path)[i]! ∧
      (progress pr path)[k]! - (progress pr path)[i]! ≤ pathLength pr (fun j => (path[j]!).p) i k := by
  rw [progress_get hk, progress_get (by omega)]
  clear hk
  induction k, hik using Nat.le_induction with
  | base => simp [pathLength]
  | succ k hik ih =>
    set P : ℕ → Ph := fun j => (path[j]!).p with hP
    have hst : ∀ f : Ph → ℝ, steps f P (k + 1) = steps f P k + |f (P (k + 1)) - f (P k)| := fun f => Finset.sum_range_succ _ _
    have e : pathLength pr P i (k + 1) = pathLength pr P i k + between pr (P k) (P (k + 1)) := Finset.sum_Ico_succ_top hik _
    have eb : between pr (P k) (P (k + 1)) = len3 pr |(P (k + 1)).x - (P k).x| |(P (k + 1)).y - (P k).y| |(P (k + 1)).z - (P k).z| := by
      unfold between len3
      simp only [sq_abs]
      congr 1
      cases pr <;> simp <;> ring
    rw [hst, hst, hst, e, eb]
    have t := len3_triangle pr (steps Ph.x P k) (steps Ph.y P k) (steps Ph.z P k)
      |(P (k + 1)).x - (P k).x| |(P (k + 1)).y - (P k).y| |(P (k + 1)).z - (P k).z|
    have m := len3_mono pr (steps_nonneg Ph.x P k) (steps_nonneg Ph.y P k) (steps_nonneg Ph.z P k)
      (le_add_of_nonneg_right (abs_nonneg ((P (k + 1)).x - (P k).x))) (le_add_of_nonneg_right (abs_nonneg ((P (k + 1)).y - (P k).y)))
      (le_add_of_nonneg_right (abs_nonneg ((P (k + 1)).z - (P k).z)))
    constructor <;> linarith [ih.1, ih.2]

theorem len3_smul (pr : Bool) (t a b c : ℝ) (ht : 0 ≤ t) : len3 pr (t * a) (t * b) (t * c) = t * len3 pr a b c := by
  unfold len3
  have : ∀ y, t * Real.sqrt y = Real.sqrt (t ^ 2 * y) := fun y => by rw [Real.sqrt_mul (sq_nonneg t), Real.sqrt_sq ht]
  rw [this]
  congr 1
  cases pr <;> simp <;> ring

/-- On a straight path that never turns back, progress is the distance covered. -/
theorem progress_straight {pr : Bool} {path : List PathPt} {e q : Ph} {τ : ℕ → ℝ} (hτ : Monotone τ)
    (h : ∀ j < path.length, PosEq (path[j]!).p ⟨q.x + τ j * e.x, q.y + τ j * e.y, q.z + τ j * e.z, 0, 0, 0⟩) {i k : ℕ} (hik : i ≤ k)
    (hk : k < path.length) :
    (progress pr path)[k]! - (progress pr path)[i]! = pathLength pr (fun j => (path[j]!).p) i k := by
  have d : ∀ j, 0 ≤ τ (j + 1) - τ j := fun j => sub_nonneg.mpr (hτ (Nat.le_succ j))
  have st : ∀ (f : Ph → ℝ) (v : ℝ), (∀ j < path.length, f (path[j]!).p = f q + τ j * v) → ∀ n < path.length,
      steps f (fun j => (path[j]!).p) n = (τ n - τ 0) * |v| := by
    intro f v hf n
    induction n with
    | zero => simp [steps]
    | succ n ih =>
      intro hn
      have := ih (by omega)
      unfold steps at this ⊢
      rw [Finset.sum_range_succ, this, hf (n + 1) hn, hf n (by omega)]
      rw [show f q + τ (n + 1) * v - (f q + τ n * v) = (τ (n + 1) - τ n) * v by ring, abs_mul, abs_of_nonneg (d n)]
      ring
  have pg : ∀ n < path.length, (progress pr path)[n]! = (τ n - τ 0) * len3 pr |e.x| |e.y| |e.z| := by
    intro n hn
    rw [progress_get hn, st Ph.x e.x (fun j hj => (h j hj).1) n hn, st Ph.y e.y (fun j hj => (h j hj).2.1) n hn,
      st Ph.z e.z (fun j hj => (h j hj).2.2) n hn, len3_smul]
    exact sub_nonneg.mpr (hτ (Nat.zero_le n))
  rw [pg k hk, pg i (by omega)]
  induction k, hik using Nat.le_induction with
  | base => simp [pathLength]
  | succ k hik ih =>
    have e1 : pathLength pr (fun j => (path[j]!).p) i (k + 1) = pathLength pr (fun j => (path[j]!).p) i k +
        between pr (path[k]!).p (path[k + 1]!).p := Finset.sum_Ico_succ_top hik _
    rw [e1, ← ih (by omega)]
    have e2 : between pr (path[k]!).p (path[k + 1]!).p = (τ (k + 1) - τ k) * len3 pr |e.x| |e.y| |e.z| := by
      rw [← len3_smul _ _ _ _ _ (d k)]
      obtain ⟨a1, a2, a3⟩ := h k (by omega)
      obtain ⟨b1, b2, b3⟩ := h (k + 1) hk
      unfold between len3
      rw [a1, a2, a3, b1, b2, b3]
      congr 1
      simp only [mul_pow, sq_abs]
      cases pr <;> simp <;> ring
    rw [e2]
    ring

/-! ### distance to a line -/

theorem len3_sq (pr : Bool) (a b c : ℝ) : len3 pr a b c ^ 2 = a ^ 2 + b ^ 2 + if pr then 0 else c ^ 2 := by
  unfold len3
  refine Real.sq_sqrt ?_
  cases pr <;> simp <;> positivity

/-- `lineDist` is the least distance to the line. -/
theorem lineDist_spec {pr : Bool} {q q' p : Ph} (ho : 0 < between pr q q') (hs : 0 < between pr q p) :
    ∃ d, lineDist pr (q'.sub q) (q.sub p) = some d ∧ (∃ l, d = between pr (onLine q q' l) p) ∧ ∀ l, d ≤ between pr (onLine q q' l) p := by
  have hO : mag pr (q'.sub q) = between pr q q' := by
    rw [mag_sub]; unfold between; congr 1; cases pr <;> simp <;> ring
  have hS : mag pr (q.sub p) = between pr q p := mag_sub pr q p
  set O := between pr q q' with hOd
  set S := between pr q p with hSd
  set D : ℝ := (q'.x - q.x) * (q.x - p.x) + (q'.y - q.y) * (q.y - p.y) + if pr then 0 else (q'.z - q.z) * (q.z - p.z) with hD
  have hOS : O * S ≠ 0 := (mul_pos ho hs).ne'
  have O2 : O ^ 2 = (q.x - q'.x) ^ 2 + (q.y - q'.y) ^ 2 + if pr then 0 else (q.z - q'.z) ^ 2 := by
    rw [hOd]; unfold between; exact Real.sq_sqrt (by cases pr <;> simp <;> positivity)
  have S2 : S ^ 2 = (q.x - p.x) ^ 2 + (q.y - p.y) ^ 2 + if pr then 0 else (q.z - p.z) ^ 2 := by
    rw [hSd]; unfold between; exact Real.sq_sqrt (by cases pr <;> simp <;> positivity)
  have hL : ∀ l, between pr (onLine q q' l) p = Real.sqrt (S ^ 2 + 2 * l * D + l ^ 2 * O ^ 2) := by
    intro l
    rw [O2, S2, hD]
    unfold between onLine
    congr 1
    cases pr <;> simp <;> ring
  have hmin : S ^ 2 - D ^ 2 / O ^ 2 = S ^ 2 + 2 * (-D / O ^ 2) * D + (-D / O ^ 2) ^ 2 * O ^ 2 := by
    field_simp
    ring
  have hd : lineDist pr (q'.sub q) (q.sub p) = some (Real.sqrt (S ^ 2 - D ^ 2 / O ^ 2)) := by
    unfold lineDist
    simp only [hO, hS, hOS, if_false]
    have hdot : (if pr = true then (q'.sub q).x * (q.sub p).x + (q'.sub q).y * (q.sub p).y
        else (q'.sub q).x * (q.sub p).x + (q'.sub q).y * (q.sub p).y + (q'.sub q).z * (q.sub p).z) = D := by
      rw [hD]; cases pr <;> simp [Ph.sub]
    rw [hdot, Real.sin_arccos]
    congr 1
    nth_rw 1 [← Real.sqrt_sq hs.le]
    rw [← Real.sqrt_mul (sq_nonneg S)]
    congr 1
    field_simp
  refine ⟨_, hd, ⟨-D / O ^ 2, ?_⟩, fun l => ?_⟩
  · rw [hL, hmin]
  · rw [hL]
    refine Real.sqrt_le_sqrt ?_
    have : S ^ 2 + 2 * l * D + l ^ 2 * O ^ 2 - (S ^ 2 - D ^ 2 / O ^ 2) = (l * O + D / O) ^ 2 := by
      field_simp
      ring
    nlinarith [sq_nonneg (l * O + D / O)]

end

end CT
