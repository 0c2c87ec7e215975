import Verif.Spec.Subset
import Verif.Lemmas.Stars

namespace CT

noncomputable section

set_option linter.unusedSimpArgs false

/-! ### Minimum and maximum -/

theorem foldl_min_le {l : List ℝ} {a x : ℝ} (h : x ∈ l ∨ a ≤ x) : l.foldl min a ≤ x := by
  induction l generalizing a with
  | nil => simpa using h
  | cons b l ih =>
    refine ih ?_
    rcases h with h | h
    · rcases List.mem_cons.mp h with rfl | h
      · right; exact min_le_right _ _
      · left; exact h
    · right; exact (min_le_left _ _).trans h

theorem le_foldl_maxR {l : List ℝ} {a x : ℝ} (h : x ∈ l ∨ x ≤ a) : x ≤ l.foldl max a := by
  induction l generalizing a with
  | nil => simpa using h
  | cons b l ih =>
    refine ih ?_
    rcases h with h | h
    · rcases List.mem_cons.mp h with rfl | h
      · right; exact le_max_right _ _
      · left; exact h
    · right; exact h.trans (le_max_left _ _)

theorem orMin_spec {b : Option ℝ} {l : List ℝ} (h : l ≠ []) :
    ∃ x, orMin b l = .ok x ∧ ∀ y ∈ l, x ≤ y ↔ ∀ b', b = some b' → b' ≤ y := by
  cases b with
  | some b => exact ⟨b, rfl, fun y _ => by simp⟩
  | none =>
    match l with
    | a :: l =>
      refine ⟨l.foldl min a, rfl, fun y hy => ?_⟩
      simp only [reduceCtorEq, false_imp_iff, implies_true, iff_true]
      refine foldl_min_le ?_
      rcases List.mem_cons.mp hy with rfl | hy
      · exact .inr (le_refl _)
      · exact .inl hy

theorem orMax_spec {b : Option ℝ} {l : List ℝ} (h : l ≠ []) :
    ∃ x, orMax b l = .ok x ∧ ∀ y ∈ l, y ≤ x ↔ ∀ b', b = some b' → y ≤ b' := by
  cases b with
  | some b => exact ⟨b, rfl, fun y _ => by simp⟩
  | none =>
    match l with
    | a :: l =>
      refine ⟨l.foldl max a, rfl, fun y hy => ?_⟩
      simp only [reduceCtorEq, false_imp_iff, implies_true, iff_true]
      refine le_foldl_maxR ?_
      rcases List.mem_cons.mp hy with rfl | hy
      · exact .inr (le_refl _)
      · exact .inl hy

/-! ### Masks -/

/-- `a` is the mask of the predicate `P` on `n` stars. -/
structure MaskOf (a : List Bool) (n : ℕ) (P : ℕ → Prop) : Prop where
  len : a.length = n
  val : ∀ i < n, a[i]! = true ↔ P i

theorem MaskOf.zip {a b : List Bool} {n : ℕ} {P Q : ℕ → Prop} (ha : MaskOf a n P) (hb : MaskOf b n Q) :
    MaskOf (List.zipWith and a b) n (fun i => P i ∧ Q i) where
  len := by simp [ha.len, hb.len]
  val := by
    intro i hi
    rw [← ha.val i hi, ← hb.val i hi]
    have h1 : i < a.length := by rw [ha.len]; exact hi
    have h2 : i < b.length := by rw [hb.len]; exact hi
    rw [getElem!_pos _ i (by simp; omega), getElem!_pos a i h1, getElem!_pos b i h2]
    simp

theorem MaskOf.mul {a b : List Bool} {n : ℕ} {P Q : ℕ → Prop} (ha : MaskOf a n P) (hb : MaskOf b n Q) :
    ∃ w, mulMask a b = some w ∧ MaskOf w n (fun i => P i ∧ Q i) :=
  ⟨_, by unfold mulMask; rw [if_pos (by rw [ha.len, hb.len])], ha.zip hb⟩

theorem MaskOf.inPlace {a b : List Bool} {n : ℕ} {P Q : ℕ → Prop} (ha : MaskOf a n P) (hb : MaskOf b n Q) :
    ∃ w, mulInPlace a b = some w ∧ MaskOf w n (fun i => P i ∧ Q i) :=
  ⟨_, by unfold mulInPlace; rw [if_pos (by rw [ha.len, hb.len])], ha.zip hb⟩

theorem MaskOf.congr {a : List Bool} {n : ℕ} {P Q : ℕ → Prop} (ha : MaskOf a n P) (h : ∀ i < n, P i ↔ Q i) :
    MaskOf a n Q := ⟨ha.len, fun i hi => (ha.val i hi).trans (h i hi)⟩

theorem MaskOf.map {α : Type} [Inhabited α] {l : List α} {n : ℕ} (h : l.length = n) (p : α → Bool) :
    MaskOf (l.map p) n (fun i => p l[i]! = true) where
  len := by simpa using h
  val := by
    intro i hi
    have h1 : i < l.length := by rw [h]; exact hi
    rw [getElem!_pos _ i (by simpa using h1), getElem!_pos l i h1]
    simp

theorem MaskOf.all (n : ℕ) : MaskOf (List.replicate n true) n (fun _ => True) where
  len := by simp
  val := by
    intro i hi
    rw [getElem!_pos _ i (by simpa using hi)]
    simp

theorem MaskOf.unique {a b : List Bool} {n : ℕ} {P : ℕ → Prop} (ha : MaskOf a n P) (hb : MaskOf b n P) : a = b := by
  refine List.ext_getElem (by rw [ha.len, hb.len]) fun i h1 h2 => ?_
  have hi : i < n := by rw [← ha.len]; exact h1
  have := (ha.val i hi).trans (hb.val i hi).symm
  rw [getElem!_pos a i h1, getElem!_pos b i h2] at this
  cases h : a[i] <;> cases h' : b[i] <;> simp_all

theorem mem_get! {l : List ℝ} {i n : ℕ} (h : l.length = n) (hi : i < n) : l[i]! ∈ l := by
  have h1 : i < l.length := by rw [h]; exact hi
  rw [getElem!_pos l i h1]
  exact List.getElem_mem h1

theorem ge_spec {l : List ℝ} {n : ℕ} {x : ℝ} {b : Option ℝ} (h : l.length = n)
    (hx : ∀ y ∈ l, x ≤ y ↔ ∀ b', b = some b' → b' ≤ y) :
    MaskOf (geMask l x) n (fun i => ∀ b', b = some b' → b' ≤ l[i]!) :=
  (MaskOf.map h _).congr fun i hi => by
    rw [decide_eq_true_iff]; exact hx _ (mem_get! h hi)

theorem le_spec {l : List ℝ} {n : ℕ} {x : ℝ} {b : Option ℝ} (h : l.length = n)
    (hx : ∀ y ∈ l, y ≤ x ↔ ∀ b', b = some b' → y ≤ b') :
    MaskOf (leMask l x) n (fun i => ∀ b', b = some b' → l[i]! ≤ b') :=
  (MaskOf.map h _).congr fun i hi => by
    rw [decide_eq_true_iff]; exact hx _ (mem_get! h hi)

theorem npop_spec {q : SubArgs} {c : View} {n : ℕ} (ok : c.Arrays n) :
    MaskOf (npopMask q c) n (fun i => ∀ p, q.npop = some p → c.npop[i]! = p) := by
  unfold npopMask
  cases h : q.npop with
  | none =>
    simp only [ok.ntot]
    exact (MaskOf.all n).congr fun i _ => by simp
  | some p =>
    exact (MaskOf.map ok.npop _).congr fun i _ => by simp

theorem kw_spec {q : SubArgs} {c : View} {n : ℕ} (ok : c.Arrays n) :
    MaskOf (kwMask q c) n (fun i => c.kw ≠ [] → q.kwmin ≤ c.kw[i]! ∧ c.kw[i]! ≤ q.kwmax) := by
  unfold kwMask
  by_cases h : c.kw = []
  · rw [if_neg (by simp [h]), ok.ntot]
    exact (MaskOf.all n).congr fun i _ => by simp [h]
  · rw [if_pos (List.length_pos_iff.mpr h)]
    have hl : c.kw.length = n := ok.kw.resolve_left h
    refine ((MaskOf.map hl _).zip (MaskOf.map hl _)).congr fun i _ => ?_
    simp [h]

theorem energy_spec {q : SubArgs} {c : View} {n : ℕ} (ok : c.Ok q n) :
    MaskOf (energyMask q c) n (fun i => Within q.emin q.emax c.etot[i]!) := by
  unfold energyMask Within
  rcases ok.etot with ⟨h1, h2⟩ | hl
  · rw [h1, h2]
    simp only [ok.ntot]
    exact (MaskOf.all n).congr fun i _ => by simp
  · cases h1 : q.emin with
    | none =>
      cases h2 : q.emax with
      | none =>
        simp only [ok.ntot]
        exact (MaskOf.all n).congr fun i _ => by simp
      | some b => exact (MaskOf.map hl _).congr fun i _ => by simp
    | some a =>
      cases h2 : q.emax with
      | none => exact (MaskOf.map hl _).congr fun i _ => by simp
      | some b =>
        exact ((MaskOf.map hl _).zip (MaskOf.map hl _)).congr fun i _ => by simp [and_comm]

theorem mulAll_append (a : List Bool) (bs : List (List Bool)) (e : List Bool) :
    mulAll a (bs ++ [e]) = (mulAll a bs).bind (fun w => mulMask w e) := by
  induction bs generalizing a with
  | nil =>
    simp only [List.nil_append, mulAll, Option.bind_some]
    cases mulMask a e <;> rfl
  | cons b bs ih =>
    simp only [List.cons_append, mulAll]
    cases mulMask a b with
    | none => rfl
    | some w => simp only [Option.bind_some, ih]

/-- Everything but the energy bounds. -/
structure Passes7 (q : SubArgs) (c : View) (i : ℕ) : Prop where
  r : Within q.rmin q.rmax (c.rAt q.projected i)
  m : Within q.mmin q.mmax c.m[i]!
  v : Within q.vmin q.vmax (c.vAt q.projected i)
  npop : ∀ p, q.npop = some p → c.npop[i]! = p
  kw : c.kw ≠ [] → q.kwmin ≤ c.kw[i]! ∧ c.kw[i]! ≤ q.kwmax

/-- The filter without its energy part. -/
theorem filter_spec7 {q : SubArgs} {c : View} {n : ℕ} (ok : c.Arrays n) :
    ∃ a bs f, filterMasks q c = .ok (a, bs ++ [energyMask q c]) ∧ mulAll a bs = some f ∧ MaskOf f n (Passes7 q c) := by
  have hr : (if q.projected then c.rpro else c.r).length = n := by split; exacts [ok.rpro, ok.r]
  have hv : (if q.projected then c.vpro else c.v).length = n := by split; exacts [ok.vpro, ok.v]
  have ne : ∀ {l : List ℝ}, l.length = n → l ≠ [] := by
    intro l h e; rw [e] at h; have := ok.pos; simp at h; omega
  obtain ⟨x1, e1, s1⟩ := orMin_spec (b := q.rmin) (ne hr)
  obtain ⟨x2, e2, s2⟩ := orMax_spec (b := q.rmax) (ne hr)
  obtain ⟨x3, e3, s3⟩ := orMin_spec (b := q.vmin) (ne hv)
  obtain ⟨x4, e4, s4⟩ := orMax_spec (b := q.vmax) (ne hv)
  obtain ⟨x5, e5, s5⟩ := orMin_spec (b := q.mmin) (ne ok.m)
  obtain ⟨x6, e6, s6⟩ := orMax_spec (b := q.mmax) (ne ok.m)
  obtain ⟨w1, m1, k1⟩ := (ge_spec hr s1).mul (le_spec hr s2)
  obtain ⟨w2, m2, k2⟩ := k1.mul (ge_spec ok.m s5)
  obtain ⟨w3, m3, k3⟩ := k2.mul (le_spec ok.m s6)
  obtain ⟨w4, m4, k4⟩ := k3.mul (ge_spec hv s3)
  obtain ⟨w5, m5, k5⟩ := k4.mul (le_spec hv s4)
  obtain ⟨w6, m6, k6⟩ := k5.mul (npop_spec (q := q) ok)
  obtain ⟨w7, m7, k7⟩ := k6.mul (kw_spec (q := q) ok)
  refine ⟨geMask (if q.projected then c.rpro else c.r) x1,
    [leMask (if q.projected then c.rpro else c.r) x2, geMask c.m x5, leMask c.m x6,
      geMask (if q.projected then c.vpro else c.v) x3, leMask (if q.projected then c.vpro else c.v) x4,
      npopMask q c, kwMask q c], w7, ?_, ?_, k7.congr fun i hi => ?_⟩
  · unfold filterMasks
    simp only [e1, e2, e3, e4, e5, e6, bind, Except.bind, pure, Except.pure, List.cons_append, List.nil_append]
  · simp only [mulAll, m1, m2, m3, m4, m5, m6, m7, Option.bind_some]
  · have er : (if q.projected then c.rpro else c.r)[i]! = c.rAt q.projected i := by
      unfold View.rAt; split <;> rfl
    have ev : (if q.projected then c.vpro else c.v)[i]! = c.vAt q.projected i := by
      unfold View.vAt; split <;> rfl
    rw [er, ev]
    constructor
    · rintro ⟨⟨⟨⟨⟨⟨⟨a1, a2⟩, a3⟩, a4⟩, a5⟩, a6⟩, a7⟩, a8⟩
      exact ⟨⟨a1, a2⟩, ⟨a3, a4⟩, ⟨a5, a6⟩, a7, a8⟩
    · rintro ⟨⟨a1, a2⟩, ⟨a3, a4⟩, ⟨a5, a6⟩, a7, a8⟩
      exact ⟨⟨⟨⟨⟨⟨⟨a1, a2⟩, a3⟩, a4⟩, a5⟩, a6⟩, a7⟩, a8⟩

/-- The filter computes exactly the requested predicate. -/
theorem filter_spec {q : SubArgs} {c : View} {n : ℕ} (ok : c.Ok q n) :
    ∃ a bs f, filterMasks q c = .ok (a, bs) ∧ mulAll a bs = some f ∧ MaskOf f n (Passes q c) := by
  obtain ⟨a, bs, f, h1, h2, h3⟩ := filter_spec7 (q := q) ok.toArrays
  obtain ⟨w, hw, kw⟩ := h3.mul (energy_spec ok)
  refine ⟨a, _, w, h1, ?_, kw.congr fun i _ => ?_⟩
  · rw [mulAll_append, h2, Option.bind_some, hw]
  · exact ⟨fun ⟨p, e⟩ => ⟨p.r, p.m, p.v, e, p.npop, p.kw⟩, fun p => ⟨⟨p.r, p.m, p.v, p.npop, p.kw⟩, p.e⟩⟩

end

end CT
