/- C20, C21: the subset selection. -/
import Verif.Lemmas.Subset
import Verif.Spec.Order
import Verif.Spec.Demo
import Mathlib.Tactic.IntervalCases

namespace CT

noncomputable section

set_option linter.unusedSimpArgs false

theorem subset_new {q : SubArgs} {c : View} {n : ℕ} {mem : Mem} (ok : c.Ok q n) :
    ∃ w, getSubset q c none mem = .ok (some mem.length, mem ++ [w]) ∧ MaskOf w n (Passes q c) := by
  obtain ⟨a, bs, f, h1, h2, h3⟩ := filter_spec ok
  have hm : MaskOf (List.replicate c.ntot true) n (fun _ => True) := by rw [ok.ntot]; exact MaskOf.all n
  obtain ⟨w, hw, kw⟩ := hm.inPlace h3
  refine ⟨w, ?_, kw.congr fun i _ => by simp⟩
  have hg : (mem ++ [List.replicate c.ntot true])[mem.length]! = List.replicate c.ntot true := by
    rw [getElem!_pos _ _ (by simp)]; simp
  unfold getSubset
  simp only [h1, h2, bind, Except.bind, Option.getD_none, Option.bind_some, hg, hw, pure, Except.pure]
  rw [List.set_append_right _ _ (le_refl _)]
  simp

theorem subset_mask {q : SubArgs} {c : View} {n p : ℕ} {mem : Mem} {M : ℕ → Prop} (ok : c.Ok q n)
    (hM : MaskOf mem[p]! n M) :
    ∃ w, getSubset q c (some p) mem = .ok (some p, mem.set p w) ∧ MaskOf w n (fun i => M i ∧ Passes q c i) := by
  obtain ⟨a, bs, f, h1, h2, h3⟩ := filter_spec ok
  obtain ⟨w, hw, kw⟩ := hM.inPlace h3
  refine ⟨w, ?_, kw⟩
  unfold getSubset
  simp only [h1, h2, bind, Except.bind, Option.getD_some, Option.bind_some, hw, pure, Except.pure]

theorem mask_lt {mem : Mem} {p n : ℕ} {M : ℕ → Prop} (hn : 1 ≤ n) (h : MaskOf mem[p]! n M) : p < mem.length := by
  by_contra hp
  rw [getElem!_neg mem p hp] at h
  have := h.len
  simp [default] at this
  omega

/-! ### C20 -/

/-- **C20 (no mask).**  A selection without a mask marks exactly the stars that pass the filter. -/
theorem C20_subset {q : SubArgs} {c : View} {n : ℕ} {mem : Mem} (ok : c.Ok q n) :
    ∃ k mem', getSubset q c none mem = .ok (some k, mem') ∧ mem'[k]!.length = n ∧
      ∀ i < n, (mem'[k]!)[i]! = true ↔ Passes q c i := by
  obtain ⟨w, h, hw⟩ := subset_new (mem := mem) ok
  refine ⟨_, _, h, ?_⟩
  have : (mem ++ [w])[mem.length]! = w := by rw [getElem!_pos _ _ (by simp)]; simp
  rw [this]
  exact ⟨hw.len, hw.val⟩

/-- **C20 (with a mask).**  Given a mask, exactly the stars of the mask that pass the filter are marked. -/
theorem C20_subset_mask {q : SubArgs} {c : View} {n p : ℕ} {mem : Mem} (ok : c.Ok q n) (hp : mem[p]!.length = n) :
    ∃ k mem', getSubset q c (some p) mem = .ok (some k, mem') ∧ mem'[k]!.length = n ∧
      ∀ i < n, (mem'[k]!)[i]! = true ↔ ((mem[p]!)[i]! = true ∧ Passes q c i) := by
  have hM : MaskOf mem[p]! n (fun i => (mem[p]!)[i]! = true) := ⟨hp, fun i _ => Iff.rfl⟩
  obtain ⟨w, h, hw⟩ := subset_mask ok hM
  refine ⟨_, _, h, ?_⟩
  have hlt := mask_lt ok.pos hM
  have : (mem.set p w)[p]! = w := by rw [getElem!_pos _ _ (by simpa using hlt)]; simp
  rw [this]
  exact ⟨hw.len, hw.val⟩

/-- The radius and speed the filter compares are those of the star, if the derived data are fresh. -/
theorem C20_radius {p : Full} {i : ℕ} (f : Fresh p.tab.base) (hi : i < p.tab.base.st.length) :
    p.view.rAt false i = p.tab.base.st[i]!.r ∧ p.view.rAt true i = p.tab.base.st[i]!.rpro ∧
      p.view.vAt false i = p.tab.base.st[i]!.v ∧ p.view.vAt true i = p.tab.base.st[i]!.vpro := by
  have key : ∀ {q : Ph → ℝ} {st : List Ph} {l : List ℝ}, AreNorms q st l → ∀ {i : ℕ}, i < st.length →
      l[i]! = Real.sqrt (q st[i]!) := by
    intro q st l h
    induction h with
    | nil => intro i hi; simp at hi
    | @cons a b st l hab _ ih =>
      intro i hi
      cases i with
      | zero =>
        simp only [List.getElem!_cons_zero]
        rw [← hab.2, Real.sqrt_sq hab.1]
      | succ i =>
        simp only [List.getElem!_cons_succ]
        exact ih (by simpa using hi)
  exact ⟨key f.r hi, key f.rpro hi, key f.v hi, key f.vpro hi⟩

/-- A cluster of three stars, one of stellar type -1 (pre-main-sequence), without energies. -/
def view3 : View :=
  { ntot := 3, r := [1, 2, 3], rpro := [1, 1, 2], v := [4, 5, 6], vpro := [3, 4, 5], m := [1, 1, 2], npop := [1, 1, 2],
    kw := [1, -1, 14], etot := [] }

theorem view3_ok (q : SubArgs) (h : q.emin = none ∧ q.emax = none) : view3.Ok q 3 :=
  ⟨by constructor <;> simp [view3], .inl h⟩

example : ∃ k mem', getSubset { rmin := some 2, mmax := some 2, kwmin := -1 } view3 none [] = .ok (some k, mem') ∧
    mem'[k]! = [false, true, true] := by
  obtain ⟨k, mem', h, hl, hv⟩ := C20_subset (mem := [])
    (view3_ok { rmin := some 2, mmax := some 2, kwmin := -1 } ⟨rfl, rfl⟩)
  refine ⟨k, mem', h, ?_⟩
  have : MaskOf mem'[k]! 3 (Passes { rmin := some 2, mmax := some 2, kwmin := -1 } view3) := ⟨hl, hv⟩
  refine this.unique ⟨rfl, ?_⟩
  intro i hi
  interval_cases i
  · simp only [List.getElem!_cons_zero, Bool.false_eq_true, false_iff]
    intro p
    have := p.r.1 2 rfl
    norm_num [View.rAt, view3] at this
  · simp only [show ([false, true, true] : List Bool)[1]! = true from rfl, true_iff]
    constructor <;> simp [Within, View.rAt, View.vAt, view3]
  · simp only [show ([false, true, true] : List Bool)[2]! = true from rfl, true_iff]
    constructor <;> simp [Within, View.rAt, View.vAt, view3]
    norm_num

/-- "With no filter all stars are selected" is false: the default range of stellar types 0…15 is applied whenever types
are known, so a pre-main-sequence star (type -1) is dropped. -/
theorem C20_default_types_violated : view3.Ok {} 3 ∧ ∃ k mem', getSubset {} view3 none [] = .ok (some k, mem') ∧
    (mem'[k]!)[1]! = false := by
  obtain ⟨k, mem', h, hl, hv⟩ := C20_subset (mem := []) (view3_ok {} ⟨rfl, rfl⟩)
  refine ⟨view3_ok {} ⟨rfl, rfl⟩, k, mem', h, ?_⟩
  have := hv 1 (by norm_num)
  by_contra hc
  rw [Bool.not_eq_false] at hc
  have p := this.mp hc
  have := (p.kw (by simp [view3])).1
  norm_num [view3] at this

/-- An energy bound on a cluster of at least two stars whose energies were never computed does not raise: the call
returns `-1`, which as an index means the last star. -/
theorem C20_missing_energies_violated {c : View} {n : ℕ} {mem : Mem} {a : ℝ} (ok : c.Arrays n) (hn : 2 ≤ n)
    (he : c.etot = []) : getSubset { emin := some a } c none mem = .ok (none, mem ++ [List.replicate n true]) := by
  obtain ⟨a', bs, f, h1, h2, h3⟩ := filter_spec7 (q := { emin := some a }) ok
  have he' : energyMask { emin := some a } c = [] := by simp [energyMask, geMask, he]
  have hm : mulMask f [] = none := by
    have hl := h3.len
    unfold mulMask
    match f with
    | [] => simp at hl; omega
    | [_] => simp at hl; omega
    | _ :: _ :: _ => simp
  unfold getSubset
  simp only [h1, mulAll_append, h2, he', hm, bind, Except.bind, Option.bind_some, Option.bind_none, pure, Except.pure,
    ok.ntot]

/-- Without stellar types and bounds everything is selected. -/
theorem C20_no_filter {c : View} {n : ℕ} {mem : Mem} (ok : c.Ok {} n)
    (hk : c.kw = [] ∨ ∀ i < n, 0 ≤ c.kw[i]! ∧ c.kw[i]! ≤ 15) :
    ∃ k mem', getSubset {} c none mem = .ok (some k, mem') ∧ mem'[k]! = List.replicate n true := by
  obtain ⟨k, mem', h, hl, hv⟩ := C20_subset (mem := mem) ok
  refine ⟨k, mem', h, ?_⟩
  have h1 : MaskOf mem'[k]! n (fun _ => True) := by
    refine ⟨hl, fun i hi => (hv i hi).trans ?_⟩
    simp only [iff_true]
    constructor <;> simp [Within]
    intro hne
    rcases hk with hk | hk
    · exact (hne hk).elim
    · simpa using hk i hi
  exact h1.unique (MaskOf.all n)

/-! ### C21 -/

/-- **C21 (no mask).**  A selection without a mask leaves every mask unchanged. -/
theorem C21_no_mask {q : SubArgs} {c : View} {mem mem' : Mem} {r : Option ℕ} (h : getSubset q c none mem = .ok (r, mem')) :
    ∀ k < mem.length, mem'[k]! = mem[k]! := by
  intro k hk
  have e : (mem ++ [List.replicate c.ntot true])[k]! = mem[k]! := by
    rw [getElem!_pos _ k (by simp; omega), getElem!_pos mem k hk, List.getElem_append_left hk]
  unfold getSubset at h
  simp only [bind, Except.bind, Option.getD_none, pure, Except.pure] at h
  split at h
  · simp at h
  · split at h
    · simp only [Except.ok.injEq, Prod.mk.injEq] at h
      rw [← h.2, e]
    · simp only [Except.ok.injEq, Prod.mk.injEq] at h
      rw [← h.2, ← e, getElem!_pos _ k (by simp; omega), getElem!_pos _ k (by simp; omega),
        List.getElem_set_ne (by omega)]

/-- **C21 (other masks).**  A selection with a mask leaves every other mask unchanged. -/
theorem C21_other_masks {q : SubArgs} {c : View} {mem mem' : Mem} {p : ℕ} {r : Option ℕ}
    (h : getSubset q c (some p) mem = .ok (r, mem')) : ∀ k, k ≠ p → mem'[k]! = mem[k]! := by
  intro k hk
  unfold getSubset at h
  simp only [bind, Except.bind, Option.getD_some, pure, Except.pure] at h
  split at h
  · simp at h
  · split at h
    · simp only [Except.ok.injEq, Prod.mk.injEq] at h
      rw [← h.2]
    · simp only [Except.ok.injEq, Prod.mk.injEq] at h
      rw [← h.2]
      by_cases hl : k < mem.length
      · rw [getElem!_pos _ k (by simpa using hl), getElem!_pos mem k hl, List.getElem_set_ne (Ne.symm hk)]
      · rw [getElem!_neg _ k (by simpa using hl), getElem!_neg mem k hl]

/-- The claim that the caller's mask is left unchanged is false: the call overwrites it with the selection. -/
theorem C21_mask_overwritten_violated {q : SubArgs} {c : View} {n p : ℕ} {mem : Mem} (ok : c.Ok q n)
    (hp : mem[p]!.length = n) :
    ∃ mem', getSubset q c (some p) mem = .ok (some p, mem') ∧
      ∀ i < n, (mem'[p]!)[i]! = true ↔ ((mem[p]!)[i]! = true ∧ Passes q c i) := by
  have hM : MaskOf mem[p]! n (fun i => (mem[p]!)[i]! = true) := ⟨hp, fun i _ => Iff.rfl⟩
  obtain ⟨w, h, hw⟩ := subset_mask ok hM
  refine ⟨_, h, ?_⟩
  have hlt := mask_lt ok.pos hM
  have : (mem.set p w)[p]! = w := by rw [getElem!_pos _ _ (by simpa using hlt)]; simp
  rw [this]
  exact hw.val

/-- So the caller's mask survives exactly when every star of the mask passes the filter. -/
theorem C21_unchanged_iff {q : SubArgs} {c : View} {n p : ℕ} {mem mem' : Mem} {r : Option ℕ} (ok : c.Ok q n)
    (hp : mem[p]!.length = n) (h : getSubset q c (some p) mem = .ok (r, mem')) :
    mem'[p]! = mem[p]! ↔ ∀ i < n, (mem[p]!)[i]! = true → Passes q c i := by
  have hM : MaskOf mem[p]! n (fun i => (mem[p]!)[i]! = true) := ⟨hp, fun i _ => Iff.rfl⟩
  obtain ⟨w, h', hw⟩ := subset_mask ok hM
  rw [h'] at h
  obtain ⟨rfl, rfl⟩ := Prod.mk.inj (Except.ok.inj h)
  have hlt := mask_lt ok.pos hM
  have e : (mem.set p w)[p]! = w := by rw [getElem!_pos _ _ (by simpa using hlt)]; simp
  rw [e]
  constructor
  · intro hwm i hi hmi
    rw [← hwm] at hmi
    exact ((hw.val i hi).mp hmi).2
  · intro hall
    refine hw.unique (hM.congr fun i hi => ?_)
    exact ⟨fun hm => ⟨hm, hall i hi hm⟩, fun hm => hm.1⟩

theorem set_get! {mem : Mem} {p : ℕ} {w : List Bool} (h : p < mem.length) : (mem.set p w)[p]! = w := by
  rw [getElem!_pos _ _ (by simpa using h)]; simp

theorem subsets_run {qs : List SubArgs} {c : View} {n p : ℕ} {mem : Mem} {M : ℕ → Prop} (ok : ∀ q ∈ qs, c.Ok q n)
    (hn : 1 ≤ n) (hM : MaskOf mem[p]! n M) :
    ∃ used mem', subsets qs c p mem = .ok (used, mem') ∧ used.length = qs.length ∧
      ∀ k < qs.length, MaskOf used[k]! n (fun i => M i ∧ ∀ q ∈ qs.take (k + 1), Passes q c i) := by
  induction qs generalizing mem M with
  | nil => exact ⟨[], mem, rfl, rfl, fun k hk => by simp at hk⟩
  | cons q qs ih =>
    obtain ⟨w, h, hw⟩ := subset_mask (ok q (by simp)) hM
    have hs := set_get! (w := w) (mask_lt hn hM)
    obtain ⟨used, mem', h', hl, hu⟩ := ih (mem := mem.set p w) (fun q hq => ok q (by simp [hq])) (by rw [hs]; exact hw)
    refine ⟨w :: used, mem', ?_, by simp [hl], ?_⟩
    · unfold subsets
      simp only [h, bind, Except.bind, h', hs, pure, Except.pure]
    · intro k hk
      cases k with
      | zero => exact hw.congr fun i _ => by simp
      | succ k =>
        rw [List.getElem!_cons_succ]
        refine (hu k (by simpa using hk)).congr fun i _ => ?_
        rw [List.take_succ_cons]
        simp only [List.mem_cons, forall_eq_or_imp, and_assoc]

/-- **C21 (sequences).**  In any sequence of analyses sharing a mask, each one acts on the stars of the mask that pass its
own filter *and all the earlier ones* (the property asks for its own filter only). -/
theorem C21_sequence_partial {qs : List SubArgs} {c : View} {n p : ℕ} {mem : Mem} (ok : ∀ q ∈ qs, c.Ok q n) (hn : 1 ≤ n)
    (hp : mem[p]!.length = n) :
    ∃ used mem', subsets qs c p mem = .ok (used, mem') ∧ used.length = qs.length ∧
      ∀ k < qs.length, ∀ i < n, (used[k]!)[i]! = true ↔
        ((mem[p]!)[i]! = true ∧ ∀ q ∈ qs.take (k + 1), Passes q c i) := by
  obtain ⟨used, mem', h, hl, hu⟩ := subsets_run (M := fun i => (mem[p]!)[i]! = true) ok hn ⟨hp, fun i _ => Iff.rfl⟩
  exact ⟨used, mem', h, hl, fun k hk => (hu k hk).val⟩

/-- **C21 (repetition).**  Repeating an analysis with the same mask and filter acts on the same stars. -/
theorem C21_repeat {q : SubArgs} {c : View} {n p : ℕ} {mem : Mem} (ok : c.Ok q n) (hp : mem[p]!.length = n) :
    ∃ u mem', subsets [q, q] c p mem = .ok ([u, u], mem') := by
  obtain ⟨used, mem', h, hl, hu⟩ := subsets_run (qs := [q, q]) (M := fun i => (mem[p]!)[i]! = true)
    (by simpa using ok) ok.pos ⟨hp, fun i _ => Iff.rfl⟩
  match used, hl with
  | [u, u'], _ =>
    have h0 : MaskOf u n _ := hu 0 (by simp)
    have h1 : MaskOf u' n _ := hu 1 (by simp)
    have e : u' = u := by
      refine h1.unique (h0.congr fun i _ => ?_)
      simp
    exact ⟨u, mem', by rw [h, e]⟩

/-- Inner part, then outer part with the same mask: the second analysis acts on no star, although the mask has stars
there. -/
theorem C21_two_parts_violated : ∃ mem', subsets [{ rmax := some 1, kwmin := -1 }, { rmin := some 2, kwmin := -1 }] view3 0
    [[true, true, true]] = .ok ([[true, false, false], [false, false, false]], mem') := by
  obtain ⟨used, mem', h, hl, hu⟩ := subsets_run (qs := [{ rmax := some 1, kwmin := -1 }, { rmin := some 2, kwmin := -1 }])
    (c := view3) (n := 3) (p := 0) (mem := [[true, true, true]]) (M := fun _ => True)
    (by
      simp only [List.mem_cons, List.not_mem_nil, or_false, forall_eq_or_imp, forall_eq]
      exact ⟨view3_ok _ ⟨rfl, rfl⟩, view3_ok _ ⟨rfl, rfl⟩⟩) (by norm_num) (MaskOf.all 3)
  match used, hl with
  | [u, u'], _ =>
    have h0 : MaskOf u 3 _ := hu 0 (by simp)
    have h1 : MaskOf u' 3 _ := hu 1 (by simp)
    have e0 : u = [true, false, false] := by
      refine h0.unique ⟨rfl, fun i hi => ?_⟩
      simp only [List.take_succ_cons, List.take_zero, List.mem_cons, List.not_mem_nil, or_false, forall_eq, true_and]
      interval_cases i
      · simp only [List.getElem!_cons_zero, true_iff]
        constructor <;> simp [Within, View.rAt, View.vAt, view3]
      · simp only [show ([true, false, false] : List Bool)[1]! = false from rfl, Bool.false_eq_true, false_iff]
        intro p
        have := p.r.2 1 rfl
        norm_num [View.rAt, view3] at this
      · simp only [show ([true, false, false] : List Bool)[2]! = false from rfl, Bool.false_eq_true, false_iff]
        intro p
        have := p.r.2 1 rfl
        norm_num [View.rAt, view3] at this
    have e1 : u' = [false, false, false] := by
      refine h1.unique ⟨rfl, fun i hi => ?_⟩
      have : ([false, false, false] : List Bool)[i]! = false := by interval_cases i <;> rfl
      rw [this]
      simp only [Bool.false_eq_true, false_iff]
      rintro ⟨-, p⟩
      have p0 := (p { rmax := some 1, kwmin := -1 } (by simp)).r.2 1 rfl
      have p1 := (p { rmin := some 2, kwmin := -1 } (by simp)).r.1 2 rfl
      have : (2 : ℝ) ≤ 1 := p1.trans p0
      norm_num at this
    exact ⟨mem', by rw [h, e0, e1]⟩

/-! ### `ckin` -/

/-- The two selections of `ckin` (functions.py:2013-2053): first the stars between the Lagrange radii `rn[3]` and `rn[5]`,
then those within `rn[4]`, given the same mask. -/
def ckinSelections (q : SubArgs) (rn : List ℝ) : List SubArgs :=
  [{ q with rmin := some rn[3]!, rmax := some rn[5]! }, { q with rmin := some 0, rmax := some rn[4]! }]

/-- When the caller gives `ckin` a mask, the equipartition mass "within `rn[4]`" is computed without the stars inside
`rn[3]`. -/
theorem C21_ckin_violated {q : SubArgs} {c : View} {n p : ℕ} {mem : Mem} {rn : List ℝ} (ok : c.Ok q n)
    (hp : mem[p]!.length = n) :
    ∃ u w mem', subsets (ckinSelections q rn) c p mem = .ok ([u, w], mem') ∧
      ∀ i < n, c.rAt q.projected i < rn[3]! → w[i]! = false := by
  obtain ⟨used, mem', h, hl, hu⟩ := subsets_run (qs := ckinSelections q rn) (M := fun i => (mem[p]!)[i]! = true)
    (c := c) (n := n) (p := p) (mem := mem)
    (by
      simp only [ckinSelections, List.mem_cons, List.not_mem_nil, or_false, forall_eq_or_imp, forall_eq]
      exact ⟨⟨ok.toArrays, ok.etot⟩, ⟨ok.toArrays, ok.etot⟩⟩) ok.pos ⟨hp, fun i _ => Iff.rfl⟩
  match used, hl with
  | [u, w], _ =>
    refine ⟨u, w, mem', h, fun i hi hr => ?_⟩
    have h1 : MaskOf w n _ := hu 1 (by simp [ckinSelections])
    by_contra hc
    rw [Bool.not_eq_false] at hc
    have := ((h1.val i hi).mp hc).2 { q with rmin := some rn[3]!, rmax := some rn[5]! } (by simp [ckinSelections])
    exact absurd (this.r.1 _ rfl) (not_le.mpr hr)

end

end CT
