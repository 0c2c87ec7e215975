/- C79: the slope does not depend on the unit of mass; C80: equal masses; C78: number densities; examples. -/
import Verif.Props.MassFunction2
import Verif.Lemmas.BinScale

namespace CT

noncomputable section

set_option linter.unusedSimpArgs false

theorem maskSel_mapped {α β : Type} (q : α → β) (w : List Bool) (l : List α) : maskSel w (l.map q) = (maskSel w l).map q := by
  unfold maskSel
  rw [List.zip_map_right, List.filter_map, List.map_map, List.map_map]
  rfl

/-- The bin maker of a mass function. -/
def massBins (fix : Bool) (x : List ℝ) (n : ℕ) : Except Err BinTable := if fix then binmaker x n true else nbinmaker x n

theorem massBins_scale {s : ℝ} (hs : 0 < s) (fix : Bool) (x : List ℝ) (n : ℕ) :
    massBins fix (x.map (s * ·)) n = (massBins fix x n).map (BinTable.scale s) := by
  unfold massBins
  cases fix
  · exact nbinmaker_scale hs x n
  · exact binmaker_scale hs x n

theorem profBinned_mass (a : MassArgs) (m : List ℝ) (k : ℕ) (mem : Mem) :
    profBinned a.prof m (some k, mem) = (massBins a.fix (maskSel mem[k]! m) a.nmass).bind (fun T =>
      .ok { mask := mem[k]!, lower := T.lower, mid := T.mid, upper := T.upper, idx := binIndex m T.lower T.upper }) := by
  simp only [profBinned, profBins, MassArgs.prof, bind, massBins]
  by_cases hx : a.fix = true
  on_goal 1 => simp only [hx, if_true]
  on_goal 2 => simp only [hx, if_false]
  on_goal 2 =>
    cases nbinmaker (maskSel mem[k]! m) a.nmass <;> rfl
  · cases binmaker (maskSel mem[k]! m) a.nmass true <;> rfl

/-- The bins of rescaled masses. -/
theorem profBinned_scale {s : ℝ} (hs : 0 < s) {a a' : MassArgs} (hn : a'.nmass = a.nmass) (hf : a'.fix = a.fix) {m : List ℝ} {k k' : ℕ}
    {mem mem' : Mem} (hm : mem'[k']! = mem[k]!) {B : Binned} (h : profBinned a.prof m (some k, mem) = .ok B) :
    ∃ B', profBinned a'.prof (m.map (s * ·)) (some k', mem') = .ok B' ∧ B'.mask = B.mask ∧ B'.idx = B.idx ∧
      B'.lower = B.lower.map (s * ·) ∧ B'.mid = B.mid.map (s * ·) ∧ B'.upper = B.upper.map (s * ·) := by
  rw [profBinned_mass] at h ⊢
  rw [hm, maskSel_mapped, hn, hf, massBins_scale hs]
  obtain ⟨T, hT, h⟩ := bind_ok h
  injection h with h
  rw [hT]
  refine ⟨_, rfl, ?_, ?_, ?_, ?_, ?_⟩
  all_goals rw [← h]
  · exact binIndex_scale hs m T.lower (T.lower.map (s * ·)) T.upper
  all_goals rfl

/-- **C79 (units).**  Two descriptions of the same physical cluster in different units (and frames), with filters that select the same
stars: the mass function exists for one if and only if for the other, and numbers per bin, slope, error of the slope and
bin errors are the same; the masses agree in solar masses. -/
theorem C79_units {g : Galpy} {c c' : Cluster} (p : Pos g c) (l : Lin c) (hg : Good c) (f : Fresh c) (p' : Pos g c') (l' : Lin c')
    (hg' : Good c') (f' : Fresh c') {w : World} (hw : world g c = some w) (hw' : world g c' = some w) {u u' : Units} {s s' : Scale}
    (hu : c.units = some u) (hs : unitScale g c u = some s) (hu' : c'.units = some u') (hs' : unitScale g c' u' = some s')
    {a a' : MassArgs} {e e' : PStars} {indx indx' : Option ℕ} {mem mem' : Mem}
    (he : e.Ok a.sub c.st.length) (hm : ∀ q, indx = some q → mem[q]!.length = c.st.length)
    (he' : e'.Ok a'.sub c'.st.length) (hm' : ∀ q, indx' = some q → mem'[q]!.length = c'.st.length)
    (hn1 : a'.nmass = a.nmass) (hf1 : a'.fix = a.fix) (hc1 : a'.mcorr = a.mcorr)
    (hmc : ∀ w, a.mcorr = some w → w.length = c.st.length)
    (hn : a.nmass ≤ numOver c.st.length (MassSelected a.sub e indx mem c)) (h0 : 0 < a.nmass)
    (hd : ∃ i j, i < c.st.length ∧ j < c.st.length ∧ MassSelected a.sub e indx mem c i ∧ MassSelected a.sub e indx mem c j ∧ c.m[i]! ≠ c.m[j]!)
    (hsel : ∀ i < c.st.length, MassSelected a.sub e indx mem c i ↔ MassSelected a'.sub e' indx' mem' c' i)
    {o : MassOut} {c2 : Cluster} {m2 : Mem} (h : massFunction g a e indx mem c = .ok (o, c2, m2)) :
    ∃ o' c2' m2', massFunction g a' e' indx' mem' c' = .ok (o', c2', m2') ∧ o'.hist = o.hist ∧ o'.fit.slope = o.fit.slope ∧
      o'.fit.eslope = o.fit.eslope ∧ o'.err = o.err ∧ o'.mean.map (· * s'.mass) = o.mean.map (· * s.mass) := by
  have hlen : c'.st.length = c.st.length := by rw [← world_length hw', world_length hw]
  have hs0 := (unitScale_pos p hs).2.2.1
  have hs0' := (unitScale_pos p' hs').2.2.1
  obtain ⟨t, ht⟩ : ∃ t, t = s.mass / s'.mass := ⟨_, rfl⟩
  have ht0 : 0 < t := by rw [ht]; positivity
  have hmass : c'.m = c.m.map (t * ·) := by
    have e1 := world_mass hw hu hs
    have e2 := world_mass hw' hu' hs'
    rw [e1] at e2
    have := congrArg (List.map (· / s'.mass)) e2
    rw [List.map_map, List.map_map] at this
    have id1 : (fun x : ℝ => x / s'.mass) ∘ (fun x => x * s'.mass) = id := by
      funext x; simp only [Function.comp, id]; field_simp
    rw [id1, List.map_id] at this
    rw [← this]
    refine List.map_congr_left fun x _ => ?_
    simp only [Function.comp, ht]; field_simp
  have hget : ∀ i < c.st.length, c'.m[i]! = t * c.m[i]! := by
    intro i hi
    have h1 : i < c.m.length := by rw [hg.len]; exact hi
    rw [hmass, getElem!_pos _ i (by simpa using h1), getElem!_pos c.m i h1, List.getElem_map]
  obtain ⟨k, x, B, P, y, hS, hb, hB, -, -, -, hrun⟩ := mass_run p l hg f he hm hmc hn h0 hd
  have hnum : numOver c'.st.length (MassSelected a'.sub e' indx' mem' c') = numOver c.st.length (MassSelected a.sub e indx mem c) := by
    have := sumOver_congr (n := c.st.length) (f := fun _ => 1) (g := fun _ => 1) hsel (fun _ _ _ => rfl)
    rw [← numOver_eq, ← numOver_eq] at this
    rw [hlen]; exact_mod_cast this.symm
  have hd' : ∃ i j, i < c'.st.length ∧ j < c'.st.length ∧ MassSelected a'.sub e' indx' mem' c' i ∧ MassSelected a'.sub e' indx' mem' c' j ∧
      c'.m[i]! ≠ c'.m[j]! := by
    obtain ⟨i, j, x1, x2, x3, x4, x5⟩ := hd
    refine ⟨i, j, by omega, by omega, (hsel i x1).mp x3, (hsel j x2).mp x4, ?_⟩
    rw [hget i x1, hget j x2]
    exact fun h => x5 (mul_left_cancel₀ ht0.ne' h)
  obtain ⟨k', x', B', P', y', hS', hb', hB', -, -, -, hrun'⟩ := mass_run (a := a') p' l' hg' f' he' hm'
    (fun w hw => by rw [hc1] at hw; rw [hlen]; exact hmc w hw) (by rw [hn1, hnum]; exact hn) (by rw [hn1]; exact h0) hd'
  rw [hlen] at hS'
  obtain ⟨B'', hb'', e1, e2, e3, e4, e5⟩ := profBinned_scale ht0 hn1 hf1 ((hS'.congr fun i hi => (hsel i hi).symm).unique hS) hb
  rw [hmass, hb''] at hb'
  injection hb' with hb'
  subst hb'
  rw [hrun] at h
  obtain ⟨fit, hfit, h⟩ := bind_ok h
  injection h with h
  cases h
  have hat : ∀ i, B''.at i = B.at i := by intro i; unfold Binned.at; rw [e1, e2]
  have hml : B''.mid.length = B.mid.length := by rw [e4, List.length_map]
  have hcor : (a'.mcorr.getD (c'.m.map (fun _ => (1 : ℝ)))) = a.mcorr.getD (c.m.map (fun _ => 1)) := by
    rw [hc1, hmass]; simp [List.map_map, Function.comp_def]
  have hdm : dmOf a' c'.m B'' = (dmOf a c.m B).map (t⁻¹ * ·) := by
    unfold dmOf
    rw [hml, hcor, e3, e5, List.zipWith_map]
    simp only [hat]
    rw [List.map_zipWith]
    have : (List.zipWith (fun (b b' : ℝ) => t * b - t * b') B.upper B.lower) =
        (List.zipWith (fun u l => u - l) B.upper B.lower).map (t * ·) := by
      rw [List.map_zipWith]; congr 1; funext b b'; ring
    rw [this, List.zipWith_map_right]
    congr 1
    funext x y
    rw [div_eq_mul_inv, mul_inv, div_eq_mul_inv]; ring
  obtain ⟨fit', hf', q1, q2, -⟩ := polyfitLog_scale hfit ht0 (inv_pos.mpr ht0)
  rw [← e4, ← hdm] at hf'
  refine ⟨outOf a' c'.m B'' fit', y', x', by rw [hrun', hf']; rfl, ?_, q1, q2, ?_, ?_⟩
  · simp only [outOf, hat, hml]
  · simp only [outOf, hat, hml]
    rw [hcor, hc1]
  · simp only [outOf, e4, List.map_map]
    refine List.map_congr_left fun v _ => ?_
    simp only [Function.comp, ht]; field_simp

/-- **C80 (violated: equal masses).**  If all selected stars have one mass, equal-number bins do not exist and `mass_function` raises
`ValueError`, however many stars there are. -/
theorem C80_equal_masses_violated {g : Galpy} {c : Cluster} (p : Pos g c) (l : Lin c) (hg : Good c) (f : Fresh c) {a : MassArgs} {e : PStars}
    {indx : Option ℕ} {mem : Mem} (he : e.Ok a.sub c.st.length) (hm : ∀ q, indx = some q → mem[q]!.length = c.st.length)
    (hx : a.fix = false) (h0 : 0 < a.nmass) (hn : a.nmass ≤ numOver c.st.length (MassSelected a.sub e indx mem c)) {μ : ℝ}
    (hd : ∀ i < c.st.length, MassSelected a.sub e indx mem c i → c.m[i]! = μ) :
    massFunction g a e indx mem c = .error .valueError := by
  obtain ⟨c1, h1, s1, m1, g1, l1, f1, r1, w1, -, -⟩ := strip_amuse p l hg f
  obtain ⟨k, mem', h2, hS⟩ := mass_selected_mask (e := e) (q := a.sub) (indx := indx) (mem := mem) hg he hm
  have hen : enough a.nmass (some k, mem') = true := by
    simp only [enough, Option.elim]
    rw [hS.count]; simpa using hn
  have hrep : maskSel mem'[k]! c.m = List.replicate (numOver c.st.length (MassSelected a.sub e indx mem c)) μ := by
    rw [List.eq_replicate_iff]
    refine ⟨hS.length hg.len, fun v hv => ?_⟩
    obtain ⟨i, q1, q2, rfl⟩ := (hS.mem hg.len).mp hv
    exact hd i q1 q2
  have hb : profBinned a.prof c.m (some k, mem') = .error .valueError := by
    simp only [profBinned, profBins, MassArgs.prof, hx, bind, Bool.false_eq_true, if_false]
    rw [hrep, C25_constant_input_violated _ _ _ (by omega) h0]
    rfl
  have hfit : massFit a c.m (some k, mem') = .error .valueError := by
    unfold massFit
    simp only [bind, hb]
    rfl
  have hv : viewOf c1 e = rowsView c.st c.m e := by rw [fresh_view f1, s1, m1]
  unfold massFunction
  simp only [bind]
  have rest : ∀ c1', c1' = c1 → ((getSubset a.sub (viewOf c1' e) indx mem).bind fun sel =>
      if enough a.nmass sel = true then (massFit a c1'.m sel).bind fun out =>
        (returnCluster g (saveCluster c) false none c1').bind fun c2 => pure (out, c2, sel.2)
      else (Except.ok a.tooFew).bind fun out =>
        (returnCluster g (saveCluster c) false none c1').bind fun c2 => pure (out, c2, sel.2)) = .error .valueError := by
    rintro c1' rfl
    rw [hv, h2]
    simp only [Except.bind, hen, if_true, m1, hfit]
  split at h1
  · rename_i hu
    rw [if_pos hu, h1]
    exact rest c1 rfl
  · rename_i hu
    rw [if_neg hu]
    injection h1 with h1
    exact rest c h1

/-! ### Examples -/

/-- Six stars of masses 1 to 6. -/
def demoMass : Cluster :=
  { demo with
    m := [1, 2, 3, 4, 5, 6], st := (List.range 6).map (fun i => ⟨2 ^ i, 0, 0, 0, 0, 0⟩), rorder := none, rproorder := none }

/-- All stars of population 1, no stellar types, no energies. -/
def demoStars : PStars := ⟨[1, 1, 1, 1, 1, 1], [], []⟩

theorem demoMass_ok : ∃ c0 w, analyze true demoMass = .ok c0 ∧ Pos demoG c0 ∧ Lin c0 ∧ Good c0 ∧ Fresh c0 ∧ c0.m = [1, 2, 3, 4, 5, 6] ∧
    world demoG c0 = some w ∧ c0.units = some .pckms ∧ c0.st.length = 6 ∧ ∀ i < 6, MassSelected {} demoStars none [] c0 i := by
  have gd : Good demoMass := ⟨by simp [demoMass], by simp [demoMass], by simp [demoMass]; norm_num,
    by intro o ho; simp [demoMass] at ho, by intro o ho; simp [demoMass] at ho⟩
  have pd : Pos demoG demoMass := ⟨demo_pos.rbar, demo_pos.vbar, demo_pos.zmbar, demo_pos.tbar, demo_pos.ro, demo_pos.vo,
    demo_pos.time, demo_pos.mass, demo_pos.vel⟩
  obtain ⟨c0, h0, g0⟩ := analyze_total (s := true) (p := true) gd
  obtain ⟨k1, k2, k3, k4, k5, k6, k7, k8, k9, k10, k11, k12⟩ := core_fields (analyze_core h0)
  have l0 : Lin c0 := ⟨⟨.pckms, k1, trivial⟩, ⟨.cluster, k2, trivial⟩⟩
  obtain ⟨w, hw⟩ := world_isSome (g := demoG) (c := demoMass) (u := .pckms) (o := .cluster) rfl trivial rfl
  have hl : c0.st.length = 6 := by rw [k5]; simp [demoMass]
  refine ⟨c0, w, h0, pd.of_rest k12, l0, g0, analyze_fresh h0, k4, (world_core (analyze_core h0)).trans hw, k1, hl, ?_⟩
  intro i hi
  refine ⟨(fun p hp => by cases hp), ?_, ?_, ?_, ?_, ?_, ?_⟩
  · exact ⟨(fun b hb => by cases hb), (fun b hb => by cases hb)⟩
  · exact ⟨(fun b hb => by cases hb), (fun b hb => by cases hb)⟩
  · exact ⟨(fun b hb => by cases hb), (fun b hb => by cases hb)⟩
  · exact ⟨(fun b hb => by cases hb), (fun b hb => by cases hb)⟩
  · intro p hp; cases hp
  · intro h; exact absurd rfl h

theorem demo_num {c0 : Cluster} (h : c0.st.length = 6) (hs : ∀ i < 6, MassSelected {} demoStars none [] c0 i) :
    numOver c0.st.length (MassSelected {} demoStars none [] c0) = 6 := by
  classical
  unfold numOver
  rw [h, Finset.filter_true_of_mem fun i hi => hs i (Finset.mem_range.mp hi), Finset.card_range]

/-- C79: three equal-number bins of six stars, two stars in each. -/
example : ∃ c0 o c2 mem' P, massFunction demoG { sub := {}, nmass := 3 } demoStars none [] c0 = .ok (o, c2, mem') ∧
    IsMassFunction { sub := {}, nmass := 3 } demoStars none [] c0 P o ∧ P.length = 3 ∧ o.hist.sum = 6 := by
  obtain ⟨c0, w, h0, p, l, hg, f, hm, hw, hu, hn, hs⟩ := demoMass_ok
  have he : demoStars.Ok {} c0.st.length := ⟨by rw [hn]; rfl, .inl rfl, .inl ⟨rfl, rfl⟩⟩
  obtain ⟨o, c2, mem', P, a1, a2, a3, -, -⟩ := C79_equal_numbers (a := { sub := {}, nmass := 3 }) (indx := none) (mem := []) p l hg f he
    (by intro q hq; cases hq) (by intro w hw; cases hw) (by intro w hw; cases hw)
    (by intro v hv; rw [hm] at hv; simp only [List.mem_cons, List.not_mem_nil, or_false] at hv; rcases hv with h | h | h | h | h | h <;> rw [h] <;> norm_num) rfl (by norm_num)
    (by rw [demo_num hn hs]; norm_num) (by
      intro i j hi hj _ _ hij
      rw [hn] at hi hj
      rw [hm] at hij
      interval_cases i <;> interval_cases j <;> simp at hij ⊢)
  exact ⟨c0, o, c2, mem', P, a1, a2, a3, by rw [a2.total, demo_num hn hs]; norm_num⟩

/-- C79: three equal-width bins. -/
example : ∃ c0 o c2 mem' P, massFunction demoG { sub := {}, nmass := 3, fix := true } demoStars none [] c0 = .ok (o, c2, mem') ∧
    IsMassFunction { sub := {}, nmass := 3, fix := true } demoStars none [] c0 P o ∧ P.length = 3 := by
  obtain ⟨c0, w, h0, p, l, hg, f, hm, hw, hu, hn, hs⟩ := demoMass_ok
  have he : demoStars.Ok {} c0.st.length := ⟨by rw [hn]; rfl, .inl rfl, .inl ⟨rfl, rfl⟩⟩
  obtain ⟨o, c2, mem', P, a1, a2, a3, -, -⟩ := C79_equal_widths (a := { sub := {}, nmass := 3, fix := true }) (indx := none) (mem := []) (lo := 1) (hi := 6)
    p l hg f he (by intro q hq; cases hq) (by intro w hw; cases hw) (by intro w hw; cases hw)
    (by intro v hv; rw [hm] at hv; simp only [List.mem_cons, List.not_mem_nil, or_false] at hv; rcases hv with h | h | h | h | h | h <;> rw [h] <;> norm_num) rfl (by norm_num) (by norm_num)
    ⟨0, by rw [hn]; norm_num, hs 0 (by norm_num), by rw [hm]; rfl⟩ ⟨5, by rw [hn]; norm_num, hs 5 (by norm_num), by rw [hm]; rfl⟩
    (by
      intro i hi _
      rw [hn] at hi; rw [hm]
      interval_cases i <;> norm_num)
    (by
      intro k hk
      have hk' : k < 3 := hk
      refine ⟨2 * k, by rw [hn]; omega, hs _ (by omega), ?_⟩
      rw [hm]
      interval_cases k <;> norm_num)
  exact ⟨c0, o, c2, mem', P, a1, a2, a3⟩

/-- C79: seven bins asked of six stars. -/
example : ∃ c0 o c2 mem', massFunction demoG { sub := {}, nmass := 7 } demoStars none [] c0 = .ok (o, c2, mem') ∧ o.fit.slope = -1000 := by
  obtain ⟨c0, w, h0, p, l, hg, f, hm, hw, hu, hn, hs⟩ := demoMass_ok
  have he : demoStars.Ok {} c0.st.length := ⟨by rw [hn]; rfl, .inl rfl, .inl ⟨rfl, rfl⟩⟩
  obtain ⟨o, c2, mem', a1, -, -, -, a2, -⟩ := C79_too_few (a := { sub := {}, nmass := 7 }) (indx := none) (mem := []) p l hg f he
    (by intro q hq; cases hq) (by rw [demo_num hn hs]; norm_num)
  exact ⟨c0, o, c2, mem', a1, by rw [a2]⟩

/-- C80: two bins of six stars. -/
example : ∃ c0, ∀ r, massFunction demoG { sub := {}, nmass := 2 } demoStars none [] c0 ≠ .ok r := by
  obtain ⟨c0, w, h0, p, l, hg, f, hm, hw, hu, hn, hs⟩ := demoMass_ok
  have he : demoStars.Ok {} c0.st.length := ⟨by rw [hn]; rfl, .inl rfl, .inl ⟨rfl, rfl⟩⟩
  refine ⟨c0, C80_few_bins_violated (a := { sub := {}, nmass := 2 }) (indx := none) (mem := []) p l hg f he (by intro q hq; cases hq)
    (by intro w hw; cases hw) (by norm_num) (by norm_num) (by rw [demo_num hn hs]; norm_num)
    ⟨0, 1, by rw [hn]; norm_num, by rw [hn]; norm_num, hs 0 (by norm_num), hs 1 (by norm_num), by rw [hm]; norm_num⟩⟩

/-- C80: of the stars of masses 1, 5, 6 none has a mass in the second third of their range. -/
example : ∃ c0, massFunction demoG { sub := {}, nmass := 3, fix := true } demoStars (some 0)
    [[true, false, false, false, true, true]] c0 = .error .linAlgError := by
  classical
  obtain ⟨c0, w, h0, p, l, hg, f, hm, hw, hu, hn, hs⟩ := demoMass_ok
  have he : demoStars.Ok {} c0.st.length := ⟨by rw [hn]; rfl, .inl rfl, .inl ⟨rfl, rfl⟩⟩
  have hsel : ∀ i < 6, MassSelected {} demoStars (some 0) [[true, false, false, false, true, true]] c0 i ↔ i = 0 ∨ i = 4 ∨ i = 5 := by
    intro i hi
    have hp := (hs i hi).2
    constructor
    · intro h
      have := h.1 0 rfl
      interval_cases i <;> simp at this ⊢
    · intro h
      refine ⟨fun q hq => ?_, hp⟩
      cases hq
      rcases h with rfl | rfl | rfl <;> rfl
  have hnum : numOver c0.st.length (MassSelected {} demoStars (some 0) [[true, false, false, false, true, true]] c0) = 3 := by
    have := sumOver_congr (n := 6) (f := fun _ => 1) (g := fun _ => 1) hsel (fun _ _ _ => rfl)
    rw [← numOver_eq, sumOver_ite] at this
    rw [hn]
    have e : (∑ i ∈ Finset.range 6, if i = 0 ∨ i = 4 ∨ i = 5 then (1 : ℝ) else 0) = 3 := by
      simp only [Finset.sum_range_succ, Finset.sum_range_zero]; norm_num
    rw [e] at this
    exact_mod_cast this
  refine ⟨c0, C80_empty_bin_violated (a := { sub := {}, nmass := 3, fix := true }) (lo := 1) (hi := 6) (k := 1) p l hg f he
    ?_ (by intro w hw; cases hw) rfl (by rw [hnum]) (by norm_num) ⟨0, by rw [hn]; norm_num, (hsel 0 (by norm_num)).mpr (by simp), by rw [hm]; rfl⟩
    ⟨5, by rw [hn]; norm_num, (hsel 5 (by norm_num)).mpr (by simp), by rw [hm]; rfl⟩ ?_ (by norm_num) ?_⟩
  · intro q hq; cases hq; rw [hn]; rfl
  · intro i hi _
    rw [hn] at hi; rw [hm]
    interval_cases i <;> norm_num
  · intro i hi h
    rw [hn] at hi; rw [hm]
    rcases (hsel i hi).mp h with rfl | rfl | rfl <;> norm_num

/-- C79: the six stars in pc and in N-body units. -/
example : ∃ (c0 c1 : Cluster) (o o' : MassOut) (x x' : Cluster × Mem), c1.units = some .nbody ∧
    massFunction demoG { sub := {}, nmass := 3 } demoStars none [] c0 = .ok (o, x) ∧
    massFunction demoG { sub := {}, nmass := 3 } demoStars none [] c1 = .ok (o', x') ∧ o'.fit.slope = o.fit.slope := by
  obtain ⟨c0, w, h0, p, l, hg, f, hm, hw, hu, hn, hs⟩ := demoMass_ok
  have he : demoStars.Ok {} c0.st.length := ⟨by rw [hn]; rfl, .inl rfl, .inl ⟨rfl, rfl⟩⟩
  obtain ⟨o, c2, mem', P, a1, a2, a3, -, -⟩ := C79_equal_numbers (a := { sub := {}, nmass := 3 }) (indx := none) (mem := []) p l hg f he
    (by intro q hq; cases hq) (by intro w hw; cases hw) (by intro w hw; cases hw)
    (by intro v hv; rw [hm] at hv; simp only [List.mem_cons, List.not_mem_nil, or_false] at hv; rcases hv with h | h | h | h | h | h <;> rw [h] <;> norm_num) rfl (by norm_num)
    (by rw [demo_num hn hs]; norm_num) (by
      intro i j hi hj _ _ hij
      rw [hn] at hi hj
      rw [hm] at hij
      interval_cases i <;> interval_cases j <;> simp at hij ⊢)
  obtain ⟨c1, h1, g1⟩ := toNbody_total (g := demoG) hu trivial p hg
  have us := toNbody_ustep p.nz hu trivial h1
  have p1 := p.of_rest us.rest
  have hn1 : c1.st.length = 6 := by
    rw [← world_length (us.world.trans hw), world_length hw, hn]
  have l1 : Lin c1 := ⟨⟨_, us.units, trivial⟩, by rw [us.origin]; exact l.2⟩
  have hs1 : ∀ i < 6, MassSelected {} demoStars none [] c1 i := by
    intro i hi
    refine ⟨(fun p hp => by cases hp), ?_, ?_, ?_, ?_, ?_, ?_⟩
    · exact ⟨(fun b hb => by cases hb), (fun b hb => by cases hb)⟩
    · exact ⟨(fun b hb => by cases hb), (fun b hb => by cases hb)⟩
    · exact ⟨(fun b hb => by cases hb), (fun b hb => by cases hb)⟩
    · exact ⟨(fun b hb => by cases hb), (fun b hb => by cases hb)⟩
    · intro p hp; cases hp
    · intro h; exact absurd rfl h
  obtain ⟨o', c2', m2', b1, -, b2, -⟩ := C79_units (a := { sub := {}, nmass := 3 }) (a' := { sub := {}, nmass := 3 }) (e' := demoStars) (indx' := none) (mem' := [])
    p l hg f p1 l1 g1 (toNbody_fresh f h1) hw (us.world.trans hw) hu rfl us.units rfl he (by intro q hq; cases hq)
    ⟨by rw [hn1]; rfl, .inl rfl, .inl ⟨rfl, rfl⟩⟩ (by intro q hq; cases hq) rfl rfl rfl (by intro w hw; cases hw)
    (by rw [demo_num hn hs]; norm_num) (by norm_num)
    ⟨0, 1, by rw [hn]; norm_num, by rw [hn]; norm_num, hs 0 (by norm_num), hs 1 (by norm_num), by rw [hm]; norm_num⟩
    (fun i hi => by rw [hn] at hi; exact ⟨fun _ => hs1 i hi, fun _ => hs i hi⟩) a1
  exact ⟨c0, c1, o, o', _, _, us.units, a1, b1, b2⟩

end

end CT
