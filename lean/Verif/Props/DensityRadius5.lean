/- C83-C85: concrete clusters that meet the hypotheses. -/
import Verif.Props.DensityRadius4

namespace CT

noncomputable section

set_option linter.unusedSimpArgs false

/-- Stars on the x axis at given distances (pc) from the centre. -/
def demoLine (m xs : List ℝ) : Cluster :=
  { demo with
    origin := some .centre
    m := m
    st := xs.map (fun x => ⟨x, 0, 0, 0, 0, 0⟩)
    rorder := none
    rproorder := none }

theorem demoLine_ok {m xs : List ℝ} (hl : m.length = xs.length) (hne : xs ≠ []) (hm : ∀ x ∈ m, 0 ≤ x) (hx : ∀ x ∈ xs, 0 ≤ x) :
    ∃ c0 w, analyze true (demoLine m xs) = .ok c0 ∧ Pos demoG c0 ∧ Lin c0 ∧ Good c0 ∧ Fresh c0 ∧ c0.m = m ∧ c0.st.length = xs.length ∧
      world demoG c0 = some w ∧ c0.units = some .pckms ∧ c0.origin = some .centre ∧ w.mass = m ∧ w.stars.length = xs.length ∧
      ∀ i < xs.length, w.rad false .centre i = xs[i]! := by
  have gd : Good (demoLine m xs) := ⟨by simpa [demoLine] using hne, by simp [demoLine, hl], by
      simp only [demoLine]; exact List.sum_nonneg hm,
    by intro o ho; simp [demoLine] at ho, by intro o ho; simp [demoLine] at ho⟩
  have pd : Pos demoG (demoLine m xs) := ⟨demo_pos.rbar, demo_pos.vbar, demo_pos.zmbar, demo_pos.tbar, demo_pos.ro, demo_pos.vo,
    demo_pos.time, demo_pos.mass, demo_pos.vel⟩
  obtain ⟨c0, h0, g0⟩ := analyze_total (s := true) (p := true) gd
  obtain ⟨k1, k2, k3, k4, k5, k6, k7, k8, k9, k10, k11, k12⟩ := core_fields (analyze_core h0)
  have l0 : Lin c0 := ⟨⟨.pckms, k1, trivial⟩, ⟨.centre, k2, trivial⟩⟩
  have p0 := pd.of_rest k12
  obtain ⟨w, hw⟩ := world_isSome (g := demoG) (c := demoLine m xs) (u := .pckms) (o := .centre) rfl trivial rfl
  have hw0 : world demoG c0 = some w := (world_core (analyze_core h0)).trans hw
  have hst : c0.st = xs.map (fun x => (⟨x, 0, 0, 0, 0, 0⟩ : Ph)) := k5
  have hn : c0.st.length = xs.length := by rw [hst]; simp
  refine ⟨c0, w, h0, p0, l0, g0, analyze_fresh h0, k4, hn, hw0, k1, k2, ?_, by rw [world_length hw0, hn], ?_⟩
  · rw [world_mass (s := ⟨1, 1, 1, 1⟩) hw0 k1 rfl, k4]; simp [demoLine]
  · intro i hi
    show w.radius .centre i = xs[i]!
    rw [World.radius_eq hw0 k1 k2 trivial rfl one_pos i (by rw [hn]; exact hi), List.getD_eq_getElem?_getD,
      List.getElem?_eq_getElem (by rw [List.length_map, hn]; exact hi), Option.getD_some, mul_one]
    simp only [hst, List.map_map, List.getElem_map, Function.comp, Ph.r]
    rw [getElem!_pos xs i hi, show xs[i] ^ 2 + (0 : ℝ) ^ 2 + 0 ^ 2 = xs[i] ^ 2 by ring, Real.sqrt_sq (hx _ (List.getElem_mem hi))]

/-- Star lists without stellar types. -/
def plainStars (n : ℕ) : PStars := ⟨List.replicate n 0, [], []⟩

theorem plain_typed (n i : ℕ) : Typed (plainStars n) i := fun h => absurd rfl h

theorem plain_lists (n : ℕ) : StarLists (plainStars n) n := ⟨by simp [plainStars], .inl rfl⟩

/-- The bins of a profile of stars given in order of distance. -/
theorem line_bins {w : World} {xs : List ℝ} {n k : ℕ} {P : List (ℝ × ℝ)} {rs ds : List ℝ} (hwl : w.stars.length = xs.length)
    (hr : ∀ i < xs.length, w.rad false .centre i = xs[i]!) (hs : xs.Pairwise (· ≤ ·))
    (h : ShellProfile w false .centre (plainStars n) k P rs ds) : P = rankBins xs k := by
  classical
  obtain ⟨X, z1, z2, rfl⟩ := h.ranks
  have hv : valuesOf w.stars.length (Typed (plainStars n)) (w.rad false .centre) = xs := by
    unfold valuesOf
    rw [List.filter_eq_self.mpr (fun i _ => by simpa using plain_typed n i), hwl]
    refine List.ext_getElem (by simp) fun i h1 h2 => ?_
    rw [List.getElem_map, List.getElem_range, hr i h2, getElem!_pos xs i h2]
  rw [hv] at z2
  rw [z2.eq_of_pairwise (fun a b _ _ h1 h2 => le_antisymm h1 h2) z1 hs]

theorem line_sum {w : World} {xs : List ℝ} {n k : ℕ} {P : List (ℝ × ℝ)} (f : ℕ → ℝ) (hwl : w.stars.length = xs.length)
    (hr : ∀ i < xs.length, w.rad false .centre i = xs[i]!) :
    sumOver w.stars.length (InShell w false .centre (plainStars n) P k) f =
      sumOver xs.length (fun i => InBin P k xs[i]!) f := by
  rw [hwl]
  refine sumOver_congr (fun i hi => ?_) (fun i hi _ => rfl)
  unfold InShell
  rw [hr i hi]
  exact ⟨fun h => h.2, fun h => ⟨plain_typed n i, h⟩⟩

/-- Density of one solar mass in a sphere of 1 pc. -/
def unitDens : ℝ := (4 / 3 * Real.pi)⁻¹

theorem unitDens_pos : 0 < unitDens := by unfold unitDens; have := Real.pi_pos; positivity

theorem dens_value {d v m : ℝ} (hv : v ≠ 0) (h : d * (4 / 3 * Real.pi * v) = m) : d = m / v * unitDens := by
  have := Real.pi_pos
  rw [← h]; unfold unitDens; field_simp

theorem two_get {l : List ℝ} (h : l.length = 2) : ∃ a b, l = [a, b] := by
  match l, h with
  | [x, y], _ => exact ⟨x, y, rfl⟩

theorem three_get {l : List ℝ} (h : l.length = 3) : ∃ a b c, l = [a, b, c] := by
  match l, h with
  | [x, y, z], _ => exact ⟨x, y, z, rfl⟩

/-- A profile of two bins: four stars at 1, 2, 3 and 4 pc. -/
theorem profile_two {w : World} {n : ℕ} {P : List (ℝ × ℝ)} {rs ds : List ℝ} (hwl : w.stars.length = 4) (hm : w.mass = [13, 13, 3.7, 3.7])
    (hr : ∀ i < 4, w.rad false .centre i = ([1, 2, 3, 4] : List ℝ)[i]!) (h : ShellProfile w false .centre (plainStars n) 2 P rs ds) :
    rs = [3 / 2, 7 / 2] ∧ ds = [unitDens, unitDens / 5] := by
  classical
  have hP : P = [(1, 3), (3, 4)] := by
    rw [line_bins (xs := [1, 2, 3, 4]) hwl hr (by norm_num [List.pairwise_cons]) h]
    unfold rankBins
    norm_num [List.range_succ]
  subst hP
  have hsum : ∀ k f, sumOver w.stars.length (InShell w false .centre (plainStars n) [(1, 3), (3, 4)] k) f =
      sumOver 4 (fun i => InBin [(1, 3), (3, 4)] k ([1, 2, 3, 4] : List ℝ)[i]!) f := fun k f => line_sum f hwl hr
  have b0 : ∀ v : ℝ, InBin [(1, 3), (3, 4)] 0 v ↔ 1 ≤ v ∧ v < 3 := by intro v; simp [InBin]
  have b1 : ∀ v : ℝ, InBin [(1, 3), (3, 4)] 1 v ↔ 3 ≤ v ∧ v ≤ 4 := by
    intro v; simp [InBin, le_iff_lt_or_eq]
  have s0 : ∀ f, sumOver w.stars.length (InShell w false .centre (plainStars n) [(1, 3), (3, 4)] 0) f = f 0 + f 1 := by
    intro f
    rw [hsum, sumOver_ite]
    simp only [b0, Finset.sum_range_succ, Finset.sum_range_zero]
    norm_num
  have s1 : ∀ f, sumOver w.stars.length (InShell w false .centre (plainStars n) [(1, 3), (3, 4)] 1) f = f 2 + f 3 := by
    intro f
    rw [hsum, sumOver_ite]
    simp only [b1, Finset.sum_range_succ, Finset.sum_range_zero]
    norm_num
  obtain ⟨rs0, rs1, rfl⟩ := two_get h.lenr
  obtain ⟨ds0, ds1, rfl⟩ := two_get h.lend
  obtain ⟨-, m0⟩ := h.mid 0 (by simp)
  obtain ⟨-, m1⟩ := h.mid 1 (by simp)
  obtain ⟨-, d0⟩ := h.dens 0 (by simp)
  obtain ⟨-, d1⟩ := h.dens 1 (by simp)
  rw [numOver_eq, s0, s0, hr 0 (by norm_num), hr 1 (by norm_num)] at m0
  rw [numOver_eq, s1, s1, hr 2 (by norm_num), hr 3 (by norm_num)] at m1
  rw [s0, hm] at d0
  rw [s1, hm] at d1
  simp [shellSize] at m0 m1 d0 d1
  have q0 := dens_value (d := ds0) (v := 26) (m := 26) (by norm_num) (by linarith)
  have q1 := dens_value (d := ds1) (v := 37) (m := 7.4) (by norm_num) (by linarith)
  have z0 : rs0 = 3 / 2 := by linarith
  have z1 : rs1 = 7 / 2 := by linarith
  rw [q0, q1, z0, z1]
  norm_num
  ring

/-- A profile of three bins that rises again. -/
theorem profile_three {w : World} {n : ℕ} {P : List (ℝ × ℝ)} {rs ds : List ℝ} (hwl : w.stars.length = 4) (hm : w.mass = [7, 1.9, 18.5, 18.5])
    (hr : ∀ i < 4, w.rad false .centre i = ([1, 2, 3, 4] : List ℝ)[i]!) (h : ShellProfile w false .centre (plainStars n) 3 P rs ds) :
    rs = [1, 2, 7 / 2] ∧ ds = [unitDens, unitDens / 10, unitDens] := by
  classical
  have hP : P = [(1, 2), (2, 3), (3, 4)] := by
    rw [line_bins (xs := [1, 2, 3, 4]) hwl hr (by norm_num [List.pairwise_cons]) h]
    unfold rankBins
    norm_num [List.range_succ]
  subst hP
  have hsum : ∀ k f, sumOver w.stars.length (InShell w false .centre (plainStars n) [(1, 2), (2, 3), (3, 4)] k) f =
      sumOver 4 (fun i => InBin [(1, 2), (2, 3), (3, 4)] k ([1, 2, 3, 4] : List ℝ)[i]!) f := fun k f => line_sum f hwl hr
  have b0 : ∀ v : ℝ, InBin [(1, 2), (2, 3), (3, 4)] 0 v ↔ 1 ≤ v ∧ v < 2 := by intro v; simp [InBin]
  have b1 : ∀ v : ℝ, InBin [(1, 2), (2, 3), (3, 4)] 1 v ↔ 2 ≤ v ∧ v < 3 := by intro v; simp [InBin]
  have b2 : ∀ v : ℝ, InBin [(1, 2), (2, 3), (3, 4)] 2 v ↔ 3 ≤ v ∧ v ≤ 4 := by
    intro v; simp [InBin, le_iff_lt_or_eq]
  have s0 : ∀ f, sumOver w.stars.length (InShell w false .centre (plainStars n) [(1, 2), (2, 3), (3, 4)] 0) f = f 0 := by
    intro f
    rw [hsum, sumOver_ite]
    simp only [b0, Finset.sum_range_succ, Finset.sum_range_zero]
    norm_num
  have s1 : ∀ f, sumOver w.stars.length (InShell w false .centre (plainStars n) [(1, 2), (2, 3), (3, 4)] 1) f = f 1 := by
    intro f
    rw [hsum, sumOver_ite]
    simp only [b1, Finset.sum_range_succ, Finset.sum_range_zero]
    norm_num
  have s2 : ∀ f, sumOver w.stars.length (InShell w false .centre (plainStars n) [(1, 2), (2, 3), (3, 4)] 2) f = f 2 + f 3 := by
    intro f
    rw [hsum, sumOver_ite]
    simp only [b2, Finset.sum_range_succ, Finset.sum_range_zero]
    norm_num
  obtain ⟨rs0, rs1, rs2, rfl⟩ := three_get h.lenr
  obtain ⟨ds0, ds1, ds2, rfl⟩ := three_get h.lend
  obtain ⟨-, m0⟩ := h.mid 0 (by simp)
  obtain ⟨-, m1⟩ := h.mid 1 (by simp)
  obtain ⟨-, m2⟩ := h.mid 2 (by simp)
  obtain ⟨-, d0⟩ := h.dens 0 (by simp)
  obtain ⟨-, d1⟩ := h.dens 1 (by simp)
  obtain ⟨-, d2⟩ := h.dens 2 (by simp)
  rw [numOver_eq, s0, s0, hr 0 (by norm_num)] at m0
  rw [numOver_eq, s1, s1, hr 1 (by norm_num)] at m1
  rw [numOver_eq, s2, s2, hr 2 (by norm_num), hr 3 (by norm_num)] at m2
  rw [s0, hm] at d0
  rw [s1, hm] at d1
  rw [s2, hm] at d2
  simp [shellSize] at m0 m1 m2 d0 d1 d2
  have q0 := dens_value (d := ds0) (v := 7) (m := 7) (by norm_num) (by linarith)
  have q1 := dens_value (d := ds1) (v := 19) (m := 1.9) (by norm_num) (by linarith)
  have q2 := dens_value (d := ds2) (v := 37) (m := 37) (by norm_num) (by linarith)
  have z0 : rs0 = 1 := by linarith
  have z1 : rs1 = 2 := by linarith
  have z2 : rs2 = 7 / 2 := by linarith
  rw [q0, q1, q2, z0, z1, z2]
  norm_num
  ring

theorem line_two {w : World} {n : ℕ} {xs : List ℝ} (hwl : w.stars.length = xs.length)
    (hr : ∀ i < xs.length, w.rad false .centre i = xs[i]!) (h2 : 2 ≤ xs.length) (h : xs[0]! ≠ xs[1]!) :
    TwoRadii w false .centre (plainStars n) :=
  ⟨0, 1, by omega, by omega, plain_typed _ _, plain_typed _ _, by rw [hr 0 (by omega), hr 1 (by omega)]; exact h⟩

/-- C83: the galaxy has half the density of the inner bin: the limiting radius is 2.75 pc. -/
example : ∃ c0 t c' D, rlimiting demoG (fun _ _ => D) {} 2 false (plainStars 4) c0 = .ok (t, c') ∧ c'.data = c0.data ∧ t = 11 / 4 := by
  obtain ⟨c0, w, h0, p, l, hg, f, e1, e2, hw, hu, ho, e3, e4, e5⟩ := demoLine_ok (m := [13, 13, 3.7, 3.7]) (xs := [1, 2, 3, 4]) rfl (by simp)
    (by norm_num) (by norm_num)
  have hwf : workFrame c0 = .centre := by simp [workFrame, ho]
  have hM : demoG.massMsol ≠ 0 := p.mass.ne'
  have hR : demoG.ro ≠ 0 := p.ro.ne'
  obtain ⟨D, hD⟩ : ∃ D : ℝ, D * demoG.massMsol / (1000 * demoG.ro) ^ 3 = unitDens / 2 :=
    ⟨unitDens / 2 * (1000 * demoG.ro) ^ 3 / demoG.massMsol, by field_simp⟩
  obtain ⟨P, rs, ds, a1, a2⟩ := C83_limiting (g := demoG) (dens := fun _ _ => D) (a := {}) (pr := false) (nrad := 2) (e := plainStars 4)
    (s := ⟨1, 1, 1, 1⟩) p l hg f hw hu rfl (by rw [e2]; exact plain_lists 4) (by norm_num)
    (by rw [hwf]; exact line_two (xs := [1, 2, 3, 4]) e4 e5 (by simp) (by norm_num))
  rw [hwf] at a1
  obtain ⟨rfl, rfl⟩ := profile_two e4 e3 e5 a1
  have hb : w.background demoG (fun _ _ => D) {} false [3 / 2, 7 / 2] = unitDens / 2 := by
    simp only [World.background, World.hostDensity, Bool.false_eq_true, if_false]
    exact hD
  rw [hb] at a2
  have hU := unitDens_pos
  obtain ⟨t, c', b1, b2, -, b3⟩ := a2 (fun h => by simp at h; linarith)
  refine ⟨c0, t, c', D, b1, b2, ?_⟩
  rcases b3 with ⟨b3, -⟩ | ⟨-, b3, -⟩ | ⟨-, -, k, b3, b4, b5, b6, b7, b8, b9⟩
  · simp at b3; linarith
  · simp at b3; linarith
  · simp only [List.length_cons, List.length_nil] at b4
    obtain rfl : k = 1 := by omega
    simp at b9
    have : (t - 3 / 2) * (4 / 5) * unitDens = 1 * unitDens := by linarith
    linarith [mul_right_cancel₀ hU.ne' this]

/-- C84: the same stars: the core radius is 19/6 pc.  C85: with the whole mass in one bin it fails. -/
example : ∃ c0 t c', rcoreDensity demoG (fun _ => .error .valueError) (plainStars 4) (1 / 2) false c0 = .ok (t, c') ∧ c'.data = c0.data ∧
    t = 19 / 6 ∧ rcoreDensity demoG (fun _ => .error .valueError) (plainStars 4) 1 false c0 = .error .indexError := by
  obtain ⟨c0, w, h0, p, l, hg, f, e1, e2, hw, hu, ho, e3, e4, e5⟩ := demoLine_ok (m := [13, 13, 3.7, 3.7]) (xs := [1, 2, 3, 4]) rfl (by simp)
    (by norm_num) (by norm_num)
  have ht : TwoRadii w false .centre (plainStars 4) := line_two (xs := [1, 2, 3, 4]) e4 e5 (by simp) (by norm_num)
  have hm : ∀ x ∈ c0.m, 0 ≤ x := by rw [e1]; norm_num
  obtain ⟨P, rs, ds, a1, a2⟩ := C84_core_radius (g := demoG) (find := fun _ => .error .valueError) (pr := false) (q := 1 / 2) (e := plainStars 4)
    (s := ⟨1, 1, 1, 1⟩) p l hg f hm hw hu rfl (by rw [e2]; exact plain_lists 4) (by norm_num) (by norm_num) ht (.inl ho)
  have hq : ⌈(1 : ℝ) / (1 / 2)⌉₊ = 2 := by norm_num
  rw [hq] at a1
  obtain ⟨rfl, rfl⟩ := profile_two e4 e3 e5 a1
  have hU := unitDens_pos
  have hcd : coreDensity false [unitDens, unitDens / 5] = unitDens / 3 := by simp [coreDensity]
  rw [hcd] at a2
  obtain ⟨t, c', b1, b2, -, k, b3, b4, b5, b6, b7, b8, b9⟩ := a2 (by
      intro j k hjk hk h
      simp only [List.length_cons, List.length_nil] at hk
      interval_cases k
      · obtain rfl : j = 0 := by omega
        exact h
      · simp; linarith)
    ⟨1, by simp, by simp; linarith⟩
  refine ⟨c0, t, c', b1, b2, ?_, C85_whole_violated (s := ⟨1, 1, 1, 1⟩) p l hg f hm hw hu rfl (by rw [e2]; exact plain_lists 4) ht (.inl ho)⟩
  simp only [List.length_cons, List.length_nil] at b4
  obtain rfl : k = 1 := by omega
  simp at b9
  have : (t - 3 / 2) * (4 / 5) * unitDens = 4 / 3 * unitDens := by linarith
  linarith [mul_right_cancel₀ hU.ne' this]

/-- C85: a profile that rises again: the density falls to a third of the central one within 2 pc, the answer is larger. -/
example : ∃ c0 t c', rcoreDensity demoG (fun _ => .error .valueError) (plainStars 4) (1 / 3) false c0 = .ok (t, c') ∧ 2 < t ∧
    ¬ IsFirstFall [1, 2, 7 / 2] [unitDens, unitDens / 10, unitDens] (unitDens / 3) t := by
  obtain ⟨c0, w, h0, p, l, hg, f, e1, e2, hw, hu, ho, e3, e4, e5⟩ := demoLine_ok (m := [7, 1.9, 18.5, 18.5]) (xs := [1, 2, 3, 4]) rfl (by simp)
    (by norm_num) (by norm_num)
  have ht : TwoRadii w false .centre (plainStars 4) := line_two (xs := [1, 2, 3, 4]) e4 e5 (by simp) (by norm_num)
  have hm : ∀ x ∈ c0.m, 0 ≤ x := by rw [e1]; norm_num
  obtain ⟨P, rs, ds, a1, -⟩ := C84_core_radius (g := demoG) (find := fun _ => .error .valueError) (pr := false) (q := 1 / 3) (e := plainStars 4)
    (s := ⟨1, 1, 1, 1⟩) p l hg f hm hw hu rfl (by rw [e2]; exact plain_lists 4) (by norm_num) (by norm_num) ht (.inl ho)
  have hq : ⌈(1 : ℝ) / (1 / 3)⌉₊ = 3 := by norm_num
  have a1' := a1
  rw [hq] at a1'
  obtain ⟨rfl, rfl⟩ := profile_three e4 e3 e5 a1'
  have hU := unitDens_pos
  have hcd : coreDensity false [unitDens, unitDens / 10, unitDens] = unitDens / 3 := by simp [coreDensity]
  obtain ⟨t, c', j, b1, b2, b3, b4, b5, b6, b7⟩ := C85_rising_violated (find := fun _ => .error .valueError) (s := ⟨1, 1, 1, 1⟩) (k := 1) (m := 2) p l hg f
    hm hw hu rfl (by rw [e2]; exact plain_lists 4) (by norm_num) (by norm_num) ht (.inl ho) a1 (by norm_num) (by simp)
    (by rw [hcd]; simp; linarith) (by rw [hcd]; simp; linarith)
  rw [hcd, mul_one] at b7
  rw [hcd] at b4
  rw [mul_one] at b6
  refine ⟨c0, t, c', b1, ?_, b7⟩
  interval_cases j
  · simp at b4; linarith
  · simpa using b6

end

end CT
