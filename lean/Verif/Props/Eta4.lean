/- Concrete cases for C91-C95. -/
import Verif.Props.Eta3

namespace CT

noncomputable section

set_option linter.unusedSimpArgs false

/-- A cluster of given stars. -/
def demoOf (m : List ℝ) (st : List Ph) (o : Origin := .cluster) : Cluster :=
  { demo with m := m, st := st, origin := some o, rorder := none, rproorder := none }

theorem demoOf_ok {m : List ℝ} {st : List Ph} (o : Origin := .cluster) (hol : o.linear := by trivial) (hne : st ≠ []) (hl : m.length = st.length)
    (hm : 0 ≤ m.sum) : ∃ c0 w, analyze true (demoOf m st o) = .ok c0 ∧ Pos demoG c0 ∧ Lin c0 ∧ Good c0 ∧ Fresh c0 ∧ c0.m = m ∧ c0.st = st ∧
      world demoG c0 = some w ∧ OrderInv w c0 ∧ c0.units = some .pckms ∧ c0.origin = some o := by
  have gd : Good (demoOf m st o) := ⟨hne, hl, hm, by intro q ho; simp [demoOf] at ho, by intro q ho; simp [demoOf] at ho⟩
  have pd : Pos demoG (demoOf m st o) := ⟨demo_pos.rbar, demo_pos.vbar, demo_pos.zmbar, demo_pos.tbar, demo_pos.ro, demo_pos.vo,
    demo_pos.time, demo_pos.mass, demo_pos.vel⟩
  obtain ⟨c0, h0, g0⟩ := analyze_total (s := true) (p := true) gd
  obtain ⟨k1, k2, k3, k4, k5, k6, k7, k8, k9, k10, k11, k12⟩ := core_fields (analyze_core h0)
  have l0 : Lin c0 := ⟨⟨.pckms, k1, trivial⟩, ⟨o, k2, hol⟩⟩
  have ld : Lin (demoOf m st o) := ⟨⟨.pckms, rfl, trivial⟩, ⟨o, rfl, hol⟩⟩
  obtain ⟨w, hw⟩ := world_isSome (g := demoG) (c := demoOf m st o) (u := .pckms) (o := o) rfl trivial rfl
  have i0 : OrderInv w c0 := by
    have id0 : OrderInv w (demoOf m st o) := by intro q h; cases h
    exact (kept_orderInv demoG w).exec (op := .analyze true true) pd ld (by simp [Op.linear, Op.unitTarget, Op.originTarget]) hw id0 h0
  exact ⟨c0, w, h0, pd.of_rest k12, l0, g0, analyze_fresh h0, k4, k5, (world_core (analyze_core h0)).trans hw, i0, k1, k2⟩

/-- Without filters every star is selected. -/
theorem demo_all {c : Cluster} {mem : Mem} {e : PStars} (he : e.kw = []) (i : ℕ) : MassSelected {} e none mem c i := by
  refine ⟨(fun p hp => by cases hp), ?_, ?_, ?_, ?_, ?_, ?_⟩
  · exact ⟨(fun b hb => by cases hb), (fun b hb => by cases hb)⟩
  · exact ⟨(fun b hb => by cases hb), (fun b hb => by cases hb)⟩
  · exact ⟨(fun b hb => by cases hb), (fun b hb => by cases hb)⟩
  · exact ⟨(fun b hb => by cases hb), (fun b hb => by cases hb)⟩
  · intro p hp; cases hp
  · intro h; exact absurd he h

theorem demo_count {c : Cluster} {mem : Mem} {e : PStars} (he : e.kw = []) :
    numOver c.st.length (MassSelected {} e none mem c) = c.st.length := by
  classical
  unfold numOver
  rw [Finset.filter_true_of_mem fun i _ => demo_all he i, Finset.card_range]

/-- Six stars of masses 1 to 6 with speeds 1 to 6. -/
def etaStars : List Ph := [⟨1, 0, 0, 1, 0, 0⟩, ⟨2, 0, 0, 2, 0, 0⟩, ⟨4, 0, 0, 3, 0, 0⟩, ⟨8, 0, 0, 4, 0, 0⟩, ⟨16, 0, 0, 5, 0, 0⟩, ⟨32, 0, 0, 6, 0, 0⟩]

theorem etaStars_speed {i : ℕ} (hi : i < 6) : speed0 false etaStars[i]! = i + 1 := by
  interval_cases i <;> simp [etaStars, speed0] <;> norm_num

/-- C91: three bins of six stars. -/
example : ∃ (c0 : Cluster) (o : EtaOut) (x : Cluster × Mem) (P : List (ℝ × ℝ)),
    etaFunction demoG { sub := {}, nmass := 3 } none demoStars none [] c0 = .ok (o, x) ∧
    IsEtaFunction { sub := {}, nmass := 3 } demoStars none [] c0 P o ∧ IsLineFit (logPoints o.mean o.sig) o.fit := by
  obtain ⟨c0, w, h0, p, l, hg, f, hm, hs, hw, -, hu, ho⟩ := demoOf_ok .cluster trivial (m := [1, 2, 3, 4, 5, 6]) (st := etaStars) (by simp [etaStars]) rfl (by norm_num)
  have hn : c0.st.length = 6 := by rw [hs]; rfl
  have he : demoStars.Ok {} c0.st.length := ⟨by rw [hn]; rfl, .inl rfl, .inl ⟨rfl, rfl⟩⟩
  obtain ⟨o, c2, mem', P, a1, a2, a3, -⟩ := C91_equal_numbers (a := { sub := {}, nmass := 3 }) (indx := none) (mem := []) p l hg f he
    (by intro q hq; cases hq)
    (by intro v hv; rw [hm] at hv; simp only [List.mem_cons, List.not_mem_nil, or_false] at hv; rcases hv with h | h | h | h | h | h <;> rw [h] <;> norm_num)
    (by norm_num) (by rw [demo_count rfl, hn]; norm_num) (by
      intro i j hi hj _ _ hij
      rw [hn] at hi hj
      rw [hm] at hij
      interval_cases i <;> interval_cases j <;> simp at hij ⊢) (by
      intro i j hi hj _ _ hij
      rw [hn] at hi hj
      rw [hs, etaStars_speed hi, etaStars_speed hj] at hij
      have : (i : ℝ) = j := by linarith
      exact_mod_cast this)
  exact ⟨c0, o, _, P, a1, a2, a3⟩

/-- C91: seven stars would be needed for four bins, there are six. -/
example : ∃ (c0 : Cluster) (o : EtaOut) (x : Cluster × Mem),
    etaFunction demoG { sub := {}, nmass := 4 } none demoStars none [] c0 = .ok (o, x) ∧ o.fit.slope = -1000 := by
  obtain ⟨c0, w, h0, p, l, hg, f, hm, hs, hw, -, hu, ho⟩ := demoOf_ok .cluster trivial (m := [1, 2, 3, 4, 5, 6]) (st := etaStars) (by simp [etaStars]) rfl (by norm_num)
  have hn : c0.st.length = 6 := by rw [hs]; rfl
  have he : demoStars.Ok {} c0.st.length := ⟨by rw [hn]; rfl, .inl rfl, .inl ⟨rfl, rfl⟩⟩
  obtain ⟨o, c2, mem', a1, -, -, a2, -⟩ := C91_too_few (q := none) (a := { sub := {}, nmass := 4 }) (indx := none) (mem := []) p l hg f he
    (by intro q hq; cases hq) (by rw [demo_count rfl, hn]; norm_num)
  exact ⟨c0, o, _, a1, by rw [a2]⟩

/-- C91: the six stars in pc and in N-body units. -/
example : ∃ (c0 c1 : Cluster) (o o' : EtaOut) (x x' : Cluster × Mem), c1.units = some .nbody ∧
    etaFunction demoG { sub := {}, nmass := 3 } none demoStars none [] c0 = .ok (o, x) ∧
    etaFunction demoG { sub := {}, nmass := 3 } none demoStars none [] c1 = .ok (o', x') ∧ o'.fit.slope = o.fit.slope := by
  obtain ⟨c0, w, h0, p, l, hg, f, hm, hs, hw, -, hu, ho⟩ := demoOf_ok .cluster trivial (m := [1, 2, 3, 4, 5, 6]) (st := etaStars) (by simp [etaStars]) rfl (by norm_num)
  have hn : c0.st.length = 6 := by rw [hs]; rfl
  have he : demoStars.Ok {} c0.st.length := ⟨by rw [hn]; rfl, .inl rfl, .inl ⟨rfl, rfl⟩⟩
  obtain ⟨o, c2, mem', P, a1, a2, a3, -⟩ := C91_equal_numbers (a := { sub := {}, nmass := 3 }) (indx := none) (mem := []) p l hg f he
    (by intro q hq; cases hq)
    (by intro v hv; rw [hm] at hv; simp only [List.mem_cons, List.not_mem_nil, or_false] at hv; rcases hv with h | h | h | h | h | h <;> rw [h] <;> norm_num)
    (by norm_num) (by rw [demo_count rfl, hn]; norm_num) (by
      intro i j hi hj _ _ hij
      rw [hn] at hi hj
      rw [hm] at hij
      interval_cases i <;> interval_cases j <;> simp at hij ⊢) (by
      intro i j hi hj _ _ hij
      rw [hn] at hi hj
      rw [hs, etaStars_speed hi, etaStars_speed hj] at hij
      have : (i : ℝ) = j := by linarith
      exact_mod_cast this)
  obtain ⟨c1, h1, g1⟩ := toNbody_total (g := demoG) hu trivial p hg
  have us := toNbody_ustep p.nz hu trivial h1
  have p1 := p.of_rest us.rest
  have hn1 : c1.st.length = 6 := by
    rw [← world_length (us.world.trans hw), world_length hw, hn]
  have l1 : Lin c1 := ⟨⟨_, us.units, trivial⟩, by rw [us.origin]; exact l.2⟩
  obtain ⟨o', c2', m2', b1, b2, -⟩ := C91_units (a := { sub := {}, nmass := 3 }) (a' := { sub := {}, nmass := 3 }) (e' := demoStars) (indx' := none) (mem' := [])
    p l hg f p1 l1 g1 (toNbody_fresh f h1) us.phys hu rfl us.units rfl he (by intro q hq; cases hq)
    ⟨by rw [hn1]; rfl, .inl rfl, .inl ⟨rfl, rfl⟩⟩ (by intro q hq; cases hq) rfl rfl
    (by rw [demo_count rfl, hn]; norm_num) (by norm_num)
    ⟨0, 1, by rw [hn]; norm_num, by rw [hn]; norm_num, demo_all rfl 0, demo_all rfl 1, by rw [hm]; norm_num⟩
    (fun i hi => ⟨fun _ => demo_all rfl i, fun _ => demo_all rfl i⟩) a1
  exact ⟨c0, c1, o, o', _, _, us.units, a1, b1, b2⟩

/-- C92: six stars of one mass. -/
example : ∃ c0, etaFunction demoG { sub := {}, nmass := 3 } none demoStars none [] c0 = .error .valueError := by
  obtain ⟨c0, w, h0, p, l, hg, f, hm, hs, hw, -, hu, ho⟩ := demoOf_ok .cluster trivial (m := [2, 2, 2, 2, 2, 2]) (st := etaStars) (by simp [etaStars]) rfl (by norm_num)
  have hn : c0.st.length = 6 := by rw [hs]; rfl
  have he : demoStars.Ok {} c0.st.length := ⟨by rw [hn]; rfl, .inl rfl, .inl ⟨rfl, rfl⟩⟩
  exact ⟨c0, C92_equal_masses_violated (a := { sub := {}, nmass := 3 }) (μ := 2) p l hg f he (by intro q hq; cases hq) (by norm_num)
    (by rw [demo_count rfl, hn]; norm_num) (by intro i hi _; rw [hn] at hi; rw [hm]; interval_cases i <;> rfl)⟩

/-- C92: six stars of two masses in three bins. -/
example : ∃ c0, etaFunction demoG { sub := {}, nmass := 3 } none demoStars none [] c0 = .error .typeError := by
  classical
  obtain ⟨c0, w, h0, p, l, hg, f, hm, hs, hw, -, hu, ho⟩ := demoOf_ok .cluster trivial (m := [1, 1, 1, 2, 2, 2]) (st := etaStars) (by simp [etaStars]) rfl (by norm_num)
  have hn : c0.st.length = 6 := by rw [hs]; rfl
  have he : demoStars.Ok {} c0.st.length := ⟨by rw [hn]; rfl, .inl rfl, .inl ⟨rfl, rfl⟩⟩
  refine ⟨c0, C92_repeated_masses_violated (a := { sub := {}, nmass := 3 }) (M := {1, 2}) p l hg f he (by intro q hq; cases hq) (by norm_num)
    (by rw [demo_count rfl, hn]; norm_num) ⟨0, 3, by rw [hn]; norm_num, by rw [hn]; norm_num, demo_all rfl 0, demo_all rfl 3, by rw [hm]; norm_num⟩
    (by intro i hi _; rw [hn] at hi; rw [hm]; interval_cases i <;> simp) ?_⟩
  refine lt_of_le_of_lt (Finset.card_le_two) (by norm_num)

/-- C92: six stars of different masses flying apart with one speed in six directions. -/
example : ∃ c0, ∀ r, etaFunction demoG { sub := {}, nmass := 3 } none demoStars none [] c0 ≠ .ok r := by
  obtain ⟨c0, w, h0, p, l, hg, f, hm, hs, hw, -, hu, ho⟩ := demoOf_ok .cluster trivial (m := [1, 2, 3, 4, 5, 6])
    (st := [⟨1, 0, 0, 1, 0, 0⟩, ⟨-1, 0, 0, -1, 0, 0⟩, ⟨0, 1, 0, 0, 1, 0⟩, ⟨0, -1, 0, 0, -1, 0⟩, ⟨0, 0, 1, 0, 0, 1⟩, ⟨0, 0, -1, 0, 0, -1⟩]) (by simp) rfl (by norm_num)
  have hn : c0.st.length = 6 := by rw [hs]; rfl
  have he : demoStars.Ok {} c0.st.length := ⟨by rw [hn]; rfl, .inl rfl, .inl ⟨rfl, rfl⟩⟩
  exact ⟨c0, C92_same_speed_violated (a := { sub := {}, nmass := 3 }) (V := 1) p l hg f he (by intro q hq; cases hq) (by norm_num)
    (by rw [demo_count rfl, hn]; norm_num) ⟨0, 1, by rw [hn]; norm_num, by rw [hn]; norm_num, demo_all rfl 0, demo_all rfl 1, by rw [hm]; norm_num⟩
    (by intro i hi _; rw [hn] at hi; rw [hs]; interval_cases i <;> simp [speed0])⟩

/-- C92: two bins. -/
example : ∃ c0, ∀ r, etaFunction demoG { sub := {}, nmass := 2 } none demoStars none [] c0 ≠ .ok r := by
  obtain ⟨c0, w, h0, p, l, hg, f, hm, hs, hw, -, hu, ho⟩ := demoOf_ok .cluster trivial (m := [1, 2, 3, 4, 5, 6]) (st := etaStars) (by simp [etaStars]) rfl (by norm_num)
  have hn : c0.st.length = 6 := by rw [hs]; rfl
  have he : demoStars.Ok {} c0.st.length := ⟨by rw [hn]; rfl, .inl rfl, .inl ⟨rfl, rfl⟩⟩
  exact ⟨c0, C92_few_bins_violated (a := { sub := {}, nmass := 2 }) p l hg f he (by intro q hq; cases hq) (by norm_num) (by norm_num)
    (by rw [demo_count rfl, hn]; norm_num)
    ⟨0, 1, by rw [hn]; norm_num, by rw [hn]; norm_num, demo_all rfl 0, demo_all rfl 1, by rw [hm]; norm_num⟩⟩

/-- A stand-in for scipy's fit. -/
def demoFit : CurveFit := fun _ _ lo _ => .ok ⟨lo, 0, 1, 0⟩

/-- With distinct masses and a fit that always answers, `meq=True` succeeds. -/
theorem eta_meq_ok {g : Galpy} {c : Cluster} (p : Pos g c) (l : Lin c) (hg : Good c) (f : Fresh c) {a : EtaArgs} {q : CurveFit} {e : PStars}
    {mem : Mem} (he : e.Ok a.sub c.st.length) (hq : ∀ x y lo hi, ∃ t, q x y lo hi = .ok t)
    (hn : 2 * a.nmass ≤ numOver c.st.length (MassSelected a.sub e none mem c)) (h0 : 0 < a.nmass)
    (hd : ∀ i j, i < c.st.length → j < c.st.length → c.m[i]! = c.m[j]! → i = j) :
    ∃ o c2 mem', etaFunction g a (some q) e none mem c = .ok (o, c2, mem') ∧ c2.data = c.data ∧ Fresh c2 ∧ Good c2 ∧ c2.rest = c.rest := by
  classical
  have hd2 : ∃ i j, i < c.st.length ∧ j < c.st.length ∧ MassSelected a.sub e none mem c i ∧ MassSelected a.sub e none mem c j ∧ c.m[i]! ≠ c.m[j]! := by
    have h1 : 1 < numOver c.st.length (MassSelected a.sub e none mem c) := by omega
    unfold numOver at h1
    obtain ⟨i, hi, j, hj, hij⟩ := Finset.one_lt_card.mp h1
    simp only [Finset.mem_filter, Finset.mem_range] at hi hj
    exact ⟨i, j, hi.1, hj.1, hi.2, hj.2, fun h => hij (hd i j hi.1 hj.1 h)⟩
  obtain ⟨k, mem', B, P, c2, lo, hi, hS, hb, hB, d2, f2, g2, r2, -, -, hrun⟩ := eta_run (q := some q) p l hg f he
    (by intro q hq; cases hq) hn h0 hd2
  obtain ⟨hPl, -⟩ := eta_all_bins hg hS h0 hn (fun i j hi hj _ _ h => hd i j hi hj h) hb hB
  have hml : B.mid.length = a.nmass := by rw [hB.lenm, hPl]
  rw [if_neg (by simpa using hml)] at hrun
  obtain ⟨t, ht⟩ := hq B.mid (sigOf a c B) lo hi
  simp only [Option.elim, ht, Except.bind] at hrun
  exact ⟨_, c2, mem', hrun, d2, f2, g2, r2⟩

/-- C94: an equipartition mass of six stars. -/
example : ∃ (c0 : Cluster) (o : EtaOut) (x : Cluster × Mem), meqFunction demoG { sub := {}, nmass := 3 } demoFit demoStars none [] c0 = .ok (o, x) := by
  obtain ⟨c0, w, h0, p, l, hg, f, hm, hs, hw, -, hu, ho⟩ := demoOf_ok .cluster trivial (m := [1, 2, 3, 4, 5, 6]) (st := etaStars) (by simp [etaStars]) rfl (by norm_num)
  have hn : c0.st.length = 6 := by rw [hs]; rfl
  have he : demoStars.Ok {} c0.st.length := ⟨by rw [hn]; rfl, .inl rfl, .inl ⟨rfl, rfl⟩⟩
  have hmass : ∀ i j, i < c0.st.length → j < c0.st.length → c0.m[i]! = c0.m[j]! → i = j := by
    intro i j hi hj hij
    rw [hn] at hi hj
    rw [hm] at hij
    interval_cases i <;> interval_cases j <;> simp at hij ⊢
  obtain ⟨o, c2, mem', hrun, d2, f2, g2, r2⟩ := eta_meq_ok (q := demoFit) (a := { sub := {}, nmass := 3 }) (mem := []) p l hg f he (fun _ _ lo _ => ⟨⟨lo, 0, 1, 0⟩, rfl⟩)
    (by rw [demo_count rfl, hn]; norm_num) (by norm_num) hmass
  obtain ⟨c3, h3, -⟩ := return_of_world (sort := false) (cm := none) p l hg g2
    ⟨by rw [show c2.units = c0.units from congrArg Data.units d2]; exact l.1, by rw [show c2.origin = c0.origin from congrArg Data.origin d2]; exact l.2⟩
    r2 (world_of_data d2 r2)
  refine ⟨c0, o, (c3, mem'), ?_⟩
  unfold meqFunction
  simp only [hu, reduceCtorEq, if_false, bind, Except.bind]
  rw [if_neg (by simp), hrun]
  simp only [h3, pure, Except.pure]

theorem etaStars_radii : IsMassRadius (4 / 10) [1, 2, 3, 4, 5, 6] (etaStars.map (dist0 false)) 8 ∧
    IsMassRadius (5 / 10) [1, 2, 3, 4, 5, 6] (etaStars.map (dist0 false)) 16 ∧
    IsMassRadius (6 / 10) [1, 2, 3, 4, 5, 6] (etaStars.map (dist0 false)) 16 := by
  have e : etaStars.map (dist0 false) = [1, 2, 4, 8, 16, 32] := by
    simp [etaStars, dist0]
  rw [e]
  refine ⟨⟨by simp, ?_, ?_⟩, ⟨by simp, ?_, ?_⟩, ⟨by simp, ?_, ?_⟩⟩
  · norm_num [massWhere]
  · intro x hx hlt
    simp only [List.mem_cons, List.not_mem_nil, or_false] at hx
    rcases hx with rfl | rfl | rfl | rfl | rfl | rfl <;> first | (exfalso; norm_num at hlt; done) | norm_num [massWhere]
  · norm_num [massWhere]
  · intro x hx hlt
    simp only [List.mem_cons, List.not_mem_nil, or_false] at hx
    rcases hx with rfl | rfl | rfl | rfl | rfl | rfl <;> first | (exfalso; norm_num at hlt; done) | norm_num [massWhere]
  · norm_num [massWhere]
  · intro x hx hlt
    simp only [List.mem_cons, List.not_mem_nil, or_false] at hx
    rcases hx with rfl | rfl | rfl | rfl | rfl | rfl <;> first | (exfalso; norm_num at hlt; done) | norm_num [massWhere]

/-- Selection by distance. -/
theorem demo_shell {c : Cluster} {mem : Mem} {r0 r1 : ℝ} {k n : ℕ} {e : PStars} (he : e.kw = []) {i : ℕ} (hi : i < c.st.length) :
    MassSelected (EtaArgs.shell { sub := {}, nmass := n } r0 r1).sub e none mem c i ↔ r0 ≤ dist0 false c.st[i]! ∧ dist0 false c.st[i]! ≤ r1 := by
  have er : (rowsView c.st c.m e).rAt false i = dist0 false c.st[i]! := by
    simp only [View.rAt, rowsView, Bool.false_eq_true, if_false]
    rw [getElem!_pos _ i (by simpa using hi), getElem!_pos c.st i hi, List.getElem_map]
  constructor
  · intro h
    have := h.2.r
    simp only [EtaArgs.shell] at this
    rw [er] at this
    exact ⟨this.1 _ rfl, this.2 _ rfl⟩
  · intro h
    refine ⟨(fun p hp => by cases hp), ?_, ?_, ?_, ?_, ?_, ?_⟩
    · simp only [EtaArgs.shell]
      rw [er]
      exact ⟨fun b hb => by cases hb; exact h.1, fun b hb => by cases hb; exact h.2⟩
    · exact ⟨(fun b hb => by cases hb), (fun b hb => by cases hb)⟩
    · exact ⟨(fun b hb => by cases hb), (fun b hb => by cases hb)⟩
    · exact ⟨(fun b hb => by cases hb), (fun b hb => by cases hb)⟩
    · intro p hp; cases hp
    · intro h; exact absurd he h

theorem etaStars_dist {i : ℕ} (hi : i < 6) : dist0 false etaStars[i]! = 2 ^ i := by
  interval_cases i <;> simp [etaStars, dist0] <;> norm_num

/-- C94: `ckin` of six stars, with one bin in each of the two regions. -/
example : ∃ (c0 : Cluster) (κ : ℝ) (x : Cluster × Mem), ckin demoG { sub := {}, nmass := 1 } demoFit demoStars none [] c0 = .ok (κ, x) ∧
    ∃ P P' o o', IsEtaFunction (EtaArgs.shell { sub := {}, nmass := 1 } 0 16) demoStars none [] c0 P o ∧
      IsEtaFunction (EtaArgs.shell { sub := {}, nmass := 1 } 8 16) demoStars none [] c0 P' o' ∧ κ = o.fit.slope / o'.fit.slope := by
  classical
  obtain ⟨c0, w, h0, p, l, hg, f, hm, hs, hw, i0, hu, ho⟩ := demoOf_ok .cluster trivial (m := [1, 2, 3, 4, 5, 6]) (st := etaStars) (by simp [etaStars]) rfl (by norm_num)
  have hn : c0.st.length = 6 := by rw [hs]; rfl
  have he : ∀ r0 r1, demoStars.Ok (EtaArgs.shell { sub := {}, nmass := 1 } r0 r1).sub c0.st.length :=
    fun r0 r1 => ⟨by rw [hn]; rfl, .inl rfl, .inl ⟨rfl, rfl⟩⟩
  have hmass : ∀ i j, i < c0.st.length → j < c0.st.length → c0.m[i]! = c0.m[j]! → i = j := by
    intro i j hi hj hij
    rw [hn] at hi hj
    rw [hm] at hij
    interval_cases i <;> interval_cases j <;> simp at hij ⊢
  obtain ⟨q4, q5, q6⟩ := etaStars_radii
  have hpos : ∀ x ∈ c0.m, 0 ≤ x := by
    intro v hv; rw [hm] at hv; simp only [List.mem_cons, List.not_mem_nil, or_false] at hv
    rcases hv with h | h | h | h | h | h <;> rw [h] <;> norm_num
  have sel : ∀ (mem : Mem) r0 r1 i, i < 6 → (MassSelected (EtaArgs.shell { sub := {}, nmass := 1 } r0 r1).sub demoStars none mem c0 i ↔ r0 ≤ (2 : ℝ) ^ i ∧ (2 : ℝ) ^ i ≤ r1) := by
    intro mem r0 r1 i hi
    rw [demo_shell (k := 0) rfl (by omega), hs, etaStars_dist hi]
  have two : ∀ (mem : Mem) r0, r0 ≤ (8 : ℝ) → MassSelected (EtaArgs.shell { sub := {}, nmass := 1 } r0 16).sub demoStars none mem c0 3 ∧
      MassSelected (EtaArgs.shell { sub := {}, nmass := 1 } r0 16).sub demoStars none mem c0 4 := by
    intro mem r0 hr
    refine ⟨(sel mem _ _ 3 (by norm_num)).mpr ⟨?_, ?_⟩, (sel mem _ _ 4 (by norm_num)).mpr ⟨?_, ?_⟩⟩
    · norm_num; exact hr
    · norm_num
    · norm_num; linarith
    · norm_num
  have num : ∀ (mem : Mem) r0, r0 ≤ (8 : ℝ) → 2 * 1 ≤ numOver c0.st.length (MassSelected (EtaArgs.shell { sub := {}, nmass := 1 } r0 16).sub demoStars none mem c0) := by
    intro mem r0 hr
    obtain ⟨t3, t4⟩ := two mem r0 hr
    unfold numOver
    rw [mul_one, hn]
    refine Finset.one_lt_card.mpr ⟨3, Finset.mem_filter.mpr ⟨by simp, t3⟩, 4, Finset.mem_filter.mpr ⟨by simp, t4⟩, by norm_num⟩
  have diff : ∀ (mem : Mem) r0, r0 ≤ (8 : ℝ) → ∃ i j, i < c0.st.length ∧ j < c0.st.length ∧ MassSelected (EtaArgs.shell { sub := {}, nmass := 1 } r0 16).sub demoStars none mem c0 i ∧
      MassSelected (EtaArgs.shell { sub := {}, nmass := 1 } r0 16).sub demoStars none mem c0 j ∧ c0.m[i]! ≠ c0.m[j]! := by
    intro mem r0 hr
    obtain ⟨t3, t4⟩ := two mem r0 hr
    exact ⟨3, 4, by rw [hn]; norm_num, by rw [hn]; norm_num, t3, t4, by rw [hm]; norm_num⟩
  -- the run
  obtain ⟨c1, s1, m1, p1, l1, g1, f1, r1, w1, hrun⟩ := ckin_own (a := { sub := {}, nmass := 1 }) (q := demoFit) (e := demoStars) (indx := none) (mem := []) (ρ4 := 8) (ρ5 := 16) (ρ6 := 16)
    p l hg f hpos hw i0 (.inl ho) rfl (by rw [hm, hs]; exact q4) (by rw [hm, hs]; exact q5) (by rw [hm, hs]; exact q6)
  obtain ⟨o1, c2, mem2, hr1, d2, f2, g2, r2⟩ := eta_meq_ok (q := demoFit) (a := EtaArgs.shell { sub := {}, nmass := 1 } 8 16) (mem := []) p1 l1 g1 f1 (by rw [s1]; exact he _ _)
    (fun _ _ lo _ => ⟨⟨lo, 0, 1, 0⟩, rfl⟩) (by rw [s1, massSelected_congr s1 m1]; exact num [] 8 le_rfl) (by norm_num [EtaArgs.shell]) (by rw [s1, m1]; exact hmass)
  have s2 : c2.st = c0.st := (congrArg Data.st d2).trans s1
  have m2 : c2.m = c0.m := (congrArg Data.m d2).trans m1
  have l2 : Lin c2 := ⟨by rw [show c2.units = c1.units from congrArg Data.units d2]; exact l1.1, by rw [show c2.origin = c1.origin from congrArg Data.origin d2]; exact l1.2⟩
  obtain ⟨o2, c3, mem3, hr2, d3, f3, g3, r3⟩ := eta_meq_ok (q := demoFit) (a := EtaArgs.shell { sub := {}, nmass := 1 } 0 16) (mem := mem2) (p1.of_rest r2) l2 g2 f2 (by rw [s2]; exact he _ _)
    (fun _ _ lo _ => ⟨⟨lo, 0, 1, 0⟩, rfl⟩) (by rw [s2, massSelected_congr s2 m2]; exact num mem2 0 (by norm_num)) (by norm_num [EtaArgs.shell]) (by rw [s2, m2]; exact hmass)
  have l3 : Lin c3 := ⟨by rw [show c3.units = c2.units from congrArg Data.units d3]; exact l2.1, by rw [show c3.origin = c2.origin from congrArg Data.origin d3]; exact l2.2⟩
  obtain ⟨c4, h4, -⟩ := return_of_world (sort := false) (cm := none) p l hg g3 l3 (r3.trans (r2.trans r1))
    ((world_of_data d3 r3).trans ((world_of_data d2 r2).trans w1))
  rw [hr1] at hrun
  simp only [Except.bind, hr2, h4] at hrun
  obtain ⟨⟨P, P', o, o', lo, hi, b1, b2, -, -, -, -, b3⟩, -⟩ := C94_ckin (a := { sub := {}, nmass := 1 }) p l hg f hpos hw i0 (.inl ho) rfl he
    (by rw [hm, hs]; exact q4) (by rw [hm, hs]; exact q5) (by rw [hm, hs]; exact q6) (by norm_num) (num [] 8 le_rfl) (diff [] 8 le_rfl)
    (num [] 0 (by norm_num)) (diff [] 0 (by norm_num)) hrun
  exact ⟨c0, _, _, hrun, P, P', o, o', b1, b2, b3⟩

/-- C95: six stars are too few for ten bins. -/
example : ∃ (c0 : Cluster) (x : Cluster × Mem), ckin demoG { sub := {} } demoFit demoStars none [] c0 = .ok (1, x) := by
  classical
  obtain ⟨c0, w, h0, p, l, hg, f, hm, hs, hw, i0, hu, ho⟩ := demoOf_ok .cluster trivial (m := [1, 2, 3, 4, 5, 6]) (st := etaStars) (by simp [etaStars]) rfl (by norm_num)
  have hn : c0.st.length = 6 := by rw [hs]; rfl
  have hpos : ∀ x ∈ c0.m, 0 ≤ x := by
    intro v hv; rw [hm] at hv; simp only [List.mem_cons, List.not_mem_nil, or_false] at hv
    rcases hv with h | h | h | h | h | h <;> rw [h] <;> norm_num
  obtain ⟨q4, q5, q6⟩ := etaStars_radii
  have few : ∀ S : ℕ → Prop, numOver c0.st.length S < 2 * 10 := by
    intro S
    refine lt_of_le_of_lt (b := 6) ?_ (by norm_num)
    unfold numOver
    rw [hn]
    exact (Finset.card_filter_le _ _).trans (by simp)
  obtain ⟨c2, mem', h⟩ := C95_too_few_violated (a := { sub := {} }) (q := demoFit) (e := demoStars) (mem := []) p l hg f hpos hw i0 (.inl ho) rfl
    (fun r0 r1 => ⟨by rw [hn]; rfl, .inl rfl, .inl ⟨rfl, rfl⟩⟩)
    (by rw [hm, hs]; exact q4) (by rw [hm, hs]; exact q5) (by rw [hm, hs]; exact q6) (few _) (few _)
  exact ⟨c0, _, h⟩

/-- C95: two stars 3 pc from the centre of a cluster 8 kpc from the centre of the galaxy. -/
example : ∃ (c0 : Cluster) (x : Cluster × Mem), c0.origin = some .galaxy ∧
    ckin demoG { sub := {}, nmass := 1 } demoFit ⟨[1, 1], [], []⟩ none [] c0 = .ok (1, x) := by
  obtain ⟨c0, w, h0, p, l, hg, f, hm, hs, hw, i0, hu, ho⟩ := demoOf_ok .galaxy trivial (m := [1, 2]) (st := [⟨8004, 2, 23, 1, 220, 0⟩, ⟨7998, 2, 23, 0, 222, 0⟩])
    (by simp) rfl (by norm_num)
  have hn : c0.st.length = 2 := by rw [hs]; rfl
  obtain ⟨k1, k2, k3, k4, k5, k6, k7, k8, k9, k10, k11, k12⟩ := core_fields (analyze_core h0)
  have hw' := hw
  simp only [world, phys, hu, ho, unitScale, Option.some.injEq] at hw'
  have hc : c0.c = ⟨1, 2, 3, 0.5, 0, 0⟩ := by rw [k6]; rfl
  have hgc : c0.gc = ⟨8000, 0, 20, 0, 220, 0⟩ := by rw [k7]; rfl
  have r1 : ∀ i < 2, w.radius .centre i = 3 := by
    intro i hi
    rw [← hw']
    interval_cases i <;>
    · simp [World.radius, galRows, galactocentric, hs, hc, hgc, frameOffset, phAdd, Scale.ph]
      norm_num
      rw [show (9 : ℝ) = 3 ^ 2 by norm_num, Real.sqrt_sq (by norm_num)]
  have r2 : ∀ i < 2, 7000 < w.radius .galaxy i := by
    intro i hi
    rw [← hw']
    interval_cases i <;>
    · simp [World.radius, galRows, galactocentric, hs, hc, hgc, frameOffset, phAdd, Scale.ph]
      refine Real.lt_sqrt_of_sq_lt ?_
      norm_num
  obtain ⟨c2, mem', h⟩ := C95_galaxy_violated (a := { sub := {}, nmass := 1 }) (q := demoFit) (e := ⟨[1, 1], [], []⟩) (mem := []) p l hg f
    (by intro v hv; rw [hm] at hv; simp only [List.mem_cons, List.not_mem_nil, or_false] at hv; rcases hv with h | h <;> rw [h] <;> norm_num) hw i0 ho rfl
    (fun r0 r1 => ⟨by rw [hn]; rfl, .inl rfl, .inl ⟨rfl, rfl⟩⟩) (by norm_num)
    (by intro i hi j hj; rw [hn] at hi hj; rw [r1 i hi]; linarith [r2 j hj])
  exact ⟨c0, _, ho, h⟩

end

end CT
