/- Clusters made of galpy orbits (C116, C117). -/
import Verif.Spec.Galpydf
import Verif.Props.AstropyTable

namespace CT

noncomputable section

theorem galpyMasses_length {n : ℕ} {m : Option (Val ℝ)} (h : massFits m n) : (galpyMasses n m).length = n := by
  unfold galpyMasses
  cases m with
  | none => simp
  | some v =>
    cases v with
    | scalar a => simp
    | arr l => exact h l rfl

theorem galpyMasses_get {n : ℕ} {m : Option (Val ℝ)} {i : ℕ} (hi : i < n) : (galpyMasses n m)[i]! = massGiven m i := by
  unfold galpyMasses massGiven
  cases m with
  | none =>
    simp only [Option.elim_none]
    rw [getElem!_pos _ i (by simpa using hi), List.getElem_replicate]
  | some v =>
    cases v with
    | scalar a =>
      simp only [Option.elim_some, one_mul]
      rw [getElem!_pos _ i (by simpa using hi), List.getElem_replicate]
    | arr l => rfl

theorem galpyCols_len {K ro vo : ℝ} {u : Option Units} {o : GOrbits} {m : Option (Val ℝ)} (h : massFits m o.nat.length) :
    (galpyCols K ro vo u o m).Len o.nat.length := by
  refine ⟨?_, ?_, ?_, ?_, ?_, ?_, ?_, ?_⟩
  · simp [galpyCols, GOrbits.at]
  · simp [galpyCols, GOrbits.at]
  · simp [galpyCols, GOrbits.at]
  · simp [galpyCols, GOrbits.at]
  · simp [galpyCols, GOrbits.at]
  · simp [galpyCols, GOrbits.at]
  · intro l hl
    cases hl
    rw [List.length_map]
    exact galpyMasses_length h
  · intro l hl
    cases hl
    simp

theorem settleGalpy_ok {g : Galpy} {fc : Cluster → Except Err Cluster} (hfc : CentreFinder g fc) {kw : Kw} {c : Cluster}
    {o : Option Origin} (p : Pos g c) (l : Lin c) (hg : Good c) (fr : Fresh c) (ho : c.origin = o) :
    ∃ c', settleGalpy g fc kw o none c = .ok c' ∧ c'.units = c.units ∧ c'.origin = c.origin ∧ c'.m = c.m ∧ c'.st = c.st ∧
      c'.tphys = c.tphys := by
  by_cases h1 : o = some .galaxy
  · obtain ⟨c', f', h, s⟩ := settle_ok hfc (kw := kw) (adv := false) (f := none) (t := 0) (q := ⟨0, 0, 0, 0, 0, 0⟩) p l hg fr ho
      (by intro L h; cases h)
    unfold settle placeGalaxy at h
    rw [if_pos h1] at h
    simp only [Option.isNone_none, if_true, bind, Except.bind, pure, Except.pure] at h
    refine ⟨c', ?_, s.units, s.origin, s.m, s.st, ?_⟩
    · unfold settleGalpy
      rw [if_pos h1]
      simp only [Option.isNone_none, if_true, bind, Except.bind]
      cases hf : fc c with
      | error e => rw [hf] at h; simp at h
      | ok c1 =>
        rw [hf] at h
        simp only at h ⊢
        cases hq : settleGalaxy g fc kw c1 with
        | error e => rw [hq] at h; simp at h
        | ok c2 =>
          rw [hq] at h
          simp only [Except.ok.injEq, Prod.mk.injEq] at h
          rw [h.1]
    · rw [s.tphys]; simp
  · obtain ⟨c1, e1, same, -⟩ := hfc c p l hg fr
    obtain ⟨k1, k2, k3, k4, k5, k6, g1, fr1⟩ := same
    have ho2 : o = some .cluster ∨ o = some .centre := by
      obtain ⟨o', ho', hl⟩ := l.origin
      rw [ho] at ho'
      subst ho'
      cases o' <;> simp_all [Origin.linear]
    obtain ⟨b, hb, f1, f2, f3, f4, f5⟩ : ∃ b, analyzeKw kw c1 = .ok b ∧ b.units = c1.units ∧ b.origin = c1.origin ∧ b.m = c1.m ∧ b.st = c1.st ∧
        b.tphys = c1.tphys := by
      unfold analyzeKw
      split
      · obtain ⟨b, hb, -⟩ := analyze_total (s := kw.sort.getD true) (p := true) g1
        have := core_fields (analyze_core hb)
        exact ⟨b, hb, this.1, this.2.1, this.2.2.2.1, this.2.2.2.2.1, this.2.2.1⟩
      · exact ⟨_, rfl, rfl, rfl, rfl, rfl, rfl⟩
    refine ⟨b, ?_, ?_⟩
    · unfold settleGalpy
      rw [if_neg h1, if_pos ho2]
      simp only [e1, hb, bind, Except.bind, Option.isSome_none, Bool.false_eq_true, if_false, pure, Except.pure]
    · exact ⟨by rw [f1]; assumption, by rw [f2]; assumption, by rw [f3]; assumption, by rw [f4]; assumption, by rw [f5]; assumption⟩

/-- What `load_cluster('galpy', …)` gives: star `i` has the coordinates of orbit `i` in kpc and km/s for the `ro` and `vo` passed,
the mass given for it, divided by galpy's unit of mass in galpy units, and id `i + 1`. -/
theorem loadGalpy_run {g : Galpy} {fc : Cluster → Except Err Cluster} {K ro vo : ℝ} {o : GOrbits} {m : Option (Val ℝ)} {u : Units} {f : Origin}
    {kw : Kw} (hg : g.Positive) (hfc : CentreFinder g fc) (hn : 1 ≤ o.nat.length) (hu : u.linear) (hf : f.linear)
    (hm : massFits m o.nat.length) (hm0 : 0 ≤ (galpyMasses o.nat.length m).sum) (hK : 0 ≤ galpyMo K ro vo (some u)) (ht : kw.tphys = none) :
    ∃ r, loadGalpy g fc K ro vo o m (some u) (some f) none kw = .ok r ∧ HasCols o.nat.length (galpyCols K ro vo (some u) o m) r ∧
      r.base.units = some u ∧ r.base.origin = some f ∧ r.base.tphys = 0 := by
  obtain ⟨T, h1, h2, h3, h4, h5, h6, -, -, h7, h8⟩ := addTable (galpyCols_len (K := K) (ro := ro) (vo := vo) (u := some u) hm) hn (some u) (some f) kw
  have hx : ¬((some u : Option Units) = some .radec ∧ (some f : Option Origin) = some .sky) := by
    rintro ⟨e, -⟩
    cases e
    exact hu
  have hgood : Good T.base := by
    apply h7
    intro l hl
    cases hl
    have e : ((galpyMasses o.nat.length m).map (· / galpyMo K ro vo (some u))).sum = (galpyMasses o.nat.length m).sum / galpyMo K ro vo (some u) := by
      simp only [div_eq_mul_inv]
      rw [List.sum_map_mul_right, List.map_id']
    rw [e]
    exact div_nonneg hm0 hK
  obtain ⟨b, h9, s1, s2, s3, s4, s5⟩ := settleGalpy_ok hfc (kw := kw) (o := some f)
    ((hg.pos (some u) (some f) (bunitsOfUnits (some u)) 0).of_rest (h5 hx)) ⟨⟨u, h2, hu⟩, f, h3, hf⟩ hgood h6 h3
  refine ⟨_, ?_, h8 b none s4 s3, s1.trans h2, s2.trans h3, s5.trans h4⟩
  unfold loadGalpy
  rw [ht]
  simp only [h1, h9, bind, Except.bind, pure, Except.pure, Option.isSome_none, Bool.false_eq_true, if_false]

theorem galpyCols_star {K ro vo : ℝ} {u : Option Units} {o : GOrbits} {m : Option (Val ℝ)} {r : Run}
    (h : HasCols o.nat.length (galpyCols K ro vo u o m) r) : r.base.st = o.at ro vo := by
  apply List.ext_getElem
  · rw [h.st]; simp [GOrbits.at]
  · intro i h1 h2
    have hi : i < o.nat.length := by rw [← h.st]; exact h1
    have := h.star i hi
    rw [getElem!_pos _ i h1] at this
    rw [this]
    have hq : ∀ (F : Ph → ℝ), ((o.at ro vo).map F)[i]! = F (o.at ro vo)[i] := by
      intro F
      rw [getElem!_pos _ i (by simpa [GOrbits.at] using hi), List.getElem_map]
    simp only [galpyCols, hq]

theorem galpyCols_mass {K ro vo : ℝ} {u : Option Units} {o : GOrbits} {m : Option (Val ℝ)} {r : Run} {i : ℕ} (hm : massFits m o.nat.length)
    (h : HasCols o.nat.length (galpyCols K ro vo u o m) r) (hi : i < o.nat.length) :
    r.base.m[i]! = massGiven m i / galpyMo K ro vo u := by
  rw [h.mass i hi]
  have hl := galpyMasses_length hm
  simp only [galpyCols, Option.map_some, Option.getD_some]
  rw [getElem!_pos _ i (by simpa [hl] using hi), List.getElem_map, ← galpyMasses_get hi, getElem!_pos _ i (by rw [hl]; exact hi)]

theorem galpyCols_id {K ro vo : ℝ} {u : Option Units} {o : GOrbits} {m : Option (Val ℝ)} {r : Run} {i : ℕ}
    (h : HasCols o.nat.length (galpyCols K ro vo u o m) r) (hi : i < o.nat.length) : r.id[i]! = (i : ℤ) + 1 := by
  refine h.ids _ rfl i hi _ ?_
  rw [get!_range_map hi]
  push_cast
  rfl

/-- The masses that are not negative give a total that is not. -/
theorem galpyMasses_sum {n : ℕ} {m : Option (Val ℝ)} (hm : massFits m n) (h : ∀ i < n, 0 ≤ massGiven m i) : 0 ≤ (galpyMasses n m).sum := by
  apply List.sum_nonneg
  intro x hx
  obtain ⟨i, hi, rfl⟩ := List.getElem_of_mem hx
  have h2 : i < n := by rw [← galpyMasses_length hm]; exact hi
  have := h i h2
  rw [← galpyMasses_get h2, getElem!_pos _ i hi] at this
  exact this

/-- **C116.**  In `kpckms`, with the `ro` and `vo` of the orbits, a cluster of galpy orbits has one star per orbit, in order, which
is where the orbit is; its mass is the one given (1 if none), its id counts from 1; units and origin are those asked for. -/
theorem C116_orbits {g : Galpy} {fc : Cluster → Except Err Cluster} {K : ℝ} {o : GOrbits} {m : Option (Val ℝ)} {f : Origin}
    {kw : Kw} (hg : g.Positive) (hfc : CentreFinder g fc) (hn : 1 ≤ o.nat.length) (hf : f.linear)
    (hm : massFits m o.nat.length) (hm0 : ∀ i < o.nat.length, 0 ≤ massGiven m i) (ht : kw.tphys = none) :
    ∃ r P, loadGalpy g fc K o.ro o.vo o m (some .kpckms) (some f) none kw = .ok r ∧ phys g r.base = some P ∧
      P.stars = o.really ∧ P.mass = (List.range o.nat.length).map (massGiven m) ∧
      r.id = (List.range o.nat.length).map (fun i : ℕ => (i : ℤ) + 1) ∧ r.ntot = o.nat.length ∧
      r.base.units = some .kpckms ∧ r.base.origin = some f := by
  obtain ⟨r, h, k, e1, e2, -⟩ := loadGalpy_run (K := K) (ro := o.ro) (vo := o.vo) (u := .kpckms) hg hfc hn trivial hf hm (galpyMasses_sum hm hm0)
    (by unfold galpyMo; rw [if_neg (by simp)]; norm_num) ht
  have hph : phys g r.base = some
      { time := r.base.tphys * 1000, mass := r.base.m.map (· * 1), stars := r.base.st.map (Scale.ph ⟨1000, 1, 1, 1000⟩),
        centre := Scale.ph ⟨1000, 1, 1, 1000⟩ r.base.c, gc := Scale.ph ⟨1000, 1, 1, 1000⟩ r.base.gc } := by
    unfold phys
    rw [e1]
    rfl
  refine ⟨r, _, h, hph, ?_, ?_, ?_, k.ntot, e1, e2⟩
  · show r.base.st.map _ = _
    rw [galpyCols_star k]
    simp only [GOrbits.at, GOrbits.really, List.map_map]
    apply List.map_congr_left
    intro p _
    simp only [Function.comp, Scale.ph, Ph.mulPos, Ph.mulVel, mul_one]
  · show r.base.m.map _ = _
    apply List.ext_getElem
    · simp [k.m]
    · intro i h1 h2
      have hi : i < o.nat.length := by simpa using h2
      have := galpyCols_mass hm k hi
      rw [getElem!_pos _ i (by rw [k.m]; exact hi)] at this
      simp only [List.getElem_map, mul_one, List.getElem_range]
      rw [this]
      simp [galpyMo]
  · apply List.ext_getElem
    · simp [k.id]
    · intro i h1 h2
      have hi : i < o.nat.length := by simpa using h2
      have := galpyCols_id k hi
      rw [getElem!_pos _ i h1] at this
      simp only [List.getElem_map, List.getElem_range]
      exact this

/-! ### what goes wrong -/

/-- **C117 (violated: pc).**  In `pckms` the numbers are still kpc: every star is a thousand times too close to the origin. -/
theorem C117_pckms_violated {g : Galpy} {fc : Cluster → Except Err Cluster} {K : ℝ} {o : GOrbits} {m : Option (Val ℝ)} {f : Origin}
    {kw : Kw} (hg : g.Positive) (hfc : CentreFinder g fc) (hn : 1 ≤ o.nat.length) (hf : f.linear)
    (hm : massFits m o.nat.length) (hm0 : ∀ i < o.nat.length, 0 ≤ massGiven m i) (ht : kw.tphys = none) :
    ∃ r P, loadGalpy g fc K o.ro o.vo o m (some .pckms) (some f) none kw = .ok r ∧ phys g r.base = some P ∧
      P.stars = o.really.map (fun p => ⟨p.x / 1000, p.y / 1000, p.z / 1000, p.vx, p.vy, p.vz⟩) := by
  obtain ⟨r, h, k, e1, e2, -⟩ := loadGalpy_run (K := K) (ro := o.ro) (vo := o.vo) (u := .pckms) hg hfc hn trivial hf hm (galpyMasses_sum hm hm0)
    (by unfold galpyMo; rw [if_neg (by simp)]; norm_num) ht
  have hph : phys g r.base = some
      { time := r.base.tphys * 1, mass := r.base.m.map (· * 1), stars := r.base.st.map (Scale.ph ⟨1, 1, 1, 1⟩),
        centre := Scale.ph ⟨1, 1, 1, 1⟩ r.base.c, gc := Scale.ph ⟨1, 1, 1, 1⟩ r.base.gc } := by
    unfold phys
    rw [e1]
    rfl
  refine ⟨r, _, h, hph, ?_⟩
  show r.base.st.map _ = _
  rw [galpyCols_star k]
  simp only [GOrbits.at, GOrbits.really, List.map_map]
  apply List.map_congr_left
  intro p _
  simp [Function.comp, Scale.ph, Ph.mulPos, Ph.mulVel]

/-- **C117 (violated: scales of the orbits).**  The scales the orbits were made with are ignored: with any other `ro` (the default is
8.275) an orbit with `x` different from zero is put in the wrong place. -/
theorem C117_scales_violated {g : Galpy} {fc : Cluster → Except Err Cluster} {K ro vo : ℝ} {o : GOrbits} {m : Option (Val ℝ)} {f : Origin}
    {kw : Kw} (hg : g.Positive) (hfc : CentreFinder g fc) (hf : f.linear)
    (hm : massFits m o.nat.length) (hm0 : ∀ i < o.nat.length, 0 ≤ massGiven m i) (ht : kw.tphys = none) (hro : ro ≠ o.ro)
    (hx : ∃ p ∈ o.nat, p.x ≠ 0) :
    ∃ r P, loadGalpy g fc K ro vo o m (some .kpckms) (some f) none kw = .ok r ∧ phys g r.base = some P ∧ P.stars ≠ o.really := by
  obtain ⟨p, hp, hpx⟩ := hx
  obtain ⟨r, h, k, e1, e2, -⟩ := loadGalpy_run (K := K) (ro := ro) (vo := vo) (u := .kpckms) hg hfc
    (List.length_pos_of_mem hp) trivial hf hm (galpyMasses_sum hm hm0) (by unfold galpyMo; rw [if_neg (by simp)]; norm_num) ht
  have hph : phys g r.base = some
      { time := r.base.tphys * 1000, mass := r.base.m.map (· * 1), stars := r.base.st.map (Scale.ph ⟨1000, 1, 1, 1000⟩),
        centre := Scale.ph ⟨1000, 1, 1, 1000⟩ r.base.c, gc := Scale.ph ⟨1000, 1, 1, 1000⟩ r.base.gc } := by
    unfold phys
    rw [e1]
    rfl
  refine ⟨r, _, h, hph, ?_⟩
  show r.base.st.map _ ≠ _
  rw [galpyCols_star k]
  simp only [GOrbits.at, GOrbits.really, List.map_map]
  intro e
  have := congrArg Ph.x (List.map_inj_left.mp e p hp)
  simp only [Function.comp, Scale.ph, Ph.mulPos, Ph.mulVel] at this
  exact hro (mul_left_cancel₀ hpx (by linarith))

/-- **C117 (violated: galpy units).**  In `galpy` units no choice of `ro` and `vo` works: if an orbit with `x` and `vx` different
from zero is where and as fast as it should be, then the masses are divided by galpy's unit of mass for `ro = vo = 1`, so a given
mass is right neither as a mass in solar masses nor as a mass in galpy units. -/
theorem C117_galpy_violated {g : Galpy} {fc : Cluster → Except Err Cluster} {K ro vo : ℝ} {o : GOrbits} {m : Option (Val ℝ)} {f : Origin}
    {kw : Kw} (hg : g.Positive) (hfc : CentreFinder g fc) (hf : f.linear) (hro : 0 < ro) (hK : 0 < K) (hM : g.massMsol = K * g.vo ^ 2 * g.ro)
    (hm : massFits m o.nat.length) (hm0 : ∀ i < o.nat.length, 0 < massGiven m i) (ht : kw.tphys = none) (ho : o.ro = g.ro) (hv : o.vo = g.vo)
    (hx : ∃ p ∈ o.nat, p.x ≠ 0 ∧ p.vx ≠ 0) (h1 : K ≠ 1) (h2 : g.vo ^ 2 * g.ro ≠ 1) :
    ∃ r P, loadGalpy g fc K ro vo o m (some .galpy) (some f) none kw = .ok r ∧ phys g r.base = some P ∧
      (P.stars = o.really → ∀ i < o.nat.length, P.mass[i]! ≠ massGiven m i ∧ P.mass[i]! ≠ massGiven m i * g.massMsol) := by
  obtain ⟨p, hp, hpx, hpv⟩ := hx
  have hq : galpyMo K ro vo (some .galpy) = K * vo ^ 2 * ro := by unfold galpyMo; rw [if_pos rfl]
  obtain ⟨r, h, k, e1, e2, -⟩ := loadGalpy_run (K := K) (ro := ro) (vo := vo) (u := .galpy) hg hfc
    (List.length_pos_of_mem hp) trivial hf hm (galpyMasses_sum hm (fun i hi => (hm0 i hi).le))
    (by rw [hq]; positivity) ht
  have hph : phys g r.base = some
      { time := r.base.tphys * (1000 * g.timeGyr), mass := r.base.m.map (· * g.massMsol),
        stars := r.base.st.map (Scale.ph ⟨1000 * g.ro, g.vo, g.massMsol, 1000 * g.timeGyr⟩),
        centre := Scale.ph ⟨1000 * g.ro, g.vo, g.massMsol, 1000 * g.timeGyr⟩ r.base.c,
        gc := Scale.ph ⟨1000 * g.ro, g.vo, g.massMsol, 1000 * g.timeGyr⟩ r.base.gc } := by
    unfold phys
    rw [e1]
    rfl
  refine ⟨r, _, h, hph, ?_⟩
  show r.base.st.map _ = _ → ∀ i < _, (r.base.m.map (· * g.massMsol))[i]! ≠ _ ∧ (r.base.m.map (· * g.massMsol))[i]! ≠ _
  rw [galpyCols_star k]
  simp only [GOrbits.at, GOrbits.really, List.map_map]
  intro e i hi
  have ex := congrArg Ph.x (List.map_inj_left.mp e p hp)
  have ev := congrArg Ph.vx (List.map_inj_left.mp e p hp)
  simp only [Function.comp, Scale.ph, Ph.mulPos, Ph.mulVel, ho, hv] at ex ev
  have r1 : ro = 1 := by
    have : p.x * (1000 * g.ro) ≠ 0 := mul_ne_zero hpx (by have := hg.ro; positivity)
    exact mul_left_cancel₀ this (by linarith)
  have v1 : vo = 1 := by
    have : p.vx * g.vo ≠ 0 := mul_ne_zero hpv hg.vo.ne'
    exact mul_left_cancel₀ this (by linarith)
  have em := galpyCols_mass hm k hi
  rw [hq, r1, v1] at em
  have hl : i < r.base.m.length := by rw [k.m]; exact hi
  rw [getElem!_pos _ i hl] at em
  rw [getElem!_pos _ i (by simpa using hl), List.getElem_map, em]
  have hp0 := hm0 i hi
  have hM0 := hg.mass
  constructor
  · intro e
    apply h2
    have : massGiven m i / (K * 1 ^ 2 * 1) * g.massMsol = massGiven m i * (g.vo ^ 2 * g.ro) := by
      rw [hM]
      field_simp
    rw [this] at e
    exact mul_left_cancel₀ hp0.ne' (e.trans (mul_one _).symm)
  · intro e
    apply h1
    have : massGiven m i / (K * 1 ^ 2 * 1) = massGiven m i := mul_right_cancel₀ hM0.ne' e
    have h3 : massGiven m i = massGiven m i * K := by
      have := (div_eq_iff (by positivity)).mp this
      linarith
    exact (mul_left_cancel₀ hp0.ne' ((mul_one _).trans h3)).symm

/-- **C117 (violated: orbit file).**  With an orbit file the call raises `NameError`, in every frame of the cluster. -/
theorem C117_ofile_violated {g : Galpy} {fc : Cluster → Except Err Cluster} {K ro vo : ℝ} {o : GOrbits} {m : Option (Val ℝ)} {u : Units} {f : Origin}
    {kw : Kw} {L : List Line} (hg : g.Positive) (hfc : CentreFinder g fc) (hn : 1 ≤ o.nat.length) (hu : u.linear) (hf : f.linear)
    (hm : massFits m o.nat.length) (hm0 : ∀ i < o.nat.length, 0 ≤ massGiven m i) (hK : 0 ≤ galpyMo K ro vo (some u)) (ht : kw.tphys = none) :
    loadGalpy g fc K ro vo o m (some u) (some f) (some L) kw = .error .nameError := by
  obtain ⟨r, h, -⟩ := loadGalpy_run (K := K) (ro := ro) (vo := vo) (m := m) (kw := kw) hg hfc hn hu hf hm (galpyMasses_sum hm hm0) hK ht
  unfold loadGalpy at h ⊢
  rw [ht] at h ⊢
  simp only [bind, Except.bind, pure, Except.pure, Option.isSome_none, Bool.false_eq_true, if_false] at h ⊢
  cases hT : addStars (galpyCols K ro vo (some u) o m).args 0 false true (blankTab (some u) (some f) 0) with
  | error e => rw [hT] at h; simp at h
  | ok T =>
    rw [hT] at h
    simp only at h ⊢
    unfold settleGalpy at h ⊢
    by_cases h1 : (some f : Option Origin) = some .galaxy
    · rw [if_pos h1]
      simp
    · have h2 : (some f : Option Origin) = some .cluster ∨ (some f : Option Origin) = some .centre := by
        cases f <;> simp_all [Origin.linear]
      rw [if_neg h1, if_pos h2] at h ⊢
      simp only [bind, Except.bind] at h ⊢
      cases hc : fc T.base with
      | error e => rw [hc] at h; simp at h
      | ok c1 =>
        rw [hc] at h
        simp only at h ⊢
        cases ha : analyzeKw kw c1 with
        | error e => rw [ha] at h; simp at h
        | ok c2 => simp; rfl

/-- **C117 (violated: age).**  With the keyword `tphys` the call raises `TypeError`. -/
theorem C117_tphys_violated {g : Galpy} {fc : Cluster → Except Err Cluster} {K ro vo : ℝ} {o : GOrbits} {m : Option (Val ℝ)} {u : Option Units}
    {f : Option Origin} {kw : Kw} {ofile : Option (List Line)} (ht : kw.tphys.isSome) :
    loadGalpy g fc K ro vo o m u f ofile kw = .error .typeError := by
  unfold loadGalpy
  rw [if_pos ht]
  rfl

/-! ### a concrete case -/

/-- Two orbits at 8 and 16 kpc. -/
def demoOrbits : GOrbits := ⟨[⟨1, 0, 0, 0, 1, 0⟩, ⟨2, 0, 0, 1 / 2, 0, 0⟩], 8, 220⟩

example : ∃ r P, loadGalpy demoG (findCentreDefault demoG) 232500 8 220 demoOrbits (some (.arr [1, 3])) (some .kpckms) (some .galaxy) none {} = .ok r ∧
    phys demoG r.base = some P ∧ P.stars = [⟨8000, 0, 0, 0, 220, 0⟩, ⟨16000, 0, 0, 110, 0, 0⟩] ∧ P.mass = [1, 3] := by
  obtain ⟨r, P, h, h2, h3, h4, -⟩ := C116_orbits (K := 232500) (o := demoOrbits) (m := some (.arr [1, 3])) (f := .galaxy) (kw := {})
    demoG_positive (findCentreDefault_ok _) (by simp [demoOrbits]) trivial (by intro l h; cases h; rfl)
    (by intro i hi; simp only [demoOrbits, List.length_cons, List.length_nil] at hi; interval_cases i <;> simp [massGiven]) rfl
  refine ⟨r, P, h, h2, ?_, ?_⟩
  · rw [h3]
    norm_num [GOrbits.really, demoOrbits]
  · rw [h4]
    norm_num [demoOrbits, massGiven, List.range_succ]

end

end CT
