/- C93: the relation of dispersion and mass with an equipartition mass; C94: equipartition masses and `ckin`; C95: where `ckin` misleads. -/
import Verif.Props.Eta2
import Verif.Props.Relax
import Mathlib.Analysis.SpecialFunctions.Pow.Deriv
import Mathlib.Analysis.Calculus.Deriv.MeanValue

namespace CT

noncomputable section

set_option linter.unusedSimpArgs false

/-! ### C93 -/

theorem meqFunc_high {m meq σ0 : ℝ} (hq : 0 < meq) (h : meq ≤ m) :
    meqFunc m meq σ0 = σ0 * Real.exp (-0.5) * (m / meq) ^ (-0.5 : ℝ) := by
  unfold meqFunc
  split
  · have : m = meq := le_antisymm ‹_› h
    subst this
    rw [div_self hq.ne', Real.one_rpow, mul_one, mul_div_assoc, div_self hq.ne', mul_one]
  · rfl

/-- **C93 (value at zero).**  `σ(0) = σ0`. -/
theorem C93_zero {meq σ0 : ℝ} (hq : 0 ≤ meq) : meqFunc 0 meq σ0 = σ0 := by
  unfold meqFunc
  rw [if_pos hq]; simp

/-- **C93 (equipartition).**  Above the equipartition mass stars have equal kinetic energies: `m·σ(m)²` does not depend on the mass. -/
theorem C93_equipartition {m m' meq σ0 : ℝ} (hq : 0 < meq) (h : meq ≤ m) (h' : meq ≤ m') :
    m * meqFunc m meq σ0 ^ 2 = m' * meqFunc m' meq σ0 ^ 2 := by
  have key : ∀ x, meq ≤ x → x * meqFunc x meq σ0 ^ 2 = meq * (σ0 * Real.exp (-0.5)) ^ 2 := by
    intro x hx
    have hx0 : 0 < x := by linarith
    rw [meqFunc_high hq hx, mul_pow, ← Real.rpow_natCast, ← Real.rpow_natCast ((x / meq) ^ (-0.5 : ℝ)), ← Real.rpow_mul (by positivity)]
    norm_num
    rw [Real.rpow_neg_one]
    field_simp
  rw [key m h, key m' h']

/-- **C93 (smoothness).**  `σ` is differentiable at every mass, also at the equipartition mass, with
`σ'(m) = -σ(m) / (2·max(m, meq))`. -/
theorem C93_derivative {meq σ0 : ℝ} (hq : 0 < meq) (m : ℝ) :
    HasDerivAt (fun x => meqFunc x meq σ0) (-(meqFunc m meq σ0) / (2 * max m meq)) m := by
  have dlow : ∀ x, HasDerivAt (fun x => σ0 * Real.exp (-0.5 * x / meq)) (-(σ0 * Real.exp (-0.5 * x / meq)) / (2 * meq)) x := by
    intro x
    have h1 : HasDerivAt (fun x => -0.5 * x / meq) (-0.5 / meq) x := by
      have := ((hasDerivAt_id x).const_mul (-0.5 : ℝ)).div_const meq
      simpa using this
    have := (h1.exp).const_mul σ0
    have e : -(σ0 * Real.exp (-0.5 * x / meq)) / (2 * meq) = σ0 * (Real.exp (-0.5 * x / meq) * (-0.5 / meq)) := by
      field_simp; ring
    rw [e]; exact this
  have dhigh : ∀ x, 0 < x → HasDerivAt (fun x => σ0 * Real.exp (-0.5) * (x / meq) ^ (-0.5 : ℝ))
      (-(σ0 * Real.exp (-0.5) * (x / meq) ^ (-0.5 : ℝ)) / (2 * x)) x := by
    intro x hx
    have h1 : HasDerivAt (fun x => x / meq) (1 / meq) x := by simpa using (hasDerivAt_id x).div_const meq
    have := (h1.rpow_const (p := (-0.5 : ℝ)) (.inl (by positivity))).const_mul (σ0 * Real.exp (-0.5))
    have e : -(σ0 * Real.exp (-0.5) * (x / meq) ^ (-0.5 : ℝ)) / (2 * x) =
        σ0 * Real.exp (-0.5) * (1 / meq * -0.5 * (x / meq) ^ ((-0.5 : ℝ) - 1)) := by
      rw [Real.rpow_sub (by positivity), Real.rpow_one]
      field_simp; ring
    rw [e]; exact this
  rcases lt_trichotomy m meq with h | h | h
  · rw [max_eq_right h.le]
    have e : meqFunc m meq σ0 = σ0 * Real.exp (-0.5 * m / meq) := by unfold meqFunc; rw [if_pos h.le]
    rw [e]
    refine (dlow m).congr_of_eventuallyEq ?_
    filter_upwards [eventually_lt_nhds h] with x hx
    unfold meqFunc; rw [if_pos hx.le]
  · subst h
    rw [max_self, ← hasDerivWithinAt_univ, ← Set.Iic_union_Ici (a := m)]
    have e1 : meqFunc m m σ0 = σ0 * Real.exp (-0.5 * m / m) := by unfold meqFunc; rw [if_pos le_rfl]
    refine HasDerivWithinAt.union ?_ ?_
    · have := (dlow m).hasDerivWithinAt (s := Set.Iic m)
      rw [← e1] at this
      refine this.congr (fun x hx => ?_) e1
      unfold meqFunc; rw [if_pos (show x ≤ m from hx)]
    · have := (dhigh m hq).hasDerivWithinAt (s := Set.Ici m)
      rw [← meqFunc_high hq le_rfl] at this
      exact this.congr (fun x hx => meqFunc_high hq hx) (meqFunc_high hq le_rfl)
  · rw [max_eq_left h.le, meqFunc_high hq h.le]
    refine (dhigh m (hq.trans h)).congr_of_eventuallyEq ?_
    filter_upwards [eventually_gt_nhds h] with x hx
    exact meqFunc_high hq hx.le

/-- **C93 (positive and decreasing).**  For positive `σ0` the dispersion is positive and heavier stars are always slower. -/
theorem C93_decreasing {meq σ0 : ℝ} (hq : 0 < meq) (h0 : 0 < σ0) :
    (∀ m, 0 < meqFunc m meq σ0) ∧ StrictAnti (fun m => meqFunc m meq σ0) := by
  have hpos : ∀ m, 0 < meqFunc m meq σ0 := by
    intro m
    rcases le_total m meq with h | h
    · unfold meqFunc; rw [if_pos h]; positivity
    · rw [meqFunc_high hq h]
      have : 0 < m := by linarith
      positivity
  refine ⟨hpos, strictAnti_of_deriv_neg fun m => ?_⟩
  rw [(C93_derivative hq m).deriv, neg_div]
  have : 0 < max m meq := lt_max_of_lt_right hq
  have := hpos m
  exact neg_neg_of_pos (by positivity)

/-- **C93 (units).**  In other units of mass and velocity the relation is the same. -/
theorem C93_units {m meq σ0 s t : ℝ} (hs : 0 < s) : meqFunc (s * m) (s * meq) (t * σ0) = t * meqFunc m meq σ0 := by
  unfold meqFunc
  have e : s * m ≤ s * meq ↔ m ≤ meq := mul_le_mul_iff_right₀ hs
  have e1 : -0.5 * (s * m) / (s * meq) = -0.5 * m / meq := by
    rw [show -0.5 * (s * m) = s * (-0.5 * m) by ring, mul_div_mul_left _ _ hs.ne']
  rw [e1, mul_div_mul_left _ _ hs.ne']
  by_cases h : m ≤ meq
  · rw [if_pos h, if_pos (e.mpr h)]; ring
  · rw [if_neg h, if_neg (fun h' => h (e.mp h'))]; ring

example : meqFunc 2 1 3 = 3 * Real.exp (-0.5) * (2 / 1) ^ (-0.5 : ℝ) ∧ 2 * meqFunc 2 1 3 ^ 2 = 5 * meqFunc 5 1 3 ^ 2 :=
  ⟨meqFunc_high (by norm_num) (by norm_num), C93_equipartition (by norm_num) (by norm_num) (by norm_num)⟩

/-! ### C94 -/

theorem aminE_least {l : List ℝ} {x : ℝ} (h : aminE l = .ok x) : IsLeast {v | v ∈ l} x := by
  cases l with
  | nil => cases h
  | cons a l =>
    have := minOf_spec (l := a :: l) (by simp)
    injection h with h
    have e : minOf (a :: l) = x := by
      rw [← h]; simp [minOf]
    rw [e] at this
    exact ⟨this.1, fun v hv => this.2 v hv⟩

theorem amaxE_greatest {l : List ℝ} {x : ℝ} (h : amaxE l = .ok x) : IsGreatest {v | v ∈ l} x := by
  cases l with
  | nil => cases h
  | cons a l =>
    have := maxOf_spec (l := a :: l) (by simp)
    injection h with h
    have e : maxOf (a :: l) = x := by
      rw [← h]; simp [maxOf]
    rw [e] at this
    exact ⟨this.1, fun v hv => this.2 v hv⟩

/-- What `meq=True` returns. -/
theorem eta_meq {g : Galpy} {c : Cluster} (p : Pos g c) (l : Lin c) (hg : Good c) (f : Fresh c) {a : EtaArgs} {q : CurveFit} {e : PStars}
    {indx : Option ℕ} {mem : Mem} (he : e.Ok a.sub c.st.length) (hm : ∀ q, indx = some q → mem[q]!.length = c.st.length)
    (hn : 2 * a.nmass ≤ numOver c.st.length (MassSelected a.sub e indx mem c)) (h0 : 0 < a.nmass)
    (hd : ∃ i j, i < c.st.length ∧ j < c.st.length ∧ MassSelected a.sub e indx mem c i ∧ MassSelected a.sub e indx mem c j ∧ c.m[i]! ≠ c.m[j]!)
    {o : EtaOut} {c2 : Cluster} {mem' : Mem} (h : etaFunction g a (some q) e indx mem c = .ok (o, c2, mem')) :
    (∃ P lo hi, IsEtaFunction a e indx mem c P o ∧ IsLeast {v | v ∈ c.m} lo ∧ IsGreatest {v | v ∈ c.m} hi ∧
      q o.mean o.sig lo hi = .ok o.fit) ∧ c2.data = c.data ∧ Fresh c2 ∧ Good c2 ∧ c2.rest = c.rest := by
  obtain ⟨k, mem'', B, P, c3, lo, hi, hS, h3, hB, d2, f2, g2, r2, hlo, hhi, hrun⟩ := eta_run (q := some q) p l hg f he hm hn h0 hd
  rw [hrun] at h
  split at h
  · cases h
  · rename_i hl
    obtain ⟨fit, hfit, h⟩ := bind_ok h
    injection h with h
    cases h
    exact ⟨⟨P, lo, hi, eta_spec hB (not_not.mp hl) fit, aminE_least hlo, amaxE_greatest hhi, hfit⟩, d2, f2, g2, r2⟩

/-- Selections and bins depend on the rows and masses only. -/
theorem IsEtaFunction.congr {a : EtaArgs} {e : PStars} {indx : Option ℕ} {mem : Mem} {c c' : Cluster} (hs : c'.st = c.st) (hm : c'.m = c.m)
    {P : List (ℝ × ℝ)} {o : EtaOut} (h : IsEtaFunction a e indx mem c' P o) : IsEtaFunction a e indx mem c P o := by
  cases c; cases c'
  simp only at hs hm
  subst hs hm
  exact ⟨h.contig, h.count, h.ranks, h.lens, h.mean, h.sig⟩

theorem massSelected_congr {q : SubArgs} {e : PStars} {indx : Option ℕ} {mem : Mem} {c c' : Cluster} (hs : c'.st = c.st) (hm : c'.m = c.m) :
    MassSelected q e indx mem c' = MassSelected q e indx mem c := by
  funext i
  unfold MassSelected
  rw [hs, hm]

theorem massSelected_none {q : SubArgs} {e : PStars} {mem mem' : Mem} {c : Cluster} :
    MassSelected q e none mem c = MassSelected q e none mem' c := by
  funext i
  simp only [MassSelected, InMask]
  simp

theorem IsEtaFunction.memory {a : EtaArgs} {e : PStars} {mem mem' : Mem} {c : Cluster} {P : List (ℝ × ℝ)} {o : EtaOut}
    (h : IsEtaFunction a e none mem c P o) : IsEtaFunction a e none mem' c P o := by
  have e1 := massSelected_none (q := a.sub) (e := e) (mem := mem) (mem' := mem') (c := c)
  have e2 : InMassBin a.sub e none mem c P = InMassBin a.sub e none mem' c P := by
    funext k i; unfold InMassBin; rw [e1]
  obtain ⟨h1, h2, h3, h4, h5, h6⟩ := h
  rw [e1] at h1 h3
  rw [e2] at h5 h6
  exact ⟨h1, h2, h3, h4, h5, h6⟩

/-- **C94 (equipartition mass).**  Whatever `meq_function` returns for at least `2·nmass` selected stars of different masses: mean masses
and dispersions of equal-number bins, and the best fit of the relation of C93 found by scipy with an equipartition mass between the
smallest and the largest mass of the cluster.  The cluster is left as it was. -/
theorem C94_meq_function {g : Galpy} {c : Cluster} (p : Pos g c) (l : Lin c) (hg : Good c) (f : Fresh c) {a : EtaArgs} {q : CurveFit} {e : PStars}
    {indx : Option ℕ} {mem : Mem} (he : e.Ok a.sub c.st.length) (hm : ∀ q, indx = some q → mem[q]!.length = c.st.length)
    (hn : 2 * a.nmass ≤ numOver c.st.length (MassSelected a.sub e indx mem c)) (h0 : 0 < a.nmass)
    (hd : ∃ i j, i < c.st.length ∧ j < c.st.length ∧ MassSelected a.sub e indx mem c i ∧ MassSelected a.sub e indx mem c j ∧ c.m[i]! ≠ c.m[j]!)
    {o : EtaOut} {c2 : Cluster} {mem' : Mem} (h : meqFunction g a q e indx mem c = .ok (o, c2, mem')) :
    (∃ P lo hi, IsEtaFunction a e indx mem c P o ∧ IsLeast {v | v ∈ c.m} lo ∧ IsGreatest {v | v ∈ c.m} hi ∧
      q o.mean o.sig lo hi = .ok o.fit) ∧ c2.data = c.data ∧ Fresh c2 := by
  obtain ⟨c1, h1, s1, m1, g1, l1, f1, r1, w1, -, -⟩ := strip_amuse p l hg f
  have p1 := p.of_rest r1
  have sel := massSelected_congr (q := a.sub) (e := e) (indx := indx) (mem := mem) s1 m1
  unfold meqFunction at h
  simp only [bind] at h
  have rest : ((etaFunction g a (some q) e indx mem c1).bind fun r =>
      (returnCluster g (saveCluster c) false none r.2.1).bind fun c2 => pure (r.1, c2, r.2.2)) = .ok (o, c2, mem') := by
    split at h1
    · rename_i hu
      rw [if_pos hu, h1] at h
      exact h
    · rename_i hu
      rw [if_neg hu] at h
      injection h1 with h1
      rw [← h1]; exact h
  obtain ⟨⟨o', c3, mem3⟩, hr, rest⟩ := bind_ok rest
  obtain ⟨⟨P, lo, hi, q1, q2, q3, q4⟩, d3, f3, g3, r3⟩ := eta_meq p1 l1 g1 f1 (by rw [s1]; exact he) (by rw [s1]; exact hm)
    (by rw [s1, sel]; exact hn) h0 (by rw [s1, sel, m1]; exact hd) hr
  have hw3 : world g c3 = world g c := by
    rw [← w1]; exact world_of_data d3 r3
  have l3 : Lin c3 := ⟨by rw [show c3.units = c1.units from congrArg Data.units d3]; exact l1.1, by rw [show c3.origin = c1.origin from congrArg Data.origin d3]; exact l1.2⟩
  obtain ⟨c4, h4, d4, f4, -, -, -⟩ := return_of_world (sort := false) (cm := none) p l hg g3 l3 (r3.trans r1) hw3
  simp only [h4, Except.bind, pure, Except.pure] at rest
  injection rest with rest
  cases rest
  rw [m1] at q2 q3
  exact ⟨⟨P, lo, hi, q1.congr s1 m1, q2, q3, q4⟩, d4, f4⟩

theorem dist0_eq : dist0 false = Ph.r := by
  funext q; simp [dist0, Ph.r]

/-- Lagrange radii in the frame of the cluster itself. -/
theorem own_radius {g : Galpy} {c : Cluster} {w : World} {u : Units} {s : Scale} (p : Pos g c) (hw : world g c = some w)
    (hu : c.units = some u) (hs : unitScale g c u = some s) (ho : c.origin = some .cluster ∨ c.origin = some .centre) {φ x : ℝ}
    (h : IsMassRadius φ w.mass ((List.range c.st.length).map (w.radius (if c.origin = some .cluster then Origin.cluster else Origin.centre)))
      (x * s.len)) : IsMassRadius φ c.m (c.st.map (dist0 false)) x := by
  obtain ⟨s1, -, s2, -⟩ := unitScale_pos p hs
  have hR : (List.range c.st.length).map (w.radius (if c.origin = some .cluster then Origin.cluster else Origin.centre)) =
      (c.st.map (dist0 false)).map (· * s.len) := by
    rw [dist0_eq]
    refine List.ext_getElem (by simp) fun j j1 j2 => ?_
    have hj : j < c.st.length := by simpa using j1
    have key : ∀ o : Origin, c.origin = some o → o.linear → w.radius o j = (c.st.map Ph.r).getD j 0 * s.len :=
      fun o h1 h2 => World.radius_eq hw hu h1 h2 hs s1 j hj
    have e : w.radius (if c.origin = some .cluster then Origin.cluster else Origin.centre) j = (c.st.map Ph.r).getD j 0 * s.len := by
      rcases ho with ho | ho
      · rw [if_pos ho]; exact key _ ho trivial
      · rw [if_neg (by rw [ho]; simp)]; exact key _ ho trivial
    rw [List.getElem_map, List.getElem_range, e, List.getElem_map, List.getElem_map, List.getD_eq_getElem?_getD,
      List.getElem?_map, List.getElem?_eq_getElem hj]
    rfl
  rw [hR, world_mass hw hu hs] at h
  have := h.scale (inv_pos.mpr s1) (inv_pos.mpr s2)
  rw [List.map_map, List.map_map] at this
  have e1 : (fun x : ℝ => x * s.mass⁻¹) ∘ (fun x => x * s.mass) = id := by funext x; simp only [Function.comp, id]; field_simp
  have e2 : (fun x : ℝ => x * s.len⁻¹) ∘ (fun x => x * s.len) = id := by funext x; simp only [Function.comp, id]; field_simp
  rw [e1, e2, List.map_id, List.map_id] at this
  have e3 : x * s.len * s.len⁻¹ = x := by field_simp
  rwa [e3] at this

/-- The run of `ckin` up to the two fits. -/
theorem ckin_run {g : Galpy} {c : Cluster} {w : World} (p : Pos g c) (l : Lin c) (hg : Good c) (f : Fresh c) (hm0 : ∀ x ∈ c.m, 0 ≤ x)
    (hw : world g c = some w) (i : OrderInv w c) {u : Units} {s : Scale} (hu : c.units = some u) (hs : unitScale g c u = some s) {a : EtaArgs}
    (hpr : a.sub.projected = false) {q : CurveFit} {e : PStars} {indx : Option ℕ} {mem : Mem} :
    ∃ (c1 : Cluster) (rn : List ℝ), c1.st = c.st ∧ c1.m = c.m ∧ Pos g c1 ∧ Lin c1 ∧ Good c1 ∧ Fresh c1 ∧ c1.rest = c.rest ∧
      world g c1 = world g c ∧
      (∀ k < 9, IsMassRadius ((k + 1 : ℕ) / ((10 : ℕ) : ℝ)) w.mass ((List.range c.st.length).map
        (w.radius (if c.origin = some .cluster then Origin.cluster else Origin.centre))) (rn[k]! * s.len)) ∧
      ckin g a q e indx mem c = (etaFunction g (a.shell rn[3]! rn[5]!) (some q) e indx mem c1).bind fun half =>
        (etaFunction g (a.shell 0 rn[4]!) (some q) e indx half.2.2 half.2.1).bind fun inner =>
          (returnCluster g (saveCluster c) false none inner.2.1).bind fun c2 =>
            .ok (inner.1.fit.slope / half.1.fit.slope, c2, inner.2.2) := by
  obtain ⟨c1, h1, s1, m1, g1, l1, f1, r1, w1, u1, o1⟩ := strip_amuse p l hg f
  have i1 : OrderInv w c1 := by
    split at h1
    · have hl : (Op.toPckms true).linear := by simp [Op.linear, Op.unitTarget, Op.originTarget, Units.linear]
      exact (kept_orderInv g w).exec (op := .toPckms true) p l hl hw i h1
    · injection h1 with h1; rw [← h1]; exact i
  have p1 := p.of_rest r1
  obtain ⟨u', s', hu', hs', hlen⟩ : ∃ u' s', c1.units = some u' ∧ unitScale g c1 u' = some s' ∧ s'.len = s.len := by
    by_cases ha : c.units = some .amuse
    · rw [if_pos ha] at u1
      rw [hu] at ha; cases ha
      simp only [unitScale, Option.some.injEq] at hs
      exact ⟨.pckms, ⟨1, 1, 1, 1⟩, u1, rfl, by rw [← hs]⟩
    · rw [if_neg ha] at u1
      exact ⟨u, s, u1.trans hu, by rw [unitScale_of_rest r1]; exact hs, rfl⟩
  obtain ⟨rn, c2, e1, d2, f2, g2, r2, hl, -, hr, -⟩ := lagrange_full g c1 10 w u' s' (by norm_num) p1 l1 g1 f1 (by rw [m1]; exact hm0) (w1.trans hw) i1
    hu' hs'
  rw [s1, o1, hlen] at hr
  have hst : c2.st = c1.st := congrArg Data.st d2
  have hmm : c2.m = c1.m := congrArg Data.m d2
  have hu2 : c2.units = c1.units := congrArg Data.units d2
  have ho2 : c2.origin = c1.origin := congrArg Data.origin d2
  refine ⟨c2, rn, hst.trans s1, hmm.trans m1, p1.of_rest r2, ⟨by rw [hu2]; exact l1.1, by rw [ho2]; exact l1.2⟩, g2, f2, r2.trans r1,
    (world_of_data d2 r2).trans w1, ?_, ?_⟩
  · intro k hk
    rw [getElem!_pos rn k (by omega)]
    exact hr k (by omega) (by omega)
  have rest : ∀ x, x = c1 → ((rlagrange g 10 a.sub.projected x).bind fun L =>
      (etaFunction g { a with sub := { a.sub with rmin := some L.1[3]!, rmax := some L.1[5]! } } (some q) e indx mem L.2).bind fun half =>
        (etaFunction g { a with sub := { a.sub with rmin := some 0, rmax := some L.1[4]! } } (some q) e indx half.2.2 half.2.1).bind fun inner =>
          (returnCluster g (saveCluster c) false none inner.2.1).bind fun c2 =>
            (pure (inner.1.fit.slope / half.1.fit.slope, c2, inner.2.2) : Except Err _)) =
      (etaFunction g (a.shell rn[3]! rn[5]!) (some q) e indx mem c2).bind fun half =>
        (etaFunction g (a.shell 0 rn[4]!) (some q) e indx half.2.2 half.2.1).bind fun inner =>
          (returnCluster g (saveCluster c) false none inner.2.1).bind fun c2 =>
            .ok (inner.1.fit.slope / half.1.fit.slope, c2, inner.2.2) := by
    rintro x rfl
    rw [hpr, e1]
    rfl
  unfold ckin
  simp only [bind]
  split at h1
  · rename_i hu
    rw [if_pos hu, h1]
    exact rest c1 rfl
  · rename_i hu
    rw [if_neg hu]
    injection h1 with h1
    exact rest c h1

/-- The run of `ckin` for a cluster in its own frame. -/
theorem ckin_own {g : Galpy} {c : Cluster} {w : World} (p : Pos g c) (l : Lin c) (hg : Good c) (f : Fresh c) (hm0 : ∀ x ∈ c.m, 0 ≤ x)
    (hw : world g c = some w) (i : OrderInv w c) (ho : c.origin = some .cluster ∨ c.origin = some .centre) {a : EtaArgs}
    (hpr : a.sub.projected = false) {q : CurveFit} {e : PStars} {indx : Option ℕ} {mem : Mem} {ρ4 ρ5 ρ6 : ℝ}
    (h4 : IsMassRadius (4 / 10) c.m (c.st.map (dist0 false)) ρ4) (h5 : IsMassRadius (5 / 10) c.m (c.st.map (dist0 false)) ρ5)
    (h6 : IsMassRadius (6 / 10) c.m (c.st.map (dist0 false)) ρ6) :
    ∃ c1 : Cluster, c1.st = c.st ∧ c1.m = c.m ∧ Pos g c1 ∧ Lin c1 ∧ Good c1 ∧ Fresh c1 ∧ c1.rest = c.rest ∧ world g c1 = world g c ∧
      ckin g a q e indx mem c = (etaFunction g (a.shell ρ4 ρ6) (some q) e indx mem c1).bind fun half =>
        (etaFunction g (a.shell 0 ρ5) (some q) e indx half.2.2 half.2.1).bind fun inner =>
          (returnCluster g (saveCluster c) false none inner.2.1).bind fun c2 =>
            .ok (inner.1.fit.slope / half.1.fit.slope, c2, inner.2.2) := by
  obtain ⟨⟨u, hu, hul⟩, -⟩ := id l
  obtain ⟨s, hs⟩ : ∃ s, unitScale g c u = some s := by
    cases u <;> first | exact ⟨_, rfl⟩ | exact absurd hul (by simp [Units.linear])
  obtain ⟨c1, rn, s1, m1, p1, l1, g1, f1, r1, w1, hr, hrun⟩ := ckin_run (q := q) (e := e) (indx := indx) (mem := mem) p l hg f hm0 hw i hu hs hpr
  have own := fun k hk => own_radius p hw hu hs ho (hr k hk)
  have k3 : rn[3]! = ρ4 := IsMassRadius.unique ((show ((3 + 1 : ℕ) : ℝ) / ((10 : ℕ) : ℝ) = 4 / 10 by norm_num) ▸ own 3 (by norm_num)) h4
  have k4 : rn[4]! = ρ5 := IsMassRadius.unique ((show ((4 + 1 : ℕ) : ℝ) / ((10 : ℕ) : ℝ) = 5 / 10 by norm_num) ▸ own 4 (by norm_num)) h5
  have k5 : rn[5]! = ρ6 := IsMassRadius.unique ((show ((5 + 1 : ℕ) : ℝ) / ((10 : ℕ) : ℝ) = 6 / 10 by norm_num) ▸ own 5 (by norm_num)) h6
  rw [k3, k4, k5] at hrun
  exact ⟨c1, s1, m1, p1, l1, g1, f1, r1, w1, hrun⟩

/-- **C94 (kinematic concentration).**  For a cluster in its own frame, no mask and `projected=False`, whatever `ckin` returns is the
equipartition mass of the selected stars within the half-mass radius divided by that of the selected stars between the radii of 40% and 60%
of the mass, provided both regions hold at least `2·nmass` selected stars of different masses.  The cluster is left as it was. -/
theorem C94_ckin {g : Galpy} {c : Cluster} {w : World} (p : Pos g c) (l : Lin c) (hg : Good c) (f : Fresh c) (hm0 : ∀ x ∈ c.m, 0 ≤ x)
    (hw : world g c = some w) (i : OrderInv w c) (ho : c.origin = some .cluster ∨ c.origin = some .centre) {a : EtaArgs}
    (hpr : a.sub.projected = false) {q : CurveFit} {e : PStars} {mem : Mem} (he : ∀ r0 r1, e.Ok (a.shell r0 r1).sub c.st.length) {ρ4 ρ5 ρ6 : ℝ}
    (h4 : IsMassRadius (4 / 10) c.m (c.st.map (dist0 false)) ρ4) (h5 : IsMassRadius (5 / 10) c.m (c.st.map (dist0 false)) ρ5)
    (h6 : IsMassRadius (6 / 10) c.m (c.st.map (dist0 false)) ρ6) (h0 : 0 < a.nmass)
    (hn1 : 2 * a.nmass ≤ numOver c.st.length (MassSelected (a.shell ρ4 ρ6).sub e none mem c))
    (hd1 : ∃ i j, i < c.st.length ∧ j < c.st.length ∧ MassSelected (a.shell ρ4 ρ6).sub e none mem c i ∧
      MassSelected (a.shell ρ4 ρ6).sub e none mem c j ∧ c.m[i]! ≠ c.m[j]!)
    (hn2 : 2 * a.nmass ≤ numOver c.st.length (MassSelected (a.shell 0 ρ5).sub e none mem c))
    (hd2 : ∃ i j, i < c.st.length ∧ j < c.st.length ∧ MassSelected (a.shell 0 ρ5).sub e none mem c i ∧
      MassSelected (a.shell 0 ρ5).sub e none mem c j ∧ c.m[i]! ≠ c.m[j]!)
    {κ : ℝ} {c2 : Cluster} {mem' : Mem} (h : ckin g a q e none mem c = .ok (κ, c2, mem')) :
    (∃ P P' o o' lo hi, IsEtaFunction (a.shell 0 ρ5) e none mem c P o ∧ IsEtaFunction (a.shell ρ4 ρ6) e none mem c P' o' ∧
      IsLeast {v | v ∈ c.m} lo ∧ IsGreatest {v | v ∈ c.m} hi ∧ q o.mean o.sig lo hi = .ok o.fit ∧ q o'.mean o'.sig lo hi = .ok o'.fit ∧
      κ = o.fit.slope / o'.fit.slope) ∧ c2.data = c.data ∧ Fresh c2 := by
  obtain ⟨c1, s1, m1, p1, l1, g1, f1, r1, w1, hrun⟩ := ckin_own (q := q) (e := e) (indx := none) (mem := mem) p l hg f hm0 hw i ho hpr h4 h5 h6
  rw [hrun] at h
  obtain ⟨⟨oh, ch, mh⟩, hh, h⟩ := bind_ok h
  obtain ⟨⟨oi, ci, mi⟩, hi, h⟩ := bind_ok h
  obtain ⟨cr, hr, h⟩ := bind_ok h
  injection h with h
  cases h
  have sel := fun q mem => massSelected_congr (q := q) (e := e) (indx := none) (mem := mem) s1 m1
  obtain ⟨⟨P', lo, hi', b1, b2, b3, b4⟩, dh, fh, gh, rh⟩ := eta_meq (a := a.shell ρ4 ρ6) (e := e) (indx := none) (mem := mem) p1 l1 g1 f1 (by rw [s1]; exact he _ _) (by intro q hq; cases hq)
    (by rw [s1, sel]; exact hn1) h0 (by rw [s1, sel, m1]; exact hd1) hh
  have ph := p1.of_rest rh
  have lh : Lin ch := ⟨by rw [show ch.units = c1.units from congrArg Data.units dh]; exact l1.1, by rw [show ch.origin = c1.origin from congrArg Data.origin dh]; exact l1.2⟩
  have s2 : ch.st = c.st := (congrArg Data.st dh).trans s1
  have m2 : ch.m = c.m := (congrArg Data.m dh).trans m1
  have sel2 : ∀ q, MassSelected q e none mh ch = MassSelected q e none mem c := fun q =>
    (massSelected_congr s2 m2).trans massSelected_none
  obtain ⟨⟨P, lo2, hi2, z1, z2, z3, z4⟩, di, fi, gi, ri⟩ := eta_meq (a := a.shell 0 ρ5) (e := e) (indx := none) (mem := mh) ph lh gh fh (by rw [s2]; exact he _ _) (by intro q hq; cases hq)
    (by rw [s2, sel2]; exact hn2) h0 (by rw [s2, sel2, m2]; exact hd2) hi
  have hwi : world g ci = world g c := (world_of_data di ri).trans ((world_of_data dh rh).trans w1)
  have li : Lin ci := ⟨by rw [show ci.units = ch.units from congrArg Data.units di]; exact lh.1, by rw [show ci.origin = ch.origin from congrArg Data.origin di]; exact lh.2⟩
  obtain ⟨c4, k1, k2, k3, -⟩ := return_of_world (sort := false) (cm := none) p l hg gi li (ri.trans (rh.trans r1)) hwi
  rw [k1] at hr
  injection hr with hr
  subst hr
  rw [m1] at b2 b3
  rw [m2] at z2 z3
  have e1 := b2.unique z2
  have e2 := b3.unique z3
  subst e1 e2
  exact ⟨⟨P, P', oi, oh, lo, hi', (z1.congr s2 m2).memory, b1.congr s1 m1, b2, b3, z4, b4, rfl⟩, k2, k3⟩

/-! ### C95 -/

theorem ckin_few {g : Galpy} {c c1 : Cluster} (p : Pos g c) (l : Lin c) (hg : Good c) {a : EtaArgs} {q : CurveFit} {e : PStars} {mem : Mem}
    (he : ∀ r0 r1, e.Ok (a.shell r0 r1).sub c.st.length) {r4 r5 r6 : ℝ}
    (hn1 : numOver c.st.length (MassSelected (a.shell r4 r6).sub e none mem c) < 2 * a.nmass)
    (hn2 : numOver c.st.length (MassSelected (a.shell 0 r5).sub e none mem c) < 2 * a.nmass)
    (s1 : c1.st = c.st) (m1 : c1.m = c.m) (p1 : Pos g c1) (l1 : Lin c1) (g1 : Good c1) (f1 : Fresh c1) (r1 : c1.rest = c.rest)
    (w1 : world g c1 = world g c)
    (hrun : ckin g a q e none mem c = (etaFunction g (a.shell r4 r6) (some q) e none mem c1).bind fun half =>
        (etaFunction g (a.shell 0 r5) (some q) e none half.2.2 half.2.1).bind fun inner =>
          (returnCluster g (saveCluster c) false none inner.2.1).bind fun c2 =>
            .ok (inner.1.fit.slope / half.1.fit.slope, c2, inner.2.2)) : ∃ c2 mem', ckin g a q e none mem c = .ok (1, c2, mem') := by
  obtain ⟨c2, mem2, h2, d2, f2, g2, r2⟩ := eta_few (q := some q) (a := a.shell r4 r6) (e := e) (indx := none) (mem := mem) p1 l1 g1 f1
    (by rw [s1]; exact he _ _) (by intro q hq; cases hq) (by rw [s1, massSelected_congr s1 m1]; exact hn1)
  have s2 : c2.st = c.st := (congrArg Data.st d2).trans s1
  have m2 : c2.m = c.m := (congrArg Data.m d2).trans m1
  have l2 : Lin c2 := ⟨by rw [show c2.units = c1.units from congrArg Data.units d2]; exact l1.1, by rw [show c2.origin = c1.origin from congrArg Data.origin d2]; exact l1.2⟩
  obtain ⟨c3, mem3, h3, d3, f3, g3, r3⟩ := eta_few (q := some q) (a := a.shell 0 r5) (e := e) (indx := none) (mem := mem2) (p1.of_rest r2) l2 g2 f2
    (by rw [s2]; exact he _ _) (by intro q hq; cases hq) (by rw [s2, massSelected_congr s2 m2, massSelected_none (mem' := mem)]; exact hn2)
  have l3 : Lin c3 := ⟨by rw [show c3.units = c2.units from congrArg Data.units d3]; exact l2.1, by rw [show c3.origin = c2.origin from congrArg Data.origin d3]; exact l2.2⟩
  obtain ⟨c4, h4, -⟩ := return_of_world (sort := false) (cm := none) p l hg g3 l3 (r3.trans (r2.trans r1))
    ((world_of_data d3 r3).trans ((world_of_data d2 r2).trans w1))
  refine ⟨c4, mem3, ?_⟩
  rw [hrun, h2]
  simp only [Except.bind, h3, h4]
  simp only [EtaArgs.tooFew]
  norm_num

/-- **C95 (violated: too few stars).**  If both regions hold fewer than `2·nmass` selected stars, `ckin` answers `1`, a plausible value, and not
the `-1000` of `eta_function`. -/
theorem C95_too_few_violated {g : Galpy} {c : Cluster} {w : World} (p : Pos g c) (l : Lin c) (hg : Good c) (f : Fresh c) (hm0 : ∀ x ∈ c.m, 0 ≤ x)
    (hw : world g c = some w) (i : OrderInv w c) (ho : c.origin = some .cluster ∨ c.origin = some .centre) {a : EtaArgs}
    (hpr : a.sub.projected = false) {q : CurveFit} {e : PStars} {mem : Mem} (he : ∀ r0 r1, e.Ok (a.shell r0 r1).sub c.st.length) {ρ4 ρ5 ρ6 : ℝ}
    (h4 : IsMassRadius (4 / 10) c.m (c.st.map (dist0 false)) ρ4) (h5 : IsMassRadius (5 / 10) c.m (c.st.map (dist0 false)) ρ5)
    (h6 : IsMassRadius (6 / 10) c.m (c.st.map (dist0 false)) ρ6)
    (hn1 : numOver c.st.length (MassSelected (a.shell ρ4 ρ6).sub e none mem c) < 2 * a.nmass)
    (hn2 : numOver c.st.length (MassSelected (a.shell 0 ρ5).sub e none mem c) < 2 * a.nmass) :
    ∃ c2 mem', ckin g a q e none mem c = .ok (1, c2, mem') := by
  obtain ⟨c1, s1, m1, p1, l1, g1, f1, r1, w1, hrun⟩ := ckin_own (q := q) (e := e) (indx := none) (mem := mem) p l hg f hm0 hw i ho hpr h4 h5 h6
  exact ckin_few p l hg he hn1 hn2 s1 m1 p1 l1 g1 f1 r1 w1 hrun

/-- **C95 (violated: galactocentric frame).**  In the frame of the galaxy the Lagrange radii are distances from the centre of the cluster but
stars are selected by their distances from the centre of the galaxy: a cluster further from it than its own size always has `ckin = 1`,
whatever its stars do. -/
theorem C95_galaxy_violated {g : Galpy} {c : Cluster} {w : World} (p : Pos g c) (l : Lin c) (hg : Good c) (f : Fresh c) (hm0 : ∀ x ∈ c.m, 0 ≤ x)
    (hw : world g c = some w) (i : OrderInv w c) (ho : c.origin = some .galaxy) {a : EtaArgs}
    (hpr : a.sub.projected = false) {q : CurveFit} {e : PStars} {mem : Mem} (he : ∀ r0 r1, e.Ok (a.shell r0 r1).sub c.st.length) (h0 : 0 < a.nmass)
    (hfar : ∀ i < c.st.length, ∀ j < c.st.length, w.radius .centre i < w.radius .galaxy j) :
    ∃ c2 mem', ckin g a q e none mem c = .ok (1, c2, mem') := by
  classical
  obtain ⟨⟨u, hu, hul⟩, -⟩ := id l
  obtain ⟨s, hs⟩ : ∃ s, unitScale g c u = some s := by
    cases u <;> first | exact ⟨_, rfl⟩ | exact absurd hul (by simp [Units.linear])
  obtain ⟨c1, rn, s1, m1, p1, l1, g1, f1, r1, w1, hr, hrun⟩ := ckin_run (q := q) (e := e) (indx := none) (mem := mem) p l hg f hm0 hw i hu hs hpr
  have hs0 := (unitScale_pos p hs).1
  have hnone : ∀ r0 k, k < 9 → numOver c.st.length (MassSelected (a.shell r0 rn[k]!).sub e none mem c) < 2 * a.nmass := by
    intro r0 k hk
    have hz : numOver c.st.length (MassSelected (a.shell r0 rn[k]!).sub e none mem c) = 0 := by
      unfold numOver
      rw [Finset.card_eq_zero, Finset.filter_eq_empty_iff]
      intro j hj hsel
      have hj' := Finset.mem_range.mp hj
      obtain ⟨-, hp⟩ := hsel
      have hle : dist0 false c.st[j]! ≤ rn[k]! := by
        have := (hp.1.2) rn[k]! rfl
        simpa [View.rAt, rowsView, EtaArgs.shell, hpr, map_get!, hj'] using this
      have hmem := (hr k hk).1
      rw [if_neg (by rw [ho]; simp)] at hmem
      obtain ⟨i', hi', heq⟩ := List.mem_map.mp hmem
      have hlt := hfar i' (List.mem_range.mp hi') j hj'
      rw [heq, World.radius_eq hw hu ho trivial hs hs0 j hj', List.getD_eq_getElem?_getD, List.getElem?_map,
        List.getElem?_eq_getElem hj'] at hlt
      rw [dist0_eq, getElem!_pos c.st j hj'] at hle
      have := lt_of_mul_lt_mul_right hlt hs0.le
      simp only [Option.map_some, Option.getD_some] at this
      linarith
    omega
  exact ckin_few p l hg he (hnone _ 5 (by norm_num)) (hnone _ 4 (by norm_num)) s1 m1 p1 l1 g1 f1 r1 w1 hrun

/-- **C95 (violated: radial limits).**  `ckin` takes `rmin` and `rmax` and does not look at them. -/
theorem C95_radial_limits_violated (g : Galpy) (a : EtaArgs) (q : CurveFit) (e : PStars) (indx : Option ℕ) (mem : Mem) (c : Cluster) (r0 r1 : ℝ) :
    ckin g (a.shell r0 r1) q e indx mem c = ckin g a q e indx mem c := rfl

end

end CT
