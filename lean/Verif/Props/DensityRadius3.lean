/- C83-C85: the limiting radius and the core radius from the central density. -/
import Verif.Props.DensityRadius2
import Verif.Props.CoreRadius

namespace CT

noncomputable section

set_option linter.unusedSimpArgs false

/-! ### the radius of a mass fraction -/

/-- **C17 (mass fraction).**  `rlagrange(mfrac=f)` gives the radius enclosing the fraction `f` of the mass, about the cluster position or
centre, whatever the units and the origin, and leaves the cluster as it was. -/
theorem C17_mass_fraction {g : Galpy} {c : Cluster} {q : ℝ} {w : World} {u : Units} {s : Scale} (hq : q ≤ 1)
    (p : Pos g c) (l : Lin c) (hg : Good c) (f : Fresh c) (hm : ∀ x ∈ c.m, 0 ≤ x)
    (hw : world g c = some w) (i : OrderInv w c) (hu : c.units = some u) (hs : unitScale g c u = some s) :
    ∃ r c', rlagrangeFrac g q false c = .ok (r, c') ∧ c'.data = c.data ∧ Fresh c' ∧
      IsMassRadius q w.mass (w.radii (workFrame c) c.st.length) (r * s.len) := by
  obtain ⟨c1, c2, o2, s1, h1, h2, g2, w2, r2, f2, ft, l2, hro, hsorted, q1, q3, hlen1, hmass2, hm2, hR⟩ :=
    lagrange_start p l hg f hm hw i hu hs
  have hmne : c2.m ≠ [] := by
    intro h; have := g2.len; rw [h] at this
    exact g2.ne (List.length_eq_zero_iff.mp this.symm)
  obtain ⟨r, e, hr⟩ := massFracRadius_isMassRadius (f := q) (m := c2.m) hsorted (by simp [g2.len]) hmne hm2 hq
  obtain ⟨c3, h3, d3, f3, -⟩ := return_of_world (sort := false) (cm := none) p l hg g2 l2 r2 (w2.trans hw.symm)
  refine ⟨r, c3, ?_, d3, f3, ?_⟩
  · unfold rlagrangeFrac
    simp only [bind, pure, Except.pure]
    refine ite_bind_of' h1 (ite_bind_of' h2 ?_)
    simp only [Bool.false_eq_true, if_false, hro, Option.elim, Except.bind, f2, ft, e, h3]
  · show IsMassRadius q w.mass ((List.range c.st.length).map (w.radius (if c.origin = some .cluster then Origin.cluster
      else Origin.centre))) (r * s.len)
    rw [hR, hmass2, ← hlen1]
    exact hr.scale q1 q3

/-- C17 instance: half of the mass of the demo cluster. -/
example : ∃ c0 r c', analyze false demoNew = .ok c0 ∧ rlagrangeFrac demoG (1 / 2) false c0 = .ok (r, c') ∧ c'.data = c0.data := by
  have g : Good demoNew := ⟨demo_good.ne, demo_good.len, demo_good.mass, by simp [demoNew], by simp [demoNew]⟩
  obtain ⟨c0, h0, g0⟩ := analyze_total (s := false) (p := true) g
  obtain ⟨k1, k2, k3, k4, k5, k6, k7, k8, k9, k10, k11, k12⟩ := core_fields (analyze_core h0)
  have p0 : Pos demoG demoNew :=
    ⟨demo_pos.rbar, demo_pos.vbar, demo_pos.zmbar, demo_pos.tbar, demo_pos.ro, demo_pos.vo, demo_pos.time,
      demo_pos.mass, demo_pos.vel⟩
  have l0 : Lin c0 := ⟨⟨.amuse, k1, trivial⟩, ⟨.galaxy, k2, trivial⟩⟩
  obtain ⟨w, hw⟩ := world_isSome (g := demoG) (c := c0) (u := .amuse) (o := .galaxy) k1 trivial k2
  have ho : c0.rorder = none := by
    rcases analyze_rorder h0 with ⟨a, -⟩ | ⟨a, -⟩
    · rw [a]; rfl
    · cases a
  obtain ⟨r, c', e1, e2, -⟩ := C17_mass_fraction (q := 1 / 2) (by norm_num)
    (p0.of_rest k12) l0 g0 (analyze_fresh h0) (by rw [k4]; simp [demoNew, demo]) hw
    (by intro o h; rw [ho] at h; cases h) k1 rfl
  exact ⟨c0, r, c', h0, e1, e2⟩

/-- `rlagrange(mfrac=q)` succeeds on a cluster given from its position or centre. -/
theorem lagrangeFrac_ok {g : Galpy} {c : Cluster} {q : ℝ} {pr : Bool} (hq : q ≤ 1) (p : Pos g c) (l : Lin c) (hg : Good c) (f : Fresh c)
    (hu : c.units ≠ some .amuse) (ho : c.origin = some .cluster ∨ c.origin = some .centre) :
    ∃ r c', rlagrangeFrac g q pr c = .ok (r, c') ∧ c'.data = c.data ∧ Fresh c' ∧ Good c' ∧ c'.rest = c.rest := by
  have hno : ¬ (c.origin ≠ some .cluster ∧ c.origin ≠ some .centre) := by
    rintro ⟨a, b⟩; rcases ho with h | h
    · exact a h
    · exact b h
  have hcore := sortstars_core true c.d.r c.d.rpro c
  obtain ⟨k1, k2, k3, k4, k5, k6, k7, k8, k9, k10, k11, k12⟩ := core_fields hcore
  have g2 := sortstars_good (p := true) hg f.r.length_eq.symm f.rpro.length_eq.symm
  have hd := sortstars_d true c.d.r c.d.rpro c
  obtain ⟨o, ho1, ho2⟩ : ∃ o, (if pr then (sortstars true c.d.r c.d.rpro c).rproorder else (sortstars true c.d.r c.d.rpro c).rorder) = some o ∧
      IsOrder c.st.length o := by
    obtain ⟨n1, n2⟩ := sortstars_some c.d.r c.d.rpro c
    cases pr
    · obtain ⟨o, h⟩ := Option.ne_none_iff_exists'.mp n1
      exact ⟨o, by simpa using h, k5 ▸ g2.ro o h⟩
    · obtain ⟨o, h⟩ := Option.ne_none_iff_exists'.mp n2
      exact ⟨o, by simpa using h, k5 ▸ g2.rpo o h⟩
  have hmne : c.m ≠ [] := by
    intro h; have := hg.len; rw [h] at this
    exact hg.ne (List.length_eq_zero_iff.mp this.symm)
  obtain ⟨k, hk, e, -⟩ := massFracRadius_spec (f := q) (m := c.m) (r := if pr then c.d.rpro else c.d.r) (by rw [hg.len]; exact ho2)
    (by rw [hg.len]; split
        · exact f.rpro.length
        · exact f.r.length) hmne hg.mass hq
  obtain ⟨c3, h3, d3, f3, g3, -, r3⟩ := return_of_world (sort := false) (cm := none) (g := g) p l hg g2
    ⟨by rw [k1]; exact l.1, by rw [k2]; exact l.2⟩ k12 (world_core hcore)
  refine ⟨(if pr then c.d.rpro else c.d.r).getD o[k] 0, c3, ?_, d3, f3, g3, r3⟩
  · unfold rlagrangeFrac
    simp only [bind, pure, Except.pure, if_neg hu, if_neg hno, Except.bind]
    simp only [ho1, Option.elim, hd, k4, f.mtot, e, h3]

/-! ### the core -/

/-- What `coreEdge` computes: the point at `ρ` on the line through the last bin that is not below `ρ` and the first one that is. -/
def OnCoreLine (rs ds : List ℝ) (ρ x : ℝ) : Prop :=
  ∃ i j, i < ds.length ∧ j < ds.length ∧ ρ ≤ ds[i]! ∧ (∀ k, i < k → k < ds.length → ds[k]! < ρ) ∧
    ds[j]! < ρ ∧ (∀ k < j, ρ ≤ ds[k]!) ∧ (x - rs[i]!) * (ds[i]! - ds[j]!) = (ds[i]! - ρ) * (rs[j]! - rs[i]!)

theorem coreEdge_spec {rs ds : List ℝ} {ρ : ℝ} (inc : ∀ i j, i < j → j < ds.length → rs[i]! < rs[j]!)
    (h0 : ∃ k < ds.length, ρ ≤ ds[k]!) (h1 : ∃ k < ds.length, ds[k]! < ρ) : ∃ x, coreEdge rs ds ρ = .ok x ∧ OnCoreLine rs ds ρ x := by
  obtain ⟨i, e1, e2, e3, e4⟩ := last_index ds.length (fun k => !decide (ds[k]! < ρ)) (by
    obtain ⟨k, k1, k2⟩ := h0; exact ⟨k, k1, by simpa using k2⟩)
  obtain ⟨j, d1, d2, d3, d4⟩ := first_index ds.length (fun k => decide (ds[k]! < ρ)) (by
    obtain ⟨k, k1, k2⟩ := h1; exact ⟨k, k1, by simpa using k2⟩)
  have e3' : ρ ≤ ds[i]! := by simpa using e3
  have d3' : ds[j]! < ρ := by simpa using d3
  unfold coreEdge
  simp only [bind, Except.bind, e1, d1, Option.elim, pure, Except.pure]
  refine ⟨_, rfl, i, j, e2, d2, e3', fun k hk hn => by simpa using e4 k hk hn, d3', fun k hk => by simpa using d4 k hk, ?_⟩
  have hij : i ≠ j := by rintro rfl; linarith
  have hr : rs[j]! - rs[i]! ≠ 0 := by
    rcases lt_or_gt_of_ne hij with h | h
    · linarith [inc i j h d2]
    · have := inc j i h e2; intro h0; linarith
  have hd : ds[j]! - ds[i]! ≠ 0 := by linarith
  field_simp
  ring

theorem coreEdge_error {rs ds : List ℝ} {ρ : ℝ} (h0 : ∃ k < ds.length, ρ ≤ ds[k]!) (h1 : ∀ k < ds.length, ρ ≤ ds[k]!) :
    coreEdge rs ds ρ = .error .indexError := by
  obtain ⟨i, e1, -⟩ := last_index ds.length (fun k => !decide (ds[k]! < ρ)) (by
    obtain ⟨k, k1, k2⟩ := h0; exact ⟨k, k1, by simpa using k2⟩)
  have : ((List.range ds.length).filter (fun k => decide (ds[k]! < ρ))) = [] := by
    rw [List.filter_eq_nil_iff]
    intro k hk
    simpa using h1 k (List.mem_range.mp hk)
  unfold coreEdge
  simp only [bind, Except.bind, e1, this, Option.elim, List.head?_nil]

theorem OnCoreLine.scale {rs ds : List ℝ} {ρ x L κ : ℝ} (hκ : 0 < κ) (h : OnCoreLine rs ds ρ x) :
    OnCoreLine (rs.map (· * L)) (ds.map (· * κ)) (ρ * κ) (x * L) := by
  obtain ⟨i, j, a1, a2, a3, a4, a5, a6, a7⟩ := h
  refine ⟨i, j, by simpa using a1, by simpa using a2, ?_, ?_, ?_, ?_, ?_⟩
  · rw [scaled_get]; exact mul_le_mul_of_nonneg_right a3 hκ.le
  · intro k hk hn; rw [scaled_get]; exact mul_lt_mul_of_pos_right (a4 k hk (by simpa using hn)) hκ
  · rw [scaled_get]; exact mul_lt_mul_of_pos_right a5 hκ
  · intro k hk; rw [scaled_get]; exact mul_le_mul_of_nonneg_right (a6 k hk) hκ.le
  · simp only [scaled_get]
    linear_combination (L * κ) * a7

/-- Where the profile stays below once it is below, this is where it falls to `ρ`. -/
theorem OnCoreLine.first_fall {rs ds : List ℝ} {ρ x : ℝ} (inc : ∀ i j, i < j → j < ds.length → rs[i]! < rs[j]!)
    (hs : StaysBelow ds ρ) (h : OnCoreLine rs ds ρ x) : IsFirstFall rs ds ρ x := by
  obtain ⟨i, j, a1, a2, a3, a4, a5, a6, a7⟩ := h
  have hij : i < j := by
    by_contra hc
    linarith [hs j i (by omega) a1 a5]
  have hj : i + 1 = j := by
    by_contra hc
    linarith [a4 (i + 1) (by omega) (by omega), a6 (i + 1) (by omega)]
  obtain ⟨b1, b2⟩ := on_line (inc i j hij a2) a3 a5 a7
  have e : j - 1 = i := by omega
  exact ⟨j, by omega, a2, a5, a6, by rw [e]; exact b1, b2, by rw [e]; exact a7⟩

/-- Where it rises again, the point lies beyond a bin that is already below. -/
theorem OnCoreLine.beyond {rs ds : List ℝ} {ρ x : ℝ} (inc : ∀ i j, i < j → j < ds.length → rs[i]! < rs[j]!)
    (h : OnCoreLine rs ds ρ x) {k m : ℕ} (hkm : k < m) (hm : m < ds.length) (hk : ds[k]! < ρ) (hmρ : ρ ≤ ds[m]!) :
    ∃ j ≤ k, ds[j]! < ρ ∧ (∀ n < j, ρ ≤ ds[n]!) ∧ rs[j]! < x ∧ ¬ IsFirstFall rs ds ρ x := by
  obtain ⟨i, j, a1, a2, a3, a4, a5, a6, a7⟩ := h
  have hjk : j ≤ k := by
    by_contra hc
    linarith [a6 k (by omega)]
  have hmi : m ≤ i := by
    by_contra hc
    linarith [a4 m (by omega) hm]
  have hx : rs[j]! < x := by
    have hr := inc j i (by omega) a1
    by_contra hc
    push Not at hc
    have e1 : (rs[i]! - rs[j]!) * (ds[i]! - ds[j]!) ≤ (rs[i]! - x) * (ds[i]! - ds[j]!) :=
      mul_le_mul_of_nonneg_right (by linarith) (by linarith)
    have e2 : (ds[i]! - ρ) * (rs[i]! - rs[j]!) < (ds[i]! - ds[j]!) * (rs[i]! - rs[j]!) :=
      mul_lt_mul_of_pos_right (by linarith) (by linarith)
    linarith
  refine ⟨j, hjk, a5, a6, hx, ?_⟩
  rintro ⟨n, b1, b2, b3, b4, -, b5, -⟩
  obtain rfl : n = j := by
    rcases lt_trichotomy n j with h | h | h
    · linarith [a6 n h]
    · exact h
    · linarith [b4 j h]
  linarith

theorem ShellProfile.dens_nonneg {w : World} {pr : Bool} {fr : Origin} {e : PStars} {nrad : ℕ} {P : List (ℝ × ℝ)} {rs ds : List ℝ}
    (h : ShellProfile w pr fr e nrad P rs ds) (hm : ∀ x ∈ w.mass, 0 ≤ x) {k : ℕ} (hk : k < P.length) : 0 ≤ ds[k]! := by
  classical
  obtain ⟨d1, d2⟩ := h.dens k hk
  refine nonneg_of_mul_nonneg_left ?_ d1
  rw [d2]
  unfold sumOver
  refine Finset.sum_nonneg fun i _ => ?_
  by_cases hi : i < w.mass.length
  · rw [getElem!_pos w.mass i hi]; exact hm _ (List.getElem_mem hi)
  · rw [getElem!_neg w.mass i hi]; exact le_refl _

/-- `rcore` with the central density is the reading of the physical profile about the centre. -/
theorem core_run {g : Galpy} {find : Cluster → Except Err Cluster} {c : Cluster} {w : World} {u : Units} {s : Scale} {pr : Bool} {e : PStars}
    {q : ℝ} (p : Pos g c) (l : Lin c) (hg : Good c) (f : Fresh c) (hm : ∀ x ∈ c.m, 0 ≤ x)
    (hw : world g c = some w) (hu : c.units = some u) (hs : unitScale g c u = some s)
    (he : StarLists e c.st.length) (hq0 : 0 < q) (hq1 : q ≤ 1) (ht : TwoRadii w pr .centre e)
    (hc : c.origin = some .centre ∨ ¬ (c.c.x = 0 ∧ c.c.y = 0 ∧ c.c.z = 0)) :
    ∃ P rs ds, ShellProfile w pr .centre e ⌈1 / q⌉₊ P rs ds ∧ (∃ k < ds.length, coreDensity pr ds ≤ ds[k]!) ∧
      ((∃ k < ds.length, ds[k]! < coreDensity pr ds) →
        ∃ x c', rcoreDensity g find e q pr c = .ok (x, c') ∧ c'.data = c.data ∧ Fresh c' ∧
          OnCoreLine rs ds (coreDensity pr ds) (x * s.len)) ∧
      ((∀ k < ds.length, coreDensity pr ds ≤ ds[k]!) → rcoreDensity g find e q pr c = .error .indexError) := by
  obtain ⟨⟨u', hu', hul⟩, ⟨o, ho, hol⟩⟩ := id l
  rw [hu] at hu'; cases hu'
  -- from AMUSE units
  obtain ⟨c1, h1, g1, w1, r1, f1, u1, hu1, hul1, ho1, hs1⟩ : ∃ c1, (if c.units = some .amuse then toPckms g true c else .ok c) = .ok c1 ∧
      Good c1 ∧ world g c1 = some w ∧ c1.rest = c.rest ∧ Fresh c1 ∧ ∃ u1, c1.units = some u1 ∧ u1.linear ∧ c1.origin = some o ∧
      unitScale g c u1 = some s := by
    by_cases ha : u = .amuse
    · subst ha
      rw [if_pos hu]
      obtain ⟨c1, h1, g1⟩ := toPckms_total (a := true) (c := c) hu hul p hg
      have us := toPckms_ustep hu hul h1
      refine ⟨c1, h1, g1, us.world.trans hw, us.rest, toPckms_fresh f h1, .pckms, us.units, trivial, us.origin.trans ho, hs⟩
    · rw [if_neg (by rw [hu]; simpa using ha)]
      exact ⟨c, rfl, hg, hw, rfl, f, u, hu, hul, ho, hs⟩
  have p1 := p.of_rest r1
  have l1 : Lin c1 := ⟨⟨u1, hu1, hul1⟩, ⟨o, ho1, hol⟩⟩
  have hs1' : unitScale g c1 u1 = some s := by rw [unitScale_of_rest r1]; exact hs1
  -- the centre is the same, in those units
  have hcen : c1.c.x = c.c.x ∧ c1.c.y = c.c.y ∧ c1.c.z = c.c.z := by
    have hp := (unitScale_pos p hs).1
    have a : w.centre = s.ph c.c := by
      have h := hw; unfold world phys at h
      simp only [hu, ho, hs, Option.some.injEq] at h
      rw [← h]
    have b : w.centre = s.ph c1.c := by
      have h := w1; unfold world phys at h
      simp only [hu1, ho1, hs1', Option.some.injEq] at h
      rw [← h]
    rw [a] at b
    have h1 := congrArg Ph.x b; have h2 := congrArg Ph.y b; have h3 := congrArg Ph.z b
    simp only [Scale.ph] at h1 h2 h3
    exact ⟨(mul_right_cancel₀ hp.ne' h1).symm, (mul_right_cancel₀ hp.ne' h2).symm, (mul_right_cancel₀ hp.ne' h3).symm⟩
  -- to the centre
  obtain ⟨c2, h2, g2, w2, r2, f2, hu2, ho2⟩ : ∃ c2,
      coreStart find c1 = Except.ok c2 ∧ Good c2 ∧ world g c2 = some w ∧
      c2.rest = c.rest ∧ Fresh c2 ∧ c2.units = some u1 ∧ c2.origin = some .centre := by
    unfold coreStart
    by_cases hoc : c1.origin ≠ some .centre
    · have hnz : ¬ (c1.c.x = 0 ∧ c1.c.y = 0 ∧ c1.c.z = 0) := by
        rw [hcen.1, hcen.2.1, hcen.2.2]; exact hc.resolve_left (by rw [ho, ← ho1]; exact hoc)
      rw [if_pos hoc, if_neg hnz]
      have hur : c1.units ≠ some .radec := by rw [hu1]; rintro h; cases h; exact hul1
      obtain ⟨c2, h2, g2⟩ := toCentre_total (s := true) (cm := none) hur g1
      have hl : (Op.toCentre true none).linear := by
        simp [Op.linear, Op.unitTarget, Op.originTarget, Origin.linear]
      have st := exec_step (op := .toCentre true none) p1.nz l1 hl h2
      have os := toCentre_ostep ho1 hol hur h2
      exact ⟨c2, h2, g2, st.world.trans w1, st.rest.trans r1, toCentre_fresh f1 h2, os.units.trans hu1, os.origin⟩
    · rw [if_neg hoc]
      exact ⟨c1, rfl, g1, w1, r1, f1, hu1, not_not.mp hoc⟩
  have p2 := p.of_rest r2
  -- to pc
  obtain ⟨c3, h3, g3⟩ := toPckms_total (a := true) (c := c2) hu2 hul1 p2 g2
  have us := toPckms_ustep hu2 hul1 h3
  have w3 : world g c3 = some w := us.world.trans w2
  have r3 : c3.rest = c.rest := us.rest.trans r2
  have f3 := toPckms_fresh f2 h3
  have ho3 : c3.origin = some .centre := us.origin.trans ho2
  have p3 := p.of_rest r3
  have l3 : Lin c3 := ⟨⟨_, us.units, trivial⟩, _, ho3, trivial⟩
  -- the fraction
  obtain ⟨rl, c4, h4, d4, f4, g4, r4⟩ := lagrangeFrac_ok (q := q) (pr := pr) hq1 p3 l3 g3 f3 (by rw [us.units]; simp) (.inr ho3)
  have r4' : c4.rest = c.rest := r4.trans r3
  have w4 : world g c4 = some w := by rw [world_of_data d4 r4]; exact w3
  have hu4 : c4.units = some .pckms := (congrArg Data.units d4).trans us.units
  have ho4 : c4.origin = some .centre := (congrArg Data.origin d4).trans ho3
  have p4 := p.of_rest r4'
  have l4 : Lin c4 := ⟨⟨_, hu4, trivial⟩, _, ho4, trivial⟩
  have n4 : c4.st.length = c.st.length := by rw [← world_length w4, world_length hw]
  have hn : 0 < ⌈1 / q⌉₊ := Nat.ceil_pos.mpr (by positivity)
  -- the profile
  obtain ⟨rs, ds, ns, af, P, h5, d5, f5, g5, r5, hS⟩ :=
    raw_profile (nrad := ⌈1 / q⌉₊) (e := e) (s := ⟨1, 1, 1, 1⟩) p4 l4 g4 f4 w4 hu4 rfl ho4 (.inr rfl) (by rw [n4]; exact he) hn ht
  have hrs : rs.map (· * (1 : ℝ)) = rs := by simp
  have hds : ds.map (· * ((1 : ℝ) / 1 ^ (if pr then 2 else 3))) = ds := by simp
  dsimp only at hS
  rw [hrs, hds] at hS
  have w5 : world g af.cluster = some w := by rw [world_of_data d5 r5]; exact w4
  have l5 : Lin af.cluster :=
    ⟨⟨_, (congrArg Data.units d5).trans hu4, trivial⟩, _, (congrArg Data.origin d5).trans ho4, trivial⟩
  obtain ⟨c6, h6, d6, f6, -, -, r6⟩ := return_of_world (sort := false) (cm := none) p l hg g5 l5 (r5.trans r4') (w5.trans hw.symm)
  have hu6 : c6.units = some u := (congrArg Data.units d6).trans hu
  have hPne : P ≠ [] := by obtain ⟨lo, hi, q, -⟩ := hS.contig; exact q.ne
  have hPpos := List.length_pos_iff.mpr hPne
  have ld : ds.length = P.length := hS.lend
  have hdne : ds ≠ [] := List.ne_nil_of_length_pos (by omega)
  have inc : ∀ i j, i < j → j < ds.length → rs[i]! < rs[j]! := fun i j hij hj => hS.increasing hij (by rw [← ld]; exact hj)
  have hwm : ∀ x ∈ w.mass, 0 ≤ x := by
    rw [world_mass hw hu hs]
    intro x hx
    obtain ⟨y, hy, rfl⟩ := List.mem_map.mp hx
    exact mul_nonneg (hm y hy) (unitScale_pos p hs).2.2.1.le
  have hd0 := hS.dens_nonneg hwm hPpos
  have hcd : coreDensity pr ds ≤ ds[0]! := by
    unfold coreDensity; split <;> linarith
  have hcode : (if pr then (0.5 : ℝ) * (ds[0]! : ℝ) else (ds[0]! : ℝ) / 3) = coreDensity pr ds := by
    unfold coreDensity; split
    · norm_num; ring
    · rfl
  refine ⟨P, rs, ds, hS, ⟨0, by omega, hcd⟩, ?_, ?_⟩
  · intro hx
    obtain ⟨x, x1, x2⟩ := coreEdge_spec inc ⟨0, by omega, hcd⟩ hx
    refine ⟨convertLength g c6 .pckms u x, c6, ?_, d6, f6, ?_⟩
    · unfold rcoreDensity
      simp only [bind, pure, Except.pure]
      refine ite_bind_of' h1 ?_
      simp only [h2, h3, h4, h5, Except.bind, hdne, if_false, hcode, x1, h6, hu6, Option.elim]
    · rw [C38_length (p.of_rest r6).nz (su := ⟨1, 1, 1, 1⟩) rfl (by rw [unitScale_of_rest r6]; exact hs)]
      have := x2.scale (L := 1) (κ := 1) one_pos
      simpa using this
  · intro ha
    have := coreEdge_error (rs := rs) ⟨0, by omega, hcd⟩ ha
    unfold rcoreDensity
    simp only [bind, pure, Except.pure]
    have step : ∀ {α β : Type} {b : Prop} [Decidable b] {x y : Except Err α} {k : α → Except Err β} {a : α} {z : Except Err β},
        (if b then x else y) = .ok a → k a = z → (if b then x.bind k else y.bind k) = z := by
      intro α β b _ x y k a z e1 e2
      split at e1 <;> simp_all [Except.bind]
    refine step h1 ?_
    simp only [h2, h3, h4, h5, Except.bind, hdne, if_false, hcode, this]

end

end CT
