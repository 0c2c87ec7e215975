/- Property theorems C71: relaxation times. -/
import Verif.Spec.Relax
import Verif.Props.Lagrange
import Verif.Props.Convert
import Verif.Props.Tidal

namespace CT

noncomputable section

set_option linter.unusedSimpArgs false

/-- What the preparations leave: the cluster in pc and km/s in the working frame, everything derived up to date, and the half-mass
radius right. -/
structure InPc (g : Galpy) (w : World) (c c2 : Cluster) : Prop where
  good : Good c2
  lin : Lin c2
  order : OrderInv w c2
  fresh : Fresh c2
  units : c2.units = some .pckms
  origin : c2.origin = some (workFrame c)
  world : world g c2 = some w
  rest : c2.rest = c.rest
  len : c2.st.length = c.st.length
  mass : c2.m = w.mass
  r : c2.d.r = w.radii (workFrame c) c.st.length
  v2 : c2.d.v.map (· ^ 2) = w.speedsSq (workFrame c) c.st.length
  rm : ∃ ρ, c2.d.rm = some ρ ∧ IsMassRadius 0.5 w.mass (w.radii (workFrame c) c.st.length) ρ
  rpro : c2.d.rpro = w.radiiPro (workFrame c) c.st.length
  rmpro : ∀ o, c.rproorder = some o → ∃ ρ, c2.d.rmpro = some ρ ∧
    massFracRadius 0.5 w.mass.sum w.mass (w.radiiPro (workFrame c) c.st.length) o = .ok ρ
  ro : ∃ o, c2.rorder = some o ∧ c2.rorderOrigin = c2.origin

theorem sortstars_orderInv {g : Galpy} {c : Cluster} {w : World} (p : Pos g c) (l : Lin c) (f : Fresh c) (hw : world g c = some w)
    (i : OrderInv w c) : OrderInv w (sortstars true c.d.r c.d.rpro c) := by
  obtain ⟨o2, hr2, hsync, hor⟩ := sortstars_rorder true c.d.r c.d.rpro c
  have hcore := sortstars_core true c.d.r c.d.rpro c
  obtain ⟨k1, k2, -⟩ := core_fields hcore
  intro o ho
  rw [hr2] at ho; cases ho
  rcases hor with rfl | ⟨e1, e2⟩
  · obtain ⟨fo, hfo, hfol⟩ := l.2
    obtain ⟨a1, a2⟩ := orderInv_argsort p l hw hfo
    refine ⟨fo, hsync.trans hfo, hfol, ?_⟩
    rw [fresh_r f]
    exact ⟨a1, a2⟩
  · obtain ⟨fo, a1, a2, a3, a4⟩ := i _ e1
    exact ⟨fo, by rw [hsync, ← e2, a1], a2, a3, a4⟩

theorem World.speedSq_eq {g : Galpy} {c : Cluster} {w : World} {u : Units} {s : Scale} {o : Origin}
    (hw : world g c = some w) (hu : c.units = some u) (ho : c.origin = some o) (hol : o.linear)
    (hs : unitScale g c u = some s) (i : ℕ) (hi : i < c.st.length) :
    w.speedSq o i = ((c.st.map Ph.v)[i]'(by simpa using hi)) ^ 2 * s.vel ^ 2 := by
  unfold world phys at hw
  simp only [hu, ho, hs, Option.some.injEq] at hw
  subst hw
  have hr : ∀ p : Ph, p.v ^ 2 = p.vx ^ 2 + p.vy ^ 2 + p.vz ^ 2 := fun p => Real.sq_sqrt (by positivity)
  rw [List.getElem_map, hr]
  simp only [World.speedSq, galRows, List.getElem?_map, List.getElem?_eq_getElem hi, Option.map_some]
  cases o <;> simp only [Origin.linear] at hol <;>
    simp only [galactocentric, frameOffset, phAdd, Scale.ph, sub_zero] <;> ring

theorem World.radiusPro_eq {g : Galpy} {c : Cluster} {w : World} {u : Units} {s : Scale} {o : Origin}
    (hw : world g c = some w) (hu : c.units = some u) (ho : c.origin = some o) (hol : o.linear)
    (hs : unitScale g c u = some s) (hp : 0 < s.len) (i : ℕ) (hi : i < c.st.length) :
    w.radiusPro o i = ((c.st.map Ph.rpro)[i]'(by simpa using hi)) * s.len := by
  unfold world phys at hw
  simp only [hu, ho, hs, Option.some.injEq] at hw
  subst hw
  have hr : ∀ p : Ph, Real.sqrt ((p.x * s.len) ^ 2 + (p.y * s.len) ^ 2) = p.rpro * s.len := by
    intro p
    rw [show (p.x * s.len) ^ 2 + (p.y * s.len) ^ 2 = (p.x ^ 2 + p.y ^ 2) * s.len ^ 2 by ring, Real.sqrt_mul (by positivity),
      Real.sqrt_sq hp.le]; rfl
  rw [List.getElem_map, ← hr]
  simp only [World.radiusPro, galRows, List.getElem?_map, List.getElem?_eq_getElem hi, Option.map_some]
  cases o <;> simp only [Origin.linear] at hol <;>
    simp only [galactocentric, frameOffset, phAdd, Scale.ph, sub_zero] <;> congr 2 <;> ring

theorem fresh_rpro {c : Cluster} (f : Fresh c) : c.d.rpro = c.st.map Ph.rpro := f.rpro.eq_map

theorem fresh_v {c : Cluster} (f : Fresh c) : c.d.v = c.st.map Ph.v := f.v.eq_map

theorem in_pc {g : Galpy} {c : Cluster} {w : World} (p : Pos g c) (l : Lin c) (hg : Good c) (f : Fresh c)
    (hm : ∀ x ∈ c.m, 0 ≤ x) (hw : world g c = some w) (i : OrderInv w c) :
    ∃ c2, pcStart g c = .ok c2 ∧ InPc g w c c2 := by
  obtain ⟨⟨u, hu, hul⟩, ⟨o, ho, hol⟩⟩ := id l
  have hur : c.units ≠ some .radec := by rw [hu]; rintro h; cases h; exact hul
  obtain ⟨c1, h1, g1, w1, r1, f1, i1, l1, ho1, q1⟩ : ∃ c1,
      (if c.origin ≠ some .cluster ∧ c.origin ≠ some .centre then toCentre true none c
        else .ok (sortstars true c.d.r c.d.rpro c)) = .ok c1 ∧ Good c1 ∧ world g c1 = some w ∧
      c1.rest = c.rest ∧ Fresh c1 ∧ OrderInv w c1 ∧ Lin c1 ∧ c1.origin = some (workFrame c) ∧
      ∀ o, c.rproorder = some o → c1.rproorder = some o ∧ o.length = c1.st.length := by
    by_cases hc : c.origin ≠ some .cluster ∧ c.origin ≠ some .centre
    · rw [if_pos hc]
      have hl : (Op.toCentre true none).linear := by
        simp [Op.linear, Op.unitTarget, Op.originTarget, Origin.linear]
      obtain ⟨c1, h1, g1⟩ := toCentre_total (s := true) (cm := none) hur hg
      have st := exec_step (op := .toCentre true none) p.nz l hl h1
      have os := toCentre_ostep ho hol hur h1
      refine ⟨c1, h1, g1, st.world.trans hw, st.rest, toCentre_fresh f h1,
        (kept_orderInv g w).exec (op := .toCentre true none) p l hl hw i h1, st.lin hl l, ?_,
        fun o ho => (kept_rproorder g w o).exec (op := .toCentre true none) p l hl hw ⟨ho, by simpa using (hg.rpo o ho).length_eq⟩ h1⟩
      rw [os.origin, workFrame, if_neg hc.1]
    · rw [if_neg hc]
      have hcore := sortstars_core true c.d.r c.d.rpro c
      obtain ⟨k1, k2, k3, k4, k5, k6, k7, k8, k9, k10, k11, k12⟩ := core_fields hcore
      refine ⟨_, rfl, sortstars_good hg f.r.length_eq.symm f.rpro.length_eq.symm, (world_core hcore).trans hw, k12, ?_,
        sortstars_orderInv p l f hw i, ⟨by rw [k1]; exact l.1, by rw [k2]; exact l.2⟩, ?_, fun o ho => ⟨sortstars_rpro _ _ _ c o ho (by rw [f.rpro.length, (hg.rpo o ho).length_eq, List.length_range]),
          by rw [k5]; simpa using (hg.rpo o ho).length_eq⟩⟩
      · have hd := sortstars_d true c.d.r c.d.rpro c
        exact ⟨by rw [hd, k1]; exact f.units, by rw [hd, k2]; exact f.origin, by rw [hd, k5]; exact f.r, by rw [hd, k5]; exact f.rpro,
          by rw [hd, k5]; exact f.v, by rw [hd, k5]; exact f.vpro, by rw [hd, k4]; exact f.mtot, by rw [hd, k4]; exact f.mmean,
          by rw [hd, k5]; exact f.rmean, by rw [hd, k5]; exact f.rmeanpro, by rw [hd]; exact f.rmax, by rw [hd]; exact f.rmaxpro⟩
      · rw [k2, workFrame]
        split
        · assumption
        · by_contra hx; exact hc ⟨by assumption, hx⟩
  have p1 := p.of_rest r1
  obtain ⟨⟨u1, hu1, hul1⟩, ⟨o1, ho1', hol1⟩⟩ := id l1
  have hl : (Op.toPckms true).linear := by simp [Op.linear, Op.unitTarget, Op.originTarget, Units.linear]
  obtain ⟨c2, h2, g2⟩ := toPckms_total (a := true) (c := c1) hu1 hul1 p1 g1
  have st := exec_step (op := .toPckms true) p1.nz l1 hl h2
  have us := toPckms_ustep hu1 hul1 h2
  have i2 := (kept_orderInv g w).exec (op := .toPckms true) p1 l1 hl w1 i1 h2
  have f2 := toPckms_fresh f1 h2
  have w2 : world g c2 = some w := st.world.trans w1
  have r2 : c2.rest = c.rest := st.rest.trans r1
  have p2 := p.of_rest r2
  have l2 := st.lin hl l1
  have ho2 : c2.origin = some (workFrame c) := us.origin.trans ho1
  have hfl : (workFrame c).linear := by unfold workFrame; split <;> trivial
  have hlen : c2.st.length = c.st.length := by rw [← world_length w2, world_length hw]
  have hs2 : unitScale g c2 .pckms = some ⟨1, 1, 1, 1⟩ := rfl
  have hmass : w.mass = c2.m := by rw [world_mass w2 us.units hs2]; simp
  have hr : c2.d.r = w.radii (workFrame c) c.st.length := by
    rw [fresh_r f2]
    apply List.ext_getElem
    · simp [World.radii, hlen]
    · intro k k1 k2
      simp only [World.radii, List.getElem_map, List.getElem_range]
      simp only [List.length_map] at k1
      rw [World.radius_eq w2 us.units ho2 hfl hs2 one_pos k k1, List.getD_eq_getElem?_getD, List.getElem?_eq_getElem (by simpa using k1),
        Option.getD_some, List.getElem_map, mul_one]
  have hrp : c2.d.rpro = w.radiiPro (workFrame c) c.st.length := by
    rw [fresh_rpro f2]
    apply List.ext_getElem
    · simp [World.radiiPro, hlen]
    · intro k k1 k2
      simp only [World.radiiPro, List.getElem_map, List.getElem_range]
      simp only [List.length_map] at k1
      rw [World.radiusPro_eq w2 us.units ho2 hfl hs2 one_pos k k1, List.getElem_map, mul_one]
  obtain ⟨x, hx⟩ : ∃ x, analyze true x = .ok c2 := by
    have h := h2
    unfold toPckms at h
    simp only [hu1, bind] at h
    repeat' split at h
    all_goals
      obtain ⟨y, -, hy⟩ := bind_ok h
      exact ⟨_, hy⟩
  have hcore := core_fields (analyze_core hx)
  have hxm : c2.m = x.m := hcore.2.2.2.1
  have hxs : c2.st = x.st := hcore.2.2.2.2.1
  refine ⟨c2, ?_, g2, l2, i2, f2, us.units, ho2, w2, r2, hlen, hmass.symm, hr, ?_, ?_, hrp, fun o ho => ?_, ?_⟩
  · unfold pcStart
    simp only [bind]
    exact ite_bind_of' h1 h2
  · rw [fresh_v f2]
    apply List.ext_getElem
    · simp [World.speedsSq, hlen]
    · intro k k1 k2
      simp only [World.speedsSq, List.getElem_map, List.getElem_range]
      simp only [List.length_map] at k1
      rw [World.speedSq_eq w2 us.units ho2 hfl hs2 k k1]
      simp
  · obtain ⟨o2, e1, e2, -⟩ := analyze_rorder_sorted hx
    have hsync : c2.rorderOrigin = c2.origin := by rw [e2, hcore.2.1]
    have hsort := i2.sorted p2 l2 w2 e1 hsync
    obtain ⟨a, b, e3, -, e4, -⟩ := analyze_rm hx e1
    rw [← hxm, ← hxs] at e4
    have hm2 : ∀ y ∈ c2.m, 0 ≤ y := by
      obtain ⟨s, hs⟩ := unitScale_isSome (g := g) (c := c) hul
      have := world_mass hw hu hs
      rw [← hmass, this]
      intro y hy
      obtain ⟨z, hz, rfl⟩ := List.mem_map.mp hy
      exact mul_nonneg (hm z hz) (unitScale_pos p hs).2.2.1.le
    have hmne : c2.m ≠ [] := by
      intro h; have := g2.len; rw [h] at this
      exact g2.ne (List.length_eq_zero_iff.mp this.symm)
    obtain ⟨ρ, e5, e6⟩ := massFracRadius_isMassRadius (f := 0.5) (m := c2.m) hsort (by simp [g2.len]) hmne hm2 (by norm_num)
    rw [e4] at e5
    cases e5
    refine ⟨_, e3, ?_⟩
    rw [hmass, ← hr, fresh_r f2]
    exact e6
  · have e1 := ((kept_rproorder g w o).exec (op := .toPckms true) p1 l1 hl w1 (q1 o ho) h2).1
    obtain ⟨a, b, e3, -, e4, -⟩ := analyze_rmpro hx e1
    refine ⟨a, e3, ?_⟩
    rw [← hxm, ← hxs] at e4
    rw [hmass, ← hrp, fresh_rpro f2]
    exact e4
  · obtain ⟨o2, e1, e2, -⟩ := analyze_rorder_sorted hx
    exact ⟨o2, e1, by rw [e2, hcore.2.1]⟩

theorem IsMassRadius.unique {f a b : ℝ} {m r : List ℝ} (ha : IsMassRadius f m r a) (hb : IsMassRadius f m r b) : a = b := by
  rcases lt_trichotomy a b with h | h | h
  · exact absurd (hb.2.2 a ha.1 h) (not_lt.mpr ha.2.1)
  · exact h
  · exact absurd (ha.2.2 b hb.1 h) (not_lt.mpr hb.2.1)

theorem myrFactor_eq : myrFactor = pcKmsInMyr := by norm_num [myrFactor, pcKmsInMyr]

theorem half_formula {γ M ρ : ℝ} {n : ℕ} (hM : 0 < M) (hρ : 0 ≤ ρ) :
    0.138 * M ^ (0.5 : ℝ) * ρ ^ (1.5 : ℝ) / (M / (n : ℝ) * Real.sqrt 4.302e-3 * Real.log (γ * n)) * myrFactor =
      0.138 * n / Real.log (γ * n) * Real.sqrt (ρ ^ 3 / (gravPc * M)) * pcKmsInMyr := by
  rw [myrFactor_eq]
  have h1 : M ^ (0.5 : ℝ) = Real.sqrt M := by rw [Real.sqrt_eq_rpow]; norm_num
  have h2 : ρ ^ (1.5 : ℝ) = Real.sqrt (ρ ^ 3) := by
    rw [Real.sqrt_eq_rpow, ← Real.rpow_natCast, ← Real.rpow_mul hρ]; norm_num
  have hM' : Real.sqrt M ≠ 0 := (Real.sqrt_pos.mpr hM).ne'
  have hG : Real.sqrt gravPc ≠ 0 := (Real.sqrt_pos.mpr (by norm_num [gravPc])).ne'
  have h3 : Real.sqrt (ρ ^ 3 / (gravPc * M)) = Real.sqrt (ρ ^ 3) / (Real.sqrt gravPc * Real.sqrt M) := by
    rw [Real.sqrt_div (by positivity), Real.sqrt_mul (by norm_num [gravPc])]
  rw [h1, h2, h3]
  rw [show (4.302e-3 : ℝ) = gravPc from rfl]
  congr 1
  rcases eq_or_ne (Real.log (γ * n)) 0 with hl | hl
  · rw [hl]; simp
  rcases eq_or_ne (n : ℝ) 0 with hn | hn
  · rw [hn]; simp
  have hMM : M = Real.sqrt M * Real.sqrt M := (Real.mul_self_sqrt hM.le).symm
  rw [hMM]
  rw [Real.sqrt_mul_self (Real.sqrt_nonneg M)]
  field_simp

theorem half_run {g : Galpy} {γ : ℝ} {pr : Bool} {c c2 : Cluster} {w : World} {u : Units} {s : Scale} {ρ : ℝ} (p : Pos g c) (l : Lin c)
    (hg : Good c) (hM : 0 < c.m.sum) (hw : world g c = some w) (hu : c.units = some u) (hs : unitScale g c u = some s)
    (h2 : pcStart g c = .ok c2) (ip : InPc g w c c2) (hρ : (if pr then c2.d.rmpro else c2.d.rm) = some ρ) (h0 : 0 ≤ ρ) :
    ∃ t c', halfMassRelaxationTime g γ pr c = .ok (t, c') ∧ c'.data = c.data ∧ Fresh c' ∧
      t * s.time = spitzerHalfMass γ w.mass ρ := by
  obtain ⟨c3, h3, d3, f3, -, -, r3⟩ := return_of_world (sort := false) (cm := none) p l hg ip.good ip.lin ip.rest (ip.world.trans hw.symm)
  have hu3 : c3.units = some u := (congrArg Data.units d3).trans hu
  suffices h : ∃ t, halfMassRelaxationTime g γ pr c = .ok (t, c3) ∧ t * s.time = spitzerHalfMass γ w.mass ρ by
    obtain ⟨t, a1, a2⟩ := h
    exact ⟨t, c3, a1, d3, f3, a2⟩
  unfold halfMassRelaxationTime
  simp only [bind, h2, Except.bind, attr, hρ, Option.elim_some, h3, pure, Except.pure]
  refine ⟨_, rfl, ?_⟩
  · simp only [hu3, Option.elim_some]
    rw [C38_time (su := 1) (st := s.time) (p.of_rest r3).nz (Or.inl rfl) (Or.inl (by rw [unitScale_of_rest r3, hs]; rfl)), mul_one,
      ip.units, ip.mass]
    have hlen : c2.st.length = w.mass.length := by rw [← ip.mass, ip.good.len]
    have hM' : 0 < w.mass.sum := by
      rw [world_mass hw hu hs, List.sum_map_mul_right]
      simpa using mul_pos hM (unitScale_pos p hs).2.2.1
    rw [hlen]
    exact half_formula hM' h0

theorem radius_nonneg (w : World) (f : Origin) (i : ℕ) : 0 ≤ w.radius f i := by
  unfold World.radius; split
  · exact Real.sqrt_nonneg _
  · exact le_rfl

theorem radiusPro_nonneg (w : World) (f : Origin) (i : ℕ) : 0 ≤ w.radiusPro f i := by
  unfold World.radiusPro; split
  · exact Real.sqrt_nonneg _
  · exact le_rfl

/-- **C71 (half-mass relaxation time).**  `half_mass_relaxation_time(coulomb=γ)` is Spitzer's time `0.138 N/ln(γN)·√(rh³/(GM))` for the
physical masses and the half-mass radius of the stars, in the time unit of the cluster, whatever its units and origin; the cluster is
returned as it was. -/
theorem C71_half_mass {g : Galpy} {γ : ℝ} {c : Cluster} {w : World} {u : Units} {s : Scale} (p : Pos g c) (l : Lin c)
    (hg : Good c) (f : Fresh c) (hm : ∀ x ∈ c.m, 0 ≤ x) (hM : 0 < c.m.sum) (hw : world g c = some w) (i : OrderInv w c)
    (hu : c.units = some u) (hs : unitScale g c u = some s) :
    ∃ t c' rh, halfMassRelaxationTime g γ false c = .ok (t, c') ∧ c'.data = c.data ∧ Fresh c' ∧
      IsMassRadius 0.5 w.mass (w.radii (workFrame c) c.st.length) rh ∧ t * s.time = spitzerHalfMass γ w.mass rh := by
  obtain ⟨c2, h2, ip⟩ := in_pc p l hg f hm hw i
  obtain ⟨ρ, h3, h4⟩ := ip.rm
  have h0 : 0 ≤ ρ := by
    obtain ⟨k, -, e⟩ := List.mem_map.mp h4.1
    rw [← e]; exact radius_nonneg _ _ _
  obtain ⟨t, c', a1, a2, a3, a4⟩ := half_run (γ := γ) (pr := false) p l hg hM hw hu hs h2 ip (by simpa using h3) h0
  exact ⟨t, c', ρ, a1, a2, a3, h4, a4⟩

/-- **C71 (units and origins).**  Two descriptions of the same cluster, in any units and from any origin with the same working frame, have
the same half-mass relaxation time. -/
theorem C71_same_cluster {g : Galpy} {γ : ℝ} {c d : Cluster} {w : World} {u v : Units} {s r : Scale} (p : Pos g c) (l : Lin c)
    (hg : Good c) (f : Fresh c) (hm : ∀ x ∈ c.m, 0 ≤ x) (hM : 0 < c.m.sum) (hw : world g c = some w) (i : OrderInv w c)
    (hu : c.units = some u) (hs : unitScale g c u = some s) (p' : Pos g d) (l' : Lin d) (hg' : Good d) (f' : Fresh d)
    (hm' : ∀ x ∈ d.m, 0 ≤ x) (hM' : 0 < d.m.sum) (hw' : world g d = some w) (i' : OrderInv w d) (hv : d.units = some v)
    (hr : unitScale g d v = some r) (hf : workFrame c = workFrame d) :
    ∃ t c' t' d', halfMassRelaxationTime g γ false c = .ok (t, c') ∧ halfMassRelaxationTime g γ false d = .ok (t', d') ∧
      t * s.time = t' * r.time := by
  obtain ⟨t, c', rh, a1, -, -, a2, a3⟩ := C71_half_mass (γ := γ) p l hg f hm hM hw i hu hs
  obtain ⟨t', d', rh', b1, -, -, b2, b3⟩ := C71_half_mass (γ := γ) p' l' hg' f' hm' hM' hw' i' hv hr
  have : c.st.length = d.st.length := by rw [← world_length hw, world_length hw']
  rw [← hf, ← this] at b2
  refine ⟨t, c', t', d', a1, b1, ?_⟩
  rw [a3, b3, a2.unique b2]

theorem spitzerHalfMass_sign {γ rh : ℝ} {m : List ℝ} (hM : 0 < m.sum) (hγ : 0 < γ) (hr : 0 < rh) (hn : m ≠ []) :
    (1 < γ * m.length → 0 < spitzerHalfMass γ m rh) ∧ (γ * m.length < 1 → spitzerHalfMass γ m rh < 0) := by
  have hl : (0 : ℝ) < m.length := by exact_mod_cast List.length_pos_of_ne_nil hn
  have hG : 0 < gravPc := by norm_num [gravPc]
  have hf : 0 < pcKmsInMyr := by norm_num [pcKmsInMyr]
  have hq : 0 < Real.sqrt (rh ^ 3 / (gravPc * m.sum)) := Real.sqrt_pos.mpr (by positivity)
  constructor <;> intro h
  · have := Real.log_pos h
    unfold spitzerHalfMass; positivity
  · have := Real.log_neg (by positivity) h
    unfold spitzerHalfMass
    have h1 : 0.138 * (m.length : ℝ) / Real.log (γ * m.length) < 0 := div_neg_of_pos_of_neg (by positivity) this
    exact mul_neg_of_neg_of_pos (mul_neg_of_neg_of_pos h1 hq) hf

/-- **C72 (sign); violated for few stars:** with more than `1/γ` stars, none of them at the centre, the half-mass relaxation time is positive;
with fewer (two stars or less for the default `γ = 0.4`) a negative time is returned. -/
theorem C72_few_stars_violated {g : Galpy} {γ : ℝ} {c : Cluster} {w : World} {u : Units} {s : Scale} (p : Pos g c) (l : Lin c)
    (hg : Good c) (f : Fresh c) (hm : ∀ x ∈ c.m, 0 ≤ x) (hM : 0 < c.m.sum) (hw : world g c = some w) (i : OrderInv w c)
    (hu : c.units = some u) (hs : unitScale g c u = some s) (hγ : 0 < γ) (hr : ∀ i < c.st.length, 0 < w.radius (workFrame c) i) :
    ∃ t c', halfMassRelaxationTime g γ false c = .ok (t, c') ∧ (1 < γ * c.st.length → 0 < t) ∧ (γ * c.st.length < 1 → t < 0) := by
  obtain ⟨t, c', rh, a1, -, -, a2, a3⟩ := C71_half_mass (γ := γ) p l hg f hm hM hw i hu hs
  have ht := (unitScale_pos p hs).2.2.2
  have hmw := world_mass hw hu hs
  have hml : w.mass.length = c.st.length := by rw [hmw, List.length_map, hg.len]
  have hM' : 0 < w.mass.sum := by
    rw [hmw, List.sum_map_mul_right]
    simpa using mul_pos hM (unitScale_pos p hs).2.2.1
  have hrh : 0 < rh := by
    obtain ⟨k, hk, e⟩ := List.mem_map.mp a2.1
    rw [← e]; exact hr k (by simpa using hk)
  obtain ⟨b1, b2⟩ := spitzerHalfMass_sign (m := w.mass) hM' hγ hrh (by
    intro h; rw [h] at hml; exact hg.ne (List.length_eq_zero_iff.mp hml.symm))
  rw [hml] at b1 b2
  refine ⟨t, c', a1, fun h => ?_, fun h => ?_⟩
  · have := b1 h; rw [← a3] at this; exact pos_of_mul_pos_left this ht.le
  · have := b2 h; rw [← a3] at this
    by_contra hc
    exact absurd this (not_lt.mpr (mul_nonneg (not_lt.mp hc) ht.le))

/-- **C72 (projected).**  With `projected=True` the radius is the half-mass radius seen along z, if the projected order
stored with the cluster is right in the working frame. -/
theorem C72_projected_partial {g : Galpy} {γ : ℝ} {c : Cluster} {w : World} {u : Units} {s : Scale} {o : List ℕ} (p : Pos g c) (l : Lin c)
    (hg : Good c) (f : Fresh c) (hm : ∀ x ∈ c.m, 0 ≤ x) (hM : 0 < c.m.sum) (hw : world g c = some w) (i : OrderInv w c)
    (hu : c.units = some u) (hs : unitScale g c u = some s) (ho : c.rproorder = some o)
    (hso : SortedBy (w.radiiPro (workFrame c) c.st.length) o) :
    ∃ t c' rh, halfMassRelaxationTime g γ true c = .ok (t, c') ∧ c'.data = c.data ∧ Fresh c' ∧
      IsMassRadius 0.5 w.mass (w.radiiPro (workFrame c) c.st.length) rh ∧ t * s.time = spitzerHalfMass γ w.mass rh := by
  obtain ⟨c2, h2, ip⟩ := in_pc p l hg f hm hw i
  obtain ⟨ρ, h3, h5⟩ := ip.rmpro o ho
  have hml : w.mass.length = c.st.length := by rw [← ip.mass, ip.good.len, ip.len]
  have hmn : ∀ x ∈ w.mass, 0 ≤ x := by
    rw [world_mass hw hu hs]
    intro y hy
    obtain ⟨z, hz, rfl⟩ := List.mem_map.mp hy
    exact mul_nonneg (hm z hz) (unitScale_pos p hs).2.2.1.le
  have hmne : w.mass ≠ [] := by
    intro h; rw [h] at hml
    exact hg.ne (List.length_eq_zero_iff.mp hml.symm)
  obtain ⟨ρ', e5, h4⟩ := massFracRadius_isMassRadius (f := 0.5) (m := w.mass) hso (by simp [World.radiiPro, hml]) hmne hmn (by norm_num)
  rw [h5] at e5; cases e5
  have h0 : 0 ≤ ρ := by
    obtain ⟨k, -, e⟩ := List.mem_map.mp h4.1
    rw [← e]; exact radiusPro_nonneg _ _ _
  obtain ⟨t, c', a1, a2, a3, a4⟩ := half_run (γ := γ) (pr := true) p l hg hM hw hu hs h2 ip (by simpa using h3) h0
  exact ⟨t, c', ρ, a1, a2, a3, h4, a4⟩

/-! ### the local relaxation time -/

theorem innerMasses_spec (m r : List ℝ) (ρ : ℝ) (h : m.length = r.length) :
    (innerMasses m r ρ).sum = massWhere (· ≤ ρ) m r ∧ ((innerMasses m r ρ).length : ℝ) = numWithin r ρ := by
  classical
  unfold innerMasses massWhere numWithin
  induction m generalizing r with
  | nil => cases r with
    | nil => simp
    | cons a r => simp at h
  | cons a m ih => cases r with
    | nil => simp at h
    | cons b r =>
      obtain ⟨h1, h2⟩ := ih r (by simpa using h)
      simp only [List.zip_cons_cons, List.filter_cons, List.map_cons, List.sum_cons]
      by_cases hb : b ≤ ρ
      · simp only [hb, decide_true, if_true, List.map_cons, List.sum_cons, List.length_cons, Nat.cast_add, Nat.cast_one, h2]
        exact ⟨by rw [h1], trivial⟩
      · simp only [hb, decide_false, Bool.false_eq_true, if_false, zero_add]
        refine ⟨by rw [h1], ?_⟩
        rw [h2]

/-- **C71 (local relaxation time).**  `relaxation_time()` is Spitzer's time for the mean square speed of all stars and the mean mass and
number density of those within the half-mass radius, in the time unit of the cluster, whatever its units and origin. -/
theorem C71_relaxation {g : Galpy} {γ : ℝ} {c : Cluster} {w : World} {u : Units} {s : Scale} (p : Pos g c) (l : Lin c)
    (hg : Good c) (f : Fresh c) (hm : ∀ x ∈ c.m, 0 ≤ x) (hw : world g c = some w) (i : OrderInv w c)
    (hu : c.units = some u) (hs : unitScale g c u = some s) :
    ∃ t c' rh, relaxationTime g none γ false c = .ok (t, c') ∧ c'.data = c.data ∧ Fresh c' ∧
      IsMassRadius 0.5 w.mass (w.radii (workFrame c) c.st.length) rh ∧
      t * s.time = spitzerLocal γ w.mass (w.radii (workFrame c) c.st.length) (w.speedsSq (workFrame c) c.st.length) rh := by
  obtain ⟨c2, h2, ip⟩ := in_pc p l hg f hm hw i
  obtain ⟨ρ, h3, h4⟩ := ip.rm
  obtain ⟨c3, h5, d3, f3, -, -, r3⟩ := return_of_world (sort := false) (cm := none) p l hg ip.good ip.lin ip.rest (ip.world.trans hw.symm)
  have hu3 : c3.units = some u := (congrArg Data.units d3).trans hu
  suffices h : ∃ t, relaxationTime g none γ false c = .ok (t, c3) ∧
      t * s.time = spitzerLocal γ w.mass (w.radii (workFrame c) c.st.length) (w.speedsSq (workFrame c) c.st.length) ρ by
    obtain ⟨t, a1, a2⟩ := h
    exact ⟨t, c3, ρ, a1, d3, f3, h4, a2⟩
  unfold relaxationTime
  simp only [bind, h2, Except.bind, attr, h3, Option.elim_some, h5, pure, Except.pure, Option.isSome_none, Bool.false_eq_true, if_false]
  refine ⟨_, rfl, ?_⟩
  · simp only [hu3, Option.elim_some]
    rw [C38_time (su := 1) (st := s.time) (p.of_rest r3).nz (Or.inl rfl) (Or.inl (by rw [unitScale_of_rest r3, hs]; rfl)), mul_one,
      ip.units, ip.mass]
    have hlen : c2.st.length = w.mass.length := by rw [← ip.mass, ip.good.len]
    obtain ⟨e1, e2⟩ := innerMasses_spec w.mass (w.radii (workFrame c) c.st.length) ρ
      (by rw [← hlen, ip.len]; simp [World.radii])
    unfold spitzerLocal mean
    rw [ip.v2, ip.r, e1, e2, hlen, myrFactor_eq]
    simp only [getGrav, gravPc]
    rw [show (4.0 : ℝ) * Real.pi * ρ ^ 3 / 3.0 = 4 / 3 * Real.pi * ρ ^ 3 by norm_num; ring]

/-- **C72 is violated for a given radius:** `relaxation_time(rad)` always fails. -/
theorem C72_rad_violated {g : Galpy} {rad γ : ℝ} {pr : Bool} {c : Cluster} {w : World} (p : Pos g c) (l : Lin c)
    (hg : Good c) (f : Fresh c) (hm : ∀ x ∈ c.m, 0 ≤ x) (hw : world g c = some w) (i : OrderInv w c) :
    relaxationTime g (some rad) γ pr c = .error .nameError := by
  obtain ⟨c2, h2, ip⟩ := in_pc p l hg f hm hw i
  unfold relaxationTime
  simp only [bind, h2, Except.bind, Option.isSome_some, if_true]
  rfl

/-! ### concrete cases -/

/-- The demo cluster after an analysis satisfies the hypotheses. -/
theorem demo_analysed : ∃ c0 w, analyze true demo = .ok c0 ∧ Pos demoG c0 ∧ Lin c0 ∧ Good c0 ∧ Fresh c0 ∧ (∀ x ∈ c0.m, 0 ≤ x) ∧
    0 < c0.m.sum ∧ world demoG c0 = some w ∧ OrderInv w c0 ∧ c0.units = some .pckms ∧ c0.st.length = 2 ∧
    (∀ i < 2, 0 < w.radius (workFrame c0) i) ∧ c0.rproorder = some [1, 0] ∧ SortedBy (w.radiiPro (workFrame c0) c0.st.length) [1, 0] := by
  obtain ⟨c0, h0, g0⟩ := analyze_total (s := true) (p := true) demo_good
  obtain ⟨k1, k2, k3, k4, k5, k6, k7, k8, k9, k10, k11, k12⟩ := core_fields (analyze_core h0)
  have l0 : Lin c0 := ⟨⟨.pckms, k1, trivial⟩, ⟨.cluster, k2, trivial⟩⟩
  obtain ⟨w, hw⟩ := world_isSome (g := demoG) (c := demo) (u := .pckms) (o := .cluster) rfl trivial rfl
  have hw0 : world demoG c0 = some w := (world_core (analyze_core h0)).trans hw
  have p0 := demo_pos.of_rest k12
  have hwf : workFrame c0 = .cluster := by simp [workFrame, k2, demo]
  have hr : ∀ i (hi : i < demo.st.length), w.radius .cluster i = (demo.st[i]).r := by
    intro i hi
    rw [World.radius_eq hw rfl rfl trivial rfl one_pos i hi, List.getD_eq_getElem?_getD, List.getElem?_eq_getElem (by simpa using hi),
      Option.getD_some, List.getElem_map, mul_one]
  have hrp : ∀ i (hi : i < demo.st.length), w.radiusPro .cluster i = (demo.st[i]).rpro := by
    intro i hi
    rw [World.radiusPro_eq hw rfl rfl trivial rfl one_pos i hi, List.getElem_map, mul_one]
  have hl : demo.st.length = 2 := rfl
  have h5 : w.radius .cluster 0 = 5 := by
    rw [hr 0 (by rw [hl]; norm_num)]
    simp only [demo, Ph.r, List.getElem_cons_zero]
    rw [show (3 : ℝ) ^ 2 + 0 ^ 2 + 4 ^ 2 = 5 ^ 2 by norm_num, Real.sqrt_sq (by norm_num)]
  have h1 : w.radius .cluster 1 = 1 := by
    rw [hr 1 (by rw [hl]; norm_num)]
    simp [demo, Ph.r]
  have i0 : OrderInv w demo := by
    intro o ho
    simp only [demo, Option.some.injEq] at ho
    subst ho
    refine ⟨.cluster, rfl, trivial, ?_, ?_⟩
    · rw [world_length hw, hl]; simp only [IsOrder]; decide
    · simp [h5, h1]
  refine ⟨c0, w, h0, p0, l0, g0, analyze_fresh h0, by rw [k4]; simp [demo], by rw [k4]; norm_num [demo], hw0,
    i0.analyze p0 l0 hw0 h0, k1, by rw [k5]; rfl, ?_, analyze_rproorder (o := [1, 0]) rfl rfl h0, ?_⟩
  · intro i hi
    rw [hwf]
    interval_cases i
    · rw [h5]; norm_num
    · rw [h1]; norm_num
  · rw [hwf, k5, hl]
    refine ⟨by simp only [IsOrder, World.radiiPro, List.length_map, List.length_range]; decide, ?_⟩
    simp [World.radiiPro, List.range_succ, hrp 0 (by rw [hl]; norm_num), hrp 1 (by rw [hl]; norm_num)]
    simp [demo, Ph.rpro]

/-- C71 instances: all hypotheses hold for a two-star cluster. -/
example : ∃ (c0 : Cluster) (t : ℝ) (c' : Cluster) (rh : ℝ) (w : World), halfMassRelaxationTime demoG 4 false c0 = .ok (t, c') ∧ c'.data = c0.data ∧
    t * 1 = spitzerHalfMass 4 w.mass rh := by
  obtain ⟨c0, w, -, p, l, hg, f, hm, hM, hw, i, hu, -⟩ := demo_analysed
  obtain ⟨t, c', rh, a1, a2, -, -, a3⟩ := C71_half_mass (γ := 4) (s := ⟨1, 1, 1, 1⟩) p l hg f hm hM hw i hu rfl
  exact ⟨c0, t, c', rh, w, a1, a2, a3⟩

example : ∃ c0 t c', halfMassRelaxationTime demoG 0.4 false c0 = .ok (t, c') ∧ t < 0 := by
  obtain ⟨c0, w, -, p, l, hg, f, hm, hM, hw, i, hu, hn, hr, -⟩ := demo_analysed
  obtain ⟨t, c', a1, -, a2⟩ := C72_few_stars_violated (γ := 0.4) (s := ⟨1, 1, 1, 1⟩) p l hg f hm hM hw i hu rfl (by norm_num)
    (by rw [hn]; exact hr)
  exact ⟨c0, t, c', a1, a2 (by rw [hn]; norm_num)⟩

example : ∃ (c0 : Cluster) (t : ℝ) (c' : Cluster) (rh : ℝ) (w : World), halfMassRelaxationTime demoG 4 true c0 = .ok (t, c') ∧ t * 1 = spitzerHalfMass 4 w.mass rh := by
  obtain ⟨c0, w, -, p, l, hg, f, hm, hM, hw, i, hu, hn, hr, ho, hso⟩ := demo_analysed
  obtain ⟨t, c', rh, a1, -, -, -, a3⟩ := C72_projected_partial (γ := 4) (s := ⟨1, 1, 1, 1⟩) p l hg f hm hM hw i hu rfl ho hso
  exact ⟨c0, t, c', rh, w, a1, a3⟩

/-- **C72 is violated in projection:** the projected order of the previous frame is reused; for this cluster given from the galactic centre
the radius used is 2, although half of its mass is seen within 1 of its centre. -/
theorem C72_projected_violated (γ : ℝ) : ∃ c w t c', Good c ∧ Pos demoG c ∧ Lin c ∧ Fresh c ∧ world demoG c = some w ∧ OrderInv w c ∧
    (∀ o, c.rproorder = some o → SortedBy (c.st.map Ph.rpro) o) ∧ w.mass = [1, 1] ∧ w.radiiPro (workFrame c) 2 = [2, 1] ∧
    halfMassRelaxationTime demoG γ true c = .ok (t, c') ∧ t = spitzerHalfMass γ w.mass 2 ∧
    IsMassRadius 0.5 w.mass (w.radiiPro (workFrame c) 2) 1 := by
  set d : Cluster := { demoStale with c := ⟨0, 0, 0, 0, 0, 0⟩ } with hd
  have g : Good d := ⟨demoStale_good.ne, demoStale_good.len, demoStale_good.mass, demoStale_good.ro, demoStale_good.rpo⟩
  have p0 : Pos demoG d :=
    ⟨demo_pos.rbar, demo_pos.vbar, demo_pos.zmbar, demo_pos.tbar, demo_pos.ro, demo_pos.vo, demo_pos.time,
      demo_pos.mass, demo_pos.vel⟩
  obtain ⟨c0, h0, g0⟩ := analyze_total (s := true) (p := true) g
  obtain ⟨k1, k2, k3, k4, k5, k6, k7, k8, k9, k10, k11, k12⟩ := core_fields (analyze_core h0)
  have l0 : Lin c0 := ⟨⟨.pckms, k1, trivial⟩, ⟨.galaxy, k2, trivial⟩⟩
  have p1 := p0.of_rest k12
  obtain ⟨w, hw⟩ := world_isSome (g := demoG) (c := d) (u := .pckms) (o := .galaxy) rfl trivial rfl
  have hw0 : world demoG c0 = some w := (world_core (analyze_core h0)).trans hw
  have hwf : workFrame c0 = .centre := by simp [workFrame, k2, d, demoStale]
  have hst : c0.st = [⟨8, 0, 0, 0, 0, 0⟩, ⟨11, 0, 0, 0, 0, 0⟩] := k5
  have hmass : w.mass = [1, 1] := by
    rw [world_mass (s := ⟨1, 1, 1, 1⟩) hw rfl rfl]; simp [d, demoStale]
  have hrad : w.radiiPro .centre 2 = [2, 1] := by
    have hw' := hw
    unfold world phys at hw'
    simp only [d, demoStale, demo, unitScale, Option.some.injEq] at hw'
    rw [← hw']
    simp [World.radiiPro, World.radiusPro, List.range_succ, galRows, galactocentric, frameOffset, phAdd, Scale.ph]
    norm_num [Real.sqrt_sq_eq_abs]
    rw [show (4 : ℝ) = 2 ^ 2 by norm_num, Real.sqrt_sq (by norm_num)]
  have hrg : ∀ i (hi : i < d.st.length), w.radius .galaxy i = (d.st[i]).r := by
    intro i hi
    rw [World.radius_eq hw rfl rfl trivial rfl one_pos i hi, List.getD_eq_getElem?_getD, List.getElem?_eq_getElem (by simpa using hi),
      Option.getD_some, List.getElem_map, mul_one]
  have hl : d.st.length = 2 := rfl
  have i0 : OrderInv w d := by
    intro o ho
    simp only [d, demoStale, Option.some.injEq] at ho
    subst ho
    refine ⟨.galaxy, rfl, trivial, ?_, ?_⟩
    · rw [world_length hw, hl]; simp only [IsOrder]; decide
    · simp [hrg 0 (by rw [hl]; norm_num), hrg 1 (by rw [hl]; norm_num)]
      simp [d, demoStale, Ph.r, Real.sqrt_sq_eq_abs]
      norm_num
  have i1 := i0.analyze p1 l0 hw0 h0
  have f0 := analyze_fresh h0
  have hro : c0.rproorder = some [0, 1] := analyze_rproorder (o := [0, 1]) rfl rfl h0
  have hn2 : c0.st.length = 2 := by rw [hst]; rfl
  have hm0 : c0.m = [1, 1] := k4
  obtain ⟨c2, h2, ip⟩ := in_pc p1 l0 g0 f0 (by rw [hm0]; simp) hw0 i1
  obtain ⟨ρ, h3, h5⟩ := ip.rmpro _ hro
  rw [hwf, hn2, hrad, hmass] at h5
  have e0 : massFracRadius 0.5 ([1, 1] : List ℝ).sum [1, 1] [2, 1] [0, 1] = .ok 2 := by
    simp [massFracRadius, cumsum, cumsumFrom, List.findIdx?_cons]
    norm_num
  rw [e0] at h5; cases h5
  obtain ⟨t, c', a1, a2, a3, a4⟩ := half_run (γ := γ) (pr := true) (s := ⟨1, 1, 1, 1⟩) p1 l0 g0 (by rw [hm0]; norm_num) hw0 k1 rfl h2 ip
    (by simpa using h3) (by norm_num)
  refine ⟨c0, w, t, c', g0, p1, l0, f0, hw0, i1, ?_, hmass, by rw [hwf, hrad], a1, by simpa using a4, ?_⟩
  · intro o ho
    rw [hro] at ho; cases ho
    refine ⟨by simp only [IsOrder, List.length_map, hn2]; decide, ?_⟩
    simp [hst, Ph.rpro, Real.sqrt_sq_eq_abs]
    norm_num
  · rw [hwf, hrad, hmass]
    refine ⟨by simp, by simp [massWhere]; norm_num, fun x hx hlt => ?_⟩
    simp only [List.mem_cons, List.not_mem_nil, or_false] at hx
    rcases hx with rfl | rfl <;> norm_num at hlt

end

end CT
