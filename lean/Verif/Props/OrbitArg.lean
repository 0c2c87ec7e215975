/- The keyword `orbit` of `load_cluster` and `advance_cluster` (C110, C111). -/
import Verif.Model.OrbitArg
import Verif.Lemmas.IO
import Verif.Lemmas.Gyr
import Verif.Lemmas.Return
import Verif.Props.Energy2
import Verif.Props.IO3

namespace CT

noncomputable section

/-- A row in kpc and km/s, in pc and km/s. -/
def orbRow (q : Ph) : Ph := ⟨1000 * q.x, 1000 * q.y, 1000 * q.z, q.vx, q.vy, q.vz⟩

/-- The cluster is on the orbit at its own time: `orb` takes a time in units of `T0` Gyr to a row in kpc and km/s. -/
def OnOrbit (g : Galpy) (orb : ℝ → Ph) (T0 : ℝ) (c : Cluster) : Prop :=
  ∃ P, phys g c = some P ∧ P.gc = orbRow (orb (P.time / 1000 / T0))

/-- The rest of `load_cluster` after the position is set. -/
theorem centre_again {g : Galpy} {fc : Cluster → Except Err Cluster} (hfc : CentreFinder g fc) {c : Cluster} (p : Pos g c) (l : Lin c)
    (hg : Good c) (fr : Fresh c) (ho : c.origin = some .galaxy ∨ c.origin = some .cluster) :
    ∃ c', (do
        let c2 ← toCluster false none c
        let c3 ← fc c2
        returnCluster g (saveCluster c) false none c3) = .ok c' ∧ (∃ q, c'.data = { c with c := q }.data) ∧ Fresh c' ∧ Good c' ∧
      c'.rest = c.rest := by
  have hu := lin_units l
  obtain ⟨o, ho', hl⟩ := l.origin
  obtain ⟨c1, h1, g1⟩ := toCluster_total (s := false) (cm := none) hu hg
  have s1 := toCluster_ostep ho' hl hu h1
  have f1 := toCluster_fresh fr h1
  have p1 := p.of_rest s1.rest
  have l1 : Lin c1 := ⟨by rw [s1.units]; exact l.units, _, s1.origin, trivial⟩
  obtain ⟨c2, h2, k2, e2⟩ := hfc c1 p1 l1 g1 f1
  have eg := e2 s1.origin
  obtain ⟨d, hd⟩ : ∃ d : Cluster, d = { c with c := c2.c } := ⟨_, rfl⟩
  have rd : d.rest = c.rest := by rw [hd]; rfl
  have od : d.origin = c.origin := by rw [hd]
  have st : OStep .cluster d c2 := by
    refine ⟨?_, k2.origin.trans s1.origin, ?_, ?_, ?_, ?_, ?_, ?_⟩
    · rw [k2.units, s1.units, hd]
    · rw [k2.tphys, s1.tphys, hd]
    · rw [k2.m, s1.m, hd]
    · rw [hd]
    · rw [eg, s1.gcp, hd]
    · rw [k2.rest, s1.rest, rd]
    · intro o0 h0
      rw [od] at h0
      have r := s1.rows _ h0
      rw [eg, k2.st, galRows_cluster_centre c2.c c1.c, r, hd]
      rcases ho with h | h <;> (rw [h] at h0; cases h0; rfl)
  have hw : world g c2 = world g d := st.world (by rw [od, ho']; simp)
  have pd : Pos g d := p.of_rest rd
  have ld : Lin d := by rw [hd]; exact ⟨l.units, l.origin⟩
  have gd : Good d := by rw [hd]; exact hg.same rfl rfl rfl rfl
  obtain ⟨c3, h3, e3, f3, g3, -, r3⟩ := return_of_world (sort := false) (cm := none) pd ld gd k2.good
    ⟨by rw [st.units]; exact ld.units, _, st.origin, trivial⟩ st.rest hw
  have hs : saveCluster d = saveCluster c := by rw [hd]; rfl
  rw [hs] at h3
  exact ⟨c3, by simp only [h1, h2, h3, bind, Except.bind], ⟨c2.c, by rw [e3, hd]⟩, f3, g3, r3.trans rd⟩

/-- `orbitGiven` in the two unit systems it handles. -/
theorem orbitGiven_on {g : Galpy} {orb : ℝ → Ph} {T0 : ℝ} {c : Cluster} (p : Pos g c)
    (hu : c.units = some .pckms ∨ c.units = some .nbody) :
    ∃ q, orbitGiven g orb T0 c = .ok { c with gc := q } ∧ OnOrbit g orb T0 { c with gc := q } := by
  have hr := p.rbar.ne'
  have hv := p.vbar.ne'
  rcases hu with hu | hu
  · refine ⟨⟨(orb (c.tphys / 1000 / T0)).x * 1000, (orb (c.tphys / 1000 / T0)).y * 1000, (orb (c.tphys / 1000 / T0)).z * 1000,
      (orb (c.tphys / 1000 / T0)).vx, (orb (c.tphys / 1000 / T0)).vy, (orb (c.tphys / 1000 / T0)).vz⟩, ?_, ?_⟩
    · unfold orbitGiven
      simp [hu, addOrbit]
    · unfold OnOrbit phys
      simp only [hu, unitScale]
      refine ⟨_, rfl, ?_⟩
      simp only [Scale.ph, orbRow, mul_one]
      simp only [mul_comm]
  · obtain ⟨t, ht⟩ : ∃ t, t = c.tphys * c.tbar / 1000 / T0 := ⟨_, rfl⟩
    refine ⟨⟨(orb t).x * 1000 / c.rbar, (orb t).y * 1000 / c.rbar, (orb t).z * 1000 / c.rbar, (orb t).vx / c.vbar,
      (orb t).vy / c.vbar, (orb t).vz / c.vbar⟩, ?_, ?_⟩
    · unfold orbitGiven
      simp [hu, addOrbit, ht]
    · unfold OnOrbit phys
      simp only [hu, unitScale]
      refine ⟨_, rfl, ?_⟩
      simp only [Scale.ph, orbRow, div_mul_cancel₀ _ hr, div_mul_cancel₀ _ hv, ← ht]
      simp only [mul_comm]

/-- Being on the orbit depends on the labels, the time, the position and the scales. -/
theorem OnOrbit.same {g : Galpy} {orb : ℝ → Ph} {T0 : ℝ} {c d : Cluster} (h : OnOrbit g orb T0 d) (e1 : c.units = d.units)
    (e2 : c.tphys = d.tphys) (e3 : c.gc = d.gc) (r : c.rest = d.rest) : OnOrbit g orb T0 c := by
  obtain ⟨P, h1, h2⟩ := h
  obtain ⟨x1, x2, x3, x4⟩ := rest_scales r
  unfold OnOrbit phys
  unfold phys at h1
  rw [e1]
  cases hx : d.units with
  | none => rw [hx] at h1; cases h1
  | some u =>
    have hs : unitScale g c u = unitScale g d u := by
      unfold unitScale
      rw [x1, x2, x3, x4]
    rw [hx] at h1
    simp only [hs, e2, e3] at h1 ⊢
    cases hy : unitScale g d u with
    | none => rw [hy] at h1; cases h1
    | some sc =>
      rw [hy] at h1
      cases h1
      exact ⟨_, rfl, h2⟩

/-- C110: `load_cluster(…, orbit=orbit)`, in pc and km/s and in N-body units, puts the cluster on the orbit at the physical time
of the snapshot and changes no star: same masses, same positions and velocities in the same order, same labels and time, and
the radii and totals describe them. -/
theorem C110_load_orbit {g : Galpy} {fc : Cluster → Except Err Cluster} (hfc : CentreFinder g fc) (orb : ℝ → Ph) (T0 : ℝ)
    {c : Cluster} (p : Pos g c) (l : Lin c) (hg : Good c) (fr : Fresh c)
    (hu : c.units = some .pckms ∨ c.units = some .nbody)
    (ho : c.origin = some .galaxy ∨ c.origin = some .cluster) :
    ∃ c', loadOrbit g fc orb T0 c = .ok c' ∧ OnOrbit g orb T0 c' ∧ c'.units = c.units ∧ c'.origin = c.origin ∧ c'.tphys = c.tphys ∧
      c'.m = c.m ∧ c'.st = c.st ∧ Fresh c' ∧ Good c' := by
  obtain ⟨q, hq, on⟩ := orbitGiven_on (orb := orb) (T0 := T0) p hu
  obtain ⟨d, hd⟩ : ∃ d : Cluster, d = { c with gc := q } := ⟨_, rfl⟩
  rw [← hd] at hq on
  have rd : d.rest = c.rest := by rw [hd]; rfl
  have ld : Lin d := by rw [hd]; exact ⟨l.units, l.origin⟩
  have gd : Good d := by rw [hd]; exact hg.same rfl rfl rfl rfl
  have fd : Fresh d := by rw [hd]; exact fr.moved q c.tphys
  have od : d.origin = c.origin := by rw [hd]
  obtain ⟨c', h, ⟨z, hz⟩, f', g', r'⟩ := centre_again hfc (p.of_rest rd) ld gd fd (by rw [od]; exact ho)
  have e : c'.units = d.units ∧ c'.origin = d.origin ∧ c'.tphys = d.tphys ∧ c'.m = d.m ∧ c'.st = d.st ∧ c'.gc = d.gc := by
    simp only [Cluster.data, Data.mk.injEq] at hz
    tauto
  obtain ⟨e1, e2, e3, e4, e5, e6⟩ := e
  refine ⟨c', ?_, ?_, by rw [e1, hd], by rw [e2, hd], by rw [e3, hd], by rw [e4, hd], by rw [e5, hd], f', g'⟩
  · have hs : d.origin.isSome = true := by
      rw [od]; rcases ho with h | h <;> rw [h] <;> rfl
    unfold loadOrbit
    rw [hq]
    simp only [bind, Except.bind] at h ⊢
    rw [if_pos hs]
    exact h
  · exact on.same e1 e3 e6 r'

/-- The hypotheses of C110 are met: the demo cluster on a moving orbit. -/
example : ∃ c c', CentreFinder demoG (findCentreDefault demoG) ∧
    loadOrbit demoG (findCentreDefault demoG) (fun t => ⟨8 + t, t, 0, 0, 220, 0⟩) 0.03 c = .ok c' ∧ c'.st = demo.st ∧
    c'.tphys = c.tphys := by
  obtain ⟨c, -, p, l, hg, f, hm, hst, ho, hu⟩ := demo_fresh
  obtain ⟨c', h, -, -, -, h5, -, h7, -⟩ := C110_load_orbit (findCentreDefault_ok demoG) (fun t => ⟨8 + t, t, 0, 0, 220, 0⟩) 0.03
    p l hg f (.inl hu) (.inr ho)
  exact ⟨c, c', findCentreDefault_ok demoG, h, h7.trans hst, h5⟩

/-! ### C111 -/

/-- C111, violated: in kpc and km/s `load_cluster(…, orbit=orbit)` raises `UnboundLocalError`, whatever the cluster and the
orbit. -/
theorem C111_load_kpckms_violated (g : Galpy) (fc : Cluster → Except Err Cluster) (orb : ℝ → Ph) (T0 : ℝ) {c : Cluster}
    (hu : c.units = some .kpckms) : loadOrbit g fc orb T0 c = .error .nameError := by
  unfold loadOrbit orbitGiven
  simp only [hu]
  rfl

/-- The stars and the position set by `orbitGiven` survive the rest of `load_cluster`. -/
theorem loadOrbit_after {g : Galpy} {fc : Cluster → Except Err Cluster} (hfc : CentreFinder g fc) {orb : ℝ → Ph} {T0 : ℝ}
    {c : Cluster} {q : Ph} (p : Pos g c) (l : Lin c) (hg : Good c) (fr : Fresh c)
    (ho : c.origin = some .galaxy ∨ c.origin = some .cluster) (h : orbitGiven g orb T0 c = .ok { c with gc := q }) :
    ∃ c', loadOrbit g fc orb T0 c = .ok c' ∧ c'.units = c.units ∧ c'.tphys = c.tphys ∧ c'.gc = q ∧ c'.st = c.st ∧
      c'.rest = c.rest := by
  obtain ⟨d, hd⟩ : ∃ d : Cluster, d = { c with gc := q } := ⟨_, rfl⟩
  rw [← hd] at h
  have rd : d.rest = c.rest := by rw [hd]; rfl
  have ld : Lin d := by rw [hd]; exact ⟨l.units, l.origin⟩
  have gd : Good d := by rw [hd]; exact hg.same rfl rfl rfl rfl
  have fd : Fresh d := by rw [hd]; exact fr.moved q c.tphys
  have od : d.origin = c.origin := by rw [hd]
  obtain ⟨c', h', ⟨z, hz⟩, -, -, r'⟩ := centre_again hfc (p.of_rest rd) ld gd fd (by rw [od]; exact ho)
  have e : c'.units = d.units ∧ c'.tphys = d.tphys ∧ c'.gc = d.gc ∧ c'.st = d.st := by
    simp only [Cluster.data, Data.mk.injEq] at hz
    tauto
  obtain ⟨e1, e2, e3, e4⟩ := e
  refine ⟨c', ?_, by rw [e1, hd], by rw [e2, hd], by rw [e3, hd], by rw [e4, hd], r'.trans rd⟩
  have hs : d.origin.isSome = true := by
    rw [od]; rcases ho with h | h <;> rw [h] <;> rfl
  unfold loadOrbit
  rw [h]
  simp only [bind, Except.bind] at h' ⊢
  rw [if_pos hs]
  exact h'

/-- C111, violated: in galpy units the numbers 8 and 220 are used for the scales of galpy, so with any other `ro` the cluster is
not on the orbit, even on one that stands still. -/
theorem C111_load_galpy_violated {g : Galpy} {fc : Cluster → Except Err Cluster} (hfc : CentreFinder g fc) (q : Ph) (T0 : ℝ)
    {c : Cluster} (p : Pos g c) (l : Lin c) (hg : Good c) (fr : Fresh c) (hu : c.units = some .galpy)
    (ho : c.origin = some .galaxy ∨ c.origin = some .cluster) (hx : q.x ≠ 0) (hro : g.ro ≠ 8) :
    ∃ c', loadOrbit g fc (fun _ => q) T0 c = .ok c' ∧ ¬OnOrbit g (fun _ => q) T0 c' := by
  have h0 : orbitGiven g (fun _ => q) T0 c =
      .ok { c with gc := ⟨q.x / 8, q.y / 8, q.z / 8, q.vx / 220, q.vy / 220, q.vz / 220⟩ } := by
    unfold orbitGiven
    simp [hu, addOrbit]
  obtain ⟨c', h, e1, -, e3, -⟩ := loadOrbit_after hfc p l hg fr ho h0
  refine ⟨c', h, ?_⟩
  rintro ⟨P, h1, h2⟩
  unfold phys at h1
  rw [e1, hu] at h1
  simp only [unitScale, Option.some.injEq] at h1
  subst h1
  have := congrArg Ph.x h2
  rw [e3] at this
  simp only [Scale.ph, orbRow] at this
  apply hro
  apply mul_left_cancel₀ hx
  linarith

/-- C111, violated: in pc and pc/Myr, in kpc and kpc/Gyr, and in the two remaining unit systems, the orbit is ignored: the
cluster stays where the reader put it. -/
theorem C111_load_ignored_violated {g : Galpy} {fc : Cluster → Except Err Cluster} (hfc : CentreFinder g fc) (orb : ℝ → Ph) (T0 : ℝ)
    {c : Cluster} (p : Pos g c) (l : Lin c) (hg : Good c) (fr : Fresh c)
    (hu : c.units = some .pcmyr ∨ c.units = some .kpcgyr ∨ c.units = some .amuse ∨ c.units = some .WDunits)
    (ho : c.origin = some .galaxy ∨ c.origin = some .cluster) :
    ∃ c', loadOrbit g fc orb T0 c = .ok c' ∧ c'.gc = c.gc := by
  have h0 : orbitGiven g orb T0 c = .ok { c with gc := c.gc } := by
    unfold orbitGiven
    rcases hu with hu | hu | hu | hu <;> simp [hu]
  obtain ⟨c', h, -, -, e3, -⟩ := loadOrbit_after hfc p l hg fr ho h0
  exact ⟨c', h, e3⟩

/-- What `advance_cluster(…, orbit=orbit)` does when it does not raise: the row of the orbit, in kpc and km/s, becomes the
cluster's position whatever the cluster's units. -/
theorem advanceOrbit_ok {g : Galpy} {orb : ℝ → Ph} {T0 t : ℝ} {c : Cluster} (l : Lin c) (h : advanceTime T0 c = .ok t) :
    advanceOrbit g orb T0 c = .ok { c with gc := orb t } := by
  have hu := lin_units l
  unfold advanceOrbit
  simp only [h, bind, Except.bind, pure, Except.pure]
  simp [addOrbit, hu]

/-- C111, violated: `advance_cluster(…, orbit=orbit)` in pc and km/s, N-body or galpy units stores kiloparsecs as if they were
the cluster's own unit: the cluster is not on the orbit, even on one that stands still, unless the unit of length happens to be
the kiloparsec. -/
theorem C111_advance_length_violated {g : Galpy} (q : Ph) (T0 : ℝ) {c : Cluster} (l : Lin c) (hx : q.x ≠ 0)
    (hu : c.units = some .pckms ∨ (c.units = some .nbody ∧ c.rbar ≠ 1000) ∨ (c.units = some .galpy ∧ g.ro ≠ 1)) :
    ∃ c', advanceOrbit g (fun _ => q) T0 c = .ok c' ∧ ¬OnOrbit g (fun _ => q) T0 c' := by
  obtain ⟨t, ht⟩ : ∃ t, advanceTime T0 c = .ok t := by
    unfold advanceTime
    rcases hu with hu | ⟨hu, -⟩ | ⟨hu, -⟩ <;> simp [hu]
  refine ⟨_, advanceOrbit_ok l ht, ?_⟩
  rintro ⟨P, h1, h2⟩
  unfold phys at h1
  rcases hu with hu | ⟨hu, hn⟩ | ⟨hu, hn⟩ <;> simp only [hu, unitScale, Option.some.injEq] at h1 <;> subst h1 <;>
    have h3 := congrArg Ph.x h2 <;> simp only [Scale.ph, orbRow] at h3
  · apply hx; linarith
  · apply hn; apply mul_left_cancel₀ hx; linarith
  · apply hn; apply mul_left_cancel₀ hx; linarith

/-- C111, violated: in kpc and km/s, where times are in Gyr, `advance_cluster(…, orbit=orbit)` uses the position of the orbit a
thousand times too early: on any orbit that passes through different places at the two times the cluster is misplaced. -/
theorem C111_advance_time_violated {g : Galpy} {orb : ℝ → Ph} {T0 : ℝ} {c : Cluster} (l : Lin c) (hu : c.units = some .kpckms)
    (hx : (orb (c.tphys / 1000 / T0)).x ≠ (orb (c.tphys / T0)).x) :
    ∃ c', advanceOrbit g orb T0 c = .ok c' ∧ ¬OnOrbit g orb T0 c' := by
  have ht : advanceTime T0 c = .ok (c.tphys / 1000 / T0) := by
    unfold advanceTime
    simp [hu]
  refine ⟨_, advanceOrbit_ok l ht, ?_⟩
  rintro ⟨P, h1, h2⟩
  unfold phys at h1
  simp only [hu, unitScale, Option.some.injEq] at h1
  subst h1
  have h3 := congrArg Ph.x h2
  simp only [Scale.ph, orbRow] at h3
  have e : c.tphys * 1000 / 1000 = c.tphys := by ring
  rw [e] at h3
  apply hx
  linarith

/-- C111, violated: in the other unit systems `advance_cluster(…, orbit=orbit)` raises. -/
theorem C111_advance_units_violated (g : Galpy) (orb : ℝ → Ph) (T0 : ℝ) {c : Cluster}
    (hu : c.units = some .pcmyr ∨ c.units = some .kpcgyr ∨ c.units = some .amuse ∨ c.units = some .WDunits ∨ c.units = some .radec ∨
      c.units = none) :
    advanceOrbit g orb T0 c = .error .nameError := by
  unfold advanceOrbit advanceTime
  rcases hu with hu | hu | hu | hu | hu | hu <;> (simp only [hu]; rfl)

/-- The hypotheses of C111 are met: the demo cluster, in pc and km/s, on an orbit that stands still. -/
example : ∃ c', advanceOrbit demoG (fun _ => ⟨8, 0, 0, 0, 220, 0⟩) 0.03 demo = .ok c' ∧
    ¬OnOrbit demoG (fun _ => ⟨8, 0, 0, 0, 220, 0⟩) 0.03 c' :=
  C111_advance_length_violated _ _ demo_lin (by norm_num) (.inl rfl)

/-- A cluster in given units with the demo stars, analysed. -/
theorem demo_units (u : Units) (hl : u.linear) : ∃ c, c.units = some u ∧ Pos { demoG with ro := 8.275 } c ∧ Lin c ∧ Good c ∧ Fresh c ∧ c.origin = some .cluster ∧
    c.tphys = 12 := by
  have hg : Good { demo with units := some u } := demo_good.same rfl rfl rfl rfl
  obtain ⟨c, h, g'⟩ := analyze_total (s := true) (p := true) hg
  obtain ⟨h1, h2, h3, h4, h5, h6⟩ := analyze_same h
  have e := core_fields (analyze_core h)
  have r : c.rest = demo.rest := e.2.2.2.2.2.2.2.2.2.2.2
  have pd : Pos { demoG with ro := 8.275 } demo := by constructor <;> norm_num [demoG, demo]
  refine ⟨c, h3, pd.of_rest r, ⟨⟨u, h3, hl⟩, _, h4, trivial⟩, g', analyze_fresh h, h4, e.2.2.1⟩

/-- The hypotheses of the galpy case are met. -/
example : ∃ c c', CentreFinder { demoG with ro := 8.275 } (findCentreDefault { demoG with ro := 8.275 }) ∧
    loadOrbit { demoG with ro := 8.275 } (findCentreDefault { demoG with ro := 8.275 }) (fun _ => ⟨8, 0, 0, 0, 220, 0⟩) 0.03 c = .ok c' := by
  obtain ⟨c, hu, p, l, hg, f, ho, -⟩ := demo_units .galpy trivial
  obtain ⟨c', h, -⟩ := C111_load_galpy_violated (findCentreDefault_ok _) ⟨8, 0, 0, 0, 220, 0⟩ 0.03 p l hg f hu (.inr ho)
    (by norm_num) (by norm_num)
  exact ⟨c, c', findCentreDefault_ok _, h⟩

/-- The hypotheses of the ignored orbit are met. -/
example : ∃ c c', c.units = some .pcmyr ∧ loadOrbit { demoG with ro := 8.275 } (findCentreDefault { demoG with ro := 8.275 })
    (fun t => ⟨8 + t, 0, 0, 0, 220, 0⟩) 0.03 c = .ok c' ∧ c'.gc = c.gc := by
  obtain ⟨c, hu, p, l, hg, f, ho, -⟩ := demo_units .pcmyr trivial
  obtain ⟨c', h, e⟩ := C111_load_ignored_violated (findCentreDefault_ok _) (fun t => ⟨8 + t, 0, 0, 0, 220, 0⟩) 0.03 p l hg f (.inl hu) (.inr ho)
  exact ⟨c, c', hu, h, e⟩

/-- The hypotheses of the wrong time are met. -/
example : ∃ c c', c.units = some .kpckms ∧ advanceOrbit demoG (fun t => ⟨8 + t, 0, 0, 0, 220, 0⟩) 0.03 c = .ok c' ∧
    ¬OnOrbit demoG (fun t => ⟨8 + t, 0, 0, 0, 220, 0⟩) 0.03 c' := by
  obtain ⟨c, hu, -, l, -, -, -, ht⟩ := demo_units .kpckms trivial
  obtain ⟨c', h, e⟩ := C111_advance_time_violated (g := demoG) (orb := fun t => ⟨8 + t, 0, 0, 0, 220, 0⟩) (T0 := 0.03) l hu
    (by simp only [ht]; norm_num)
  exact ⟨c, c', hu, h, e⟩

end

end CT
