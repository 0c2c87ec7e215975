/- C179, C180: orbits integrated with scales of their own. -/
import Verif.Spec.InterpScales
import Verif.Props.InterpSteps
import Verif.Props.Interp3

namespace CT

noncomputable section

set_option linter.unusedSimpArgs false

variable {g h : Galpy} {S : Truth} {c : Cluster} {flow : ℝ → Ph → Ph} {a : PathArgs}

theorem initializeOrbitWith_lin (fc : Bool) (hu : c.units ≠ some .radec) : initializeOrbitWith g h fc c = initializeOrbit g fc c := by
  unfold initializeOrbitWith initializeOrbit
  rw [if_neg hu, if_neg hu]

/-- **C179 (default).**  Giving the cluster's own scales is giving none. -/
theorem C179_default (g : Galpy) (flow : ℝ → Ph → Ph) (a : PathArgs) (c : Cluster) :
    interpolateOrbitWith g g flow a c = interpolateOrbit g flow a c ∧ interpolateOrbitMethodWith g g flow a c = interpolateOrbitMethod g flow a c :=
  ⟨rfl, rfl⟩

theorem natural_rescaled (p : Pos g c) (k : h.Scales) (P : Ph) : natural g P = natural h (rescaled g h P) := by
  have h1 := p.ro.ne'
  have h2 := p.vo.ne'
  have h3 := k.ro.ne'
  have h4 := k.vo.ne'
  unfold natural rescaled
  ext <;> simp only <;> field_simp

theorem orbitRow_with (k : h.Scales) (t : ℝ) (P : Ph) :
    orbitRow h (flow t (natural h P)) = kpcRow (orbitAt h flow (t * (1000 * h.timeGyr)) P) := by
  have h1 := k.time.ne'
  have e : t * (1000 * h.timeGyr) / (1000 * h.timeGyr) = t := by field_simp
  unfold orbitRow orbitAt kpcRow
  rw [e]
  ext <;> simp only [Ph.mulPos, Ph.mulVel, natural] <;> ring

theorem skySpan_with (k : h.Scales) (hu : c.units = some .radec) (T : Option ℝ) : integrateTime h c T * (1000 * h.timeGyr) = skySpan T := by
  have h1 := k.time.ne'
  cases T with
  | none =>
    simp only [integrateTime, skySpan, Option.elim]
    field_simp
    norm_num
  | some T =>
    simp only [integrateTime, naturalTime, skySpan, Option.elim, hu]
    simp [Units.isPc, Units.isKpc]
    field_simp

/-- **C179 (on the sky).**  On the sky the given scales are used throughout: if a body at `P` is seen, at the given scales, where the cluster is
seen, `interpolate_orbit` returns where that body is seen after the given time, and leaves the cluster as it was. -/
theorem C179_sky {c0 : Cluster} {ks : List Call} (p : Pos g c0) (l : Lin c0) (hg : Good c0) (hd : DescribesLinear g S c0)
    (hc : CachesOf g S c0) (e : calls g ks c0 = .ok c) (hu : c.units = some .radec) (ho : c.origin = some .sky) (hn : 2 ≤ a.nt) (k : h.Scales)
    {P : Ph} (hP : h.ofSky (g.toSky (kpcRow S.gc)) = kpcRow P) :
    ∃ c', interpolateOrbitWith g h flow a c = .ok (h.toSky (kpcRow (orbitAt h flow (skySpan a.tfinal) P)), c') ∧ SameSky c c' ∧ Fresh c' := by
  have i := sky_reached p l hg hd hc e hu
  obtain ⟨c', h', g', k', f'⟩ := return_stay (g := g) i.good false none
  have i2 : SkyInv g S c' := i.of_keep ((SkyKeep.refl c).core k') g' (by rw [core_origin k']; exact i.state.origin)
    (fun _ => (core_st k').trans (i.state.sky ho))
  refine ⟨c', ?_, i.same i2 (core_origin k'), f'⟩
  have hi : initializeOrbitWith g h a.fromCentre c = .ok (natural h P, c) := by
    unfold initializeOrbitWith
    rw [if_pos hu, i.skyGc_eq, hP, natural_sky]
  have ht := orbitRow_with (flow := flow) k (integrateTime h c a.tfinal) P
  rw [skySpan_with k hu] at ht
  unfold interpolateOrbitWith interpStart
  simp only [hu, reduceCtorEq, Option.some.injEq, if_false, bind, Except.bind, hi, lastTime_ok hn, if_true, ho, ne_eq, not_true_eq_false, h', pure,
    Except.pure, ht]

/-- **C179 (no time).**  With no time to move in, the place returned is where the cluster is seen. -/
theorem C179_no_time (hf : IsFlow flow) {c0 : Cluster} {ks : List Call} (p : Pos g c0) (l : Lin c0) (hg : Good c0) (hd : DescribesLinear g S c0)
    (hc : CachesOf g S c0) (e : calls g ks c0 = .ok c) (hu : c.units = some .radec) (ho : c.origin = some .sky) (hn : 2 ≤ a.nt)
    (hT : a.tfinal = some 0) (k : h.Scales) (hi : h.toSky (h.ofSky (g.toSky (kpcRow S.gc))) = g.toSky (kpcRow S.gc)) :
    ∃ c', interpolateOrbitWith g h flow a c = .ok (g.toSky (kpcRow S.gc), c') ∧ SameSky c c' ∧ Fresh c' := by
  generalize hx : h.ofSky (g.toSky (kpcRow S.gc)) = X at hi
  have hP : X = kpcRow ⟨X.x * 1000, X.y * 1000, X.z * 1000, X.vx, X.vy, X.vz⟩ := by
    unfold kpcRow; ext <;> simp
  obtain ⟨c', m1, m2, m3⟩ := C179_sky (h := h) (flow := flow) (a := a) p l hg hd hc e hu ho hn k (hx.trans hP)
  refine ⟨c', ?_, m2, m3⟩
  have h0 : skySpan a.tfinal = 0 := by rw [hT]; simp [skySpan]
  have hz : orbitAt h flow 0 ⟨X.x * 1000, X.y * 1000, X.z * 1000, X.vx, X.vy, X.vz⟩ = ⟨X.x * 1000, X.y * 1000, X.z * 1000, X.vx, X.vy, X.vz⟩ := by
    have h1 := k.ro.ne'
    have h2 := k.vo.ne'
    have hL : 1000 * h.ro ≠ 0 := by positivity
    simp only [orbitAt, zero_div, hf.zero, div_mul_cancel₀ _ hL, div_mul_cancel₀ _ h2]
  rw [h0, hz, ← hP, hi] at m1
  exact m1

variable {w : World} {u : Units} {s : Scale}

theorem integrateTime_with (k : h.Scales) (hu : c.units = some u) (hs : unitScale g c u = some s) (T : Option ℝ) :
    integrateTime h c T * (1000 * h.timeGyr) = spanWith h s u T := by
  have h1 := k.time.ne'
  cases T with
  | none =>
    simp only [integrateTime, spanWith, spanMyr, Option.elim, ite_self]
    field_simp
    norm_num
  | some T =>
    cases u <;> simp only [unitScale, Option.some.injEq, reduceCtorEq] at hs <;> subst hs <;>
      simp [integrateTime, spanWith, spanMyr, naturalTime, hu, Units.isPc, Units.isKpc] <;> field_simp

theorem spanWith_zero (h : Galpy) (s : Scale) (u : Units) : spanWith h s u (some 0) = 0 := by simp [spanWith, spanMyr]

/-- The row read off with `h` and put in the units of the cluster. -/
theorem convertRow_with (p : Pos g c) (k : h.Scales) (hu : c.units = some u) (hs : unitScale g c u = some s) (t : ℝ) (P : Ph) :
    Follows h flow (t * (1000 * h.timeGyr)) (RightVelocities u) (rescaled g h P)
      (s.ph (convertRow g c (orbitRow h (flow t (natural g P))))) := by
  rw [natural_rescaled p k, orbitRow_with k]
  refine ⟨?_, fun hv => ?_⟩
  · have hl : ∀ x, convertLength g c .kpckms u x * s.len = x * 1000 := fun x => C38_length p.nz (su := kpcScale) rfl hs x
    simp only [convertRow, hu, Option.elim, PosEq, Scale.ph, hl, kpcRow]
    refine ⟨?_, ?_, ?_⟩ <;> ring
  · have hw : u ≠ .WDunits := by rintro rfl; simp [RightVelocities] at hv
    have hl : ∀ x, convertVelocity g c .kpckms u x * s.vel = x * 1 := by
      intro x
      by_cases hx : x = 0
      · subst hx
        cases u <;> simp [convertVelocity, Units.isPc, Units.isKpc]
      · exact (C38_velocity_partial p.nz (su := kpcScale) rfl hs (by simp) hw hx).mpr (velOk_of_right hs hv)
    simp only [convertRow, hu, Option.elim, VelEq, Scale.ph, hl, kpcRow]
    refine ⟨?_, ?_, ?_⟩ <;> ring

theorem interpStart_galpy {c1 : Cluster} {u1 : Units} {T : Option ℝ} (h1 : interpStart g T c = .ok c1) (hu : c.units = some u)
    (hu1 : c1.units = some u1) : u1 = .galpy ↔ u = .galpy := by
  unfold interpStart at h1
  split at h1
  · rename_i hc
    obtain ⟨d, k1, k2⟩ := bind_ok h1
    rw [hu] at hc; cases hc
    have us := toPckms_ustep hu trivial k1
    simp only [bind, Except.bind, pure, Except.pure] at k2
    split at k2
    · cases k2
    · cases k2
      rw [us.units] at hu1
      cases hu1; decide
  · cases h1
    rw [hu] at hu1; cases hu1; exact Iff.rfl

theorem spanWith_start {c1 : Cluster} {u1 : Units} {T : Option ℝ} (h1 : interpStart g T c = .ok c1) (hu : c.units = some u)
    (hu1 : c1.units = some u1) : spanWith h s u1 T = spanWith h s u T := by
  unfold spanWith
  simp only [interpStart_galpy h1 hu hu1]

theorem interpolateOrbitWith_ok (p : Pos g c) (l : Lin c) (hg : Good c) (hw : world g c = some w) (hu : c.units = some u)
    (hs : unitScale g c u = some s) (hn : 2 ≤ a.nt) (ha : TimeGiven a c) (k : h.Scales) :
    ∃ q c3, interpolateOrbitWith g h flow a c = .ok (q, c3) ∧ c3.data = c.data ∧ Fresh c3 ∧ Good c3 ∧ c3.rest = c.rest ∧
      Follows h flow (spanWith h s u a.tfinal) (RightVelocities u) (rescaled g h (w.place a.fromCentre)) (s.ph q) := by
  obtain ⟨c1, u1, h1, g1, w1, r1, hu1, hul1, hs1, ho1, -⟩ := interpStart_ok p l hg hw hu hs ha
  have p1 := p.of_rest r1
  have l1 : Lin c1 := ⟨⟨u1, hu1, hul1⟩, by rw [ho1]; exact l.2⟩
  obtain ⟨c2, h2, d2, f2, g2, r2⟩ := initializeOrbit_ok (fc := a.fromCentre) p1 l1 g1 hu1 hs1
  obtain ⟨hu2, hs2⟩ := same_units hu1 hs1 d2 r2
  have r2' : c2.rest = c.rest := r2.trans r1
  have p2 := p.of_rest r2'
  have l2 : Lin c2 := ⟨⟨u1, hu2, hul1⟩, by rw [show c2.origin = c1.origin from congrArg Data.origin d2]; exact l1.2⟩
  have w2 : world g c2 = some w := by rw [world_of_data d2 r2]; exact w1
  obtain ⟨c3, h3, d3, f3, g3, -, r3⟩ := return_of_world (sort := false) (cm := none) p l hg g2 l2 r2' (w2.trans hw.symm)
  obtain ⟨hu3, hs3⟩ := same_units hu hs d3 r3
  have hr1 : c1.units ≠ some .radec := by rw [hu1]; rintro h; cases h; exact hul1
  have hr : c2.units ≠ some .radec := by rw [hu2]; rintro h; cases h; exact hul1
  have ht := (integrateTime_with (T := a.tfinal) k hu2 hs2).trans (spanWith_start h1 hu hu1)
  have hq := convertRow_with (flow := flow) (p.of_rest r3) k hu3 hs3 (integrateTime h c2 a.tfinal) (w.place a.fromCentre)
  rw [ht] at hq
  refine ⟨_, c3, ?_, d3, f3, g3, r3, hq⟩
  unfold interpolateOrbitWith
  simp only [h1, initializeOrbitWith_lin _ hr1, h2, bind, Except.bind, lastTime_ok hn, hr, if_false, h3, pure, Except.pure]
  rw [world_place a.fromCentre w1 hu1 hs1]

theorem placeAt_ok {q : Ph} (p : Pos g c) (l : Lin c) (hg : Good c) (hw : world g c = some w) (hu : c.units = some u)
    (hs : unitScale g c u = some s) :
    ∃ c', placeAt g (q, c) = .ok (q, c') ∧ c'.units = c.units ∧ c'.origin = c.origin ∧ c'.rest = c.rest ∧ Fresh c' ∧ Good c' ∧
      world g c' = some (w.movedTo (s.ph q)) := by
  obtain ⟨⟨u', hu', hul⟩, ⟨o, ho, hol⟩⟩ := id l
  rw [hu] at hu'; cases hu'
  have hur : ∀ {d : Cluster}, d.units = some u → d.units ≠ some .radec := by
    intro d h1 h2; rw [h1] at h2; cases h2; exact hul
  obtain ⟨c4, h4, g4⟩ := toCluster_total (s := true) (cm := none) (hur hu) hg
  have hl4 : (Op.toCluster true none).linear := by simp [Op.linear, Op.unitTarget, Op.originTarget, Origin.linear]
  have s4 := exec_step (op := .toCluster true none) p.nz l hl4 h4
  have os4 := toCluster_ostep ho hol (hur hu) h4
  have hu4 : c4.units = some u := os4.units.trans hu
  have r4 : c4.rest = c.rest := s4.rest
  have hs4 : unitScale g c4 u = some s := by rw [unitScale_of_rest r4]; exact hs
  have w4 : world g c4 = some w := s4.world.trans hw
  have hadd : setSkyGc q (addOrbit g q none none c4) = { c4 with gc := q } := by
    unfold setSkyGc addOrbit
    simp [hur hu4]
  have w5 := world_setGc w4 hu4 hs4 os4.origin q
  have g5 : Good { c4 with gc := q } := ⟨g4.ne, g4.len, g4.mass, g4.ro, g4.rpo⟩
  have r5 : ({ c4 with gc := q } : Cluster).rest = c.rest := by rw [← r4]; rfl
  have hu5 : ({ c4 with gc := q } : Cluster).units = some u := hu4
  have ho5 : ({ c4 with gc := q } : Cluster).origin = some .cluster := os4.origin
  have l5 : Lin { c4 with gc := q } := ⟨⟨u, hu5, hul⟩, ⟨_, ho5, trivial⟩⟩
  have f5 : ∀ {c6 : Cluster}, toOrigin g o.target true none { c4 with gc := q } = .ok c6 → Fresh c6 := by
    intro c6 h
    unfold toOrigin at h
    simp only [os4.origin, bind] at h
    cases o <;> simp only [Origin.linear] at hol <;> simp only [Origin.target] at h <;>
      (obtain ⟨c7, -, h7⟩ := bind_ok h; exact analyze_fresh h7)
  obtain ⟨c6, h6, g6⟩ := toOrigin_total (g := g) (t := o) (s := true) (cm := none) hol (hur hu5) g5
  have hl6 : (Op.toOrigin o true none).linear := by
    cases o <;> simp only [Origin.linear] at hol <;> simp [Op.linear, Op.unitTarget, Op.originTarget, Origin.linear]
  have s6 := exec_step (op := .toOrigin o true none) (p.of_rest r5).nz l5 hl6 h6
  have os6 := toOrigin_ostep ho5 trivial hol (hur hu5) h6
  refine ⟨c6, ?_, os6.units.trans (hu4.trans hu.symm), os6.origin.trans ho.symm, s6.rest.trans r5, f5 h6, g6, s6.world.trans w5⟩
  unfold placeAt
  simp only [h4, hadd, bind, Except.bind, ho, Option.elim, h6, pure, Except.pure, os6.gcp]

/-- **C180 (linear units).**  Off the sky the orbit with `ro`, `vo` given is not the cluster's: it is that of a body whose distances are `ro` over the
cluster's `ro` times the cluster's (velocities likewise), because the row is made with the cluster's scales and read with the given ones. -/
theorem C180_rescaled_violated (p : Pos g c) (l : Lin c) (hg : Good c) (hw : world g c = some w) (hu : c.units = some u)
    (hs : unitScale g c u = some s) (hn : 2 ≤ a.nt) (ha : TimeGiven a c) (k : h.Scales) :
    ∃ q c', interpolateOrbitWith g h flow a c = .ok (q, c') ∧ c'.data = c.data ∧ Fresh c' ∧
      Follows h flow (spanWith h s u a.tfinal) (RightVelocities u) (rescaled g h (w.place a.fromCentre)) (s.ph q) := by
  obtain ⟨q, c', h1, h2, h3, -, -, h4⟩ := interpolateOrbitWith_ok (flow := flow) p l hg hw hu hs hn ha k
  exact ⟨q, c', h1, h2, h3, h4⟩

/-- **C180 (the method).**  Moving the cluster by no time at all, with `ro` given, takes it to its galactocentric position times the given `ro` over
its own. -/
theorem C180_jump_violated (hf : IsFlow flow) (p : Pos g c) (l : Lin c) (hg : Good c) (hw : world g c = some w) (hu : c.units = some u)
    (hs : unitScale g c u = some s) (hn : 2 ≤ a.nt) (hT : a.tfinal = some 0) (hfc : a.fromCentre = false) (k : h.Scales) :
    ∃ q c' w', interpolateOrbitMethodWith g h flow a c = .ok (q, c') ∧ c'.units = c.units ∧ c'.origin = c.origin ∧ Fresh c' ∧
      world g c' = some w' ∧ w'.gc.x = w.gc.x * (h.ro / g.ro) ∧ w'.gc.y = w.gc.y * (h.ro / g.ro) ∧ w'.gc.z = w.gc.z * (h.ro / g.ro) ∧
      (RightVelocities u → VelEq w'.gc (rescaled g h w.gc)) ∧ w'.stars = w.stars.map (Option.map (displaced w.gc w'.gc)) := by
  obtain ⟨q, c3, h1, d3, -, g3, r3, ⟨b1, b2, b3⟩, bv⟩ :=
    interpolateOrbitWith_ok (flow := flow) p l hg hw hu hs hn (by rintro -; rw [hT]; simp) k
  obtain ⟨hu3, hs3⟩ := same_units hu hs d3 r3
  have ho3 : c3.origin = c.origin := congrArg Data.origin d3
  have l3 : Lin c3 := ⟨by rw [hu3, ← hu]; exact l.1, by rw [ho3]; exact l.2⟩
  have w3 : world g c3 = some w := by rw [world_of_data d3 r3]; exact hw
  obtain ⟨c', m1, m2, m3, -, m5, -, m7⟩ := placeAt_ok (q := q) (p.of_rest r3) l3 g3 w3 hu3 hs3
  have h0 : spanWith h s u a.tfinal = 0 := by rw [hT]; exact spanWith_zero h s u
  have hL : 1000 * h.ro ≠ 0 := by have := k.ro; positivity
  refine ⟨q, c', _, ?_, m2.trans (hu3.trans hu.symm), m3.trans ho3, m5, m7, ?_, ?_, ?_, fun hv => ?_, rfl⟩
  · unfold interpolateOrbitMethodWith
    simp only [h1, bind, Except.bind, m1]
  rotate_right
  · have hV := k.vo.ne'
    obtain ⟨v1, v2, v3⟩ := bv hv
    simp only [h0, orbitAt, zero_div, hf.zero, World.place, hfc, Bool.false_eq_true, if_false, div_mul_cancel₀ _ hV] at v1 v2 v3
    exact ⟨v1, v2, v3⟩
  all_goals
    simp only [h0, orbitAt, zero_div, hf.zero, World.place, hfc, Bool.false_eq_true, if_false, rescaled, div_mul_cancel₀ _ hL] at b1 b2 b3
    simpa [World.movedTo] using (by assumption)

/-- The stars. -/
theorem C180_stars_violated (p : Pos g c) (l : Lin c) (hg : Good c) (hu : c.units = some u) (hs : unitScale g c u = some s)
    (hn : 2 ≤ a.nt) (ha : TimeGiven a c) (k : h.Scales) :
    ∃ rows c', interpolateOrbitsWith g h flow a c = .ok (rows, c') ∧ c'.data = c.data ∧ Fresh c' ∧
      List.Forall₂ (fun q q' => Follows h flow (spanWith h s u a.tfinal) (RightVelocities u) (rescaled g h (s.ph q)) (s.ph q')) c.st rows := by
  obtain ⟨⟨u', hu', hul⟩, ⟨o, ho, hol⟩⟩ := id l
  obtain ⟨w, hw⟩ := world_isSome (g := g) hu' hul ho
  obtain ⟨c1, u1, h1, g1, w1, r1, hu1, hul1, hs1, ho1, ph1⟩ := interpStart_ok p l hg hw hu hs ha
  have p1 := p.of_rest r1
  have l1 : Lin c1 := ⟨⟨u1, hu1, hul1⟩, by rw [ho1]; exact l.2⟩
  obtain ⟨c2, h2, d2, f2, g2, r2⟩ := initializeOrbits_ok p1 l1 g1 hu1 hs1
  obtain ⟨hu2, hs2⟩ := same_units hu1 hs1 d2 r2
  have r2' : c2.rest = c.rest := r2.trans r1
  have l2 : Lin c2 := ⟨⟨u1, hu2, hul1⟩, by rw [show c2.origin = c1.origin from congrArg Data.origin d2]; exact l1.2⟩
  have w2 : world g c2 = some w := by rw [world_of_data d2 r2]; exact w1
  obtain ⟨c3, h3, d3, f3, g3, -, r3⟩ := return_of_world (sort := false) (cm := none) p l hg g2 l2 r2' (w2.trans hw.symm)
  obtain ⟨hu3, hs3⟩ := same_units hu hs d3 r3
  have hr1 : c1.units ≠ some .radec := by rw [hu1]; rintro h; cases h; exact hul1
  have h2' : initializeOrbitsWith g h c1 = .ok (c1.st.map (fun q => natural g (s.ph q)), c2) := by
    rw [← h2]; unfold initializeOrbitsWith initializeOrbits
    simp only [hr1, false_and, if_false]
  have ht := (integrateTime_with (T := a.tfinal) k hu1 hs1).trans (spanWith_start h1 hu hu1)
  have e : c1.st.map s.ph = c.st.map s.ph := by
    have h4 := congrArg (Option.map Phys.stars) ph1
    simpa [phys, hu, hu1, hs, hs1] using h4
  refine ⟨c.st.map (fun q => convertRow g c3 (orbitRow h (flow (integrateTime h c1 a.tfinal) (natural g (s.ph q))))), c3, ?_, d3, f3, ?_⟩
  · unfold interpolateOrbitsWith
    simp only [h1, h2', bind, Except.bind, lastTime_ok hn, h3, pure, Except.pure, List.map_map]
    congr 2
    have e2 := congrArg (List.map (fun q => convertRow g c3 (orbitRow h (flow (integrateTime h c1 a.tfinal) (natural g q))))) e
    simpa [List.map_map, Function.comp_def] using e2
  · rw [List.forall₂_map_right_iff]
    refine List.forall₂_same.mpr fun q _ => ?_
    have b := convertRow_with (flow := flow) (p.of_rest r3) k hu3 hs3 (integrateTime h c1 a.tfinal) (s.ph q)
    rwa [ht] at b

/-- **C180 (the stars).**  With the origin at the cluster or its centre, moving the stars by no time blows the cluster up by the same ratio. -/
theorem C180_expand_violated (hf : IsFlow flow) (p : Pos g c) (l : Lin c) (hg : Good c) (hu : c.units = some u) (hs : unitScale g c u = some s)
    (ho : c.origin = some .cluster ∨ c.origin = some .centre) (hn : 2 ≤ a.nt) (hT : a.tfinal = some 0) (k : h.Scales) :
    ∃ c', interpolateOrbitsMethodWith g h flow a c = .ok (c'.st, c') ∧ c'.units = c.units ∧ c'.origin = c.origin ∧ c'.gc = c.gc ∧
      List.Forall₂ (fun q q' => q'.x * s.len = q.x * s.len * (h.ro / g.ro) ∧ q'.y * s.len = q.y * s.len * (h.ro / g.ro) ∧
        q'.z * s.len = q.z * s.len * (h.ro / g.ro)) c.st c'.st := by
  obtain ⟨rows, c3, h1, d3, -, h2⟩ := C180_stars_violated (flow := flow) (a := a) p l hg hu hs hn (by rintro -; rw [hT]; simp) k
  have ho3 : c3.origin = c.origin := congrArg Data.origin d3
  have h0 : spanWith h s u a.tfinal = 0 := by rw [hT]; exact spanWith_zero h s u
  have hL : 1000 * h.ro ≠ 0 := by have := k.ro; positivity
  refine ⟨{ c3 with st := rows }, ?_, congrArg Data.units d3, ho3, congrArg Data.gc d3, ?_⟩
  · unfold interpolateOrbitsMethodWith
    have hno : ¬ (c3.origin ≠ some .centre ∧ c3.origin ≠ some .cluster) := by
      rw [ho3]; rintro ⟨x, y⟩; rcases ho with z | z
      · exact y z
      · exact x z
    simp only [h1, bind, Except.bind, hno, if_false, pure, Except.pure]
  · refine h2.imp fun q q' b => ?_
    obtain ⟨⟨b1, b2, b3⟩, -⟩ := b
    simp only [h0, orbitAt, zero_div, hf.zero, rescaled, div_mul_cancel₀ _ hL, Scale.ph] at b1 b2 b3
    exact ⟨b1, b2, b3⟩

/-- **C179 (default, the stars).** -/
theorem C179_default_stars (g : Galpy) (flow : ℝ → Ph → Ph) (a : PathArgs) (c : Cluster) :
    interpolateOrbitsWith g g flow a c = interpolateOrbits g flow a c ∧ interpolateOrbitsMethodWith g g flow a c = interpolateOrbitsMethod g flow a c :=
  ⟨rfl, rfl⟩

/-! ### the hypotheses are met -/

/-- Scales other than the cluster's. -/
def otherG : Galpy := { demoG with ro := 10, toSky := fun P => ⟨10 - P.x, P.y, P.z, P.vx, P.vy, P.vz⟩, ofSky := fun P => ⟨10 - P.x, P.y, P.z, P.vx, P.vy, P.vz⟩ }

theorem otherG_scales : otherG.Scales := by constructor <;> norm_num [otherG, demoG]

/-- Moved by no time with `ro = 10`, the cluster at x = 8 kpc is at x = 10 kpc. -/
example : ∃ (q : Ph) (c' : Cluster) (w' : World), interpolateOrbitMethodWith demoG otherG inertial { tfinal := some 0 } demo = .ok (q, c') ∧
    world demoG c' = some w' ∧ w'.gc.x = 10000 := by
  obtain ⟨w, hw⟩ := demo_interp_world
  have hs : unitScale demoG demo .pckms = some ⟨1, 1, 1, 1⟩ := rfl
  obtain ⟨q, c', w', h1, -, -, -, h2, h3, -⟩ := C180_jump_violated (h := otherG) inertial_isFlow (a := { tfinal := some 0 }) demo_pos demo_lin
    demo_good hw (u := .pckms) rfl hs (by norm_num) rfl rfl otherG_scales
  refine ⟨q, c', w', h1, h2, ?_⟩
  have hgc : w.gc = ⟨8000, 0, 20, 0, 220, 0⟩ := by
    simp only [world, phys, demo, unitScale, Option.some.injEq] at hw
    rw [← hw]
    simp [Scale.ph]
  rw [h3, hgc]
  norm_num [otherG, demoG]

/-- A moving one. -/
example : ∃ (w : World) (q : Ph) (c' : Cluster), interpolateOrbitWith demoG otherG inertial moverArgs demo = .ok (q, c') ∧
    Follows otherG inertial (spanWith otherG ⟨1, 1, 1, 1⟩ .pckms moverArgs.tfinal) True (rescaled demoG otherG (w.place false)) (Scale.ph ⟨1, 1, 1, 1⟩ q) := by
  obtain ⟨w, hw⟩ := demo_interp_world
  have hs : unitScale demoG demo .pckms = some ⟨1, 1, 1, 1⟩ := rfl
  obtain ⟨q, c', h1, -, -, h2⟩ := C180_rescaled_violated (flow := inertial) (h := otherG) (a := moverArgs) demo_pos demo_lin
    demo_good hw (u := .pckms) rfl hs (by norm_num [moverArgs]) (by intro h; simp [demo] at h) otherG_scales
  exact ⟨w, q, c', h1, h2.1, fun _ => h2.2 (by simp [RightVelocities])⟩

/-- On the sky. -/
example : ∃ c c', toRadec demoG true none true demoGalaxy = .ok c ∧
    interpolateOrbitWith demoG otherG inertial { tfinal := some 0 } c = .ok (demoG.toSky (kpcRow demoGalaxyTruth.gc), c') ∧ SameSky c c' := by
  obtain ⟨c, h1, i, o, -⟩ := toRadec_lin_full demoSky_inv true none true
  have h0 : calls demoG [.toRadec true none true] demoGalaxy = .ok c := by simp [calls, Call.exec, h1, Except.bind]
  obtain ⟨c', m1, m2, -⟩ := C179_no_time (h := otherG) inertial_isFlow (a := { tfinal := some 0 }) demoGalaxy_pos demoGalaxy_lin
    demoGalaxy_good demoGalaxy_desc demoGalaxy_caches h0 i.state.units (by rw [o]; rfl) (by decide) rfl otherG_scales (by simp [otherG])
  exact ⟨c, c', h1, m1, m2⟩

/-- The star 3 pc from the cluster's centre of coordinates is at 3.75 pc when moved by no time with `ro = 10`. -/
example : ∃ c', interpolateOrbitsMethodWith demoG otherG inertial { tfinal := some 0 } demo = .ok (c'.st, c') ∧
    ∃ q qs, c'.st = q :: qs ∧ q.x = 3.75 := by
  have hs : unitScale demoG demo .pckms = some ⟨1, 1, 1, 1⟩ := rfl
  obtain ⟨c', h1, -, -, -, h2⟩ := C180_expand_violated (h := otherG) inertial_isFlow (a := { tfinal := some 0 }) demo_pos demo_lin
    demo_good (u := .pckms) rfl hs (.inl rfl) (by norm_num) rfl otherG_scales
  refine ⟨c', h1, ?_⟩
  change List.Forall₂ _ [_, _] _ at h2
  obtain ⟨q, hq⟩ : ∃ q, q = c'.st := ⟨_, rfl⟩
  rw [← hq] at h2 ⊢
  cases h2 with
  | cons a b =>
    refine ⟨_, _, rfl, ?_⟩
    have := a.1
    simp only [mul_one] at this
    rw [this]
    norm_num [otherG, demoG]

end

end CT
