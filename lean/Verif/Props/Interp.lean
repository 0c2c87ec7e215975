/- C86, C87: moving the cluster along its orbit. -/
import Verif.Props.Orbits
import Verif.Spec.Interp

namespace CT

noncomputable section

set_option linter.unusedSimpArgs false

theorem world_place {g : Galpy} {c : Cluster} {w : World} {u : Units} {s : Scale} (fc : Bool) (hw : world g c = some w)
    (hu : c.units = some u) (hs : unitScale g c u = some s) : orbitStart s fc c = w.place fc := by
  have hc : w.centre = s.ph c.c ∧ w.gc = s.ph c.gc := by
    have h := hw; unfold world phys at h
    simp only [hu, hs] at h
    split at h
    · rename_i h1 _
      simp only [Option.some.injEq] at h h1
      rw [← h, ← h1]; exact ⟨rfl, rfl⟩
    · cases h
  unfold orbitStart World.place
  rw [hc.1, hc.2]
  cases fc
  · rfl
  · simp only [if_true, phAdd, Scale.ph, add_mul]

theorem integrateTime_eq {g : Galpy} {c : Cluster} {u : Units} {s : Scale} (p : Pos g c) (hu : c.units = some u)
    (hs : unitScale g c u = some s) (T : Option ℝ) : integrateTime g c T * (1000 * g.timeGyr) = spanMyr s T := by
  cases T with
  | none =>
    have := p.time.ne'
    simp only [integrateTime, spanMyr, Option.elim]
    field_simp
    norm_num
  | some T => exact naturalTime_eq p hu hs T

theorem interpStart_ok {g : Galpy} {T : Option ℝ} {c : Cluster} {w : World} {u : Units} {s : Scale} (p : Pos g c) (l : Lin c) (hg : Good c)
    (hw : world g c = some w) (hu : c.units = some u) (hs : unitScale g c u = some s) (ha : c.units = some .amuse → T ≠ none) :
    ∃ c1 u1, interpStart g T c = .ok c1 ∧ Good c1 ∧ world g c1 = some w ∧ c1.rest = c.rest ∧ c1.units = some u1 ∧ u1.linear ∧
      unitScale g c1 u1 = some s ∧ c1.origin = c.origin ∧ phys g c1 = phys g c := by
  obtain ⟨⟨u', hu', hul⟩, ⟨o, ho, hol⟩⟩ := id l
  rw [hu] at hu'; cases hu'
  unfold interpStart
  by_cases h : u = .amuse
  · subst h
    rw [if_pos hu]
    obtain ⟨c1, h1, g1⟩ := toPckms_total (a := true) (c := c) hu hul p hg
    have us := toPckms_ustep hu hul h1
    have hT : T.isNone = false := by
      cases hT : T with
      | none => exact absurd hT (ha hu)
      | some x => rfl
    refine ⟨c1, .pckms, ?_, g1, us.world.trans hw, us.rest, us.units, trivial, ?_, us.origin, us.phys⟩
    · simp only [h1, bind, Except.bind, hT, pure, Except.pure, Bool.false_eq_true, if_false]
    · rw [unitScale_of_rest us.rest]; exact hs
  · rw [if_neg (by rw [hu]; simpa using h)]
    exact ⟨c, u, rfl, hg, hw, rfl, hu, hul, hs, rfl, rfl⟩

theorem lastTime_ok {t : ℝ} {n : ℕ} (h : 2 ≤ n) : lastTime t n = .ok t := by
  unfold lastTime; rw [linspace_last h]; rfl

/-- The function `interpolate_orbit`. -/
theorem interpolateOrbit_ok {g : Galpy} {flow : ℝ → Ph → Ph} {a : PathArgs} {c : Cluster} {w : World} {u : Units} {s : Scale}
    (p : Pos g c) (l : Lin c) (hg : Good c) (hw : world g c = some w) (hu : c.units = some u) (hs : unitScale g c u = some s)
    (hn : 2 ≤ a.nt) (ha : TimeGiven a c) :
    ∃ t c3, interpolateOrbit g flow a c = .ok (convertRow g c3 (orbitRow g (flow t (natural g (w.place a.fromCentre)))), c3) ∧
      t * (1000 * g.timeGyr) = spanMyr s a.tfinal ∧ c3.data = c.data ∧ Fresh c3 ∧ Good c3 ∧ c3.rest = c.rest ∧
      (∀ o, c.rorder = some o → c.rorderOrigin = c.origin → o.length = c.st.length →
        c3.rorder = c.rorder ∧ c3.rorderOrigin = c.rorderOrigin) := by
  obtain ⟨c1, u1, h1, g1, w1, r1, hu1, hul1, hs1, ho1, -⟩ := interpStart_ok p l hg hw hu hs ha
  have p1 := p.of_rest r1
  have l1 : Lin c1 := ⟨⟨u1, hu1, hul1⟩, by rw [ho1]; exact l.2⟩
  obtain ⟨c2, h2, d2, f2, g2, r2⟩ := initializeOrbit_ok (fc := a.fromCentre) p1 l1 g1 hu1 hs1
  obtain ⟨hu2, hs2⟩ := same_units hu1 hs1 d2 r2
  have r2' : c2.rest = c.rest := r2.trans r1
  have p2 := p.of_rest r2'
  have l2 : Lin c2 := ⟨⟨u1, hu2, hul1⟩, by rw [show c2.origin = c1.origin from congrArg Data.origin d2]; exact l1.2⟩
  have w2 : world g c2 = some w := by rw [world_of_data d2 r2]; exact w1
  obtain ⟨c3, h3, d3, f3, g3, k3, r3⟩ := return_of_world (sort := false) (cm := none) p l hg g2 l2 r2' (w2.trans hw.symm)
  refine ⟨integrateTime g c2 a.tfinal, c3, ?_, integrateTime_eq p2 hu2 hs2 a.tfinal, d3, f3, g3, r3, k3⟩
  have hr : c2.units ≠ some .radec := by rw [hu2]; rintro h; cases h; exact hul1
  unfold interpolateOrbit
  simp only [h1, h2, bind, Except.bind, lastTime_ok hn, hr, if_false, h3, pure, Except.pure]
  rw [world_place a.fromCentre w1 hu1 hs1]

theorem convertRow_pt {g : Galpy} {c : Cluster} {t : ℝ} {q : Ph} {u : Units} (hu : c.units = some u) :
    convertRow g c q = (convertPt g c ⟨t, q⟩).p := by simp [convertRow, convertPt, hu]

theorem convertRow_ok {g : Galpy} {flow : ℝ → Ph → Ph} {c : Cluster} {u : Units} {s : Scale} (p : Pos g c)
    (hu : c.units = some u) (hs : unitScale g c u = some s) (t : ℝ) (P : Ph) :
    PosEq (s.ph (convertRow g c (orbitRow g (flow t (natural g P))))) (orbitAt g flow (t * (1000 * g.timeGyr)) P) ∧
    (VelOk .kpckms u → u ≠ .WDunits →
      VelEq (s.ph (convertRow g c (orbitRow g (flow t (natural g P))))) (orbitAt g flow (t * (1000 * g.timeGyr)) P)) := by
  obtain ⟨-, h2, h3⟩ := convertPt_ok (flow := flow) p hu hs t P
  rw [convertRow_pt (t := t) hu]
  exact ⟨h2, h3⟩

theorem velOk_of_right {g : Galpy} {c : Cluster} {u : Units} {s : Scale} (hs : unitScale g c u = some s) (h : RightVelocities u) :
    VelOk .kpckms u := by
  cases u <;> simp_all [unitScale, RightVelocities, VelOk]

theorem convertRow_follows {g : Galpy} {flow : ℝ → Ph → Ph} {c : Cluster} {u : Units} {s : Scale} (p : Pos g c)
    (hu : c.units = some u) (hs : unitScale g c u = some s) (t : ℝ) (P : Ph) :
    Follows g flow (t * (1000 * g.timeGyr)) (RightVelocities u) P (s.ph (convertRow g c (orbitRow g (flow t (natural g P))))) := by
  obtain ⟨b1, b2⟩ := convertRow_ok (flow := flow) p hu hs t P
  exact ⟨b1, fun h => b2 (velOk_of_right hs h) h.2.2⟩

/-- Placing the cluster elsewhere while its stars are given from its position. -/
theorem world_setGc {g : Galpy} {c : Cluster} {w : World} {u : Units} {s : Scale} (hw : world g c = some w)
    (hu : c.units = some u) (hs : unitScale g c u = some s) (ho : c.origin = some .cluster) (q : Ph) :
    world g { c with gc := q } = some (w.movedTo (s.ph q)) := by
  obtain ⟨d, hd⟩ : ∃ d : Cluster, d = { c with gc := q } := ⟨_, rfl⟩
  have hs' : unitScale g d u = some s := by rw [hd]; exact hs
  have hu' : d.units = some u := by rw [hd]; exact hu
  have ho' : d.origin = some .cluster := by rw [hd]; exact ho
  rw [← hd]
  unfold world phys at hw ⊢
  simp only [hu, hs, ho, Option.some.injEq] at hw
  simp only [hu', hs', ho', Option.some.injEq]
  subst hw
  rw [hd]
  unfold World.movedTo
  congr 1
  simp only [galRows, List.map_map]
  refine List.map_congr_left fun P _ => ?_
  simp only [Function.comp, galactocentric, Option.map_some, displaced, phAdd, Option.some.injEq]
  ext <;> simp only <;> ring

/-- The method `interpolate_orbit`: the cluster is moved to the point returned by the function. -/
theorem method_run {g : Galpy} {flow : ℝ → Ph → Ph} {a : PathArgs} {c : Cluster} {w : World} {u : Units} {s : Scale}
    (p : Pos g c) (l : Lin c) (hg : Good c) (hw : world g c = some w) (hu : c.units = some u) (hs : unitScale g c u = some s)
    (hn : 2 ≤ a.nt) (ha : TimeGiven a c) :
    ∃ t c0 q c', q = convertRow g c0 (orbitRow g (flow t (natural g (w.place a.fromCentre)))) ∧
      interpolateOrbitMethod g flow a c = .ok (q, c') ∧ c0.units = some u ∧ unitScale g c0 u = some s ∧ Pos g c0 ∧
      t * (1000 * g.timeGyr) = spanMyr s a.tfinal ∧ c'.units = c.units ∧ c'.origin = c.origin ∧ c'.rest = c.rest ∧ Fresh c' ∧ Good c' ∧
      world g c' = some (w.movedTo (s.ph q)) := by
  obtain ⟨t, c3, h1, ht, d3, f3, g3, r3, -⟩ := interpolateOrbit_ok (flow := flow) p l hg hw hu hs hn ha
  obtain ⟨hu3, hs3⟩ := same_units hu hs d3 r3
  have p3 := p.of_rest r3
  have ho3 : c3.origin = c.origin := congrArg Data.origin d3
  obtain ⟨⟨u', hu', hul⟩, ⟨o, ho, hol⟩⟩ := id l
  rw [hu] at hu'; cases hu'
  have hur : ∀ {d : Cluster}, d.units = some u → d.units ≠ some .radec := by
    intro d h1 h2; rw [h1] at h2; cases h2; exact hul
  have l3 : Lin c3 := ⟨⟨u, hu3, hul⟩, ⟨o, ho3.trans ho, hol⟩⟩
  have w3 : world g c3 = some w := by rw [world_of_data d3 r3]; exact hw
  generalize hq : convertRow g c3 (orbitRow g (flow t (natural g (w.place a.fromCentre)))) = q at h1
  -- to the cluster's position
  obtain ⟨c4, h4, g4⟩ := toCluster_total (s := true) (cm := none) (hur hu3) g3
  have hl4 : (Op.toCluster true none).linear := by simp [Op.linear, Op.unitTarget, Op.originTarget, Origin.linear]
  have s4 := exec_step (op := .toCluster true none) p3.nz l3 hl4 h4
  have os4 := toCluster_ostep (ho3.trans ho) hol (hur hu3) h4
  have hu4 : c4.units = some u := os4.units.trans hu3
  have r4 : c4.rest = c.rest := s4.rest.trans r3
  have hs4 : unitScale g c4 u = some s := by rw [unitScale_of_rest r4]; exact hs
  have w4 : world g c4 = some w := s4.world.trans w3
  -- the new position
  have hadd : setSkyGc q (addOrbit g q none none c4) = { c4 with gc := q } := by
    unfold setSkyGc addOrbit
    simp [hur hu4]
  have w5 := world_setGc w4 hu4 hs4 os4.origin q
  have g5 : Good { c4 with gc := q } := ⟨g4.ne, g4.len, g4.mass, g4.ro, g4.rpo⟩
  have r5 : ({ c4 with gc := q } : Cluster).rest = c.rest := by rw [← r4]; rfl
  have hu5 : ({ c4 with gc := q } : Cluster).units = some u := hu4
  have ho5 : ({ c4 with gc := q } : Cluster).origin = some .cluster := os4.origin
  have l5 : Lin { c4 with gc := q } := ⟨⟨u, hu5, hul⟩, ⟨_, ho5, trivial⟩⟩
  have f5 : ∀ {c6 : Cluster}, toOrigin g o.target true none { c4 with gc := q } = .ok c6 → Fresh c6 := by
    intro c6 h
    unfold toOrigin at h
    simp only [os4.origin, bind] at h
    cases o <;> simp only [Origin.linear] at hol <;> simp only [Origin.target] at h <;>
      (obtain ⟨c7, -, h7⟩ := bind_ok h; exact analyze_fresh h7)
  obtain ⟨c6, h6, g6⟩ := toOrigin_total (g := g) (t := o) (s := true) (cm := none) hol (hur hu5) g5
  have hl6 : (Op.toOrigin o true none).linear := by
    cases o <;> simp only [Origin.linear] at hol <;> simp [Op.linear, Op.unitTarget, Op.originTarget, Origin.linear]
  have s6 := exec_step (op := .toOrigin o true none) (p.of_rest r5).nz l5 hl6 h6
  have os6 := toOrigin_ostep ho5 trivial hol (hur hu5) h6
  refine ⟨t, c3, q, c6, hq.symm, ?_, hu3, hs3, p3, ht, os6.units.trans (hu4.trans hu.symm), os6.origin.trans ho.symm,
    s6.rest.trans r5, f5 h6, g6, s6.world.trans w5⟩
  unfold interpolateOrbitMethod
  simp only [h1, h4, hadd, bind, Except.bind, ho3, ho, Option.elim, h6, pure, Except.pure, os6.gcp]

/-- **C86.**  The method `interpolate_orbit` moves the cluster to where its galactocentric position is after the given time (12 Gyr if
none is given) and returns that place, in the cluster's units; the stars move with it, everything else stays.  Velocities are asked for
in the units `RightVelocities`, see `C87_velocity_violated`. -/
theorem C86_cluster_moves {g : Galpy} {flow : ℝ → Ph → Ph} {a : PathArgs} {c : Cluster} {w : World} {u : Units} {s : Scale}
    (p : Pos g c) (l : Lin c) (hg : Good c) (hw : world g c = some w) (hu : c.units = some u) (hs : unitScale g c u = some s)
    (hn : 2 ≤ a.nt) (ha : TimeGiven a c) (hfc : a.fromCentre = false) :
    ∃ q c', interpolateOrbitMethod g flow a c = .ok (q, c') ∧ c'.units = c.units ∧ c'.origin = c.origin ∧ Fresh c' ∧
      world g c' = some (w.movedTo (s.ph q)) ∧ Follows g flow (spanMyr s a.tfinal) (RightVelocities u) w.gc (s.ph q) := by
  obtain ⟨t, c0, q, c', hq, e1, e2, e3, e4, e5, e6, e7, -, e8, -, e9⟩ := method_run (flow := flow) p l hg hw hu hs hn ha
  have b := convertRow_follows (flow := flow) e4 e2 e3 t (w.place a.fromCentre)
  rw [← hq, e5] at b
  simp only [World.place, hfc, Bool.false_eq_true, if_false] at b
  exact ⟨q, c', e1, e6, e7, e8, e9, b⟩

/-- **C86 (the function).**  `interpolate_orbit` itself returns the place of the cluster (or of its centre, if asked for) after that time
and leaves the cluster as it was. -/
theorem C86_function {g : Galpy} {flow : ℝ → Ph → Ph} {a : PathArgs} {c : Cluster} {w : World} {u : Units} {s : Scale}
    (p : Pos g c) (l : Lin c) (hg : Good c) (hw : world g c = some w) (hu : c.units = some u) (hs : unitScale g c u = some s)
    (hn : 2 ≤ a.nt) (ha : TimeGiven a c) :
    ∃ q c', interpolateOrbit g flow a c = .ok (q, c') ∧ c'.data = c.data ∧ Fresh c' ∧
      Follows g flow (spanMyr s a.tfinal) (RightVelocities u) (w.place a.fromCentre) (s.ph q) := by
  obtain ⟨t, c3, h1, ht, d3, f3, g3, r3, -⟩ := interpolateOrbit_ok (flow := flow) p l hg hw hu hs hn ha
  obtain ⟨hu3, hs3⟩ := same_units hu hs d3 r3
  refine ⟨_, c3, h1, d3, f3, ?_⟩
  have b := convertRow_follows (flow := flow) (p.of_rest r3) hu3 hs3 t (w.place a.fromCentre)
  rwa [ht] at b

/-- **C87 violated (`from_centre`).**  With `from_centre=True` the orbit is that of the centre, but its end is stored as the position of the
cluster: the centre, which keeps its offset from the cluster, ends that offset away from its orbit. -/
theorem C87_from_centre_violated {g : Galpy} {flow : ℝ → Ph → Ph} {a : PathArgs} {c : Cluster} {w : World} {u : Units} {s : Scale}
    (p : Pos g c) (l : Lin c) (hg : Good c) (hw : world g c = some w) (hu : c.units = some u) (hs : unitScale g c u = some s)
    (hn : 2 ≤ a.nt) (ha : TimeGiven a c) (hfc : a.fromCentre = true) :
    ∃ q c' w', interpolateOrbitMethod g flow a c = .ok (q, c') ∧ world g c' = some w' ∧
      (w'.place true).x = (orbitAt g flow (spanMyr s a.tfinal) (w.place true)).x + w.centre.x ∧
      (w'.place true).y = (orbitAt g flow (spanMyr s a.tfinal) (w.place true)).y + w.centre.y ∧
      (w'.place true).z = (orbitAt g flow (spanMyr s a.tfinal) (w.place true)).z + w.centre.z := by
  obtain ⟨t, c0, q, c', hq, e1, e2, e3, e4, e5, e6, e7, -, e8, -, e9⟩ := method_run (flow := flow) p l hg hw hu hs hn ha
  obtain ⟨⟨b1, b2, b3⟩, -⟩ := convertRow_ok (flow := flow) e4 e2 e3 t (w.place a.fromCentre)
  rw [← hq, e5, hfc] at b1 b2 b3
  exact ⟨q, c', _, e1, e9, by rw [← b1]; rfl, by rw [← b2]; rfl, by rw [← b3]; rfl⟩

/-- **C87 violated (no time).**  In particular following the centre's orbit for no time at all moves the cluster by the centre's offset. -/
theorem C87_no_time_violated {g : Galpy} {flow : ℝ → Ph → Ph} (hf : IsFlow flow) {a : PathArgs} {c : Cluster} {w : World} {u : Units} {s : Scale}
    (p : Pos g c) (l : Lin c) (hg : Good c) (hw : world g c = some w) (hu : c.units = some u) (hs : unitScale g c u = some s)
    (hn : 2 ≤ a.nt) (hT : a.tfinal = some 0) (hfc : a.fromCentre = true) :
    ∃ q c' w', interpolateOrbitMethod g flow a c = .ok (q, c') ∧ world g c' = some w' ∧
      w'.gc.x = w.gc.x + w.centre.x ∧ w'.gc.y = w.gc.y + w.centre.y ∧ w'.gc.z = w.gc.z + w.centre.z := by
  obtain ⟨q, c', w', e1, e2, b1, b2, b3⟩ := C87_from_centre_violated (flow := flow) p l hg hw hu hs hn (by rintro -; rw [hT]; simp) hfc
  obtain ⟨t, c0, q', d', -, f1, -, -, -, -, -, -, -, -, -, f2⟩ := method_run (flow := flow) p l hg hw hu hs hn (by rintro -; rw [hT]; simp)
  rw [e1] at f1
  injection f1 with f1; injection f1 with f1 f3
  rw [← f3, e2] at f2
  injection f2 with f2
  have hc : w'.centre = w.centre := by rw [f2]; rfl
  have h0 : spanMyr s a.tfinal = 0 := by rw [hT]; simp [spanMyr]
  have hL : 1000 * g.ro ≠ 0 := by have := p.ro; positivity
  refine ⟨q, c', w', e1, e2, ?_, ?_, ?_⟩ <;>
    simp only [h0, orbitAt, zero_div, hf.zero, World.place, if_true, phAdd, hc, div_mul_cancel₀ _ hL] at b1 b2 b3 <;> linarith

/-- **C87 violated (velocities).**  In pc/Myr and kpc/Gyr the stored velocity of the cluster is too small by the factor 1.02… . -/
theorem C87_velocity_violated {g : Galpy} {flow : ℝ → Ph → Ph} {a : PathArgs} {c : Cluster} {w : World} {u : Units} {s : Scale}
    (p : Pos g c) (l : Lin c) (hg : Good c) (hw : world g c = some w) (hu : c.units = some u) (hs : unitScale g c u = some s)
    (hn : 2 ≤ a.nt) (hv : u = .pcmyr ∨ u = .kpcgyr) :
    ∃ q c' w', interpolateOrbitMethod g flow a c = .ok (q, c') ∧ world g c' = some w' ∧
      w'.gc.vx = (orbitAt g flow (spanMyr s a.tfinal) (w.place a.fromCentre)).vx / kmsToPcMyr := by
  obtain ⟨t, c0, q, c', hq, e1, e2, e3, e4, e5, e6, e7, -, e8, -, e9⟩ := method_run (flow := flow) p l hg hw hu hs hn
    (by intro h; rw [hu] at h; rcases hv with rfl | rfl <;> cases h)
  refine ⟨q, c', _, e1, e9, ?_⟩
  have ht := p.time.ne'
  have hc : spanMyr s a.tfinal / (1000 * g.timeGyr) = t := by rw [← e5]; field_simp
  show q.vx * s.vel = _
  rw [hq]
  unfold orbitAt
  simp only [hc]
  rcases hv with rfl | rfl <;> simp only [unitScale, Option.some.injEq] at hs <;> subst hs <;>
    simp [convertRow, e2, convertVelocity, Units.isPc, Units.isKpc, orbitRow, Ph.mulPos, Ph.mulVel, natural, div_eq_mul_inv]

/-- **C87 violated (AMUSE).**  In AMUSE units the default time makes the call fail, after the cluster is already converted to pc. -/
theorem C87_amuse_violated {g : Galpy} {flow : ℝ → Ph → Ph} {a : PathArgs} {c : Cluster} (p : Pos g c) (hg : Good c)
    (hu : c.units = some .amuse) (hT : a.tfinal = none) : interpolateOrbitMethod g flow a c = .error .attributeError := by
  obtain ⟨c1, h1, -⟩ := toPckms_total (a := true) (c := c) hu trivial p hg
  unfold interpolateOrbitMethod interpolateOrbit interpStart
  simp only [hu, if_true, h1, bind, Except.bind, hT, Option.isNone, throw, throwThe, MonadExceptOf.throw]

end

end CT
