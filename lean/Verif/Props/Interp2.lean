/- C88, C89: moving the stars along their orbits. -/
import Verif.Props.Interp

namespace CT

noncomputable section

set_option linter.unusedSimpArgs false

theorem initializeOrbits_ok {g : Galpy} {c : Cluster} {u : Units} {s : Scale} (p : Pos g c) (l : Lin c) (hg : Good c)
    (hu : c.units = some u) (hs : unitScale g c u = some s) :
    ∃ c', initializeOrbits g c = .ok (c.st.map (fun q => natural g (s.ph q)), c') ∧ c'.data = c.data ∧ Fresh c' ∧ Good c' ∧
      c'.rest = c.rest := by
  have hul : u.linear := by cases u <;> simp only [unitScale, reduceCtorEq] at hs <;> trivial
  have hr : u ≠ .radec := by rintro rfl; exact hul
  obtain ⟨c1, h1, g1⟩ := toGalpy_total hu hul p hg
  have us := toGalpy_ustep p.nz hu hul h1
  have l1 : Lin c1 := ⟨⟨_, us.units, trivial⟩, by rw [us.origin]; exact l.2⟩
  obtain ⟨c2, h2, d2, f2, g2, -, r2⟩ := return_of_world (sort := false) (cm := none) p l hg g1 l1 us.rest us.world
  refine ⟨c2, ?_, d2, f2, g2, r2⟩
  have hn : ∀ o : Prop, ¬ (c.units = some .radec ∧ o) := by rintro o ⟨h, -⟩; rw [hu] at h; cases h; exact hr rfl
  unfold initializeOrbits
  rw [if_neg (hn _), if_neg (hn _)]
  simp only [h1, bind, Except.bind, h2, pure, Except.pure]
  congr 2
  have ph := us.phys
  have hg2 : unitScale g c1 .galpy = some ⟨1000 * g.ro, g.vo, g.massMsol, 1000 * g.timeGyr⟩ := rfl
  simp only [phys, us.units, hu, hs, hg2, Option.some.injEq, Phys.mk.injEq] at ph
  have ps := ph.2.2.1
  have hL : 1000 * g.ro ≠ 0 := by have := p.ro; positivity
  have hV := p.vo.ne'
  have e : c1.st.map (fun q => cylToCart (cartToCyl q)) = (c1.st.map (Scale.ph ⟨1000 * g.ro, g.vo, g.massMsol, 1000 * g.timeGyr⟩)).map (natural g) := by
    rw [List.map_map]
    refine List.map_congr_left fun q _ => ?_
    rw [C32_cyl_roundtrip]
    simp only [Function.comp, natural, Scale.ph]
    have := p.ro.ne'
    ext <;> simp only <;> field_simp
  rw [e, ps, List.map_map]
  rfl

/-- The function `interpolate_orbits`. -/
theorem interpolateOrbits_ok {g : Galpy} {flow : ℝ → Ph → Ph} {a : PathArgs} {c : Cluster} {u : Units} {s : Scale}
    (p : Pos g c) (l : Lin c) (hg : Good c) (hu : c.units = some u) (hs : unitScale g c u = some s)
    (hn : 2 ≤ a.nt) (ha : TimeGiven a c) :
    ∃ t c3, interpolateOrbits g flow a c =
        .ok (c.st.map (fun q => convertRow g c3 (orbitRow g (flow t (natural g (s.ph q))))), c3) ∧
      t * (1000 * g.timeGyr) = spanMyr s a.tfinal ∧ c3.data = c.data ∧ Fresh c3 ∧ Good c3 ∧ c3.rest = c.rest ∧
      (∀ o, c.rorder = some o → c.rorderOrigin = c.origin → o.length = c.st.length →
        c3.rorder = c.rorder ∧ c3.rorderOrigin = c.rorderOrigin) := by
  obtain ⟨⟨u', hu', hul⟩, ⟨o, ho, hol⟩⟩ := id l
  obtain ⟨w, hw⟩ := world_isSome (g := g) hu' hul ho
  obtain ⟨c1, u1, h1, g1, w1, r1, hu1, hul1, hs1, ho1, ph1⟩ := interpStart_ok p l hg hw hu hs ha
  have p1 := p.of_rest r1
  have l1 : Lin c1 := ⟨⟨u1, hu1, hul1⟩, by rw [ho1]; exact l.2⟩
  obtain ⟨c2, h2, d2, f2, g2, r2⟩ := initializeOrbits_ok p1 l1 g1 hu1 hs1
  obtain ⟨hu2, hs2⟩ := same_units hu1 hs1 d2 r2
  have r2' : c2.rest = c.rest := r2.trans r1
  have l2 : Lin c2 := ⟨⟨u1, hu2, hul1⟩, by rw [show c2.origin = c1.origin from congrArg Data.origin d2]; exact l1.2⟩
  have w2 : world g c2 = some w := by rw [world_of_data d2 r2]; exact w1
  obtain ⟨c3, h3, d3, f3, g3, k3, r3⟩ := return_of_world (sort := false) (cm := none) p l hg g2 l2 r2' (w2.trans hw.symm)
  refine ⟨integrateTime g c1 a.tfinal, c3, ?_, integrateTime_eq p1 hu1 hs1 a.tfinal, d3, f3, g3, r3, k3⟩
  have e : c1.st.map s.ph = c.st.map s.ph := by
    have h4 := congrArg (Option.map Phys.stars) ph1
    simpa [phys, hu, hu1, hs, hs1] using h4
  unfold interpolateOrbits
  simp only [h1, h2, bind, Except.bind, lastTime_ok hn, h3, pure, Except.pure, List.map_map]
  congr 2
  have e2 := congrArg (List.map (fun q => convertRow g c3 (orbitRow g (flow (integrateTime g c1 a.tfinal) (natural g q))))) e
  simpa [List.map_map, Function.comp_def] using e2

/-- **C88 (the function).**  `interpolate_orbits` returns, for every star, its row followed for the given time (12 Gyr if none is given) in
the potential, in the frame and units of the cluster; the cluster is left as it was. -/
theorem C88_function {g : Galpy} {flow : ℝ → Ph → Ph} {a : PathArgs} {c : Cluster} {u : Units} {s : Scale}
    (p : Pos g c) (l : Lin c) (hg : Good c) (hu : c.units = some u) (hs : unitScale g c u = some s)
    (hn : 2 ≤ a.nt) (ha : TimeGiven a c) :
    ∃ rows c', interpolateOrbits g flow a c = .ok (rows, c') ∧ c'.data = c.data ∧ Fresh c' ∧
      List.Forall₂ (fun q q' => Follows g flow (spanMyr s a.tfinal) (RightVelocities u) (s.ph q) (s.ph q')) c.st rows := by
  obtain ⟨t, c3, h1, ht, d3, f3, g3, r3, -⟩ := interpolateOrbits_ok (flow := flow) p l hg hu hs hn ha
  obtain ⟨hu3, hs3⟩ := same_units hu hs d3 r3
  refine ⟨_, c3, h1, d3, f3, ?_⟩
  rw [List.forall₂_map_right_iff]
  refine List.forall₂_same.mpr fun q _ => ?_
  have b := convertRow_follows (flow := flow) (p.of_rest r3) hu3 hs3 t (s.ph q)
  rwa [ht] at b

/-- The method `interpolate_orbits` with the origin at the galaxy. -/
theorem orbits_run {g : Galpy} {flow : ℝ → Ph → Ph} {a : PathArgs} {c : Cluster} {w : World} {u : Units} {s : Scale}
    (p : Pos g c) (hg : Good c) (hw : world g c = some w) (hu : c.units = some u) (hs : unitScale g c u = some s)
    (ho : c.origin = some .galaxy) (hn : 2 ≤ a.nt) (ha : TimeGiven a c) :
    ∃ rows c' w', interpolateOrbitsMethod g flow a c = .ok (rows, c') ∧ c'.st = rows ∧ c'.units = c.units ∧ c'.origin = c.origin ∧
      world g c' = some w' ∧ w'.time = w.time ∧ w'.mass = w.mass ∧ w'.centre = w.centre ∧ AreNorms (fun p => p.x ^ 2 + p.y ^ 2 + p.z ^ 2) rows c'.d.r ∧
      Follows g flow (spanMyr s a.tfinal) (RightVelocities u) w.gc w'.gc ∧
      List.Forall₂ (fun P Q => ∃ P' Q', P = some P' ∧ Q = some Q' ∧ Follows g flow (spanMyr s a.tfinal) (RightVelocities u) P' Q')
        w.stars w'.stars ∧
      (∀ o, c.rorder = some o → c.rorderOrigin = c.origin → o.length = c.st.length → c'.rorder = some o ∧ c'.rorderOrigin = c.origin) := by
  have hul : u.linear := by cases u <;> simp only [unitScale, reduceCtorEq] at hs <;> trivial
  have l : Lin c := ⟨⟨u, hu, hul⟩, ⟨_, ho, trivial⟩⟩
  obtain ⟨t, c3, h1, ht, d3, f3, g3, r3, k3⟩ := interpolateOrbits_ok (flow := flow) p l hg hu hs hn ha
  obtain ⟨hu3, hs3⟩ := same_units hu hs d3 r3
  have ho3 : c3.origin = some .galaxy := (congrArg Data.origin d3).trans ho
  have st3 : c3.st = c.st := congrArg Data.st d3
  generalize hrows : c.st.map (fun q => convertRow g c3 (orbitRow g (flow t (natural g (s.ph q))))) = rows at h1
  have hlen : rows.length = c3.st.length := by rw [← hrows, List.length_map, st3]
  obtain ⟨c4, e4⟩ : ∃ c4 : Cluster, c4 = { c3 with st := rows } := ⟨_, rfl⟩
  have g4 : Good c4 := by
    rw [e4]
    refine ⟨?_, ?_, g3.mass, ?_, ?_⟩
    · intro h
      have h' : rows = [] := h
      rw [h'] at hlen
      exact g3.ne (List.length_eq_zero_iff.mp hlen.symm)
    · show _ = rows.length; rw [hlen]; exact g3.len
    · intro o h; show IsOrder rows.length o; rw [hlen]; exact g3.ro o h
    · intro o h; show IsOrder rows.length o; rw [hlen]; exact g3.rpo o h
  have r4 : c4.rest = c.rest := by rw [← r3, e4]; rfl
  have p4 := p.of_rest r4
  have hu4 : c4.units = some u := by rw [e4]; exact hu3
  have hs4 : unitScale g c4 u = some s := by rw [unitScale_of_rest r4]; exact hs
  have ho4 : c4.origin = some .galaxy := by rw [e4]; exact ho3
  have l4 : Lin c4 := ⟨⟨u, hu4, hul⟩, ⟨_, ho4, trivial⟩⟩
  obtain ⟨w4, hw4⟩ := world_isSome (g := g) hu4 hul ho4
  have ha4 : TimeGiven { a with fromCentre := false } c4 := by intro h; exact ha (by rw [hu, ← hu4]; exact h)
  obtain ⟨t', c5, h5, ht5, d5, f5, g5, r5, k5⟩ := interpolateOrbit_ok (flow := flow) (a := { a with fromCentre := false }) p4 l4 g4 hw4 hu4 hs4 hn ha4
  obtain ⟨hu5, hs5⟩ := same_units hu4 hs4 d5 r5
  have st5 : c5.st = rows := (congrArg Data.st d5).trans (by rw [e4]; rfl)
  have ho5 : c5.origin = some .galaxy := (congrArg Data.origin d5).trans ho4
  have hur : u ≠ .radec := by rintro rfl; exact hul
  generalize hq : convertRow g c5 (orbitRow g (flow t' (natural g (w4.place false)))) = q at h5
  have hadd : setSkyGc q (addOrbit g q none none c5) = { c5 with gc := q } := by
    have hn5 : c5.units ≠ some .radec := by rw [hu5]; simpa using hur
    unfold setSkyGc addOrbit
    simp [hn5]
  obtain ⟨c6, e6⟩ : ∃ c6 : Cluster, c6 = { c5 with gc := q } := ⟨_, rfl⟩
  have hu6 : c6.units = some u := by rw [e6]; exact hu5
  have hs6 : unitScale g c6 u = some s := by rw [e6]; exact hs5
  have ho6 : c6.origin = some .galaxy := by rw [e6]; exact ho5
  have d6 : c6.d = c5.d := by rw [e6]
  have st6 : c6.st = rows := by rw [e6]; exact st5
  have hgc : w4.gc = w.gc := by
    have k1 : c4.gc = c.gc := by rw [e4]; exact congrArg Data.gc d3
    simp only [world, phys, hu4, hs4, ho4, Option.some.injEq] at hw4
    simp only [world, phys, hu, hs, ho, Option.some.injEq] at hw
    rw [← hw4, ← hw, k1]
  refine ⟨rows, c6, ⟨c.tphys * s.time, c.m.map (· * s.mass), rows.map (fun x => some (s.ph x)), s.ph c.c, s.ph q⟩, ?_, st6, hu6.trans hu.symm, ho6.trans ho.symm, ?_, ?_, ?_, ?_, ?_, ?_, ?_, ?_⟩
  · unfold interpolateOrbitsMethod
    simp only [h1, bind, Except.bind, pure, Except.pure]
    rw [if_pos ⟨by rw [ho3]; simp, by rw [ho3]; simp⟩, ← e4, h5]
    simp only [hadd]
    rw [← e6, st5]
  · have k2 : c6.tphys = c.tphys := by rw [e6]; show c5.tphys = _; rw [show c5.tphys = c4.tphys from congrArg Data.tphys d5, e4]; exact congrArg Data.tphys d3
    have k3 : c6.m = c.m := by rw [e6]; show c5.m = _; rw [show c5.m = c4.m from congrArg Data.m d5, e4]; exact congrArg Data.m d3
    have k4 : c6.c = c.c := by rw [e6]; show c5.c = _; rw [show c5.c = c4.c from congrArg Data.c d5, e4]; exact congrArg Data.c d3
    have k5 : c6.gc = q := by rw [e6]
    simp only [world, phys, hu6, hs6, ho6, k2, k3, k4, k5, st6, galRows, List.map_map]
    rfl
  · simp only [world, phys, hu, hs, ho, Option.some.injEq] at hw; rw [← hw]
  · simp only [world, phys, hu, hs, ho, Option.some.injEq] at hw; rw [← hw]
  · simp only [world, phys, hu, hs, ho, Option.some.injEq] at hw; rw [← hw]
  · rw [d6, ← st5]; exact f5.r
  · have b := convertRow_follows (flow := flow) (p4.of_rest r5) hu5 hs5 t' (w4.place false)
    rw [ht5, hq] at b
    show Follows g flow (spanMyr s a.tfinal) (RightVelocities u) w.gc (s.ph q)
    rw [← hgc]
    exact b
  · simp only [world, phys, hu, hs, ho, Option.some.injEq] at hw
    rw [← hw]
    show List.Forall₂ _ (galRows .galaxy (s.ph c.c) (s.ph c.gc) (c.st.map s.ph)) (rows.map _)
    rw [← hrows, galRows, List.map_map, List.map_map, List.forall₂_map_left_iff, List.forall₂_map_right_iff]
    refine List.forall₂_same.mpr fun x _ => ⟨s.ph x, _, rfl, rfl, ?_⟩
    have b := convertRow_follows (flow := flow) (p.of_rest r3) hu3 hs3 t (s.ph x)
    rwa [ht] at b

  · intro o h1 h2 h3
    obtain ⟨a1, a2⟩ := k3 o h1 h2 h3
    have b1 : c4.rorder = some o := by rw [e4]; exact a1.trans h1
    have b2 : c4.rorderOrigin = c4.origin := by rw [ho4, e4]; exact a2.trans (h2.trans ho)
    have b3 : o.length = c4.st.length := by rw [e4]; show o.length = rows.length; rw [hlen, st3]; exact h3
    obtain ⟨d1, d2⟩ := k5 o b1 b2 b3
    rw [e6]
    exact ⟨d1.trans b1, d2.trans (b2.trans (ho4.trans ho.symm))⟩

/-- **C88.**  With the origin at the galaxy, the method `interpolate_orbits` moves every star and the cluster to where they are after the
given time; time, masses and the centre (from the cluster's position) stay, and the derived quantities are those of the moved stars. -/
theorem C88_stars_move {g : Galpy} {flow : ℝ → Ph → Ph} {a : PathArgs} {c : Cluster} {w : World} {u : Units} {s : Scale}
    (p : Pos g c) (hg : Good c) (hw : world g c = some w) (hu : c.units = some u) (hs : unitScale g c u = some s)
    (ho : c.origin = some .galaxy) (hn : 2 ≤ a.nt) (ha : TimeGiven a c) :
    ∃ rows c' w', interpolateOrbitsMethod g flow a c = .ok (rows, c') ∧ c'.st = rows ∧ c'.units = c.units ∧ c'.origin = c.origin ∧
      world g c' = some w' ∧ w'.time = w.time ∧ w'.mass = w.mass ∧ w'.centre = w.centre ∧ AreNorms (fun p => p.x ^ 2 + p.y ^ 2 + p.z ^ 2) rows c'.d.r ∧
      Follows g flow (spanMyr s a.tfinal) (RightVelocities u) w.gc w'.gc ∧
      List.Forall₂ (fun P Q => ∃ P' Q', P = some P' ∧ Q = some Q' ∧ Follows g flow (spanMyr s a.tfinal) (RightVelocities u) P' Q')
        w.stars w'.stars := by
  obtain ⟨rows, c', w', h1, h2, h3, h4, h5, h6, h7, h8, h9, h10, h11, -⟩ := orbits_run (flow := flow) p hg hw hu hs ho hn ha
  exact ⟨rows, c', w', h1, h2, h3, h4, h5, h6, h7, h8, h9, h10, h11⟩

end

end CT
