/- Property theorems C124: analysis calls are observers, in sessions of any length. -/
import Verif.Lemmas.SessionQ
import Verif.Props.VirialCrit2
import Verif.Props.Energy2

namespace CT

noncomputable section

/-- **C124 (one call).**  Whatever the call, its arguments, and the units and origin the cluster is in: a call that does not raise gives the
cluster back with the same stars, masses, centre, position, time, units and origin, with radii, totals and stored orders that belong to it. -/
theorem C124_call {g : Galpy} {w : World} {q : Query} {c c' : Cluster} (hq : q.Observing w) (d : Describes g w c) (h : q.exec g c = .ok c') :
    Describes g w c' ∧ c'.data = c.data ∧ c'.rest = c.rest := by
  suffices k : Ok (q.exec g c) (Back g w c) by
    obtain ⟨a, b, e⟩ := k c' h
    exact ⟨a, e, b⟩
  cases q <;> unfold Query.exec <;> refine Ok.map ?_
  · exact coordsOf_back d
  · exact coordsOf_back d
  · exact rlagrange_back d
  · exact rlagrangeFrac_back d
  · exact relaxationTime_back d
  · exact halfMassRelaxationTime_back d
  · exact coreRelaxationTime_back hq d
  · exact rcore_back hq d
  · exact rcoreDensity_back hq d
  · exact virialInverse_back d
  · exact virialCrit_back d
  · exact energies_back d
  · exact energiesIds_back d
  · exact massFunction_back d
  · exact etaFunction_back d
  · exact meqFunction_back d
  · exact ckin_back d
  · exact mProf_back d
  · exact rhoProf_back d
  · exact velProf_back d
  · exact betaProf_back d
  · exact vcircProf_back d
  · exact alphaProf_back d
  · exact etaProf_back d
  · exact rtidal_back d
  · exact rlimiting_back d
  · exact initializeOrbit_back d
  · exact initializeOrbits_back d
  · exact interpolateOrbit_back d
  · exact interpolateOrbits_back d
  · exact orbitalPath_back d
  · exact orbitalPathSky_back d
  · exact orbitalPathMatch_back d
  · exact toTail_back d
  · exact tailPath_back d
  · exact tailPathMatch_back d
  · exact findCentre_back hq d
  · exact gyrout_back d

theorem session_steps {g : Galpy} {w : World} (l : List SCall) : ∀ {c c' : Cluster}, (∀ a ∈ l, a.Admissible w) → Describes g w c →
    session g l c = .ok c' →
    Describes g w c' ∧ c'.rest = c.rest ∧ c'.units = (lastUnits (conversions l)).or c.units ∧
      c'.origin = (lastOrigin (conversions l)).or c.origin := by
  induction l with
  | nil => intro c c' _ d h; cases h; exact ⟨d, rfl, rfl, rfl⟩
  | cons a l ih =>
    intro c c' hl d h
    obtain ⟨c1, h1, h2⟩ := bind_ok h
    have ha := hl a (by simp)
    cases a with
    | convert op =>
      obtain ⟨d1, r1⟩ := (Rel.refl d).exec op ha.1 ha.2 c1 h1
      have st := exec_step d.pos.nz d.lin ha.1 h1
      obtain ⟨k1, k2, k3, k4⟩ := ih (fun b hb => hl b (by simp [hb])) d1 h2
      refine ⟨k1, k2.trans r1, ?_, ?_⟩
      · rw [k3, st.units, conversions, lastUnits]; cases lastUnits (conversions l) <;> rfl
      · rw [k4, st.origin, conversions, lastOrigin]; cases lastOrigin (conversions l) <;> rfl
    | query q =>
      obtain ⟨d1, e1, r1⟩ := C124_call ha d h1
      obtain ⟨k1, k2, k3, k4⟩ := ih (fun b hb => hl b (by simp [hb])) d1 h2
      refine ⟨k1, k2.trans r1, ?_, ?_⟩
      · rw [k3, conversions, show c1.units = c.units from congrArg Data.units e1]
      · rw [k4, conversions, show c1.origin = c.origin from congrArg Data.origin e1]

/-- **C124 (sessions).**  After any session of conversions and analysis calls that does not raise, the cluster describes the world it described
before, and is exactly the cluster the conversions alone would have left: the analysis calls have no effect on its data, units and origin. -/
theorem C124_session {g : Galpy} {w : World} {l : List SCall} {c c' : Cluster} (hl : ∀ a ∈ l, a.Admissible w) (d : Describes g w c)
    (h : session g l c = .ok c') :
    Describes g w c' ∧ ∃ c'', run g (conversions l) c = .ok c'' ∧ c'.data = c''.data ∧ c'.rest = c''.rest := by
  obtain ⟨k1, k2, k3, k4⟩ := session_steps l hl d h
  have hlin : ∀ op ∈ conversions l, op.linear := by
    clear h k1 k2 k3 k4
    induction l with
    | nil => simp [conversions]
    | cons a l ih =>
      have := ih (fun b hb => hl b (by simp [hb]))
      cases a with
      | convert op =>
        intro o ho
        simp only [conversions, List.mem_cons] at ho
        rcases ho with rfl | ho
        · exact (hl (.convert o) (by simp)).1
        · exact this o ho
      | query q => exact this
  obtain ⟨c'', hr, -⟩ := run_total d.pos d.lin hlin d.good
  have st := run_steps d.pos.nz d.lin hlin hr
  obtain ⟨⟨u, hu, hul⟩, ⟨o, ho, hol⟩⟩ := st.lin
  refine ⟨k1, c'', hr, data_of_world (d.pos.of_rest st.rest).nz (k2.trans st.rest.symm) hu ?_ hul ho ?_ hol
    (k1.world.trans (st.world.trans d.world).symm), k2.trans st.rest.symm⟩
  · rw [k3, ← st.units, hu]
  · rw [k4, ← st.origin, ho]

/-- **C124 (order of questions).**  Two sessions with the same conversions leave the same cluster, whatever was asked in between. -/
theorem C124_same_conversions {g : Galpy} {w : World} {l l' : List SCall} {c c1 c2 : Cluster} (hl : ∀ a ∈ l, a.Admissible w)
    (hl' : ∀ a ∈ l', a.Admissible w) (d : Describes g w c) (hc : conversions l = conversions l') (h : session g l c = .ok c1)
    (h' : session g l' c = .ok c2) : c1.data = c2.data ∧ c1.rest = c2.rest := by
  obtain ⟨-, x, hx, a1, a2⟩ := C124_session hl d h
  obtain ⟨-, y, hy, b1, b2⟩ := C124_session hl' d h'
  rw [← hc, hx] at hy
  cases hy
  exact ⟨a1.trans b1.symm, a2.trans b2.symm⟩

theorem masses_nonneg {g : Galpy} {w : World} {c : Cluster} (d : Describes g w c) (hm : ∀ x ∈ w.mass, 0 ≤ x) : ∀ x ∈ c.m, 0 ≤ x := by
  obtain ⟨⟨u, hu, hul⟩, ⟨o, ho, hol⟩⟩ := d.lin
  obtain ⟨s, hs⟩ := unitScale_isSome (g := g) (c := c) hul
  have hw := d.world
  have a : w.mass = c.m.map (· * s.mass) := by
    unfold world phys at hw
    simp only [hu, ho, hs, Option.some.injEq] at hw
    rw [← hw]
  intro x hx
  have := hm (x * s.mass) (by rw [a]; exact List.mem_map.mpr ⟨x, hx, rfl⟩)
  exact nonneg_of_mul_nonneg_left this (unitScale_pos d.pos hs).2.2.1

/-- **C124 (asking again).**  The half-mass relaxation time asked for after any session is, in physical units, the one asked for before it, when
the cluster is measured from the same point (its centre, or its position on its orbit). -/
theorem C124_ask_again {g : Galpy} {w : World} {l : List SCall} {c c' : Cluster} {γ : ℝ} {u v : Units} {s r : Scale} (hl : ∀ a ∈ l, a.Admissible w)
    (d : Describes g w c) (h : session g l c = .ok c') (hm : ∀ x ∈ w.mass, 0 ≤ x) (hM : 0 < w.mass.sum) (hf : workFrame c = workFrame c')
    (hu : c.units = some u) (hs : unitScale g c u = some s) (hv : c'.units = some v) (hr : unitScale g c' v = some r) :
    ∃ t x t' x', halfMassRelaxationTime g γ false c = .ok (t, x) ∧ halfMassRelaxationTime g γ false c' = .ok (t', x') ∧
      t * s.time = t' * r.time := by
  obtain ⟨d', -, -, -⟩ := session_steps l hl d h
  have key : ∀ {b : Cluster}, Describes g w b → 0 < b.m.sum := by
    intro b e
    obtain ⟨⟨u, hu, hul⟩, ⟨o, ho, hol⟩⟩ := e.lin
    obtain ⟨s, hs⟩ := unitScale_isSome (g := g) (c := b) hul
    have hw := e.world
    have a : w.mass = b.m.map (· * s.mass) := by
      unfold world phys at hw
      simp only [hu, ho, hs, Option.some.injEq] at hw
      rw [← hw]
    rw [a, List.sum_map_mul_right, List.map_id'] at hM
    exact pos_of_mul_pos_left hM (unitScale_pos e.pos hs).2.2.1.le
  exact C71_same_cluster d.pos d.lin d.good d.fresh (masses_nonneg d hm) (key d) d.world d.order hu hs d'.pos d'.lin d'.good d'.fresh
    (masses_nonneg d' hm) (key d') d'.world d'.order hv hr hf

/-- The call of `half_mass_relaxation_time` does not raise for a cluster with mass. -/
theorem halfMass_call {g : Galpy} {w : World} {c : Cluster} {γ : ℝ} (d : Describes g w c) (hm : ∀ x ∈ c.m, 0 ≤ x) (hM : 0 < c.m.sum) :
    ∃ c', (Query.halfMassRelaxationTime γ false).exec g c = .ok c' := by
  obtain ⟨⟨u, hu, hul⟩, -⟩ := d.lin
  obtain ⟨s, hs⟩ := unitScale_isSome (g := g) (c := c) hul
  obtain ⟨t, c', rh, a1, -⟩ := C71_half_mass (γ := γ) d.pos d.lin d.good d.fresh hm hM d.world d.order hu hs
  exact ⟨c', by simp only [Query.exec, a1]; rfl⟩

/-- The relaxation time of the demo cluster asked for, the cluster converted to kpc and to the galactic centre, and the time asked for again:
the cluster is the one converted without asking, and it is not the cluster the session began with. -/
example : ∃ (c c' c'' : Cluster) (w : World), Describes demoG w c ∧
    session demoG [.query (.halfMassRelaxationTime 4 false), .convert (.toKpckms true), .convert (.toGalaxy false),
      .query (.halfMassRelaxationTime 4 false)] c = .ok c' ∧
    run demoG [.toKpckms true, .toGalaxy false] c = .ok c'' ∧ c'.data = c''.data ∧ c'.units = some .kpckms ∧ c.units = some .pckms := by
  obtain ⟨c, w, -, p, l, hg, f, hm, hM, hw, i, hu, -⟩ := demo_analysed
  have d : Describes demoG w c := ⟨p, l, hg, f, hw, i⟩
  obtain ⟨c1, h1⟩ := halfMass_call (γ := 4) d hm hM
  obtain ⟨d1, e1, r1⟩ := C124_call (q := .halfMassRelaxationTime 4 false) trivial d h1
  have k1 : Op.linear (.toKpckms true) := by simp [Op.linear, Op.unitTarget, Op.originTarget, Units.linear]
  have k2 : Op.linear (.toGalaxy false) := by simp [Op.linear, Op.unitTarget, Op.originTarget, Origin.linear]
  obtain ⟨c2, h2, -⟩ := exec_total d1.pos d1.lin k1 d1.good
  obtain ⟨d2, -⟩ := (Rel.refl d1).exec _ k1 rfl c2 h2
  obtain ⟨c3, h3, -⟩ := exec_total d2.pos d2.lin k2 d2.good
  obtain ⟨d3, -⟩ := (Rel.refl d2).exec _ k2 trivial c3 h3
  have hwm : (∀ x ∈ w.mass, 0 ≤ x) ∧ 0 < w.mass.sum := by
    have : w.mass = c.m := by
      obtain ⟨-, ⟨o, ho, -⟩⟩ := l
      unfold world phys at hw
      simp only [hu, ho, unitScale, Option.some.injEq] at hw
      rw [← hw]; simp
    rw [this]; exact ⟨hm, hM⟩
  have hM3 : 0 < c3.m.sum := by
    obtain ⟨⟨v, hv, hvl⟩, ⟨o, ho, hol⟩⟩ := d3.lin
    obtain ⟨s, hs⟩ := unitScale_isSome (g := demoG) (c := c3) hvl
    have hw3 := d3.world
    have a : w.mass = c3.m.map (· * s.mass) := by
      unfold world phys at hw3
      simp only [hv, ho, hs, Option.some.injEq] at hw3
      rw [← hw3]
    have := hwm.2
    rw [a, List.sum_map_mul_right, List.map_id'] at this
    exact pos_of_mul_pos_left this (unitScale_pos d3.pos hs).2.2.1.le
  obtain ⟨c4, h4⟩ := halfMass_call (γ := 4) d3 (masses_nonneg d3 hwm.1) hM3
  have hs : session demoG [.query (.halfMassRelaxationTime 4 false), .convert (.toKpckms true), .convert (.toGalaxy false),
      .query (.halfMassRelaxationTime 4 false)] c = .ok c4 := by
    simp only [session, SCall.exec, h1, h2, h3, h4, Except.bind]
  have ha : ∀ a ∈ [SCall.query (.halfMassRelaxationTime 4 false), .convert (.toKpckms true), .convert (.toGalaxy false),
      .query (.halfMassRelaxationTime 4 false)], a.Admissible w := by
    intro a ha
    simp only [List.mem_cons, List.not_mem_nil, or_false] at ha
    rcases ha with rfl | rfl | rfl | rfl
    · trivial
    · exact ⟨k1, rfl⟩
    · exact ⟨k2, trivial⟩
    · trivial
  obtain ⟨-, c'', b1, b2, -⟩ := C124_session ha d hs
  obtain ⟨-, -, b3, -⟩ := session_steps _ ha d hs
  exact ⟨c, c4, c'', w, d, hs, b1, b2, b3, hu⟩

end

end CT
