import Verif.Lemmas.Return

namespace CT

noncomputable section

set_option linter.unusedSimpArgs false

/-- The galpy scaling undone. -/
theorem galpy_rows {g : Galpy} {c c1 : Cluster} (n : NZ g c) (hu : c.units = some .kpckms)
    (s : UStep g .galpy c c1) :
    c1.st.map (fun p => (p.mulPos g.ro).mulVel g.vo) = c.st ∧ (c1.gc.mulPos g.ro).mulVel g.vo = c.gc := by
  have hp := s.phys
  unfold phys at hp
  rw [s.units, hu] at hp
  simp only [unitScale, Option.some.injEq, Phys.mk.injEq] at hp
  obtain ⟨-, -, k3, -, k5⟩ := hp
  have key : ∀ p q : Ph, Scale.ph ⟨1000 * g.ro, g.vo, g.massMsol, 1000 * g.timeGyr⟩ p
      = Scale.ph ⟨1000, 1, 1, 1000⟩ q → (p.mulPos g.ro).mulVel g.vo = q := by
    intro p q h
    simp only [Scale.ph, Ph.mk.injEq] at h
    obtain ⟨a, b, c, d, e, f⟩ := h
    ext <;> simp only [Ph.mulPos, Ph.mulVel] <;> linarith
  refine ⟨?_, key _ _ k5⟩
  have hlen : c1.st.length = c.st.length := by simpa using congrArg List.length k3
  refine List.ext_getElem (by simpa using hlen) fun i h1 h2 => ?_
  rw [List.getElem_map]
  refine key _ _ ?_
  have := congrArg (fun l => l[i]?) k3
  simpa [List.getElem?_eq_getElem (by simpa using h1 : i < c1.st.length), List.getElem?_eq_getElem h2] using this

/-- `to_galpy` and back, as done by `initialize_orbit(s)`. -/
theorem galpy_roundtrip {g : Galpy} {c : Cluster} (p : Pos g c) (hg : Good c) (hu : c.units = some .kpckms)
    {o : Origin} (ho : c.origin = some o) (hol : o.linear) :
    ∃ c1 c2, toGalpy g c = .ok c1 ∧ returnUnitsNR g c.units c.rorder c.rorderOrigin c1 = .ok c2 ∧
      c2.data = c.data ∧ Good c2 ∧ c2.rest = c.rest ∧ c1.origin = c.origin ∧
      c1.st.map (fun p => (p.mulPos g.ro).mulVel g.vo) = c.st ∧ (c1.gc.mulPos g.ro).mulVel g.vo = c.gc := by
  obtain ⟨c1, h1, g1⟩ := toGalpy_total hu trivial p hg
  have s1 := toGalpy_ustep p.nz hu trivial h1
  have p1 := p.of_rest s1.rest
  obtain ⟨c2, h2, g2⟩ := toKpckms_total (a := true) s1.units (by simp) p1 g1
  have s2 : UStep g .kpckms c1 c2 := toKpckms_ustep s1.units trivial h2
  have hd : c2.data = c.data :=
    data_of_world p.nz (s2.rest.trans s1.rest) hu s2.units trivial ho
      (s2.origin.trans (s1.origin.trans ho)) hol (s2.world.trans s1.world)
  have hst : c2.st = c.st := congrArg Data.st hd
  have g3 : Good { c2 with rorder := c.rorder, rorderOrigin := c.rorderOrigin } :=
    ⟨g2.ne, g2.len, g2.mass, fun x hx => by
      rw [show Cluster.st { c2 with rorder := c.rorder, rorderOrigin := c.rorderOrigin } = c.st from hst]
      exact hg.ro x hx, g2.rpo⟩
  obtain ⟨c3, h3, g3'⟩ := analyze_total (s := true) (p := true) g3
  obtain ⟨k1, k2⟩ := galpy_rows p.nz hu s1
  refine ⟨c1, c3, h1, ?_, (core_data (analyze_core h3)).trans hd, g3', ?_, s1.origin, k1, k2⟩
  · have hne : c1.units ≠ some .kpckms := by rw [s1.units]; simp
    unfold returnUnitsNR
    simp only [hu, hne, ne_eq, not_false_eq_true, if_true, toUnitsNR, s1.units, bind, h2, Except.bind]
    simpa only [ne_eq, reduceCtorEq, Option.some.injEq, not_false_eq_true, if_true] using h3
  · obtain ⟨-, -, -, -, -, -, -, -, -, -, -, hr⟩ := core_fields (analyze_core h3)
    exact hr.trans (Eq.trans (b := c2.rest) rfl (s2.rest.trans s1.rest))

theorem initOrbit_spec {g : Galpy} {c : Cluster} (p : Pos g c) (hg : Good c) (hu : c.units = some .kpckms)
    {o : Origin} (ho : c.origin = some o) (hol : o.linear) :
    ∃ c', initOrbit g c = .ok c' ∧ c'.data = c.data ∧ Good c' ∧
      c'.rest = { c.rest with orbit := some ⟨c.gc, g.toSky c.gc⟩ } := by
  obtain ⟨c1, c2, h1, h2, hd, g2, hr, -, -, k⟩ := galpy_roundtrip p hg hu ho hol
  refine ⟨{ c2 with orbit := some (g.orbitOfGalpy c1.gc) }, ?_, hd, ⟨g2.ne, g2.len, g2.mass, g2.ro, g2.rpo⟩, ?_⟩
  · simp only [initOrbit, bind, h1, Except.bind, h2]; rfl
  · have e : g.orbitOfGalpy c1.gc = ⟨c.gc, g.toSky c.gc⟩ := by unfold Galpy.orbitOfGalpy; rw [k]
    rw [e, ← hr]; rfl

theorem initOrbits_spec {g : Galpy} {c : Cluster} (p : Pos g c) (hg : Good c) (hu : c.units = some .kpckms)
    (ho : c.origin = some .galaxy) :
    ∃ c', initOrbits g c = .ok c' ∧ c'.data = c.data ∧ Good c' ∧
      c'.rest = { c.rest with orbits := some (c.st.map (fun q => ⟨q, g.toSky q⟩)) } := by
  obtain ⟨c1, c2, h1, h2, hd, g2, hr, ho1, k, -⟩ := galpy_roundtrip p hg hu ho trivial
  refine ⟨{ c2 with orbits := some (c1.st.map g.orbitOfGalpy) }, ?_, hd,
    ⟨g2.ne, g2.len, g2.mass, g2.ro, g2.rpo⟩, ?_⟩
  · simp only [initOrbits, bind, h1, Except.bind, h2]
    rw [ho1, ho]; rfl
  · have e : c1.st.map g.orbitOfGalpy = c.st.map (fun q => ⟨q, g.toSky q⟩) := by
      rw [← k, List.map_map]; rfl
    rw [e, ← hr]; rfl

/-! ### origin changes on the sky -/

/-- What sky-plane recentring never touches. -/
structure SkyKeep (c c' : Cluster) : Prop where
  units : c'.units = c.units
  m : c'.m = c.m
  tphys : c'.tphys = c.tphys
  ctr : c'.c = c.c
  gcp : c'.gc = c.gc
  rest : c'.rest = c.rest

theorem SkyKeep.refl (c : Cluster) : SkyKeep c c := ⟨rfl, rfl, rfl, rfl, rfl, rfl⟩

theorem SkyKeep.trans {a b c : Cluster} (h : SkyKeep a b) (k : SkyKeep b c) : SkyKeep a c :=
  ⟨k.units.trans h.units, k.m.trans h.m, k.tphys.trans h.tphys, k.ctr.trans h.ctr, k.gcp.trans h.gcp,
    k.rest.trans h.rest⟩

theorem SkyKeep.core {a b c : Cluster} (h : SkyKeep a b) (k : c.core = b.core) : SkyKeep a c := by
  obtain ⟨h1, h2, h3, h4, h5, h6, h7, h8, h9, h10, h11, hr⟩ := core_fields k
  exact ⟨h1.trans h.units, h4.trans h.m, h3.trans h.tphys, h6.trans h.ctr, h7.trans h.gcp, hr.trans h.rest⟩

theorem SkyKeep.sky {c c' : Cluster} (h : SkyKeep c c') : c'.sky = c.sky :=
  (congrArg Cluster.sky h.rest :)

theorem core_st {c c' : Cluster} (h : c'.core = c.core) : c'.st = c.st := (congrArg Cluster.st h :)

theorem core_origin {c c' : Cluster} (h : c'.core = c.core) : c'.origin = c.origin := (congrArg Cluster.origin h :)

theorem core_method {c c' : Cluster} (h : c'.core = c.core) : c'.centreMethod = c.centreMethod :=
  (congrArg Cluster.centreMethod h :)

/-- Sky states: radec labels, one stored sky row per star; at origin sky the coordinates are the stored rows. -/
structure SkyState (c : Cluster) : Prop where
  units : c.units = some .radec
  origin : c.origin = some .sky ∨ c.origin = some .cluster ∨ c.origin = some .centre
  len : c.sky.length = c.m.length
  sky : c.origin = some .sky → c.st = c.sky

theorem Good.newst {c : Cluster} (h : Good c) {c' : Cluster} (hst : c'.st.length = c.st.length) (hm : c'.m = c.m)
    (h1 : c'.rorder = c.rorder) (h2 : c'.rproorder = c.rproorder) : Good c' := by
  refine ⟨?_, ?_, ?_, ?_, ?_⟩
  · intro h0
    have := h.ne
    rw [h0] at hst
    exact this (List.length_eq_zero_iff.mp hst.symm)
  · rw [hm, hst, h.len]
  · rw [hm]; exact h.mass
  · intro o ho; rw [hst]; exact h.ro o (h1 ▸ ho)
  · intro o ho; rw [hst]; exact h.rpo o (h2 ▸ ho)

theorem toSkyRadec_spec {s : Bool} {c : Cluster} (h : SkyState c) (hg : Good c) :
    ∃ c', toSkyRadec s c = .ok c' ∧ SkyKeep c c' ∧ c'.origin = some .sky ∧ c'.st = c.sky ∧ Good c' ∧
      c'.centreMethod = c.centreMethod := by
  obtain ⟨o, ho⟩ : ∃ o, c.origin = some o := by rcases h.origin with h | h | h <;> exact ⟨_, h⟩
  by_cases hs : c.origin = some .sky
  · obtain ⟨c', h', g'⟩ := analyze_total (s := s) (p := true) hg
    refine ⟨c', ?_, (SkyKeep.refl c).core (analyze_core h'), (core_origin (analyze_core h')).trans hs,
      (core_st (analyze_core h')).trans (h.sky hs), g', core_method (analyze_core h')⟩
    simp only [toSkyRadec, ho]
    rw [ho] at hs
    simp only [ne_eq, hs, not_true_eq_false, if_false]
    exact h'
  · have g1 : Good { c with st := c.sky, origin := some .sky } :=
      hg.newst (by rw [← hg.len, ← h.len]) rfl rfl rfl
    obtain ⟨c', h', g'⟩ := analyze_total (s := s) (p := true) g1
    refine ⟨c', ?_, ?_, (core_origin (analyze_core h') :), (core_st (analyze_core h') :), g',
      (core_method (analyze_core h') :)⟩
    · simp only [toSkyRadec, ho]
      rw [ho] at hs
      simp only [ne_eq, hs, not_false_eq_true, if_true]
      exact h'
    · exact SkyKeep.core (b := { c with st := c.sky, origin := some .sky }) ⟨rfl, rfl, rfl, rfl, rfl, rfl⟩
        (analyze_core h')

/-- The recentred row for a method about the reference point `q` with orbit position `gc`. -/
def recentred (cm : Option CentreMethod) (q gc p : Ph) : Ph :=
  match cm with
  | some .orthographic => orthographicRow q gc p p.vy
  | some .vandeven => vandevenRow q p
  | _ => flatRow q p

theorem zipWith_self {α β : Type} (f : α → α → β) (l : List α) : List.zipWith f l l = l.map (fun a => f a a) := by
  induction l with
  | nil => rfl
  | cons a l ih => simp [ih]

theorem skyRecentre_spec {q : Ph} {c : Cluster} (hs : c.st = c.sky) :
    skyRecentre q c = .ok { c with st := c.sky.map (recentred c.centreMethod q c.gc) } := by
  unfold skyRecentre recentred
  rw [hs]
  cases c.centreMethod with
  | none => rfl
  | some k =>
    cases k
    · simp only [if_true]; rw [zipWith_self]
    · rfl
    · rfl

theorem setMethod_keep (cm : Option CentreMethod) (c : Cluster) : SkyKeep c (setMethod cm c) ∧
    (setMethod cm c).origin = c.origin ∧ (setMethod cm c).st = c.st ∧
    (setMethod cm c).centreMethod = cm.or c.centreMethod := by
  cases cm <;> exact ⟨⟨rfl, rfl, rfl, rfl, rfl, rfl⟩, rfl, rfl, rfl⟩

theorem setMethod_sky {cm : Option CentreMethod} {c : Cluster} (h : SkyState c) : SkyState (setMethod cm c) := by
  cases cm
  · exact h
  · exact ⟨h.units, h.origin, h.len, h.sky⟩

theorem toCluster_sky {s : Bool} {cm : Option CentreMethod} {c : Cluster} (h : SkyState c) (hg : Good c) :
    ∃ c', toCluster s cm c = .ok c' ∧ SkyKeep c c' ∧ Good c' ∧ c'.origin = some .cluster ∧
      c'.centreMethod = cm.or c.centreMethod ∧
      (c.origin ≠ some .cluster → c'.st = c.sky.map (recentred (cm.or c.centreMethod) c.gc c.gc)) ∧
      (c.origin = some .cluster → c'.st = c.st) := by
  obtain ⟨o, ho⟩ : ∃ o, c.origin = some o := by rcases h.origin with h | h | h <;> exact ⟨_, h⟩
  have g0 := setMethod_good (cm := cm) hg
  obtain ⟨k0, ho0, hst0, hm0⟩ := setMethod_keep cm c
  have hS0 := setMethod_sky (cm := cm) h
  have hu0 : (setMethod cm c).units = some .radec := hS0.units
  unfold toCluster
  rw [ho]
  by_cases hc : o = .cluster
  · subst hc
    refine ⟨setMethod cm c, by simp, k0, g0, ho0.trans ho, hm0, ?_, fun _ => hst0⟩
    intro hn; exact absurd rfl hn
  · simp only [ne_eq, hc, not_false_eq_true, if_true, hu0, bind]
    obtain ⟨c1, h1, k1, o1, st1, g1, m1⟩ : ∃ c1, (if ¬ o = .sky then toSkyRadec true (setMethod cm c)
        else .ok (setMethod cm c)) = .ok c1 ∧ SkyKeep (setMethod cm c) c1 ∧ c1.origin = some .sky ∧
        c1.st = (setMethod cm c).sky ∧ Good c1 ∧ c1.centreMethod = (setMethod cm c).centreMethod := by
      by_cases hs : o = .sky
      · subst hs
        rw [if_neg (by simp)]
        exact ⟨_, rfl, .refl _, ho0.trans ho, hS0.sky (ho0.trans ho), g0, rfl⟩
      · rw [if_pos hs]
        exact toSkyRadec_spec hS0 g0
    have r1 := skyRecentre_spec (q := c1.gc) (c := c1) (st1.trans k1.sky.symm)
    have g2 : Good { c1 with st := c1.sky.map (recentred c1.centreMethod c1.gc c1.gc), origin := some .cluster } := by
      refine g1.newst ?_ rfl rfl rfl
      rw [List.length_map, st1, k1.sky]
    obtain ⟨c2, h2, g2'⟩ := analyze_total (s := s) (p := true) g2
    refine ⟨c2, ?_, ?_, g2', core_origin (analyze_core h2), ?_, ?_, ?_⟩
    · by_cases hs : ¬ o = .sky
      · rw [if_pos hs] at h1 ⊢
        rw [h1]; simp only [Except.bind, r1]; exact h2
      · rw [if_neg hs] at h1 ⊢
        injection h1 with h1
        simp only [Except.bind, h1, r1]; exact h2
    · have kk : SkyKeep c1
          { c1 with st := c1.sky.map (recentred c1.centreMethod c1.gc c1.gc), origin := some .cluster } :=
        ⟨rfl, rfl, rfl, rfl, rfl, rfl⟩
      exact k0.trans (k1.trans (kk.core (analyze_core h2)))
    · rw [core_method (analyze_core h2)]; exact m1.trans hm0
    · intro _
      rw [core_st (analyze_core h2)]
      show c1.sky.map (recentred c1.centreMethod c1.gc c1.gc) = _
      rw [m1, hm0, k1.sky, k1.gcp, k0.sky, k0.gcp]
    · intro hcl; rw [Option.some.injEq] at hcl; exact absurd hcl hc

theorem toCentre_sky {s : Bool} {cm : Option CentreMethod} {c : Cluster} (h : SkyState c) (hg : Good c) :
    ∃ c', toCentre s cm c = .ok c' ∧ SkyKeep c c' ∧ Good c' ∧ c'.origin = some .centre ∧
      c'.centreMethod = cm.or c.centreMethod ∧
      (c.origin ≠ some .centre → c'.st = c.sky.map (recentred (cm.or c.centreMethod) c.c c.gc)) ∧
      (c.origin = some .centre → c'.st = c.st) := by
  obtain ⟨o, ho⟩ : ∃ o, c.origin = some o := by rcases h.origin with h | h | h <;> exact ⟨_, h⟩
  have g0 := setMethod_good (cm := cm) hg
  obtain ⟨k0, ho0, hst0, hm0⟩ := setMethod_keep cm c
  have hS0 := setMethod_sky (cm := cm) h
  have hu0 : (setMethod cm c).units = some .radec := hS0.units
  unfold toCentre
  rw [ho]
  by_cases hc : o = .centre
  · subst hc
    refine ⟨setMethod cm c, by simp, k0, g0, ho0.trans ho, hm0, ?_, fun _ => hst0⟩
    intro hn; exact absurd rfl hn
  · simp only [ne_eq, hc, not_false_eq_true, if_true, hu0, bind]
    obtain ⟨c1, h1, k1, o1, st1, g1, m1⟩ : ∃ c1, (if ¬ o = .sky then toSkyRadec true (setMethod cm c)
        else .ok (setMethod cm c)) = .ok c1 ∧ SkyKeep (setMethod cm c) c1 ∧ c1.origin = some .sky ∧
        c1.st = (setMethod cm c).sky ∧ Good c1 ∧ c1.centreMethod = (setMethod cm c).centreMethod := by
      by_cases hs : o = .sky
      · subst hs
        rw [if_neg (by simp)]
        exact ⟨_, rfl, .refl _, ho0.trans ho, hS0.sky (ho0.trans ho), g0, rfl⟩
      · rw [if_pos hs]
        exact toSkyRadec_spec hS0 g0
    have r1 := skyRecentre_spec (q := c1.c) (c := c1) (st1.trans k1.sky.symm)
    have g2 : Good { c1 with st := c1.sky.map (recentred c1.centreMethod c1.c c1.gc), origin := some .centre } := by
      refine g1.newst ?_ rfl rfl rfl
      rw [List.length_map, st1, k1.sky]
    obtain ⟨c2, h2, g2'⟩ := analyze_total (s := s) (p := true) g2
    refine ⟨c2, ?_, ?_, g2', core_origin (analyze_core h2), ?_, ?_, ?_⟩
    · by_cases hs : ¬ o = .sky
      · rw [if_pos hs] at h1 ⊢
        rw [h1]; simp only [Except.bind, r1]; exact h2
      · rw [if_neg hs] at h1 ⊢
        injection h1 with h1
        simp only [Except.bind, h1, r1]; exact h2
    · have kk : SkyKeep c1
          { c1 with st := c1.sky.map (recentred c1.centreMethod c1.c c1.gc), origin := some .centre } :=
        ⟨rfl, rfl, rfl, rfl, rfl, rfl⟩
      exact k0.trans (k1.trans (kk.core (analyze_core h2)))
    · rw [core_method (analyze_core h2)]; exact m1.trans hm0
    · intro _
      rw [core_st (analyze_core h2)]
      show c1.sky.map (recentred c1.centreMethod c1.c c1.gc) = _
      rw [m1, hm0, k1.sky, k1.gcp, k1.ctr, k0.sky, k0.gcp, k0.ctr]
    · intro hcl; rw [Option.some.injEq] at hcl; exact absurd hcl hc

theorem SkyState.keep {c c' : Cluster} (h : SkyState c) (k : SkyKeep c c')
    (ho : c'.origin = some .sky ∨ c'.origin = some .cluster ∨ c'.origin = some .centre)
    (hs : c'.origin = some .sky → c'.st = c.sky) : SkyState c' :=
  ⟨k.units.trans h.units, ho, by rw [k.sky, k.m, h.len], fun e => by rw [k.sky]; exact hs e⟩

end

end CT
