import Verif.Lemmas.Sky
import Verif.Spec.Sky

namespace CT

noncomputable section

set_option linter.unusedSimpArgs false

/-- Linear state describing `S`. -/
structure LinInv (g : Galpy) (S : Truth) (c : Cluster) : Prop where
  pos : Pos g c
  lin : Lin c
  good : Good c
  desc : DescribesLinear g S c
  caches : CachesOf g S c

/-- Sky state describing `S`. -/
structure SkyInv (g : Galpy) (S : Truth) (c : Cluster) : Prop where
  pos : Pos g c
  state : SkyState c
  good : Good c
  sky : c.sky = S.stars.map (fun p => g.toSky (kpcRow p))
  gcp : c.gc = g.toSky (kpcRow S.gc)
  m : c.m = S.mass
  time : c.tphys * 1000 = S.time
  orbit : c.orbit = some ⟨kpcRow S.gc, g.toSky (kpcRow S.gc)⟩ ∨
    (c.orbit = none ∧ c.skyGc = g.toSky (kpcRow S.gc) ∧ g.ofSky (g.toSky (kpcRow S.gc)) = kpcRow S.gc)
  orbits : c.orbits = some (S.stars.map (fun p => ⟨kpcRow p, g.toSky (kpcRow p)⟩)) ∨
    (c.orbits = none ∧ ∀ p ∈ S.stars, g.ofSky (g.toSky (kpcRow p)) = kpcRow p)
  nbody : (c.zmbar, c.rbar, c.vbar, c.tbar) = S.nbody
  skyGc_eq : c.skyGc = g.toSky (kpcRow S.gc)

theorem SkyInv.desc {g : Galpy} {S : Truth} {c : Cluster} (h : SkyInv g S c) : DescribesSky g S c :=
  ⟨h.state.units, h.sky, h.gcp, h.m, h.time, h.state.sky, h.nbody⟩

theorem Scale.ph_kpc (p : Ph) : kpcRow (Scale.ph ⟨1000, 1, 1, 1000⟩ p) = p := by
  ext <;> simp [kpcRow, Scale.ph]

theorem Scale.kpc_ph (p : Ph) : Scale.ph ⟨1000, 1, 1, 1000⟩ (kpcRow p) = p := by
  ext <;> simp [kpcRow, Scale.ph]

/-- Reading off a kpckms/galaxy state. -/
theorem describes_kpc {g : Galpy} {S : Truth} {c : Cluster} (hu : c.units = some .kpckms)
    (ho : c.origin = some .galaxy) (h : DescribesLinear g S c) :
    c.st = S.stars.map kpcRow ∧ c.gc = kpcRow S.gc ∧ c.m = S.mass ∧ c.tphys * 1000 = S.time := by
  obtain ⟨W, hw, h1, h2, h3, h4, -⟩ := h
  unfold world phys at hw
  rw [hu, ho] at hw
  simp only [unitScale, Option.some.injEq] at hw
  subst hw
  simp only [mul_one, List.map_id'] at h1 h2
  refine ⟨?_, ?_, h2, h1⟩
  · simp only [galRows, galactocentric] at h3
    have := List.map_injective_iff.mpr (Option.some_injective Ph) h3
    rw [← this, List.map_map]
    conv_lhs => rw [← List.map_id c.st]
    exact List.map_congr_left fun p _ => (Scale.ph_kpc p).symm
  · rw [← h4]; exact (Scale.ph_kpc _).symm

theorem describes_of_kpc {g : Galpy} {S : Truth} {c : Cluster} (hu : c.units = some .kpckms)
    (ho : c.origin = some .galaxy) (h1 : c.st = S.stars.map kpcRow) (h2 : c.gc = kpcRow S.gc) (h3 : c.m = S.mass)
    (h4 : c.tphys * 1000 = S.time) (h5 : (c.zmbar, c.rbar, c.vbar, c.tbar) = S.nbody) : DescribesLinear g S c := by
  unfold DescribesLinear world phys
  rw [hu, ho]
  simp only [unitScale, Option.some.injEq]
  refine ⟨_, rfl, h4, by simpa using h3, ?_, ?_, h5⟩
  · simp only [galRows, galactocentric, h1, List.map_map]
    refine List.map_congr_left fun p _ => ?_
    simp [Scale.kpc_ph, galactocentric]
  · simp only [h2, Scale.kpc_ph]

theorem nbody_rest {c c' : Cluster} (hr : c'.rest = c.rest) :
    (c'.zmbar, c'.rbar, c'.vbar, c'.tbar) = (c.zmbar, c.rbar, c.vbar, c.tbar) := by
  obtain ⟨e1, e2, e3, e4⟩ := rest_scales hr
  rw [e1, e2, e3, e4]

theorem LinInv.of_world {g : Galpy} {S : Truth} {c c' : Cluster} (h : LinInv g S c) (hl : Lin c') (hg : Good c')
    (hr : c'.rest = c.rest) (hw : world g c' = world g c) : LinInv g S c' := by
  refine ⟨h.pos.of_rest hr, hl, hg, ?_, ?_⟩
  · obtain ⟨W, e, k1, k2, k3, k4, k5⟩ := h.desc
    exact ⟨W, hw.trans e, k1, k2, k3, k4, by rw [← k5, nbody_rest hr]⟩
  · have e1 : c'.orbit = c.orbit := (congrArg Cluster.orbit hr :)
    have e2 : c'.orbits = c.orbits := (congrArg Cluster.orbits hr :)
    unfold CachesOf
    rw [e1, e2]
    exact h.caches

theorem Pos.of_orbit {g : Galpy} {c c' : Cluster} (h : Pos g c) (h1 : c'.rbar = c.rbar) (h2 : c'.vbar = c.vbar)
    (h3 : c'.zmbar = c.zmbar) (h4 : c'.tbar = c.tbar) : Pos g c' :=
  ⟨h1 ▸ h.rbar, h2 ▸ h.vbar, h3 ▸ h.zmbar, h4 ▸ h.tbar, h.ro, h.vo, h.time, h.mass, h.vel⟩

/-- `to_radec` from any linear state. -/
theorem toRadec_lin_full {g : Galpy} {S : Truth} {c : Cluster} (h : LinInv g S c) (s : Bool) (cm : Option CentreMethod)
    (a : Bool) : ∃ c', toRadec g s cm a c = .ok c' ∧ SkyInv g S c' ∧
      c'.origin = (if c.origin = some .galaxy then some .sky else c.origin) ∧
      (∀ W, world g c = some W → c'.c = g.toSky (kpcRow (phAdd W.gc W.centre)) ∧ c'.skyC = c'.c) ∧
      c'.xcn = c.xcn ∧ (c.origin = some .cluster → ∃ k, c'.st = c'.sky.map (recentred k c'.gc c'.gc)) ∧ c'.orbit ≠ none ∧ c'.orbits ≠ none := by
  obtain ⟨p, l, hg, hd, hc⟩ := h
  obtain ⟨⟨u, hu, hul⟩, ⟨o, ho, hol⟩⟩ := l
  have hnr : u ≠ .radec := by rintro rfl; exact hul
  obtain ⟨c1, h1, g1⟩ := toKpckms_total (a := false) hu hnr p hg
  have s1 := toKpckms_ustep hu hul h1
  have hu1 : c1.units ≠ some .radec := by rw [s1.units]; simp
  obtain ⟨c2, h2, g2⟩ := toGalaxy_total (g := g) (s := true) hu1 g1
  have s2 := toGalaxy_ostep (s1.origin.trans ho) hol hu1 h2
  have r2 : c2.rest = c.rest := s2.rest.trans s1.rest
  have p2 := p.of_rest r2
  have u2 : c2.units = some .kpckms := s2.units.trans s1.units
  have o2 : c2.origin = some .galaxy := s2.origin
  have w2 : world g c2 = world g c := (s2.world (by rw [s1.origin, ho]; simp)).trans s1.world
  have d2 : DescribesLinear g S c2 := by
    obtain ⟨W, e, k1, k2, k3, k4, k5⟩ := hd
    exact ⟨W, w2.trans e, k1, k2, k3, k4, by rw [← k5, nbody_rest r2]⟩
  have nb2 : (c2.zmbar, c2.rbar, c2.vbar, c2.tbar) = S.nbody := by obtain ⟨W, -, -, -, -, -, k⟩ := d2; exact k
  obtain ⟨b1, b2, b3, b4⟩ := describes_kpc u2 o2 d2
  -- the cluster orbit
  obtain ⟨c3, h3, hd3, g3, hob3, hos3, p3, sk3⟩ : ∃ c3, (match c2.orbit with | none => initOrbit g c2 | some _ => .ok c2)
      = .ok c3 ∧ c3.data = c2.data ∧ Good c3 ∧ c3.orbit = some ⟨kpcRow S.gc, g.toSky (kpcRow S.gc)⟩ ∧
      c3.orbits = c.orbits ∧ Pos g c3 ∧ c3.rest = { c2.rest with orbit := c3.orbit } := by
    cases hob : c2.orbit with
    | none =>
      obtain ⟨c3, h3, hd3, g3, hr3⟩ := initOrbit_spec p2 g2 u2 o2 trivial
      refine ⟨c3, h3, hd3, g3, ?_, ?_, ?_, ?_⟩
      · have := (congrArg Cluster.orbit hr3 :); simp only [b2] at this; exact this
      · have := (congrArg Cluster.orbits hr3 :)
        exact this.trans (congrArg Cluster.orbits r2 :)
      · exact p2.of_orbit (congrArg Cluster.rbar hr3 :) (congrArg Cluster.vbar hr3 :) (congrArg Cluster.zmbar hr3 :)
          (congrArg Cluster.tbar hr3 :)
      · have e : c3.orbit = some ⟨c2.gc, g.toSky c2.gc⟩ := (congrArg Cluster.orbit hr3 :)
        rw [hr3, e]
    | some ob =>
      have e : c.orbit = some ob := by rw [← hob]; exact ((congrArg Cluster.orbit r2 :) : c2.orbit = c.orbit).symm
      refine ⟨c2, rfl, rfl, g2, ?_, (congrArg Cluster.orbits r2 :), p2, ?_⟩
      · rw [hob, hc.1 ob e]
      · rfl
  have u3 : c3.units = some .kpckms := ((congrArg Data.units hd3 :) : c3.units = c2.units).trans u2
  have o3 : c3.origin = some .galaxy := ((congrArg Data.origin hd3 :) : c3.origin = c2.origin).trans o2
  have st3 : c3.st = c2.st := (congrArg Data.st hd3 :)
  have gc3 : c3.gc = c2.gc := (congrArg Data.gc hd3 :)
  have m3 : c3.m = c2.m := (congrArg Data.m hd3 :)
  have t3 : c3.tphys = c2.tphys := (congrArg Data.tphys hd3 :)
  have ctr3 : c3.c = c2.c := (congrArg Data.c hd3 :)
  obtain ⟨c4, h4, hd4, g4, hob4, hos4, p4, nb4, xn4⟩ : ∃ c4, (match c3.orbits with | none => initOrbits g c3 | some _ => .ok c3)
      = .ok c4 ∧ c4.data = c3.data ∧ Good c4 ∧ c4.orbit = some ⟨kpcRow S.gc, g.toSky (kpcRow S.gc)⟩ ∧
      c4.orbits = some (S.stars.map (fun p => ⟨kpcRow p, g.toSky (kpcRow p)⟩)) ∧ Pos g c4 ∧
      (c4.zmbar, c4.rbar, c4.vbar, c4.tbar) = (c3.zmbar, c3.rbar, c3.vbar, c3.tbar) ∧ c4.xcn = c3.xcn := by
    cases hos : c3.orbits with
    | none =>
      obtain ⟨c4, h4, hd4, g4, hr4⟩ := initOrbits_spec p3 g3 u3 o3
      refine ⟨c4, h4, hd4, g4, ?_, ?_, ?_, 
        nbody_rest (c := { c3 with orbits := some (c3.st.map (fun q => ⟨q, g.toSky q⟩)) }) hr4, (congrArg Cluster.xcn hr4 :)⟩
      · have := (congrArg Cluster.orbit hr4 :); exact this.trans hob3
      · have : c4.orbits = some (c3.st.map (fun q => ⟨q, g.toSky q⟩)) := (congrArg Cluster.orbits hr4 :)
        rw [this, st3, b1, List.map_map]; rfl
      · exact p3.of_orbit (congrArg Cluster.rbar hr4 :) (congrArg Cluster.vbar hr4 :) (congrArg Cluster.zmbar hr4 :)
          (congrArg Cluster.tbar hr4 :)
    | some os =>
      refine ⟨c3, rfl, rfl, g3, hob3, ?_, p3, rfl, rfl⟩
      rw [hos, hc.2 os (hos3.symm.trans hos)]
  have o4 : c4.origin = some .galaxy := ((congrArg Data.origin hd4 :) : c4.origin = c3.origin).trans o3
  have st4 : c4.st = S.stars.map kpcRow := ((congrArg Data.st hd4 :) : c4.st = c3.st).trans (st3.trans b1)
  have gc4 : c4.gc = kpcRow S.gc := ((congrArg Data.gc hd4 :) : c4.gc = c3.gc).trans (gc3.trans b2)
  have m4 : c4.m = S.mass := ((congrArg Data.m hd4 :) : c4.m = c3.m).trans (m3.trans b3)
  have t4 : c4.tphys * 1000 = S.time := by
    have e : c4.tphys = c3.tphys := (congrArg Data.tphys hd4 :)
    rw [e, t3, b4]
  have ctr4 : c4.c = c2.c := ((congrArg Data.c hd4 :) : c4.c = c3.c).trans ctr3
  -- filling
  have hf : radecFill g c4 =
      { c4 with sky := S.stars.map (fun p => g.toSky (kpcRow p)), skyGc := g.toSky (kpcRow S.gc),
                skyC := g.toSky (c4.gc.add c4.c), st := S.stars.map (fun p => g.toSky (kpcRow p)),
                gc := g.toSky (kpcRow S.gc), c := g.toSky (c4.gc.add c4.c),
                units := some .radec, origin := some .sky } := by
    unfold radecFill
    simp only [hob4, hos4, List.map_map]
    rfl
  have hlen : S.stars.length = S.mass.length := by
    have := g4.len
    rw [st4, m4, List.length_map] at this
    exact this.symm
  have inv5 : SkyInv g S (radecFill g c4) := by
    rw [hf]
    refine ⟨p4.of_orbit rfl rfl rfl rfl, ⟨rfl, Or.inl rfl, ?_, fun _ => rfl⟩, ?_, rfl, rfl, m4, t4, .inl hob4, .inl hos4,
      nb4.trans ((nbody_rest (c := { c2 with orbit := c3.orbit }) sk3).trans nb2), rfl⟩
    · show (S.stars.map _).length = c4.m.length
      rw [List.length_map, m4, hlen]
    · refine g4.newst ?_ rfl rfl rfl
      rw [st4]; simp
  have o5 : (radecFill g c4).origin = some .sky := by rw [hf]
  have st5 : (radecFill g c4).st = (radecFill g c4).sky := by rw [hf]
  -- recentring
  obtain ⟨c6, h6, k6, g6, o6, s6, q6⟩ : ∃ c6, (if c.origin = some .cluster then toCluster true cm (radecFill g c4)
      else if c.origin = some .centre then toCentre true cm (radecFill g c4) else .ok (radecFill g c4)) = .ok c6 ∧
      SkyKeep (radecFill g c4) c6 ∧ Good c6 ∧
      c6.origin = (if c.origin = some .galaxy then some .sky else c.origin) ∧
      (c6.origin = some .sky → c6.st = (radecFill g c4).sky) ∧
      (c.origin = some .cluster → ∃ k, c6.st = (radecFill g c4).sky.map (recentred k (radecFill g c4).gc (radecFill g c4).gc)) := by
    rw [ho]
    cases o <;> simp only [Origin.linear] at hol
    · obtain ⟨c6, h6, k6, g6, o6, -⟩ := toCentre_sky (s := true) (cm := cm) inv5.state inv5.good
      exact ⟨c6, by simpa using h6, k6, g6, by simpa using o6, by rw [o6]; simp, fun h => by simp at h⟩
    · obtain ⟨c6, h6, k6, g6, o6, -, q6, -⟩ := toCluster_sky (s := true) (cm := cm) inv5.state inv5.good
      exact ⟨c6, by simpa using h6, k6, g6, by simpa using o6, by rw [o6]; simp, fun _ => ⟨_, q6 (by rw [o5]; simp)⟩⟩
    · exact ⟨_, by simp, .refl _, inv5.good, by simpa using o5, fun _ => st5, fun h => by simp at h⟩
  obtain ⟨c7, h7, k7, g7, o7, s7⟩ : ∃ c7, (if a then analyze s c6 else .ok c6) = .ok c7 ∧ SkyKeep c6 c7 ∧ Good c7 ∧
      c7.origin = c6.origin ∧ c7.st = c6.st := by
    cases a
    · exact ⟨c6, rfl, .refl _, g6, rfl, rfl⟩
    · obtain ⟨c7, h7, g7⟩ := analyze_total (s := s) (p := true) g6
      exact ⟨c7, h7, (SkyKeep.refl _).core (analyze_core h7), g7, core_origin (analyze_core h7),
        core_st (analyze_core h7)⟩
  have k := k6.trans k7
  have hinv : SkyInv g S c7 := by
    refine ⟨inv5.pos.of_rest k.rest, ?_, g7, k.sky.trans inv5.sky, k.gcp.trans inv5.gcp, k.m.trans inv5.m, ?_, ?_, ?_,
      (nbody_rest k.rest).trans inv5.nbody, ((congrArg Cluster.skyGc k.rest :) : c7.skyGc = (radecFill g c4).skyGc).trans inv5.skyGc_eq⟩
    · refine inv5.state.keep k ?_ ?_
      · rw [o7, o6, ho]
        cases o <;> simp_all [Origin.linear]
      · rw [o7, s7]; exact s6
    · rw [k.tphys]; exact inv5.time
    · have : c7.orbit = (radecFill g c4).orbit := (congrArg Cluster.orbit k.rest :)
      have e : c7.skyGc = (radecFill g c4).skyGc := (congrArg Cluster.skyGc k.rest :)
      rw [this, e]; exact inv5.orbit
    · have : c7.orbits = (radecFill g c4).orbits := (congrArg Cluster.orbits k.rest :)
      rw [this]; exact inv5.orbits
  have xn : c7.xcn = c.xcn := by
    have e1 : c7.xcn = (radecFill g c4).xcn := (congrArg Cluster.xcn k.rest :)
    have e2 : c3.xcn = c2.xcn := (congrArg Cluster.xcn sk3 :)
    have e3 : c2.xcn = c.xcn := (congrArg Cluster.xcn r2 :)
    have e4 : (radecFill g c4).xcn = c4.xcn := by rw [hf]
    rw [e1, e4, xn4, e2, e3]
  refine ⟨c7, ?_, hinv, by rw [o7, o6], ?_, xn, fun hq => by
    obtain ⟨m, hm⟩ := q6 hq
    exact ⟨m, by rw [s7, hm, k.sky, k.gcp]⟩, ?_, ?_⟩
  · unfold toRadec
    simp only [hu, ne_eq, hnr, not_false_eq_true, if_true, bind, h1, Except.bind, h2]
    have e3 : ∀ f : Cluster → Except Err Cluster, f c3 = .ok c7 →
        (match c2.orbit with
          | none => (initOrbit g c2).bind f
          | some _ => (Except.ok c2 : Except Err Cluster).bind f) = .ok c7 := by
      intro f hf
      cases hob : c2.orbit with
      | none => rw [hob] at h3; dsimp only at h3 ⊢; rw [h3]; exact hf
      | some ob => rw [hob] at h3; injection h3 with h3; rw [h3]; exact hf
    refine e3 _ ?_
    have e4 : ∀ f : Cluster → Except Err Cluster, f c4 = .ok c7 →
        (match c3.orbits with
          | none => (initOrbits g c3).bind f
          | some _ => (Except.ok c3 : Except Err Cluster).bind f) = .ok c7 := by
      intro f hf
      cases hob : c3.orbits with
      | none => rw [hob] at h4; dsimp only at h4 ⊢; rw [h4]; exact hf
      | some ob => rw [hob] at h4; injection h4 with h4; rw [h4]; exact hf
    refine e4 _ ?_
    have e6 : ∀ f : Cluster → Except Err Cluster, f c6 = .ok c7 →
        (if c.origin = some .cluster then (toCluster true cm (radecFill g c4)).bind f
          else if c.origin = some .centre then (toCentre true cm (radecFill g c4)).bind f
          else (Except.ok (radecFill g c4) : Except Err Cluster).bind f) = .ok c7 := by
      intro f hf
      split
      · rename_i hh; rw [if_pos hh] at h6; rw [h6]; exact hf
      · rename_i hh; rw [if_neg hh] at h6
        split
        · rename_i hh; rw [if_pos hh] at h6; rw [h6]; exact hf
        · rename_i hh; rw [if_neg hh] at h6; rw [h6]; exact hf
    refine e6 _ ?_
    exact h7
  · intro W hW
    have hctr : c7.c = g.toSky (c4.gc.add c4.c) := by rw [k.ctr, hf]
    have hskyC : c7.skyC = g.toSky (c4.gc.add c4.c) := by
      have : c7.skyC = (radecFill g c4).skyC := (congrArg Cluster.skyC k.rest :)
      rw [this, hf]
    refine ⟨?_, hskyC.trans hctr.symm⟩
    rw [hctr]
    have hw2 := w2.trans hW
    unfold world phys at hw2
    rw [u2, o2] at hw2
    simp only [unitScale, Option.some.injEq] at hw2
    subst hw2
    congr 1
    have e : c4.gc = c2.gc := gc4.trans b2.symm
    rw [e, ctr4]
    ext <;> simp [kpcRow, phAdd, Scale.ph, Ph.add] <;> ring
  · have e : c7.orbit = (radecFill g c4).orbit := (congrArg Cluster.orbit k.rest :)
    rw [e, hf]
    simp [hob4]
  · have e : c7.orbits = (radecFill g c4).orbits := (congrArg Cluster.orbits k.rest :)
    rw [e, hf]
    simp [hos4]

theorem toRadec_lin {g : Galpy} {S : Truth} {c : Cluster} (h : LinInv g S c) (s : Bool) (cm : Option CentreMethod)
    (a : Bool) : ∃ c', toRadec g s cm a c = .ok c' ∧ SkyInv g S c' ∧
      c'.origin = (if c.origin = some .galaxy then some .sky else c.origin) ∧
      (∀ W, world g c = some W → c'.c = g.toSky (kpcRow (phAdd W.gc W.centre)) ∧ c'.skyC = c'.c) ∧
      c'.xcn = c.xcn := by
  obtain ⟨c', h1, h2, h3, h4, h5, -⟩ := toRadec_lin_full h s cm a
  exact ⟨c', h1, h2, h3, h4, h5⟩


/-! ### leaving the sky -/

/-- The state after `from_radec` from the sky state `c`. -/
theorem fromRadec_sky {g : Galpy} {S : Truth} {c : Cluster} (h : SkyInv g S c) :
    ∃ c', fromRadec g c = .ok c' ∧ LinInv g S c' ∧ c'.units = some .kpckms ∧ c'.origin = some .galaxy ∧
      c'.c = fromRadecCentre g c := by
  obtain ⟨c0, h0, k0, g0, o0, s0⟩ : ∃ c0, (if c.origin ≠ some .sky then toSkyRadec true c else .ok c) = .ok c0 ∧
      SkyKeep c c0 ∧ Good c0 ∧ c0.origin = some .sky ∧ c0.st = c.sky := by
    by_cases hs : c.origin = some .sky
    · exact ⟨c, by simp [hs], .refl c, h.good, hs, h.state.sky hs⟩
    · obtain ⟨c0, h0, k0, o0, st0, g0, -⟩ := toSkyRadec_spec (s := true) h.state h.good
      exact ⟨c0, by simp [hs, h0], k0, g0, o0, st0⟩
  have u0 : c0.units = some .radec := k0.units.trans h.state.units
  have gc0 : c0.skyGc = c.skyGc := (congrArg Cluster.skyGc k0.rest :)
  have sk0 : c0.sky = S.stars.map (fun p => g.toSky (kpcRow p)) := k0.sky.trans h.sky
  have ob0 : c0.orbit = c.orbit := (congrArg Cluster.orbit k0.rest :)
  have os0 : c0.orbits = c.orbits := (congrArg Cluster.orbits k0.rest :)
  have x0 : c0.xcn = c.xcn := (congrArg Cluster.xcn k0.rest :)
  have y0 : c0.rbar = c.rbar := (congrArg Cluster.rbar k0.rest :)
  have z0 : c0.skyC = c.skyC := (congrArg Cluster.skyC k0.rest :)
  have fc : fromRadecCentre g c0 = fromRadecCentre g c := by unfold fromRadecCentre; rw [x0, y0, z0]
  refine ⟨{ c0 with orbit := some ⟨kpcRow S.gc, g.toSky (kpcRow S.gc)⟩,
                    orbits := some (S.stars.map (fun p => ⟨kpcRow p, g.toSky (kpcRow p)⟩)),
                    c := fromRadecCentre g c0, st := S.stars.map kpcRow, gc := kpcRow S.gc,
                    origin := some .galaxy, units := some .kpckms }, ?_, ?_, rfl, rfl, fc⟩
  · unfold fromRadec
    rw [h.state.units]
    simp only [true_and, bind]
    have : ∀ f : Cluster → Except Err Cluster, ∀ r, f c0 = r →
        (if c.origin ≠ some .sky then (toSkyRadec true c).bind f else (Except.ok c : Except Err Cluster).bind f) = r := by
      intro f r hf
      by_cases hs : c.origin = some .sky
      · simp only [hs, ne_eq, not_true_eq_false, if_false] at h0 ⊢
        rw [h0]; exact hf
      · simp only [hs, ne_eq, not_false_eq_true, if_true] at h0 ⊢
        rw [h0]; exact hf
    refine this _ _ ?_
    have kk : c.orbits = none → (∀ p ∈ S.stars, g.ofSky (g.toSky (kpcRow p)) = kpcRow p) →
        S.stars.map (fun p => g.orbitOfSky (g.toSky (kpcRow p))) =
          S.stars.map (fun p => (⟨kpcRow p, g.toSky (kpcRow p)⟩ : OrbitObj)) := by
      intro _ k1
      refine List.map_congr_left fun p hp => ?_
      simp only [Galpy.orbitOfSky, k1 p hp]
    rcases h.orbit with k | ⟨k, k1, k2⟩ <;> rcases h.orbits with l | ⟨l, l1⟩
    · simp only [u0, o0, and_self, if_true, ob0, os0, k, l, List.map_map, Function.comp_def]
      rfl
    · simp only [u0, o0, and_self, if_true, ob0, os0, k, l, initOrbitsSky, sk0, List.map_map, Function.comp_def, kk l l1]
      rfl
    · simp only [u0, o0, and_self, if_true, ob0, os0, k, l, initOrbitSky, Galpy.orbitOfSky, gc0, k1, k2, List.map_map, Function.comp_def]
      rfl
    · have e : g.orbitOfSky (g.toSky (kpcRow S.gc)) = ⟨kpcRow S.gc, g.toSky (kpcRow S.gc)⟩ := by
        simp only [Galpy.orbitOfSky, k2]
      simp only [u0, o0, and_self, if_true, ob0, os0, k, l, initOrbitSky, e, gc0, k1, k2, initOrbitsSky, sk0, List.map_map,
        Function.comp_def, kk l l1]
      rfl
  · refine ⟨h.pos.of_orbit (congrArg Cluster.rbar k0.rest :) (congrArg Cluster.vbar k0.rest :)
        (congrArg Cluster.zmbar k0.rest :) (congrArg Cluster.tbar k0.rest :), ⟨⟨_, rfl, trivial⟩, ⟨_, rfl, trivial⟩⟩, ?_,
      ?_, ?_, ?_⟩
    · refine g0.newst ?_ rfl rfl rfl
      rw [s0, h.sky]; simp
    · exact describes_of_kpc rfl rfl rfl rfl (k0.m.trans h.m) (by show c0.tphys * 1000 = _; rw [k0.tphys]; exact h.time)
        ((nbody_rest k0.rest).trans h.nbody)
    · intro o ho; exact (Option.some.inj ho).symm
    · intro o ho; exact (Option.some.inj ho).symm

theorem kpckmsStep_id {g : Galpy} {c : Cluster} (hu : c.units = some .kpckms) : kpckmsStep g c = c := by
  unfold kpckmsStep; rw [hu]; simp

theorem toKpckms_radec {g : Galpy} {c c1 : Cluster} (hu : c.units = some .radec) (h : fromRadec g c = .ok c1)
    (hu1 : c1.units = some .kpckms) (a : Bool) : toKpckms g a c = analyzeIf a c1 := by
  simp only [toKpckms, hu, if_true, bind, h, Except.bind, kpckmsStep_id hu1]

/-- A unit conversion from radec is the same conversion from the state `from_radec` produces. -/
theorem exec_sky_units {g : Galpy} {c c1 : Cluster} (hu : c.units = some .radec) (h : fromRadec g c = .ok c1)
    (hu1 : c1.units = some .kpckms) (op : Op) {t : Units} (ht : op.unitTarget = some t) (htl : t.linear) :
    op.exec g c = op.exec g c1 := by
  have hk : ∀ a, toKpckms g a c = toKpckms g a c1 := by
    intro a
    rw [toKpckms_radec hu h hu1]
    simp [toKpckms, hu1, bind, Except.bind, kpckmsStep_id hu1]
  have hk1 : toKpckms g false c1 = .ok c1 := by
    simp [toKpckms, hu1, bind, Except.bind, kpckmsStep_id hu1, analyzeIf]
  have hp : ∀ a, toPckms g a c = toPckms g a c1 := by
    intro a; simp [toPckms, hu, hu1, hk, hk1, bind, Except.bind]
  have hpm : ∀ a, toPcmyr g a c = toPcmyr g a c1 := by
    intro a; simp [toPcmyr, hu, hu1, hp, bind]
  have hkg : ∀ a, toKpcgyr g a c = toKpcgyr g a c1 := by
    intro a; simp [toKpcgyr, hu, hu1, hk, hk1, bind, Except.bind]
  have hn : toNbody g c = toNbody g c1 := by simp [toNbody, hu, hu1, hp, bind]
  have hgp : toGalpy g c = toGalpy g c1 := by simp [toGalpy, hu, hu1, hk, hk1, bind, Except.bind]
  have hw : toWD g c = toWD g c1 := by simp [toWD, hu, hu1, hk, hk1, bind, Except.bind]
  have ha : ∀ a, toAmuse g a c = toAmuse g a c1 := by
    intro a; simp [toAmuse, hu, hu1, hp, bind]
  cases op <;> simp only [Op.unitTarget, Option.some.injEq, reduceCtorEq] at ht <;> subst ht <;>
    simp only [Op.exec, hk, hp, hpm, hkg, hn, hgp, hw, ha]
  rename_i t
  cases t <;> simp only [Units.linear] at htl <;> simp only [toUnits, toUnitsNR, hu, hu1, hk, hp, hpm, hkg, hn, hgp, hw, ha, reduceCtorEq, if_false]

theorem SkyInv.of_keep {g : Galpy} {S : Truth} {c c' : Cluster} (h : SkyInv g S c) (k : SkyKeep c c') (hg : Good c')
    (ho : c'.origin = some .sky ∨ c'.origin = some .cluster ∨ c'.origin = some .centre)
    (hs : c'.origin = some .sky → c'.st = c.sky) : SkyInv g S c' :=
  ⟨h.pos.of_rest k.rest, h.state.keep k ho hs, hg, k.sky.trans h.sky, k.gcp.trans h.gcp, k.m.trans h.m,
    by rw [k.tphys]; exact h.time,
    by have e1 : c'.orbit = c.orbit := (congrArg Cluster.orbit k.rest :)
       have e2 : c'.skyGc = c.skyGc := (congrArg Cluster.skyGc k.rest :)
       rw [e1, e2]; exact h.orbit,
    by have e1 : c'.orbits = c.orbits := (congrArg Cluster.orbits k.rest :)
       rw [e1]; exact h.orbits, (nbody_rest k.rest).trans h.nbody, ((congrArg Cluster.skyGc k.rest :) : c'.skyGc = c.skyGc).trans h.skyGc_eq⟩

theorem SkyInv.analyzed {g : Galpy} {S : Truth} {c : Cluster} (h : SkyInv g S c) (s p : Bool) :
    ∃ c', analyze s c p = .ok c' ∧ SkyInv g S c' ∧ SkyKeep c c' ∧ c'.origin = c.origin ∧ c'.st = c.st := by
  obtain ⟨c', h', g'⟩ := analyze_total (s := s) (p := p) h.good
  have e := analyze_core h'
  refine ⟨c', h', h.of_keep ((SkyKeep.refl c).core e) g' ?_ ?_, (SkyKeep.refl c).core e, core_origin e, core_st e⟩
  · rw [core_origin e]; exact h.state.origin
  · intro hs; rw [core_st e]; exact h.state.sky ((core_origin e).symm.trans hs)

theorem LinInv.analyzed {g : Galpy} {S : Truth} {c : Cluster} (h : LinInv g S c) (s p : Bool) :
    ∃ c', analyze s c p = .ok c' ∧ LinInv g S c' ∧ c'.units = c.units ∧ c'.origin = c.origin := by
  have hl : (Op.analyze s p).linear := ⟨fun _ h => (nomatch h), fun _ h => (nomatch h)⟩
  obtain ⟨c', h', g'⟩ := exec_total h.pos h.lin hl h.good
  have st := exec_step h.pos.nz h.lin hl h'
  exact ⟨c', h', h.of_world (st.lin hl h.lin) g' st.rest st.world, st.units, st.origin⟩

/-- Either kind of state. -/
def Inv (g : Galpy) (S : Truth) (c : Cluster) : Prop := LinInv g S c ∨ SkyInv g S c

theorem Inv.analyzed {g : Galpy} {S : Truth} {c : Cluster} (h : Inv g S c) (s p : Bool) :
    ∃ c', analyze s c p = .ok c' ∧ Inv g S c' ∧ c'.units = c.units ∧ c'.origin = c.origin := by
  rcases h with h | h
  · obtain ⟨c', h', k, e⟩ := h.analyzed s p; exact ⟨c', h', .inl k, e⟩
  · obtain ⟨c', h', k, k', e, -⟩ := h.analyzed s p; exact ⟨c', h', .inr k, k'.units, e⟩

theorem Inv.linop {g : Galpy} {S : Truth} {c : Cluster} (h : LinInv g S c) {op : Op} (hl : op.linear) :
    ∃ c', op.exec g c = .ok c' ∧ LinInv g S c' ∧ Step g op c c' := by
  obtain ⟨c', h', g'⟩ := exec_total h.pos h.lin hl h.good
  have st := exec_step h.pos.nz h.lin hl h'
  exact ⟨c', h', h.of_world (st.lin hl h.lin) g' st.rest st.world, st⟩

theorem toSky_inv {g : Galpy} {S : Truth} {c : Cluster} (h : Inv g S c) (s : Bool) (cm : Option CentreMethod) :
    ∃ c', toSky g s cm c = .ok c' ∧ SkyInv g S c' ∧ c'.origin = some .sky := by
  rcases h with h | h
  · obtain ⟨⟨u, hu, hul⟩, ⟨o, ho, hol⟩⟩ := h.lin
    have hr : c.units ≠ some .radec := by rw [hu]; rintro k; cases k; exact hul
    have hl : (Op.toGalaxy true).linear := ⟨fun _ h => (nomatch h), fun _ h => by cases h; trivial⟩
    obtain ⟨c1, h1, i1, s1⟩ := Inv.linop h hl
    have h1' : toGalaxy g true c = .ok c1 := h1
    obtain ⟨c2, h2, i2, o2, -⟩ := toRadec_lin i1 s cm true
    obtain ⟨c3, h3, i3, k3, o3, -⟩ := i2.analyzed s true
    refine ⟨c3, ?_, i3, ?_⟩
    · simp only [toSky, ho, hr, if_false, bind, h1', Except.bind, h2]
      exact h3
    · rw [o3, o2, s1.origin]; rfl
  · obtain ⟨c', h', k, o, st, g', -⟩ := toSkyRadec_spec (s := s) h.state h.good
    obtain ⟨o', ho'⟩ : ∃ o', c.origin = some o' := by rcases h.state.origin with k | k | k <;> exact ⟨_, k⟩
    refine ⟨c', ?_, h.of_keep k g' (.inl o) (fun _ => st), o⟩
    simp only [toSky, ho', h.state.units, if_true]
    exact h'

theorem toRadec_inv {g : Galpy} {S : Truth} {c : Cluster} (h : Inv g S c) (s : Bool) (cm : Option CentreMethod)
    (a : Bool) : ∃ c', toRadec g s cm a c = .ok c' ∧ SkyInv g S c' := by
  rcases h with h | h
  · obtain ⟨c', h', i, -⟩ := toRadec_lin h s cm a; exact ⟨c', h', i⟩
  · exact ⟨c, by simp [toRadec, h.state.units], h⟩

theorem toCluster_inv {g : Galpy} {S : Truth} {c : Cluster} (h : Inv g S c) (s : Bool) (cm : Option CentreMethod) :
    ∃ c', toCluster s cm c = .ok c' ∧ Inv g S c' ∧ c'.units = c.units ∧ c'.origin = some .cluster := by
  rcases h with h | h
  · obtain ⟨c', h', i, st⟩ := Inv.linop (op := .toCluster s cm) h
      ⟨fun _ h => (nomatch h), fun _ h => by cases h; trivial⟩
    exact ⟨c', h', .inl i, st.units, st.origin⟩
  · obtain ⟨c', h', k, g', o, -⟩ := toCluster_sky (s := s) (cm := cm) h.state h.good
    exact ⟨c', h', .inr (h.of_keep k g' (.inr (.inl o)) (by rw [o]; simp)), k.units, o⟩

theorem toCentre_inv {g : Galpy} {S : Truth} {c : Cluster} (h : Inv g S c) (s : Bool) (cm : Option CentreMethod) :
    ∃ c', toCentre s cm c = .ok c' ∧ Inv g S c' ∧ c'.units = c.units ∧ c'.origin = some .centre := by
  rcases h with h | h
  · obtain ⟨c', h', i, st⟩ := Inv.linop (op := .toCentre s cm) h
      ⟨fun _ h => (nomatch h), fun _ h => by cases h; trivial⟩
    exact ⟨c', h', .inl i, st.units, st.origin⟩
  · obtain ⟨c', h', k, g', o, -⟩ := toCentre_sky (s := s) (cm := cm) h.state h.good
    exact ⟨c', h', .inr (h.of_keep k g' (.inr (.inr o)) (by rw [o]; simp)), k.units, o⟩

theorem toGalaxy_inv {g : Galpy} {S : Truth} {c : Cluster} (h : Inv g S c) (s : Bool) :
    ∃ c', toGalaxy g s c = .ok c' ∧ LinInv g S c' ∧ c'.origin = some .galaxy ∧
      (c.units = some .radec → c'.units = some .kpckms) := by
  rcases h with h | h
  · obtain ⟨c', h', i, st⟩ := Inv.linop (op := .toGalaxy s) h
      ⟨fun _ h => (nomatch h), fun _ h => by cases h; trivial⟩
    refine ⟨c', h', i, st.origin, ?_⟩
    obtain ⟨u, hu, hul⟩ := h.lin.units
    rw [hu]; rintro k; cases k; exact absurd hul id
  · obtain ⟨o, ho⟩ : ∃ o', c.origin = some o' := by rcases h.state.origin with k | k | k <;> exact ⟨_, k⟩
    obtain ⟨c0, h0, i0⟩ : ∃ c0, (if o ≠ .sky then toSkyRadec true c else .ok c) = .ok c0 ∧ SkyInv g S c0 := by
      by_cases hs : o = .sky
      · exact ⟨c, by simp [hs], h⟩
      · obtain ⟨c0, h0, k0, o0, st0, g0, -⟩ := toSkyRadec_spec (s := true) h.state h.good
        exact ⟨c0, by simp [hs, h0], h.of_keep k0 g0 (.inl o0) (fun _ => st0)⟩
    obtain ⟨c1, h1, i1, u1, o1, -⟩ := fromRadec_sky i0
    obtain ⟨c2, h2, i2, u2, o2⟩ := i1.analyzed s true
    refine ⟨c2, ?_, i2, o2.trans o1, fun _ => u2.trans u1⟩
    simp only [toGalaxy, ho, h.state.units, if_true, bind]
    by_cases hs : o = .sky
    · simp only [hs, ne_eq, not_true_eq_false, if_false] at h0 ⊢
      injection h0 with h0; subst h0
      simp only [Except.bind, h1]; exact h2
    · simp only [hs, ne_eq, not_false_eq_true, if_true] at h0 ⊢
      simp only [Except.bind, h0, h1]; exact h2

theorem toOrigin_inv {g : Galpy} {S : Truth} {c : Cluster} (h : Inv g S c) (t : OriginTarget) (s : Bool)
    (cm : Option CentreMethod) : ∃ c', toOrigin g t s cm c = .ok c' ∧ Inv g S c' := by
  obtain ⟨o, ho⟩ : ∃ o', c.origin = some o' := by
    rcases h with h | h
    · obtain ⟨o, ho, -⟩ := h.lin.origin; exact ⟨o, ho⟩
    · rcases h.state.origin with k | k | k <;> exact ⟨_, k⟩
  have fin : ∀ {x : Except Err Cluster} {c1 : Cluster}, x = .ok c1 → Inv g S c1 →
      ∃ c', (x.bind fun c => analyze s c) = .ok c' ∧ Inv g S c' := by
    intro x c1 hx i1
    obtain ⟨c', h', i', -⟩ := i1.analyzed s true
    exact ⟨c', by rw [hx]; exact h', i'⟩
  simp only [toOrigin, ho, bind]
  cases t
  · obtain ⟨c1, h1, i1, -⟩ := toCentre_inv h s cm; exact fin h1 i1
  · obtain ⟨c1, h1, i1, -⟩ := toCluster_inv h s cm; exact fin h1 i1
  · obtain ⟨c1, h1, i1, -⟩ := toGalaxy_inv h s; exact fin h1 (.inl i1)
  · obtain ⟨c1, h1, i1, -⟩ := toSky_inv h s cm; exact fin h1 (.inr i1)
  · obtain ⟨c1, h1, i1⟩ := toRadec_inv h s cm true; exact fin h1 (.inr i1)
  · exact fin rfl h

theorem units_inv {g : Galpy} {S : Truth} {c : Cluster} (h : Inv g S c) (op : Op) {t : Units}
    (ht : op.unitTarget = some t) (htl : t.linear) :
    ∃ c', op.exec g c = .ok c' ∧ LinInv g S c' ∧ c'.units = some t := by
  have hl : op.linear := by
    refine ⟨fun u hu => ?_, fun o ho => ?_⟩
    · rw [ht] at hu; cases hu; exact htl
    · cases op <;> simp_all [Op.unitTarget, Op.originTarget]
  rcases h with h | h
  · obtain ⟨c', h', i, st⟩ := Inv.linop h hl
    exact ⟨c', h', i, by rw [st.units, ht]; rfl⟩
  · obtain ⟨c1, h1, i1, u1, -⟩ := fromRadec_sky h
    obtain ⟨c', h', i, st⟩ := Inv.linop i1 hl
    exact ⟨c', (exec_sky_units h.state.units h1 u1 op ht htl).trans h', i, by rw [st.units, ht]; rfl⟩

theorem Inv.bin {g : Galpy} {S : Truth} {c c' : Cluster} (h : Inv g S c) (hd : c'.data = c.data) (hr : c'.rest = c.rest)
    (h1 : c'.rorder = c.rorder) (h2 : c'.rproorder = c.rproorder) : Inv g S c' := by
  have est : c'.st = c.st := (congrArg Data.st hd :)
  have em : c'.m = c.m := (congrArg Data.m hd :)
  have eu : c'.units = c.units := (congrArg Data.units hd :)
  have eo : c'.origin = c.origin := (congrArg Data.origin hd :)
  rcases h with h | h
  · refine .inl (h.of_world ?_ (h.good.same est em h1 h2) hr (world_of_data hd hr))
    exact ⟨by rw [eu]; exact h.lin.units, by rw [eo]; exact h.lin.origin⟩
  · refine .inr (h.of_keep ⟨eu, em, (congrArg Data.tphys hd :), (congrArg Data.c hd :), (congrArg Data.gc hd :), hr⟩
      (h.good.same est em h1 h2) (by rw [eo]; exact h.state.origin) ?_)
    intro hs; rw [est]; exact h.state.sky (eo.symm.trans hs)

/-- Every call succeeds and keeps describing the truth. -/
theorem call_inv {g : Galpy} {S : Truth} {c : Cluster} (h : Inv g S c) (k : Call) :
    ∃ c', k.exec g c = .ok c' ∧ Inv g S c' := by
  have U : ∀ (op : Op) (t : Units), op.unitTarget = some t → t.linear → ∃ c', op.exec g c = .ok c' ∧ Inv g S c' := by
    intro op t ht htl
    obtain ⟨c', h', i, -⟩ := units_inv h op ht htl
    exact ⟨c', h', .inl i⟩
  cases k with
  | toRadec s cm a => obtain ⟨c', h', i⟩ := toRadec_inv h s cm a; exact ⟨c', h', .inr i⟩
  | toSky s cm => obtain ⟨c', h', i, -⟩ := toSky_inv h s cm; exact ⟨c', h', .inr i⟩
  | op o =>
    cases o with
    | toPckms a => exact U (.toPckms a) .pckms rfl trivial
    | toKpckms a => exact U (.toKpckms a) .kpckms rfl trivial
    | toPcmyr a => exact U (.toPcmyr a) .pcmyr rfl trivial
    | toKpcgyr a => exact U (.toKpcgyr a) .kpcgyr rfl trivial
    | toNbody => exact U (.toNbody) .nbody rfl trivial
    | toGalpy => exact U (.toGalpy) .galpy rfl trivial
    | toWDunits => exact U (.toWDunits) .WDunits rfl trivial
    | toAmuse a => exact U (.toAmuse a) .amuse rfl trivial
    | toUnits t =>
      have hne : ∃ u, c.units = some u := by
        rcases h with h | h
        · obtain ⟨u, hu, -⟩ := h.lin.units; exact ⟨u, hu⟩
        · exact ⟨_, h.state.units⟩
      obtain ⟨u, hu⟩ := hne
      by_cases htl : t.linear
      · exact U (.toUnits t) t rfl htl
      · cases t <;> simp only [Units.linear, not_true_eq_false] at htl
        · obtain ⟨c', h', i⟩ := toRadec_inv h false none true
          exact ⟨c', by simpa [Call.exec, Op.exec, toUnits, hu] using h', .inr i⟩
        · exact ⟨c, by simp [Call.exec, Op.exec, toUnits, toUnitsNR, hu], h⟩
    | toCentre s cm => obtain ⟨c', h', i, -⟩ := toCentre_inv h s cm; exact ⟨c', h', i⟩
    | toCluster s cm => obtain ⟨c', h', i, -⟩ := toCluster_inv h s cm; exact ⟨c', h', i⟩
    | toGalaxy s => obtain ⟨c', h', i, -⟩ := toGalaxy_inv h s; exact ⟨c', h', .inl i⟩
    | toOrigin t s cm => exact toOrigin_inv h t.target s cm
    | analyze s p => obtain ⟨c', h', i, -⟩ := h.analyzed s p; exact ⟨c', h', i⟩
    | toAudays =>
      obtain ⟨a, b, d, e⟩ := audays_core c
      exact ⟨_, rfl, h.bin a b d e⟩
    | toSudays =>
      obtain ⟨a, b, d, e⟩ := sudays_core c
      exact ⟨_, rfl, h.bin a b d e⟩

theorem calls_inv {g : Galpy} {S : Truth} (ks : List Call) {c : Cluster} (h : Inv g S c) :
    ∃ c', calls g ks c = .ok c' ∧ Inv g S c' := by
  induction ks generalizing c with
  | nil => exact ⟨c, rfl, h⟩
  | cons k ks ih =>
    obtain ⟨c1, h1, i1⟩ := call_inv h k
    obtain ⟨c2, h2, i2⟩ := ih i1
    exact ⟨c2, by simp only [calls, h1, Except.bind]; exact h2, i2⟩

end

end CT
