/-
Property theorems C13, C14: sky coordinates (`to_radec`, `to_sky`, and recentring on the sky) of
`clustertools/cluster/operations.py`.
Vocabulary: `Verif/Spec/Sky.lean` (`Truth`, `DescribesLinear`, `DescribesSky`, `Call`, `calls`, `CachesOf`).
-/
import Verif.Lemmas.SkyHist
import Verif.Spec.Demo

namespace CT

noncomputable section

set_option linter.unusedSimpArgs false

/-! ### C13 -/

/-- C13: from a cluster describing the true content `S` (and whose cached orbits, if any, are those of `S`), every
sequence of conversion calls whatsoever — to every unit system including the sky, to every origin, with any centre
method and any analysis/sorting flags — runs without exception and ends in a cluster that still describes `S`: in
linear units its galactocentric rows are the true ones; in radec units its stored sky rows are the sky coordinates
of the true rows. -/
theorem C13_histories (g : Galpy) (S : Truth) (c : Cluster) (ks : List Call) (p : Pos g c) (l : Lin c) (hg : Good c)
    (hd : DescribesLinear g S c) (hc : CachesOf g S c) :
    ∃ c', calls g ks c = .ok c' ∧ (DescribesLinear g S c' ∨ DescribesSky g S c') := by
  obtain ⟨c', h, i⟩ := calls_inv ks (.inl ⟨p, l, hg, hd, hc⟩)
  exact ⟨c', h, i.imp LinInv.desc SkyInv.desc⟩

/-- C13: the label decides which: after any history a cluster in radec units describes `S` on the sky, any other
linearly. -/
theorem C13_histories_by_label (g : Galpy) (S : Truth) (c c' : Cluster) (ks : List Call) (p : Pos g c) (l : Lin c)
    (hg : Good c) (hd : DescribesLinear g S c) (hc : CachesOf g S c) (h : calls g ks c = .ok c') :
    (c'.units = some .radec → DescribesSky g S c') ∧ (c'.units ≠ some .radec → DescribesLinear g S c') := by
  obtain ⟨c'', h', i⟩ := calls_inv ks (.inl ⟨p, l, hg, hd, hc⟩)
  rw [h] at h'; injection h' with h'; subst h'
  rcases i with i | i
  · obtain ⟨u, hu, hul⟩ := i.lin.units
    exact ⟨fun k => by rw [hu] at k; cases k; exact absurd hul id, fun _ => i.desc⟩
  · exact ⟨fun _ => i.desc, fun k => absurd i.state.units k⟩

/-- C13: the sky coordinates after `to_radec`, whatever calls came before, are those of the true galactocentric
positions; and of the cluster's orbit position. -/
theorem C13_to_radec_current (g : Galpy) (S : Truth) (c : Cluster) (ks : List Call) (s : Bool)
    (cm : Option CentreMethod) (a : Bool) (p : Pos g c) (l : Lin c) (hg : Good c)
    (hd : DescribesLinear g S c) (hc : CachesOf g S c) :
    ∃ c', calls g (ks ++ [.toRadec s cm a]) c = .ok c' ∧ c'.units = some .radec ∧
      c'.sky = S.stars.map (fun p => g.toSky ⟨p.x / 1000, p.y / 1000, p.z / 1000, p.vx, p.vy, p.vz⟩) ∧
      c'.gc = g.toSky ⟨S.gc.x / 1000, S.gc.y / 1000, S.gc.z / 1000, S.gc.vx, S.gc.vy, S.gc.vz⟩ := by
  obtain ⟨c1, h1, i1⟩ := calls_inv ks (.inl ⟨p, l, hg, hd, hc⟩)
  obtain ⟨c2, h2, i2⟩ := toRadec_inv i1 s cm a
  refine ⟨c2, ?_, i2.state.units, i2.sky, i2.gcp⟩
  have : ∀ (ks : List Call) (c : Cluster), calls g ks c = .ok c1 → calls g (ks ++ [.toRadec s cm a]) c = .ok c2 := by
    intro ks
    induction ks with
    | nil =>
      intro c h; simp only [calls, Except.ok.injEq] at h; subst h
      simp only [List.nil_append, calls, Call.exec, h2]; rfl
    | cons k ks ih =>
      intro c h
      obtain ⟨c', e, h⟩ := bind_ok h
      simp only [List.cons_append, calls, e, Except.bind]
      exact ih c' h
  exact this ks c h1

/-- Two clusters with the same linear labels that describe the same stars have the same rows, in the galaxy and the cluster frame. -/
theorem describes_same {g : Galpy} {S : Truth} {c c' : Cluster} (p : Pos g c) (l : Lin c) (hd : DescribesLinear g S c)
    (hd' : DescribesLinear g S c') (hu : c'.units = c.units) (ho : c'.origin = c.origin)
    (hoc : c.origin = some .galaxy ∨ c.origin = some .cluster) :
    c'.st = c.st ∧ c'.m = c.m ∧ c'.gc = c.gc ∧ c'.tphys = c.tphys := by
  obtain ⟨⟨u, hu1, hul⟩, ⟨o, ho1, hol⟩⟩ := l
  obtain ⟨W, hw, k1, k2, k3, k4, k5⟩ := hd
  obtain ⟨W', hw', k1', k2', k3', k4', k5'⟩ := hd'
  have hsc : unitScale g c' u = unitScale g c u := by
    have := k5'.trans k5.symm
    simp only [Prod.mk.injEq] at this
    obtain ⟨a1, a2, a3, a4⟩ := this
    unfold unitScale; rw [a1, a2, a3, a4]
  obtain ⟨s, hs⟩ : ∃ s, unitScale g c u = some s := by
    cases u <;> simp_all [Units.linear, unitScale]
  have hs' := hsc.trans hs
  obtain ⟨d, hdd⟩ : ∃ d : Cluster, d = { c with st := c'.st, m := c'.m, tphys := c'.tphys, gc := c'.gc } := ⟨_, rfl⟩
  have key : d.data = c.data := by
    have hud : d.units = some u := by rw [hdd]; exact hu1
    have hod : d.origin = some o := by rw [hdd]; exact ho1
    have hrd : d.rest = c.rest := by rw [hdd]; rfl
    refine data_of_world (g := g) p.nz hrd hu1 hud hul ho1 hod hol ?_
    have hsd : unitScale g d u = some s := by
      obtain ⟨a1, a2, a3, a4⟩ := rest_scales hrd
      rw [← hs]; unfold unitScale; rw [a1, a2, a3, a4]
    have f1 : d.st = c'.st := by rw [hdd]
    have f2 : d.m = c'.m := by rw [hdd]
    have f3 : d.tphys = c'.tphys := by rw [hdd]
    have f4 : d.gc = c'.gc := by rw [hdd]
    have f5 : d.c = c.c := by rw [hdd]
    rw [hw]
    unfold world phys at hw hw' ⊢
    rw [hu1, ho1] at hw
    rw [hu, ho, hu1, ho1] at hw'
    rw [hud, hod]
    simp only [hsd, f1, f2, f3, f4, f5]
    simp only [hs, Option.some.injEq] at hw
    simp only [hs', Option.some.injEq] at hw'
    subst hw; subst hw'
    rw [ho1] at hoc
    simp only [Option.some.injEq, World.mk.injEq]
    refine ⟨k1'.trans k1.symm, k2'.trans k2.symm, ?_, trivial, k4'.trans k4.symm⟩
    have e := k3'.trans k3.symm
    rcases hoc with hoc | hoc <;> (cases hoc; exact e)
  rw [hdd] at key
  exact ⟨(congrArg Data.st key :), (congrArg Data.m key :), (congrArg Data.gc key :), (congrArg Data.tphys key :)⟩

/-- C13 (round trip): any history of calls, through the sky or not, that ends with the original unit and origin
labels, restores every star's position and velocity, the masses, the cluster's position and the time, when the
origin is the galaxy or the cluster. (The stored centre is not restored: `C13_centre_violated`.) -/
theorem C13_round_trip (g : Galpy) (S : Truth) (c c' : Cluster) (ks : List Call) (p : Pos g c) (l : Lin c)
    (hg : Good c) (hd : DescribesLinear g S c) (hc : CachesOf g S c) (h : calls g ks c = .ok c')
    (hu : c'.units = c.units) (ho : c'.origin = c.origin)
    (hoc : c.origin = some .galaxy ∨ c.origin = some .cluster) :
    c'.st = c.st ∧ c'.m = c.m ∧ c'.gc = c.gc ∧ c'.tphys = c.tphys := by
  obtain ⟨⟨u, hu1, hul⟩, ⟨o, ho1, hol⟩⟩ := l
  have hd' : DescribesLinear g S c' := by
    refine (C13_histories_by_label g S c c' ks p ⟨⟨u, hu1, hul⟩, ⟨o, ho1, hol⟩⟩ hg hd hc h).2 ?_
    rw [hu, hu1]; rintro k; cases k; exact hul
  exact describes_same p ⟨⟨u, hu1, hul⟩, ⟨o, ho1, hol⟩⟩ hd hd' hu ho hoc

/-- C13 instance: the demo cluster (cluster frame, pckms, no cached orbits), through the sky, recentred there, into
galpy units, back to the sky and back. -/
example : ∃ c' S, calls demoG [.toRadec true none true, .op (.toCentre true (some .orthographic)), .op .toGalpy,
      .op (.toOrigin .sky true none), .op .toNbody, .toSky true none, .op (.toPckms true),
      .op (.toCluster true none)] demo = .ok c' ∧
    (DescribesLinear demoG S c' ∨ DescribesSky demoG S c') ∧ S.stars.length = 2 :=
  let S : Truth := ⟨12, [1, 3], [⟨8003, 0, 24, 1, 220, 0⟩, ⟨8000, 1, 20, 0, 218, 5⟩], ⟨8000, 0, 20, 0, 220, 0⟩,
    (4, 2, 0.1, 20)⟩
  have hd : DescribesLinear demoG S demo := by
    unfold DescribesLinear world phys
    simp only [demo, unitScale, S]
    refine ⟨_, rfl, ?_, ?_, ?_, ?_, by simp⟩ <;>
      norm_num [galRows, galactocentric, phAdd, Scale.ph]
  have hc : CachesOf demoG S demo := ⟨fun _ h => by simp [demo] at h, fun _ h => by simp [demo] at h⟩
  let ⟨c', h, d⟩ := C13_histories demoG S demo _ demo_pos demo_lin demo_good hd hc
  ⟨c', S, h, d, rfl⟩

/-- C13 is false of the code for the stored centre: from every admissible cluster without `xcn`, with a sky map that
inverts, `to_radec` followed by `to_kpckms` leaves as "centre" the centre *plus the cluster's galactocentric
position*, because the sky centre is decoded as a galactocentric position and stored as a centre. -/
theorem C13_centre_violated (g : Galpy) (S : Truth) (c : Cluster) (W : World) (p : Pos g c) (l : Lin c) (hg : Good c)
    (hd : DescribesLinear g S c) (hc : CachesOf g S c) (hinv : ∀ q, g.ofSky (g.toSky q) = q)
    (hx : c.xcn = none) (hW : world g c = some W) :
    ∃ c' W', calls g [.toRadec true none true, .op (.toKpckms true)] c = .ok c' ∧ world g c' = some W' ∧
      W'.centre = phAdd W.gc W.centre := by
  obtain ⟨c1, h1, i1, -, e1, x1⟩ := toRadec_lin ⟨p, l, hg, hd, hc⟩ true none true
  obtain ⟨e1, e2⟩ := e1 W hW
  obtain ⟨c2, h2, i2, u2, o2, ce2⟩ := fromRadec_sky i1
  obtain ⟨c3, h3, i3, u3, o3⟩ := i2.analyzed true true
  have hk : toKpckms g true c1 = .ok c3 := by
    rw [toKpckms_radec i1.state.units h2 u2]; exact h3
  have hx1 : c1.xcn = none := x1.trans hx
  have hc3 : c3.c = kpcRow (phAdd W.gc W.centre) := by
    have : c3.c = c2.c := (congrArg Cluster.c (analyze_core h3) :)
    rw [this, ce2]
    unfold fromRadecCentre
    rw [hx1]
    simp only [Galpy.orbitOfSky]
    rw [e2, e1, hinv]
  obtain ⟨W', hW', -⟩ := i3.desc
  refine ⟨c3, W', ?_, hW', ?_⟩
  · simp only [calls, Call.exec, Op.exec, h1, Except.bind, hk]
  · unfold world phys at hW'
    rw [u3.trans u2, o3.trans o2] at hW'
    simp only [unitScale, Option.some.injEq] at hW'
    subst hW'
    simp only [hc3, Scale.kpc_ph]

/-- With cached orbits, `to_radec` copies their sky coordinates, whatever the star coordinates are. -/
theorem toRadec_cached {g : Galpy} {c : Cluster} (p : Pos g c) (l : Lin c) (hg : Good c) {o : OrbitObj}
    {os : List OrbitObj} (h1 : c.orbit = some o) (h2 : c.orbits = some os) (hlen : os.length = c.m.length) :
    ∃ c', toRadec g true none true c = .ok c' ∧ c'.units = some .radec ∧ c'.sky = os.map OrbitObj.sky ∧
      c'.gc = o.sky := by
  obtain ⟨⟨u, hu, hul⟩, ⟨og, ho, hol⟩⟩ := l
  have hnr : u ≠ .radec := by rintro rfl; exact hul
  obtain ⟨c1, e1, g1⟩ := toKpckms_total (a := false) hu hnr p hg
  have s1 := toKpckms_ustep hu hul e1
  have hu1 : c1.units ≠ some .radec := by rw [s1.units]; simp
  obtain ⟨c2, e2, g2⟩ := toGalaxy_total (g := g) (s := true) hu1 g1
  have s2 := toGalaxy_ostep (s1.origin.trans ho) hol hu1 e2
  have r2 : c2.rest = c.rest := s2.rest.trans s1.rest
  have ob2 : c2.orbit = some o := ((congrArg Cluster.orbit r2 :) : c2.orbit = c.orbit).trans h1
  have os2 : c2.orbits = some os := ((congrArg Cluster.orbits r2 :) : c2.orbits = c.orbits).trans h2
  have hm2 : c2.m.length = c.m.length := by
    have hw : world g c2 = world g c := (s2.world (by rw [s1.origin, ho]; simp)).trans s1.world
    have hd := s1.world
    have hwm := congrArg (fun W => W.map (fun w => w.mass.length)) hw
    obtain ⟨s, hs⟩ : ∃ s, unitScale g c u = some s := by cases u <;> simp_all [Units.linear, unitScale]
    unfold world phys at hwm
    rw [s2.units, s1.units, s2.origin, hu, ho] at hwm
    simp only [unitScale] at hwm
    unfold unitScale at hs
    simp only [hs, Option.map_some, List.length_map, Option.some.injEq] at hwm
    exact hwm
  have hf : radecFill g c2 =
      { c2 with sky := os.map OrbitObj.sky, skyGc := o.sky, skyC := g.toSky (c2.gc.add c2.c),
                st := os.map OrbitObj.sky, gc := o.sky, c := g.toSky (c2.gc.add c2.c),
                units := some .radec, origin := some .sky } := by
    unfold radecFill; simp only [ob2, os2]
  have st5 : SkyState (radecFill g c2) := by
    rw [hf]; exact ⟨rfl, .inl rfl, by simp [hlen, hm2], fun _ => rfl⟩
  have g5 : Good (radecFill g c2) := by
    rw [hf]
    refine g2.newst ?_ rfl rfl rfl
    rw [← g2.len, hm2, ← hlen, List.length_map]
  have sky5 : (radecFill g c2).sky = os.map OrbitObj.sky := by rw [hf]
  have gc5 : (radecFill g c2).gc = o.sky := by rw [hf]
  obtain ⟨c6, e6, k6, g6⟩ : ∃ c6, (if c.origin = some .cluster then toCluster true none (radecFill g c2)
      else if c.origin = some .centre then toCentre true none (radecFill g c2) else .ok (radecFill g c2)) = .ok c6 ∧
      SkyKeep (radecFill g c2) c6 ∧ Good c6 := by
    split
    · obtain ⟨c6, a, b, d, -⟩ := toCluster_sky (s := true) (cm := none) st5 g5; exact ⟨c6, a, b, d⟩
    · split
      · obtain ⟨c6, a, b, d, -⟩ := toCentre_sky (s := true) (cm := none) st5 g5; exact ⟨c6, a, b, d⟩
      · exact ⟨_, rfl, .refl _, g5⟩
  obtain ⟨c7, e7, g7⟩ := analyze_total (s := true) (p := true) g6
  have k := k6.core (analyze_core e7)
  refine ⟨c7, ?_, k.units.trans st5.units, k.sky.trans sky5, k.gcp.trans gc5⟩
  unfold toRadec
  simp only [hu, ne_eq, hnr, not_false_eq_true, if_true, bind, e1, Except.bind, e2, ob2, os2]
  by_cases q1 : c.origin = some .cluster
  · rw [if_pos q1] at e6 ⊢; rw [e6]; exact e7
  · rw [if_neg q1] at e6 ⊢
    by_cases q2 : c.origin = some .centre
    · rw [if_pos q2] at e6 ⊢; rw [e6]; exact e7
    · rw [if_neg q2] at e6 ⊢; injection e6 with e6; rw [e6]; exact e7

/-- C13 is false of the code once orbits are cached and the stars have changed since: moving every star anywhere
else (any new rows `st'`, same number) does not change what the next `to_radec` reports. -/
theorem C13_stale_orbits_violated (g : Galpy) (c : Cluster) (st' : List Ph) (p : Pos g c) (l : Lin c) (hg : Good c)
    (o : OrbitObj) (os : List OrbitObj) (h1 : c.orbit = some o) (h2 : c.orbits = some os)
    (hlen : os.length = c.m.length) (hst : st'.length = c.st.length) :
    ∃ c1 c2, toRadec g true none true c = .ok c1 ∧ toRadec g true none true { c with st := st' } = .ok c2 ∧
      c2.sky = c1.sky := by
  obtain ⟨c1, e1, -, k1, -⟩ := toRadec_cached p l hg h1 h2 hlen
  obtain ⟨c2, e2, -, k2, -⟩ := toRadec_cached (g := g) (c := { c with st := st' })
    (p.of_orbit rfl rfl rfl rfl) ⟨l.units, l.origin⟩ (hg.newst hst rfl rfl rfl) h1 h2 hlen
  exact ⟨c1, c2, e1, e2, k2.trans k1.symm⟩

/-- C13 is false of the code after a user's `initialize_orbits()` in the cluster or centre frame: the orbits are built from
cluster-relative coordinates as if they were galactocentric (and with zero solar motion), so the orbits start at the
cluster-relative positions, and the next `to_radec` reports their sky coordinates. -/
theorem C13_initialize_orbits_violated (g : Galpy) (c : Cluster) (p : Pos g c) (hg : Good c)
    (hu : c.units = some .kpckms) {f : Origin} (ho : c.origin = some f) (hf : f = .cluster ∨ f = .centre) (o : OrbitObj)
    (hob : c.orbit = some o) :
    ∃ c1 c2, initOrbits g c = .ok c1 ∧ toRadec g true none true c1 = .ok c2 ∧ c2.sky = c.st.map g.toSky0 ∧
      c1.orbits.map (List.map OrbitObj.cart) = some c.st := by
  have hl : f.linear := by rcases hf with rfl | rfl <;> trivial
  obtain ⟨b1, b2, h1, h2, hd, g2, hr, ho1, k, -⟩ := galpy_roundtrip p hg hu ho hl
  have e : initOrbits g c = .ok { b2 with orbits := some (b1.st.map g.orbitOfGalpy0) } := by
    simp only [initOrbits, bind, h1, Except.bind, h2]
    rw [ho1, ho, if_pos (by rcases hf with rfl | rfl <;> simp)]; rfl
  have est : b2.st = c.st := (congrArg Data.st hd :)
  have em : b2.m = c.m := (congrArg Data.m hd :)
  have eu : b2.units = c.units := (congrArg Data.units hd :)
  have eo : b2.origin = c.origin := (congrArg Data.origin hd :)
  have eob : b2.orbit = c.orbit := (congrArg Cluster.orbit hr :)
  have p2 := p.of_rest hr
  obtain ⟨c2, e2, -, k2, -⟩ := toRadec_cached (g := g)
    (c := { b2 with orbits := some (b1.st.map g.orbitOfGalpy0) }) (os := b1.st.map g.orbitOfGalpy0)
    (p2.of_orbit rfl rfl rfl rfl) ⟨⟨_, eu.trans hu, trivial⟩, ⟨_, eo.trans ho, hl⟩⟩
    ⟨g2.ne, g2.len, g2.mass, g2.ro, g2.rpo⟩ (eob.trans hob) rfl (by
      show _ = b2.m.length
      rw [em, hg.len, ← k]; simp)
  refine ⟨_, c2, e, e2, ?_, ?_⟩
  · rw [k2, ← k, List.map_map, List.map_map]
    rfl
  · show some ((b1.st.map g.orbitOfGalpy0).map OrbitObj.cart) = _
    rw [← k, List.map_map]
    rfl

/-- C13 instance: a demo cluster with cached orbits, whose stars are then all moved to the origin. -/
example : ∃ c1 c2, toRadec demoG true none true
      { demo with orbit := some ⟨⟨8,0,0,0,0,0⟩, ⟨8,0,0,0,0,0⟩⟩,
                  orbits := some [⟨⟨8,0,0,0,0,0⟩, ⟨8,0,0,0,0,0⟩⟩, ⟨⟨8,1,0,0,0,0⟩, ⟨8,1,0,0,0,0⟩⟩] } = .ok c1 ∧
    toRadec demoG true none true
      { demo with orbit := some ⟨⟨8,0,0,0,0,0⟩, ⟨8,0,0,0,0,0⟩⟩,
                  orbits := some [⟨⟨8,0,0,0,0,0⟩, ⟨8,0,0,0,0,0⟩⟩, ⟨⟨8,1,0,0,0,0⟩, ⟨8,1,0,0,0,0⟩⟩],
                  st := [⟨0,0,0,0,0,0⟩, ⟨0,0,0,0,0,0⟩] } = .ok c2 ∧ c2.sky = c1.sky :=
  C13_stale_orbits_violated demoG
    { demo with orbit := some ⟨⟨8,0,0,0,0,0⟩, ⟨8,0,0,0,0,0⟩⟩,
                orbits := some [⟨⟨8,0,0,0,0,0⟩, ⟨8,0,0,0,0,0⟩⟩, ⟨⟨8,1,0,0,0,0⟩, ⟨8,1,0,0,0,0⟩⟩] }
    [⟨0,0,0,0,0,0⟩, ⟨0,0,0,0,0,0⟩] (demo_pos.of_orbit rfl rfl rfl rfl) ⟨demo_lin.units, demo_lin.origin⟩
    ⟨demo_good.ne, demo_good.len, demo_good.mass, demo_good.ro, demo_good.rpo⟩ _ _ rfl rfl rfl rfl

/-! ### C14 -/

/-- Calls that stay on the sky: origin changes with any centre method, `to_sky`, `to_radec`, `analyze`, unknown
origins. -/
def Call.onSky : Call → Prop
  | .op (.toCentre _ _) => True
  | .op (.toCluster _ _) => True
  | .op (.toOrigin t _ _) => t ≠ .galaxy
  | .op (.analyze _ _) => True
  | .op (.toUnits .radec) => True
  | .toRadec _ _ _ => True
  | .toSky _ _ => True
  | _ => False

theorem onSky_step {g : Galpy} {c : Cluster} (h : SkyState c) (hg : Good c) {k : Call} (hk : k.onSky) :
    ∃ c', k.exec g c = .ok c' ∧ SkyKeep c c' ∧ SkyState c' ∧ Good c' := by
  have A : ∀ (s p : Bool) (c : Cluster), SkyState c → Good c →
      ∃ c', analyze s c p = .ok c' ∧ SkyKeep c c' ∧ SkyState c' ∧ Good c' := by
    intro s p c h hg
    obtain ⟨c', h', g'⟩ := analyze_total (s := s) (p := p) hg
    have e := analyze_core h'
    have kk := (SkyKeep.refl c).core e
    exact ⟨c', h', kk, h.keep kk (by rw [core_origin e]; exact h.origin)
      (fun hs => by rw [core_st e]; exact h.sky ((core_origin e).symm.trans hs)), g'⟩
  have C : ∀ (s : Bool) (cm : Option CentreMethod), ∃ c', toCluster s cm c = .ok c' ∧ SkyKeep c c' ∧ SkyState c' ∧ Good c' := by
    intro s cm
    obtain ⟨c', h', k, g', o, -⟩ := toCluster_sky (s := s) (cm := cm) h hg
    exact ⟨c', h', k, h.keep k (.inr (.inl o)) (by rw [o]; simp), g'⟩
  have D : ∀ (s : Bool) (cm : Option CentreMethod), ∃ c', toCentre s cm c = .ok c' ∧ SkyKeep c c' ∧ SkyState c' ∧ Good c' := by
    intro s cm
    obtain ⟨c', h', k, g', o, -⟩ := toCentre_sky (s := s) (cm := cm) h hg
    exact ⟨c', h', k, h.keep k (.inr (.inr o)) (by rw [o]; simp), g'⟩
  obtain ⟨o, ho⟩ : ∃ o', c.origin = some o' := by rcases h.origin with k | k | k <;> exact ⟨_, k⟩
  have K : ∀ (s : Bool) (cm : Option CentreMethod), ∃ c', toSky g s cm c = .ok c' ∧ SkyKeep c c' ∧ SkyState c' ∧ Good c' := by
    intro s cm
    obtain ⟨c', h', k, o', st, g', -⟩ := toSkyRadec_spec (s := s) h hg
    refine ⟨c', ?_, k, h.keep k (.inl o') (fun _ => st), g'⟩
    simp only [toSky, ho, h.units, if_true]; exact h'
  have R : ∀ s cm a, toRadec g s cm a c = .ok c := by intro s cm a; simp [toRadec, h.units]
  cases k with
  | toRadec s cm a => exact ⟨c, R s cm a, .refl c, h, hg⟩
  | toSky s cm => exact K s cm
  | op op =>
    cases op <;> simp only [Call.onSky] at hk
    · rename_i t
      cases t <;> simp only [Call.onSky] at hk
      exact ⟨c, by simp [Call.exec, Op.exec, toUnits, h.units, R], .refl c, h, hg⟩
    · exact D _ _
    · exact C _ _
    · rename_i t s cm
      have fin : ∀ {x : Except Err Cluster}, (∃ c', x = .ok c' ∧ SkyKeep c c' ∧ SkyState c' ∧ Good c') →
          ∃ c', (x.bind fun c => analyze s c) = .ok c' ∧ SkyKeep c c' ∧ SkyState c' ∧ Good c' := by
        rintro x ⟨c1, rfl, k1, s1, g1⟩
        obtain ⟨c2, e, k2, s2, g2⟩ := A s true c1 s1 g1
        exact ⟨c2, e, k1.trans k2, s2, g2⟩
      simp only [Call.exec, Op.exec, toOrigin, ho, bind]
      cases t
      · exact fin (D s cm)
      · exact fin (C s cm)
      · exact absurd rfl hk
      · exact fin (K s cm)
      · exact fin ⟨c, rfl, .refl c, h, hg⟩
    · exact A _ _ c h hg

theorem onSky_steps {g : Galpy} (ks : List Call) {c : Cluster} (h : SkyState c) (hg : Good c)
    (hk : ∀ k ∈ ks, k.onSky) : ∃ c', calls g ks c = .ok c' ∧ SkyKeep c c' ∧ SkyState c' ∧ Good c' := by
  induction ks generalizing c with
  | nil => exact ⟨c, rfl, .refl c, h, hg⟩
  | cons k ks ih =>
    obtain ⟨c1, e1, k1, s1, g1⟩ := onSky_step (g := g) h hg (hk k (by simp))
    obtain ⟨c2, e2, k2, s2, g2⟩ := ih s1 g1 (fun k' h' => hk k' (by simp [h']))
    exact ⟨c2, by simp only [calls, e1, Except.bind]; exact e2, k1.trans k2, s2, g2⟩

theorem calls_append {g : Galpy} (ks ks' : List Call) (c : Cluster) :
    calls g (ks ++ ks') c = (calls g ks c).bind (calls g ks') := by
  induction ks generalizing c with
  | nil => rfl
  | cons k ks ih =>
    simp only [List.cons_append, calls]
    cases k.exec g c with
    | error e => rfl
    | ok c1 => exact ih c1

/-- C14: in radec units, from any of the three origins, any sequence of recentrings on the sky (any centre methods)
followed by `to_sky` runs, gives back for every star the stored right ascension, declination, distance, proper
motions and line-of-sight velocity, and changes neither those nor masses, centre, orbit position or time. -/
theorem C14_restores (g : Galpy) (c : Cluster) (ks : List Call) (s : Bool) (cm : Option CentreMethod) (h : SkyState c)
    (hg : Good c) (hk : ∀ k ∈ ks, k.onSky) :
    ∃ c', calls g (ks ++ [.toSky s cm]) c = .ok c' ∧ c'.units = some .radec ∧ c'.origin = some .sky ∧
      c'.st = c.sky ∧ c'.sky = c.sky ∧ c'.m = c.m ∧ c'.c = c.c ∧ c'.gc = c.gc ∧ c'.tphys = c.tphys := by
  obtain ⟨c1, e1, k1, s1, g1⟩ := onSky_steps (g := g) ks h hg hk
  obtain ⟨o, ho⟩ : ∃ o', c1.origin = some o' := by rcases s1.origin with k | k | k <;> exact ⟨_, k⟩
  obtain ⟨c2, e2, k2, o2, st2, g2, -⟩ := toSkyRadec_spec (s := s) s1 g1
  have k := k1.trans k2
  refine ⟨c2, ?_, k.units.trans h.units, o2, st2.trans k1.sky, k.sky, k.m, k.ctr, k.gcp, k.tphys⟩
  rw [calls_append, e1]
  simp only [Except.bind, calls, Call.exec, toSky, ho, s1.units, if_true, e2]

/-- C14 (round trip of the whole data from origin sky). -/
theorem C14_round_trip (g : Galpy) (c : Cluster) (ks : List Call) (s : Bool) (cm : Option CentreMethod) (h : SkyState c)
    (hg : Good c) (hk : ∀ k ∈ ks, k.onSky) (ho : c.origin = some .sky) :
    ∃ c', calls g (ks ++ [.toSky s cm]) c = .ok c' ∧ c'.data = c.data := by
  obtain ⟨c', e, h1, h2, h3, h4, h5, h6, h7, h8⟩ := C14_restores g c ks s cm h hg hk
  refine ⟨c', e, ?_⟩
  simp only [Cluster.data, Data.mk.injEq]
  exact ⟨h1.trans h.units.symm, h2.trans ho.symm, h8, h5, h3.trans (h.sky ho).symm, h6, h7⟩

/-- C63: after `to_sky` the coordinates produced by `to_cluster` with an explicit method depend only on that method,
not on what was done before: each star's offsets are those from the orbit position. -/
theorem C63_to_cluster_flat (g : Galpy) (c : Cluster) (ks : List Call) (s s' : Bool) (cm : Option CentreMethod)
    (h : SkyState c) (hg : Good c) (hk : ∀ k ∈ ks, k.onSky) :
    ∃ c', calls g (ks ++ [.toSky s cm, .op (.toCluster s' (some .other))]) c = .ok c' ∧ c'.origin = some .cluster ∧
      c'.st = c.sky.map (fun q => ⟨(q.x - c.gc.x) * Real.cos (c.gc.y * (Real.pi / 180)), q.y - c.gc.y, q.z - c.gc.z,
        q.vx - c.gc.vx, q.vy - c.gc.vy, q.vz - c.gc.vz⟩) := by
  obtain ⟨c1, e1, k1, s1, g1⟩ := onSky_steps (g := g) (ks ++ [.toSky s cm]) h hg (by
    intro k hk'; rcases List.mem_append.mp hk' with h | h
    · exact hk k h
    · simp only [List.mem_singleton] at h; subst h; trivial)
  obtain ⟨c1', e1', -, o1, -⟩ := C14_restores g c ks s cm h hg hk
  rw [e1] at e1'; injection e1' with e1'; subst e1'
  obtain ⟨c2, e2, k2, g2, o2, -, st2, -⟩ := toCluster_sky (s := s') (cm := some .other) s1 g1
  refine ⟨c2, ?_, o2, ?_⟩
  · rw [show ks ++ [Call.toSky s cm, .op (.toCluster s' (some .other))]
        = (ks ++ [.toSky s cm]) ++ [.op (.toCluster s' (some .other))] by simp, calls_append, e1]
    simp only [Except.bind, calls, Call.exec, Op.exec, e2]
  · rw [st2 (by rw [o1]; simp), k1.sky, k1.gcp]; rfl

/-- C63: the reference point is mapped to the origin of coordinates and zero relative motion: for the flat and the
van de Ven methods about any reference point, and for the orthographic method about the orbit position. -/
theorem C63_reference_to_zero (q gc : Ph) :
    recentred none q gc q = ⟨0, 0, 0, 0, 0, 0⟩ ∧ recentred (some .other) q gc q = ⟨0, 0, 0, 0, 0, 0⟩ ∧
    recentred (some .vandeven) q gc q = ⟨0, 0, 0, 0, 0, 0⟩ ∧
    recentred (some .orthographic) gc gc gc = ⟨0, 0, 0, 0, 0, 0⟩ := by
  refine ⟨?_, ?_, ?_, ?_⟩
  · simp [recentred, flatRow]
  · simp [recentred, flatRow]
  · simp only [recentred, vandevenRow, sub_self, Real.sin_zero, Real.cos_zero, mul_zero, mul_one]
    congr 1; ring
  · simp only [recentred, orthographicRow, sub_self, Real.sin_zero, Real.cos_zero, mul_zero, mul_one, zero_mul,
      zero_add, sub_zero]
    congr 1
    · ring
    · have := Real.sin_sq_add_cos_sq (radians gc.y)
      linear_combination gc.vy * this

/-- C63: `to_cluster` on the sky, with any method, puts a star that sits at the cluster's orbit position (and moves
with it) at the origin with zero motion. -/
theorem C63_star_at_orbit (c : Cluster) (s : Bool) (cm : Option CentreMethod) (i : ℕ) (h : SkyState c) (hg : Good c)
    (ho : c.origin ≠ some .cluster) (hi : c.sky[i]? = some c.gc) :
    ∃ c', toCluster s cm c = .ok c' ∧ c'.st[i]? = some ⟨0, 0, 0, 0, 0, 0⟩ := by
  obtain ⟨c', e, -, -, -, -, st, -⟩ := toCluster_sky (s := s) (cm := cm) h hg
  refine ⟨c', e, ?_⟩
  rw [st ho, List.getElem?_map, hi, Option.map_some]
  obtain ⟨h1, h2, h3, h4⟩ := C63_reference_to_zero c.gc c.gc
  rcases hcm : cm.or c.centreMethod with _ | (_ | _ | _)
  · rw [h1]
  · rw [h4]
  · rw [h3]
  · rw [h2]

/-- C63: likewise `to_centre` and a star at the centre, for every method but the orthographic one. -/
theorem C63_star_at_centre (c : Cluster) (s : Bool) (cm : Option CentreMethod) (i : ℕ) (h : SkyState c) (hg : Good c)
    (ho : c.origin ≠ some .centre) (hi : c.sky[i]? = some c.c) (hm : cm.or c.centreMethod ≠ some .orthographic) :
    ∃ c', toCentre s cm c = .ok c' ∧ c'.st[i]? = some ⟨0, 0, 0, 0, 0, 0⟩ := by
  obtain ⟨c', e, -, -, -, -, st, -⟩ := toCentre_sky (s := s) (cm := cm) h hg
  refine ⟨c', e, ?_⟩
  rw [st ho, List.getElem?_map, hi, Option.map_some]
  obtain ⟨h1, h2, h3, h4⟩ := C63_reference_to_zero c.c c.gc
  rcases hcm : cm.or c.centreMethod with _ | (_ | _ | _)
  · rw [h1]
  · exact absurd hcm hm
  · rw [h3]
  · rw [h2]

/-- C63 is false of the code for the orthographic method about the centre: a star exactly at the centre does not get
zero relative proper motion, but the difference between the centre's and the orbit's proper motion, because
the orbit's proper motion is subtracted in both cases. -/
theorem C63_orthographic_centre_violated (q gc : Ph) :
    (recentred (some .orthographic) q gc q).vx = q.vx - gc.vx ∧
    (recentred (some .orthographic) q gc q).vy = q.vy - gc.vy := by
  simp only [recentred, orthographicRow, sub_self, Real.sin_zero, Real.cos_zero, mul_zero, mul_one, zero_mul,
      zero_add, sub_zero, true_and]
  have := Real.sin_sq_add_cos_sq (radians q.y)
  linear_combination q.vy * this

/-- C63 is false of the code when the centre method is changed in place: `to_cluster` with a new method on a cluster
already centred there stores the new method but leaves every coordinate as computed by the old one. -/
theorem C63_method_switch_violated (s : Bool) (k : CentreMethod) (c : Cluster) (ho : c.origin = some .cluster) :
    toCluster s (some k) c = .ok { c with centreMethod := some k } := by
  simp [toCluster, ho, setMethod]

/-- A two-star cluster on the sky. -/
def demoSky : Cluster :=
  { demo with units := some .radec, origin := some .sky, st := [⟨10, 20, 5, 1, 2, 3⟩, ⟨11, 21, 6, 1, 2, 4⟩],
              sky := [⟨10, 20, 5, 1, 2, 3⟩, ⟨11, 21, 6, 1, 2, 4⟩], gc := ⟨10.5, 20.5, 5.5, 1, 2, 3⟩,
              c := ⟨10.6, 20.4, 5.4, 1, 2, 3⟩, orbit := none, orbits := none }

/-- C14 instance. -/
example : ∃ c', calls demoG ([.op (.toCentre true (some .orthographic)), .op (.toCluster true (some .vandeven))]
      ++ [.toSky true none]) demoSky = .ok c' ∧ c'.data = demoSky.data :=
  C14_round_trip demoG demoSky _ true none ⟨rfl, .inl rfl, rfl, fun _ => rfl⟩
    (demo_good.newst (c' := demoSky) rfl rfl rfl rfl) (by simp [Call.onSky]) rfl

end

end CT
