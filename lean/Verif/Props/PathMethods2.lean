/- Property theorems C156: what the methods for orbits and tails leave behind wrong. -/
import Verif.Props.PathMethods
import Verif.Props.Sky
import Verif.Props.TailsDemo
import Verif.Props.Plots
import Verif.Lemmas.Sky

namespace CT

noncomputable section

/-- With a stored orbit of the cluster and none of its stars, `to_radec` takes the cluster's place in the sky from the orbit. -/
theorem toRadec_orbit {g : Galpy} {c : Cluster} (p : Pos g c) (l : Lin c) (hg : Good c) {o : OrbitObj} (h1 : c.orbit = some o)
    (h2 : c.orbits = none) :
    ∃ c', toRadec g true none true c = .ok c' ∧ c'.units = some .radec ∧ c'.gc = o.sky := by
  obtain ⟨⟨u, hu, hul⟩, ⟨og, ho, hol⟩⟩ := l
  have hnr : u ≠ .radec := by rintro rfl; exact hul
  obtain ⟨c1, e1, g1⟩ := toKpckms_total (a := false) hu hnr p hg
  have s1 := toKpckms_ustep hu hul e1
  have hu1 : c1.units ≠ some .radec := by rw [s1.units]; simp
  obtain ⟨c2, e2, g2⟩ := toGalaxy_total (g := g) (s := true) hu1 g1
  have s2 := toGalaxy_ostep (s1.origin.trans ho) hol hu1 e2
  have r2 : c2.rest = c.rest := s2.rest.trans s1.rest
  have ob2 : c2.orbit = some o := ((congrArg Cluster.orbit r2 :) : c2.orbit = c.orbit).trans h1
  have os2 : c2.orbits = none := ((congrArg Cluster.orbits r2 :) : c2.orbits = c.orbits).trans h2
  obtain ⟨c3, e3, d3, g3, r3⟩ := initOrbits_spec (p.of_rest r2) g2 (s2.units.trans s1.units) s2.origin
  have ob3 : c3.orbit = some o := by
    have : c3.orbit = c2.orbit := (congrArg Cluster.orbit r3 :)
    exact this.trans ob2
  have os3 : c3.orbits = some (c2.st.map (fun q => ⟨q, g.toSky q⟩)) := (congrArg Cluster.orbits r3 :)
  have st3 : c3.st = c2.st := (congrArg Data.st d3 :)
  have m3 : c3.m = c2.m := (congrArg Data.m d3 :)
  obtain ⟨S, hS⟩ : ∃ S, S = c2.st.map (fun q => (⟨q, g.toSky q⟩ : OrbitObj)) := ⟨_, rfl⟩
  rw [← hS] at os3
  have hf : radecFill g c3 =
      { c3 with sky := S.map OrbitObj.sky, skyGc := o.sky, skyC := g.toSky (c3.gc.add c3.c),
                st := S.map OrbitObj.sky, gc := o.sky, c := g.toSky (c3.gc.add c3.c),
                units := some .radec, origin := some .sky } := by
    unfold radecFill; simp only [ob3, os3]
  have hSl : S.length = c3.st.length := by rw [hS, st3]; simp
  have st5 : SkyState (radecFill g c3) := by
    rw [hf]; exact ⟨rfl, .inl rfl, by rw [List.length_map, hSl]; exact g3.len.symm, fun _ => rfl⟩
  have g5 : Good (radecFill g c3) := by
    rw [hf]
    refine g3.newst ?_ rfl rfl rfl
    rw [List.length_map, hSl]
  have gc5 : (radecFill g c3).gc = o.sky := by rw [hf]
  obtain ⟨c6, e6, k6, g6⟩ : ∃ c6, (if c.origin = some .cluster then toCluster true none (radecFill g c3)
      else if c.origin = some .centre then toCentre true none (radecFill g c3) else .ok (radecFill g c3)) = .ok c6 ∧
      SkyKeep (radecFill g c3) c6 ∧ Good c6 := by
    split
    · obtain ⟨c6, a, b, d, -⟩ := toCluster_sky (s := true) (cm := none) st5 g5; exact ⟨c6, a, b, d⟩
    · split
      · obtain ⟨c6, a, b, d, -⟩ := toCentre_sky (s := true) (cm := none) st5 g5; exact ⟨c6, a, b, d⟩
      · exact ⟨_, rfl, .refl _, g5⟩
  obtain ⟨c7, e7, g7⟩ := analyze_total (s := true) (p := true) g6
  have k := k6.core (analyze_core e7)
  refine ⟨c7, ?_, k.units.trans st5.units, k.gcp.trans gc5⟩
  unfold toRadec
  simp only [hu, ne_eq, hnr, not_false_eq_true, if_true, bind, e1, Except.bind, e2, ob2, os2, e3]
  by_cases q1 : c.origin = some .cluster
  · rw [if_pos q1] at e6 ⊢; rw [e6]; exact e7
  · rw [if_neg q1] at e6 ⊢
    by_cases q2 : c.origin = some .centre
    · rw [if_pos q2] at e6 ⊢; rw [e6]; exact e7
    · rw [if_neg q2] at e6 ⊢; injection e6 with e6; rw [e6]; exact e7

/-- The orbit that `initialize=True` keeps: the cluster where it was `tfinal` ago. -/
theorem pathOrbit_ok {g : Galpy} {flow : ℝ → Ph → Ph} {a : PathArgs} {c : Cluster} {u : Units} {s : Scale} (p : Pos g c) (l : Lin c) (hg : Good c)
    (hu : c.units = some u) (hs : unitScale g c u = some s) {T : ℝ} (hT : a.tfinal = some T) (hn : 2 ≤ a.nt) :
    pathOrbit g flow a c = .ok ⟨kpcRow (orbitAt g flow (-(T * s.time)) (orbitStart s a.fromCentre c)),
      g.toSky (kpcRow (orbitAt g flow (-(T * s.time)) (orbitStart s a.fromCentre c)))⟩ := by
  obtain ⟨c', h, -⟩ := initializeOrbit_ok (fc := a.fromCentre) p l hg hu hs
  unfold pathOrbit
  simp only [h, bind, Except.bind, linspace_last hn, orbitFrom_row p.ro.ne' p.vo.ne', pure, Except.pure]
  have ht := naturalTime_eq p hu hs T
  have e : -1 * naturalTime g c a.tfinal = -(T * s.time) / (1000 * g.timeGyr) := by
    have := p.time.ne'
    rw [hT, ← ht]; field_simp
  have key : ((flow (-1 * naturalTime g c a.tfinal) (natural g (orbitStart s a.fromCentre c))).mulPos g.ro).mulVel g.vo =
      kpcRow (orbitAt g flow (-(T * s.time)) (orbitStart s a.fromCentre c)) := by
    rw [e]
    unfold orbitAt kpcRow natural
    ext <;> simp only [Ph.mulPos, Ph.mulVel] <;> ring
  unfold Galpy.orbitOfGalpy
  rw [key]

/-- **C156 is violated: `initialize=True` loses the present.**  `orbital_path(initialize=True)` leaves the rows of the cluster alone, but the
orbit it stores begins where the cluster was `tfinal` ago, and the next `to_radec` gives that place as the cluster's place in the sky. -/
theorem C156_orbit_violated {g : Galpy} {flow : ℝ → Ph → Ph} (hf : IsFlow flow) {a : PathArgs} {x : Trail} {u : Units} {s : Scale}
    (p : Pos g x.c) (l : Lin x.c) (hg : Good x.c) (hu : x.c.units = some u) (hs : unitScale g x.c u = some s) {T : ℝ}
    (hT : a.tfinal = some T) (hn : 2 ≤ a.nt) (hos : x.c.orbits = none) :
    ∃ r x1 y, orbitalPathMethod g flow a none false true x = .ok (r, x1) ∧ x1.c.data = x.c.data ∧ toRadec g true none true x1.c = .ok y ∧
      y.units = some .radec ∧ y.gc = g.toSky (kpcRow (orbitAt g flow (-(T * s.time)) (orbitStart s a.fromCentre x.c))) := by
  obtain ⟨c', h, d', -, g', r'⟩ := orbitalPath_rows (flow := flow) hf p l hg hu hs hn
  have e := pathOrbit_ok (flow := flow) p l hg hu hs hT hn
  obtain ⟨q, hq⟩ : ∃ q, q = kpcRow (orbitAt g flow (-(T * s.time)) (orbitStart s a.fromCentre x.c)) := ⟨_, rfl⟩
  rw [← hq] at e ⊢
  obtain ⟨d, hd⟩ : ∃ d : Cluster, d = { c' with orbit := some ⟨q, g.toSky q⟩ } := ⟨_, rfl⟩
  have os' : c'.orbits = x.c.orbits := (congrArg Cluster.orbits r' :)
  have u' : c'.units = x.c.units := (congrArg Data.units d' :)
  have o' : c'.origin = x.c.origin := (congrArg Data.origin d' :)
  have hld : Lin d := by
    obtain ⟨l1, l2⟩ := l
    rw [hd]
    exact ⟨by rw [← u'] at l1; exact l1, by rw [← o'] at l2; exact l2⟩
  have pd : Pos g d := by
    have := p.of_rest r'
    rw [hd]; exact this.of_orbit rfl rfl rfl rfl
  have gd : Good d := by rw [hd]; exact ⟨g'.ne, g'.len, g'.mass, g'.ro, g'.rpo⟩
  obtain ⟨y, hy, yu, yg⟩ := toRadec_orbit pd hld gd (o := ⟨q, g.toSky q⟩) (by rw [hd]) (by rw [hd]; exact os'.trans hos)
  obtain ⟨R, hR⟩ : ∃ R, R = (linspace (-1 * naturalTime g x.c a.tfinal) (naturalTime g x.c a.tfinal) a.nt).map
          (fun t => convertPt g c' ⟨t, orbitRow g (flow t (natural g (orbitStart s a.fromCentre x.c)))⟩) := ⟨_, rfl⟩
  rw [← hR] at h
  refine ⟨R, { x with c := d, path := some R }, y, ?_, ?_, hy, yu, yg⟩
  · unfold orbitalPathMethod
    simp only [legacyTime, Option.getD_none, Bool.false_eq_true, if_false, if_true, bind, Except.bind, h, e, pure, Except.pure]
    rw [hd]
  · rw [hd]; exact d'

/-- **C156 is violated: `tfinal` is ignored.**  `tail_path` and `tail_path_match` accept a keyword `tfinal`, as the functions of that name do,
and take no notice of it. -/
theorem C156_tfinal_violated {g : Galpy} {flow : ℝ → Ph → Ph} {a : TailArgs} {dt T : Option ℝ} {path : Option (List PathPt)} {x : Trail} :
    tailPathMethod g flow a dt (some T) x = tailPathMethod g flow a dt none x ∧
      tailPathMatchMethod g flow a dt (some T) path x = tailPathMatchMethod g flow a dt none path x := ⟨rfl, rfl⟩

/-- **C156 is violated: conversions leave the path behind.**  A path asked for before a change of the unit of time, and asked for again now over
the same time: the times stored are not those now returned, although both stand for the same times. -/
theorem C156_stale_violated {g : Galpy} {w : World} {l : List TrCall} {flow : ℝ → Ph → Ph} (hf : IsFlow flow) {a b : PathArgs} {x : Trail}
    {u v : Units} {s r : Scale} {T T' : ℝ} (d : Describes g w x.c) (hu : x.c.units = some u) (hs : unitScale g x.c u = some s)
    (hT : a.tfinal = some T) (hn : 2 ≤ a.nt) (hT0 : T ≠ 0) (hb : b = { a with tfinal := some T' }) :
    ∃ p x1, orbitalPathMethod g flow a none false false x = .ok (p, x1) ∧ ∀ y, (∀ a ∈ l, a.Admissible w) → (∀ a ∈ l, a.setsPath = false) →
      psession g l x1 = .ok y → y.c.units = some v → unitScale g y.c v = some r → T' * r.time = T * s.time → s.time ≠ r.time →
      ∃ q y1, orbitalPathMethod g flow b none false false y = .ok (q, y1) ∧ y.path = some p ∧
        (p[0]!).t ≠ (q[0]!).t ∧ (p[0]!).t * s.time = (q[0]!).t * r.time := by
  obtain ⟨p, c1, h1, -, -, -, k1⟩ := C59_path_partial hf d.pos d.lin d.good hu hs hT hn
  have m1 : orbitalPathMethod g flow a none false false x = .ok (p, { x with c := c1, path := some p }) := by
    unfold orbitalPathMethod
    simp only [legacyTime, Option.getD_none, Bool.false_eq_true, if_false, bind, Except.bind, h1, pure, Except.pure]
  refine ⟨p, _, m1, fun y hl hset k hv hr hTT hsr => ?_⟩
  obtain ⟨-, e⟩ := C155_orbital_path m1 hl hset k
  have d1 : Describes g w c1 := (orbitalPath_back d _ h1).1
  obtain ⟨dy, -⟩ := C155_session hl (x := { x with c := c1, path := some p }) d1 k
  have hb1 : b.tfinal = some T' := by rw [hb]
  have hb2 : 2 ≤ b.nt := by rw [hb]; exact hn
  obtain ⟨q, c2, h2, -, -, -, k2⟩ := C59_path_partial hf dy.pos dy.lin dy.good hv hr hb1 hb2
  have m2 : orbitalPathMethod g flow b none false false y = .ok (q, { y with c := c2, path := some q }) := by
    unfold orbitalPathMethod
    simp only [legacyTime, Option.getD_none, Bool.false_eq_true, if_false, bind, Except.bind, h2, pure, Except.pure]
  have t1 : (p[0]!).t = -T := by rw [(k1 0 (by omega)).1]; simp
  have t2 : (q[0]!).t = -T' := by rw [(k2 0 (by omega)).1]; simp
  refine ⟨q, _, m2, e, ?_, ?_⟩
  · rw [t1, t2]
    intro h
    have : T = T' := by linarith
    subst this
    exact hsr (mul_left_cancel₀ hT0 hTT).symm
  · rw [t1, t2]; linarith

/-- The demo cluster on a straight orbit, after `orbital_path(tfinal=100, initialize=True)`: in the sky it is not where it is. -/
example : ∃ r x1 y z, orbitalPathMethod demoG freeFlow { tfinal := some 100 } none false true ⟨demo, none, none, none, none, none⟩ = .ok (r, x1) ∧
    x1.c.data = demo.data ∧ toRadec demoG true none true x1.c = .ok y ∧ toRadec demoG true none true demo = .ok z ∧ y.gc ≠ z.gc := by
  obtain ⟨r, x1, y, h1, h2, h3, -, h5⟩ := C156_orbit_violated freeFlow_isFlow (a := { tfinal := some 100 })
    (x := ⟨demo, none, none, none, none, none⟩) demo_pos demo_lin demo_good rfl rfl rfl (by norm_num) rfl
  obtain ⟨z, hz, iz, -⟩ := toRadec_lin (g := demoG) (S := demoTruth) (c := demo) ⟨demo_pos, demo_lin, demo_good, demo_describes, ⟨by simp [demo], by simp [demo]⟩⟩ true none true
  refine ⟨r, x1, y, z, h1, h2, h3, hz, ?_⟩
  rw [h5, iz.gcp]
  intro h
  have := congrArg Ph.y h
  norm_num [demoG, demoTruth, kpcRow, orbitAt, freeFlow, orbitStart, Scale.ph, demo] at this

/-- The path of 100 Myr of the demo cluster, then a conversion to kpc and Gyr: the times stored are still in Myr. -/
example : ∃ (x x1 y y1 : Trail) (w : World) (p q : List PathPt), Describes demoG w x.c ∧
    orbitalPathMethod demoG freeFlow { tfinal := some 100 } none false false x = .ok (p, x1) ∧
    psession demoG [.call (.convert (.toKpckms true))] x1 = .ok y ∧
    orbitalPathMethod demoG freeFlow { tfinal := some 0.1 } none false false y = .ok (q, y1) ∧
    y.path = some p ∧ (p[0]!).t * 1 = (q[0]!).t * 1000 ∧ (p[0]!).t ≠ (q[0]!).t := by
  obtain ⟨c, w, -, hp, l, hg, f, hm, hM, hw, i, hu, -⟩ := demo_analysed
  have d : Describes demoG w c := ⟨hp, l, hg, f, hw, i⟩
  have k1 : Op.linear (.toKpckms true) := by simp [Op.linear, Op.unitTarget, Op.originTarget, Units.linear]
  obtain ⟨p, x1, h1, hall⟩ := C156_stale_violated (l := [.call (.convert (.toKpckms true))]) (v := .kpckms) (r := ⟨1000, 1, 1, 1000⟩) (T' := 0.1)
    freeFlow_isFlow (a := { tfinal := some 100 }) (x := ⟨c, none, none, none, none, none⟩) d hu rfl rfl (by norm_num) (by norm_num) rfl
  have ha : ∀ a ∈ [TrCall.call (.convert (.toKpckms true))], a.Admissible w := by
    intro a ha
    simp only [List.mem_cons, List.not_mem_nil, or_false] at ha
    subst ha; exact ⟨k1, rfl⟩
  have e1 := plain_exec (g := demoG) (w := w) (a := .orbitalPath freeFlow { tfinal := some 100 } none false false)
    (x := ⟨c, none, none, none, none, none⟩) (y := x1) rfl (by simp only [TrCall.exec, h1]; rfl)
  have d1 : Describes demoG w x1.c := (C124_call (q := .orbitalPath freeFlow { tfinal := some 100 }) trivial d e1.1).1
  obtain ⟨c2, h2, -⟩ := exec_total d1.pos d1.lin k1 d1.good
  have st := exec_step d1.pos.nz d1.lin k1 h2
  have hs : psession demoG [.call (.convert (.toKpckms true))] x1 = .ok { x1 with c := c2 } := by
    simp only [psession, TrCall.exec, SCall.exec, h2, Except.map, Except.bind]
  obtain ⟨q, y1, m1, m2, m3, m4⟩ := hall { x1 with c := c2 } ha (by simp [TrCall.setsPath]) hs
    (by have := st.units; simpa [Op.unitTarget] using this) rfl (by norm_num) (by norm_num)
  exact ⟨_, x1, _, y1, w, p, q, d, h1, hs, m1, m2, by simpa using m4, m3⟩

/-- The tail coordinates of the demo cluster, which moves along the y-axis. -/
example : ∃ (x x1 : Trail) (r : List ℝ), toTailMethod demoG (fun _ i j => ![![0, -1, 0], ![1, 0, 0], ![0, 0, 1]] i j) x = .ok x1 ∧
    x1.rTail = some r ∧ r.length = 2 ∧ r[0]! = 5 := by
  obtain ⟨c, w, h0, hp, l, hg, f, hm, hM, hw, i, hu, hlen, -⟩ := demo_analysed
  have d : Describes demoG w c := ⟨hp, l, hg, f, hw, i⟩
  have egc : c.gc = demo.gc := (congrArg Cluster.gc (analyze_core h0) :)
  have est : c.st = demo.st := (congrArg Cluster.st (analyze_core h0) :)
  have eo : c.origin = demo.origin := (congrArg Cluster.origin (analyze_core h0) :)
  have hrot : TurnsToX (c.gc.vx, c.gc.vy, c.gc.vz) (fun i j => ![![0, -1, 0], ![1, 0, 0], ![0, 0, 1]] i j) := by
    rw [egc]
    exact ⟨by intro i j; fin_cases i <;> fin_cases j <;> simp, by simp, by simp [demo, Real.sqrt_sq], by simp [demo], by simp [demo]⟩
  obtain ⟨out, c', e, -⟩ := C61_to_tail (rotTo := fun _ i j => ![![0, -1, 0], ![1, 0, 0], ![0, 0, 1]] i j) hp l hg hrot
  obtain ⟨x1, h⟩ : ∃ x1, toTailMethod demoG (fun _ i j => ![![0, -1, 0], ![1, 0, 0], ![0, 0, 1]] i j) ⟨c, none, none, none, none, none⟩ = .ok x1 :=
    ⟨_, by simp only [toTailMethod, e, bind, Except.bind, pure, Except.pure]; rfl⟩
  obtain ⟨out', r, v, -, b2, -, -, b5, -, b7⟩ := C155_to_tail (l := []) (x := ⟨c, none, none, none, none, none⟩) d hrot h (by simp) (by simp) rfl
  refine ⟨_, x1, r, h, b2, b5.trans hlen, ?_⟩
  obtain ⟨c1, c2, -⟩ := b7 0 (by show 0 < c.st.length; omega)
  have : (centred c)[0]! = ⟨3, 0, 4, 1, 0, 0⟩ := by
    unfold centred
    rw [eo, est]; simp [demo]
  simp only [this, dotPos] at c2
  nlinarith [c1, c2]

end

end CT
