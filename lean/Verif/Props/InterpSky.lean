/- C176, C177: moving a cluster on the sky along its orbit. -/
import Verif.Spec.InterpSky
import Verif.Props.Interp
import Verif.Props.SkyPath
import Verif.Lemmas.SkySession

namespace CT

noncomputable section

set_option linter.unusedSimpArgs false

variable {g : Galpy} {S : Truth} {c : Cluster} {flow : ℝ → Ph → Ph} {a : PathArgs}

theorem natural_sky (P : Ph) : ((kpcRow P).divPos g.ro).divVel g.vo = natural g P := by
  unfold kpcRow natural Ph.divPos Ph.divVel
  ext <;> simp only [div_div]

theorem orbitRow_at (p : Pos g c) (t : ℝ) (P : Ph) :
    orbitRow g (flow t (natural g P)) = kpcRow (orbitAt g flow (t * (1000 * g.timeGyr)) P) := by
  have h := p.time.ne'
  have e : t * (1000 * g.timeGyr) / (1000 * g.timeGyr) = t := by field_simp
  unfold orbitRow orbitAt kpcRow
  rw [e]
  ext <;> simp only [Ph.mulPos, Ph.mulVel, natural] <;> ring

theorem skySpan_eq (p : Pos g c) (hu : c.units = some .radec) (T : Option ℝ) : integrateTime g c T * (1000 * g.timeGyr) = skySpan T := by
  have h := p.time.ne'
  cases T with
  | none =>
    simp only [integrateTime, skySpan, Option.elim]
    field_simp
    norm_num
  | some T =>
    simp only [integrateTime, naturalTime, skySpan, Option.elim, hu]
    simp [Units.isPc, Units.isKpc]
    field_simp

/-- What is needed of a cluster on the sky to be moved: its columns, not the orbits it keeps. -/
structure SkyShown (g : Galpy) (S : Truth) (c : Cluster) : Prop where
  pos : Pos g c
  good : Good c
  desc : DescribesSky g S c
  origin : c.origin = some .sky
  skyGc : c.skyGc = g.toSky (kpcRow S.gc)

theorem SkyInv.shown (h : SkyInv g S c) (ho : c.origin = some .sky) : SkyShown g S c := ⟨h.pos, h.good, h.desc, ho, h.skyGc_eq⟩

theorem SkyShown.units (h : SkyShown g S c) : c.units = some .radec := h.desc.1

theorem SkyShown.sky (h : SkyShown g S c) : c.sky = S.stars.map (fun p => g.toSky (kpcRow p)) := h.desc.2.1

theorem SkyShown.state (h : SkyShown g S c) : SkyState c := by
  have e := h.desc.2.2.2.2.2.1
  refine ⟨h.units, .inl h.origin, ?_, e⟩
  rw [← e h.origin]
  exact h.good.len.symm

theorem SkyShown.keep {c' : Cluster} (h : SkyShown g S c) (k : c'.core = c.core) (hg : Good c') : SkyShown g S c' := by
  obtain ⟨d1, d2, d3, d4, d5, d6, d7⟩ := h.desc
  obtain ⟨e1, e2, e3, e4, e5, e6, e7, e8, e9, e10, e11, er⟩ := core_fields k
  have es : c'.sky = c.sky := (congrArg Cluster.sky er :)
  have eg : c'.skyGc = c.skyGc := (congrArg Cluster.skyGc er :)
  refine ⟨h.pos.of_rest er, hg, ⟨e1.trans d1, es.trans d2, e7.trans d3, e4.trans d4, by rw [e3]; exact d5, fun _ => ?_, (nbody_rest er).trans d7⟩,
    e2.trans h.origin, eg.trans h.skyGc⟩
  rw [e5, es]
  exact d6 h.origin

/-- `return_cluster` on the sky, where nothing was converted. -/
theorem return_stay (hg : Good c) (s : Bool) (cm : Option CentreMethod) :
    ∃ c', returnCluster g (saveCluster c) s cm c = .ok c' ∧ Good c' ∧ c'.core = c.core ∧ Fresh c' := by
  obtain ⟨d, hd⟩ : ∃ d : Cluster, d = { c with rorder := c.rorder, rorderOrigin := c.rorderOrigin } := ⟨_, rfl⟩
  have e : d = c := hd
  obtain ⟨c', h', g'⟩ := analyze_total (s := true) (p := true) hg
  refine ⟨c', ?_, g', analyze_core h', analyze_fresh h'⟩
  unfold returnCluster saveCluster
  simp only [ne_eq, not_true_eq_false, if_false, bind, Except.bind]
  exact h'

/-- `interpolate_orbits` on the sky. -/
theorem interpolateOrbitsSky_ok (h : SkyShown g S c) (hn : 2 ≤ a.nt) (hb : ∀ P ∈ S.stars, SkyBack g P) :
    ∃ c', interpolateOrbitsSky g flow a c =
        .ok (S.stars.map (fun P => g.toSky (kpcRow (orbitAt g flow (skySpan a.tfinal) P))), c') ∧ SkyShown g S c' ∧ c'.core = c.core ∧
      Fresh c' := by
  obtain ⟨c', h', g', k', f'⟩ := return_stay (g := g) h.good false none
  refine ⟨c', ?_, h.keep k' g', k', f'⟩
  unfold interpolateOrbitsSky initializeOrbits
  simp only [h.units, h.origin, and_self, if_true, bind, Except.bind, lastTime_ok hn, h', pure, Except.pure, h.sky, List.map_map]
  congr 2
  refine List.map_congr_left fun P hP => ?_
  simp only [Function.comp]
  rw [show g.ofSky (g.toSky (kpcRow P)) = kpcRow P from hb P hP, natural_sky, orbitRow_at h.pos, skySpan_eq h.pos h.units]

theorem rowsOf_cols (l : List Ph) : rowsOf (l.map Ph.x) (l.map Ph.y) (l.map Ph.z) (l.map Ph.vx) (l.map Ph.vy) (l.map Ph.vz) = l := by
  induction l with
  | nil => rfl
  | cons q l ih => simp only [List.map_cons, rowsOf, ih]

theorem fillCol_keep {l : List Ph} {f : Ph → ℝ} (v : ℝ) (h : ∃ q ∈ l, f q ≠ 0) : fillCol (l.map f) v = l.map f := by
  obtain ⟨q, hq, hf⟩ := h
  unfold fillCol
  rw [if_neg (fun k => hf (k _ (List.mem_map_of_mem hq)))]

theorem fillSky_keep {l : List Ph} (q : Ph) (h : NoZeroColumn l) : fillSky l q = l := by
  obtain ⟨h1, h2, h3, h4, h5, h6⟩ := h
  unfold fillSky
  rw [fillCol_keep _ h1, fillCol_keep _ h2, fillCol_keep _ h3, fillCol_keep _ h4, fillCol_keep _ h5, fillCol_keep _ h6, rowsOf_cols]

/-- `interpolate_orbit` of a cluster on the sky. -/
theorem interpolateOrbit_sky {fc : Bool} (p : Pos g c) (hg : Good c) (hu : c.units = some .radec) (ho : c.origin = some .sky) (hn : 2 ≤ a.nt)
    {P : Ph} (hP : c.skyGc = g.toSky (kpcRow P)) (hb : SkyBack g P) :
    ∃ c', interpolateOrbit g flow { a with fromCentre := fc } c = .ok (g.toSky (kpcRow (orbitAt g flow (skySpan a.tfinal) P)), c') ∧
      Good c' ∧ c'.core = c.core ∧ Fresh c' := by
  obtain ⟨c', h', g', k', f'⟩ := return_stay (g := g) hg false none
  refine ⟨c', ?_, g', k', f'⟩
  have hi : initializeOrbit g fc c = .ok (natural g P, c) := by
    unfold initializeOrbit
    rw [if_pos hu, hP, show g.ofSky (g.toSky (kpcRow P)) = kpcRow P from hb, natural_sky]
  have ht := orbitRow_at (flow := flow) p (integrateTime g c a.tfinal) P
  rw [skySpan_eq p hu] at ht
  unfold interpolateOrbit interpStart
  simp only [hu, reduceCtorEq, Option.some.injEq, if_false, bind, Except.bind, hi, lastTime_ok hn, if_true, ho, ne_eq, not_true_eq_false, h', pure,
    Except.pure, ht]

theorem core_rest {c' : Cluster} (h : c'.core = c.core) : c'.rest = c.rest := by
  obtain ⟨h1, h2, h3, h4, h5, h6, h7, h8, h9, h10, h11, hr⟩ := core_fields h
  exact hr

/-- The method on the sky: the cluster afterwards. -/
theorem interpolateOrbitsSkyMethod_ok (h : SkyShown g S c) (hn : 2 ≤ a.nt) (hb : ∀ P ∈ S.stars, SkyBack g P)
    (hbg : SkyBack g S.gc) (hz : NoZeroColumn (S.stars.map (fun P => g.toSky (kpcRow (orbitAt g flow (skySpan a.tfinal) P))))) :
    ∃ c', interpolateOrbitsSkyMethod g flow a c = .ok (c'.st, c') ∧ SkyShown g (S.movedAlong g flow (skySpan a.tfinal)) c' ∧
      Fresh c' ∧ c'.orbit = c.orbit ∧ c'.orbits = c.orbits ∧ c'.xcn = c.xcn := by
  obtain ⟨c1, h1, i1, k1, -⟩ := interpolateOrbitsSky_ok (a := a) (flow := flow) h hn hb
  have o1 : c1.origin = some .sky := i1.origin
  obtain ⟨c2, h2, k2, o2, st2, g2, -⟩ := toSkyRadec_spec (s := true) i1.state i1.good
  have h2' : toSky g true none c1 = .ok c2 := by
    simp only [toSky, o1, i1.units, if_true]
    exact h2
  have k12 : SkyKeep c c2 := ((SkyKeep.refl c).core k1).trans k2
  obtain ⟨rows, hr⟩ : ∃ rows, rows = S.stars.map (fun P => g.toSky (kpcRow (orbitAt g flow (skySpan a.tfinal) P))) := ⟨_, rfl⟩
  rw [← hr] at h1 hz
  obtain ⟨d, hd⟩ : ∃ d : Cluster, d = { c2 with
      sky := rows
      st := rows } := ⟨_, rfl⟩
  have ud : d.units = some .radec := by rw [hd]; exact k12.units.trans h.units
  have od : d.origin = some .sky := by rw [hd]; exact o2
  have sd : d.st = rows := by rw [hd]
  have skd : d.sky = rows := by rw [hd]
  have gcd : d.skyGc = g.toSky (kpcRow S.gc) := by
    rw [hd]
    exact ((congrArg Cluster.skyGc k12.rest :) : c2.skyGc = c.skyGc).trans h.skyGc
  have hl : rows.length = c2.st.length := by
    have e1 : c2.st.length = c2.m.length := g2.len.symm
    have e2 : c.sky.length = c.m.length := h.state.len
    rw [e1, k12.m, ← e2, h.sky, hr]
    simp
  have gd : Good d := by
    refine g2.newst ?_ ?_ ?_ ?_
    · rw [sd, hl]
    all_goals rw [hd]
  have pd : Pos g d := by
    have := h.pos.of_rest k12.rest
    rw [hd]
    exact this.of_orbit rfl rfl rfl rfl
  obtain ⟨e, h3, ge, ke, fe⟩ := interpolateOrbit_sky (flow := flow) (a := a) (fc := false) pd gd ud od hn gcd hbg
  obtain ⟨e1, e2, e3, e4, e5, e6, e7, e8, e9, e10, e11, er⟩ := core_fields ke
  have ue : e.units = some .radec := e1.trans ud
  have oe : e.origin = some .sky := e2.trans od
  have ske : e.sky = rows := ((congrArg Cluster.sky er :) : e.sky = d.sky).trans skd
  obtain ⟨q, hq⟩ : ∃ q, q = g.toSky (kpcRow (orbitAt g flow (skySpan a.tfinal) S.gc)) := ⟨_, rfl⟩
  rw [← hq] at h3
  obtain ⟨x, hx⟩ : ∃ x, x = setSkyGc q (addOrbit g q none none e) := ⟨_, rfl⟩
  have hadd : x = { e with
      gc := q
      skyGc := q } := by
    rw [hx]
    unfold setSkyGc addOrbit
    simp [ue, oe, ske, fillSky_keep q hz]
  have hm : interpolateOrbitsSkyMethod g flow a c = .ok (x.st, x) := by
    unfold interpolateOrbitsSkyMethod
    rw [hx]
    simp only [h1, h2', bind, Except.bind, ← hd, h3, pure, Except.pure]
  have fx : Fresh x := by
    rw [hadd]
    obtain ⟨f1, f2, f3, f4, f5, f6, f7, f8, f9, f10, f11, f12⟩ := fe
    exact ⟨f1, f2, f3, f4, f5, f6, f7, f8, f9, f10, f11, f12⟩
  have gx : Good x := by
    rw [hadd]
    exact ⟨ge.ne, ge.len, ge.mass, ge.ro, ge.rpo⟩
  have px : Pos g x := by
    have := pd.of_rest er
    rw [hadd]
    exact this.of_orbit rfl rfl rfl rfl
  have nd : (d.zmbar, d.rbar, d.vbar, d.tbar) = S.nbody := by
    rw [hd]
    exact (nbody_rest k12.rest).trans h.desc.2.2.2.2.2.2
  refine ⟨x, hm, ⟨px, gx, ⟨?_, ?_, ?_, ?_, ?_, ?_, ?_⟩, ?_, ?_⟩, fx, ?_, ?_, ?_⟩
  · rw [hadd]; exact ue
  · rw [hadd]
    show e.sky = _
    rw [ske, hr]
    simp only [Truth.movedAlong, List.map_map]
    rfl
  · rw [hadd]; exact hq
  · rw [hadd]
    show e.m = _
    rw [e4, hd]
    exact k12.m.trans h.desc.2.2.2.1
  · rw [hadd]
    show e.tphys * 1000 = _
    rw [e3, hd]
    show c2.tphys * 1000 = _
    rw [k12.tphys]
    exact h.desc.2.2.2.2.1
  · intro _
    rw [hadd]
    show e.st = e.sky
    rw [ske, e5, sd]
  · rw [hadd]
    exact (nbody_rest er).trans nd
  · rw [hadd]; exact oe
  · rw [hadd]; exact hq
  · rw [hadd]
    have : e.orbit = d.orbit := (congrArg Cluster.orbit er :)
    show e.orbit = _
    rw [this, hd]
    exact ((congrArg Cluster.orbit k12.rest :) : c2.orbit = c.orbit)
  · rw [hadd]
    have : e.orbits = d.orbits := (congrArg Cluster.orbits er :)
    show e.orbits = _
    rw [this, hd]
    exact ((congrArg Cluster.orbits k12.rest :) : c2.orbits = c.orbits)
  · rw [hadd]
    have : e.xcn = d.xcn := (congrArg Cluster.xcn er :)
    show e.xcn = _
    rw [this, hd]
    exact ((congrArg Cluster.xcn k12.rest :) : c2.xcn = c.xcn)

/-! ### C176 -/

theorem sky_reached {c0 : Cluster} {ks : List Call} (p : Pos g c0) (l : Lin c0) (hg : Good c0) (hd : DescribesLinear g S c0)
    (hc : CachesOf g S c0) (e : calls g ks c0 = .ok c) (hu : c.units = some .radec) : SkyInv g S c := by
  obtain ⟨c', e', i⟩ := calls_inv ks (.inl ⟨p, l, hg, hd, hc⟩)
  rw [e] at e'; cases e'
  rcases i with i | i
  · obtain ⟨u, hu', hul⟩ := i.lin.units
    rw [hu] at hu'; cases hu'
    exact absurd hul id
  · exact i

/-- **C176 (the function).**  Called on a cluster on the sky, `interpolate_orbits` returns the sky coordinates of every star after the given time (in
Gyr; 12 Gyr if none is given), each on its own orbit, and leaves the cluster as it was. -/
theorem C176_function {c0 : Cluster} {ks : List Call} (p : Pos g c0) (l : Lin c0) (hg : Good c0) (hd : DescribesLinear g S c0)
    (hc : CachesOf g S c0) (e : calls g ks c0 = .ok c) (hu : c.units = some .radec) (ho : c.origin = some .sky) (hn : 2 ≤ a.nt)
    (hb : ∀ P ∈ S.stars, SkyBack g P) :
    ∃ c', interpolateOrbitsSky g flow a c =
        .ok (S.stars.map (fun P => g.toSky (kpcRow (orbitAt g flow (skySpan a.tfinal) P))), c') ∧ SameSky c c' ∧ Fresh c' := by
  have i := sky_reached p l hg hd hc e hu
  obtain ⟨c', h', i', k', f'⟩ := interpolateOrbitsSky_ok (a := a) (flow := flow) (i.shown ho) hn hb
  have i2 : SkyInv g S c' := i.of_keep ((SkyKeep.refl c).core k') i'.good (.inl i'.origin) (fun _ => (core_st k').trans (i.state.sky ho))
  exact ⟨c', h', i.same i2 (core_origin k'), f'⟩

/-- **C176 (the method).**  Afterwards the cluster describes, on the sky, the stars and the cluster itself that long later, each on its own orbit. -/
theorem C176_method {c0 : Cluster} {ks : List Call} (p : Pos g c0) (l : Lin c0) (hg : Good c0) (hd : DescribesLinear g S c0)
    (hc : CachesOf g S c0) (e : calls g ks c0 = .ok c) (hu : c.units = some .radec) (ho : c.origin = some .sky) (hn : 2 ≤ a.nt)
    (hb : ∀ P ∈ S.stars, SkyBack g P) (hbg : SkyBack g S.gc)
    (hz : NoZeroColumn (S.stars.map (fun P => g.toSky (kpcRow (orbitAt g flow (skySpan a.tfinal) P))))) :
    ∃ c', interpolateOrbitsSkyMethod g flow a c = .ok (c'.st, c') ∧ DescribesSky g (S.movedAlong g flow (skySpan a.tfinal)) c' ∧
      c'.origin = some .sky ∧ Fresh c' := by
  obtain ⟨c', h1, h2, h3, -⟩ := interpolateOrbitsSkyMethod_ok ((sky_reached p l hg hd hc e hu).shown ho) hn hb hbg hz
  exact ⟨c', h1, h2.desc, h2.origin, h3⟩

/-- The method `interpolate_orbit` in linear units, seen through what the cluster describes. -/
theorem method_describes {u : Units} {s : Scale} (h : LinInv g S c) (hu : c.units = some u) (hs : unitScale g c u = some s) (hn : 2 ≤ a.nt)
    (ha : TimeGiven a c) (hfc : a.fromCentre = false) :
    ∃ q c', interpolateOrbitMethod g flow a c = .ok (q, c') ∧ Follows g flow (spanMyr s a.tfinal) (RightVelocities u) S.gc (s.ph q) ∧
      Pos g c' ∧ Lin c' ∧ Good c' ∧ DescribesLinear g (S.movedTo (s.ph q)) c' ∧ c'.units = c.units ∧ c'.origin = c.origin ∧ c'.rest = c.rest := by
  obtain ⟨W, hW, w1, w2, w3, w4, w5⟩ := h.desc
  obtain ⟨t, c0, q, c', hq, e1, e2, e3, e4, e5, e6, e7, er, -, eg, e9⟩ := method_run (flow := flow) h.pos h.lin h.good hW hu hs hn ha
  have b := convertRow_follows (flow := flow) e4 e2 e3 t (W.place a.fromCentre)
  rw [← hq, e5] at b
  simp only [World.place, hfc, Bool.false_eq_true, if_false, w4] at b
  refine ⟨q, c', e1, b, h.pos.of_rest er, ⟨by rw [e6]; exact h.lin.1, by rw [e7]; exact h.lin.2⟩, eg, ⟨_, e9, w1, w2, ?_, rfl, ?_⟩, e6, e7, er⟩
  · simp only [World.movedTo, w3, w4, Truth.movedTo, List.map_map]
    rfl
  · exact (nbody_rest er).trans w5

theorem first_visit {u : Units} {s : Scale} (p : Pos g c) (l : Lin c) (hg : Good c) (hd : DescribesLinear g S c)
    (h1 : c.orbit = none) (h2 : c.orbits = none) (hu : c.units = some u) (hs : unitScale g c u = some s) (hn : 2 ≤ a.nt)
    (ha : TimeGiven a c) (hfc : a.fromCentre = false) :
    ∃ q c', interpolateOrbitMethod g flow a c = .ok (q, c') ∧ Follows g flow (spanMyr s a.tfinal) (RightVelocities u) S.gc (s.ph q) ∧
      LinInv g (S.movedTo (s.ph q)) c' := by
  have hc : CachesOf g S c := ⟨fun o k => absurd (h1.symm.trans k) nofun, fun o k => absurd (h2.symm.trans k) nofun⟩
  obtain ⟨q, c', e1, b, p', l', g', d', -, -, r'⟩ := method_describes (a := a) (flow := flow) (LinInv.mk p l hg hd hc) hu hs hn ha hfc
  have o1 : c'.orbit = none := ((congrArg Cluster.orbit r' :) : c'.orbit = c.orbit).trans h1
  have o2 : c'.orbits = none := ((congrArg Cluster.orbits r' :) : c'.orbits = c.orbits).trans h2
  have hc' : CachesOf g (S.movedTo (s.ph q)) c' := ⟨fun o k => absurd (o1.symm.trans k) nofun, fun o k => absurd (o2.symm.trans k) nofun⟩
  exact ⟨q, c', e1, b, p', l', g', d', hc'⟩

/-- **C176 (first visit).**  A cluster in linear units that has no orbits yet and is moved by `interpolate_orbit` shows the moved cluster and the stars
moved with it, after any conversions, on the sky or off it. -/
theorem C176_first_visit {u : Units} {s : Scale} (ks : List Call) (p : Pos g c) (l : Lin c) (hg : Good c) (hd : DescribesLinear g S c)
    (h1 : c.orbit = none) (h2 : c.orbits = none) (hu : c.units = some u) (hs : unitScale g c u = some s) (hn : 2 ≤ a.nt)
    (ha : TimeGiven a c) (hfc : a.fromCentre = false) :
    ∃ q c' c2, interpolateOrbitMethod g flow a c = .ok (q, c') ∧ Follows g flow (spanMyr s a.tfinal) (RightVelocities u) S.gc (s.ph q) ∧
      calls g ks c' = .ok c2 ∧ (c2.units = some .radec → DescribesSky g (S.movedTo (s.ph q)) c2) ∧
      (c2.units ≠ some .radec → DescribesLinear g (S.movedTo (s.ph q)) c2) := by
  obtain ⟨q, c', e1, b, i⟩ := first_visit (a := a) (flow := flow) p l hg hd h1 h2 hu hs hn ha hfc
  obtain ⟨c2, e2, i2⟩ := calls_inv ks (.inl i)
  refine ⟨q, c', c2, e1, b, e2, ?_⟩
  rcases i2 with i | i
  · obtain ⟨u, hu, hul⟩ := i.lin.units
    exact ⟨fun k => by rw [hu] at k; cases k; exact absurd hul id, fun _ => i.desc⟩
  · exact ⟨fun _ => i.desc, fun k => absurd i.state.units k⟩

/-! ### C177 -/

/-- **C177 violated (back from the sky).**  The method does not touch the orbits the cluster keeps: leaving the sky afterwards brings back the old
places of the stars and of the cluster. -/
theorem C177_back_violated {c0 : Cluster} {ks : List Call} (p : Pos g c0) (l : Lin c0) (hg : Good c0) (hd : DescribesLinear g S c0)
    (hc : CachesOf g S c0) (e : calls g ks c0 = .ok c) (hu : c.units = some .radec) (ho : c.origin = some .sky) (hn : 2 ≤ a.nt)
    (hb : ∀ P ∈ S.stars, SkyBack g P) (hbg : SkyBack g S.gc) (h1 : c.orbit ≠ none) (h2 : c.orbits ≠ none)
    (hz : NoZeroColumn (S.stars.map (fun P => g.toSky (kpcRow (orbitAt g flow (skySpan a.tfinal) P))))) (s : Bool) :
    ∃ c' c2, interpolateOrbitsSkyMethod g flow a c = .ok (c'.st, c') ∧ DescribesSky g (S.movedAlong g flow (skySpan a.tfinal)) c' ∧
      toKpckms g s c' = .ok c2 ∧ c2.units = some .kpckms ∧ c2.origin = some .galaxy ∧ c2.st = S.stars.map kpcRow ∧ c2.gc = kpcRow S.gc := by
  have i := sky_reached p l hg hd hc e hu
  obtain ⟨c', m1, ⟨m6, m5, m2, m3, -⟩, -, m7, m8, -⟩ := interpolateOrbitsSkyMethod_ok (a := a) (flow := flow) (i.shown ho) hn hb hbg hz
  have ho' : c.orbit = some ⟨kpcRow S.gc, g.toSky (kpcRow S.gc)⟩ := by
    rcases i.orbit with k | ⟨k, -⟩
    · exact k
    · exact absurd k h1
  have hos' : c.orbits = some (S.stars.map (fun p => ⟨kpcRow p, g.toSky (kpcRow p)⟩)) := by
    rcases i.orbits with k | ⟨k, -⟩
    · exact k
    · exact absurd k h2
  obtain ⟨cF, hcF⟩ : ∃ d : Cluster, d = { c' with
      c := fromRadecCentre g c'
      st := S.stars.map kpcRow
      gc := kpcRow S.gc
      origin := some .galaxy
      units := some .kpckms } := ⟨_, rfl⟩
  have hF : fromRadec g c' = .ok cF := by
    unfold fromRadec
    rw [hcF]
    simp only [m2.1, m3, ne_eq, not_true_eq_false, and_false, if_false, bind, Except.bind, and_self, if_true, m7, m8, ho', hos', List.map_map, pure,
      Except.pure]
    rfl
  have uF : cF.units = some .kpckms := by rw [hcF]
  have gF : Good cF := by
    refine m5.newst ?_ (by rw [hcF]) (by rw [hcF]) (by rw [hcF])
    have e1 : c'.st.length = c'.sky.length := by rw [m2.2.2.2.2.2.1 m3]
    rw [e1, m2.2.1, hcF]
    simp [Truth.movedAlong]
  obtain ⟨c2, h3, g3⟩ : ∃ c2, analyzeIf s cF = .ok c2 ∧ c2.core = cF.core := by
    cases s
    · exact ⟨cF, rfl, rfl⟩
    · obtain ⟨c2, k, -⟩ := analyze_total (s := true) (p := true) gF
      exact ⟨c2, k, analyze_core k⟩
  refine ⟨c', c2, m1, m2, ?_, ?_, ?_, ?_, ?_⟩
  · rw [toKpckms_radec m2.1 hF uF]; exact h3
  · rw [(core_fields g3).1]; exact uF
  · rw [(core_fields g3).2.1, hcF]
  · rw [core_st g3, hcF]
  · rw [(core_fields g3).2.2.2.2.2.2.1, hcF]

/-- **C177 violated (the stars stay).**  The method `interpolate_orbit`, which in linear units moves the stars with the cluster, moves on the sky the
cluster alone: the stars keep their sky coordinates. -/
theorem C177_stars_stay_violated {c0 : Cluster} {ks : List Call} (p : Pos g c0) (l : Lin c0) (hg : Good c0) (hd : DescribesLinear g S c0)
    (hc : CachesOf g S c0) (e : calls g ks c0 = .ok c) (hu : c.units = some .radec) (ho : c.origin = some .sky) (hn : 2 ≤ a.nt)
    (hbg : SkyBack g S.gc) :
    ∃ c', interpolateOrbitMethod g flow a c = .ok (c'.gc, c') ∧ c'.units = c.units ∧ c'.origin = c.origin ∧
      c'.gc = g.toSky (kpcRow (orbitAt g flow (skySpan a.tfinal) S.gc)) ∧ c'.sky = c.sky ∧ c'.st = c.st := by
  have i := sky_reached p l hg hd hc e hu
  obtain ⟨d, h1, gd, kd, -⟩ := interpolateOrbit_sky (flow := flow) (a := a) (fc := a.fromCentre) i.pos i.good hu ho hn i.skyGc_eq hbg
  have h1 : interpolateOrbit g flow a c = .ok (g.toSky (kpcRow (orbitAt g flow (skySpan a.tfinal) S.gc)), d) := h1
  have id : SkyInv g S d := i.of_keep ((SkyKeep.refl c).core kd) gd (by rw [core_origin kd]; exact i.state.origin)
    (fun _ => by rw [core_st kd]; exact i.state.sky ho)
  have od : d.origin = some .sky := (core_origin kd).trans ho
  obtain ⟨f, h2, kf, gf, of, -⟩ := toCluster_sky (s := true) (cm := none) id.state gd
  obtain ⟨q, hq⟩ : ∃ q, q = g.toSky (kpcRow (orbitAt g flow (skySpan a.tfinal) S.gc)) := ⟨_, rfl⟩
  rw [← hq] at h1 ⊢
  have uf : f.units = some .radec := kf.units.trans id.state.units
  obtain ⟨x, hx⟩ : ∃ x, x = setSkyGc q (addOrbit g q none none f) := ⟨_, rfl⟩
  have hadd : x = { f with
      gc := q
      skyGc := q } := by
    rw [hx]
    unfold setSkyGc addOrbit
    simp [uf, of]
  have ux : x.units = some .radec := by rw [hadd]; exact uf
  have ox : x.origin = some .cluster := by rw [hadd]; exact of
  have gx : Good x := by
    rw [hadd]
    exact ⟨gf.ne, gf.len, gf.mass, gf.ro, gf.rpo⟩
  have sx : x.sky = c.sky := by
    rw [hadd]
    exact kf.sky.trans (((SkyKeep.refl c).core kd).sky)
  have xs : SkyState x := by
    refine ⟨ux, .inr (.inl ox), ?_, fun k => by rw [ox] at k; cases k⟩
    have e1 : x.m = c.m := by
      rw [hadd]
      exact kf.m.trans ((SkyKeep.refl c).core kd).m
    rw [sx, e1]
    exact i.state.len
  obtain ⟨y, h3, ky, oy, sy, gy, -⟩ := toSkyRadec_spec (s := true) xs gx
  obtain ⟨z, h4, -⟩ := analyze_total (s := true) (p := true) gy
  have h5 : toOrigin g .sky true none x = .ok z := by
    simp only [toOrigin, toSky, ox, ux, if_true, h3, bind, Except.bind]
    exact h4
  have kz : SkyKeep x z := ky.trans ((SkyKeep.refl y).core (analyze_core h4))
  refine ⟨z, ?_, ?_, ?_, ?_, ?_, ?_⟩
  · have gz : z.gc = q := by rw [kz.gcp, hadd]
    unfold interpolateOrbitMethod
    simp only [h1, h2, ← hx, bind, Except.bind, od, Option.elim, Origin.target, h5, pure, Except.pure, gz]
  · rw [kz.units, ux, hu]
  · rw [core_origin (analyze_core h4), oy, ho]
  · rw [kz.gcp, hadd]
  · rw [kz.sky, sx]
  · rw [core_st (analyze_core h4), sy, sx]
    exact (i.state.sky ho).symm

/-- **C177 violated (old places).**  A cluster that has been on the sky before keeps the orbits of that time: moved by `interpolate_orbit` in linear
units and taken to the sky, it shows the cluster and the stars where they were, not where they are. -/
theorem C177_old_places_violated {u : Units} {s : Scale} (p : Pos g c) (l : Lin c) (hg : Good c) (hd : DescribesLinear g S c)
    (hc : CachesOf g S c) (h1 : c.orbit ≠ none) (h2 : c.orbits ≠ none) (hu : c.units = some u) (hs : unitScale g c u = some s)
    (ho : c.origin = some .galaxy) (hn : 2 ≤ a.nt) (ha : TimeGiven a c) (hfc : a.fromCentre = false) (b : Bool) (cm : Option CentreMethod) :
    ∃ q c' c2, interpolateOrbitMethod g flow a c = .ok (q, c') ∧ DescribesLinear g (S.movedTo (s.ph q)) c' ∧ toRadec g b cm true c' = .ok c2 ∧
      c2.units = some .radec ∧ c2.origin = some .sky ∧ c2.st = S.stars.map (fun P => g.toSky (kpcRow P)) ∧ c2.gc = g.toSky (kpcRow S.gc) := by
  obtain ⟨q, c', m1, -, p', l', g', d', u', o', r'⟩ := method_describes (a := a) (flow := flow) (LinInv.mk p l hg hd hc) hu hs hn ha hfc
  obtain ⟨⟨v, hv, hvl⟩, -⟩ := id l'
  have hnr : v ≠ .radec := by rintro rfl; exact hvl
  have hol : Origin.linear .galaxy := trivial
  have ho' : c'.origin = some .galaxy := o'.trans ho
  obtain ⟨c1, k1, g1⟩ := toKpckms_total (a := false) hv hnr p' g'
  have s1 := toKpckms_ustep hv hvl k1
  have hu1 : c1.units ≠ some .radec := by rw [s1.units]; simp
  obtain ⟨c3, k3, g3⟩ := toGalaxy_total (g := g) (s := true) hu1 g1
  have s3 := toGalaxy_ostep (s1.origin.trans ho') hol hu1 k3
  have r3 : c3.rest = c.rest := (s3.rest.trans s1.rest).trans r'
  have w3 : world g c3 = world g c' := (s3.world (by rw [s1.origin, ho']; simp)).trans s1.world
  have d3 : DescribesLinear g (S.movedTo (s.ph q)) c3 := by
    obtain ⟨W, e, w1, w2, w3', w4, w5⟩ := d'
    exact ⟨W, w3.trans e, w1, w2, w3', w4, by rw [← w5, nbody_rest (s3.rest.trans s1.rest)]⟩
  obtain ⟨st3, -⟩ := describes_kpc (s3.units.trans s1.units) s3.origin d3
  have hob : c3.orbit = some ⟨kpcRow S.gc, g.toSky (kpcRow S.gc)⟩ := by
    rw [show c3.orbit = c.orbit from (congrArg Cluster.orbit r3 :)]
    rcases hb : c.orbit with _ | x
    · exact absurd hb h1
    · rw [hc.1 x hb]
  have hos : c3.orbits = some (S.stars.map (fun p => ⟨kpcRow p, g.toSky (kpcRow p)⟩)) := by
    rw [show c3.orbits = c.orbits from (congrArg Cluster.orbits r3 :)]
    rcases hb : c.orbits with _ | x
    · exact absurd hb h2
    · rw [hc.2 x hb]
  obtain ⟨x, hx⟩ : ∃ x, x = radecFill g c3 := ⟨_, rfl⟩
  have hf : x = { c3 with
      sky := S.stars.map (fun p => g.toSky (kpcRow p))
      skyGc := g.toSky (kpcRow S.gc)
      skyC := g.toSky (c3.gc.add c3.c)
      st := S.stars.map (fun p => g.toSky (kpcRow p))
      gc := g.toSky (kpcRow S.gc)
      c := g.toSky (c3.gc.add c3.c)
      units := some .radec
      origin := some .sky } := by
    rw [hx]
    unfold radecFill
    simp only [hob, hos, List.map_map]
    rfl
  have gx : Good x := by
    refine g3.newst ?_ (by rw [hf]) (by rw [hf]) (by rw [hf])
    rw [hf, st3]
    simp [Truth.movedTo]
  obtain ⟨c2, k2, -⟩ := analyze_total (s := b) (p := true) gx
  refine ⟨q, c', c2, m1, d', ?_, ?_, ?_, ?_, ?_⟩
  · unfold toRadec
    simp only [hv, ne_eq, hnr, not_false_eq_true, if_true, bind, k1, Except.bind, k3, hob, hos, ← hx, ho', reduceCtorEq, Option.some.injEq,
      if_false]
    exact k2
  · rw [(core_fields (analyze_core k2)).1, hf]
  · rw [core_origin (analyze_core k2), hf]
  · rw [core_st (analyze_core k2), hf]
  · rw [(core_fields (analyze_core k2)).2.2.2.2.2.2.1, hf]

/-- **C177 violated (recentred).**  On the sky with the origin at the cluster or its centre `interpolate_orbits` raises. -/
theorem C177_recentred_violated (hu : c.units = some .radec) (ho : c.origin = some .cluster ∨ c.origin = some .centre) :
    interpolateOrbitsSky g flow a c = .error .nameError := by
  unfold interpolateOrbitsSky initializeOrbits
  rw [if_neg (by rintro ⟨-, k⟩; rcases ho with h | h <;> rw [h] at k <;> cases k), if_pos ⟨hu, ho⟩]
  rfl

/-! ### they apply -/

/-- Bodies drifting on straight lines. -/
def drift : ℝ → Ph → Ph := fun t p => ⟨p.x + t * p.vx, p.y + t * p.vy, p.z + t * p.vz, p.vx, p.vy, p.vz⟩

theorem demoSky_inv : LinInv demoG demoGalaxyTruth demoGalaxy :=
  ⟨demoGalaxy_pos, demoGalaxy_lin, demoGalaxy_good, demoGalaxy_desc, demoGalaxy_caches⟩

theorem demoSky_moved (T : ℝ) : NoZeroColumn (demoGalaxyTruth.stars.map (fun P => demoG.toSky (kpcRow (orbitAt demoG drift T P)))) := by
  have m1 : ∀ {f : Ph → Ph}, f ⟨8003, 0, 24, 1, 220, 0⟩ ∈ demoGalaxyTruth.stars.map f := fun {f} => List.mem_map_of_mem (List.mem_cons_self ..)
  have m2 : ∀ {f : Ph → Ph}, f ⟨8000, 1, 20, 0, 218, 5⟩ ∈ demoGalaxyTruth.stars.map f :=
    fun {f} => List.mem_map_of_mem (List.mem_cons_of_mem _ (List.mem_cons_self ..))
  refine ⟨⟨_, m2, ?_⟩, ?_, ⟨_, m1, ?_⟩, ⟨_, m1, ?_⟩, ⟨_, m1, ?_⟩, ⟨_, m2, ?_⟩⟩
  rotate_left
  · by_cases h : T = 0
    · refine ⟨_, m2, ?_⟩
      subst h
      norm_num [demoG, drift, orbitAt, kpcRow]
    · refine ⟨_, m1, ?_⟩
      norm_num [demoG, drift, orbitAt, kpcRow, h]
  all_goals norm_num [demoG, drift, orbitAt, kpcRow]

/-- A cluster taken to the sky, moved 0.1 Gyr along its orbit there, and taken back: its stars are where they were at the start. -/
example : ∃ c c' c2, calls demoG [.toRadec true none true] demoGalaxy = .ok c ∧
    interpolateOrbitsSkyMethod demoG drift { tfinal := some 0.1 } c = .ok (c'.st, c') ∧
    DescribesSky demoG (demoGalaxyTruth.movedAlong demoG drift 100) c' ∧ toKpckms demoG true c' = .ok c2 ∧
    c2.st = demoGalaxyTruth.stars.map kpcRow ∧ demoGalaxyTruth.stars.map (orbitAt demoG drift 100) ≠ demoGalaxyTruth.stars := by
  obtain ⟨c, h1, i, o, -, -, -, b1, b2⟩ := toRadec_lin_full demoSky_inv true none true
  have h0 : calls demoG [.toRadec true none true] demoGalaxy = .ok c := by simp [calls, Call.exec, h1, Except.bind]
  have ht : skySpan (some 0.1) = 100 := by norm_num [skySpan]
  have hz := demoSky_moved (skySpan (some 0.1))
  obtain ⟨c', c2, m1, m2, m3, -, -, m4, -⟩ := C177_back_violated (a := { tfinal := some 0.1 }) demoGalaxy_pos demoGalaxy_lin demoGalaxy_good
    demoGalaxy_desc demoGalaxy_caches h0 i.state.units (by rw [o]; rfl) (by decide) (fun _ _ => rfl) rfl b1 b2 hz true
  rw [show skySpan (PathArgs.tfinal { tfinal := some 0.1 }) = 100 from ht] at m2
  refine ⟨c, c', c2, h0, m1, m2, m3, m4, fun k => ?_⟩
  have := congrArg (fun l => l.map Ph.x) k
  norm_num [demoGalaxyTruth, orbitAt, drift, demoG] at this

/-- Moved by `interpolate_orbit` before its first visit to the sky. -/
example : ∃ q c' c2, interpolateOrbitMethod demoG drift { tfinal := some 100 } demoGalaxy = .ok (q, c') ∧
    toRadec demoG true none true c' = .ok c2 ∧ DescribesSky demoG (demoGalaxyTruth.movedTo (Scale.ph ⟨1, 1, 1, 1⟩ q)) c2 := by
  obtain ⟨q, c', e1, -, i⟩ := first_visit (flow := drift) (a := { tfinal := some 100 }) demoGalaxy_pos demoGalaxy_lin demoGalaxy_good
    demoGalaxy_desc rfl rfl rfl rfl (by decide) (by simp [TimeGiven]) rfl
  obtain ⟨c2, e2, i2, -⟩ := toRadec_lin i true none true
  exact ⟨q, c', c2, e1, e2, i2.desc⟩

/-- And after it. -/
example : ∃ c0 c q c' c2, toRadec demoG true none true demoGalaxy = .ok c0 ∧ toKpckms demoG false c0 = .ok c ∧
    interpolateOrbitMethod demoG drift { tfinal := some 0.1 } c = .ok (q, c') ∧
    DescribesLinear demoG (demoGalaxyTruth.movedTo (Scale.ph ⟨1000, 1, 1, 1000⟩ q)) c' ∧ toRadec demoG true none true c' = .ok c2 ∧
    c2.st = demoGalaxyTruth.stars.map kpcRow := by
  obtain ⟨c0, h0, i, o, -, -, -, b1, b2⟩ := toRadec_lin_full demoSky_inv true none true
  have o0 : c0.origin = some .sky := by rw [o]; rfl
  obtain ⟨c, h1, i1, u1, o1, -⟩ := fromRadec_sky i
  have k1 : toKpckms demoG false c0 = .ok c := by rw [toKpckms_radec i.state.units h1 u1]; rfl
  have hb : c.orbit ≠ none ∧ c.orbits ≠ none := by
    rcases hx : c0.orbit with _ | x
    · exact absurd hx b1
    rcases hy : c0.orbits with _ | y
    · exact absurd hy b2
    unfold fromRadec at h1
    simp only [i.state.units, o0, ne_eq, not_true_eq_false, and_false, if_false, bind, Except.bind, and_self, if_true, hx, hy, pure,
      Except.pure] at h1
    injection h1 with h1
    rw [← h1]
    simp
  obtain ⟨q, c', c2, m1, m2, m3, -, -, m4, -⟩ := C177_old_places_violated (flow := drift) (a := { tfinal := some 0.1 }) i1.pos i1.lin i1.good i1.desc
    i1.caches hb.1 hb.2 u1 rfl o1 (by decide) (by simp [TimeGiven, u1]) rfl true none
  exact ⟨c0, c, q, c', c2, h0, k1, m1, m2, m3, m4⟩

/-- A cluster on the sky moved by the method `interpolate_orbit`: its stars stay. -/
example : ∃ c c', toRadec demoG true none true demoGalaxy = .ok c ∧ interpolateOrbitMethod demoG drift { tfinal := some 0.1 } c = .ok (c'.gc, c') ∧
    c'.gc = kpcRow (orbitAt demoG drift (skySpan (some 0.1)) demoGalaxyTruth.gc) ∧ c'.st = c.st := by
  obtain ⟨c, h1, i, o, -⟩ := toRadec_lin_full demoSky_inv true none true
  have h0 : calls demoG [.toRadec true none true] demoGalaxy = .ok c := by simp [calls, Call.exec, h1, Except.bind]
  obtain ⟨c', m1, -, -, m2, -, m3⟩ := C177_stars_stay_violated (flow := drift) (a := { tfinal := some 0.1 }) demoGalaxy_pos demoGalaxy_lin
    demoGalaxy_good demoGalaxy_desc demoGalaxy_caches h0 i.state.units (by rw [o]; rfl) (by decide) rfl
  exact ⟨c, c', h1, m1, m2, m3⟩

/-- With the origin moved to the cluster the stars have no orbits. -/
example : ∃ c c', toRadec demoG true none true demoGalaxy = .ok c ∧ toCluster true none c = .ok c' ∧
    interpolateOrbitsSky demoG drift {} c' = .error .nameError := by
  obtain ⟨c, h1, i, -⟩ := toRadec_lin demoSky_inv true none true
  obtain ⟨c', h2, -, u, o⟩ := toCluster_inv (.inr i) true none
  exact ⟨c, c', h1, h2, C177_recentred_violated (u.trans i.state.units) (.inl o)⟩

end

end CT
