/- C136, C137: scatter plots. -/
import Verif.Spec.Plots
import Verif.Lemmas.SkyHist
import Verif.Lemmas.Return
import Verif.Props.Sky

namespace CT

noncomputable section

theorem LinInv.st_length {g : Galpy} {S : Truth} {c : Cluster} (h : LinInv g S c) : c.st.length = S.stars.length := by
  obtain ⟨W, hw, -, -, k3, -⟩ := h.desc
  obtain ⟨⟨u, hu, hul⟩, ⟨o, ho, hol⟩⟩ := h.lin
  obtain ⟨s, hs⟩ := unitScale_linear (g := g) (c := c) hul
  unfold world phys at hw
  simp only [hu, hs, ho, Option.some.injEq] at hw
  subst hw
  simpa [galRows] using congrArg List.length k3

/-- The end of `skyplot`: from the sky back to the labels of a linear state. -/
theorem returnCluster_inv {g : Galpy} {S : Truth} {c c1 : Cluster} (h : LinInv g S c) (h1 : SkyInv g S c1) (s : Bool) (cm : Option CentreMethod) :
    ∃ c', returnCluster g (saveCluster c) s cm c1 = .ok c' ∧ LinInv g S c' ∧ c'.units = c.units ∧ c'.origin = c.origin ∧
      ∃ d, fromRadec g c1 = .ok d ∧ world g c' = world g d := by
  obtain ⟨⟨u, hu, hul⟩, ⟨o, ho, hol⟩⟩ := h.lin
  have hnr : u ≠ .radec := by rintro rfl; exact hul
  have hne : c1.units ≠ some u := by rw [h1.state.units]; simpa using hnr.symm
  obtain ⟨e, he, ie, ue, -⟩ := fromRadec_sky h1
  obtain ⟨c2, h2, i2, s2⟩ := Inv.linop (op := .toUnits u) ie ⟨fun _ h => by cases h; exact hul, fun _ h => (nomatch h)⟩
  have h2 := (exec_sky_units h1.state.units he ue (.toUnits u) rfl hul).trans h2
  have u2 : c2.units = some u := s2.units
  have h2' : toUnits g u c1 = .ok c2 := h2
  obtain ⟨c3, h3, i3, u3, o3, w3⟩ : ∃ c3, (if c2.origin ≠ some o then toOrigin g o.target s cm c2 else .ok c2) = .ok c3 ∧ LinInv g S c3 ∧
      c3.units = some u ∧ c3.origin = some o ∧ world g c3 = world g c2 := by
    split
    · have hl : (Op.toOrigin o s cm).linear := ⟨fun _ h => (nomatch h), fun _ h => by cases h; exact hol⟩
      obtain ⟨c3, h3, i3, s3⟩ := Inv.linop i2 hl
      exact ⟨c3, h3, i3, s3.units.trans u2, s3.origin, s3.world⟩
    · rename_i hne
      exact ⟨c2, rfl, i2, u2, not_not.mp hne, rfl⟩
  have hlen : c3.st.length = c.st.length := i3.st_length.trans h.st_length.symm
  obtain ⟨d, hd⟩ : ∃ d : Cluster, d = { c3 with rorder := c.rorder, rorderOrigin := c.rorderOrigin } := ⟨_, rfl⟩
  have id : LinInv g S d := by
    refine i3.of_world ?_ ?_ (by rw [hd]; rfl) (world_of_data (by rw [hd]; rfl) (by rw [hd]; rfl))
    · rw [hd]; exact ⟨i3.lin.units, i3.lin.origin⟩
    · rw [hd]
      refine ⟨i3.good.ne, i3.good.len, i3.good.mass, fun x hx => ?_, i3.good.rpo⟩
      show IsOrder c3.st.length x
      rw [hlen]; exact h.good.ro x hx
  obtain ⟨c4, h4, i4, u4, o4⟩ := id.analyzed true true
  refine ⟨c4, ?_, i4, ?_, ?_, e, he, ?_⟩
  · unfold returnCluster saveCluster
    simp only [hu, ho, bind]
    rw [if_pos hne, h2']
    simp only [Except.bind]
    rw [hd] at h4
    exact ite_bind_of h3 h4
  · rw [u4, hd, hu]; exact u3
  · rw [o4, hd, ho]; exact o3
  · have w4 : world g c4 = world g d := world_of_data (core_data (analyze_core h4)) (core_fields (analyze_core h4)).2.2.2.2.2.2.2.2.2.2.2
    have wd : world g d = world g c3 := world_of_data (by rw [hd]; rfl) (by rw [hd]; rfl)
    exact w4.trans (wd.trans (w3.trans s2.world))

/-- `skyplot` from any state describing `S`. -/
theorem skyplot_inv {g : Galpy} {S : Truth} {c : Cluster} (h : Inv g S c) (k : SkyCoords) (o dc : Bool) :
    ∃ fig c', skyplot g k o dc c = .ok (fig, c') ∧ Inv g S c' ∧ c'.units = c.units ∧ c'.origin = c.origin ∧
      fig.stars = [S.stars.map (fun p => k.proj (g.toSky (kpcRow p)))] ∧
      fig.marks = [if o = false ∧ dc = true then [((g.toSky (kpcRow S.gc)).x, (g.toSky (kpcRow S.gc)).y)] else []] := by
  rcases h with h | h
  · obtain ⟨c1, h1, i1, -⟩ := toRadec_lin h false none true
    obtain ⟨c2, h2, i2, u2, o2, -⟩ := returnCluster_inv h i1 false none
    refine ⟨skyFigure k o dc c1, c2, ?_, .inl i2, u2, o2, ?_, ?_⟩
    · unfold skyplot
      simp only [bind, h1, Except.bind, h2]
      rfl
    · simp only [skyFigure, i1.sky, List.map_map]; rfl
    · simp only [skyFigure, i1.skyGc_eq]
  · have h1 : toRadec g false none true c = .ok c := by simp [toRadec, h.state.units]
    obtain ⟨c2, h2, i2, k2, o2, -⟩ := h.analyzed true true
    refine ⟨skyFigure k o dc c, c2, ?_, .inr i2, k2.units, o2, ?_, ?_⟩
    · unfold skyplot
      simp only [bind, h1, Except.bind]
      unfold returnCluster saveCluster
      simp only [bind, Except.bind, ne_eq, not_true_eq_false, if_false]
      rw [h2]; rfl
    · simp only [skyFigure, h.sky, List.map_map]; rfl
    · simp only [skyFigure, h.skyGc_eq]

/-- `starplot` from any state describing `S`. -/
theorem starplot_inv {g : Galpy} {S : Truth} {c : Cluster} (h : Inv g S c) (k : StarCoords) (o dc : Bool) :
    ∃ fig c', starplot g k o dc c = .ok (fig, c') ∧ Inv g S c' ∧ c'.origin = c.origin ∧
      (k = .xyz ∨ c.units ≠ some .amuse → c'.units = c.units) ∧ (c.units ≠ some .amuse → c' = c) := by
  by_cases ha : c.units = some .amuse
  · have hl : LinInv g S c := by
      rcases h with h | h
      · exact h
      · exact absurd (h.state.units.symm.trans ha) (by simp)
    obtain ⟨c1, h1, i1, s1⟩ := Inv.linop (op := .toPckms true) hl ⟨fun _ h => by cases h; trivial, fun _ h => (nomatch h)⟩
    have h1' : toPckms g true c = .ok c1 := h1
    by_cases hk : k = .xyz
    · obtain ⟨c2, h2, i2, s2⟩ := Inv.linop (op := .toAmuse true) i1 ⟨fun _ h => by cases h; trivial, fun _ h => (nomatch h)⟩
      have h2' : toAmuse g true c1 = .ok c2 := h2
      refine ⟨starFigure2 dc c1, c2, ?_, .inl i2, s2.origin.trans s1.origin, fun _ => ?_, fun h => absurd ha h⟩
      · unfold starplot
        simp only [ha, if_true, hk, bind, h1', Except.bind, h2']
        rfl
      · rw [ha]; exact s2.units
    · refine ⟨starFigure1 k o dc c1, c1, ?_, .inl i1, s1.origin, fun h => ?_, fun h => absurd ha h⟩
      · unfold starplot
        simp only [ha, if_true, bind, h1', Except.bind, hk, if_false]
        rfl
      · rcases h with h | h
        · exact absurd h hk
        · exact absurd ha h
  · by_cases hk : k = .xyz
    · refine ⟨starFigure2 dc c, c, ?_, h, rfl, fun _ => rfl, fun _ => rfl⟩
      unfold starplot
      simp only [ha, if_false, bind, Except.bind, hk, if_true]
      rfl
    · refine ⟨starFigure1 k o dc c, c, ?_, h, rfl, fun _ => rfl, fun _ => rfl⟩
      unfold starplot
      simp only [ha, if_false, bind, Except.bind, hk]
      rfl

theorem pcall_inv {g : Galpy} {S : Truth} {c : Cluster} (h : Inv g S c) (k : PCall) :
    ∃ figs c', k.exec g c = .ok (figs, c') ∧ Inv g S c' := by
  cases k with
  | call k => obtain ⟨c', h', i⟩ := call_inv h k; exact ⟨[], c', by simp only [PCall.exec, h', Except.map], i⟩
  | star k o dc => obtain ⟨f, c', h', i, -⟩ := starplot_inv h k o dc; exact ⟨[f], c', by simp only [PCall.exec, h', Except.map], i⟩
  | sky k o dc => obtain ⟨f, c', h', i, -⟩ := skyplot_inv h k o dc; exact ⟨[f], c', by simp only [PCall.exec, h', Except.map], i⟩

theorem pcalls_inv {g : Galpy} {S : Truth} (ks : List PCall) {c : Cluster} (h : Inv g S c) :
    ∃ figs c', pcalls g ks c = .ok (figs, c') ∧ Inv g S c' := by
  induction ks generalizing c with
  | nil => exact ⟨[], c, rfl, h⟩
  | cons k ks ih =>
    obtain ⟨f, c1, h1, i1⟩ := pcall_inv h k
    obtain ⟨fs, c2, h2, i2⟩ := ih i1
    exact ⟨f ++ fs, c2, by simp only [pcalls, h1, Except.bind, h2, Except.map], i2⟩

theorem pcalls_append {g : Galpy} (ks ls : List PCall) {c c1 : Cluster} {figs : List Figure} (h : pcalls g ks c = .ok (figs, c1)) :
    pcalls g (ks ++ ls) c = (pcalls g ls c1).map (fun r => (figs ++ r.1, r.2)) := by
  induction ks generalizing c figs with
  | nil =>
    simp only [pcalls, Except.ok.injEq, Prod.mk.injEq] at h
    obtain ⟨rfl, rfl⟩ := h
    simp only [List.nil_append]
    cases pcalls g ls c <;> rfl
  | cons k ks ih =>
    simp only [pcalls] at h
    obtain ⟨r, h1, h2⟩ := bind_ok h
    cases h3 : pcalls g ks r.2 with
    | error e => rw [h3] at h2; cases h2
    | ok s =>
      rw [h3] at h2
      simp only [Except.map, Except.ok.injEq, Prod.mk.injEq] at h2
      obtain ⟨rfl, rfl⟩ := h2
      simp only [List.cons_append, pcalls, h1, Except.bind, ih h3]
      cases pcalls g ls s.2 <;> simp [Except.map]

/-- C136 (sessions): every sequence of conversions, star plots and sky plots, in any order, succeeds, and afterwards the cluster still
describes the same stars. -/
theorem C136_sessions (g : Galpy) (S : Truth) (c : Cluster) (ks : List PCall) (p : Pos g c) (l : Lin c) (hg : Good c)
    (hd : DescribesLinear g S c) (hc : CachesOf g S c) :
    ∃ figs c', pcalls g ks c = .ok (figs, c') ∧ (DescribesLinear g S c' ∨ DescribesSky g S c') := by
  obtain ⟨figs, c', h, i⟩ := pcalls_inv ks (.inl ⟨p, l, hg, hd, hc⟩)
  exact ⟨figs, c', h, i.elim (fun h => .inl h.desc) (fun h => .inr h.desc)⟩

/-- C136 (sky plots): a sky plot drawn at any point of a session shows every star at the sky coordinates (right ascension and
declination, or proper motions) of its true position, and leaves the cluster in the units and frame it was in. -/
theorem C136_skyplot (g : Galpy) (S : Truth) (c : Cluster) (ks : List PCall) (k : SkyCoords) (o dc : Bool) (p : Pos g c) (l : Lin c) (hg : Good c)
    (hd : DescribesLinear g S c) (hc : CachesOf g S c) :
    ∃ figs c1 fig c2, pcalls g ks c = .ok (figs, c1) ∧ pcalls g (ks ++ [.sky k o dc]) c = .ok (figs ++ [fig], c2) ∧
      fig.stars = [S.stars.map (fun q => match k with
        | .radec => ((g.toSky (kpcRow q)).x, (g.toSky (kpcRow q)).y)
        | .pm => ((g.toSky (kpcRow q)).vx, (g.toSky (kpcRow q)).vy))] ∧
      c2.units = c1.units ∧ c2.origin = c1.origin := by
  obtain ⟨figs, c1, h1, i1⟩ := pcalls_inv ks (.inl ⟨p, l, hg, hd, hc⟩)
  obtain ⟨fig, c2, h2, -, u2, o2, hf⟩ := skyplot_inv i1 k o dc
  refine ⟨figs, c1, fig, c2, h1, ?_, ?_, u2, o2⟩
  · rw [pcalls_append ks _ h1]
    simp only [pcalls, PCall.exec, h2, Except.map, Except.bind]
    simp
  · rw [hf.1]; cases k <;> rfl

/-- C136 (sky plots leave the stars): when the cluster has linear units and its origin is the galaxy or the cluster, a sky plot changes
no star's position or velocity, no mass, neither the cluster's position nor the time. -/
theorem C136_skyplot_restores (g : Galpy) (S : Truth) (c : Cluster) (k : SkyCoords) (o dc : Bool) (p : Pos g c) (l : Lin c) (hg : Good c)
    (hd : DescribesLinear g S c) (hc : CachesOf g S c) (ho : c.origin = some .galaxy ∨ c.origin = some .cluster) :
    ∃ fig c', skyplot g k o dc c = .ok (fig, c') ∧ c'.st = c.st ∧ c'.m = c.m ∧ c'.gc = c.gc ∧ c'.tphys = c.tphys := by
  have i : LinInv g S c := ⟨p, l, hg, hd, hc⟩
  obtain ⟨fig, c', h', i', u', o', -⟩ := skyplot_inv (.inl i) k o dc
  refine ⟨fig, c', h', ?_⟩
  have hl' : DescribesLinear g S c' := by
    rcases i' with i' | i'
    · exact i'.desc
    · obtain ⟨u, hu, hul⟩ := l.units
      rw [i'.state.units, hu] at u'
      cases u'; exact absurd hul id
  exact describes_same p l hd hl' u' o' ho

/-- The cluster a star plot shows, and what it returns. -/
theorem starplot_shown {g : Galpy} {c : Cluster} (p : Pos g c) (l : Lin c) (hg : Good c) (k : StarCoords) (o dc : Bool) :
    ∃ c1 c', starplot g k o dc c = .ok (if k = .xyz then starFigure2 dc c1 else starFigure1 k o dc c1, c') ∧
      phys g c1 = phys g c ∧ c1.origin = c.origin ∧ c1.rbar = c.rbar ∧ c1.units = (if c.units = some .amuse then some .pckms else c.units) ∧
      (k = .xyz ∨ c.units ≠ some .amuse → c'.data = c.data) ∧ (k ≠ .xyz → c' = c1) := by
  obtain ⟨⟨u, hu, hul⟩, ⟨og, ho, hol⟩⟩ := l
  by_cases ha : c.units = some .amuse
  · obtain ⟨c1, h1, g1⟩ := toPckms_total (a := true) ha trivial p hg
    have s1 := toPckms_ustep ha trivial h1
    have hr : c1.rbar = c.rbar := (rest_scales s1.rest).2.1
    obtain ⟨c2, h2, g2⟩ := toAmuse_total (g := g) (a := true) s1.units trivial (p.of_rest s1.rest) g1
    have s2 := toAmuse_ustep s1.units trivial h2
    have hd : c2.data = c.data := by
      refine data_of_world p.nz (s2.rest.trans s1.rest) ha s2.units trivial ho (s2.origin.trans (s1.origin.trans ho)) hol ?_
      exact s2.world.trans s1.world
    by_cases hk : k = .xyz
    · refine ⟨c1, c2, ?_, s1.phys, s1.origin, hr, by rw [if_pos ha]; exact s1.units, fun _ => hd, fun h => absurd hk h⟩
      unfold starplot
      simp only [ha, if_true, hk, bind, h1, Except.bind, h2]
      rfl
    · refine ⟨c1, c1, ?_, s1.phys, s1.origin, hr, by rw [if_pos ha]; exact s1.units, fun h => ?_, fun _ => rfl⟩
      · unfold starplot
        simp only [ha, if_true, bind, h1, Except.bind, hk, if_false]
        rfl
      · rcases h with h | h
        · exact absurd h hk
        · exact absurd ha h
  · refine ⟨c, c, ?_, rfl, rfl, rfl, by rw [if_neg ha], fun _ => rfl, fun _ => rfl⟩
    unfold starplot
    by_cases hk : k = .xyz
    · simp only [ha, if_false, bind, Except.bind, hk, if_true]
      rfl
    · simp only [ha, if_false, bind, Except.bind, hk]
      rfl

theorem inPc_proj (k : StarCoords) (L : ℝ) (f : Ph → Ph) (rows : List Ph) (h : ∀ q, ((f q).x, (f q).y, (f q).z) = (q.x * L, q.y * L, q.z * L)) :
    inPc L (rows.map k.proj) = (rows.map f).map k.proj := by
  simp only [inPc, List.map_map]
  refine List.map_congr_left fun q _ => ?_
  have := h q
  simp only [Prod.mk.injEq] at this
  obtain ⟨h1, h2, h3⟩ := this
  cases k <;> simp [StarCoords.proj, h1, h2, h3]

/-- A labelled axis has the length of the unit system. -/
theorem axisUnit_length {g : Galpy} {c : Cluster} {u : Units} {L : ℝ} (hu : c.units = some u) (h : axisLength g c.rbar (axisUnit c.units) = some L) :
    ∃ s, unitScale g c u = some s ∧ s.len = L := by
  rw [hu] at h
  cases u <;> simp [axisUnit, axisLength] at h
  all_goals exact ⟨_, rfl, h⟩

/-- C136 (star plots): a star plot of a cluster in linear units always succeeds.  Whenever it writes a unit on its axes, the points drawn
are, in that unit, exactly the positions of the stars in the frame the cluster is in, in order and on the right axes. -/
theorem C136_starplot (g : Galpy) (c : Cluster) (P : Phys) (k : StarCoords) (o dc : Bool) (p : Pos g c) (l : Lin c) (hg : Good c)
    (hP : phys g c = some P) :
    ∃ fig c', starplot g k o dc c = .ok (fig, c') ∧
      (∀ t L, fig.unit = some t → axisLength g c.rbar t = some L → fig.stars.map (inPc L) = panels k P.stars) ∧
      (o = false → c.units = some .pckms ∨ c.units = some .amuse → fig.unit = some "(pc)") ∧
      (o = false → c.units = some .kpckms → fig.unit = some "(kpc)") ∧
      (o = false → c.units = some .nbody → fig.unit = some "(NBODY)") ∧
      (o = false → c.units = some .galpy → fig.unit = some "(GALPY)") := by
  obtain ⟨c1, c', h, hp, ho, hr, hu, -⟩ := starplot_shown p l hg k o dc
  have hunit : o = false → (if k = .xyz then starFigure2 dc c1 else starFigure1 k o dc c1).unit = some (axisUnit c1.units) := by
    intro h; rw [h]; split <;> simp [starFigure1, starFigure2]
  refine ⟨_, c', h, ?_, ?_, ?_, ?_, ?_⟩
  · intro t L ht hL
    have ht' : t = axisUnit c1.units := by
      by_cases hk : k = .xyz
      · rw [if_pos hk] at ht; exact (Option.some.inj ht).symm
      · rw [if_neg hk] at ht
        cases o
        · exact (Option.some.inj ht).symm
        · simp [starFigure1] at ht
    subst ht'
    obtain ⟨u, hu1⟩ : ∃ u, c1.units = some u := by
      obtain ⟨u, hu', -⟩ := l.units
      rw [hu]; split
      · exact ⟨_, rfl⟩
      · exact ⟨u, hu'⟩
    rw [← hr] at hL
    obtain ⟨s, hs, hl⟩ := axisUnit_length hu1 hL
    have hst : P.stars = c1.st.map s.ph := by
      have e := hp.trans hP
      unfold phys at e
      simp only [hu1, hs, Option.some.injEq] at e
      rw [← e]
    have key : ∀ j : StarCoords, inPc L (c1.st.map j.proj) = (c1.st.map s.ph).map j.proj := fun j =>
      inPc_proj j L s.ph _ (fun q => by simp [Scale.ph, hl])
    rw [hst]
    cases k <;> simp [starFigure1, starFigure2, panels, key] <;> simp [StarCoords.proj]
  all_goals intro h0 h1; rw [hunit h0, hu]
  · rcases h1 with h1 | h1 <;> simp [h1, axisUnit]
  all_goals simp [h1, axisUnit]

/-- C136 (the centre in the two-panel plot): the marks of the default star plot, in the unit on the axes, are the cluster's position and
its centre in the galaxy frame, its centre in the cluster frame, and nothing in the frame of the centre. -/
theorem C136_marks (g : Galpy) (c : Cluster) (P : Phys) (og : Origin) (o : Bool) (p : Pos g c) (l : Lin c) (hg : Good c)
    (hP : phys g c = some P) (hog : c.origin = some og) :
    ∃ fig c', starplot g .xyz o true c = .ok (fig, c') ∧
      ∀ t L, fig.unit = some t → axisLength g c.rbar t = some L → ∃ ms : List Ph, fig.marks.map (inPc L) = panels .xyz ms ∧
        (∀ m ∈ ms, galactocentric og P.centre P.gc m = some P.gc ∨ galactocentric og P.centre P.gc m = some (phAdd P.centre P.gc)) ∧
        ms.length = (match og with | .galaxy => 2 | .cluster => 1 | _ => 0) ∧
        (og ≠ .centre → ∃ m ∈ ms, galactocentric og P.centre P.gc m = some (phAdd P.centre P.gc)) := by
  obtain ⟨c1, c', h, hp, ho, hr, hu, -⟩ := starplot_shown p l hg .xyz o true
  refine ⟨_, c', h, ?_⟩
  intro t L ht hL
  rw [if_pos rfl] at ht ⊢
  have ht' : t = axisUnit c1.units := (Option.some.inj ht).symm
  subst ht'
  obtain ⟨u, hu1⟩ : ∃ u, c1.units = some u := by
    obtain ⟨u, hu', -⟩ := l.units
    rw [hu]; split
    · exact ⟨_, rfl⟩
    · exact ⟨u, hu'⟩
  rw [← hr] at hL
  obtain ⟨s, hs, hl⟩ := axisUnit_length hu1 hL
  have e := hp.trans hP
  unfold phys at e
  simp only [hu1, hs, Option.some.injEq] at e
  have hc : P.centre = s.ph c1.c := by rw [← e]
  have hgc : P.gc = s.ph c1.gc := by rw [← e]
  have key : ∀ j : StarCoords, inPc L ((starMarks true c1).map j.proj) = ((starMarks true c1).map s.ph).map j.proj := fun j =>
    inPc_proj j L s.ph _ (fun q => by simp [Scale.ph, hl])
  obtain ⟨og', hog', hol⟩ := l.origin
  rw [hog] at hog'; cases hog'
  refine ⟨(starMarks true c1).map s.ph, ?_, ?_⟩
  · simp [starFigure2, key, panels]; simp [StarCoords.proj]
  · rw [hc, hgc]
    have hadd : s.ph (c1.gc.add c1.c) = phAdd (s.ph c1.c) (s.ph c1.gc) := by
      ext <;> simp [Scale.ph, Ph.add, phAdd] <;> ring
    cases og <;> simp only [Origin.linear] at hol
    · simp [starMarks, ho, hog]
    · simp [starMarks, ho, hog, galactocentric]
    · simp [starMarks, ho, hog, galactocentric, hadd]

/-- C136 (star plots leave the cluster): the default star plot changes nothing, and neither does a one-panel plot outside `amuse` units. -/
theorem C136_starplot_restores (g : Galpy) (c : Cluster) (k : StarCoords) (o dc : Bool) (p : Pos g c) (l : Lin c) (hg : Good c)
    (hk : k = .xyz ∨ c.units ≠ some .amuse) :
    ∃ fig c', starplot g k o dc c = .ok (fig, c') ∧ c'.data = c.data := by
  obtain ⟨c1, c', h, -, -, -, -, hd, -⟩ := starplot_shown p l hg k o dc
  exact ⟨_, c', h, hd hk⟩

/-! ### C137 -/

/-- C137 is false of the code: a one-panel star plot of any cluster in `amuse` units leaves it in `pckms` units. -/
theorem C137_amuse_violated (g : Galpy) (c : Cluster) (k : StarCoords) (o dc : Bool) (p : Pos g c) (l : Lin c) (hg : Good c)
    (hu : c.units = some .amuse) (hk : k ≠ .xyz) :
    ∃ fig c', starplot g k o dc c = .ok (fig, c') ∧ c'.units = some .pckms := by
  obtain ⟨c1, c', h, -, -, -, hu1, -, h1⟩ := starplot_shown p l hg k o dc
  refine ⟨_, c', h, ?_⟩
  rw [h1 hk, hu1, if_pos hu]

/-- C137 is false of the code: a one-panel star plot in the cluster frame marks as "COM" the cluster's galactocentric coordinates, which
is not where the cluster's position is in that frame. -/
theorem C137_mark_violated (g : Galpy) (c : Cluster) (P : Phys) (k : StarCoords) (hP : phys g c = some P)
    (hu : c.units = some .pckms) (ho : c.origin = some .cluster) (hk : k ≠ .xyz) (hgc : k.proj c.gc ≠ (0, 0)) :
    ∃ fig c' m, starplot g k false true c = .ok (fig, c') ∧ fig.unit = some "(pc)" ∧ fig.marks = [[m]] ∧ m = k.proj P.gc ∧
      ∀ og q, c.origin = some og → galactocentric og P.centre P.gc q = some P.gc → k.proj q ≠ m := by
  refine ⟨starFigure1 k false true c, c, k.proj c.gc, ?_, ?_, ?_, ?_, ?_⟩
  · unfold starplot
    simp only [hu, hk, bind, Except.bind, if_false]
    rfl
  · simp [starFigure1, axisUnit, hu]
  · simp [starFigure1]
  · unfold phys at hP
    simp only [hu, unitScale, Option.some.injEq] at hP
    rw [← hP]
    simp [Scale.ph]
  · intro og q hog hq
    rw [ho] at hog
    cases hog
    simp only [galactocentric, Option.some.injEq] at hq
    have hx := congrArg Ph.x hq
    have hy := congrArg Ph.y hq
    have hz := congrArg Ph.z hq
    simp only [phAdd, add_eq_right] at hx hy hz
    have : k.proj q = (0, 0) := by cases k <;> simp [StarCoords.proj, hx, hy, hz]
    rw [this]
    exact hgc.symm

/-- C137 is false of the code: a plot of proper motions marks the cluster at its right ascension and declination, in the axes of the
proper motions. -/
theorem C137_pm_mark_violated (g : Galpy) (S : Truth) (c : Cluster) (p : Pos g c) (l : Lin c) (hg : Good c)
    (hd : DescribesLinear g S c) (hc : CachesOf g S c)
    (hne : ((g.toSky (kpcRow S.gc)).x, (g.toSky (kpcRow S.gc)).y) ≠ ((g.toSky (kpcRow S.gc)).vx, (g.toSky (kpcRow S.gc)).vy)) :
    ∃ fig c' m, skyplot g .pm false true c = .ok (fig, c') ∧ fig.marks = [[m]] ∧
      m = ((g.toSky (kpcRow S.gc)).x, (g.toSky (kpcRow S.gc)).y) ∧ m ≠ ((g.toSky (kpcRow S.gc)).vx, (g.toSky (kpcRow S.gc)).vy) := by
  obtain ⟨fig, c', h', -, -, -, -, hm⟩ := skyplot_inv (.inl ⟨p, l, hg, hd, hc⟩) .pm false true
  exact ⟨fig, c', _, h', by simpa using hm, rfl, hne⟩

/-- C137 is false of the code: a sky plot moves the stored centre of a cluster without `xcn`: afterwards it is the centre plus the
cluster's galactocentric position. -/
theorem C137_centre_violated (g : Galpy) (S : Truth) (c : Cluster) (W : World) (k : SkyCoords) (o dc : Bool) (p : Pos g c) (l : Lin c) (hg : Good c)
    (hd : DescribesLinear g S c) (hc : CachesOf g S c) (hinv : ∀ q, g.ofSky (g.toSky q) = q) (hx : c.xcn = none) (hW : world g c = some W) :
    ∃ fig c' W', skyplot g k o dc c = .ok (fig, c') ∧ c'.units = c.units ∧ c'.origin = c.origin ∧ world g c' = some W' ∧
      W'.centre = phAdd W.gc W.centre := by
  have i : LinInv g S c := ⟨p, l, hg, hd, hc⟩
  obtain ⟨c1, h1, i1, -, e1, x1⟩ := toRadec_lin i false none true
  obtain ⟨e1, e2⟩ := e1 W hW
  obtain ⟨c2, h2, i2, u2, o2, d, hd2, hw⟩ := returnCluster_inv i i1 false none
  obtain ⟨d', hd', id', ud, od, ce⟩ := fromRadec_sky i1
  have : d' = d := Except.ok.inj (hd'.symm.trans hd2)
  subst this
  have hx1 : c1.xcn = none := x1.trans hx
  have hc3 : d'.c = kpcRow (phAdd W.gc W.centre) := by
    rw [ce]
    unfold fromRadecCentre
    rw [hx1]
    simp only [Galpy.orbitOfSky]
    rw [e2, e1, hinv]
  obtain ⟨W', hW', -⟩ := id'.desc
  refine ⟨skyFigure k o dc c1, c2, W', ?_, u2, o2, hw.trans hW', ?_⟩
  · unfold skyplot
    simp only [bind, h1, Except.bind, h2]
    rfl
  · unfold world phys at hW'
    rw [ud, od] at hW'
    simp only [unitScale, Option.some.injEq] at hW'
    subst hW'
    simp only [hc3, Scale.kpc_ph]

/-! ### concrete cases -/

/-- What the demo cluster describes. -/
def demoTruth : Truth :=
  ⟨12, [1, 3], [⟨8003, 0, 24, 1, 220, 0⟩, ⟨8000, 1, 20, 0, 218, 5⟩], ⟨8000, 0, 20, 0, 220, 0⟩, (4, 2, 0.1, 20)⟩

theorem demo_describes : DescribesLinear demoG demoTruth demo := by
  unfold DescribesLinear world phys
  simp only [demo, unitScale, demoTruth]
  refine ⟨_, rfl, ?_, ?_, ?_, ?_, by simp⟩ <;>
    norm_num [galRows, galactocentric, phAdd, Scale.ph]

theorem demo_caches : CachesOf demoG demoTruth demo := ⟨fun _ h => by simp [demo] at h, fun _ h => by simp [demo] at h⟩

example : ∃ figs c1 fig c2,
    pcalls demoG [.star .xyz false true, .sky .pm false true, .call (.op .toNbody), .star .xy true false, .call (.toRadec true none true)] demo = .ok (figs, c1) ∧
    pcalls demoG ([.star .xyz false true, .sky .pm false true, .call (.op .toNbody), .star .xy true false, .call (.toRadec true none true)] ++
      [.sky .radec false false]) demo = .ok (figs ++ [fig], c2) ∧ fig.stars = [[(8.003, 0), (8, 0.001)]] := by
  obtain ⟨figs, c1, fig, c2, h1, h2, h3, -⟩ := C136_skyplot demoG demoTruth demo
    [.star .xyz false true, .sky .pm false true, .call (.op .toNbody), .star .xy true false, .call (.toRadec true none true)] .radec false false
    demo_pos demo_lin demo_good demo_describes demo_caches
  refine ⟨figs, c1, fig, c2, h1, h2, ?_⟩
  rw [h3]
  norm_num [demoTruth, demoG, kpcRow]

example : ∃ fig c' m, starplot demoG .xz false true demo = .ok (fig, c') ∧ fig.marks = [[m]] ∧ m = (8000, 20) := by
  obtain ⟨fig, c', m, h1, -, h2, h3, -⟩ := C137_mark_violated demoG demo _ .xz rfl rfl rfl (by decide)
    (by norm_num [StarCoords.proj, demo])
  refine ⟨fig, c', m, h1, h2, ?_⟩
  rw [h3]
  norm_num [StarCoords.proj, Scale.ph, demo]

example : ∃ fig c' m, skyplot demoG .pm false true demo = .ok (fig, c') ∧ fig.marks = [[m]] ∧ m = (8, 0) := by
  obtain ⟨fig, c', m, h1, h2, h3, -⟩ := C137_pm_mark_violated demoG demoTruth demo demo_pos demo_lin demo_good demo_describes demo_caches
    (by norm_num [demoG, demoTruth, kpcRow])
  exact ⟨fig, c', m, h1, h2, by rw [h3]; norm_num [demoG, demoTruth, kpcRow]⟩

end

end CT
