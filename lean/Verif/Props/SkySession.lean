/- C175: sessions of conversions and questions across the sky. -/
import Verif.Lemmas.SkySessionQ
import Verif.Spec.SkySession
import Verif.Props.Sky
import Verif.Props.SkyAnalysis
import Verif.Props.Session

namespace CT

noncomputable section

variable {g : Galpy} {S : Truth} {c : Cluster}

theorem orbitalPathMatchSky_sback {flow : ℝ → Ph → Ph} {a : MatchArgs} (d : SRel g S c) :
    Ok (orbitalPathMatchSky g flow a c) (fun x => SBack g S c x.2) := by
  have h0 := d
  unfold orbitalPathMatchSky
  refine Ok.bind (SRel.toRadec (by srel)) (fun c1 h1 => ?_)
  have hm : Ok (matchPathSky g flow a c1) (fun x => SRel g S x.2) := by
    unfold matchPathSky
    cases a.path with
    | none => exact SRel.call h1 orbitalPathSky_sback
    | some p => exact Ok.ok h1
  refine Ok.bind hm (fun _ _ => ?_)
  sok_steps

theorem tailPathSky_sback {flow : ℝ → Ph → Ph} {sky : Ph → Ph} {a : TailArgs} (d : SRel g S c) :
    Ok (tailPathSky g flow sky a c) (fun x => SBack g S c x.2) := by
  have h0 := d
  unfold tailPathSky
  refine Ok.bind (SRel.toGalaxy (by srel)) (fun _ _ => ?_)
  refine Ok.bind (SRel.toKpckms (by srel)) (fun _ _ => ?_)
  refine Ok.bind (SRel.call (by srel) orbitalPathSky_sback) (fun _ _ => ?_)
  refine Ok.bind Ok.any (fun _ _ => ?_)
  refine Ok.bind (SRel.call (by srel) orbitalPathMatchSky_sback) (fun _ _ => ?_)
  sok_steps

theorem tailPathMatchSky_sback {flow : ℝ → Ph → Ph} {sky : Ph → Ph} {a : TailArgs} {path : Option (List PathPt)} (d : SRel g S c) :
    Ok (tailPathMatchSky g flow sky a path c) (fun x => SBack g S c x.2) := by
  unfold tailPathMatchSky
  have h : Ok (path.elim (tailPathSky g flow sky { a with toPath := false, doFull := false, projected := false } c) (fun p => .ok (p, c)))
      (fun x => SBack g S c x.2) := by
    cases path with
    | none => exact tailPathSky_sback d
    | some p => exact Ok.ok ⟨d, rfl, rfl⟩
  refine Ok.bind h (fun x hx => ?_)
  exact (orbitalPathMatchSky_sback hx.1).mono (fun _ b => ⟨b.1, b.2.1.trans hx.2.1, b.2.2.trans hx.2.2⟩)

theorem bracket_sback {ks : List Call} {s : Bool} {cm : Option CentreMethod} (d : SRel g S c) :
    Ok ((calls g ks c).bind (returnCluster g (saveCluster c) s cm)) (SBack g S c) := by
  intro c' e
  obtain ⟨c2, h2, i2⟩ := calls_inv ks d.1
  rw [h2] at e
  have e : returnCluster g (saveCluster c) s cm c2 = .ok c' := e
  have f := returnCluster_fresh e
  rcases d.1 with i | i
  · obtain ⟨x, e', k, u, o⟩ := return_lin i i2 s cm
    rw [e] at e'; cases e'
    exact ⟨⟨.inl k, f⟩, u, o⟩
  · obtain ⟨x, e', k, o, -⟩ := return_sky i i2 s cm
    rw [e] at e'; cases e'
    exact ⟨⟨.inr k, f⟩, k.state.units.trans i.state.units.symm, o⟩

/-- Whatever the question, the cluster comes back. -/
theorem ask_sback {q : SkyQuery} (hq : q.Observing) (d : SRel g S c) : Ok (q.exec g c) (SBack g S c) := by
  cases q with
  | matchSky flow a => exact Ok.map (orbitalPathMatchSky_sback d)
  | tailSky flow sky a => exact Ok.map (tailPathSky_sback d)
  | tailMatchSky flow sky a path => exact Ok.map (tailPathMatchSky_sback d)
  | bracket ks s cm => exact bracket_sback d
  | plain q =>
    cases q <;> first | exact absurd hq id | (unfold SkyQuery.exec Query.exec; refine Ok.map ?_)
    · exact coordsOf_sback d
    · exact coordsOf_sback d
    · exact rlagrange_sback d
    · exact rlagrangeFrac_sback d
    · exact relaxationTime_sback d
    · exact halfMassRelaxationTime_sback d
    · exact virialInverse_sback d
    · exact virialCrit_sback d
    · exact energies_sback d
    · exact energiesIds_sback d
    · exact massFunction_sback d
    · exact etaFunction_sback d
    · exact meqFunction_sback d
    · exact ckin_sback d
    · exact mProf_sback d
    · exact rhoProf_sback d
    · exact velProf_sback d
    · exact betaProf_sback d
    · exact vcircProf_sback d
    · exact alphaProf_sback d
    · exact etaProf_sback d
    · exact rtidal_sback d
    · exact rlimiting_sback d
    · exact initializeOrbit_sback d
    · exact initializeOrbits_sback d
    · exact interpolateOrbit_sback d
    · exact interpolateOrbits_sback d
    · exact orbitalPath_sback d
    · exact orbitalPathSky_sback d
    · exact orbitalPathMatch_sback d
    · exact toTail_sback d
    · exact tailPath_sback d
    · exact tailPathMatch_sback d
    · exact findCentre_sback hq d
    · exact gyrout_sback d

/-- Two clusters with the same linear labels that describe the same stars: masses, position, time, whatever the origin. -/
theorem view_lin {c' : Cluster} (h : LinInv g S c) (h' : LinInv g S c') (hu : c'.units = c.units) (ho : c'.origin = c.origin) :
    c'.m = c.m ∧ c'.gc = c.gc ∧ c'.tphys = c.tphys := by
  obtain ⟨u, hu1, hul⟩ := h.lin.units
  obtain ⟨o, ho1, -⟩ := h.lin.origin
  obtain ⟨W, hw, k1, k2, -, k4, k5⟩ := h.desc
  obtain ⟨W', hw', k1', k2', -, k4', k5'⟩ := h'.desc
  have hsc : unitScale g c' u = unitScale g c u := by
    have := k5'.trans k5.symm
    simp only [Prod.mk.injEq] at this
    obtain ⟨a1, a2, a3, a4⟩ := this
    unfold unitScale; rw [a1, a2, a3, a4]
  obtain ⟨s, hs⟩ : ∃ s, unitScale g c u = some s := by
    cases u <;> simp_all [Units.linear, unitScale]
  obtain ⟨n1, n2, n3, n4⟩ := unitScale_nz h.pos.nz hs
  have hs' := hsc.trans hs
  unfold world phys at hw hw'
  rw [hu1, ho1] at hw
  rw [hu, ho, hu1, ho1] at hw'
  simp only [hs, Option.some.injEq] at hw
  simp only [hs', Option.some.injEq] at hw'
  subst hw; subst hw'
  refine ⟨?_, Scale.ph_inj n1 n2 (k4'.trans k4.symm), mul_right_cancel₀ n4 (k1'.trans k1.symm)⟩
  refine List.map_injective_iff.mpr ?_ (k2'.trans k2.symm)
  intro a b h; exact mul_right_cancel₀ n3 h

/-- Two states with the same labels show the same cluster. -/
theorem Inv.view {c' : Cluster} (h : Inv g S c) (h' : Inv g S c') (hu : c'.units = c.units) (ho : c'.origin = c.origin) : SameView c c' := by
  rcases h with i | i
  · obtain ⟨u, hu1, hul⟩ := i.lin.units
    have hr : u ≠ .radec := by rintro rfl; exact hul
    have i' : LinInv g S c' := by
      rcases h' with k | k
      · exact k
      · have := k.state.units
        rw [hu, hu1] at this
        exact absurd (Option.some.inj this) hr
    obtain ⟨a1, a2, a3⟩ := view_lin i i' hu ho
    obtain ⟨W, -, -, -, -, -, n⟩ := i.desc
    obtain ⟨W', -, -, -, -, -, n'⟩ := i'.desc
    refine ⟨hu, ho, a1, a2, a3, n'.trans n.symm, fun k => ?_, fun k => ?_⟩
    · rw [hu1] at k; exact absurd (Option.some.inj k) hr
    · obtain ⟨o, ho1, hol⟩ := i.lin.origin
      rcases k with k | ⟨-, k⟩
      · rw [ho1] at k; cases k; exact absurd hol id
      · refine (describes_same i.pos i.lin i.desc i'.desc hu ho ?_).1
        rw [ho1] at k ⊢
        cases o <;> simp_all [Origin.linear]
  · have i' : SkyInv g S c' := by
      rcases h' with k | k
      · obtain ⟨u, hu1, hul⟩ := k.lin.units
        rw [hu, i.state.units] at hu1
        cases hu1; exact absurd hul id
      · exact k
    have q := i.same i' ho
    exact ⟨hu, ho, q.m, q.gc, q.tphys, q.nbody, fun _ => q.sky, fun k => by
      rcases k with k | ⟨k, -⟩
      · exact q.st k
      · exact absurd i.state.units k⟩

/-! ### radii belong to the rows after every analysed conversion -/

theorem toPcmyr_fresh' {c' : Cluster} (h : Inv g S c) (f : Fresh c) (e : toPcmyr g true c = .ok c') : Fresh c' := by
  rcases h with i | i
  · obtain ⟨u, hu, hul⟩ := i.lin.units
    exact toPcmyr_fresh hu hul f e
  · obtain ⟨c1, h1, -, u1⟩ := units_inv (.inr i) (.toPckms false) rfl trivial
    have h1 : toPckms g false c = .ok c1 := h1
    simp only [toPcmyr, i.state.units, bind, h1, Except.bind, u1] at e
    simp only [ne_eq, reduceCtorEq, not_false_eq_true, and_self, if_true, h1, u1, Option.some.injEq] at e
    exact analyzeIf_fresh e

theorem toKpcgyr_fresh' {c' : Cluster} (h : Inv g S c) (f : Fresh c) (e : toKpcgyr g true c = .ok c') : Fresh c' := by
  rcases h with i | i
  · obtain ⟨u, hu, hul⟩ := i.lin.units
    exact toKpcgyr_fresh hu hul f e
  · obtain ⟨c1, h1, -, u1⟩ := units_inv (.inr i) (.toKpckms false) rfl trivial
    have h1 : toKpckms g false c = .ok c1 := h1
    simp only [toKpcgyr, i.state.units, bind, h1, Except.bind, u1] at e
    simp only [ne_eq, reduceCtorEq, not_false_eq_true, and_self, if_true, h1, u1, Option.some.injEq] at e
    exact analyzeIf_fresh e

theorem toWD_fresh' {c' : Cluster} (h : Inv g S c) (f : Fresh c) (e : toWD g c = .ok c') : Fresh c' := by
  rcases h with i | i
  · obtain ⟨u, hu, hul⟩ := i.lin.units
    exact toWD_fresh hu hul f e
  · obtain ⟨c1, h1, -, u1⟩ := units_inv (.inr i) (.toKpckms false) rfl trivial
    have h1 : toKpckms g false c = .ok c1 := h1
    simp only [toWD, i.state.units, bind, h1, Except.bind, u1] at e
    simp only [ne_eq, reduceCtorEq, not_false_eq_true, and_self, if_true, h1, u1, Option.some.injEq] at e
    exact analyze_fresh e

theorem toUnits_fresh' {t : Units} {c' : Cluster} (h : Inv g S c) (f : Fresh c) (e : toUnits g t c = .ok c') : Fresh c' := by
  have hu : ∃ u, c.units = some u := by
    rcases h with i | i
    · obtain ⟨u, hu, -⟩ := i.lin.units; exact ⟨u, hu⟩
    · exact ⟨_, i.state.units⟩
  obtain ⟨u, hu⟩ := hu
  unfold toUnits toUnitsNR at e
  simp only [hu] at e
  cases t <;> simp only [reduceCtorEq, if_false, if_true] at e
  · exact toNbody_fresh f e
  · exact toPckms_fresh f e
  · exact toPcmyr_fresh' h f e
  · exact toKpckms_fresh f e
  · exact toKpcgyr_fresh' h f e
  · exact toGalpy_fresh f e
  · exact toWD_fresh' h f e
  · exact toRadec_fresh f e
  · exact toAmuse_fresh f e
  · cases e; exact f

theorem SRel.convert {k : Call} (d : SRel g S c) (hk : k.analysed) : Ok (k.exec g c) (SRel g S) := by
  refine d.ofCall k fun c' e => ?_
  obtain ⟨h, f⟩ := d
  cases k with
  | toRadec s cm a =>
    have ha : a = true := hk
    subst ha
    exact toRadec_fresh f e
  | toSky s cm => exact toSky_fresh f e
  | op o =>
    have hk : o.analysed := hk
    have e : o.exec g c = .ok c' := e
    cases o <;> simp only [Op.analysed] at hk <;> try subst hk
    · exact toPckms_fresh f e
    · exact toKpckms_fresh f e
    · exact toPcmyr_fresh' h f e
    · exact toKpcgyr_fresh' h f e
    · exact toNbody_fresh f e
    · exact toGalpy_fresh f e
    · exact toWD_fresh' h f e
    · exact toAmuse_fresh f e
    · exact toUnits_fresh' h f e
    · exact toCentre_fresh f e
    · exact toCluster_fresh f e
    · exact toGalaxy_fresh f e
    · exact toOrigin_fresh f e
    · exact analyze_fresh e
    · cases e; exact fresh_audays f
    · cases e; exact fresh_sudays f

/-- After any session. -/
theorem session_srel (l : List SkyCall) : ∀ {c c' : Cluster}, (∀ a ∈ l, a.Admissible) → SRel g S c → skySession g l c = .ok c' → SRel g S c' := by
  induction l with
  | nil => intro c c' _ d h; cases h; exact d
  | cons a l ih =>
    intro c c' hl d h
    obtain ⟨c1, h1, h2⟩ := bind_ok h
    refine ih (fun b hb => hl b (by simp [hb])) ?_ h2
    have ha := hl a (by simp)
    cases a with
    | convert k => exact d.convert ha _ h1
    | ask q => exact (ask_sback ha d _ h1).1

/-! ### the labels depend on the conversions only -/

theorem toRadec_labels (h : Inv g S c) (s : Bool) (cm : Option CentreMethod) (a : Bool) :
    ∃ c', toRadec g s cm a c = .ok c' ∧ Inv g S c' ∧ (c'.units, c'.origin) = labelsAt (c.units, c.origin) .radec := by
  rcases h with h | h
  · obtain ⟨c', h', i, o, -⟩ := toRadec_lin h s cm a
    refine ⟨c', h', .inr i, ?_⟩
    have hr : c.units ≠ some .radec := by
      obtain ⟨u, hu, hul⟩ := h.lin.units
      rw [hu]; rintro k; cases k; exact hul
    simp [labelsAt, hr, i.state.units, o]
  · exact ⟨c, by simp [toRadec, h.state.units], .inr h, by simp [labelsAt, h.state.units]⟩

theorem toGalaxy_labels (h : Inv g S c) (s : Bool) :
    ∃ c', toGalaxy g s c = .ok c' ∧ Inv g S c' ∧ (c'.units, c'.origin) = labelsAt (c.units, c.origin) .galaxy := by
  obtain ⟨c', h', i, o, u⟩ := toGalaxy_inv h s
  refine ⟨c', h', .inl i, ?_⟩
  by_cases hr : c.units = some .radec
  · simp [labelsAt, hr, u hr, o]
  · rcases h with h | h
    · obtain ⟨c1, h1, -, st⟩ := Inv.linop (op := .toGalaxy s) h ⟨fun _ h => (nomatch h), fun _ h => by cases h; trivial⟩
      have h1 : toGalaxy g s c = .ok c1 := h1
      rw [h'] at h1; cases h1
      simp [labelsAt, hr, o, st.units, Op.unitTarget]
    · exact absurd h.state.units hr

theorem toOrigin_labels (h : Inv g S c) (t : OriginTarget) (s : Bool) (cm : Option CentreMethod) :
    ∃ c', toOrigin g t s cm c = .ok c' ∧ Inv g S c' ∧ (c'.units, c'.origin) = labelsAt (c.units, c.origin) t := by
  obtain ⟨o, ho⟩ : ∃ o', c.origin = some o' := by
    rcases h with h | h
    · obtain ⟨o, ho, -⟩ := h.lin.origin; exact ⟨o, ho⟩
    · rcases h.state.origin with k | k | k <;> exact ⟨_, k⟩
  have fin : ∀ {x : Except Err Cluster} {c1 : Cluster} {y : Option Units × Option Origin}, x = .ok c1 → Inv g S c1 → (c1.units, c1.origin) = y →
      ∃ c', (x.bind fun c => analyze s c) = .ok c' ∧ Inv g S c' ∧ (c'.units, c'.origin) = y := by
    intro x c1 y hx i1 hy
    obtain ⟨c', h', i', u', o'⟩ := i1.analyzed s true
    exact ⟨c', by rw [hx]; exact h', i', by rw [u', o', hy]⟩
  simp only [toOrigin, ho, bind]
  cases t
  · obtain ⟨c1, h1, i1, u1, o1⟩ := toCentre_inv h s cm; exact fin h1 i1 (by rw [u1, o1]; rfl)
  · obtain ⟨c1, h1, i1, u1, o1⟩ := toCluster_inv h s cm; exact fin h1 i1 (by rw [u1, o1]; rfl)
  · obtain ⟨c1, h1, i1, l1⟩ := toGalaxy_labels h s; exact fin h1 i1 l1
  · obtain ⟨c1, h1, i1, o1⟩ := toSky_inv h s cm; exact fin h1 (.inr i1) (by rw [i1.state.units, o1]; rfl)
  · obtain ⟨c1, h1, i1, l1⟩ := toRadec_labels h s cm true; exact fin h1 i1 (by rw [l1, ho])
  · exact fin rfl h (by rw [ho]; rfl)

theorem units_labels (h : Inv g S c) (op : Op) {t : Units} (ht : op.unitTarget = some t) (htl : t.linear) {c' : Cluster} (e : op.exec g c = .ok c') :
    (c'.units, c'.origin) = (some t, if c.units = some .radec then some .galaxy else c.origin) := by
  have hot : op.originTarget = none := by cases op <;> simp_all [Op.unitTarget, Op.originTarget]
  have hl : op.linear := ⟨fun u hu => by rw [ht] at hu; cases hu; exact htl, fun o ho => by rw [hot] at ho; cases ho⟩
  rcases h with h | h
  · have hr : c.units ≠ some .radec := by
      obtain ⟨u, hu, hul⟩ := h.lin.units
      rw [hu]; rintro k; cases k; exact hul
    obtain ⟨x, hx, -, st⟩ := Inv.linop h hl
    rw [e] at hx; cases hx
    simp [st.units, st.origin, ht, hot, hr]
  · obtain ⟨c1, h1, i1, u1, o1, -⟩ := fromRadec_sky h
    obtain ⟨x, hx, -, st⟩ := Inv.linop i1 hl
    rw [← exec_sky_units h.state.units h1 u1 op ht htl, e] at hx; cases hx
    simp [st.units, st.origin, ht, hot, o1, h.state.units]

theorem call_labels (h : Inv g S c) (k : Call) {c' : Cluster} (e : k.exec g c = .ok c') : (c'.units, c'.origin) = k.labels (c.units, c.origin) := by
  have U : ∀ (op : Op) (t : Units), op.unitTarget = some t → t.linear → op.exec g c = .ok c' →
      (c'.units, c'.origin) = labelsIn (c.units, c.origin) t := by
    intro op t ht htl e
    rw [units_labels h op ht htl e]
    cases t <;> first | rfl | exact absurd htl id
  have det : ∀ {x : Except Err Cluster} {y : Option Units × Option Origin}, x = .ok c' → (∃ d, x = .ok d ∧ Inv g S d ∧ (d.units, d.origin) = y) →
      (c'.units, c'.origin) = y := by
    rintro x y hx ⟨d, hd, -, k⟩
    rw [hx] at hd; cases hd; exact k
  cases k with
  | toRadec s cm a => exact det e (toRadec_labels h s cm a)
  | toSky s cm =>
    obtain ⟨x, hx, i, o⟩ := toSky_inv h s cm
    exact det e ⟨x, hx, .inr i, by rw [i.state.units, o]; rfl⟩
  | op o =>
    have e : o.exec g c = .ok c' := e
    cases o with
    | toPckms a => exact U (.toPckms a) .pckms rfl trivial e
    | toKpckms a => exact U (.toKpckms a) .kpckms rfl trivial e
    | toPcmyr a => exact U (.toPcmyr a) .pcmyr rfl trivial e
    | toKpcgyr a => exact U (.toKpcgyr a) .kpcgyr rfl trivial e
    | toNbody => exact U (.toNbody) .nbody rfl trivial e
    | toGalpy => exact U (.toGalpy) .galpy rfl trivial e
    | toWDunits => exact U (.toWDunits) .WDunits rfl trivial e
    | toAmuse a => exact U (.toAmuse a) .amuse rfl trivial e
    | toUnits t =>
      obtain ⟨u, hu⟩ : ∃ u, c.units = some u := by
        rcases h with h | h
        · obtain ⟨u, hu, -⟩ := h.lin.units; exact ⟨u, hu⟩
        · exact ⟨_, h.state.units⟩
      by_cases htl : t.linear
      · exact U (.toUnits t) t rfl htl e
      · cases t <;> simp only [Units.linear, not_true_eq_false] at htl
        · exact det (by simpa [Op.exec, toUnits, hu] using e) (toRadec_labels h false none true)
        · simp only [Op.exec, toUnits, toUnitsNR, hu, reduceCtorEq, if_false] at e
          cases e; rfl
    | toCentre s cm => obtain ⟨x, hx, i, u, o⟩ := toCentre_inv h s cm; exact det e ⟨x, hx, i, by rw [u, o]; rfl⟩
    | toCluster s cm => obtain ⟨x, hx, i, u, o⟩ := toCluster_inv h s cm; exact det e ⟨x, hx, i, by rw [u, o]; rfl⟩
    | toGalaxy s => exact det e (toGalaxy_labels h s)
    | toOrigin t s cm => exact det e (toOrigin_labels h t.target s cm)
    | analyze s p => obtain ⟨x, hx, i, u, o⟩ := h.analyzed s p; exact det e ⟨x, hx, i, by rw [u, o]; rfl⟩
    | toAudays =>
      cases e
      obtain ⟨a, -⟩ := audays_core c
      exact Prod.ext (congrArg Data.units a :) (congrArg Data.origin a :)
    | toSudays =>
      cases e
      obtain ⟨a, -⟩ := sudays_core c
      exact Prod.ext (congrArg Data.units a :) (congrArg Data.origin a :)

theorem session_labels (l : List SkyCall) : ∀ {c c' : Cluster}, (∀ a ∈ l, a.Admissible) → SRel g S c → skySession g l c = .ok c' →
    (c'.units, c'.origin) = (skyConversions l).foldl (fun x k => k.labels x) (c.units, c.origin) := by
  induction l with
  | nil => intro c c' _ d h; cases h; rfl
  | cons a l ih =>
    intro c c' hl d h
    obtain ⟨c1, h1, h2⟩ := bind_ok h
    have ha := hl a (by simp)
    cases a with
    | convert k =>
      rw [ih (fun b hb => hl b (by simp [hb])) (d.convert ha _ h1) h2, call_labels d.1 k h1]
      rfl
    | ask q =>
      obtain ⟨r, u, o⟩ := ask_sback ha d _ h1
      rw [ih (fun b hb => hl b (by simp [hb])) r h2, u, o]
      rfl

/-! ### C175 -/

/-- **C175 (the stars).**  After any session the cluster describes the same stars, on the sky or in linear units as its label says, and its radii and
totals belong to the rows it shows. -/
theorem C175_session {c c' : Cluster} {l : List SkyCall} (p : Pos g c) (hl : Lin c) (hg : Good c) (hd : DescribesLinear g S c) (hc : CachesOf g S c)
    (hf : Fresh c) (ha : ∀ a ∈ l, a.Admissible) (h : skySession g l c = .ok c') :
    (c'.units = some .radec → DescribesSky g S c') ∧ (c'.units ≠ some .radec → DescribesLinear g S c') ∧ Fresh c' := by
  obtain ⟨i, f⟩ := session_srel l ha ⟨.inl ⟨p, hl, hg, hd, hc⟩, hf⟩ h
  rcases i with i | i
  · obtain ⟨u, hu, hul⟩ := i.lin.units
    exact ⟨fun k => by rw [hu] at k; cases k; exact absurd hul id, fun _ => i.desc, f⟩
  · exact ⟨fun _ => i.desc, fun k => absurd i.state.units k, f⟩

/-- **C175 (the labels).**  Units and origin after a session are those its conversions ask for; questions leave no trace in them. -/
theorem C175_labels {c c' : Cluster} {l : List SkyCall} (p : Pos g c) (hl : Lin c) (hg : Good c) (hd : DescribesLinear g S c) (hc : CachesOf g S c)
    (hf : Fresh c) (ha : ∀ a ∈ l, a.Admissible) (h : skySession g l c = .ok c') :
    (c'.units, c'.origin) = (skyConversions l).foldl (fun x k => k.labels x) (c.units, c.origin) :=
  session_labels l ha ⟨.inl ⟨p, hl, hg, hd, hc⟩, hf⟩ h

/-- **C175 (one question).**  After any session, a question that does not raise gives the cluster back: same units and origin, same rows on the sky, and
in linear units the same rows from the Galactic centre or the cluster's position. -/
theorem C175_question {c0 c c' : Cluster} {l : List SkyCall} {q : SkyQuery} (p : Pos g c0) (hl : Lin c0) (hg : Good c0)
    (hd : DescribesLinear g S c0) (hc : CachesOf g S c0) (hf : Fresh c0) (ha : ∀ a ∈ l, a.Admissible) (h0 : skySession g l c0 = .ok c)
    (hq : q.Observing) (h : q.exec g c = .ok c') : SameView c c' ∧ Fresh c' := by
  have d := session_srel l ha ⟨.inl ⟨p, hl, hg, hd, hc⟩, hf⟩ h0
  obtain ⟨r, u, o⟩ := ask_sback hq d _ h
  exact ⟨d.1.view r.1 u o, r.2⟩

/-- **C175 (save and return).**  After any session, `save_cluster`, any conversions and `return_cluster` do not raise, and give the view back. -/
theorem C175_save_return {c0 c : Cluster} {l : List SkyCall} (ks : List Call) (s : Bool) (cm : Option CentreMethod) (p : Pos g c0) (hl : Lin c0)
    (hg : Good c0) (hd : DescribesLinear g S c0) (hc : CachesOf g S c0) (hf : Fresh c0) (ha : ∀ a ∈ l, a.Admissible)
    (h0 : skySession g l c0 = .ok c) :
    ∃ c2 c', calls g ks c = .ok c2 ∧ returnCluster g (saveCluster c) s cm c2 = .ok c' ∧ SameView c c' := by
  have d := session_srel l ha ⟨.inl ⟨p, hl, hg, hd, hc⟩, hf⟩ h0
  obtain ⟨c2, h2, i2⟩ := calls_inv ks d.1
  obtain ⟨c', h'⟩ : ∃ c', returnCluster g (saveCluster c) s cm c2 = .ok c' := by
    rcases d.1 with i | i
    · obtain ⟨x, e, -⟩ := return_lin i i2 s cm; exact ⟨x, e⟩
    · obtain ⟨x, e, -⟩ := return_sky i i2 s cm; exact ⟨x, e⟩
  obtain ⟨r, u, o⟩ := bracket_sback (s := s) (cm := cm) (ks := ks) d c' (by rw [h2]; exact h')
  exact ⟨c2, c', h2, h', d.1.view r.1 u o⟩

/-- **C175 (interleaving).**  Two sessions with the same conversions in the same order, whatever was asked in between, end in the same view. -/
theorem C175_same_conversions {c c1 c2 : Cluster} {l1 l2 : List SkyCall} (p : Pos g c) (hl : Lin c) (hg : Good c) (hd : DescribesLinear g S c)
    (hc : CachesOf g S c) (hf : Fresh c) (a1 : ∀ a ∈ l1, a.Admissible) (a2 : ∀ a ∈ l2, a.Admissible) (he : skyConversions l1 = skyConversions l2)
    (h1 : skySession g l1 c = .ok c1) (h2 : skySession g l2 c = .ok c2) : SameView c1 c2 := by
  have d : SRel g S c := ⟨.inl ⟨p, hl, hg, hd, hc⟩, hf⟩
  have k1 := session_labels l1 a1 d h1
  have k2 := session_labels l2 a2 d h2
  rw [← he, ← k1] at k2
  exact (session_srel l1 a1 d h1).1.view (session_srel l2 a2 d h2).1 (congrArg Prod.fst k2) (congrArg Prod.snd k2)

/-- **C175 (round trip).**  A session that ends in the units and origin it started in shows what it showed at the start. -/
theorem C175_round_trip {c c' : Cluster} {l : List SkyCall} (p : Pos g c) (hl : Lin c) (hg : Good c) (hd : DescribesLinear g S c)
    (hc : CachesOf g S c) (hf : Fresh c) (ha : ∀ a ∈ l, a.Admissible) (h : skySession g l c = .ok c') (hu : c'.units = c.units)
    (ho : c'.origin = c.origin) : SameView c c' :=
  have d : SRel g S c := ⟨.inl ⟨p, hl, hg, hd, hc⟩, hf⟩
  d.1.view (session_srel l ha d h).1 hu ho

/-! ### a concrete session -/

theorem demoSkyKpc_fresh : ∃ c, analyze true demoSkyKpc = .ok c ∧ LinInv demoG demoGalaxyTruth c ∧ Fresh c ∧ c.units = some .kpckms ∧
    c.origin = some .galaxy := by
  obtain ⟨c, h, i, u, o⟩ := (LinInv.mk' demoSkyKpc_pos demoSkyKpc_lin demoSkyKpc_good demoSkyKpc_desc demoSkyKpc_caches).analyzed true true
  exact ⟨c, h, i, analyze_fresh h, u, o⟩

/-- To the sky; there a pair of `save_cluster` and `return_cluster` around calls that leave the sky, and the orbit of the cluster; back to parsecs. -/
def demoSkySession : List SkyCall :=
  [.convert (.toSky true none), .ask (.bracket [.op .toNbody, .op (.toCluster true none)] true none), .ask (.plain (.initializeOrbit false)),
    .convert (.op (.toPckms true))]

theorem demoSkySession_admissible : ∀ a ∈ demoSkySession, a.Admissible := by
  intro a ha
  simp only [demoSkySession, List.mem_cons, List.not_mem_nil, or_false] at ha
  rcases ha with rfl | rfl | rfl | rfl <;> trivial

/-- It runs: to parsecs at the Galactic centre, with the same view as the two conversions alone. -/
example : ∃ c0 c1 c2, Fresh c0 ∧ skySession demoG demoSkySession c0 = .ok c1 ∧ c1.units = some .pckms ∧ c1.origin = some .galaxy ∧
    skySession demoG [.convert (.toSky true none), .convert (.op (.toPckms true))] c0 = .ok c2 ∧ SameView c1 c2 := by
  obtain ⟨c0, -, i, f, u0, o0⟩ := demoSkyKpc_fresh
  obtain ⟨a, ha, ia, oa⟩ := toSky_inv (.inl i) true none
  obtain ⟨b, hb, ib⟩ := calls_inv [.op .toNbody, .op (.toCluster true none)] (.inr ia)
  obtain ⟨r, hr, ir, or', -⟩ := return_sky ia ib true none
  obtain ⟨o, ho⟩ : ∃ o, initializeOrbit demoG false r = .ok (o, r) := by
    unfold initializeOrbit
    simp [ir.state.units]
  obtain ⟨c1, h1, i1, u1⟩ := units_inv (.inr ir) (.toPckms true) rfl trivial
  obtain ⟨c2, h2, i2, u2⟩ := units_inv (.inr ia) (.toPckms true) rfl trivial
  have s1 : skySession demoG demoSkySession c0 = .ok c1 := by
    simp only [skySession, demoSkySession, SkyCall.exec, SkyQuery.exec, Query.exec, Call.exec, ha, hb, hr, ho, h1, Except.bind, Except.map]
  have s2 : skySession demoG [.convert (.toSky true none), .convert (.op (.toPckms true))] c0 = .ok c2 := by
    simp only [skySession, SkyCall.exec, Call.exec, ha, h2, Except.bind]
  have k := C175_labels i.pos i.lin i.good i.desc i.caches f demoSkySession_admissible s1
  have a2 : ∀ a ∈ ([.convert (.toSky true none), .convert (.op (.toPckms true))] : List SkyCall), a.Admissible := by
    intro a ha
    simp only [List.mem_cons, List.not_mem_nil, or_false] at ha
    rcases ha with rfl | rfl <;> trivial
  refine ⟨c0, c1, c2, f, s1, u1, ?_, s2, C175_same_conversions i.pos i.lin i.good i.desc i.caches f demoSkySession_admissible a2 rfl s1 s2⟩
  · have := congrArg Prod.snd k
    simpa [demoSkySession, skyConversions, Call.labels, labelsAt, labelsIn] using this

end

end CT
