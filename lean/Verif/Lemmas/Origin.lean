import Verif.Lemmas.Ops

namespace CT

noncomputable section

/-- Effect of an origin change to `o`. -/
structure OStep (o : Origin) (c c' : Cluster) : Prop where
  units : c'.units = c.units
  origin : c'.origin = some o
  tphys : c'.tphys = c.tphys
  m : c'.m = c.m
  ctr : c'.c = c.c
  gcp : c'.gc = c.gc
  rest : c'.rest = c.rest
  rows : ∀ o0, c.origin = some o0 → galRows o c'.c c'.gc c'.st = galRows o0 c.c c.gc c.st

theorem OStep.core {o : Origin} {c c1 c' : Cluster} (s : OStep o c c1) (h : c'.core = c1.core) :
    OStep o c c' := by
  obtain ⟨h1, h2, h3, h4, h5, h6, h7, h8, h9, h10, h11, hr⟩ := core_fields h
  exact ⟨h1.trans s.units, h2.trans s.origin, h3.trans s.tphys, h4.trans s.m, h6.trans s.ctr, h7.trans s.gcp,
    hr.trans s.rest, fun o0 h0 => by rw [h6, h7, h5]; exact s.rows o0 h0⟩

theorem OStep.trans {o o' : Origin} {c c1 c' : Cluster} (s : OStep o c c1) (t : OStep o' c1 c') :
    OStep o' c c' :=
  ⟨t.units.trans s.units, t.origin, t.tphys.trans s.tphys, t.m.trans s.m, t.ctr.trans s.ctr, t.gcp.trans s.gcp,
    t.rest.trans s.rest, fun o0 h0 => (t.rows o s.origin).trans (s.rows o0 h0)⟩

theorem OStep.refl {o : Origin} {c : Cluster} (h : c.origin = some o) : OStep o c c :=
  ⟨rfl, h, rfl, rfl, rfl, rfl, rfl, fun o0 h0 => by rw [h] at h0; cases h0; rfl⟩

theorem setMethod_ostep {o : Origin} {cm : Option CentreMethod} {c : Cluster} (h : c.origin = some o) :
    OStep o c (setMethod cm c) := by
  cases cm with
  | none => exact .refl h
  | some k => exact ⟨rfl, h, rfl, rfl, rfl, rfl, rfl, fun o0 h0 => by rw [h] at h0; cases h0; rfl⟩

theorem toCluster_ostep {s : Bool} {cm : Option CentreMethod} {c c' : Cluster} {o : Origin}
    (ho : c.origin = some o) (hl : o.linear) (hu : c.units ≠ some .radec)
    (h : toCluster s cm c = .ok c') : OStep .cluster c c' := by
  have s0 := setMethod_ostep (cm := cm) ho
  simp only [toCluster, ho, bind] at h
  generalize hc0 : setMethod cm c = c0 at *
  have hu0 : c0.units ≠ some .radec := by rw [s0.units]; exact hu
  simp only [hu0, if_false] at h
  cases o <;> simp only [Origin.linear] at hl <;>
    simp only [ne_eq, reduceCtorEq, not_true, not_false_eq_true, if_true, if_false, Except.bind] at h
  · refine (s0.trans ?_).core (analyze_core h)
    refine ⟨rfl, rfl, rfl, rfl, rfl, rfl, rfl, fun o0 h0 => ?_⟩
    rw [s0.origin] at h0; cases h0
    simp [galRows, galactocentric, Function.comp_def, Ph.add, phAdd]
  · cases h; exact s0
  · refine (s0.trans ?_).core (analyze_core h)
    refine ⟨rfl, rfl, rfl, rfl, rfl, rfl, rfl, fun o0 h0 => ?_⟩
    rw [s0.origin] at h0; cases h0
    simp [galRows, galactocentric, Function.comp_def, Ph.sub, phAdd]

theorem toCentre_ostep {s : Bool} {cm : Option CentreMethod} {c c' : Cluster} {o : Origin}
    (ho : c.origin = some o) (hl : o.linear) (hu : c.units ≠ some .radec)
    (h : toCentre s cm c = .ok c') : OStep .centre c c' := by
  have s0 := setMethod_ostep (cm := cm) ho
  simp only [toCentre, ho, bind] at h
  generalize hc0 : setMethod cm c = c0 at *
  have hu0 : c0.units ≠ some .radec := by rw [s0.units]; exact hu
  simp only [hu0, if_false] at h
  by_cases hc : o = .centre
  · subst hc; simp at h; subst h; exact s0
  · simp only [ne_eq, hc, not_false_eq_true, if_true] at h
    obtain ⟨c2, h3, h4⟩ := ite_bind_ok h
    have s1 : OStep .cluster c0 c2 := by
      by_cases hcl : o = .cluster
      · subst hcl; simp at h3; subst h3; exact .refl s0.origin
      · simp only [hcl, not_false_eq_true, if_true] at h3
        exact toCluster_ostep s0.origin hl hu0 h3
    refine ((s0.trans s1).trans ?_).core (analyze_core h4)
    refine ⟨rfl, rfl, rfl, rfl, rfl, rfl, rfl, fun o0 h0 => ?_⟩
    rw [s1.origin] at h0; cases h0
    simp [galRows, galactocentric, Function.comp_def, Ph.sub, phAdd]

theorem toGalaxy_ostep {g : Galpy} {s : Bool} {c c' : Cluster} {o : Origin}
    (ho : c.origin = some o) (hl : o.linear) (hu : c.units ≠ some .radec)
    (h : toGalaxy g s c = .ok c') : OStep .galaxy c c' := by
  simp only [toGalaxy, ho, bind, hu, if_false] at h
  by_cases hg : o = .galaxy
  · subst hg; simp [Except.bind] at h; exact (OStep.refl ho).core (analyze_core h)
  · simp only [ne_eq, hg, not_false_eq_true, if_true] at h
    obtain ⟨c2, h3, h4⟩ := ite_bind_ok h
    have s1 : OStep .cluster c c2 := by
      by_cases hcl : o = .centre
      · simp only [hcl, if_true] at h3
        exact toCluster_ostep ho hl hu h3
      · have : o = .cluster := by cases o <;> simp_all [Origin.linear]
        subst this
        simp at h3; subst h3; exact .refl ho
    refine (s1.trans ?_).core (analyze_core h4)
    refine ⟨rfl, rfl, rfl, rfl, rfl, rfl, rfl, fun o0 h0 => ?_⟩
    rw [s1.origin] at h0; cases h0
    simp [galRows, galactocentric, Function.comp_def, Ph.add, phAdd]

theorem toOrigin_ostep {g : Galpy} {t : Origin} {s : Bool} {cm : Option CentreMethod} {c c' : Cluster}
    {o : Origin} (ho : c.origin = some o) (hl : o.linear) (ht : t.linear) (hu : c.units ≠ some .radec)
    (h : toOrigin g t.target s cm c = .ok c') : OStep t c c' := by
  simp only [toOrigin, ho, bind] at h
  cases t <;> simp only [Origin.linear] at ht <;> simp only [Origin.target] at h
  · obtain ⟨c1, h1, h2⟩ := bind_ok h
    exact (toCentre_ostep ho hl hu h1).core (analyze_core h2)
  · obtain ⟨c1, h1, h2⟩ := bind_ok h
    exact (toCluster_ostep ho hl hu h1).core (analyze_core h2)
  · obtain ⟨c1, h1, h2⟩ := bind_ok h
    exact (toGalaxy_ostep ho hl hu h1).core (analyze_core h2)

theorem galactocentric_scale (s : Scale) (o : Origin) (c gc p : Ph) :
    galactocentric o (s.ph c) (s.ph gc) (s.ph p) = (galactocentric o c gc p).map s.ph := by
  cases o <;> simp [galactocentric, phAdd, Scale.ph] <;> ring_nf <;> trivial

theorem UStep.world {g : Galpy} {u : Units} {c c' : Cluster} (s : UStep g u c c') :
    world g c' = world g c := by
  unfold CT.world
  rw [s.phys, s.origin]

theorem OStep.world {g : Galpy} {o : Origin} {c c' : Cluster} (s : OStep o c c') (ho : c.origin ≠ none) :
    world g c' = world g c := by
  obtain ⟨o0, h0⟩ := Option.ne_none_iff_exists'.mp ho
  obtain ⟨e1, e2, e3, e4⟩ := rest_scales s.rest
  have hr := s.rows o0 h0
  unfold CT.world phys unitScale
  rw [s.units, s.origin, h0, s.tphys, s.m, e1, e2, e3, e4]
  cases c.units with
  | none => rfl
  | some u =>
    have key : ∀ sc : Scale, galRows o (sc.ph c'.c) (sc.ph c'.gc) (c'.st.map sc.ph)
        = galRows o0 (sc.ph c.c) (sc.ph c.gc) (c.st.map sc.ph) := by
      intro sc
      have e : ∀ (o : Origin) (a b : Ph) (l : List Ph), galRows o (sc.ph a) (sc.ph b) (l.map sc.ph)
          = (galRows o a b l).map (Option.map sc.ph) := by
        intro o a b l
        simp [galRows, galactocentric_scale]
      rw [e, e, hr]
    cases u <;> simp only [key] <;> simp [s.ctr, s.gcp]

/-- Linear labels make `world` defined. -/
theorem world_isSome {g : Galpy} {c : Cluster} {u : Units} {o : Origin} (hu : c.units = some u)
    (hl : u.linear) (ho : c.origin = some o) : ∃ w, world g c = some w := by
  unfold CT.world phys
  rw [hu, ho]
  cases u <;> simp_all [Units.linear, unitScale]

theorem Scale.ph_inj {s : Scale} (h1 : s.len ≠ 0) (h2 : s.vel ≠ 0) {p q : Ph} (h : s.ph p = s.ph q) :
    p = q := by
  simp only [Scale.ph, Ph.mk.injEq, mul_eq_mul_right_iff, h1, h2, or_false] at h
  obtain ⟨a, b, c, d, e, f⟩ := h
  ext <;> assumption

theorem unitScale_nz {g : Galpy} {c : Cluster} (n : NZ g c) {u : Units} {s : Scale}
    (h : unitScale g c u = some s) : s.len ≠ 0 ∧ s.vel ≠ 0 ∧ s.mass ≠ 0 ∧ s.time ≠ 0 := by
  have hk := kms_ne
  have hm := mcon_ne
  have := n.rbar; have := n.vbar; have := n.zmbar; have := n.tbar
  have := n.ro; have := n.vo; have := n.time; have := n.mass; have := n.vel
  cases u <;> simp only [unitScale, Option.some.injEq, reduceCtorEq] at h <;> subst h <;>
    simp [*]

theorem galactocentric_inj {o : Origin} (hl : o.linear) {c gc p q : Ph}
    (h : galactocentric o c gc p = galactocentric o c gc q) : p = q := by
  cases o <;> simp only [Origin.linear] at hl <;>
    simp only [galactocentric, phAdd, Option.some.injEq, Ph.mk.injEq, add_left_inj] at h
  · obtain ⟨a, b, c, d, e, f⟩ := h; ext <;> assumption
  · obtain ⟨a, b, c, d, e, f⟩ := h; ext <;> assumption
  · exact h

/-- Same labels, same scales and same described world: same data. -/
theorem data_of_world {g : Galpy} {c d : Cluster} {u : Units} {o : Origin} (n : NZ g c)
    (hr : d.rest = c.rest) (hu : c.units = some u) (hud : d.units = some u) (hl : u.linear)
    (ho : c.origin = some o) (hod : d.origin = some o) (hol : o.linear)
    (hw : world g d = world g c) : d.data = c.data := by
  obtain ⟨e1, e2, e3, e4⟩ := rest_scales hr
  have hsc : unitScale g d u = unitScale g c u := by unfold unitScale; rw [e1, e2, e3, e4]
  obtain ⟨s, hs⟩ : ∃ s, unitScale g c u = some s := by
    cases u <;> simp_all [Units.linear, unitScale]
  obtain ⟨n1, n2, n3, n4⟩ := unitScale_nz n hs
  unfold CT.world phys at hw
  rw [hu, hud, ho, hod] at hw
  simp only [hsc, hs, Option.some.injEq, World.mk.injEq] at hw
  obtain ⟨w1, w2, w3, w4, w5⟩ := hw
  have k4 := Scale.ph_inj n1 n2 w4
  have k5 := Scale.ph_inj n1 n2 w5
  have k1 : d.tphys = c.tphys := mul_right_cancel₀ n4 w1
  have k2 : d.m = c.m := by
    refine List.map_injective_iff.mpr ?_ w2
    intro a b h; exact mul_right_cancel₀ n3 h
  have k3 : d.st = c.st := by
    rw [k4, k5] at w3
    simp only [galRows, List.map_map] at w3
    refine List.map_injective_iff.mpr ?_ w3
    intro a b h
    exact Scale.ph_inj n1 n2 (galactocentric_inj hol h)
  simp only [Cluster.data, hu, hud, ho, hod, k1, k2, k3, k4, k5]

end

end CT
