import Verif.Lemmas.Analyze
import Verif.Model.History

namespace CT

noncomputable section

set_option linter.unusedSimpArgs false

theorem Pos.nz {g : Galpy} {c : Cluster} (h : Pos g c) : NZ g c :=
  ⟨h.rbar.ne', h.vbar.ne', h.zmbar.ne', h.tbar.ne', h.ro.ne', h.vo.ne', h.time.ne', h.mass.ne', h.vel.ne'⟩

theorem Pos.of_rest {g : Galpy} {c c' : Cluster} (h : c'.rest = c.rest) (n : Pos g c) : Pos g c' := by
  obtain ⟨h1, h2, h3, h4⟩ := rest_scales h
  exact ⟨h2 ▸ n.rbar, h3 ▸ n.vbar, h1 ▸ n.zmbar, h4 ▸ n.tbar, n.ro, n.vo, n.time, n.mass, n.vel⟩

theorem sum_map_mul (l : List ℝ) (k : ℝ) : (l.map (· * k)).sum = l.sum * k := by
  induction l with
  | nil => simp
  | cons a l ih => simp [ih]; ring

theorem sum_map_div (l : List ℝ) (k : ℝ) : (l.map (· / k)).sum = l.sum / k := by
  induction l with
  | nil => simp
  | cons a l ih => simp [ih]; ring

/-- Rescaling rows and masses by a non-negative factor keeps a cluster `Good`. -/
theorem Good.rescale {c c' : Cluster} (h : Good c) (f : Ph → Ph) (hst : c'.st = c.st.map f)
    (hm : c'.m = c.m ∨ ∃ k, 0 ≤ k ∧ c'.m = c.m.map (· * k)) (hr : c'.rorder = c.rorder)
    (hp : c'.rproorder = c.rproorder) : Good c' := by
  refine ⟨by rw [hst]; simpa using h.ne, ?_, ?_, ?_, ?_⟩
  · rcases hm with hm | ⟨k, -, hm⟩ <;> rw [hst, hm] <;> simp [h.len]
  · rcases hm with hm | ⟨k, hk, hm⟩ <;> rw [hm]
    · exact h.mass
    · rw [sum_map_mul]; exact mul_nonneg h.mass hk
  · intro o ho; rw [hst]; simpa using h.ro o (hr ▸ ho)
  · intro o ho; rw [hst]; simpa using h.rpo o (hp ▸ ho)

theorem Good.same {c c' : Cluster} (h : Good c) (hst : c'.st = c.st)
    (hm : c'.m = c.m) (hr : c'.rorder = c.rorder)
    (hp : c'.rproorder = c.rproorder) : Good c' :=
  h.rescale id (by simp [hst]) (.inl hm) hr hp

theorem analyzeIf_total {a : Bool} {c : Cluster} (g : Good c) : ∃ c', analyzeIf a c = .ok c' ∧ Good c' := by
  unfold analyzeIf
  split
  · exact analyze_total g
  · exact ⟨c, rfl, g⟩

theorem map_div_mul (l : List ℝ) (k : ℝ) : l.map (· / k) = l.map (· * k⁻¹) := by
  simp [div_eq_mul_inv]

theorem pckmsStep_good {g : Galpy} {c : Cluster} (p : Pos g c) (h : Good c) : Good (pckmsStep c) := by
  unfold pckmsStep
  split
  · exact h.rescale _ rfl (.inr ⟨_, p.zmbar.le, rfl⟩) rfl rfl
  · split
    · exact h.rescale _ rfl (.inl rfl) rfl rfl
    · split
      · exact h.rescale _ rfl (.inl rfl) rfl rfl
      · exact h

theorem mcon_pos : 0 < mconWD := by unfold mconWD; norm_num

theorem kpckmsStep_good {g : Galpy} {c : Cluster} (p : Pos g c) (h : Good c) : Good (kpckmsStep g c) := by
  unfold kpckmsStep
  split
  · exact h.rescale _ rfl (.inr ⟨_, p.mass.le, rfl⟩) rfl rfl
  · split
    · exact h.rescale _ rfl (.inr ⟨_, p.zmbar.le, rfl⟩) rfl rfl
    · split
      · exact h.rescale _ rfl (.inl rfl) rfl rfl
      · split
        · exact h.rescale _ rfl (.inl rfl) rfl rfl
        · split
          · exact h.rescale _ rfl (.inr ⟨_, mcon_pos.le, rfl⟩) rfl rfl
          · exact h

theorem fromAmuse_good {c : Cluster} (h : Good c) : Good (fromAmuse c) := by
  unfold fromAmuse
  split
  · exact h.same rfl rfl rfl rfl
  · exact h

theorem pckmsStep_rest (c : Cluster) : (pckmsStep c).rest = c.rest := by
  unfold pckmsStep; repeat' split
  all_goals rfl

theorem fromAmuse_rest (c : Cluster) : (fromAmuse c).rest = c.rest := by
  unfold fromAmuse; split <;> rfl

theorem toKpckms_total {g : Galpy} {a : Bool} {c : Cluster} {u : Units} (hu : c.units = some u)
    (hl : u ≠ .radec) (p : Pos g c) (h : Good c) : ∃ c', toKpckms g a c = .ok c' ∧ Good c' := by
  simp only [toKpckms, hu, hl, if_false, bind]
  split
  · exact analyzeIf_total (kpckmsStep_good (p.of_rest (pckmsStep_rest c)) (pckmsStep_good p h))
  · split
    · exact analyzeIf_total (kpckmsStep_good (p.of_rest (fromAmuse_rest c)) (fromAmuse_good h))
    · exact analyzeIf_total (kpckmsStep_good p h)

theorem toPckms_total {g : Galpy} {a : Bool} {c : Cluster} {u : Units} (hu : c.units = some u)
    (hl : u.linear) (p : Pos g c) (h : Good c) : ∃ c', toPckms g a c = .ok c' ∧ Good c' := by
  have hr : u ≠ .radec := by rintro rfl; exact hl
  simp only [toPckms, hu, hr, false_or, bind]
  split
  · obtain ⟨c1, h1, g1⟩ := toKpckms_total (a := false) hu hr p h
    have s1 := toKpckms_ustep hu hl h1
    rw [h1]
    exact analyzeIf_total (pckmsStep_good (p.of_rest s1.rest) g1)
  · split
    · exact analyzeIf_total (pckmsStep_good (p.of_rest (fromAmuse_rest c)) (fromAmuse_good h))
    · exact analyzeIf_total (pckmsStep_good p h)

theorem mulVelLabel_good {c : Cluster} {u : Units} (h : Good c) : Good (mulVelLabel u c) :=
  h.rescale _ rfl (.inl rfl) rfl rfl

theorem ite_bind_total {p : Prop} [Decidable p] {x y : Except Err Cluster}
    {f : Cluster → Except Err Cluster} {c1 : Cluster}
    (h1 : (if p then x else y) = .ok c1) (h2 : ∃ c', f c1 = .ok c' ∧ Good c') :
    ∃ c', (if p then x.bind f else y.bind f) = .ok c' ∧ Good c' := by
  split at h1 <;> simp_all [Except.bind]

theorem toPcmyr_total {g : Galpy} {a : Bool} {c : Cluster} {u : Units} (hu : c.units = some u)
    (hl : u.linear) (p : Pos g c) (h : Good c) : ∃ c', toPcmyr g a c = .ok c' ∧ Good c' := by
  simp only [toPcmyr, hu, bind]
  obtain ⟨c1, h1, g1⟩ : ∃ c1, (if u ≠ .pckms ∧ u ≠ .pcmyr then toPckms g false c else .ok c) = .ok c1 ∧
      Good c1 := by
    split
    · exact toPckms_total hu hl p h
    · exact ⟨c, rfl, h⟩
  refine ite_bind_total h1 ?_
  split
  · exact analyzeIf_total (mulVelLabel_good g1)
  · exact ⟨_, rfl, g1⟩

theorem toKpcgyr_total {g : Galpy} {a : Bool} {c : Cluster} {u : Units} (hu : c.units = some u)
    (hl : u.linear) (p : Pos g c) (h : Good c) : ∃ c', toKpcgyr g a c = .ok c' ∧ Good c' := by
  have hr : u ≠ .radec := by rintro rfl; exact hl
  simp only [toKpcgyr, hu, bind]
  obtain ⟨c1, h1, g1⟩ : ∃ c1, (if u ≠ .kpckms ∧ u ≠ .kpcgyr then toKpckms g false c else .ok c) = .ok c1 ∧
      Good c1 := by
    split
    · exact toKpckms_total hu hr p h
    · exact ⟨c, rfl, h⟩
  refine ite_bind_total h1 ?_
  split
  · exact analyzeIf_total (mulVelLabel_good g1)
  · exact ⟨_, rfl, g1⟩

theorem nbodyStep_good {g : Galpy} {c : Cluster} (p : Pos g c) (h : Good c) : Good (nbodyStep c) := by
  unfold nbodyStep
  split
  · exact h.rescale _ rfl (.inr ⟨c.zmbar⁻¹, by have := p.zmbar; positivity, map_div_mul _ _⟩) rfl rfl
  · exact h

theorem nbodyBinStep_good {c : Cluster} (h : Good c) : Good (nbodyBinStep c) := by
  unfold nbodyBinStep
  repeat' split
  all_goals exact h.same rfl rfl rfl rfl

theorem toNbody_total {g : Galpy} {c : Cluster} {u : Units} (hu : c.units = some u)
    (hl : u.linear) (p : Pos g c) (h : Good c) : ∃ c', toNbody g c = .ok c' ∧ Good c' := by
  simp only [toNbody, hu, bind]
  by_cases hq : u ≠ .pckms ∧ u ≠ .nbody
  · obtain ⟨c1, h1, g1⟩ := toPckms_total (a := false) hu hl p h
    have s1 := toPckms_ustep hu hl h1
    refine ite_bind_total (c1 := c1) (by simp [hq, h1]) ?_
    exact analyze_total (nbodyBinStep_good (nbodyStep_good (p.of_rest s1.rest) g1))
  · refine ite_bind_total (c1 := c) (by simp only [hq, if_false]) ?_
    exact analyze_total (nbodyBinStep_good (nbodyStep_good p h))

theorem galpyStep_good {g : Galpy} {c : Cluster} (p : Pos g c) (h : Good c) : Good (galpyStep g c) := by
  unfold galpyStep
  split
  · exact h.rescale _ rfl (.inr ⟨g.massMsol⁻¹, by have := p.mass; positivity, map_div_mul _ _⟩) rfl rfl
  · exact h

theorem toGalpy_total {g : Galpy} {c : Cluster} {u : Units} (hu : c.units = some u)
    (hl : u.linear) (p : Pos g c) (h : Good c) : ∃ c', toGalpy g c = .ok c' ∧ Good c' := by
  have hr : u ≠ .radec := by rintro rfl; exact hl
  simp only [toGalpy, hu, bind]
  by_cases hq : u ≠ .kpckms ∧ u ≠ .galpy
  · obtain ⟨c1, h1, g1⟩ := toKpckms_total (a := false) hu hr p h
    have s1 := toKpckms_ustep hu hl h1
    refine ite_bind_total (c1 := c1) (by simp [hq, h1]) ?_
    exact analyze_total (galpyStep_good (p.of_rest s1.rest) g1)
  · refine ite_bind_total (c1 := c) (by simp only [hq, if_false]) ?_
    exact analyze_total (galpyStep_good p h)

theorem toWD_total {g : Galpy} {c : Cluster} {u : Units} (hu : c.units = some u)
    (hl : u.linear) (p : Pos g c) (h : Good c) : ∃ c', toWD g c = .ok c' ∧ Good c' := by
  have hr : u ≠ .radec := by rintro rfl; exact hl
  simp only [toWD, hu, bind]
  obtain ⟨c1, h1, g1⟩ : ∃ c1, (if u ≠ .kpckms ∧ u ≠ .WDunits then toKpckms g false c else .ok c) = .ok c1 ∧
      Good c1 := by
    split
    · exact toKpckms_total hu hr p h
    · exact ⟨c, rfl, h⟩
  refine ite_bind_total h1 ?_
  split
  · refine analyze_total (g1.rescale _ rfl (.inr ⟨mconWD⁻¹, ?_, map_div_mul _ _⟩) rfl rfl)
    have := mcon_pos; positivity
  · exact ⟨_, rfl, g1⟩

theorem toAmuse_total {g : Galpy} {a : Bool} {c : Cluster} {u : Units} (hu : c.units = some u)
    (hl : u.linear) (p : Pos g c) (h : Good c) : ∃ c', toAmuse g a c = .ok c' ∧ Good c' := by
  simp only [toAmuse, bind]
  split
  · obtain ⟨c1, h1, g1⟩ := toPckms_total (a := false) hu hl p h
    rw [h1]
    exact analyzeIf_total (g1.same rfl rfl rfl rfl)
  · exact ⟨c, rfl, h⟩

theorem toUnits_total {g : Galpy} {t : Units} {c : Cluster} {u : Units} (hu : c.units = some u)
    (hl : u.linear) (ht : t.linear) (p : Pos g c) (h : Good c) : ∃ c', toUnits g t c = .ok c' ∧ Good c' := by
  have hr : t ≠ .radec := by rintro rfl; exact ht
  simp only [toUnits, hu, hr, if_false, toUnitsNR]
  cases t <;> simp only [Units.linear] at ht
  · exact toNbody_total hu hl p h
  · exact toPckms_total hu hl p h
  · exact toPcmyr_total hu hl p h
  · exact toKpckms_total hu (by rintro rfl; exact hl) p h
  · exact toKpcgyr_total hu hl p h
  · exact toGalpy_total hu hl p h
  · exact toWD_total hu hl p h
  · exact toAmuse_total hu hl p h

theorem setMethod_good {cm : Option CentreMethod} {c : Cluster} (h : Good c) : Good (setMethod cm c) := by
  cases cm
  · exact h
  · exact h.same rfl rfl rfl rfl

theorem toCluster_total {s : Bool} {cm : Option CentreMethod} {c : Cluster} (hu : c.units ≠ some .radec)
    (h : Good c) : ∃ c', toCluster s cm c = .ok c' ∧ Good c' := by
  cases ho : c.origin with
  | none => exact ⟨c, by simp [toCluster, ho], h⟩
  | some o =>
    have g0 := setMethod_good (cm := cm) h
    have hu0 : (setMethod cm c).units ≠ some .radec := by cases cm <;> exact hu
    simp only [toCluster, ho, hu0, if_false, bind]
    generalize setMethod cm c = c0 at *
    split
    · split
      · exact analyze_total (g0.rescale _ rfl (.inl rfl) rfl rfl)
      · split
        · exact analyze_total (g0.rescale _ rfl (.inl rfl) rfl rfl)
        · exact analyze_total (g0.same rfl rfl rfl rfl)
    · exact ⟨c0, rfl, g0⟩

theorem toCentre_total {s : Bool} {cm : Option CentreMethod} {c : Cluster} (hu : c.units ≠ some .radec)
    (h : Good c) : ∃ c', toCentre s cm c = .ok c' ∧ Good c' := by
  cases ho : c.origin with
  | none => exact ⟨c, by simp [toCentre, ho], h⟩
  | some o =>
    have g0 := setMethod_good (cm := cm) h
    have hu0 : (setMethod cm c).units ≠ some .radec := by cases cm <;> exact hu
    simp only [toCentre, ho, hu0, if_false, bind]
    generalize setMethod cm c = c0 at *
    split
    · obtain ⟨c1, h1, g1⟩ : ∃ c1, (if o ≠ .cluster then toCluster true cm c0 else .ok c0) = .ok c1 ∧
          Good c1 := by
        split
        · exact toCluster_total hu0 g0
        · exact ⟨c0, rfl, g0⟩
      refine ite_bind_total h1 ?_
      exact analyze_total (g1.rescale _ rfl (.inl rfl) rfl rfl)
    · exact ⟨c0, rfl, g0⟩

theorem toGalaxy_total {g : Galpy} {s : Bool} {c : Cluster} (hu : c.units ≠ some .radec)
    (h : Good c) : ∃ c', toGalaxy g s c = .ok c' ∧ Good c' := by
  cases ho : c.origin with
  | none => exact ⟨c, by simp [toGalaxy, ho], h⟩
  | some o =>
    simp only [toGalaxy, ho, hu, if_false, bind]
    split
    · obtain ⟨c1, h1, g1⟩ : ∃ c1, (if o = .centre then toCluster false none c else .ok c) = .ok c1 ∧
          Good c1 := by
        split
        · exact toCluster_total hu h
        · exact ⟨c, rfl, h⟩
      refine ite_bind_total h1 ?_
      exact analyze_total (g1.rescale _ rfl (.inl rfl) rfl rfl)
    · exact analyze_total h

theorem toOrigin_total {g : Galpy} {t : Origin} {s : Bool} {cm : Option CentreMethod} {c : Cluster}
    (ht : t.linear) (hu : c.units ≠ some .radec) (h : Good c) :
    ∃ c', toOrigin g t.target s cm c = .ok c' ∧ Good c' := by
  cases ho : c.origin with
  | none => exact ⟨c, by simp [toOrigin, ho], h⟩
  | some o =>
    simp only [toOrigin, ho, bind]
    cases t <;> simp only [Origin.linear] at ht <;> simp only [Origin.target]
    · obtain ⟨c1, h1, g1⟩ := toCentre_total (s := s) (cm := cm) hu h
      rw [h1]; exact analyze_total g1
    · obtain ⟨c1, h1, g1⟩ := toCluster_total (s := s) (cm := cm) hu h
      rw [h1]; exact analyze_total g1
    · obtain ⟨c1, h1, g1⟩ := toGalaxy_total (g := g) (s := s) hu h
      rw [h1]; exact analyze_total g1

/-! ### one call, any call -/

/-- What one conversion call does. -/
structure Step (g : Galpy) (op : Op) (c c' : Cluster) : Prop where
  world : world g c' = world g c
  rest : c'.rest = c.rest
  units : c'.units = op.unitTarget.or c.units
  origin : c'.origin = op.originTarget.or c.origin

theorem UStep.step {g : Galpy} {op : Op} {u : Units} {c c' : Cluster} (s : UStep g u c c')
    (h1 : op.unitTarget = some u) (h2 : op.originTarget = none) : Step g op c c' :=
  ⟨s.world, s.rest, by rw [h1, s.units]; rfl, by rw [h2, s.origin]; rfl⟩

theorem OStep.step {g : Galpy} {op : Op} {o : Origin} {c c' : Cluster} (s : OStep o c c')
    (ho : c.origin ≠ none) (h1 : op.unitTarget = none) (h2 : op.originTarget = some o) : Step g op c c' :=
  ⟨s.world ho, s.rest, by rw [h1, s.units]; rfl, by rw [h2, s.origin]; rfl⟩

theorem audays_core (c : Cluster) : (toAudays c).data = c.data ∧ (toAudays c).rest = c.rest ∧
    (toAudays c).rorder = c.rorder ∧ (toAudays c).rproorder = c.rproorder := by
  unfold toAudays; dsimp only; repeat' split
  all_goals exact ⟨rfl, rfl, rfl, rfl⟩

theorem sudays_core (c : Cluster) : (toSudays c).data = c.data ∧ (toSudays c).rest = c.rest ∧
    (toSudays c).rorder = c.rorder ∧ (toSudays c).rproorder = c.rproorder := by
  unfold toSudays; dsimp only; repeat' split
  all_goals exact ⟨rfl, rfl, rfl, rfl⟩

theorem world_of_data {g : Galpy} {c c' : Cluster} (h : c'.data = c.data) (hr : c'.rest = c.rest) :
    world g c' = world g c := by
  obtain ⟨e1, e2, e3, e4⟩ := rest_scales hr
  simp only [Cluster.data, Data.mk.injEq] at h
  obtain ⟨a1, a2, a3, a4, a5, a6, a7⟩ := h
  unfold CT.world phys unitScale
  rw [a1, a2, a3, a4, a5, a6, a7, e1, e2, e3, e4]

theorem exec_step {g : Galpy} {op : Op} {c c' : Cluster} (n : NZ g c) (l : Lin c) (hl : op.linear)
    (h : op.exec g c = .ok c') : Step g op c c' := by
  obtain ⟨⟨u, hu, hul⟩, ⟨o, ho, hol⟩⟩ := l
  have hone : c.origin ≠ none := by simp [ho]
  have hur : c.units ≠ some .radec := by rw [hu]; rintro h; cases h; exact hul
  have D : ∀ {c'}, c'.data = c.data → c'.rest = c.rest → op.unitTarget = none → op.originTarget = none →
      Step g op c c' := by
    intro c' h1 h2 h3 h4
    refine ⟨world_of_data h1 h2, h2, ?_, ?_⟩
    · rw [h3]; exact congrArg Data.units h1
    · rw [h4]; exact congrArg Data.origin h1
  cases op with
  | toPckms a => exact (toPckms_ustep hu hul h).step rfl rfl
  | toKpckms a => exact (toKpckms_ustep hu hul h).step rfl rfl
  | toPcmyr a => exact (toPcmyr_ustep hu hul h).step rfl rfl
  | toKpcgyr a => exact (toKpcgyr_ustep hu hul h).step rfl rfl
  | toNbody => exact (toNbody_ustep n hu hul h).step rfl rfl
  | toGalpy => exact (toGalpy_ustep n hu hul h).step rfl rfl
  | toWDunits => exact (toWD_ustep n hu hul h).step rfl rfl
  | toAmuse a => exact (toAmuse_ustep hu hul h).step rfl rfl
  | toUnits t => exact (toUnits_ustep n hu hul (hl.1 t rfl) h).step rfl rfl
  | toCentre s cm => exact (toCentre_ostep ho hol hur h).step hone rfl rfl
  | toCluster s cm => exact (toCluster_ostep ho hol hur h).step hone rfl rfl
  | toGalaxy s => exact (toGalaxy_ostep ho hol hur h).step hone rfl rfl
  | toOrigin t s cm => exact (toOrigin_ostep ho hol (hl.2 t rfl) hur h).step hone rfl rfl
  | analyze s p =>
    have hc := analyze_core h
    exact D (core_data hc) (core_fields hc).2.2.2.2.2.2.2.2.2.2.2 rfl rfl
  | toAudays =>
    injection h with h; subst h
    exact D (audays_core c).1 (audays_core c).2.1 rfl rfl
  | toSudays =>
    injection h with h; subst h
    exact D (sudays_core c).1 (sudays_core c).2.1 rfl rfl

theorem Step.lin {g : Galpy} {op : Op} {c c' : Cluster} (s : Step g op c c') (hl : op.linear) (l : Lin c) :
    Lin c' := by
  constructor
  · rw [s.units]
    cases ht : op.unitTarget with
    | none => simpa using l.units
    | some t => exact ⟨t, rfl, hl.1 t ht⟩
  · rw [s.origin]
    cases ht : op.originTarget with
    | none => simpa using l.origin
    | some t => exact ⟨t, rfl, hl.2 t ht⟩

theorem exec_total {g : Galpy} {op : Op} {c : Cluster} (p : Pos g c) (l : Lin c) (hl : op.linear)
    (h : Good c) : ∃ c', op.exec g c = .ok c' ∧ Good c' := by
  obtain ⟨⟨u, hu, hul⟩, ⟨o, ho, hol⟩⟩ := l
  have hr : u ≠ .radec := by rintro rfl; exact hul
  have hur : c.units ≠ some .radec := by rw [hu]; simpa using hr
  cases op with
  | toPckms a => exact toPckms_total hu hul p h
  | toKpckms a => exact toKpckms_total hu hr p h
  | toPcmyr a => exact toPcmyr_total hu hul p h
  | toKpcgyr a => exact toKpcgyr_total hu hul p h
  | toNbody => exact toNbody_total hu hul p h
  | toGalpy => exact toGalpy_total hu hul p h
  | toWDunits => exact toWD_total hu hul p h
  | toAmuse a => exact toAmuse_total hu hul p h
  | toUnits t => exact toUnits_total hu hul (hl.1 t rfl) p h
  | toCentre s cm => exact toCentre_total hur h
  | toCluster s cm => exact toCluster_total hur h
  | toGalaxy s => exact toGalaxy_total hur h
  | toOrigin t s cm => exact toOrigin_total (hl.2 t rfl) hur h
  | analyze s p => exact analyze_total h
  | toAudays =>
    have := audays_core c
    refine ⟨_, rfl, h.same (congrArg Data.st this.1) (congrArg Data.m this.1) this.2.2.1 this.2.2.2⟩
  | toSudays =>
    have := sudays_core c
    refine ⟨_, rfl, h.same (congrArg Data.st this.1) (congrArg Data.m this.1) this.2.2.1 this.2.2.2⟩

/-- A unit call from a cluster in linear units, whatever its origin label. -/
theorem exec_ustep {g : Galpy} {op : Op} {c c' : Cluster} {u t : Units} (n : NZ g c)
    (hu : c.units = some u) (hul : u.linear) (ht : op.unitTarget = some t) (htl : t.linear)
    (h : op.exec g c = .ok c') : UStep g t c c' := by
  cases op <;> simp only [Op.unitTarget, Option.some.injEq, reduceCtorEq] at ht <;> subst ht
  · exact toPckms_ustep hu hul h
  · exact toKpckms_ustep hu hul h
  · exact toPcmyr_ustep hu hul h
  · exact toKpcgyr_ustep hu hul h
  · exact toNbody_ustep n hu hul h
  · exact toGalpy_ustep n hu hul h
  · exact toWD_ustep n hu hul h
  · exact toAmuse_ustep hu hul h
  · exact toUnits_ustep n hu hul htl h

theorem exec_utotal {g : Galpy} {op : Op} {c : Cluster} {u t : Units} (p : Pos g c) (h : Good c)
    (hu : c.units = some u) (hul : u.linear) (ht : op.unitTarget = some t) (htl : t.linear) :
    ∃ c', op.exec g c = .ok c' ∧ Good c' := by
  have hr : u ≠ .radec := by rintro rfl; exact hul
  cases op <;> simp only [Op.unitTarget, Option.some.injEq, reduceCtorEq] at ht <;> subst ht
  · exact toPckms_total hu hul p h
  · exact toKpckms_total hu hr p h
  · exact toPcmyr_total hu hul p h
  · exact toKpcgyr_total hu hul p h
  · exact toNbody_total hu hul p h
  · exact toGalpy_total hu hul p h
  · exact toWD_total hu hul p h
  · exact toAmuse_total hu hul p h
  · exact toUnits_total hu hul htl p h

/-- A history of unit conversions, whatever the origin label. -/
theorem run_usteps {g : Galpy} {ops : List Op} {c c' : Cluster} {u : Units} (n : NZ g c)
    (hu : c.units = some u) (hul : u.linear)
    (hl : ∀ op ∈ ops, ∃ t, op.unitTarget = some t ∧ t.linear) (h : run g ops c = .ok c') :
    phys g c' = phys g c ∧ c'.units = (lastUnits ops).or (some u) ∧ c'.origin = c.origin ∧
      c'.rest = c.rest := by
  induction ops generalizing c u with
  | nil => cases h; exact ⟨rfl, hu, rfl, rfl⟩
  | cons op ops ih =>
    obtain ⟨c1, h1, h2⟩ := bind_ok h
    obtain ⟨t, ht, htl⟩ := hl op (by simp)
    have s := exec_ustep n hu hul ht htl h1
    obtain ⟨k1, k2, k3, k4⟩ := ih (n.of_rest s.rest) s.units htl (fun o ho => hl o (by simp [ho])) h2
    refine ⟨k1.trans s.phys, ?_, k3.trans s.origin, k4.trans s.rest⟩
    rw [k2, lastUnits, ht]
    cases lastUnits ops <;> rfl

theorem data_of_phys {g : Galpy} {c d : Cluster} {u : Units} (n : NZ g c) (hr : d.rest = c.rest)
    (hu : c.units = some u) (hud : d.units = some u) (hl : u.linear) (ho : d.origin = c.origin)
    (hw : phys g d = phys g c) : d.data = c.data := by
  obtain ⟨e1, e2, e3, e4⟩ := rest_scales hr
  have hsc : unitScale g d u = unitScale g c u := by unfold unitScale; rw [e1, e2, e3, e4]
  obtain ⟨s, hs⟩ : ∃ s, unitScale g c u = some s := by
    cases u <;> simp_all [Units.linear, unitScale]
  obtain ⟨n1, n2, n3, n4⟩ := unitScale_nz n hs
  unfold phys at hw
  rw [hu, hud] at hw
  simp only [hsc, hs, Option.some.injEq, Phys.mk.injEq] at hw
  obtain ⟨w1, w2, w3, w4, w5⟩ := hw
  have k4 := Scale.ph_inj n1 n2 w4
  have k5 := Scale.ph_inj n1 n2 w5
  have k1 : d.tphys = c.tphys := mul_right_cancel₀ n4 w1
  have k2 : d.m = c.m := by
    refine List.map_injective_iff.mpr ?_ w2
    intro a b h; exact mul_right_cancel₀ n3 h
  have k3 : d.st = c.st := by
    refine List.map_injective_iff.mpr ?_ w3
    intro a b h
    exact Scale.ph_inj n1 n2 h
  simp only [Cluster.data, hu, hud, ho, k1, k2, k3, k4, k5]

/-- An origin call from a cluster in non-radec units. -/
theorem exec_ostep {g : Galpy} {op : Op} {c c' : Cluster} {o t : Origin} (hu : c.units ≠ some .radec)
    (ho : c.origin = some o) (hol : o.linear) (ht : op.originTarget = some t) (htl : t.linear)
    (h : op.exec g c = .ok c') : OStep t c c' := by
  cases op <;> simp only [Op.originTarget, Option.some.injEq, reduceCtorEq] at ht <;> subst ht
  · exact toCentre_ostep ho hol hu h
  · exact toCluster_ostep ho hol hu h
  · exact toGalaxy_ostep ho hol hu h
  · exact toOrigin_ostep ho hol htl hu h

/-! ### histories -/

structure Steps (g : Galpy) (ops : List Op) (c c' : Cluster) : Prop where
  world : world g c' = world g c
  rest : c'.rest = c.rest
  units : c'.units = (lastUnits ops).or c.units
  origin : c'.origin = (lastOrigin ops).or c.origin
  lin : Lin c'

theorem run_steps {g : Galpy} {ops : List Op} {c c' : Cluster} (n : NZ g c) (l : Lin c)
    (hl : ∀ op ∈ ops, op.linear) (h : run g ops c = .ok c') : Steps g ops c c' := by
  induction ops generalizing c with
  | nil => cases h; exact ⟨rfl, rfl, rfl, rfl, l⟩
  | cons op ops ih =>
    obtain ⟨c1, h1, h2⟩ := bind_ok h
    have s := exec_step n l (hl op (by simp)) h1
    have t := ih (n.of_rest s.rest) (s.lin (hl op (by simp)) l) (fun o ho => hl o (by simp [ho])) h2
    refine ⟨t.world.trans s.world, t.rest.trans s.rest, ?_, ?_, t.lin⟩
    · rw [t.units, s.units]; simp [lastUnits, Option.or_assoc]
    · rw [t.origin, s.origin]; simp [lastOrigin, Option.or_assoc]

theorem run_total {g : Galpy} {ops : List Op} {c : Cluster} (p : Pos g c) (l : Lin c)
    (hl : ∀ op ∈ ops, op.linear) (h : Good c) : ∃ c', run g ops c = .ok c' ∧ Good c' := by
  induction ops generalizing c with
  | nil => exact ⟨c, rfl, h⟩
  | cons op ops ih =>
    obtain ⟨c1, h1, g1⟩ := exec_total p l (hl op (by simp)) h
    have s := exec_step p.nz l (hl op (by simp)) h1
    obtain ⟨c', h2, g2⟩ := ih (p.of_rest s.rest) (s.lin (hl op (by simp)) l)
      (fun o ho => hl o (by simp [ho])) g1
    exact ⟨c', by simp [run, h1, Except.bind, h2], g2⟩

end

end CT
