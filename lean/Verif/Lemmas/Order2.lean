import Verif.Lemmas.Order

namespace CT

noncomputable section

set_option linter.unusedSimpArgs false

/-- Same stored orders. -/
def SameOrd (c c' : Cluster) : Prop :=
  c'.rorder = c.rorder ∧ c'.rorderOrigin = c.rorderOrigin ∧ c'.rproorder = c.rproorder ∧
    c'.st.length = c.st.length

theorem SameOrd.refl (c : Cluster) : SameOrd c c := ⟨rfl, rfl, rfl, rfl⟩
theorem SameOrd.trans {a b c : Cluster} (h1 : SameOrd a b) (h2 : SameOrd b c) : SameOrd a c :=
  ⟨h2.1.trans h1.1, h2.2.1.trans h1.2.1, h2.2.2.1.trans h1.2.2.1, h2.2.2.2.trans h1.2.2.2⟩

/-- The call reaches `c'` from a state with the orders of `c`, possibly by one final analysis. -/
def Pre (c c' : Cluster) : Prop :=
  ∃ c1, SameOrd c c1 ∧ (c' = c1 ∨ ∃ s p, analyze s c1 p = .ok c')

theorem pckmsStep_ord (c : Cluster) : SameOrd c (pckmsStep c) := by
  unfold pckmsStep; repeat' split
  all_goals exact ⟨rfl, rfl, rfl, by simp⟩
theorem kpckmsStep_ord (g : Galpy) (c : Cluster) : SameOrd c (kpckmsStep g c) := by
  unfold kpckmsStep; repeat' split
  all_goals exact ⟨rfl, rfl, rfl, by simp⟩
theorem fromAmuse_ord (c : Cluster) : SameOrd c (fromAmuse c) := by
  unfold fromAmuse; split <;> exact ⟨rfl, rfl, rfl, rfl⟩
theorem mulVelLabel_ord (u : Units) (c : Cluster) : SameOrd c (mulVelLabel u c) :=
  ⟨rfl, rfl, rfl, by simp [mulVelLabel]⟩
theorem nbodyStep_ord (c : Cluster) : SameOrd c (nbodyStep c) := by
  unfold nbodyStep; split <;> exact ⟨rfl, rfl, rfl, by simp⟩
theorem nbodyBinStep_ord (c : Cluster) : SameOrd c (nbodyBinStep c) := by
  unfold nbodyBinStep; repeat' split
  all_goals exact ⟨rfl, rfl, rfl, rfl⟩
theorem galpyStep_ord (g : Galpy) (c : Cluster) : SameOrd c (galpyStep g c) := by
  unfold galpyStep; split <;> exact ⟨rfl, rfl, rfl, by simp⟩
theorem setMethod_ord (cm : Option CentreMethod) (c : Cluster) : SameOrd c (setMethod cm c) := by
  cases cm <;> exact ⟨rfl, rfl, rfl, rfl⟩

theorem toKpckms_ord {g : Galpy} {a : Bool} {c c' : Cluster} {u : Units} (hu : c.units = some u)
    (hl : u.linear) (h : toKpckms g a c = .ok c') : ∃ c1, SameOrd c c1 ∧ analyzeIf a c1 = .ok c' := by
  unfold toKpckms at h
  have hr : u ≠ .radec := by rintro rfl; exact hl
  simp only [hu, bind, hr, if_false, Except.bind] at h
  split at h
  · exact ⟨_, (pckmsStep_ord c).trans (kpckmsStep_ord g _), h⟩
  · split at h
    · exact ⟨_, (fromAmuse_ord c).trans (kpckmsStep_ord g _), h⟩
    · exact ⟨_, kpckmsStep_ord g _, h⟩

theorem toPckms_ord {g : Galpy} {a : Bool} {c c' : Cluster} {u : Units} (hu : c.units = some u)
    (hl : u.linear) (h : toPckms g a c = .ok c') : ∃ c1, SameOrd c c1 ∧ analyzeIf a c1 = .ok c' := by
  unfold toPckms at h
  simp only [hu, bind] at h
  split at h
  · obtain ⟨c1, h1, h2⟩ := bind_ok h
    obtain ⟨c0, k1, k2⟩ := toKpckms_ord hu hl h1
    cases k2
    exact ⟨_, k1.trans (pckmsStep_ord _), h2⟩
  · split at h
    · exact ⟨_, (fromAmuse_ord c).trans (pckmsStep_ord _), h⟩
    · exact ⟨_, pckmsStep_ord _, h⟩

theorem pre_of_if {a : Bool} {c c1 c' : Cluster} (h1 : SameOrd c c1) (h2 : analyzeIf a c1 = .ok c') :
    Pre c c' := by
  cases a
  · cases h2; exact ⟨_, h1, Or.inl rfl⟩
  · exact ⟨_, h1, Or.inr ⟨true, true, h2⟩⟩

/-- first stage `if p then toX false c else ok c` keeps the orders -/
theorem stage_ord {p : Prop} [Decidable p] {f : Cluster → Except Err Cluster} {c c1 : Cluster}
    (hf : ∀ c1, f c = .ok c1 → SameOrd c c1) (h : (if p then f c else .ok c) = .ok c1) : SameOrd c c1 := by
  split at h
  · exact hf _ h
  · cases h; exact .refl _

theorem toPckms_ord' {g : Galpy} {c c' : Cluster} {u : Units} (hu : c.units = some u)
    (hl : u.linear) (h : toPckms g false c = .ok c') : SameOrd c c' := by
  obtain ⟨c1, k, e⟩ := toPckms_ord hu hl h; cases e; exact k

theorem toKpckms_ord' {g : Galpy} {c c' : Cluster} {u : Units} (hu : c.units = some u)
    (hl : u.linear) (h : toKpckms g false c = .ok c') : SameOrd c c' := by
  obtain ⟨c1, k, e⟩ := toKpckms_ord hu hl h; cases e; exact k

theorem unit_pre {g : Galpy} {op : Op} {c c' : Cluster} {u t : Units} (hu : c.units = some u)
    (hl : u.linear) (ht : op.unitTarget = some t) (htl : t.linear) (h : op.exec g c = .ok c') : Pre c c' := by
  have hpck : ∀ a c', toPckms g a c = .ok c' → Pre c c' := fun a c' h => by
    obtain ⟨c1, k, e⟩ := toPckms_ord hu hl h; exact pre_of_if k e
  have hkpck : ∀ a c', toKpckms g a c = .ok c' → Pre c c' := fun a c' h => by
    obtain ⟨c1, k, e⟩ := toKpckms_ord hu hl h; exact pre_of_if k e
  have hpcm : ∀ a c', toPcmyr g a c = .ok c' → Pre c c' := fun a c' h => by
    unfold toPcmyr at h
    simp only [hu, bind] at h
    obtain ⟨c1, h1, h2⟩ := ite_bind_ok h
    have s1 := stage_ord (fun c1 => toPckms_ord' hu hl) h1
    split at h2
    · exact pre_of_if (s1.trans (mulVelLabel_ord _ _)) h2
    · cases h2; exact ⟨_, s1, Or.inl rfl⟩
  have hkpc : ∀ a c', toKpcgyr g a c = .ok c' → Pre c c' := fun a c' h => by
    unfold toKpcgyr at h
    simp only [hu, bind] at h
    obtain ⟨c1, h1, h2⟩ := ite_bind_ok h
    have s1 := stage_ord (fun c1 => toKpckms_ord' hu hl) h1
    split at h2
    · exact pre_of_if (s1.trans (mulVelLabel_ord _ _)) h2
    · cases h2; exact ⟨_, s1, Or.inl rfl⟩
  have hnb : ∀ c', toNbody g c = .ok c' → Pre c c' := fun c' h => by
    unfold toNbody at h
    simp only [hu, bind] at h
    obtain ⟨c1, h1, h2⟩ := ite_bind_ok h
    have s1 := stage_ord (fun c1 => toPckms_ord' hu hl) h1
    exact ⟨_, s1.trans ((nbodyStep_ord _).trans (nbodyBinStep_ord _)), Or.inr ⟨_, _, h2⟩⟩
  have hgal : ∀ c', toGalpy g c = .ok c' → Pre c c' := fun c' h => by
    unfold toGalpy at h
    simp only [hu, bind] at h
    obtain ⟨c1, h1, h2⟩ := ite_bind_ok h
    have s1 := stage_ord (fun c1 => toKpckms_ord' hu hl) h1
    exact ⟨_, s1.trans (galpyStep_ord _ _), Or.inr ⟨_, _, h2⟩⟩
  have hwd : ∀ c', toWD g c = .ok c' → Pre c c' := fun c' h => by
    unfold toWD at h
    simp only [hu, bind] at h
    obtain ⟨c1, h1, h2⟩ := ite_bind_ok h
    have s1 := stage_ord (fun c1 => toKpckms_ord' hu hl) h1
    split at h2
    · refine ⟨_, s1.trans ?_, Or.inr ⟨_, _, h2⟩⟩
      exact ⟨rfl, rfl, rfl, by simp⟩
    · cases h2; exact ⟨_, s1, Or.inl rfl⟩
  have ham : ∀ a c', toAmuse g a c = .ok c' → Pre c c' := fun a c' h => by
    unfold toAmuse at h
    split at h
    · obtain ⟨c1, h1, h2⟩ := bind_ok h
      refine pre_of_if ((toPckms_ord' hu hl h1).trans ?_) h2
      exact ⟨rfl, rfl, rfl, rfl⟩
    · cases h; exact ⟨_, .refl _, Or.inl rfl⟩
  cases op <;> simp only [Op.unitTarget, Option.some.injEq, reduceCtorEq] at ht
  · exact hpck _ _ h
  · exact hkpck _ _ h
  · exact hpcm _ _ h
  · exact hkpc _ _ h
  · exact hnb _ h
  · exact hgal _ h
  · exact hwd _ h
  · exact ham _ _ h
  · subst ht
    rename_i t
    simp only [Op.exec, toUnits, toUnitsNR, hu] at h
    cases t <;> simp only [Units.linear] at htl <;> simp only [reduceCtorEq, if_false] at h
    · exact hnb _ h
    · exact hpck _ _ h
    · exact hpcm _ _ h
    · exact hkpck _ _ h
    · exact hkpc _ _ h
    · exact hgal _ h
    · exact hwd _ h
    · exact ham _ _ h

theorem toCluster_pre {s : Bool} {cm : Option CentreMethod} {c c' : Cluster} {o : Origin}
    (ho : c.origin = some o) (hu : c.units ≠ some .radec) (h : toCluster s cm c = .ok c') : Pre c c' := by
  unfold toCluster at h
  have hu' : (setMethod cm c).units ≠ some .radec := by cases cm <;> exact hu
  have sm := setMethod_ord cm c
  simp only [ho, bind, hu', if_false, Except.bind] at h
  split at h
  · split at h
    · exact ⟨_, sm.trans (by exact ⟨rfl, rfl, rfl, by simp⟩), Or.inr ⟨_, _, h⟩⟩
    · split at h
      · exact ⟨_, sm.trans (by exact ⟨rfl, rfl, rfl, by simp⟩), Or.inr ⟨_, _, h⟩⟩
      · exact ⟨_, sm.trans (by exact ⟨rfl, rfl, rfl, by simp⟩), Or.inr ⟨_, _, h⟩⟩
  · cases h; exact ⟨_, sm, Or.inl rfl⟩

/-- A property of states kept by order-preserving steps and by analyses whose result describes `w`. -/
structure Kept (g : Galpy) (w : World) (P : Cluster → Prop) : Prop where
  same : ∀ {c c'}, SameOrd c c' → P c → P c'
  ana : ∀ {c c' s p}, Pos g c' → Lin c' → world g c' = some w → P c → analyze s c p = .ok c' → P c'

theorem Kept.pre {g : Galpy} {w : World} {P : Cluster → Prop} (k : Kept g w P) {c c' : Cluster}
    (p : Pos g c') (l : Lin c') (hw : world g c' = some w) (i : P c) (h : Pre c c') : P c' := by
  obtain ⟨c1, h1, h2⟩ := h
  rcases h2 with rfl | ⟨s, pr, h2⟩
  · exact k.same h1 i
  · exact k.ana p l hw (k.same h1 i) h2

theorem Kept.exec {g : Galpy} {w : World} {P : Cluster → Prop} (k : Kept g w P) {op : Op} {c c' : Cluster}
    (p : Pos g c) (l : Lin c) (hl : op.linear) (hw : world g c = some w) (i : P c)
    (h : op.exec g c = .ok c') : P c' := by
  have st := exec_step p.nz l hl h
  have p' := p.of_rest st.rest
  have l' := st.lin hl l
  have hw' : world g c' = some w := st.world.trans hw
  obtain ⟨⟨u, hu, hul⟩, ⟨o, ho, hol⟩⟩ := id l
  have hur : c.units ≠ some .radec := by rw [hu]; rintro h; cases h; exact hul
  cases ht : op.unitTarget with
  | some t => exact k.pre p' l' hw' i (unit_pre hu hul ht (hl.1 _ ht) h)
  | none =>
    have hclu : ∀ {s cm c1}, toCluster s cm c = .ok c1 → P c1 := by
      intro s cm c1 h1
      have s1 := toCluster_ostep ho hol hur h1
      refine k.pre (p.of_rest s1.rest) ⟨⟨u, s1.units.trans hu, hul⟩, ⟨_, s1.origin, trivial⟩⟩ ?_ i
        (toCluster_pre ho hur h1)
      rw [s1.world (by rw [ho]; simp), hw]
    have hcen : ∀ {s cm c1}, toCentre s cm c = .ok c1 → P c1 := by
      intro s cm c2 h2
      have s2 := toCentre_ostep ho hol hur h2
      have fin : ∀ {x y}, P y → SameOrd y x → analyze s x = .ok c2 → P c2 := by
        intro x y hy hxy ha
        refine k.ana (p.of_rest s2.rest) ⟨⟨u, s2.units.trans hu, hul⟩, ⟨_, s2.origin, trivial⟩⟩ ?_
          (k.same hxy hy) ha
        rw [s2.world (by rw [ho]; simp), hw]
      unfold toCentre at h2
      have hu' : (setMethod cm c).units ≠ some .radec := by cases cm <;> exact hur
      have sm := setMethod_ord cm c
      have om := setMethod_ostep (cm := cm) ho
      simp only [ho, bind, hu', if_false, Except.bind, pure, Except.pure] at h2
      have hclu' : ∀ {s c1}, toCluster s cm (setMethod cm c) = .ok c1 → P c1 := by
        intro s c1 h1
        have ho' : (setMethod cm c).origin = some o := om.origin
        have s1 := om.trans (toCluster_ostep (c := setMethod cm c) ho' hol hu' h1)
        refine k.pre (p.of_rest s1.rest) ⟨⟨u, s1.units.trans hu, hul⟩, ⟨_, s1.origin, trivial⟩⟩ ?_
          (k.same sm i) (toCluster_pre ho' hu' h1)
        rw [s1.world (by rw [ho]; simp), hw]
      split at h2
      · split at h2
        · split at h2
          · cases h2
          · rename_i heq
            exact fin (hclu' heq) (by exact ⟨rfl, rfl, rfl, by simp⟩) h2
        · exact fin i (sm.trans (by exact ⟨rfl, rfl, rfl, by simp⟩)) h2
      · cases h2; exact k.same sm i
    have hgal : ∀ {s c1}, toGalaxy g s c = .ok c1 → P c1 := by
      intro s c2 h2
      have s2 := toGalaxy_ostep ho hol hur h2
      have fin : ∀ {x y}, P y → SameOrd y x → analyze s x = .ok c2 → P c2 := by
        intro x y hy hxy ha
        refine k.ana (p.of_rest s2.rest) ⟨⟨u, s2.units.trans hu, hul⟩, ⟨_, s2.origin, trivial⟩⟩ ?_
          (k.same hxy hy) ha
        rw [s2.world (by rw [ho]; simp), hw]
      unfold toGalaxy at h2
      simp only [ho, bind, hur, if_false, Except.bind, pure, Except.pure] at h2
      split at h2
      · split at h2
        · split at h2
          · cases h2
          · rename_i heq
            exact fin (hclu heq) (by exact ⟨rfl, rfl, rfl, by simp⟩) h2
        · exact fin i (by exact ⟨rfl, rfl, rfl, by simp⟩) h2
      · exact fin i (.refl _) h2
    cases op <;> simp only [Op.unitTarget, reduceCtorEq] at ht
    · exact hcen h
    · exact hclu h
    · exact hgal h
    · rename_i t s cm
      have htl : t.linear := hl.2 _ rfl
      simp only [Op.exec, toOrigin, ho, bind, Except.bind] at h
      cases t <;> simp only [Origin.linear] at htl <;> simp only [Origin.target] at h
      all_goals
        split at h
        · cases h
        · rename_i heq
          first
            | exact k.ana p' l' hw' (hcen heq) h
            | exact k.ana p' l' hw' (hclu heq) h
            | exact k.ana p' l' hw' (hgal heq) h
    · exact k.ana p' l' hw' i h
    · cases h
      refine k.same ⟨(audays_core c).2.2.1, ?_, (audays_core c).2.2.2, ?_⟩ i
      · unfold toAudays; dsimp only; repeat' split
        all_goals rfl
      · exact congrArg (fun d => d.st.length) (audays_core c).1
    · cases h
      refine k.same ⟨(sudays_core c).2.2.1, ?_, (sudays_core c).2.2.2, ?_⟩ i
      · unfold toSudays; dsimp only; repeat' split
        all_goals rfl
      · exact congrArg (fun d => d.st.length) (sudays_core c).1

theorem Kept.run {g : Galpy} {w : World} {P : Cluster → Prop} (k : Kept g w P) {ops : List Op}
    {c c' : Cluster} (p : Pos g c) (l : Lin c) (hl : ∀ op ∈ ops, op.linear) (hw : world g c = some w)
    (i : P c) (h : run g ops c = .ok c') : P c' := by
  induction ops generalizing c with
  | nil => cases h; exact i
  | cons op ops ih =>
    obtain ⟨c1, h1, h2⟩ := bind_ok h
    have hl1 := hl op (by simp)
    have st := exec_step p.nz l hl1 h1
    exact ih (p.of_rest st.rest) (st.lin hl1 l) (fun o ho => hl o (by simp [ho])) (st.world.trans hw)
      (k.exec p l hl1 hw i h1) h2

theorem kept_orderInv (g : Galpy) (w : World) : Kept g w (OrderInv w) where
  same h i := i.of_eq h.1 h.2.1
  ana p l hw i h := i.analyze p l hw h

theorem sortstars_rpro (p : Bool) (r rpro : List ℝ) (c : Cluster) (o : List ℕ) (ho : c.rproorder = some o)
    (hlen : rpro.length = o.length) : (sortstars p r rpro c).rproorder = some o := by
  have key : ∀ c1 : Cluster, c1.rproorder = some o → c1.rorderOrigin = c1.origin →
      (if p || c1.projected then
        match c1.rproorder with
        | none => { c1 with rproorder := some (argsort rpro) }
        | some o =>
          if c1.rorderOrigin ≠ c1.origin ∨ rpro.length ≠ o.length then
            { c1 with rproorder := some (argsort rpro) }
          else c1
      else c1) = c1 := by
    intro c1 h1 h2
    rw [h1]
    simp [h2, hlen]
  unfold sortstars
  cases hro : c.rorder with
  | none =>
    have := key { c with rorder := some (argsort r), rorderOrigin := c.origin } ho rfl
    exact (congrArg Cluster.rproorder this).trans ho
  | some o' =>
    by_cases hc : c.rorderOrigin ≠ c.origin ∨ r.length ≠ o'.length
    · simp only [if_pos hc]
      have := key { c with rorder := some (argsort r), rorderOrigin := c.origin } ho rfl
      exact (congrArg Cluster.rproorder this).trans ho
    · simp only [if_neg hc]
      have he : c.rorderOrigin = c.origin := by
        by_contra h'; exact hc (Or.inl h')
      exact (congrArg Cluster.rproorder (key c ho he)).trans ho

/-- `analyze` never replaces a stored projected order of the right length. -/
theorem analyze_rproorder {s p : Bool} {c c' : Cluster} {o : List ℕ} (ho : c.rproorder = some o)
    (hlen : o.length = c.st.length) (h : analyze s c p = .ok c') : c'.rproorder = some o := by
  unfold analyze at h
  simp only [bind, Except.bind, pure, Except.pure] at h
  split at h
  · cases h
  · split at h
    · cases h
    · split at h
      · cases h
      · injection h with h
        rw [← h]
        cases s
        · exact ho
        · simp only [if_true]
          exact sortstars_rpro p _ _ c o ho (by simp [hlen])

theorem kept_rproorder (g : Galpy) (w : World) (o : List ℕ) :
    Kept g w (fun c => c.rproorder = some o ∧ o.length = c.st.length) where
  same h i := ⟨h.2.2.1.trans i.1, i.2.trans h.2.2.2.symm⟩
  ana _ _ _ i h := ⟨analyze_rproorder i.1 i.2 h, by
    rw [i.2]; exact congrArg List.length (core_fields (analyze_core h)).2.2.2.2.1.symm⟩

end

end CT
