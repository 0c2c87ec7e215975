import Verif.Lemmas.Order

namespace CT

noncomputable section

theorem ite_bind_of {α β : Type} {p : Prop} [Decidable p] {x y : Except Err α}
    {f : α → Except Err β} {c1 : α} {c2 : β}
    (h1 : (if p then x else y) = .ok c1) (h2 : f c1 = .ok c2) :
    (if p then x.bind f else y.bind f) = .ok c2 := by
  split at h1 <;> simp_all [Except.bind]

theorem unitScale_linear {g : Galpy} {c : Cluster} {u : Units} (h : u.linear) : ∃ s, unitScale g c u = some s := by
  cases u <;> simp only [Units.linear] at h <;> exact ⟨_, rfl⟩

/-- `return_cluster` from any admissible state describing the same world. -/
theorem return_of_world {g : Galpy} {c c1 : Cluster} {sort : Bool}
    {cm : Option CentreMethod} (p : Pos g c) (l : Lin c) (hg : Good c) (g1 : Good c1) (l1 : Lin c1)
    (hrest : c1.rest = c.rest) (hworld : world g c1 = world g c) :
    ∃ c2, returnCluster g (saveCluster c) sort cm c1 = .ok c2 ∧ c2.data = c.data ∧ Fresh c2 ∧ Good c2 ∧
      (∀ o, c.rorder = some o → c.rorderOrigin = c.origin → o.length = c.st.length →
        c2.rorder = c.rorder ∧ c2.rorderOrigin = c.rorderOrigin) ∧ c2.rest = c.rest := by
  have p1 := p.of_rest hrest
  obtain ⟨⟨u1, hu1, hul1⟩, ⟨o1, ho1, hol1⟩⟩ := l1
  obtain ⟨⟨u, hu, hul⟩, ⟨o, ho, hol⟩⟩ := l
  -- units
  obtain ⟨c2, h2, g2, s2⟩ : ∃ c2, (if c1.units ≠ some u then toUnits g u c1 else .ok c1) = .ok c2 ∧ Good c2 ∧
      UStep g u c1 c2 := by
    split
    · obtain ⟨c2, h2, g2⟩ := toUnits_total (t := u) hu1 hul1 hul p1 g1
      exact ⟨c2, h2, g2, toUnits_ustep p1.nz hu1 hul1 hul h2⟩
    · rename_i hne
      exact ⟨c1, rfl, g1, .refl (not_not.mp hne)⟩
  have ho2 : c2.origin = some o1 := s2.origin.trans ho1
  have hur2 : c2.units ≠ some .radec := by rw [s2.units]; rintro h; cases h; exact hul
  -- origin
  obtain ⟨c3, h3, g3, s3⟩ : ∃ c3, (if c2.origin ≠ some o then toOrigin g o.target sort cm c2 else .ok c2)
      = .ok c3 ∧ Good c3 ∧ OStep o c2 c3 := by
    split
    · obtain ⟨c3, h3, g3⟩ := toOrigin_total (g := g) (s := sort) (cm := cm) hol hur2 g2
      exact ⟨c3, h3, g3, toOrigin_ostep ho2 hol1 hol hur2 h3⟩
    · rename_i hne
      exact ⟨c2, rfl, g2, .refl (not_not.mp hne)⟩
  have hd : c3.data = c.data := by
    refine data_of_world p.nz (s3.rest.trans (s2.rest.trans hrest)) hu (s3.units.trans s2.units) hul ho
      s3.origin hol ?_
    exact (s3.world (by simp [ho2])).trans (s2.world.trans hworld)
  have hst : c3.st = c.st := congrArg Data.st hd
  have g4 : Good { c3 with rorder := c.rorder, rorderOrigin := c.rorderOrigin } :=
    ⟨g3.ne, g3.len, g3.mass, fun x hx => by rw [show Cluster.st { c3 with rorder := c.rorder, rorderOrigin := c.rorderOrigin } = c.st from hst]; exact hg.ro x hx, g3.rpo⟩
  obtain ⟨c4, h4, g4'⟩ := analyze_total (s := true) (p := true) g4
  have hr4 : c4.rest = c.rest :=
    (core_fields (analyze_core h4)).2.2.2.2.2.2.2.2.2.2.2.trans (s3.rest.trans (s2.rest.trans hrest))
  refine ⟨c4, ?_, ?_, analyze_fresh h4, g4', ?_, hr4⟩
  · unfold returnCluster saveCluster
    simp only [hu, ho, bind]
    refine (ite_bind_of h2 ?_)
    exact ite_bind_of h3 h4
  · exact (core_data (analyze_core h4)).trans (Eq.trans (b := c3.data) rfl hd)
  · intro ord hord horig hlen
    have ho3 : c3.origin = c.origin := congrArg Data.origin hd
    have key : ∀ (pr : Bool) (r rp : List ℝ), r.length = c.st.length →
        (sortstars pr r rp { c3 with rorder := c.rorder, rorderOrigin := c.rorderOrigin }).rorder = c.rorder ∧
        (sortstars pr r rp { c3 with rorder := c.rorder, rorderOrigin := c.rorderOrigin }).rorderOrigin
          = c.rorderOrigin := by
      intro pr r rp hr
      unfold sortstars
      simp only [hord, horig, ho3, hr, hlen]
      simp only [ne_eq, not_true_eq_false, or_self, if_false]
      repeat' split
      all_goals exact ⟨rfl, rfl⟩
    unfold analyze at h4
    simp only [bind, Except.bind, pure, Except.pure] at h4
    split at h4
    · cases h4
    · split at h4
      · cases h4
      · split at h4
        · cases h4
        · injection h4 with h4
          rw [← h4]
          exact key true _ _ (by simp [hst])

/-- `return_cluster` to given linear labels. -/
theorem return_to {g : Galpy} {c1 : Cluster} {u : Units} {o : Origin} {r : Option (List ℕ)} {ro : Option Origin}
    {sort : Bool} {cm : Option CentreMethod} (p1 : Pos g c1) (g1 : Good c1) (l1 : Lin c1) (hul : u.linear)
    (hol : o.linear) (hr : ∀ x, r = some x → IsOrder c1.st.length x) :
    ∃ c2, returnCluster g (some u, some o, r, ro) sort cm c1 = .ok c2 ∧ world g c2 = world g c1 ∧
      c2.units = some u ∧ c2.origin = some o ∧ c2.rest = c1.rest ∧ Fresh c2 ∧ Good c2 := by
  obtain ⟨⟨u1, hu1, hul1⟩, ⟨o1, ho1, hol1⟩⟩ := l1
  obtain ⟨c2, h2, g2, s2⟩ : ∃ c2, (if c1.units ≠ some u then toUnits g u c1 else .ok c1) = .ok c2 ∧ Good c2 ∧
      UStep g u c1 c2 := by
    split
    · obtain ⟨c2, h2, g2⟩ := toUnits_total (t := u) hu1 hul1 hul p1 g1
      exact ⟨c2, h2, g2, toUnits_ustep p1.nz hu1 hul1 hul h2⟩
    · rename_i hne
      exact ⟨c1, rfl, g1, .refl (not_not.mp hne)⟩
  have ho2 : c2.origin = some o1 := s2.origin.trans ho1
  have hur2 : c2.units ≠ some .radec := by rw [s2.units]; rintro h; cases h; exact hul
  obtain ⟨c3, h3, g3, s3⟩ : ∃ c3, (if c2.origin ≠ some o then toOrigin g o.target sort cm c2 else .ok c2)
      = .ok c3 ∧ Good c3 ∧ OStep o c2 c3 := by
    split
    · obtain ⟨c3, h3, g3⟩ := toOrigin_total (g := g) (s := sort) (cm := cm) hol hur2 g2
      exact ⟨c3, h3, g3, toOrigin_ostep ho2 hol1 hol hur2 h3⟩
    · rename_i hne
      exact ⟨c2, rfl, g2, .refl (not_not.mp hne)⟩
  have hw : world g c3 = world g c1 := (s3.world (by simp [ho2])).trans s2.world
  have hlen : c3.st.length = c1.st.length := by
    have hs := unitScale_linear (g := g) (c := c1) hul1
    obtain ⟨sc, hsc⟩ := hs
    obtain ⟨sc3, hsc3⟩ := unitScale_linear (g := g) (c := c3) hul
    unfold world phys at hw
    simp only [hu1, ho1, s3.units.trans s2.units, s3.origin, hsc, hsc3, Option.some.injEq, World.mk.injEq] at hw
    simpa [galRows] using congrArg List.length hw.2.2.1
  have g4 : Good { c3 with rorder := r, rorderOrigin := ro } :=
    ⟨g3.ne, g3.len, g3.mass, fun x hx => by
      rw [show Cluster.st { c3 with rorder := r, rorderOrigin := ro } = c3.st from rfl, hlen]; exact hr x hx, g3.rpo⟩
  obtain ⟨c4, h4, g4'⟩ := analyze_total (s := true) (p := true) g4
  obtain ⟨k1, k2, -, -, -, -, -, -, -, -, -, kr⟩ := core_fields (analyze_core h4)
  refine ⟨c4, ?_, ?_, k1.trans (s3.units.trans s2.units), k2.trans s3.origin, kr.trans (s3.rest.trans s2.rest),
    analyze_fresh h4, g4'⟩
  · unfold returnCluster
    simp only [bind]
    refine (ite_bind_of h2 ?_)
    exact ite_bind_of h3 h4
  · exact (world_of_data ((core_data (analyze_core h4)).trans (Eq.trans (b := c3.data) rfl rfl)) kr).trans hw

end

end CT
