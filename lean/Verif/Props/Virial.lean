/- Property theorems C45: the virial radius as a function of the cluster. -/
import Verif.Props.Session
import Verif.Props.ResetScale
import Verif.Spec.Virial
import Verif.Props.Tidal

namespace CT

noncomputable section

theorem virial_world {g : Galpy} {w : World} {c : Cluster} (d : Describes g w c) (full pr : Bool) {u : Units} {s : Scale}
    (hu : c.units = some u) (hs : unitScale g c u = some s) : virialRadius full pr c.m c.st * s.len = w.virial pr := by
  obtain ⟨-, ⟨o, ho, hol⟩⟩ := d.lin
  obtain ⟨p1, -, p3, -⟩ := unitScale_pos d.pos hs
  rw [← C45_virial_radius_units full pr c.m c.st d.good.len s p1 p3.ne', C45_virial_radius _ _ _ _ (by simpa using d.good.len)]
  have hw := d.world
  unfold world phys at hw
  simp only [hu, ho, hs, Option.some.injEq] at hw
  subst hw
  unfold World.virial pairSum
  simp only [galRows, List.length_map]
  congr 2
  refine Finset.sum_congr rfl fun i hi => Finset.sum_congr rfl fun j hj => ?_
  have hi' : i < c.st.length := Finset.mem_range.mp hi
  have hj' : j < c.st.length := (Finset.mem_Ico.mp hj).2
  congr 1
  obtain ⟨P, hP⟩ := galactocentric_isSome hol (s.ph c.c) (s.ph c.gc) (s.ph c.st[i]!)
  obtain ⟨Q, hQ⟩ := galactocentric_isSome hol (s.ph c.c) (s.ph c.gc) (s.ph c.st[j]!)
  rw [get!_map _ _ _ hi', get!_map _ _ _ hj', ← rowDist_galactocentric hP hQ]
  unfold World.apart World.star
  rw [getElem!_pos c.st i hi'] at hP
  rw [getElem!_pos c.st j hj'] at hQ
  simp only [List.getElem?_map, List.getElem?_eq_getElem hi', List.getElem?_eq_getElem hj', Option.map_some, Option.join_some, hP, hQ,
    Option.getD_some]
  rfl

/-- **C45 (the function).**  `virial_radius()` of a cluster in any linear units and origin is `M²/(2 Σ m_i m_j/r_ij)` of its stars, in the
unit of length of the cluster, by both implementations, in space and in projection; the cluster is left as it was. -/
theorem C45_function {g : Galpy} {w : World} {c : Cluster} (d : Describes g w c) (full pr : Bool) {u : Units} {s : Scale}
    (hu : c.units = some u) (hs : unitScale g c u = some s) :
    ∃ rv c', virialInverse g full pr c = .ok (rv, c') ∧ rv * s.len = w.virial pr ∧ Describes g w c' ∧ c'.data = c.data ∧ c'.rest = c.rest := by
  obtain ⟨c1, h1, d1, r1, s1⟩ : ∃ c1, (if c.units = some .amuse then toPckms g true c else .ok c) = .ok c1 ∧ Describes g w c1 ∧ c1.rest = c.rest ∧
      ∃ v t, c1.units = some v ∧ unitScale g c1 v = some t ∧ t.len = s.len := by
    by_cases h : c.units = some .amuse
    · rw [if_pos h]
      obtain ⟨c1, k1, -⟩ := toPckms_total (g := g) (a := true) h trivial d.pos d.good
      obtain ⟨a, b⟩ := (Rel.refl d).toPckms c1 k1
      have : c1.units = some .pckms := by
        have st := exec_step (op := .toPckms true) d.pos.nz d.lin (by simp [Op.linear, Op.unitTarget, Op.originTarget, Units.linear]) k1
        rw [st.units]
        rfl
      refine ⟨c1, k1, a, b, .pckms, _, this, rfl, ?_⟩
      rw [hu] at h
      cases h
      simp only [unitScale, Option.some.injEq] at hs
      rw [← hs]
    · rw [if_neg h]
      exact ⟨c, rfl, d, rfl, u, s, hu, hs, rfl⟩
  obtain ⟨v, t, hv, ht, htl⟩ := s1
  obtain ⟨c2, h2, d2, r2, u2⟩ : ∃ c2, (if c.origin ≠ some .cluster ∧ c.origin ≠ some .centre then toCentre false none c1 else .ok c1) = .ok c2 ∧
      Describes g w c2 ∧ c2.rest = c.rest ∧ c2.units = c1.units := by
    by_cases h : c.origin ≠ some .cluster ∧ c.origin ≠ some .centre
    · rw [if_pos h]
      obtain ⟨c2, k1, -⟩ := exec_total (op := .toCentre false none) d1.pos d1.lin (by simp [Op.linear, Op.unitTarget, Op.originTarget, Origin.linear]) d1.good
      obtain ⟨a, b⟩ := (Rel.refl d1).toCentre c2 k1
      have st := exec_step d1.pos.nz d1.lin (by simp [Op.linear, Op.unitTarget, Op.originTarget, Origin.linear]) k1
      exact ⟨c2, k1, a, b.trans r1, by rw [st.units]; rfl⟩
    · rw [if_neg h]
      exact ⟨c1, rfl, d1, r1, rfl⟩
  obtain ⟨c3, h3, -⟩ := return_of_world (sort := false) (cm := none) d.pos d.lin d.good d2.good d2.lin r2 (d2.world.trans d.world.symm)
  obtain ⟨a1, a2, a3⟩ := ret_back d ⟨d2, r2⟩ c3 h3
  refine ⟨virialRadius full pr c2.m c2.st, c3, ?_, ?_, a1, a3, a2⟩
  · unfold virialInverse
    simp only [bind, pure, Except.pure]
    refine ite_bind_of h1 ?_
    refine ite_bind_of (f := fun v => Except.bind (returnCluster g (saveCluster c) false none v) fun c3 =>
      Except.ok (virialRadius full pr v.m v.st, c3)) h2 ?_
    simp only [h3, Except.bind]
  · rw [← htl]
    refine virial_world d2 full pr (u2.trans hv) ?_
    have e : c2.rest = c1.rest := r2.trans r1.symm
    rw [← ht]
    exact unitScale_of_rest e v

/-- **C45 (histories).**  Asked for again after any session of conversions and analysis calls, the virial radius stands for the same
length. -/
theorem C45_ask_again {g : Galpy} {w : World} {l : List SCall} {c c' : Cluster} (hl : ∀ a ∈ l, a.Admissible w) (d : Describes g w c)
    (h : session g l c = .ok c') (full full' pr : Bool) {u v : Units} {s r : Scale}
    (hu : c.units = some u) (hs : unitScale g c u = some s) (hv : c'.units = some v) (hr : unitScale g c' v = some r) :
    ∃ a x a' x', virialInverse g full pr c = .ok (a, x) ∧ virialInverse g full' pr c' = .ok (a', x') ∧ a * s.len = a' * r.len := by
  obtain ⟨d', -⟩ := session_steps l hl d h
  obtain ⟨a, x, h1, h2, -⟩ := C45_function d full pr hu hs
  obtain ⟨a', x', h3, h4, -⟩ := C45_function d' full' pr hv hr
  exact ⟨a, x, a', x', h1, h3, h2.trans h4.symm⟩

example : ∃ (c : Cluster) (w : World) (rv : ℝ) (c' : Cluster), virialInverse demoG true false c = .ok (rv, c') ∧ rv = w.virial false ∧
    c'.data = c.data ∧ c.st = demo.st := by
  obtain ⟨c, w, hst, p, l, hg, f, hm, hM, hw, i, hu, -⟩ := demo_analysed
  obtain ⟨rv, c', h1, h2, -, h3, -⟩ := C45_function (g := demoG) (w := w) (c := c) ⟨p, l, hg, f, hw, i⟩ true false hu rfl
  refine ⟨c, w, rv, c', h1, ?_, h3, ?_⟩
  · rw [← h2]
    simp
  · exact (core_fields (analyze_core hst)).2.2.2.2.1

end

end CT
