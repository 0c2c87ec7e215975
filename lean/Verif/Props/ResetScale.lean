/- Property theorems C46: `reset_nbody_scale`. -/
import Verif.Props.Grav

namespace CT

noncomputable section

theorem rowDist_add (pr : Bool) (p q a : Ph) : rowDist pr (phAdd p a) (phAdd q a) = rowDist pr p q := by
  simp [rowDist, phAdd]

theorem rowDist_galactocentric {pr : Bool} {o : Origin} {c gc p q P Q : Ph}
    (h1 : galactocentric o c gc p = some P) (h2 : galactocentric o c gc q = some Q) :
    rowDist pr P Q = rowDist pr p q := by
  cases o <;> simp only [galactocentric, Option.some.injEq, reduceCtorEq] at h1 h2 <;> subst h1 h2 <;>
    simp [rowDist_add]

theorem galactocentric_isSome {o : Origin} (ho : o.linear) (c gc p : Ph) :
    ∃ P, galactocentric o c gc p = some P := by
  cases o <;> simp [Origin.linear] at ho <;> simp [galactocentric]

/-- Two labelled clusters describing the same world have the same physical masses and the same physical
pairwise separations. -/
theorem world_pairs {g : Galpy} {c c' : Cluster} {u u' : Units} {o o' : Origin} {s s' : Scale}
    (hu : c.units = some u) (hu' : c'.units = some u') (ho : c.origin = some o) (ho' : c'.origin = some o')
    (hol : o.linear) (hol' : o'.linear)
    (hs : unitScale g c u = some s) (hs' : unitScale g c' u' = some s')
    (h : world g c' = world g c) :
    c'.m.map (· * s'.mass) = c.m.map (· * s.mass) ∧ c'.st.length = c.st.length ∧
    ∀ (pr : Bool) (i j : ℕ), i < c.st.length → j < c.st.length →
      rowDist pr (s'.ph c'.st[i]!) (s'.ph c'.st[j]!) = rowDist pr (s.ph c.st[i]!) (s.ph c.st[j]!) := by
  unfold world phys at h
  simp only [hu, hu', ho, ho', hs, hs', Option.some.injEq, World.mk.injEq] at h
  obtain ⟨-, h2, h3, -, -⟩ := h
  have hl : c'.st.length = c.st.length := by simpa [galRows] using congrArg List.length h3
  refine ⟨h2, hl, fun pr i j hi hj => ?_⟩
  have key : ∀ k, k < c.st.length → galactocentric o' (s'.ph c'.c) (s'.ph c'.gc) (s'.ph c'.st[k]!)
      = galactocentric o (s.ph c.c) (s.ph c.gc) (s.ph c.st[k]!) := by
    intro k hk
    have := congrArg (fun l => l[k]?) h3
    simp only [galRows, List.getElem?_map] at this
    rw [List.getElem?_eq_getElem hk, List.getElem?_eq_getElem (hl ▸ hk)] at this
    simp only [Option.map_some, Option.some.injEq] at this
    rw [getElem!_pos c'.st k (hl ▸ hk), getElem!_pos c.st k hk]
    exact this
  obtain ⟨P, hP⟩ := galactocentric_isSome hol (s.ph c.c) (s.ph c.gc) (s.ph c.st[i]!)
  obtain ⟨Q, hQ⟩ := galactocentric_isSome hol (s.ph c.c) (s.ph c.gc) (s.ph c.st[j]!)
  rw [← rowDist_galactocentric hP hQ]
  exact (rowDist_galactocentric ((key i hi).trans hP) ((key j hj).trans hQ)).symm

theorem virialRadius_of_pairs {full pr : Bool} {m m' : List ℝ} {st st' : List Ph} (hm : m' = m)
    (hl : st'.length = st.length) (hml : m.length = st.length)
    (hd : ∀ i j, i < st.length → j < st.length → rowDist pr st'[i]! st'[j]! = rowDist pr st[i]! st[j]!) :
    virialRadius full pr m' st' = virialRadius full pr m st := by
  subst hm
  rw [C45_virial_radius _ _ _ _ (by omega), C45_virial_radius _ _ _ _ hml, hl]
  congr 2
  unfold pairSum
  refine Finset.sum_congr rfl fun i hi => Finset.sum_congr rfl fun j hj => ?_
  simp only []
  rw [hd i j (Finset.mem_range.mp hi) (Finset.mem_Ico.mp hj).2]

/-- C45 (frames and units): the physical virial radius depends only on the world described, not on the units or
origin the cluster happens to be in. -/
theorem C45_virial_radius_world (g : Galpy) (full pr : Bool) (c c' : Cluster) (u u' : Units) (s s' : Scale)
    (p : Pos g c) (l : Lin c) (l' : Lin c') (p' : Pos g c') (hlen : c.m.length = c.st.length)
    (hu : c.units = some u) (hu' : c'.units = some u')
    (hs : unitScale g c u = some s) (hs' : unitScale g c' u' = some s') (hw : world g c' = world g c) :
    virialRadius full pr c'.m c'.st * s'.len = virialRadius full pr c.m c.st * s.len := by
  obtain ⟨-, ⟨o, ho, hol⟩⟩ := l
  obtain ⟨-, ⟨o', ho', hol'⟩⟩ := l'
  obtain ⟨hm, hl, hd⟩ := world_pairs hu hu' ho ho' hol hol' hs hs' hw
  have pos : ∀ {c : Cluster} {u : Units} {s : Scale}, Pos g c → unitScale g c u = some s →
      0 < s.len ∧ s.mass ≠ 0 := by
    intro c u s p hs
    cases u <;> simp only [unitScale, Option.some.injEq, reduceCtorEq] at hs <;> subst hs <;>
      constructor <;> norm_num [p.rbar, p.ro, p.zmbar.ne', p.mass.ne', mconWD]
  have hlm : c'.m.length = c'.st.length := by
    have := congrArg List.length hm; simp at this; omega
  rw [← C45_virial_radius_units full pr c.m c.st hlen s (pos p hs).1 (pos p hs).2,
    ← C45_virial_radius_units full pr c'.m c'.st hlm s' (pos p' hs').1 (pos p' hs').2]
  refine virialRadius_of_pairs hm (by simpa using hl) (by simpa using hlen) ?_
  intro i j hi hj
  simp only [List.length_map] at hi hj
  rw [get!_map _ _ _ hi, get!_map _ _ _ hj, get!_map _ _ _ (hl ▸ hi), get!_map _ _ _ (hl ▸ hj)]
  exact hd pr i j hi hj

/-- The unit meanings of everything but `nbody` do not involve the N-body scales. -/
theorem phys_of_data {g : Galpy} {c c' : Cluster} (h : c'.data = c.data) (hn : c.units ≠ some .nbody) :
    phys g c' = phys g c := by
  have h1 : c'.units = c.units := congrArg Data.units h
  have h2 : c'.tphys = c.tphys := congrArg Data.tphys h
  have h3 : c'.m = c.m := congrArg Data.m h
  have h4 : c'.st = c.st := congrArg Data.st h
  have h5 : c'.c = c.c := congrArg Data.c h
  have h6 : c'.gc = c.gc := congrArg Data.gc h
  unfold phys
  rw [h1]
  cases hu : c.units with
  | none => rfl
  | some u =>
    have : unitScale g c' u = unitScale g c u := by
      cases u <;> first | rfl | exact absurd hu hn
    simp only [this, h2, h3, h4, h5, h6]

/-- C46 (what is computed, default options): from any linear units and origin, `reset_nbody_scale` returns; the
caller's data are exactly restored; `zmbar` is the physical total mass (Msun), `rbar` the physical virial
radius (pc). -/
theorem C46_reset_scales (g : Galpy) (c : Cluster) (u : Units) (s : Scale) (pr : Bool) (p : Pos g c) (l : Lin c)
    (hg : Good c) (hu : c.units = some u) (hs : unitScale g c u = some s) :
    ∃ c', resetNbodyScale g true true true pr c = .ok c' ∧ c'.data = c.data ∧
      c'.zmbar = c.m.sum * s.mass ∧ c'.rbar = virialRadius true pr c.m c.st * s.len ∧
      c'.vbar = 0.06557 * Real.sqrt (c'.zmbar / c'.rbar) ∧ c'.tbar = c'.rbar / (1.023 * c'.vbar) := by
  obtain ⟨o, ho, hol⟩ := l.origin
  obtain ⟨u0, hu0, hul⟩ := l.units
  rw [hu] at hu0; cases hu0
  have hur : c.units ≠ some .radec := by rw [hu]; rintro h; cases h; exact hul
  -- the two conversions as a history
  set ops : List Op := if c.origin ≠ some .cluster ∧ c.origin ≠ some .centre then
    [.toCentre true none, .toPckms true] else [.toPckms true] with hops
  have hlin : ∀ op ∈ ops, op.linear := by
    rw [hops]; split <;> simp [Op.linear, Op.unitTarget, Op.originTarget, Units.linear, Origin.linear]
  obtain ⟨c2, h2, g2⟩ := run_total p l hlin hg
  have st := run_steps p.nz l hlin h2
  obtain ⟨c3, h3, hd, -⟩ := C09_return_restores g c c2 ops false none p l hg hlin h2
  have hu2 : c2.units = some .pckms := by rw [st.units, hops]; split <;> rfl
  have hsplit : ∃ c1, (if c.origin ≠ some .cluster ∧ c.origin ≠ some .centre then toCentre true none c
      else .ok c) = .ok c1 ∧ toPckms g true c1 = .ok c2 := by
    rw [hops] at h2
    split at h2
    · rename_i hc
      simp only [run, Op.exec] at h2
      obtain ⟨c1, k1, k2⟩ := bind_ok h2
      obtain ⟨c2', k3, k4⟩ := bind_ok k2
      cases k4
      exact ⟨c1, by rw [if_pos hc]; exact k1, k3⟩
    · rename_i hc
      simp only [run, Op.exec] at h2
      obtain ⟨c2', k3, k4⟩ := bind_ok h2
      cases k4
      exact ⟨c, by rw [if_neg hc], k3⟩
  obtain ⟨c1, k1, k2⟩ := hsplit
  have hz : c2.m.sum = c.m.sum * s.mass := by
    obtain ⟨o2, ho2, hol2⟩ := st.lin.origin
    have hw := world_pairs (g := g) hu hu2 ho ho2 hol hol2 hs rfl st.world
    have := congrArg List.sum hw.1
    rw [sum_map_mul, sum_map_mul] at this
    simpa using this
  have hr : virialRadius true pr c2.m c2.st = virialRadius true pr c.m c.st * s.len := by
    have := C45_virial_radius_world g true pr c c2 u .pckms s _ p l st.lin (p.of_rest st.rest) hg.len hu hu2 hs
      rfl st.world
    simpa using this
  refine ⟨{ c3 with
    zmbar := c2.m.sum, rbar := virialRadius true pr c2.m c2.st
    vbar := 0.06557 * Real.sqrt (c2.m.sum / virialRadius true pr c2.m c2.st)
    tbar := virialRadius true pr c2.m c2.st /
      (1.023 * (0.06557 * Real.sqrt (c2.m.sum / virialRadius true pr c2.m c2.st))) }, ?_, hd, hz, hr, ?_, ?_⟩
  · unfold resetNbodyScale
    simp only [bind]
    have : ∀ (f : Cluster → Except Err Cluster), (if c.origin ≠ some .cluster ∧ c.origin ≠ some .centre then
        (toCentre true none c).bind f else (Except.ok c : Except Err Cluster).bind f) = f c1 := by
      intro f
      split at k1 <;> rename_i hc
      · rw [if_pos hc, k1]; rfl
      · rw [if_neg hc, k1]; rfl
    rw [this]
    simp only [k2, Except.bind, if_true, h3, pure, Except.pure]
  · rfl
  · rfl

/-- C46 (other units): for a cluster whose units are not `nbody`, the call changes nothing physical. -/
theorem C46_reset_preserves_physics_partial (g : Galpy) (c c' : Cluster) (u : Units) (s : Scale) (pr : Bool)
    (p : Pos g c) (l : Lin c) (hg : Good c) (hu : c.units = some u) (hs : unitScale g c u = some s)
    (hn : u ≠ .nbody) (h : resetNbodyScale g true true true pr c = .ok c') : phys g c' = phys g c := by
  obtain ⟨c2, h2, hd, -⟩ := C46_reset_scales g c u s pr p l hg hu hs
  rw [h] at h2; cases h2
  exact phys_of_data hd (by rw [hu]; simpa using hn)

/-- C46 is false of the code for a cluster in `nbody` units: the cluster is returned to N-body numbers with the
*old* scales and only then are the new scales stored, so as soon as the new mass scale differs from the old one
(and some star has mass) the physical masses change. -/
theorem C46_reset_in_nbody_violated (g : Galpy) (c : Cluster) (pr : Bool) (p : Pos g c) (l : Lin c)
    (hg : Good c) (hu : c.units = some .nbody) (hm : c.m.sum ≠ 0) (hne : c.m.sum ≠ 1) :
    ∃ c', resetNbodyScale g true true true pr c = .ok c' ∧ phys g c' ≠ phys g c := by
  obtain ⟨c2, h2, hd, hz, -⟩ := C46_reset_scales g c .nbody _ pr p l hg hu rfl
  refine ⟨c2, h2, fun h => ?_⟩
  have hu2 : c2.units = some .nbody := (congrArg Data.units hd :).trans hu
  have hm2 : c2.m = c.m := congrArg Data.m hd
  unfold phys at h
  simp only [hu, hu2, unitScale, Option.some.injEq, Phys.mk.injEq, hm2] at h
  have := congrArg List.sum h.2.1
  rw [sum_map_mul, sum_map_mul, hz] at this
  simp only at this
  have hzp := p.zmbar
  have : c.m.sum * c.zmbar * (c.m.sum - 1) = 0 := by linarith
  rcases mul_eq_zero.mp this with h | h
  · rcases mul_eq_zero.mp h with h | h
    · exact hm h
    · exact hzp.ne' h
  · exact hne (by linarith)

example : ∃ c', resetNbodyScale demoG true true true false { demo with units := some .nbody } = .ok c' ∧
    phys demoG c' ≠ phys demoG { demo with units := some .nbody } :=
  C46_reset_in_nbody_violated demoG { demo with units := some .nbody } false
    ⟨demo_pos.rbar, demo_pos.vbar, demo_pos.zmbar, demo_pos.tbar, demo_pos.ro, demo_pos.vo, demo_pos.time,
      demo_pos.mass, demo_pos.vel⟩
    ⟨⟨_, rfl, trivial⟩, demo_lin.origin⟩ (demo_good.same rfl rfl rfl rfl) rfl (by norm_num [demo])
    (by norm_num [demo])

end

end CT
