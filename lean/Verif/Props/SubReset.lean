/- Property theorems C167, C168: new N-body scales. -/
import Verif.Model.SubReset
import Verif.Spec.SubReset
import Verif.Props.Virial
import Verif.Spec.Mutate
import Verif.Lemmas.CrashRun
import Verif.Props.FortOut
import Verif.Props.Subset4

namespace CT

noncomputable section

/-- Sorting again does nothing. -/
theorem sortstars_again {c : Cluster} {r rp : List ℝ} {o q : List ℕ} (ho : c.rorder = some o) (hs : c.rorderOrigin = c.origin) (hl : r.length = o.length)
    (hq : c.rproorder = some q) (hl2 : rp.length = q.length) : sortstars true r rp c = c := by
  unfold sortstars
  simp [ho, hs, hl, hq, hl2]

theorem sortstars_rproorder {c : Cluster} {r rp : List ℝ} : ∃ q, (sortstars true r rp c).rproorder = some q := by
  have key : ∀ c1 : Cluster, ∃ q, (match c1.rproorder with
      | none => { c1 with rproorder := some (argsort rp) }
      | some o => if c1.rorderOrigin ≠ c1.origin ∨ rp.length ≠ o.length then { c1 with rproorder := some (argsort rp) } else c1).rproorder = some q := by
    intro c1
    cases h : c1.rproorder with
    | none => exact ⟨_, rfl⟩
    | some o =>
      simp only []
      split
      · exact ⟨_, rfl⟩
      · exact ⟨o, h⟩
  unfold sortstars
  simp only [Bool.true_or, if_true]
  exact key _

/-- After `analyze` the stars are in order. -/
theorem analyzed_sorted {c c' : Cluster} (h : analyze true c = .ok c') (hg : Good c') : sortstars true c'.d.r c'.d.rpro c' = c' := by
  have f := analyze_fresh h
  obtain ⟨o, h1, h2, -⟩ := analyze_rorder_sorted h
  have k := core_fields (analyze_core h)
  obtain ⟨q, hq⟩ : ∃ q, c'.rproorder = some q := by
    have h' := h
    unfold analyze at h'
    simp only [bind, Except.bind, pure, Except.pure] at h'
    split at h'
    · cases h'
    · split at h'
      · cases h'
      · split at h'
        · cases h'
        · injection h' with h'
          subst h'
          exact sortstars_rproorder
  refine sortstars_again h1 (by rw [h2, k.2.1]) ?_ hq ?_
  · rw [fresh_r f, List.length_map, (hg.ro o h1).length_eq, List.length_range]
  · rw [fresh_rpro f, List.length_map, (hg.rpo q hq).length_eq, List.length_range]

/-- Giving a cluster other scales. -/
def withScales (c : Cluster) (z b : ℝ) : Cluster :=
  { c with
    zmbar := z
    rbar := b
    vbar := 0.06557 * Real.sqrt (z / b)
    tbar := b / (1.023 * (0.06557 * Real.sqrt (z / b))) }

theorem withScales_scales (c : Cluster) (z b : ℝ) : Scales (withScales c z b) z b := ⟨rfl, rfl, rfl, rfl⟩

theorem withScales_describes {g : Galpy} {w : World} {c : Cluster} {z b : ℝ} (d : Describes g w c) (hu : c.units ≠ some .nbody) (hz : 0 < z) (hb : 0 < b) :
    Describes g w (withScales c z b) := by
  have hv : 0 < 0.06557 * Real.sqrt (z / b) := by
    have : 0 < Real.sqrt (z / b) := Real.sqrt_pos.mpr (div_pos hz hb)
    positivity
  refine ⟨⟨hb, hv, hz, by show 0 < b / (1.023 * _); positivity, d.pos.ro, d.pos.vo, d.pos.time, d.pos.mass, d.pos.vel⟩, ⟨d.lin.1, d.lin.2⟩,
    ⟨d.good.ne, d.good.len, d.good.mass, d.good.ro, d.good.rpo⟩,
    ⟨d.fresh.units, d.fresh.origin, d.fresh.r, d.fresh.rpro, d.fresh.v, d.fresh.vpro, d.fresh.mtot, d.fresh.mmean, d.fresh.rmean,
      d.fresh.rmeanpro, d.fresh.rmax, d.fresh.rmaxpro⟩, ?_, d.order.of_eq rfl rfl⟩
  refine Eq.trans ?_ d.world
  unfold world
  have : phys g (withScales c z b) = phys g c := phys_of_data rfl hu
  rw [this]
  rfl

/-- The value of the call when no keyword is given twice. -/
theorem resetNbodyScaleT_value {g : Galpy} {m r v pr : Bool} {kw : List VirialKw} {c : Cluster} (hk : r = true → v = true → kw = []) :
    (resetNbodyScaleT g m r v pr kw c).value = resetNbodyScale g m r v pr c := by
  have fin : ∀ (c2 : Cluster) (b : ℝ), (do
      let c3 ← retT g (saveCluster c) false none c2
      Tr.step (.ok { c3 with
        zmbar := if m then c2.m.sum else c2.zmbar
        rbar := b
        vbar := 0.06557 * Real.sqrt ((if m then c2.m.sum else c2.zmbar) / b)
        tbar := b / (1.023 * (0.06557 * Real.sqrt ((if m then c2.m.sum else c2.zmbar) / b))) }) : Tr Cluster).value = (do
      let c3 ← returnCluster g (saveCluster c) false none c2
      return { c3 with
        zmbar := if m then c2.m.sum else c2.zmbar
        rbar := b
        vbar := 0.06557 * Real.sqrt ((if m then c2.m.sum else c2.zmbar) / b)
        tbar := b / (1.023 * (0.06557 * Real.sqrt ((if m then c2.m.sum else c2.zmbar) / b))) }) := by
    intro c2 b
    rw [Tr.value_bind, retT_value]
    rfl
  have key : ∀ c1 : Cluster, (do
      let c2 ← Tr.step (toPckms g true c1)
      let zmbar := if m then c2.m.sum else c2.zmbar
      let rbar ←
        if r then
          if v then
            if kw ≠ [] then Tr.error .typeError else Tr.ok (virialRadius true pr c2.m c2.st)
          else match c2.d.rm with
            | some rm => Tr.ok (4 * rm / 3)
            | none => Tr.error .valueError
        else Tr.ok c2.rbar
      let vbar := 0.06557 * Real.sqrt (zmbar / rbar)
      let tbar := rbar / (1.023 * vbar)
      let c3 ← retT g (saveCluster c) false none c2
      Tr.step (.ok { c3 with zmbar := zmbar, rbar := rbar, vbar := vbar, tbar := tbar }) : Tr Cluster).value = (do
      let c2 ← toPckms g true c1
      let zmbar := if m then c2.m.sum else c2.zmbar
      let rbar ←
        if r then
          if v then .ok (virialRadius true pr c2.m c2.st)
          else match c2.d.rm with
            | some rm => .ok (4 * rm / 3)
            | none => .error .valueError
        else .ok c2.rbar
      let vbar := 0.06557 * Real.sqrt (zmbar / rbar)
      let tbar := rbar / (1.023 * vbar)
      let c3 ← returnCluster g (saveCluster c) false none c2
      return { c3 with zmbar := zmbar, rbar := rbar, vbar := vbar, tbar := tbar }) := by
    intro c1
    rw [Tr.value_bind, Tr.value_step]
    refine bind_congr fun c2 => ?_
    cases r
    · exact fin c2 _
    · cases v
      · cases hrm : c2.d.rm with
        | none => simp only [hrm]; rfl
        | some rm => simp only [hrm]; exact fin c2 _
      · have := hk rfl rfl
        simp only [this, if_true, ne_eq, not_true, if_false]
        exact fin c2 _
  unfold resetNbodyScaleT resetNbodyScale
  simp only []
  split
  · rw [Tr.value_bind, Tr.value_step]
    exact bind_congr fun c1 => key c1
  · exact key c

theorem World.len_stars {g : Galpy} {w : World} {c : Cluster} (hw : world g c = some w) : w.stars.length = c.st.length := world_length hw

/-- `reset_nbody_scale` after `analyze`, with the length unit asked for. -/
theorem resetScale_run {g : Galpy} {w : World} {m v pr : Bool} {c x : Cluster} (d : Describes g w c) (hx : analyze true x = .ok c) (hm : ∀ y ∈ c.m, 0 ≤ y) :
    ∃ c3 L, resetNbodyScale g m true v pr c = .ok (withScales c3 (if m then w.mass.sum else c.zmbar) L) ∧ Back g w c c3 ∧
      w.UnitOfLength (workFrame c) v pr L := by
  obtain ⟨c2, h2, ip⟩ := in_pc d.pos d.lin d.good d.fresh hm d.world d.order
  have d2 : Describes g w c2 := ⟨d.pos.of_rest ip.rest, ip.lin, ip.good, ip.fresh, ip.world, ip.order⟩
  obtain ⟨c3, h3, e3, f3, g3, -, r3⟩ := return_of_world (sort := false) (cm := none) d.pos d.lin d.good ip.good ip.lin ip.rest (ip.world.trans d.world.symm)
  have b3 : Back g w c c3 := ret_back d ⟨d2, ip.rest⟩ c3 h3
  obtain ⟨hz2, hrb2, -, -⟩ := rest_scales ip.rest
  obtain ⟨ρ, hρ, hρ'⟩ := ip.rm
  have hv : virialRadius true pr c2.m c2.st = w.virial pr := by
    have := virial_world d2 true pr ip.units (s := ⟨1, 1, 1, 1⟩) rfl
    simpa using this
  have hn : c.st.length = w.stars.length := (world_length d.world).symm
  obtain ⟨c1, k1, k2⟩ : ∃ c1, (if c.origin ≠ some .cluster ∧ c.origin ≠ some .centre then toCentre true none c else .ok c) = .ok c1 ∧
      toPckms g true c1 = .ok c2 := by
    unfold pcStart at h2
    by_cases hc : c.origin ≠ some .cluster ∧ c.origin ≠ some .centre
    · rw [if_pos hc] at h2 ⊢
      exact bind_ok h2
    · rw [if_neg hc] at h2 ⊢
      rw [analyzed_sorted hx d.good] at h2
      exact bind_ok h2
  have go : ∀ (f : Cluster → Except Err Cluster), (if c.origin ≠ some .cluster ∧ c.origin ≠ some .centre then
      (toCentre true none c).bind f else (Except.ok c : Except Err Cluster).bind f) = f c1 := by
    intro f
    split at k1 <;> rename_i hc
    · rw [if_pos hc, k1]; rfl
    · rw [if_neg hc, k1]; rfl
  cases v
  · refine ⟨c3, 4 * ρ / 3, ?_, b3, ?_⟩
    · unfold resetNbodyScale
      simp only [bind]
      rw [go]
      simp only [k2, Except.bind, if_true, hρ, h3, pure, Except.pure, Bool.false_eq_true, if_false, ip.mass, hz2]
      rfl
    · show ∃ ρ, _
      exact ⟨ρ, hn ▸ hρ', rfl⟩
  · refine ⟨c3, w.virial pr, ?_, b3, rfl⟩
    unfold resetNbodyScale
    simp only [bind]
    rw [go]
    rw [ip.mass] at hv
    simp only [k2, Except.bind, if_true, hv, h3, pure, Except.pure, ip.mass, hz2]
    rfl

/-- The new scales of a cluster. -/
theorem newScales_run {g : Galpy} {w : World} {a : ResetArgs} {c : Cluster} (p : Pos g c) (l : Lin c) (hg : Good c) (hw : world g c = some w)
    (i : OrderInv w c) (hm : ∀ y ∈ c.m, 0 ≤ y) (ha : (a.nbody || a.mass || a.radii) = true) (hk : a.rvirial = true → a.kw = [])
    (hz : 0 < if a.nbody || a.mass then w.mass.sum else c.zmbar) (hL : ∀ L, w.UnitOfLength (workFrame c) a.rvirial a.projected L → 0 < L) :
    ∃ c' L, newScales g a c = .ok c' ∧ Describes g w c' ∧ c'.units = some .pckms ∧ c'.origin = c.origin ∧
      Scales c' (if a.nbody || a.mass then w.mass.sum else c.zmbar) L ∧ w.UnitOfLength (workFrame c) a.rvirial a.projected L := by
  obtain ⟨u, hu, hul⟩ := l.units
  have hl : (Op.toPckms true).linear := by simp [Op.linear, Op.unitTarget, Op.originTarget, Units.linear]
  obtain ⟨c1, h1, g1⟩ := toPckms_total (a := true) hu hul p hg
  have st := exec_step (op := .toPckms true) p.nz l hl h1
  have us := toPckms_ustep hu hul h1
  have i1 := (kept_orderInv g w).exec (op := .toPckms true) p l hl hw i h1
  have p1 := p.of_rest st.rest
  have l1 := st.lin hl l
  have w1 : world g c1 = some w := st.world.trans hw
  obtain ⟨c2, h2, g2⟩ := analyze_total (s := true) (p := true) g1
  have hc := analyze_core h2
  obtain ⟨k1, k2, -, k4, -, -, -, -, -, -, -, kr⟩ := core_fields hc
  have p2 := p1.of_rest kr
  have l2 : Lin c2 := ⟨by rw [k1]; exact l1.1, by rw [k2]; exact l1.2⟩
  have w2 : world g c2 = some w := (world_core hc).trans w1
  have d2 : Describes g w c2 := ⟨p2, l2, g2, analyze_fresh h2, w2, i1.analyze p2 l2 w2 h2⟩
  have hu2 : c2.units = some .pckms := k1.trans us.units
  have ho2 : c2.origin = c.origin := k2.trans us.origin
  have hm2 : ∀ y ∈ c2.m, 0 ≤ y := by
    obtain ⟨s, hs⟩ := unitScale_isSome (g := g) (c := c) hul
    have e1 := world_mass hw hu hs
    have e2 := world_mass w2 hu2 (s := ⟨1, 1, 1, 1⟩) rfl
    simp only [mul_one, List.map_id'] at e2
    rw [← e2, e1]
    intro y hy
    obtain ⟨z, hz, rfl⟩ := List.mem_map.mp hy
    exact mul_nonneg (hm z hz) (unitScale_pos p hs).2.2.1.le
  have hz2 : c2.zmbar = c.zmbar := (rest_scales (kr.trans st.rest)).1
  have hwf : workFrame c2 = workFrame c := by unfold workFrame; rw [ho2]
  obtain ⟨c3, L, h3, b3, hL3⟩ := resetScale_run (m := a.nbody || a.mass) (v := a.rvirial) (pr := a.projected) d2 h2 hm2
  rw [hwf] at hL3
  rw [hz2] at h3
  have hu3 : c3.units = some .pckms := (congrArg Data.units b3.2.2).trans hu2
  have ho3 : c3.origin = c.origin := (congrArg Data.origin b3.2.2).trans ho2
  refine ⟨_, L, ?_, withScales_describes b3.1 (by rw [hu3]; simp) hz (hL L hL3), hu3, ho3, withScales_scales .., hL3⟩
  unfold newScales
  have hv := fun m => resetNbodyScaleT_value (g := g) (m := m) (r := true) (v := a.rvirial) (pr := a.projected) (kw := a.kw) (c := c2) (fun _ => hk)
  cases hn : a.nbody
  · have ha' : (a.mass || a.radii) = true := by simpa [hn] using ha
    rw [hn, Bool.false_or] at h3
    simp only [Bool.false_eq_true, if_false, ha', if_true, h1, h2, hv, bind, Except.bind, h3, Bool.false_or]
  · rw [hn, Bool.true_or] at h3
    simp only [if_true, h1, h2, hv, bind, Except.bind, h3, Bool.true_or]

/-- Lines 4209-4224: the new cluster, in the units of the parent, with the new scales. -/
theorem finishSub_run {g : Galpy} {w : World} {a : ResetArgs} {c : Cluster} {u : Units} (p : Pos g c) (l : Lin c) (hg : Good c) (hw : world g c = some w)
    (i : OrderInv w c) (hm : ∀ y ∈ c.m, 0 ≤ y) (ha : (a.nbody || a.mass || a.radii) = true) (hk : a.rvirial = true → a.kw = [])
    (hz : 0 < if a.nbody || a.mass then w.mass.sum else c.zmbar) (hL : ∀ L, w.UnitOfLength (workFrame c) a.rvirial a.projected L → 0 < L)
    (hu : c.units = some u) (sort : Bool) :
    ∃ c' L, finishSub g a sort (some u) c = .ok c' ∧ Describes g w c' ∧ c'.units = some u ∧ c'.origin = c.origin ∧
      Scales c' (if a.nbody || a.mass then w.mass.sum else c.zmbar) L ∧ w.UnitOfLength (workFrame c) a.rvirial a.projected L := by
  obtain ⟨c1, L, h1, d1, hu1, ho1, sc, hL1⟩ := newScales_run p l hg hw i hm ha hk hz hL
  obtain ⟨u', hu', hul⟩ := l.units
  rw [hu] at hu'; cases hu'
  obtain ⟨c2, h2, d2, r2, hu2, ho2⟩ : ∃ c2, (if c1.units ≠ some u then toUnits g u c1 else .ok c1) = .ok c2 ∧ Describes g w c2 ∧ c2.rest = c1.rest ∧
      c2.units = some u ∧ c2.origin = c1.origin := by
    by_cases hne : c1.units ≠ some u
    · rw [if_pos hne]
      obtain ⟨c2, h2, -⟩ := toUnits_total (t := u) hu1 trivial hul d1.pos d1.good
      obtain ⟨d2, r2⟩ := toUnits_rel (w := w) hul (Rel.refl d1) c2 h2
      have us := toUnits_ustep d1.pos.nz hu1 trivial hul h2
      exact ⟨c2, h2, d2, r2, us.units, us.origin⟩
    · rw [if_neg hne]
      exact ⟨c1, rfl, d1, rfl, not_not.mp hne, rfl⟩
  obtain ⟨c3, h3, g3⟩ := analyze_total (s := sort) (p := true) d2.good
  have hc := analyze_core h3
  obtain ⟨k1, k2, -, -, -, -, -, -, -, -, -, kr⟩ := core_fields hc
  have p3 := d2.pos.of_rest kr
  have l3 : Lin c3 := ⟨by rw [k1]; exact d2.lin.1, by rw [k2]; exact d2.lin.2⟩
  have w3 : world g c3 = some w := (world_core hc).trans d2.world
  obtain ⟨q1, q2, q3, q4⟩ := rest_scales (kr.trans r2)
  refine ⟨c3, L, ?_, ⟨p3, l3, g3, analyze_fresh h3, w3, d2.order.analyze p3 l3 w3 h3⟩, k1.trans hu2, k2.trans (ho2.trans ho1),
    ⟨q1.trans sc.mass, q2.trans sc.len, q3.trans sc.vel, q4.trans sc.time⟩, hL1⟩
  unfold finishSub
  simp only [h1, bind, Except.bind]
  split at h2 <;> rename_i hne
  · rw [if_pos hne, h2]; exact h3
  · cases h2; rw [if_neg hne]; exact h3

/-- What the copying of the other columns does not touch. -/
theorem copied_scales {mask : List Bool} {p : Full} {t : Tab} : (copied mask p (fresh p t)).tab.base.zmbar = p.tab.base.zmbar ∧
    (copied mask p (fresh p t)).tab.base.rbar = p.tab.base.rbar ∧ (copied mask p (fresh p t)).tab.base.vbar = p.tab.base.vbar ∧
    (copied mask p (fresh p t)).tab.base.tbar = p.tab.base.tbar ∧ (copied mask p (fresh p t)).tab.base.rorderOrigin = t.base.rorderOrigin ∧
    (copied mask p (fresh p t)).tab.base.d = t.base.d := by
  have key : ∀ s : Full, (subOrbit p (subEnergies mask p (subBse mask p (subSse mask p s)))).tab.base.zmbar = s.tab.base.zmbar ∧
      (subOrbit p (subEnergies mask p (subBse mask p (subSse mask p s)))).tab.base.rbar = s.tab.base.rbar ∧
      (subOrbit p (subEnergies mask p (subBse mask p (subSse mask p s)))).tab.base.vbar = s.tab.base.vbar ∧
      (subOrbit p (subEnergies mask p (subBse mask p (subSse mask p s)))).tab.base.tbar = s.tab.base.tbar ∧
      (subOrbit p (subEnergies mask p (subBse mask p (subSse mask p s)))).tab.base.rorderOrigin = s.tab.base.rorderOrigin ∧
      (subOrbit p (subEnergies mask p (subBse mask p (subSse mask p s)))).tab.base.d = s.tab.base.d := by
    intro s
    have e1 : ∀ x : Full, (subEnergies mask p x).tab = x.tab := by
      intro x; unfold subEnergies; split <;> rfl
    have e2 : ∀ x : Full, (subBse mask p x).tab.base.zmbar = x.tab.base.zmbar ∧ (subBse mask p x).tab.base.rbar = x.tab.base.rbar ∧
        (subBse mask p x).tab.base.vbar = x.tab.base.vbar ∧ (subBse mask p x).tab.base.tbar = x.tab.base.tbar ∧
        (subBse mask p x).tab.base.rorderOrigin = x.tab.base.rorderOrigin ∧ (subBse mask p x).tab.base.d = x.tab.base.d := by
      intro x; unfold subBse; split <;> exact ⟨rfl, rfl, rfl, rfl, rfl, rfl⟩
    have e3 := (subSse_tab mask p s).1
    obtain ⟨f1, f2, f3, f4, f5, f6⟩ := e2 (subSse mask p s)
    rw [e3] at f1 f2 f3 f4 f5 f6
    simp only [subOrbit, e1]
    exact ⟨f1, f2, f3, f4, f5, f6⟩
  exact key _

/-- A cluster just filled has its stars in order. -/
theorem addStars_order {a : StarArgs} {n : ℕ} {u : Option Units} {o : Option Origin} {bu : Option BUnits} {tphys : ℝ} {t : Tab} (f : a.Fits n)
    (h : addStars a 0 true true (newTab (newCluster u o bu tphys)) = .ok t) :
    t.base.rorder = some (argsort ((rowsOf t.x t.y t.z t.vx t.vy t.vz).map Ph.r)) ∧ t.base.rorderOrigin = o ∧ Fresh t.base ∧
      t.base.st = rowsOf t.x t.y t.z t.vx t.vy t.vz ∧ t.base.m = t.m := by
  obtain ⟨s, d, h1, h2, h3, h6, h4, h5⟩ : ∃ s d, analyze true s = .ok d ∧ t.base = d ∧ s.st = rowsOf t.x t.y t.z t.vx t.vy t.vz ∧ s.m = t.m ∧
      s.rorder = none ∧ s.origin = o := by
    unfold addStars at h
    simp only [Nat.lt_irrefl, if_false, bind, Except.bind, if_true, Nat.mul_zero, addSingles_eq f, ((newTab_aligned _).appended (a := a) (n := n)).fix] at h
    obtain ⟨s, hs, s1, s2⟩ : ∃ s, addSkyCols a.expand (appended a n (newTab (newCluster u o bu tphys))) =
        { appended a n (newTab (newCluster u o bu tphys)) with base := s } ∧ s.rorder = none ∧ s.origin = o := by
      unfold addSkyCols
      split
      · exact ⟨_, rfl, rfl, rfl⟩
      · exact ⟨_, rfl, rfl, rfl⟩
    rw [hs] at h
    split at h
    · simp at h
    · rename_i t1 ht1
      obtain ⟨b, rfl, hb⟩ := analyzeTab_base ht1
      have e := Except.ok.inj h
      refine ⟨_, b, hb, ?_, ?_, ?_, s1, s2⟩
      · rw [← e]
      · rw [← e]
      · rw [← e]
  obtain ⟨q, e1, e2, e3⟩ := analyze_rorder_sorted h1
  have k := core_fields (analyze_core h1)
  rw [h2, ← h3]
  rcases e3 with rfl | ⟨e, -⟩
  · exact ⟨e1, e2.trans h5, analyze_fresh h1, k.2.2.2.2.1, k.2.2.2.1.trans h6⟩
  · rw [h4] at e; cases e

/-- A list read at the places of a sublist of indices. -/
theorem ext_sel {α : Type} [Inhabited α] {l : List α} {sel : List ℕ} {f : ℕ → α} (hl : l.length = sel.length) (h : ∀ j < sel.length, l[j]! = f sel[j]!) :
    l = sel.map f := by
  refine List.ext_getElem (by simpa using hl) fun j h1 h2 => ?_
  have hj : j < sel.length := by simpa using h2
  have := h j hj
  rw [getElem!_pos l j h1, getElem!_pos sel j hj] at this
  rw [List.getElem_map, this]

/-- The new cluster before anything is done about its centre or its scales: `c0` is what a call on it gets. -/
structure SubBase (g : Galpy) (p : Full) (w : World) (mask : List Bool) (t : Tab) (b c0 : Cluster) : Prop where
  fill : addStars (subArgs mask p.tab) 0 true true (newTab (newCluster p.tab.base.units p.tab.base.origin (bunitsOfUnits p.tab.base.units)
    p.tab.base.tphys)) = .ok t
  tab : ∃ nb id2, (copied mask p (fresh p t)).tab = { t with base := b, nb := nb, id2 := id2, ns := p.tab.ns }
  now : c0 = { b with st := rowsOf t.x t.y t.z t.vx t.vy t.vz, m := t.m }
  units : c0.units = p.tab.base.units
  origin : c0.origin = p.tab.base.origin
  st : c0.st = (maskPos mask).map (fun i => p.tab.base.st[i]!)
  m : c0.m = (maskPos mask).map (fun i => p.tab.base.m[i]!)
  zmbar : c0.zmbar = p.tab.base.zmbar
  rbar : c0.rbar = p.tab.base.rbar
  c : c0.c = p.tab.base.c
  gc : c0.gc = p.tab.base.gc
  mpos : ∀ x ∈ c0.m, 0 < x
  desc : Describes g (w.only (maskPos mask)) c0
  here : OrderHere c0
  ro : c0.rorder = some (argsort (c0.st.map Ph.r))
  scale : ∀ u, unitScale g c0 u = unitScale g p.tab.base u
  total : 0 < (w.only (maskPos mask)).mass.sum
  id : t.id = (maskPos mask).map (fun i => p.tab.id[i]!)

theorem sub_base {g : Galpy} {p : Full} {mask : List Bool} {n : ℕ} {w : World} (wh : Whole p n) (hml : mask.length = n) (hne : maskPos mask ≠ [])
    (hpm : p.tab.base.m = p.tab.m) (pp : Pos g p.tab.base) (pl : Lin p.tab.base) (hw : world g p.tab.base = some w) (hm : ∀ x ∈ p.tab.m, 0 < x) :
    ∃ t b c0, SubBase g p w mask t b c0 := by
  have al := wh.al
  have hin : ∀ j < (maskPos mask).length, (maskPos mask)[j]! < n := by
    intro j hj
    rw [getElem!_pos _ j hj]
    have := (mem_maskPos.mp (List.getElem_mem hj)).1
    rwa [hml] at this
  have hf := subArgs_fits al hml hne
  have hstar : ∀ x ∈ (List.range (maskPos mask).length).map (fun i => ((subArgs mask p.tab).star i).m), 0 < x := by
    intro x hx
    obtain ⟨i, hi', rfl⟩ := List.mem_map.mp hx
    have hj := List.mem_range.mp hi'
    rw [subArgs_star al hml hj]
    show (0 : ℝ) < p.tab.m[(maskPos mask)[i]!]!
    rw [getElem!_pos p.tab.m _ (by rw [al.m]; exact hin i hj)]
    exact hm _ (List.getElem_mem _)
  obtain ⟨t, ht, hts, o1, o2⟩ := C65_total_sorted hf (newTab_aligned
    (newCluster p.tab.base.units p.tab.base.origin (bunitsOfUnits p.tab.base.units) p.tab.base.tphys))
    (by intro o h; cases h) (by intro o h; cases h) (by
      show 0 ≤ (([] : List ℝ).sum + _)
      rw [List.sum_nil, zero_add]
      exact List.sum_nonneg fun x hx => (hstar x hx).le)
  obtain ⟨al1, n1, -, -, s1, i1, -⟩ := C18_add_stars hf (newTab_aligned _) ht
  simp only [Nat.zero_add] at al1 n1 s1 i1 o1 o2
  obtain ⟨nb, id2, b, hb, b1, b2, b3, b4, b5, b6, b7, b8, b9⟩ := copied_tab (mask := mask) (p := p) (t := t)
  obtain ⟨t1, t2, t3, -⟩ := addStars_base hf (newTab_aligned _) ht
  obtain ⟨r1, r2, r3, r4, r5⟩ := addStars_order hf ht
  obtain ⟨z1, z2, z3, z4, z5, z6⟩ := copied_scales (mask := mask) (p := p) (t := t)
  rw [hb] at z1 z2 z3 z4 z5 z6
  simp only at z1 z2 z3 z4 z5 z6
  obtain ⟨c0, hc0⟩ : ∃ c0 : Cluster, c0 = { b with st := rowsOf t.x t.y t.z t.vx t.vy t.vz, m := t.m } := ⟨_, rfl⟩
  have hrl := rowsOf_length al1.x al1.y al1.z al1.vx al1.vy al1.vz
  have c_st : c0.st = (maskPos mask).map (fun i => p.tab.base.st[i]!) := by
    rw [hc0]
    refine ext_sel hrl fun j hj => ?_
    rw [rowsOf_get al1.x al1.y al1.z al1.vx al1.vy al1.vz j hj, wh.rows,
      rowsOf_get al.x al.y al.z al.vx al.vy al.vz _ (hin j hj)]
    have e := (s1 j hj).trans (subArgs_star al hml hj)
    simp only [Tab.star, Star.mk.injEq] at e
    obtain ⟨e1, e2, e3, e4, e5, e6, -⟩ := e
    rw [e1, e2, e3, e4, e5, e6]
  have c_m : c0.m = (maskPos mask).map (fun i => p.tab.base.m[i]!) := by
    rw [hc0]
    refine ext_sel al1.m fun j hj => ?_
    have e := (s1 j hj).trans (subArgs_star al hml hj)
    simp only [Tab.star, Star.mk.injEq] at e
    rw [hpm]
    exact e.2.2.2.2.2.2.1
  have c_u : c0.units = p.tab.base.units := by rw [hc0]; exact b1.trans t1
  have c_o : c0.origin = p.tab.base.origin := by rw [hc0]; exact b2.trans t2
  have c_t : c0.tphys = p.tab.base.tphys := by rw [hc0]; exact b3.trans t3
  have c_c : c0.c = p.tab.base.c := by rw [hc0]; exact b5
  have c_gc : c0.gc = p.tab.base.gc := by rw [hc0]; exact b6
  have c_z : c0.zmbar = p.tab.base.zmbar := by rw [hc0]; exact z1
  have c_rb : c0.rbar = p.tab.base.rbar := by rw [hc0]; exact z2
  have c_vb : c0.vbar = p.tab.base.vbar := by rw [hc0]; exact z3
  have c_tb : c0.tbar = p.tab.base.tbar := by rw [hc0]; exact z4
  have c_ro : c0.rorder = some (argsort (c0.st.map Ph.r)) := by rw [hc0]; exact b7.trans r1
  have c_roo : c0.rorderOrigin = c0.origin := by rw [c_o, hc0]; exact z5.trans r2
  have c_len : c0.st.length = (maskPos mask).length := by rw [c_st]; simp
  have c_mem : ∀ x ∈ c0.m, 0 < x := by
    rw [c_m, hpm]
    intro x hx
    obtain ⟨i, hi', rfl⟩ := List.mem_map.mp hx
    obtain ⟨j, hj, rfl⟩ := List.getElem_of_mem hi'
    have hjn := hin j hj
    rw [getElem!_pos (maskPos mask) j hj] at hjn
    rw [getElem!_pos p.tab.m _ (by rw [al.m]; exact hjn)]
    exact hm _ (List.getElem_mem _)
  have c_pos : Pos g c0 := ⟨c_rb ▸ pp.rbar, c_vb ▸ pp.vbar, c_z ▸ pp.zmbar, c_tb ▸ pp.tbar, pp.ro, pp.vo, pp.time, pp.mass, pp.vel⟩
  have c_lin : Lin c0 := ⟨by rw [c_u]; exact pl.1, by rw [c_o]; exact pl.2⟩
  have c_good : Good c0 := by
    refine ⟨?_, ?_, List.sum_nonneg fun x hx => (c_mem x hx).le, ?_, ?_⟩
    · rw [c_st]; simpa using hne
    · rw [c_m, c_st]; simp
    · intro o ho
      rw [c_len]
      exact o1 o (by rw [← b7]; rw [hc0] at ho; exact ho)
    · intro o ho
      rw [c_len]
      exact o2 o (by rw [← b8]; rw [hc0] at ho; exact ho)
  have hst_len := wh.st_len
  have c_w : world g c0 = some (w.only (maskPos mask)) := by
    obtain ⟨⟨u, hu, hul⟩, ⟨o, ho, hol⟩⟩ := pl
    obtain ⟨s, hs⟩ := unitScale_isSome (g := g) (c := p.tab.base) hul
    have hs' : unitScale g c0 u = some s := by
      rw [← hs]; unfold unitScale; rw [c_z, c_rb, c_vb, c_tb]
    unfold world phys at hw ⊢
    simp only [hu, ho, hs, Option.some.injEq] at hw
    simp only [c_u, hu, c_o, ho, hs', Option.some.injEq, c_t, c_c, c_gc]
    rw [← hw]
    simp only [World.only, World.mk.injEq, true_and, and_true]
    have hmem : ∀ i ∈ maskPos mask, i < n := by
      intro i hi'
      obtain ⟨j, hj, rfl⟩ := List.getElem_of_mem hi'
      have := hin j hj
      rwa [getElem!_pos _ j hj] at this
    constructor
    · rw [c_m, List.map_map]
      refine List.map_congr_left fun i hi' => ?_
      rw [get!_map _ _ _ (by rw [hpm, al.m]; exact hmem i hi')]
      rfl
    · rw [c_st]
      simp only [galRows, List.map_map]
      refine List.map_congr_left fun i hi' => ?_
      rw [get!_map _ _ _ (by rw [hst_len]; exact hmem i hi')]
      rfl
  have c_ord : OrderInv (w.only (maskPos mask)) c0 := by
    intro o ho
    rw [c_ro] at ho
    cases ho
    obtain ⟨f, hf', hfl⟩ := c_lin.2
    obtain ⟨a1, a2⟩ := orderInv_argsort c_pos c_lin c_w hf'
    exact ⟨f, c_roo.trans hf', hfl, a1, a2⟩
  have c_d : c0.d = t.base.d := by rw [hc0]; exact z6
  have c_fresh : Fresh c0 := by
    have e1 : c0.st = t.base.st := by rw [r4, hc0]
    have e2 : c0.m = t.base.m := by rw [r5, hc0]
    have e3 : c0.units = t.base.units := c_u.trans t1.symm
    have e4 : c0.origin = t.base.origin := c_o.trans t2.symm
    exact ⟨by rw [c_d, e3]; exact r3.units, by rw [c_d, e4]; exact r3.origin, by rw [c_d, e1]; exact r3.r, by rw [c_d, e1]; exact r3.rpro,
      by rw [c_d, e1]; exact r3.v, by rw [c_d, e1]; exact r3.vpro, by rw [c_d, e2]; exact r3.mtot, by rw [c_d, e2]; exact r3.mmean,
      by rw [c_d, e1]; exact r3.rmean, by rw [c_d, e1]; exact r3.rmeanpro, by rw [c_d]; exact r3.rmax, by rw [c_d]; exact r3.rmaxpro⟩
  obtain ⟨u, hu, hul⟩ := pl.1
  obtain ⟨s, hs⟩ := unitScale_isSome (g := g) (c := c0) hul
  have hM : 0 < (w.only (maskPos mask)).mass.sum := by
    rw [world_mass c_w (c_u.trans hu) hs, sum_map_mul]
    refine mul_pos ?_ (unitScale_pos c_pos hs).2.2.1
    refine lt_of_le_of_ne (List.sum_nonneg fun x hx => (c_mem x hx).le) fun h0 => ?_
    cases hcm : c0.m with
    | nil =>
      have := c_good.len
      rw [hcm] at this
      exact c_good.ne (List.length_eq_zero_iff.mp this.symm)
    | cons x l =>
      rw [hcm] at h0 c_mem
      rw [List.sum_cons] at h0
      have h1 := c_mem x (by simp)
      have h2 : 0 ≤ l.sum := List.sum_nonneg fun y hy => (c_mem y (by simp [hy])).le
      linarith
  refine ⟨t, b, c0, ht, ⟨nb, id2, hb⟩, hc0, c_u, c_o, c_st, c_m, c_z, c_rb, c_c, c_gc, c_mem, ⟨c_pos, c_lin, c_good, c_fresh, c_w, c_ord⟩, fun _ _ => c_roo, c_ro, fun _ => by unfold unitScale; rw [c_z, c_rb, c_vb, c_tb], hM, ?_⟩
  refine ext_sel al1.id fun j hj => ?_
  refine (i1 _ rfl j hj).trans ?_
  exact maskSel_get! (by rw [hml, al.id]) hj

/-- **C167.**  `sub_cluster(…, reset_nbody=True)`, or with `reset_nbody_mass`/`reset_nbody_radii`, gives the cluster of the selected stars: the same stars
at the same places in the galaxy, in the units and origin of the parent, for any units of the parent (N-body units included).  Its unit of mass is
its own total mass if that was asked for, its unit of length its own virial radius or 4/3 of its own half-mass radius, and the units of velocity
and time go with them; what has been derived is up to date. -/
theorem C167_sub_cluster {g : Galpy} {a : ResetArgs} {q : SubArgs} {p : Full} {indx : Option ℕ} {mem : Mem} {n : ℕ} {w : World}
    (wh : Whole p n) (ok : p.view.Ok q n) (hi : GivenOk indx mem n) (hpm : p.tab.base.m = p.tab.m) (pp : Pos g p.tab.base) (pl : Lin p.tab.base)
    (hw : world g p.tab.base = some w) (hm : ∀ x ∈ p.tab.m, 0 < x) (ha : (a.nbody || a.mass || a.radii) = true)
    (hk : a.rvirial = true → a.kw = []) :
    ∃ sel : List ℕ, sel.Pairwise (· < ·) ∧ (∀ i, i ∈ sel ↔ i < n ∧ given indx mem i ∧ Passes q p.view i) ∧
      (sel ≠ [] → (∀ L, (w.only sel).UnitOfLength (workFrame p.tab.base) a.rvirial a.projected L → 0 < L) →
        ∃ s mem' L, subClusterReset g a q true p indx mem = .ok (s, mem') ∧ Describes g (w.only sel) s.tab.base ∧
          s.tab.base.units = p.tab.base.units ∧ s.tab.base.origin = p.tab.base.origin ∧
          Scales s.tab.base (if a.nbody || a.mass then (w.only sel).mass.sum else p.tab.base.zmbar) L ∧
          (w.only sel).UnitOfLength (workFrame p.tab.base) a.rvirial a.projected L ∧
          s.tab.id = sel.map (fun i => p.tab.id[i]!) ∧ s.tab.m = s.tab.base.m ∧ s.tab.x = s.tab.base.st.map Ph.x ∧ s.tab.vz = s.tab.base.st.map Ph.vz) := by
  obtain ⟨k, mem1, h1, hmk⟩ := subset_any ok hi
  obtain ⟨mask, hmask⟩ : ∃ mask, mask = mem1[k]! := ⟨_, rfl⟩
  rw [← hmask] at hmk
  refine ⟨maskPos mask, maskPos_sorted mask, ?_, ?_⟩
  · intro i
    rw [mem_maskPos, hmk.len]
    constructor
    · rintro ⟨h1, h2⟩; exact ⟨h1, (hmk.val i h1).mp h2⟩
    · rintro ⟨h1, h2⟩; exact ⟨h1, (hmk.val i h1).mpr h2⟩
  intro hne hL
  obtain ⟨t, b, c0, B⟩ := sub_base (g := g) (mask := mask) wh hmk.len hne hpm pp pl hw hm
  obtain ⟨nb, id2, hb⟩ := B.tab
  have hc0 := B.now
  have hwf : workFrame c0 = workFrame p.tab.base := by unfold workFrame; rw [B.origin]
  obtain ⟨u, hu, hul⟩ := pl.1
  obtain ⟨c', L, e1, e2, e3, e4, e5, e6⟩ := finishSub_run (a := a) (u := u) B.desc.pos B.desc.lin B.desc.good B.desc.world B.desc.order (fun y hy => (B.mpos y hy).le) ha hk
    (by split
        · exact B.total
        · rw [B.zmbar]; exact pp.zmbar) (by rw [hwf]; exact hL) (B.units.trans hu) true
  rw [hwf] at e6
  rw [B.zmbar] at e5
  have hrun : subClusterReset g a q true p indx mem = .ok ({ copied mask p (fresh p t) with tab :=
      { (copied mask p (fresh p t)).tab with
        x := c'.st.map Ph.x
        y := c'.st.map Ph.y
        z := c'.st.map Ph.z
        vx := c'.st.map Ph.vx
        vy := c'.st.map Ph.vy
        vz := c'.st.map Ph.vz
        m := c'.m
        base := c' } }, mem1) := by
    unfold subClusterReset
    simp only [h1, bind, Except.bind, pure, Except.pure]
    rw [← hmask, if_pos (count_pos_iff.mpr hne), B.fill]
    simp only
    have e : subOrbit p (subEnergies mask p (subBse mask p (subSse mask p (subNbody6 mask p
        { newFull (newTab (newCluster p.tab.base.units p.tab.base.origin (bunitsOfUnits p.tab.base.units)
            p.tab.base.tphys)).base with tab := t })))) = copied mask p (fresh p t) := rfl
    rw [e]
    have e' : onCluster (finishSub g a true p.tab.base.units) (copied mask p (fresh p t)).tab = .ok { (copied mask p (fresh p t)).tab with
        x := c'.st.map Ph.x
        y := c'.st.map Ph.y
        z := c'.st.map Ph.z
        vx := c'.st.map Ph.vx
        vy := c'.st.map Ph.vy
        vz := c'.st.map Ph.vz
        m := c'.m
        base := c' } := by
      unfold onCluster
      rw [hb, hu]
      simp only
      rw [← hc0, e1]
      rfl
    rw [e']
  refine ⟨_, mem1, L, hrun, e2, e3.trans hu.symm, e4.trans B.origin, e5, e6, ?_, rfl, rfl, rfl⟩
  show (copied mask p (fresh p t)).tab.id = _
  rw [hb]
  exact B.id

/-- The unit of length is positive unless the stars are in one place. -/
theorem UnitOfLength.pos {w : World} {f : Origin} {v pr : Bool} {L : ℝ} (hl : w.mass.length = w.stars.length) (hm : ∀ x ∈ w.mass, 0 < x)
    (h0 : v = false → ∀ i < w.stars.length, 0 < w.radius f i)
    (h1 : v = true → ∃ i j, i < j ∧ j < w.stars.length ∧ 0 < w.apart pr i j) (h : w.UnitOfLength f v pr L) : 0 < L := by
  unfold World.UnitOfLength at h
  cases v
  · simp only [Bool.false_eq_true, if_false] at h
    obtain ⟨ρ, ⟨hρ, -⟩, rfl⟩ := h
    obtain ⟨i, hi, rfl⟩ := List.mem_map.mp hρ
    have := h0 rfl i (List.mem_range.mp hi)
    positivity
  · simp only [if_true] at h
    obtain ⟨a, b, hab, hb, hd⟩ := h1 rfl
    rw [h]
    have hmi : ∀ i < w.stars.length, 0 < w.mass[i]! := by
      intro i hi
      rw [getElem!_pos _ i (by rw [hl]; exact hi)]
      exact hm _ (List.getElem_mem _)
    have hap : ∀ i j, 0 ≤ w.apart pr i j := by
      intro i j
      unfold World.apart between
      cases pr <;> exact Real.sqrt_nonneg _
    have hne : w.mass ≠ [] := by
      intro e
      rw [e] at hl
      have : w.stars.length = 0 := hl.symm
      omega
    have hs : 0 < w.mass.sum := by
      obtain ⟨x, l, e⟩ := List.exists_cons_of_ne_nil hne
      rw [e] at hm ⊢
      rw [List.sum_cons]
      have := hm x (by simp)
      have : 0 ≤ l.sum := List.sum_nonneg fun y hy => (hm y (by simp [hy])).le
      linarith
    have hterm : ∀ i ∈ Finset.range w.stars.length, ∀ j ∈ Finset.Ico (i + 1) w.stars.length,
        0 ≤ w.mass[i]! * w.mass[j]! / w.apart pr i j := by
      intro i hi j hj
      rw [Finset.mem_range] at hi
      rw [Finset.mem_Ico] at hj
      exact div_nonneg (mul_nonneg (hmi i hi).le (hmi j hj.2).le) (hap i j)
    have hsum : 0 < ∑ i ∈ Finset.range w.stars.length, ∑ j ∈ Finset.Ico (i + 1) w.stars.length, w.mass[i]! * w.mass[j]! / w.apart pr i j := by
      refine Finset.sum_pos' (fun i hi => Finset.sum_nonneg (hterm i hi)) ⟨a, Finset.mem_range.mpr (by omega), ?_⟩
      refine Finset.sum_pos' (hterm a (Finset.mem_range.mpr (by omega))) ⟨b, Finset.mem_Ico.mpr ⟨by omega, hb⟩, ?_⟩
      exact div_pos (mul_pos (hmi a (by omega)) (hmi b hb)) hd
    exact div_pos (by positivity) (by positivity)

/-- **C167, N-body units.**  In N-body units a cluster with its own scales has total mass 1, and virial radius 1 if that is its unit of length. -/
theorem C167_unit_total {g : Galpy} {w : World} {c : Cluster} {M L : ℝ} (d : Describes g w c) (hu : c.units = some .nbody) (hs : Scales c M L) :
    (M = w.mass.sum → c.m.sum = 1) ∧ ∀ full pr, L = w.virial pr → virialRadius full pr c.m c.st = 1 := by
  have h1 := world_mass d.world hu (s := ⟨c.rbar, c.vbar, c.zmbar, c.tbar⟩) rfl
  have hz := d.pos.zmbar.ne'
  have hb := d.pos.rbar.ne'
  constructor
  · intro hM
    have := congrArg List.sum h1
    rw [sum_map_mul] at this
    simp only at this
    rw [← hM, ← hs.mass] at this
    field_simp at this
    exact this.symm
  · intro full pr hL
    have := virial_world d full pr hu (s := ⟨c.rbar, c.vbar, c.zmbar, c.tbar⟩) rfl
    simp only at this
    rw [← hL, ← hs.len] at this
    exact (mul_eq_right₀ hb).mp this

/-- A cluster in N-body units to take stars from. -/
theorem nbody2_exists : ∃ p w, Whole p 2 ∧ p.tab.base.m = p.tab.m ∧ Pos demoG p.tab.base ∧ Lin p.tab.base ∧ world demoG p.tab.base = some w ∧
    p.tab.m = [1, 3] ∧ p.tab.id = [7, 9] ∧ p.tab.base.units = some .nbody ∧ p.tab.base.origin = some .cluster ∧ p.tab.base.st = demo.st ∧
    p.tab.base.zmbar = 4 ∧ p.tab.base.rbar = 2 ∧ p.kw = [] ∧ p.etot = [] := by
  have hg : Good { demo with units := some .nbody } := ⟨demo_good.ne, demo_good.len, demo_good.mass, demo_good.ro, demo_good.rpo⟩
  obtain ⟨c, h, g⟩ := analyze_total (s := true) (p := true) hg
  obtain ⟨k1, k2, -, k4, k5, -, -, -, -, -, -, kr⟩ := core_fields (analyze_core h)
  have kp : Pos demoG { demo with units := some .nbody } := ⟨demo_pos.rbar, demo_pos.vbar, demo_pos.zmbar, demo_pos.tbar, demo_pos.ro, demo_pos.vo,
    demo_pos.time, demo_pos.mass, demo_pos.vel⟩
  have l : Lin c := ⟨⟨.nbody, k1, trivial⟩, ⟨.cluster, k2, trivial⟩⟩
  have hw : ∃ w, world demoG c = some w := by
    have := world_core (g := demoG) (analyze_core h)
    rw [this]
    exact ⟨_, rfl⟩
  obtain ⟨w, hw⟩ := hw
  obtain ⟨q1, q2, -, -⟩ := rest_scales kr
  refine ⟨{ newFull c with tab := { newTab c with
      x := c.st.map Ph.x
      y := c.st.map Ph.y
      z := c.st.map Ph.z
      vx := c.st.map Ph.vx
      vy := c.st.map Ph.vy
      vz := c.st.map Ph.vz
      m := c.m
      m0 := [1, 3]
      npop := [1, 1]
      id := [7, 9]
      ntot := 2
      ns := 2 } }, w, ⟨?_, rfl, analyze_fresh h, ?_, .inl rfl, .inl ⟨rfl, rfl, rfl⟩⟩, rfl, kp.of_rest kr, l, hw, ?_, rfl, k1, k2, ?_, q1, q2, rfl, rfl⟩
  · constructor <;> simp [k4, k5, demo]
  · show c.st = rowsOf (c.st.map Ph.x) (c.st.map Ph.y) (c.st.map Ph.z) (c.st.map Ph.vx) (c.st.map Ph.vy) (c.st.map Ph.vz)
    rw [k5]
    simp [demo, rowsOf]
  · show c.m = _
    rw [k4]; rfl
  · show c.st = _
    rw [k5]

/-- C167 is not vacuous: both stars of this cluster, with a virial radius as unit of length, make a cluster of mass 1 and virial radius 1. -/
example : ∃ (p : Full) (s : Full) (mem' : Mem), p.tab.base.units = some .nbody ∧ p.tab.m = [1, 3] ∧
    subClusterReset demoG { nbody := true, rvirial := true } {} true p none [] = .ok (s, mem') ∧ s.tab.id = [7, 9] ∧ s.tab.m.sum = 1 ∧
    virialRadius true false s.tab.base.m s.tab.base.st = 1 := by
  obtain ⟨p, w, a1, a2, a3, a4, a5, a6, a7, a8, a9, a10, a11, a12, a13, a14⟩ := nbody2_exists
  have ok : p.view.Ok {} 2 := a1.ok (by norm_num) (.inl ⟨rfl, rfl⟩)
  obtain ⟨sel, b1, b2, b3⟩ := C167_sub_cluster (a := { nbody := true, rvirial := true }) (q := {}) (indx := none) (mem := []) a1 ok
    (by intro p h; cases h) a2 a3 a4 a5 (by rw [a6]; simp) rfl (fun _ => rfl)
  have hsel : sel = [0, 1] := by
    refine List.Pairwise.eq_of_mem_iff (r := (· < ·)) b1 (by simp) fun i => ?_
    rw [b2]
    have key : Passes {} p.view i := by
      refine ⟨?_, ?_, ?_, ?_, ?_, ?_⟩
      · simp [Within]
      · simp [Within]
      · simp [Within]
      · simp [Within]
      · intro p hp; cases hp
      · intro hp; exact (hp a13).elim
    constructor
    · rintro ⟨h1, -⟩
      interval_cases i <;> simp
    · intro h
      refine ⟨?_, trivial, key⟩
      simp at h
      omega
  subst hsel
  have hm : w.mass = [4, 12] := by
    rw [world_mass a5 a8 (s := ⟨p.tab.base.rbar, p.tab.base.vbar, p.tab.base.zmbar, p.tab.base.tbar⟩) rfl, a2, a6, a11]
    norm_num
  have hst : w.stars = galRows .cluster (w.centre) (w.gc) (demo.st.map (Scale.ph ⟨p.tab.base.rbar, p.tab.base.vbar, p.tab.base.zmbar, p.tab.base.tbar⟩)) := by
    have hw := a5
    unfold world phys at hw
    simp only [a8, a9, unitScale, Option.some.injEq] at hw
    rw [← hw, a10]
  obtain ⟨s, mem', L, c1, c2, c3, c4, c5, c6, c7, c8, c9, c10⟩ := b3 (by simp) (fun L hL => by
    refine UnitOfLength.pos ?_ ?_ (fun h => by cases h) (fun _ => ⟨0, 1, by norm_num, ?_, ?_⟩) hL
    · simp [World.only]
    · intro x hx
      simp [World.only, hm] at hx
      rcases hx with rfl | rfl <;> norm_num
    · simp [World.only]
    · show 0 < between false _ _
      simp [World.only, World.star, hst, galRows, demo, galactocentric, phAdd, Scale.ph, between, a12]
      norm_num)
  have hn := C167_unit_total c2 (c3.trans a8) c5
  refine ⟨p, s, mem', a8, a6, c1, ?_, ?_, ?_⟩
  · rw [c7, a7]; rfl
  · rw [c8]; exact hn.1 rfl
  · exact hn.2 true false c6

/-- **C168, only the mass.**  With `reset_nbody_mass=True` alone the unit of length is replaced all the same: here it was 2 pc, the new cluster has the
same two stars, and its unit is 4/3 of their half-mass radius. -/
theorem C168_mass_only_violated : ∃ (p : Full) (s : Full) (mem' : Mem),
    subClusterReset demoG { mass := true, radii := false } {} true p none [] = .ok (s, mem') ∧ s.tab.id = p.tab.id ∧
    p.tab.base.rbar = 2 ∧ s.tab.base.rbar ≠ p.tab.base.rbar := by
  obtain ⟨p, w, a1, a2, a3, a4, a5, a6, a7, a8, a9, a10, a11, a12, a13, a14⟩ := nbody2_exists
  have ok : p.view.Ok {} 2 := a1.ok (by norm_num) (.inl ⟨rfl, rfl⟩)
  obtain ⟨sel, b1, b2, b3⟩ := C167_sub_cluster (a := { mass := true, radii := false }) (q := {}) (indx := none) (mem := []) a1 ok
    (by intro p h; cases h) a2 a3 a4 a5 (by rw [a6]; simp) rfl (fun h => by cases h)
  have hsel : sel = [0, 1] := by
    refine List.Pairwise.eq_of_mem_iff (r := (· < ·)) b1 (by simp) fun i => ?_
    rw [b2]
    have key : Passes {} p.view i := by
      refine ⟨?_, ?_, ?_, ?_, ?_, ?_⟩
      · simp [Within]
      · simp [Within]
      · simp [Within]
      · simp [Within]
      · intro p hp; cases hp
      · intro hp; exact (hp a13).elim
    constructor
    · rintro ⟨h1, -⟩
      interval_cases i <;> simp
    · intro h
      refine ⟨?_, trivial, key⟩
      simp at h
      omega
  subst hsel
  have hwl : w.stars.length = 2 := by rw [world_length a5, a10]; rfl
  have hf : workFrame p.tab.base = .cluster := by unfold workFrame; rw [a9, if_pos rfl]
  have hr : ∀ i < 2, w.radius .cluster i = (demo.st.map Ph.r).getD i 0 * 2 := by
    intro i hi
    have := World.radius_eq a5 a8 a9 trivial (s := ⟨p.tab.base.rbar, p.tab.base.vbar, p.tab.base.zmbar, p.tab.base.tbar⟩) rfl (by rw [a12]; norm_num) i
      (by rw [a10]; exact hi)
    rw [this, a10, a12]
  have hr0 : (w.only [0, 1]).radius .cluster 0 = w.radius .cluster 0 := by
    obtain ⟨l0, l1, hl⟩ : ∃ a b, w.stars = [a, b] := List.length_eq_two.mp hwl
    simp [World.radius, World.only, hl]
  have hr1 : (w.only [0, 1]).radius .cluster 1 = w.radius .cluster 1 := by
    obtain ⟨l0, l1, hl⟩ : ∃ a b, w.stars = [a, b] := List.length_eq_two.mp hwl
    simp [World.radius, World.only, hl]
  have v0 : (w.only [0, 1]).radius .cluster 0 = 10 := by
    rw [hr0, hr 0 (by norm_num)]
    have : Real.sqrt (3 ^ 2 + 0 ^ 2 + 4 ^ 2) = 5 := by
      rw [show (3 : ℝ) ^ 2 + 0 ^ 2 + 4 ^ 2 = 5 ^ 2 by norm_num, Real.sqrt_sq (by norm_num)]
    show Real.sqrt (3 ^ 2 + 0 ^ 2 + 4 ^ 2) * 2 = 10
    rw [this]
    norm_num
  have v1 : (w.only [0, 1]).radius .cluster 1 = 2 := by
    rw [hr1, hr 1 (by norm_num)]
    simp [demo, Ph.r]
  have hL : ∀ L, (w.only [0, 1]).UnitOfLength (workFrame p.tab.base) false false L → 0 < L ∧ L ≠ 2 := by
    intro L h
    rw [hf] at h
    unfold World.UnitOfLength at h
    simp only [Bool.false_eq_true, if_false] at h
    obtain ⟨ρ, ⟨hρ, -⟩, rfl⟩ := h
    obtain ⟨i, hi, rfl⟩ := List.mem_map.mp hρ
    have hi := List.mem_range.mp hi
    simp only [World.only, List.length_map, List.length_cons, List.length_nil] at hi
    interval_cases i
    · rw [v0]; norm_num
    · rw [v1]; norm_num
  obtain ⟨s, mem', L, c1, c2, c3, c4, c5, c6, c7, c8, c9, c10⟩ := b3 (by simp) (fun L h => (hL L h).1)
  refine ⟨p, s, mem', c1, ?_, a12, ?_⟩
  · rw [c7, a7]; rfl
  · rw [c5.len, a12]
    exact (hL L c6).2

/-- **C168, the projection.**  `reset_projected` means nothing unless `reset_rvirial` is given too. -/
theorem C168_projected_ignored_violated {g : Galpy} {a : ResetArgs} {q : SubArgs} {sort : Bool} {p : Full} {indx : Option ℕ} {mem : Mem}
    (hv : a.rvirial = false) :
    subClusterReset g { a with projected := true } q sort p indx mem = subClusterReset g { a with projected := false } q sort p indx mem := by
  have h1 : ∀ m (c : Cluster), resetNbodyScaleT g m true a.rvirial true a.kw c = resetNbodyScaleT g m true a.rvirial false a.kw c := by
    intro m c
    rw [hv]; rfl
  have h2 : ∀ c, newScales g { a with projected := true } c = newScales g { a with projected := false } c := by
    intro c
    unfold newScales
    simp only [h1]
  have h3 : ∀ u, finishSub g { a with projected := true } sort u = finishSub g { a with projected := false } sort u := by
    intro u
    funext c
    unfold finishSub
    rw [h2]
  unfold subClusterReset
  simp only [h3]

/-- **C168, the keywords.**  Any of the keywords documented for `virial_radius` makes `reset_nbody_scale` raise a `TypeError`, on every cluster, and
leaves the cluster in pc and km/s about its centre. -/
theorem C168_keyword_violated {g : Galpy} {w : World} {m pr : Bool} {kw : List VirialKw} {c x : Cluster} (d : Describes g w c)
    (hx : analyze true x = .ok c) (hm : ∀ y ∈ c.m, 0 ≤ y) (hk : kw ≠ []) :
    (resetNbodyScaleT g m true true pr kw c).value = .error .typeError ∧
      ((resetNbodyScaleT g m true true pr kw c).after c).units = some .pckms ∧
      ((resetNbodyScaleT g m true true pr kw c).after c).origin = some (workFrame c) := by
  obtain ⟨c2, h2, ip⟩ := in_pc d.pos d.lin d.good d.fresh hm d.world d.order
  unfold pcStart at h2
  unfold resetNbodyScaleT
  simp only [if_true, if_pos hk]
  by_cases hc : c.origin ≠ some .cluster ∧ c.origin ≠ some .centre
  · rw [if_pos hc] at h2
    obtain ⟨c1, k1, k2⟩ := bind_ok h2
    simp only [if_pos hc]
    simp only [bind, Tr.bind, Tr.step, k1, k2, Tr.error, Tr.after, Except.toOption, Option.toList]
    exact ⟨trivial, ip.units, ip.origin⟩
  · rw [if_neg hc] at h2
    rw [analyzed_sorted hx d.good] at h2
    obtain ⟨c1, k1, k2⟩ := bind_ok h2
    cases k1
    simp only [if_neg hc]
    simp only [bind, Tr.bind, Tr.step, k2, Tr.error, Tr.ok, Tr.after, Except.toOption, Option.toList]
    exact ⟨trivial, ip.units, ip.origin⟩

/-- Such a cluster exists. -/
example : ∃ c, (resetNbodyScaleT demoG true true true false [.method] c).value = .error .typeError ∧ c.units = some .pckms := by
  obtain ⟨c0, w, h, p1, l1, g1, f1, m1, -, hw, ho, hu, -⟩ := demo_analysed
  exact ⟨c0, (C168_keyword_violated ⟨p1, l1, g1, f1, hw, ho⟩ h m1 (by simp)).1, hu⟩

end

end CT
