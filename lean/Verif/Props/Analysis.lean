/-
Property theorems C11 (derived quantities), C15 (stored radial orders), C16 (mass-fraction radii).
Vocabulary: `Verif/Spec/Order.lean`.
-/
import Verif.Lemmas.MassRadius
import Verif.Spec.Demo

namespace CT

noncomputable section

/-! ### C11 -/

/-- C11: whenever `analyze` returns, all derived quantities describe the current stars and labels. -/
theorem C11_analyze_fresh (s p : Bool) (c c' : Cluster) (h : analyze s c p = .ok c') : Fresh c' :=
  analyze_fresh h

/-- C11: every history of conversions made with analysis on keeps the derived quantities current. -/
theorem C11_histories_fresh (g : Galpy) (c c' : Cluster) (ops : List Op) (n : NZ g c) (l : Lin c) (f : Fresh c)
    (hl : ∀ op ∈ ops, op.linear) (ha : ∀ op ∈ ops, op.analysed) (h : run g ops c = .ok c') : Fresh c' := by
  induction ops generalizing c with
  | nil => cases h; exact f
  | cons op ops ih =>
    obtain ⟨c1, h1, h2⟩ := bind_ok h
    have hl1 := hl op (by simp)
    have st := exec_step n l hl1 h1
    exact ih c1 (n.of_rest st.rest) (st.lin hl1 l) (exec_fresh l hl1 (ha op (by simp)) f h1)
      (fun o ho => hl o (by simp [ho])) (fun o ho => ha o (by simp [ho])) h2

/-- The hypotheses of C11 are met by an analysed demo cluster and a four-step history. -/
example : ∃ c0 c', analyze true demo = .ok c0 ∧ run demoG [.toNbody, .toGalaxy true, .toWDunits, .toCentre true none] c0
    = .ok c' ∧ Fresh c' := by
  obtain ⟨c0, h0, g0⟩ := analyze_total (s := true) (p := true) demo_good
  have hr : c0.rest = demo.rest := (core_fields (analyze_core h0)).2.2.2.2.2.2.2.2.2.2.2
  have l0 : Lin c0 := ⟨⟨.pckms, (core_fields (analyze_core h0)).1, trivial⟩,
    ⟨.cluster, (core_fields (analyze_core h0)).2.1, trivial⟩⟩
  have hl : ∀ op ∈ [Op.toNbody, .toGalaxy true, .toWDunits, .toCentre true none], op.linear := by
    simp [Op.linear, Op.unitTarget, Op.originTarget, Units.linear, Origin.linear]
  obtain ⟨c', h', -⟩ := run_total (demo_pos.of_rest hr) l0 hl g0
  exact ⟨c0, c', h0, h', C11_histories_fresh demoG c0 c' _ (demo_pos.nz.of_rest hr) l0 (analyze_fresh h0) hl
    (by simp [Op.analysed]) h'⟩

/-! ### C15 -/

/-- A call that sorts when it changes the origin (the default). -/
def Op.sorts : Op → Prop
  | .toCentre s _ => s = true
  | .toCluster s _ => s = true
  | .toGalaxy s => s = true
  | .toOrigin _ s _ => s = true
  | _ => True

/-- C15 (invariant): any history keeps the stored order sorted by radius in the frame it was made for. -/
theorem C15_order_invariant (g : Galpy) (c c' : Cluster) (ops : List Op) (w : World) (p : Pos g c) (l : Lin c)
    (hw : world g c = some w) (i : OrderInv w c) (hl : ∀ op ∈ ops, op.linear) (h : run g ops c = .ok c') :
    world g c' = some w ∧ OrderInv w c' :=
  ⟨(run_steps p.nz l hl h).world.trans hw, (kept_orderInv g w).run p l hl hw i h⟩

theorem OrderInv.sorted {g : Galpy} {c : Cluster} {w : World} {o : List ℕ} (p : Pos g c) (l : Lin c)
    (hw : world g c = some w) (i : OrderInv w c) (ho : c.rorder = some o) (hs : c.rorderOrigin = c.origin) :
    SortedBy (c.st.map Ph.r) o := by
  obtain ⟨f, hf, hfl, h1, h2⟩ := i o ho
  obtain ⟨⟨u, hu, hul⟩, -⟩ := l
  obtain ⟨s, hsc⟩ := unitScale_isSome (g := g) (c := c) hul
  have hlen := (unitScale_pos p hsc).1
  have hof : c.origin = some f := hs ▸ hf
  have h1' : IsOrder c.st.length o := world_length hw ▸ h1
  refine ⟨by simpa using h1', h2.imp_of_mem ?_⟩
  intro a b ha hb hab
  rw [World.radius_eq hw hu hof hfl hsc hlen a (h1'.lt ha), World.radius_eq hw hu hof hfl hsc hlen b (h1'.lt hb)]
    at hab
  exact le_of_mul_le_mul_right hab hlen

/-- C15: if the stored order was made for the current origin, it is a permutation of all stars sorted by
current radius, after any history. -/
theorem C15_order_sorted_when_synced (g : Galpy) (c c' : Cluster) (ops : List Op) (w : World) (o : List ℕ)
    (p : Pos g c) (l : Lin c) (hw : world g c = some w) (i : OrderInv w c) (hl : ∀ op ∈ ops, op.linear)
    (h : run g ops c = .ok c') (ho : c'.rorder = some o) (hs : c'.rorderOrigin = c'.origin) :
    SortedBy (c'.st.map Ph.r) o := by
  obtain ⟨hw', i'⟩ := C15_order_invariant g c c' ops w p l hw i hl h
  have st := run_steps p.nz l hl h
  exact i'.sorted (p.of_rest st.rest) st.lin hw' ho hs

theorem synced_exec {g : Galpy} {op : Op} {c c' : Cluster} (p : Pos g c) (l : Lin c) (hl : op.linear)
    (hso : op.sorts) (i : c.rorder ≠ none → c.rorderOrigin = c.origin) (h : op.exec g c = .ok c') :
    c'.rorder ≠ none → c'.rorderOrigin = c'.origin := by
  have st := exec_step p.nz l hl h
  have fin : ∀ {x : Cluster} {pr}, analyze true x pr = .ok c' → c'.rorderOrigin = c'.origin := by
    intro x pr hx
    obtain ⟨o, -, h2, -⟩ := analyze_rorder_sorted hx
    rw [h2, (core_fields (analyze_core hx)).2.1]
  obtain ⟨⟨u, hu, hul⟩, ⟨og, hog, hogl⟩⟩ := l
  cases ht : op.unitTarget with
  | some t =>
    have horig : c'.origin = c.origin := by
      rw [st.origin]; cases op <;> simp_all [Op.unitTarget, Op.originTarget]
    obtain ⟨c1, s1, h1⟩ := unit_pre hu hul ht (hl.1 _ ht) h
    rcases h1 with rfl | ⟨s, pr, h1⟩
    · intro hn; rw [s1.2.1, horig]; exact i (by rw [← s1.1]; exact hn)
    · rcases analyze_rorder h1 with ⟨k1, k2⟩ | ⟨-, k1, k2⟩
      · intro hn; rw [k2, s1.2.1, horig]; exact i (by rw [← s1.1, ← k1]; exact hn)
      · intro _; rw [k2, (core_fields (analyze_core h1)).2.1]
  | none =>
    intro hn
    have keep : SameOrd c c' → c'.origin = c.origin → c'.rorderOrigin = c'.origin := by
      intro s ho; rw [s.2.1, ho]; exact i (by rw [← s.1]; exact hn)
    have hur : c.units ≠ some .radec := by rw [hu]; rintro h; cases h; exact hul
    cases op <;> simp only [Op.unitTarget, reduceCtorEq] at ht <;> simp only [Op.sorts] at hso <;>
      try subst hso
    · simp only [Op.exec] at h
      unfold toCentre at h
      simp only [hog, bind, pure, Except.pure] at h
      repeat' first | split at h | (with_reducible replace h := bind_ok h; obtain ⟨_, -, h⟩ := h)
      all_goals first
        | exact fin h
        | (cases h
           refine keep (setMethod_ord _ _) ?_
           rename_i cm _; cases cm <;> rfl)
    · simp only [Op.exec] at h
      unfold toCluster at h
      simp only [hog, bind, pure, Except.pure] at h
      repeat' first | split at h | (with_reducible replace h := bind_ok h; obtain ⟨_, -, h⟩ := h)
      all_goals first
        | exact fin h
        | (cases h
           refine keep (setMethod_ord _ _) ?_
           rename_i cm _; cases cm <;> rfl)
    · simp only [Op.exec] at h
      unfold toGalaxy at h
      simp only [hog, bind, pure, Except.pure] at h
      repeat' first | split at h | (with_reducible replace h := bind_ok h; obtain ⟨_, -, h⟩ := h)
      all_goals exact fin h
    · simp only [Op.exec] at h
      unfold toOrigin at h
      simp only [hog, bind, pure, Except.pure] at h
      repeat' first | split at h | (with_reducible replace h := bind_ok h; obtain ⟨_, -, h⟩ := h)
      all_goals exact fin h
    · rename_i s pr
      simp only [Op.exec] at h
      rcases analyze_rorder h with ⟨k1, k2⟩ | ⟨-, k1, k2⟩
      · have : c'.origin = c.origin := (core_fields (analyze_core h)).2.1
        rw [k2, this]; exact i (by rw [← k1]; exact hn)
      · rw [k2, (core_fields (analyze_core h)).2.1]
    · cases h
      refine keep ⟨(audays_core c).2.2.1, ?_, (audays_core c).2.2.2,
        congrArg (fun d => d.st.length) (audays_core c).1⟩ (congrArg Data.origin (audays_core c).1)
      unfold toAudays; dsimp only; repeat' split
      all_goals rfl
    · cases h
      refine keep ⟨(sudays_core c).2.2.1, ?_, (sudays_core c).2.2.2,
        congrArg (fun d => d.st.length) (sudays_core c).1⟩ (congrArg Data.origin (sudays_core c).1)
      unfold toSudays; dsimp only; repeat' split
      all_goals rfl

/-- C15: starting from a cluster whose order is current (or absent), after any history of conversions and
analyses with sorting on (the default), a stored radial order is a permutation of all stars sorted by current
radius. -/
theorem C15_order_sorted (g : Galpy) (c c' : Cluster) (ops : List Op) (o : List ℕ) (p : Pos g c) (l : Lin c)
    (hcur : ∀ o, c.rorder = some o → c.rorderOrigin = c.origin ∧ SortedBy (c.st.map Ph.r) o)
    (hl : ∀ op ∈ ops, op.linear) (hso : ∀ op ∈ ops, op.sorts) (h : run g ops c = .ok c')
    (ho : c'.rorder = some o) : SortedBy (c'.st.map Ph.r) o := by
  obtain ⟨⟨u, hu, hul⟩, ⟨og, hog, hogl⟩⟩ := id l
  obtain ⟨w, hw⟩ := world_isSome (g := g) hu hul hog
  obtain ⟨s, hsc⟩ := unitScale_isSome (g := g) (c := c) hul
  have hlen := (unitScale_pos p hsc).1
  have i : OrderInv w c := by
    intro x hx
    obtain ⟨h1, h2, h3⟩ := hcur x hx
    have h2' : IsOrder c.st.length x := by simpa using h2
    refine ⟨og, h1.trans hog, hogl, world_length hw ▸ h2', h3.imp_of_mem ?_⟩
    intro a b ha hb hab
    rw [World.radius_eq hw hu hog hogl hsc hlen a (h2'.lt ha), World.radius_eq hw hu hog hogl hsc hlen b (h2'.lt hb)]
    exact mul_le_mul_of_nonneg_right hab hlen.le
  refine C15_order_sorted_when_synced g c c' ops w o p l hw i hl h ho ?_
  have : ∀ (ops : List Op) (c : Cluster), Pos g c → Lin c → (c.rorder ≠ none → c.rorderOrigin = c.origin) →
      (∀ op ∈ ops, op.linear) → (∀ op ∈ ops, op.sorts) → run g ops c = .ok c' →
      c'.rorder ≠ none → c'.rorderOrigin = c'.origin := by
    intro ops
    induction ops with
    | nil => intro c _ _ i _ _ h; cases h; exact i
    | cons op ops ih =>
      intro c p l i hl hso h
      obtain ⟨c1, h1, h2⟩ := bind_ok h
      have hl1 := hl op (by simp)
      have st := exec_step p.nz l hl1 h1
      exact ih c1 (p.of_rest st.rest) (st.lin hl1 l) (synced_exec p l hl1 (hso op (by simp)) i h1)
        (fun o ho => hl o (by simp [ho])) (fun o ho => hso o (by simp [ho])) h2
  refine this ops c p l ?_ hl hso h (by rw [ho]; simp)
  intro hn
  cases hr : c.rorder with
  | none => exact absurd hr hn
  | some x => exact (hcur x hr).1

/-- C64 (projected order): once stored with the right length it is *never* replaced, by any history. -/
theorem C64_projected_order_never_updated (g : Galpy) (c c' : Cluster) (ops : List Op) (o : List ℕ)
    (p : Pos g c) (l : Lin c) (hl : ∀ op ∈ ops, op.linear) (ho : c.rproorder = some o)
    (hlen : o.length = c.st.length) (h : run g ops c = .ok c') : c'.rproorder = some o := by
  obtain ⟨⟨u, hu, hul⟩, ⟨og, hog, hogl⟩⟩ := id l
  obtain ⟨w, hw⟩ := world_isSome (g := g) hu hul hog
  exact ((kept_rproorder g w o).run p l hl hw ⟨ho, hlen⟩ h).1

/-- Two stars whose projected order differs between the cluster frame and the galaxy frame. -/
def demoPro : Cluster :=
  { demo with
    st := [⟨3, 0, 0, 0, 0, 0⟩, ⟨-1, 0, 0, 0, 0, 0⟩], gc := ⟨-3, 0, 0, 0, 0, 0⟩,
    rorder := some [1, 0], rproorder := some [1, 0] }

theorem demoPro_good : Good demoPro where
  ne := by simp [demoPro]
  len := by simp [demoPro, demo]
  mass := by norm_num [demoPro, demo]
  ro := by
    intro o h; simp only [demoPro, Option.some.injEq] at h; subst h
    simp only [IsOrder, demoPro]; decide
  rpo := by
    intro o h; simp only [demoPro, Option.some.injEq] at h; subst h
    simp only [IsOrder, demoPro]; decide

/-- C64 is false of the code for the projected order: from a cluster whose projected order is correct,
`to_galaxy()` with all defaults leaves an order that is not sorted by the new projected radii. -/
theorem C64_projected_order_violated : ∃ c c' o o', Good c ∧ Pos demoG c ∧ Lin c ∧
    c.rproorder = some o ∧ SortedBy (c.st.map Ph.rpro) o ∧
    toGalaxy demoG true c = .ok c' ∧ c'.rproorder = some o' ∧ ¬ SortedBy (c'.st.map Ph.rpro) o' := by
  have hp : Pos demoG demoPro :=
    ⟨demo_pos.rbar, demo_pos.vbar, demo_pos.zmbar, demo_pos.tbar, demo_pos.ro, demo_pos.vo, demo_pos.time,
      demo_pos.mass, demo_pos.vel⟩
  have hl : Lin demoPro := ⟨demo_lin.units, demo_lin.origin⟩
  obtain ⟨c', h, -⟩ := toGalaxy_total (g := demoG) (s := true) (c := demoPro) (by simp [demoPro, demo])
    demoPro_good
  have hro := C64_projected_order_never_updated demoG demoPro c' [.toGalaxy true] [1, 0] hp hl
    (by simp [Op.linear, Op.unitTarget, Op.originTarget, Origin.linear]) rfl rfl
    (by simp [run, Op.exec, h, Except.bind])
  refine ⟨demoPro, c', [1, 0], [1, 0], demoPro_good, hp, hl, rfl, ?_, h, hro, ?_⟩
  · refine ⟨by simp only [IsOrder, demoPro]; decide, ?_⟩
    simp [demoPro, Ph.rpro, Real.sqrt_sq_eq_abs]
  · have hst : c'.st = [⟨0, 0, 0, 0, 0, 0⟩, ⟨-4, 0, 0, 0, 0, 0⟩] := by
      simp only [toGalaxy, demoPro, demo, bind, Except.bind] at h
      simp at h
      rw [(core_fields (analyze_core h)).2.2.2.2.1]
      simp [Ph.add]
      norm_num
    rintro ⟨-, h2⟩
    rw [hst] at h2
    simp [Ph.rpro, Real.sqrt_sq_eq_abs] at h2
    norm_num at h2

/-! ### C16 -/

/-- C16: whenever `analyze()` (sorting on) returns on a cluster with non-negative masses whose stored order, if
made for this origin, is a sort of the current radii, `rm` and `r10` are the half-mass and 10%-mass radii, and
`r10 ≤ rm`. -/
theorem C16_half_mass_radius (p : Bool) (c c' : Cluster) (hlen : c.m.length = c.st.length)
    (hm : ∀ x ∈ c.m, 0 ≤ x)
    (hcur : ∀ o, c.rorder = some o → c.rorderOrigin = c.origin → SortedBy (c.st.map Ph.r) o)
    (h : analyze true c p = .ok c') :
    ∃ rm r10, c'.d.rm = some rm ∧ c'.d.r10 = some r10 ∧
      IsMassRadius 0.5 c.m (c.st.map Ph.r) rm ∧ IsMassRadius 0.1 c.m (c.st.map Ph.r) r10 ∧ r10 ≤ rm := by
  obtain ⟨o, h1, h2, h3⟩ := analyze_rorder_sorted h
  have hs : SortedBy (c.st.map Ph.r) o := by
    rcases h3 with rfl | ⟨k1, k2⟩
    · exact .argsort _
    · exact hcur o k1 k2
  have hne : c.m ≠ [] := by
    have := (analyze_d h).1
    intro h0; rw [h0] at hlen; exact this (List.length_eq_zero_iff.mp hlen.symm)
  obtain ⟨a, b, ha, hb, ea, eb⟩ := analyze_rm h h1
  obtain ⟨a', ea', ma⟩ := massFracRadius_isMassRadius (f := 0.5) hs (by simp [hlen]) hne hm (by norm_num)
  obtain ⟨b', eb', mb⟩ := massFracRadius_isMassRadius (f := 0.1) hs (by simp [hlen]) hne hm (by norm_num)
  rw [ea] at ea'; cases ea'
  rw [eb] at eb'; cases eb'
  refine ⟨a, b, ha, hb, ma, mb, mb.mono ma ?_⟩
  have := List.sum_nonneg hm
  nlinarith

/-- C16 over histories: from a cluster whose order is current, after any default-sorting history followed by
`analyze()`, `rm` and `r10` are the mass radii of the current stars. -/
theorem C16_half_mass_radius_histories (g : Galpy) (c c' : Cluster) (ops : List Op) (p : Pos g c) (l : Lin c)
    (hg : Good c) (hm : ∀ x ∈ c.m, 0 ≤ x)
    (hcur : ∀ o, c.rorder = some o → c.rorderOrigin = c.origin ∧ SortedBy (c.st.map Ph.r) o)
    (hl : ∀ op ∈ ops, op.linear) (hso : ∀ op ∈ ops, op.sorts)
    (h : run g (ops ++ [.analyze true true]) c = .ok c') :
    ∃ rm r10, c'.d.rm = some rm ∧ c'.d.r10 = some r10 ∧
      IsMassRadius 0.5 c'.m (c'.st.map Ph.r) rm ∧ IsMassRadius 0.1 c'.m (c'.st.map Ph.r) r10 ∧ r10 ≤ rm := by
  have happ : ∀ (xs : List Op) (c : Cluster), run g (xs ++ [.analyze true true]) c =
      (run g xs c).bind (fun c1 => analyze true c1 true) := by
    intro xs
    induction xs with
    | nil =>
      intro c
      simp only [List.nil_append, run, Op.exec, Except.bind]
      cases analyze true c true <;> rfl
    | cons x xs ih =>
      intro c
      simp only [List.cons_append, run]
      cases hx : x.exec g c with
      | error e => rfl
      | ok c1 => exact ih c1
  rw [happ] at h
  obtain ⟨c1, h1, h2⟩ := bind_ok h
  obtain ⟨c1', h1', g1⟩ := run_total p l hl hg
  rw [h1] at h1'; cases h1'
  have st := run_steps p.nz l hl h1
  have hms : ∀ x ∈ c1.m, 0 ≤ x := by
    obtain ⟨⟨u, hu, hul⟩, ⟨o, ho, hol⟩⟩ := id l
    obtain ⟨⟨u1, hu1, hul1⟩, ⟨o1, ho1, hol1⟩⟩ := st.lin
    obtain ⟨s, hs⟩ := unitScale_isSome (g := g) (c := c) hul
    obtain ⟨s1, hs1⟩ := unitScale_isSome (g := g) (c := c1) hul1
    have hw := st.world
    unfold world phys at hw
    simp only [hu, hu1, ho, ho1, hs, hs1, Option.some.injEq, World.mk.injEq] at hw
    intro x hx
    have : x * s1.mass ∈ c.m.map (· * s.mass) := by
      rw [← hw.2.1]; exact List.mem_map.mpr ⟨x, hx, rfl⟩
    obtain ⟨y, hy, e⟩ := List.mem_map.mp this
    have p1 := (unitScale_pos (p.of_rest st.rest) hs1).2.2.1
    have p0 := (unitScale_pos p hs).2.2.1
    have : 0 ≤ x * s1.mass := by rw [← e]; exact mul_nonneg (hm y hy) p0.le
    exact nonneg_of_mul_nonneg_left this p1
  obtain ⟨k1, k2, k3, k4, k5, -⟩ := core_fields (analyze_core h2)
  rw [k4, k5]
  exact C16_half_mass_radius true c1 c' g1.len hms
    (fun o ho _ => C15_order_sorted g c c1 ops o p l hcur hl hso h1 ho) h2

/-- A cluster in the galaxy frame, correctly sorted there. -/
def demoStale : Cluster :=
  { demo with
    origin := some .galaxy, m := [1, 1],
    st := [⟨8, 0, 0, 0, 0, 0⟩, ⟨11, 0, 0, 0, 0, 0⟩], gc := ⟨10, 0, 0, 0, 0, 0⟩,
    rorder := some [0, 1], rorderOrigin := some .galaxy, rproorder := some [0, 1] }

theorem demoStale_good : Good demoStale where
  ne := by simp [demoStale]
  len := by simp [demoStale]
  mass := by norm_num [demoStale]
  ro := by
    intro o h; simp only [demoStale, Option.some.injEq] at h; subst h
    simp only [IsOrder, demoStale]; decide
  rpo := by
    intro o h; simp only [demoStale, Option.some.injEq] at h; subst h
    simp only [IsOrder, demoStale]; decide

/-- C64 is false of the code with sorting off: `to_cluster(sortstars=False)` recomputes `r10` with the order of
the previous frame, giving 2 where the true 10%-mass radius is 1. -/
theorem C64_stale_order_violated : ∃ c', toCluster false none demoStale = .ok c' ∧
    c'.st.map Ph.r = [2, 1] ∧ c'.m = [1, 1] ∧ c'.d.r10 = some 2 ∧
    ¬ IsMassRadius 0.1 c'.m (c'.st.map Ph.r) 2 := by
  obtain ⟨c', h, -⟩ := toCluster_total (s := false) (cm := none) (c := demoStale)
    (by simp [demoStale, demo]) demoStale_good
  have h' := h
  simp only [toCluster, demoStale, demo, bind, Except.bind, setMethod] at h'
  simp at h'
  have hc := core_fields (analyze_core h')
  have hr : c'.st.map Ph.r = [2, 1] := by
    rw [hc.2.2.2.2.1]
    simp [Ph.sub, Ph.r, Real.sqrt_sq_eq_abs]
    norm_num
  have hm : c'.m = [1, 1] := hc.2.2.2.1
  have ho : c'.rorder = some [0, 1] := by
    rcases analyze_rorder h' with ⟨k, -⟩ | ⟨k, -⟩
    · exact k
    · cases k
  obtain ⟨a, b, -, hb, -, eb⟩ := analyze_rm h' ho
  refine ⟨c', h, hr, hm, ?_, ?_⟩
  · rw [hb]
    rw [hc.2.2.2.2.1] at hr
    rw [hr] at eb
    have e : massFracRadius 0.1 ([1, 1] : List ℝ).sum [1, 1] [2, 1] [0, 1] = .ok 2 := by
      simp [massFracRadius, cumsum, cumsumFrom, List.findIdx?_cons]
      norm_num
    rw [e] at eb
    cases eb; rfl
  · rw [hr, hm]
    rintro ⟨-, -, h3⟩
    have := h3 1 (by simp) (by norm_num)
    simp [massWhere] at this
    norm_num at this

/-- C16 instance: the hypotheses hold for the demo cluster (stored order correct). -/
example : ∃ c', analyze true demo = .ok c' ∧ ∃ rm, c'.d.rm = some rm ∧
    IsMassRadius 0.5 demo.m (demo.st.map Ph.r) rm := by
  obtain ⟨c', h, -⟩ := analyze_total (s := true) (p := true) demo_good
  obtain ⟨rm, r10, h1, -, h2, -⟩ := C16_half_mass_radius true demo c' (by simp [demo]) (by simp [demo]) (by
    intro o ho _
    simp only [demo, Option.some.injEq] at ho
    subst ho
    refine ⟨by simp only [IsOrder, demo]; decide, ?_⟩
    simp [demo, Ph.r]
    norm_num) h
  exact ⟨c', h, rm, h1, h2⟩

end

end CT
