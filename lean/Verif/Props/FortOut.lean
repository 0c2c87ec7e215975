/- C108, C109: `fortout`, `sseout`. -/
import Verif.Props.GyrOut

namespace CT

noncomputable section

/-- `reset_nbody_scale` for all choices of `mass` and `radii`. -/
theorem reset_run {g : Galpy} {c : Cluster} {u : Units} {s : Scale} (mass radii pr : Bool) (p : Pos g c) (l : Lin c)
    (hg : Good c) (hu : c.units = some u) (hs : unitScale g c u = some s) :
    ∃ c', resetNbodyScale g mass radii true pr c = .ok c' ∧ c'.data = c.data ∧ Good c' ∧
      c'.rest = Cluster.rest { c with zmbar := c'.zmbar, rbar := c'.rbar, vbar := c'.vbar, tbar := c'.tbar } ∧
      c'.zmbar = (if mass then c.m.sum * s.mass else c.zmbar) ∧ c'.rbar = (if radii then virialRadius true pr c.m c.st * s.len else c.rbar) ∧
      c'.vbar = 0.06557 * Real.sqrt (c'.zmbar / c'.rbar) ∧ c'.tbar = c'.rbar / (1.023 * c'.vbar) := by
  obtain ⟨o, ho, hol⟩ := l.origin
  obtain ⟨u0, hu0, hul⟩ := l.units
  rw [hu] at hu0; cases hu0
  obtain ⟨c1, c2, k1, k2, g2, l2, hu2, hrest, hworld⟩ : ∃ c1 c2, (if c.origin ≠ some .cluster ∧ c.origin ≠ some .centre then toCentre true none c
      else .ok c) = .ok c1 ∧ toPckms g true c1 = .ok c2 ∧ Good c2 ∧ Lin c2 ∧ c2.units = some .pckms ∧ c2.rest = c.rest ∧ world g c2 = world g c := by
    by_cases hc : c.origin ≠ some .cluster ∧ c.origin ≠ some .centre
    · have hlin : ∀ op ∈ ([.toCentre true none, .toPckms true] : List Op), op.linear := by
        simp [Op.linear, Op.unitTarget, Op.originTarget, Units.linear, Origin.linear]
      obtain ⟨c2, h2, g2⟩ := run_total p l hlin hg
      have st := run_steps p.nz l hlin h2
      simp only [run, Op.exec] at h2
      obtain ⟨c1, k1, k2⟩ := bind_ok h2
      obtain ⟨c2', k3, k4⟩ := bind_ok k2
      cases k4
      exact ⟨c1, c2, by rw [if_pos hc]; exact k1, k3, g2, st.lin, by rw [st.units]; rfl, st.rest, st.world⟩
    · have hlin : ∀ op ∈ ([.toPckms true] : List Op), op.linear := by
        simp [Op.linear, Op.unitTarget, Op.originTarget, Units.linear]
      obtain ⟨c2, h2, g2⟩ := run_total p l hlin hg
      have st := run_steps p.nz l hlin h2
      simp only [run, Op.exec] at h2
      obtain ⟨c2', k3, k4⟩ := bind_ok h2
      cases k4
      exact ⟨c, c2, by rw [if_neg hc], k3, g2, st.lin, by rw [st.units]; rfl, st.rest, st.world⟩
  obtain ⟨c3, h3, hd, -, g3, -, hr3⟩ := return_of_world (sort := false) (cm := none) p l hg g2 l2 hrest hworld
  have hz : c2.m.sum = c.m.sum * s.mass := by
    obtain ⟨o2, ho2, hol2⟩ := l2.origin
    have hw := world_pairs (g := g) hu hu2 ho ho2 hol hol2 hs rfl hworld
    have := congrArg List.sum hw.1
    rw [sum_map_mul, sum_map_mul] at this
    simpa using this
  have hr : virialRadius true pr c2.m c2.st = virialRadius true pr c.m c.st * s.len := by
    have := C45_virial_radius_world g true pr c c2 u .pckms s _ p l l2 (p.of_rest hrest) hg.len hu hu2 hs rfl hworld
    simpa using this
  obtain ⟨hz2, hrb2, -, -⟩ := rest_scales hrest
  obtain ⟨z, hzz⟩ : ∃ z, z = (if mass then c2.m.sum else c2.zmbar) := ⟨_, rfl⟩
  obtain ⟨b, hbb⟩ : ∃ b, b = (if radii then virialRadius true pr c2.m c2.st else c2.rbar) := ⟨_, rfl⟩
  refine ⟨{ c3 with
    zmbar := z, rbar := b
    vbar := 0.06557 * Real.sqrt (z / b)
    tbar := b / (1.023 * (0.06557 * Real.sqrt (z / b))) }, ?_, hd, ?_, ?_, ?_, ?_, rfl, rfl⟩
  · unfold resetNbodyScale
    simp only [bind]
    have : ∀ (f : Cluster → Except Err Cluster), (if c.origin ≠ some .cluster ∧ c.origin ≠ some .centre then
        (toCentre true none c).bind f else (Except.ok c : Except Err Cluster).bind f) = f c1 := by
      intro f
      split at k1 <;> rename_i hc
      · rw [if_pos hc, k1]; rfl
      · rw [if_neg hc, k1]; rfl
    rw [this]
    cases radii <;> simp only [k2, Except.bind, if_true, h3, pure, Except.pure, hzz, hbb, Bool.false_eq_true, if_false]
  · exact g3.same rfl rfl rfl rfl
  · have := hr3
    unfold Cluster.rest Cluster.core at this ⊢
    simp only [Cluster.mk.injEq] at this ⊢
    tauto
  · show z = _
    rw [hzz]
    cases mass <;> simp [hz, hz2]
  · show b = _
    rw [hbb]
    cases radii <;> simp [hr, hrb2]

/-- A row of `fort.10` means mass `M` (Msun) and, for a cluster with centre `C` and position `G` in the galaxy, the galactocentric `P`
(pc, km/s), with scales `z`, `r`, `v`. -/
structure FortMeans (z r v : ℝ) (row : List ℝ) (M : ℝ) (P C G : Ph) : Prop where
  len : row.length = 7
  mass : row[0]! * z = M
  place : P = phAdd (phAdd ⟨row[1]! * r, row[2]! * r, row[3]! * r, row[4]! * v, row[5]! * v, row[6]! * v⟩ C) G

/-- The part of `fortout` after the scales are settled: `c2` is the cluster in the centre frame, `c0` the cluster to return to. -/
theorem fort_tail {g : Galpy} {c0 c2 : Cluster} (p0 : Pos g c0) (l0 : Lin c0) (g0 : Good c0) (l : Lin c2) (hg : Good c2)
    (ho : c2.origin = some .centre) (hrest : c2.rest = c0.rest) (hworld : world g c2 = world g c0) :
    ∃ c3 c4 d, toNbody g c2 = .ok c3 ∧ toPckms g true c3 = .ok c4 ∧ returnCluster g (saveCluster c0) false none c4 = .ok d ∧
      d.data = c0.data ∧ d.rest = c0.rest ∧ c3.units = some .nbody ∧ c3.origin = some .centre ∧ c3.rest = c0.rest ∧ world g c3 = world g c0 ∧
      Lin c3 ∧ c4.units = some .pckms ∧ c4.origin = some .centre ∧ world g c4 = world g c0 ∧ Good c3 := by
  have p2 := p0.of_rest hrest
  have hl1 : ∀ op ∈ ([.toNbody] : List Op), op.linear := by
    simp [Op.linear, Op.unitTarget, Op.originTarget, Units.linear]
  have hl2 : ∀ op ∈ ([.toPckms true] : List Op), op.linear := by
    simp [Op.linear, Op.unitTarget, Op.originTarget, Units.linear]
  obtain ⟨c3, h3, g3⟩ := run_total p2 l hl1 hg
  have s3 := run_steps p2.nz l hl1 h3
  have p3 := p2.of_rest s3.rest
  obtain ⟨c4, h4, g4⟩ := run_total p3 s3.lin hl2 g3
  have s4 := run_steps p3.nz s3.lin hl2 h4
  have hr : c4.rest = c0.rest := s4.rest.trans (s3.rest.trans hrest)
  have hw : world g c4 = world g c0 := s4.world.trans (s3.world.trans hworld)
  obtain ⟨d, h5, hd, -, -, -, hrd⟩ := return_of_world (sort := false) (cm := none) p0 l0 g0 g4 s4.lin hr hw
  simp only [run, Op.exec] at h3 h4
  obtain ⟨x, k3, k4⟩ := bind_ok h3
  cases k4
  obtain ⟨y, k5, k6⟩ := bind_ok h4
  cases k6
  refine ⟨c3, c4, d, k3, k5, h5, hd, hrd, ?_, ?_, s3.rest.trans hrest, s3.world.trans hworld, s3.lin, ?_, ?_, hw, g3⟩
  · rw [s3.units]; rfl
  · rw [s3.origin]; exact ho
  · rw [s4.units]; rfl
  · rw [s4.origin, s3.origin]; exact ho

/-- What the rows of `fort.10` mean. -/
theorem fortRow_means {g : Galpy} {c0 c3 : Cluster} (hu : c3.units = some .nbody) (ho : c3.origin = some .centre) (hrest : c3.rest = c0.rest)
    (hw : world g c3 = world g c0) {W : World} (hW : world g c0 = some W) {i : ℕ} (hi : i < c3.st.length) :
    ∃ P, W.stars[i]? = some (some P) ∧ W.stars.length = c3.st.length ∧
      FortMeans c0.zmbar c0.rbar c0.vbar (fortRow c3 i) (W.mass[i]!) P W.centre W.gc ∧ W.mass = c3.m.map (· * c0.zmbar) := by
  obtain ⟨hz, hr, hv, -⟩ := rest_scales hrest
  rw [hW] at hw
  unfold CT.world phys at hw
  simp only [hu, ho, unitScale, Option.some.injEq] at hw
  have hm : W.mass = c3.m.map (· * c0.zmbar) := by rw [← hw, hz]
  refine ⟨phAdd (phAdd (Scale.ph ⟨c3.rbar, c3.vbar, c3.zmbar, c3.tbar⟩ c3.st[i]!) W.centre) W.gc, ?_, ?_, ⟨rfl, ?_, ?_⟩, hm⟩
  · rw [← hw]
    simp only [galRows, galactocentric, List.getElem?_map, List.getElem?_eq_getElem hi, Option.map_some, getElem!_pos c3.st i hi]
  · rw [← hw]
    simp [galRows]
  · rw [hm]
    by_cases h : i < c3.m.length
    · rw [get!_map _ _ _ h]
      rfl
    · have e1 : c3.m[i]! = 0 := getElem!_neg c3.m i h
      have e2 : (c3.m.map (· * c0.zmbar))[i]! = 0 := getElem!_neg _ i (by simpa using h)
      rw [e2]
      show c3.m[i]! * _ = 0
      rw [e1, zero_mul]
  · rw [hr, hv]
    rfl

/-- All columns of a stellar evolution file are there. -/
def HasEvo (r : Run) (e : Evo) : Prop :=
  r.m0.length = r.base.st.length ∧ r.kw.length = r.base.st.length ∧ e.ep.length = r.base.st.length ∧ e.ospin.length = r.base.st.length

/-- What `fortout` has done when it returns: `fort.10` is in `wdir` with the stars of the world `W` in the scales of `c0`, `fort.12`, if wanted,
with initial mass, type, mass, epoch and spin, other files are as before, and the cluster has the numbers it had. -/
structure FortDone (g : Galpy) (F : Fmt) (a : FortArgs) (r : Run) (e : Evo) (fs : FS) (c0 : Cluster) (W : World) (rows : List (List ℝ)) (fs' : FS) (r' : Run) : Prop where
  same : r' = { r with base := r'.base }
  data : r'.base.data = r.base.data
  scales : r'.base.rest = c0.rest
  file : a.sse = true → a.sseFilename ≠ a.filename → fs'.file (r.wdir ++ a.filename) = some (rows.map Line.row)
  fileAlone : a.sse = false → fs'.file (r.wdir ++ a.filename) = some (rows.map Line.row)
  length : rows.length = r.base.st.length
  rows : ∀ i < r.base.st.length, ∃ P, W.stars[i]? = some (some P) ∧
    FortMeans c0.zmbar c0.rbar c0.vbar (rows[i]!) (W.mass[i]!) P W.centre W.gc
  evo : a.sse = true → fs'.file (r.wdir ++ a.sseFilename) =
    some ((List.range r.base.st.length).map (fun i => Line.row [F.f r.m0[i]!, F.i r.kw[i]!, F.f W.mass[i]!, F.f e.ep[i]!, F.f e.ospin[i]!]))
  others : ∀ f, f ≠ r.wdir ++ a.filename → (a.sse = true → f ≠ r.wdir ++ a.sseFilename) → fs'.file f = fs.file f

theorem world_lengths {g : Galpy} {c : Cluster} {W : World} (hW : world g c = some W) : W.stars.length = c.st.length ∧ W.mass.length = c.m.length := by
  unfold CT.world phys at hW
  split at hW <;> simp only [Option.some.injEq, reduceCtorEq] at hW
  rename_i P o hP ho
  rw [← hW]
  simp only [galRows, List.length_map]
  split at hP
  · cases hP
  · split at hP
    · cases hP
    · cases hP
      simp

theorem append_left_ne {a b c : String} (h : b ≠ c) : a ++ b ≠ a ++ c := by
  intro e
  apply h
  have := congrArg String.toList e
  simp only [String.toList_append, List.append_cancel_left_eq] at this
  exact String.toList_inj.mp this

/-- The run of `fortout` after the scales are settled. -/
theorem fort_done {g : Galpy} {F : Fmt} {a : FortArgs} {pr : Bool} {r : Run} {e : Evo} {fs : FS} {c0 c1 c2 : Cluster} {W : World}
    (h1 : toCentre false none r.base = .ok c1)
    (h2 : (if a.reset then resetNbodyScale g a.resetMass a.resetRadii true pr c1 else .ok c1) = .ok c2)
    (p0 : Pos g c0) (l0 : Lin c0) (g0 : Good c0) (l : Lin c2) (hg : Good c2)
    (ho : c2.origin = some .centre) (hrest : c2.rest = c0.rest) (hworld : world g c2 = world g c0)
    (hsave : saveCluster c0 = saveCluster r.base) (hdata : c0.data = r.base.data) (hW : world g c0 = some W)
    (hsse : a.sse = true → HasEvo r e) :
    ∃ rows fs' r', fortout g F a pr r e fs = .ok (fs', r', none) ∧ FortDone g F a r e fs c0 W rows fs' r' ∧
      ∃ c3, Lin c3 ∧ c3.units = some .nbody ∧ c3.rest = c0.rest ∧ world g c3 = world g c0 ∧ rows = (List.range c3.st.length).map (fortRow c3) ∧ Good c3 := by
  obtain ⟨c3, c4, d, k3, k4, k5, hd, hdr, hu3, ho3, hr3, hw3, l3, hu4, ho4, hw4, g3⟩ := fort_tail p0 l0 g0 l hg ho hrest hworld
  rw [hsave] at k5
  have hst0 : c0.st = r.base.st := congrArg Data.st hdata
  have hm0 : c0.m = r.base.m := congrArg Data.m hdata
  have hlen : c3.st.length = r.base.st.length := by
    rw [← hst0, ← (world_lengths hW).1, (world_lengths (hw3.trans hW)).1]
  have hm4 : c4.m = W.mass := by
    have := hw4.trans hW
    unfold CT.world phys at this
    simp only [hu4, ho4, unitScale, Option.some.injEq] at this
    rw [← this]
    simp
  have hml : c4.m.length = r.base.st.length := by
    rw [hm4, (world_lengths hW).2, g0.len, hst0]
  have base : ∀ rows : Option (List (List ℝ)), (if a.sse then (sseRows F r e c4.m).map some else .ok none) = .ok rows →
      fortout g F a pr r e fs = .ok (rows.elim (fs.write (r.wdir ++ a.filename) ((List.range c3.st.length).map (fortRow c3)))
        (fun rows => (fs.write (r.wdir ++ a.filename) ((List.range c3.st.length).map (fortRow c3))).write (r.wdir ++ a.sseFilename) rows),
        { r with base := d }, none) := by
    intro rows hrows
    unfold fortout
    simp only [bind, h1, Except.bind]
    have : ∀ (f : Cluster → Except Err (FS × Run × Option Err)), (if a.reset then (resetNbodyScale g a.resetMass a.resetRadii true pr c1).bind f else
        (Except.ok c1 : Except Err Cluster).bind f) = f c2 := by
      intro f
      split at h2 <;> rename_i hc
      · rw [if_pos hc, h2]; rfl
      · rw [if_neg hc, h2]; rfl
    have hf := this
    simp only [Except.bind] at hf
    rw [hf]
    simp only [k3, k4, hrows, k5, pure, Except.pure]
  have hrow : ∀ i < r.base.st.length, ((List.range c3.st.length).map (fortRow c3))[i]! = fortRow c3 i := by
    intro i hi
    rw [get!_map _ _ _ (by rw [List.length_range]; omega), getElem!_pos (List.range _) i (by rw [List.length_range]; omega), List.getElem_range]
  have hmean : ∀ i < r.base.st.length, ∃ P, W.stars[i]? = some (some P) ∧
      FortMeans c0.zmbar c0.rbar c0.vbar (((List.range c3.st.length).map (fortRow c3))[i]!) (W.mass[i]!) P W.centre W.gc := by
    intro i hi
    obtain ⟨P, e1, -, e2, -⟩ := fortRow_means hu3 ho3 hr3 hw3 hW (i := i) (by omega)
    rw [hrow i hi]
    exact ⟨P, e1, e2⟩
  have hc3 : ∃ c, Lin c ∧ c.units = some .nbody ∧ c.rest = c0.rest ∧ world g c = world g c0 ∧
      (List.range c3.st.length).map (fortRow c3) = (List.range c.st.length).map (fortRow c) ∧ Good c := ⟨c3, l3, hu3, hr3, hw3, rfl, g3⟩
  cases hs : a.sse with
  | false =>
    refine ⟨_, _, _, base none (by rw [hs]; rfl), ⟨rfl, hd.trans hdata, hdr, (by rw [hs]; intro h; cases h), fun _ => ?_, ?_, hmean, (by rw [hs]; intro h; cases h), ?_⟩, hc3⟩
    · exact if_pos rfl
    · rw [List.length_map, List.length_range, hlen]
    · intro f hf _
      exact if_neg hf
  | true =>
    obtain ⟨e1, e2, e3, e4⟩ := hsse hs
    have hrows : sseRows F r e c4.m = .ok ((List.range r.base.st.length).map (fun i => [F.f r.m0[i]!, F.i r.kw[i]!, F.f W.mass[i]!, F.f e.ep[i]!, F.f e.ospin[i]!])) := by
      unfold sseRows
      rw [if_pos ⟨by omega, by omega, by omega, by omega⟩, e1, hm4]
    refine ⟨_, _, _, base (some _) (by rw [hs, if_pos rfl, hrows]; rfl), ⟨rfl, hd.trans hdata, hdr, fun _ hne => ?_, (by rw [hs]; intro h; cases h), ?_, hmean, fun _ => ?_, ?_⟩, hc3⟩
    · show (if r.wdir ++ a.filename = r.wdir ++ a.sseFilename then _ else (if r.wdir ++ a.filename = r.wdir ++ a.filename then _ else _)) = _
      rw [if_neg (append_left_ne hne.symm), if_pos rfl]
    · rw [List.length_map, List.length_range, hlen]
    · show (if r.wdir ++ a.sseFilename = r.wdir ++ a.sseFilename then _ else _) = _
      rw [if_pos rfl, List.map_map]
      rfl
    · intro f hf hf2
      show (if f = r.wdir ++ a.sseFilename then _ else (if f = r.wdir ++ a.filename then _ else _)) = _
      rw [if_neg (hf2 hs), if_neg hf]

/-- **C108.** `fortout` without `reset_nbody`, from all linear units and origins: `fort.10` has one row for each star, in order, with its mass,
position and velocity with respect to the centre in N-body units; with `sse=True`, `fort.12` has initial mass, type, mass in Msun, epoch and spin;
nothing else is written; the cluster is as before. -/
theorem C108_fortout {g : Galpy} {F : Fmt} {a : FortArgs} {pr : Bool} {r : Run} {e : Evo} (fs : FS) {W : World}
    (p : Pos g r.base) (l : Lin r.base) (hg : Good r.base) (hW : world g r.base = some W) (hr : a.reset = false) (hsse : a.sse = true → HasEvo r e) :
    ∃ rows fs' r', fortout g F a pr r e fs = .ok (fs', r', none) ∧ FortDone g F a r e fs r.base W rows fs' r' := by
  have hlin : ∀ op ∈ ([.toCentre false none] : List Op), op.linear := by
    simp [Op.linear, Op.unitTarget, Op.originTarget, Origin.linear]
  obtain ⟨c1, h1, g1⟩ := run_total p l hlin hg
  have s1 := run_steps p.nz l hlin h1
  simp only [run, Op.exec] at h1
  obtain ⟨x, k1, k2⟩ := bind_ok h1
  cases k2
  obtain ⟨rows, fs', r', h2, h3, -⟩ := fort_done (F := F) (pr := pr) (e := e) (fs := fs) (a := a) k1 (by rw [hr]; rfl) p l hg s1.lin g1 (by rw [s1.origin]; rfl) s1.rest s1.world rfl rfl hW hsse
  exact ⟨rows, fs', r', h2, h3⟩

theorem world_of_data_not_nbody {g : Galpy} {c c' : Cluster} (h : c'.data = c.data) (hn : c.units ≠ some .nbody) : world g c' = world g c := by
  have ho : c'.origin = c.origin := congrArg Data.origin h
  unfold world
  rw [phys_of_data h hn, ho]

/-- The phase-space part of rows `m, x, y, z, vx, vy, vz`. -/
def rowPh (l : List ℝ) : Ph := ⟨l[1]!, l[2]!, l[3]!, l[4]!, l[5]!, l[6]!⟩

theorem map_range_get! {α : Type} [Inhabited α] (l : List α) : (List.range l.length).map (fun i => l[i]!) = l := by
  refine List.ext_getElem (by simp) fun i h1 h2 => ?_
  rw [List.getElem_map, List.getElem_range, getElem!_pos l i h2]

/-- **C108.** `fortout` with `reset_nbody=True`, from all linear units but `nbody`: in addition the numbers written are in standard units: the masses
add up to 1 (if the mass scale is reset) and the virial radius is 1 (if the radius scale is); the world the cluster describes is unchanged. -/
theorem C108_fortout_reset {g : Galpy} {F : Fmt} {a : FortArgs} {pr : Bool} {r : Run} {e : Evo} (fs : FS) {W : World}
    (p : Pos g r.base) (l : Lin r.base) (hg : Good r.base) (hW : world g r.base = some W) (hr : a.reset = true) (hn : r.base.units ≠ some .nbody)
    (hm : 0 < r.base.m.sum) (hv : 0 < virialRadius true pr r.base.m r.base.st) (hsse : a.sse = true → HasEvo r e) :
    ∃ rows fs' r', fortout g F a pr r e fs = .ok (fs', r', none) ∧ FortDone g F a r e fs r'.base W rows fs' r' ∧
      world g r'.base = world g r.base ∧ (a.resetMass = true → (rows.map (fun l => l[0]!)).sum = 1) ∧
      (a.resetRadii = true → virialRadius true pr (rows.map (fun l => l[0]!)) (rows.map rowPh) = 1) := by
  have hlin : ∀ op ∈ ([.toCentre false none] : List Op), op.linear := by
    simp [Op.linear, Op.unitTarget, Op.originTarget, Origin.linear]
  obtain ⟨c1, h1, g1⟩ := run_total p l hlin hg
  have s1 := run_steps p.nz l hlin h1
  simp only [run, Op.exec] at h1
  obtain ⟨x, k1, k2⟩ := bind_ok h1
  cases k2
  have p1 := p.of_rest s1.rest
  obtain ⟨u, hu, hul⟩ := l.units
  have hu1 : c1.units = some u := by rw [s1.units]; exact hu
  obtain ⟨s, hs⟩ := unitScale_linear (g := g) (c := c1) hul
  obtain ⟨s0, hs0⟩ := unitScale_linear (g := g) (c := r.base) hul
  obtain ⟨c2, e1, e2, e3, e4, e5, e6, e7, e8⟩ := reset_run a.resetMass a.resetRadii pr p1 s1.lin g1 hu1 hs
  have ho1 : c1.origin = some .centre := by rw [s1.origin]; rfl
  obtain ⟨o, ho, hol⟩ := l.origin
  have hpair := world_pairs (g := g) hu hu1 ho ho1 hol trivial hs0 hs s1.world
  have hsum : c1.m.sum * s.mass = r.base.m.sum * s0.mass := by
    have := congrArg List.sum hpair.1
    rwa [sum_map_mul, sum_map_mul] at this
  have hvr : virialRadius true pr c1.m c1.st * s.len = virialRadius true pr r.base.m r.base.st * s0.len :=
    C45_virial_radius_world g true pr r.base c1 u u s0 s p l s1.lin p1 hg.len hu hu1 hs0 hs s1.world
  obtain ⟨hl0, -, hm0, -⟩ := unitScale_pos p hs0
  have hz : 0 < c2.zmbar := by
    rw [e5, hsum]
    split
    · exact mul_pos hm hm0
    · exact p1.zmbar
  have hb : 0 < c2.rbar := by
    rw [e6, hvr]
    split
    · positivity
    · exact p1.rbar
  have hvb : 0 < c2.vbar := by rw [e7]; positivity
  have htb : 0 < c2.tbar := by rw [e8]; positivity
  obtain ⟨c0, hc0⟩ : ∃ c0 : Cluster, c0 = { r.base with zmbar := c2.zmbar, rbar := c2.rbar, vbar := c2.vbar, tbar := c2.tbar } := ⟨_, rfl⟩
  have p0 : Pos g c0 := by rw [hc0]; exact ⟨hb, hvb, hz, htb, p.ro, p.vo, p.time, p.mass, p.vel⟩
  have hd0 : c0.data = r.base.data := by rw [hc0]; rfl
  have l0 : Lin c0 := by rw [hc0]; exact ⟨l.units, l.origin⟩
  have g0 : Good c0 := by rw [hc0]; exact hg.same rfl rfl rfl rfl
  have hr0 : c2.rest = c0.rest := by
    have h3 := s1.rest
    rw [e4, hc0]
    unfold Cluster.rest Cluster.core at h3 ⊢
    simp only [Cluster.mk.injEq] at h3 ⊢
    tauto
  have hw0 : world g c0 = world g r.base := world_of_data_not_nbody hd0 hn
  have hw2 : world g c2 = world g c0 := (world_of_data_not_nbody e2 (by rw [hu1, ← hu]; exact hn)).trans (s1.world.trans hw0.symm)
  have hu2 : c2.units = some u := (congrArg Data.units e2 : c2.units = c1.units).trans hu1
  have ho2 : c2.origin = some .centre := (congrArg Data.origin e2 : c2.origin = c1.origin).trans ho1
  obtain ⟨rows, fs', r', f1, f2, c3, l3, hu3, hr3, hw3, hrows, g3⟩ := fort_done (F := F) (pr := pr) (e := e) (fs := fs) (a := a) k1
    (by rw [hr]; exact e1) p0 l0 g0 ⟨⟨u, hu2, hul⟩, _, ho2, trivial⟩ e3 ho2 hr0 hw2 (by rw [hc0]; rfl) hd0 (hw0.trans hW) hsse
  obtain ⟨hz', hb', hv', -⟩ := rest_scales f2.scales
  have hrm : rows.map (fun l => l[0]!) = c3.m := by
    rw [hrows, List.map_map]
    show (List.range c3.st.length).map (fun i => c3.m[i]!) = c3.m
    rw [← g3.len, map_range_get!]
  have hrst : rows.map rowPh = c3.st := by
    rw [hrows, List.map_map]
    show (List.range c3.st.length).map (fun i => (c3.st[i]!)) = c3.st
    rw [map_range_get!]
  obtain ⟨o3, ho3, hol3⟩ := l3.origin
  obtain ⟨hz3, hb3, -, -⟩ := rest_scales hr3
  have ez : c0.zmbar = c2.zmbar := by rw [hc0]
  have eb : c0.rbar = c2.rbar := by rw [hc0]
  have hp3 := world_pairs (g := g) (c := r.base) (c' := c3) (s := s0) (s' := ⟨c3.rbar, c3.vbar, c3.zmbar, c3.tbar⟩) hu hu3 ho ho3 hol hol3 hs0 rfl (hw3.trans hw0)
  have hv3 := C45_virial_radius_world g true pr r.base c3 u .nbody s0 ⟨c3.rbar, c3.vbar, c3.zmbar, c3.tbar⟩ p l l3 (p0.of_rest hr3) hg.len hu hu3 hs0 rfl (hw3.trans hw0)
  refine ⟨rows, fs', r', f1, ⟨f2.same, f2.data, rfl, f2.file, f2.fileAlone, f2.length, ?_, f2.evo, f2.others⟩, ?_, fun h => ?_, fun h => ?_⟩
  · rw [hz', hb', hv']
    exact f2.rows
  · exact world_of_data_not_nbody f2.data hn
  · have h5 := congrArg List.sum hp3.1
    rw [sum_map_mul, sum_map_mul] at h5
    simp only at h5
    rw [h, if_pos rfl, hsum] at e5
    rw [hz3, ez, e5] at h5
    rw [hrm]
    exact mul_right_cancel₀ (mul_pos hm hm0).ne' (by linarith)
  · simp only at hv3
    rw [h, if_pos rfl, hvr] at e6
    rw [hb3, eb, e6] at hv3
    rw [hrm, hrst]
    exact mul_right_cancel₀ (mul_pos hv hl0).ne' (by linarith)

/-- **C108.** `sseout`: from all linear units and origins, one row with initial mass, type, mass in Msun, epoch and spin for each star; the cluster
is as before. -/
theorem C108_sseout {g : Galpy} {F : Fmt} {r : Run} {e : Evo} (fs : FS) {W : World} (filename : String)
    (p : Pos g r.base) (l : Lin r.base) (hg : Good r.base) (hW : world g r.base = some W) (he : HasEvo r e) :
    ∃ fs' r', sseout g F r e filename fs = .ok (fs', r', none) ∧ r' = { r with base := r'.base } ∧ r'.base.data = r.base.data ∧
      r'.base.rest = r.base.rest ∧ fs'.file filename =
        some ((List.range r.base.st.length).map (fun i => Line.row [F.f r.m0[i]!, F.i r.kw[i]!, F.f W.mass[i]!, F.f e.ep[i]!, F.f e.ospin[i]!])) ∧
      ∀ f ≠ filename, fs'.file f = fs.file f := by
  have hlin : ∀ op ∈ ([.toPckms true] : List Op), op.linear := by
    simp [Op.linear, Op.unitTarget, Op.originTarget, Units.linear]
  obtain ⟨c1, h1, g1⟩ := run_total p l hlin hg
  have s1 := run_steps p.nz l hlin h1
  simp only [run, Op.exec] at h1
  obtain ⟨x, k1, k2⟩ := bind_ok h1
  cases k2
  obtain ⟨d, h5, hd, -, -, -, hrd⟩ := return_of_world (sort := false) (cm := none) p l hg g1 s1.lin s1.rest s1.world
  have hm : c1.m = W.mass := by
    obtain ⟨o, ho, -⟩ := s1.lin.origin
    have := s1.world.trans hW
    have hu : c1.units = some .pckms := by rw [s1.units]; rfl
    unfold CT.world phys at this
    simp only [hu, ho, unitScale, Option.some.injEq] at this
    rw [← this]
    simp
  have hml : c1.m.length = r.base.st.length := by rw [hm, (world_lengths hW).2, hg.len]
  obtain ⟨e1, e2, e3, e4⟩ := he
  have hrows : sseRows F r e c1.m = .ok ((List.range r.base.st.length).map (fun i => [F.f r.m0[i]!, F.i r.kw[i]!, F.f W.mass[i]!, F.f e.ep[i]!, F.f e.ospin[i]!])) := by
    unfold sseRows
    rw [if_pos ⟨by omega, by omega, by omega, by omega⟩, e1, hm]
  refine ⟨fs.write filename ((List.range r.base.st.length).map (fun i => [F.f r.m0[i]!, F.i r.kw[i]!, F.f W.mass[i]!, F.f e.ep[i]!, F.f e.ospin[i]!])),
    { r with base := d }, ?_, rfl, hd, hrd, ?_, fun f hf => if_neg hf⟩
  · unfold sseout
    simp only [bind, k1, Except.bind, hrows, h5, pure, Except.pure]
  · show (if filename = filename then _ else _) = _
    rw [if_pos rfl, List.map_map]
    rfl

end

end CT
