/- C109: where `fortout` and `sseout` go wrong. -/
import Verif.Props.FortOut

namespace CT

noncomputable section

/-- **C109, violated.** `fortout` with `reset_nbody=True` on a cluster in N-body units: `fort.10` has the unscaled numbers (their masses do not
add up to 1), and afterwards the cluster, with the same numbers and other scales, describes other masses. -/
theorem C109_reset_in_nbody_violated {g : Galpy} {F : Fmt} {pr : Bool} {r : Run} {e : Evo} (fs : FS)
    (p : Pos g r.base) (l : Lin r.base) (hg : Good r.base) (hu : r.base.units = some .nbody) (hm : 0 < r.base.m.sum) (hm1 : r.base.m.sum ≠ 1)
    (hv : 0 < virialRadius true pr r.base.m r.base.st) :
    ∃ (rows : List (List ℝ)) (fs' : FS) (r' : Run), fortout g F { reset := true } pr r e fs = .ok (fs', r', none) ∧ fs'.file (r.wdir ++ "fort.10") = some (rows.map Line.row) ∧
      rows.map (fun l => l[0]!) = r.base.m ∧ (rows.map (fun l => l[0]!)).sum ≠ 1 ∧ r'.base.data = r.base.data ∧
      r'.base.zmbar = r.base.m.sum * r.base.zmbar ∧ phys g r'.base ≠ phys g r.base := by
  have hlin : ∀ op ∈ ([.toCentre false none] : List Op), op.linear := by
    simp [Op.linear, Op.unitTarget, Op.originTarget, Origin.linear]
  obtain ⟨c1, h1, g1⟩ := run_total p l hlin hg
  have s1 := run_steps p.nz l hlin h1
  simp only [run, Op.exec] at h1
  obtain ⟨x, k1, k2⟩ := bind_ok h1
  cases k2
  have p1 := p.of_rest s1.rest
  have hu1 : c1.units = some .nbody := by rw [s1.units]; exact hu
  have ho1 : c1.origin = some .centre := by rw [s1.origin]; rfl
  obtain ⟨o, ho, hol⟩ := l.origin
  obtain ⟨hz1, hb1, -, -⟩ := rest_scales s1.rest
  obtain ⟨c2, e1, e2, e3, e4, e5, e6, e7, e8⟩ := reset_run true true pr p1 s1.lin g1 hu1 rfl
  have hur : r.base.units ≠ some .radec := by rw [hu]; simp
  have hst := toCentre_ostep ho hol hur k1
  have hm1' : c1.m = r.base.m := hst.m
  have hvr : virialRadius true pr c1.m c1.st = virialRadius true pr r.base.m r.base.st := by
    have := C45_virial_radius_world g true pr r.base c1 .nbody .nbody _ _ p l s1.lin p1 hg.len hu hu1 rfl rfl s1.world
    simp only [hb1] at this
    exact mul_right_cancel₀ p.rbar.ne' this
  rw [if_pos rfl] at e5 e6
  rw [hvr] at e6
  rw [hm1'] at e5
  simp only [hz1, hb1] at e5 e6
  have hz : 0 < c2.zmbar := by rw [e5]; exact mul_pos hm p.zmbar
  have hb : 0 < c2.rbar := by rw [e6]; exact mul_pos hv p.rbar
  have hvb : 0 < c2.vbar := by rw [e7]; positivity
  have htb : 0 < c2.tbar := by rw [e8]; positivity
  have hu2 : c2.units = some .nbody := (congrArg Data.units e2 : c2.units = c1.units).trans hu1
  have ho2 : c2.origin = some .centre := (congrArg Data.origin e2 : c2.origin = c1.origin).trans ho1
  have hm2 : c2.m = r.base.m := (congrArg Data.m e2 : c2.m = c1.m).trans hm1'
  have l2 : Lin c2 := ⟨⟨_, hu2, trivial⟩, _, ho2, trivial⟩
  obtain ⟨c0, hc0⟩ : ∃ c0 : Cluster, c0 = { r.base with zmbar := c2.zmbar, rbar := c2.rbar, vbar := c2.vbar, tbar := c2.tbar } := ⟨_, rfl⟩
  have p0 : Pos g c0 := by rw [hc0]; exact ⟨hb, hvb, hz, htb, p.ro, p.vo, p.time, p.mass, p.vel⟩
  have hd0 : c0.data = r.base.data := by rw [hc0]; rfl
  have l0 : Lin c0 := by rw [hc0]; exact ⟨l.units, l.origin⟩
  have g0 : Good c0 := by rw [hc0]; exact hg.same rfl rfl rfl rfl
  have hr0 : c2.rest = c0.rest := by
    have h3 := s1.rest
    rw [e4, hc0]
    unfold Cluster.rest Cluster.core at h3 ⊢
    simp only [Cluster.mk.injEq] at h3 ⊢
    tauto
  have hw2 : world g c2 = world g c0 := by
    have d1 : c2.c = c1.c := congrArg Data.c e2
    have d2 : c2.gc = c1.gc := congrArg Data.gc e2
    have d3 : c2.st = c1.st := congrArg Data.st e2
    have d4 : c2.tphys = c1.tphys := congrArg Data.tphys e2
    obtain ⟨hzz, hbb, hvv, htt⟩ := rest_scales hr0
    have hu0 : c0.units = some .nbody := by rw [hc0]; exact hu
    have ho0 : c0.origin = some o := by rw [hc0]; exact ho
    have hm0 : c0.m = r.base.m := by rw [hc0]
    have hs0 : c0.st = r.base.st := by rw [hc0]
    have hcc : c0.c = r.base.c := by rw [hc0]
    have hgg : c0.gc = r.base.gc := by rw [hc0]
    have htp : c0.tphys = r.base.tphys := by rw [hc0]
    have hrw := hst.rows o ho
    unfold world phys
    simp only [hu2, ho2, hu0, ho0, unitScale, hzz, hbb, hvv, htt, hm0, hm2, d1, d2, d3, d4, hs0, hcc, hgg, htp, hst.ctr, hst.gcp, hst.tphys, Option.some.injEq,
      World.mk.injEq, true_and, and_true]
    rw [hst.ctr, hst.gcp] at hrw
    have key : ∀ (q : Origin) (st : List Ph) (s : Scale), galRows q (s.ph r.base.c) (s.ph r.base.gc) (st.map s.ph) =
        (galRows q r.base.c r.base.gc st).map (Option.map s.ph) := by
      intro q st s
      simp only [galRows, List.map_map]
      refine List.map_congr_left fun x _ => ?_
      exact galactocentric_scale s q _ _ x
    rw [key, key, hrw]
  obtain ⟨W, hW⟩ := world_some (g := g) l0
  obtain ⟨rows, fs', r', f1, f2, c3, l3, hu3, hr3, hw3, hrows, g3⟩ := fort_done (F := F) (pr := pr) (e := e) (fs := fs) (a := { reset := true }) k1
    e1 p0 l0 g0 l2 e3 ho2 hr0 hw2 (by rw [hc0]; rfl) hd0 hW (fun h => by cases h)
  obtain ⟨hz', -, -, -⟩ := rest_scales f2.scales
  have hrm : rows.map (fun l => l[0]!) = c3.m := by
    rw [hrows, List.map_map]
    show (List.range c3.st.length).map (fun i => c3.m[i]!) = c3.m
    rw [← g3.len, map_range_get!]
  have hzf : r'.base.zmbar = r.base.m.sum * r.base.zmbar := by rw [hz', hc0]; exact e5
  have hm3 : c3.m = r.base.m := by
    have := (world_pairs (g := g) (c := c0) (c' := c3) (u := .nbody) (u' := .nbody) (by rw [hc0]; exact hu) hu3 (o := o) (by rw [hc0]; exact ho) (l3.origin.choose_spec.1) hol
      l3.origin.choose_spec.2 rfl rfl hw3).1
    obtain ⟨hz3, -, -, -⟩ := rest_scales hr3
    simp only [hz3] at this
    have hinj : Function.Injective (fun x : ℝ => x * c0.zmbar) := fun a b h => mul_right_cancel₀ p0.zmbar.ne' h
    rw [List.map_injective_iff.mpr hinj this, hc0]
  refine ⟨rows, fs', r', f1, f2.fileAlone rfl, hrm.trans hm3, by rw [hrm, hm3]; exact hm1, f2.data, hzf, fun h => ?_⟩
  have hur' : r'.base.units = some .nbody := (congrArg Data.units f2.data : r'.base.units = r.base.units).trans hu
  have hmr' : r'.base.m = r.base.m := congrArg Data.m f2.data
  unfold phys at h
  simp only [hu, hur', unitScale, Option.some.injEq, Phys.mk.injEq, hmr'] at h
  have h5 := congrArg List.sum h.2.1
  rw [sum_map_mul, sum_map_mul, hzf] at h5
  have h6 : r.base.m.sum * r.base.zmbar * (r.base.m.sum - 1) = 0 := by linarith
  rcases mul_eq_zero.mp h6 with h | h
  · exact (mul_pos hm p.zmbar).ne' h
  · exact hm1 (by linarith)

/-- **C109, violated.** Without stellar evolution columns, `fortout(sse=True)` raises `ValueError` after `fort.10` has been written, and the
cluster stays in pc and km/s with respect to its centre. -/
theorem C109_no_columns_violated {g : Galpy} {F : Fmt} {a : FortArgs} {pr : Bool} {r : Run} {e : Evo} (fs : FS)
    (p : Pos g r.base) (l : Lin r.base) (hg : Good r.base) (hr : a.reset = false) (hs : a.sse = true)
    (he : r.kw.length ≠ r.m0.length ∨ e.ep.length ≠ r.m0.length ∨ e.ospin.length ≠ r.m0.length) :
    ∃ fs' r', fortout g F a pr r e fs = .ok (fs', r', some .valueError) ∧ fs'.file (r.wdir ++ a.filename) ≠ none ∧
      r'.base.units = some .pckms ∧ r'.base.origin = some .centre := by
  have hlin : ∀ op ∈ ([.toCentre false none] : List Op), op.linear := by
    simp [Op.linear, Op.unitTarget, Op.originTarget, Origin.linear]
  obtain ⟨c1, h1, g1⟩ := run_total p l hlin hg
  have s1 := run_steps p.nz l hlin h1
  simp only [run, Op.exec] at h1
  obtain ⟨x, k1, k2⟩ := bind_ok h1
  cases k2
  have ho1 : c1.origin = some .centre := by rw [s1.origin]; rfl
  obtain ⟨c3, c4, d, k3, k4, k5, hd, hdr, hu3, ho3, hr3, hw3, l3, hu4, ho4, hw4, g3⟩ := fort_tail p l hg s1.lin g1 ho1 s1.rest s1.world
  have hrows : sseRows F r e c4.m = .error .valueError := by
    unfold sseRows
    rw [if_neg]
    rintro ⟨h1, h2, h3, h4⟩
    rcases he with h | h | h
    · exact h h1
    · exact h h3
    · exact h h4
  refine ⟨fs.write (r.wdir ++ a.filename) ((List.range c3.st.length).map (fortRow c3)), { r with base := c4 }, ?_, ?_, hu4, ho4⟩
  · unfold fortout
    simp only [bind, k1, Except.bind, hr, Bool.false_eq_true, if_false, k3, k4, hs, if_true, hrows, Except.map, pure, Except.pure]
  · show (if r.wdir ++ a.filename = r.wdir ++ a.filename then _ else _) ≠ none
    rw [if_pos rfl]
    simp

/-- **C109, violated.** The same for `sseout`: the cluster stays in pc and km/s. -/
theorem C109_sseout_violated {g : Galpy} {F : Fmt} {r : Run} {e : Evo} (fs : FS) (filename : String)
    (p : Pos g r.base) (l : Lin r.base) (hg : Good r.base)
    (he : r.kw.length ≠ r.m0.length ∨ e.ep.length ≠ r.m0.length ∨ e.ospin.length ≠ r.m0.length) :
    ∃ r', sseout g F r e filename fs = .ok (fs, r', some .valueError) ∧ r'.base.units = some .pckms := by
  have hlin : ∀ op ∈ ([.toPckms true] : List Op), op.linear := by
    simp [Op.linear, Op.unitTarget, Op.originTarget, Units.linear]
  obtain ⟨c1, h1, g1⟩ := run_total p l hlin hg
  have s1 := run_steps p.nz l hlin h1
  simp only [run, Op.exec] at h1
  obtain ⟨x, k1, k2⟩ := bind_ok h1
  cases k2
  have hrows : sseRows F r e c1.m = .error .valueError := by
    unfold sseRows
    rw [if_neg]
    rintro ⟨h1, h2, h3, h4⟩
    rcases he with h | h | h
    · exact h h1
    · exact h h3
    · exact h h4
  refine ⟨{ r with base := c1 }, ?_, by show c1.units = _; rw [s1.units]; rfl⟩
  unfold sseout
  simp only [bind, k1, Except.bind, hrows, pure, Except.pure]

/-- **C109, violated.** The name given to `fortout` is not the name of the file when `wdir` is not empty: a file of that name stays as it was. -/
theorem C109_name_violated {g : Galpy} {F : Fmt} {a : FortArgs} {pr : Bool} {r : Run} {e : Evo} (fs : FS)
    (p : Pos g r.base) (l : Lin r.base) (hg : Good r.base) (hr : a.reset = false) (hs : a.sse = false) (hw : r.wdir ≠ "") :
    ∃ fs' r', fortout g F a pr r e fs = .ok (fs', r', none) ∧ fs'.file a.filename = fs.file a.filename := by
  obtain ⟨W, hW⟩ := world_some (g := g) l
  obtain ⟨rows, fs', r', h1, h2⟩ := C108_fortout (F := F) (a := a) (pr := pr) (e := e) fs p l hg hW hr (fun h => by rw [hs] at h; cases h)
  refine ⟨fs', r', h1, h2.others _ ?_ (fun h => by rw [hs] at h; cases h)⟩
  intro e
  apply hw
  have := congrArg (fun s : String => s.toList.length) e
  simp only [String.toList_append, List.length_append] at this
  have h0 : r.wdir.toList.length = 0 := by omega
  exact String.toList_inj.mp (by rw [List.length_eq_zero_iff.mp h0]; rfl)

/-! ### a concrete cluster -/

/-- The two-star cluster with stellar types. -/
def demoRun : Run :=
  { base := demo, id := [1, 2], m0 := [2, 4], npop := [1, 1], kw := [0, 14], ntot := 2, unitsInit := some .pckms, originInit := some .cluster, nsnap := 0
    nzfill := 5, wdir := "./", snapdir := "", snapbase := "", snapend := ".dat", skiprows := 0, ofile := none }

example : ∃ (rows : List (List ℝ)) (fs' : FS) (r' : Run), fortout demoG ⟨id, id⟩ { sse := true } false demoRun ⟨[5, 6], [7, 8]⟩ ⟨fun _ => none, fun _ => true⟩ = .ok (fs', r', none) ∧
    rows.length = 2 ∧ fs'.file "./fort.10" = some (rows.map Line.row) ∧ fs'.file "./fort.12" = some [.row [2, 0, 1, 5, 7], .row [4, 14, 3, 6, 8]] := by
  obtain ⟨W, hW⟩ := world_some (g := demoG) demo_lin
  have hm : W.mass = [1, 3] := by
    unfold world phys at hW
    simp only [demo, unitScale, Option.some.injEq] at hW
    rw [← hW]
    simp
  obtain ⟨rows, fs', r', h1, h2⟩ := C108_fortout (g := demoG) (F := ⟨id, id⟩) (a := { sse := true }) (pr := false) (r := demoRun) (e := ⟨[5, 6], [7, 8]⟩)
    ⟨fun _ => none, fun _ => true⟩ demo_pos demo_lin demo_good hW rfl (fun _ => ⟨rfl, rfl, rfl, rfl⟩)
  refine ⟨rows, fs', r', h1, h2.length, h2.file rfl (by decide), ?_⟩
  rw [show "./fort.12" = demoRun.wdir ++ "fort.12" from by decide, h2.evo rfl, hm]
  simp [demoRun, demo, List.range_succ]

theorem demo_virial : 0 < virialRadius true false demo.m demo.st := by
  rw [C45_virial_radius _ _ _ _ rfl]
  norm_num [pairSum, demo, Finset.sum_range_succ, rowDist, Finset.sum_Ico_succ_top]

example : ∃ (rows : List (List ℝ)) (fs' : FS) (r' : Run), fortout demoG ⟨id, id⟩ { reset := true } false demoRun ⟨[], []⟩ ⟨fun _ => none, fun _ => true⟩ = .ok (fs', r', none) ∧
    (rows.map (fun l => l[0]!)).sum = 1 ∧ virialRadius true false (rows.map (fun l => l[0]!)) (rows.map rowPh) = 1 := by
  obtain ⟨W, hW⟩ := world_some (g := demoG) demo_lin
  obtain ⟨rows, fs', r', h1, -, -, h2, h3⟩ := C108_fortout_reset (g := demoG) (F := ⟨id, id⟩) (a := { reset := true }) (pr := false) (r := demoRun) (e := ⟨[], []⟩)
    ⟨fun _ => none, fun _ => true⟩ demo_pos demo_lin demo_good hW rfl (by simp [demoRun, demo]) (by norm_num [demoRun, demo]) demo_virial (fun h => by cases h)
  exact ⟨rows, fs', r', h1, h2 rfl, h3 rfl⟩

example : ∃ fs' r', fortout demoG ⟨id, id⟩ { sse := true } false demoRun ⟨[], []⟩ ⟨fun _ => none, fun _ => true⟩ = .ok (fs', r', some .valueError) ∧
    fs'.file "./fort.10" ≠ none ∧ r'.base.units = some .pckms ∧ r'.base.origin = some .centre :=
  C109_no_columns_violated (g := demoG) (F := ⟨id, id⟩) (a := { sse := true }) (pr := false) (r := demoRun) (e := ⟨[], []⟩)
    ⟨fun _ => none, fun _ => true⟩ demo_pos demo_lin demo_good rfl rfl (.inr (.inl (by decide)))

/-- In N-body units the masses 1 and 3 are written as they are. -/
example : ∃ (rows : List (List ℝ)) (fs' : FS) (r' : Run),
    fortout demoG ⟨id, id⟩ { reset := true } false { demoRun with base := { demo with units := some .nbody } } ⟨[], []⟩ ⟨fun _ => none, fun _ => true⟩ =
      .ok (fs', r', none) ∧ rows.map (fun l => l[0]!) = [1, 3] ∧ fs'.file "./fort.10" = some (rows.map Line.row) := by
  obtain ⟨rows, fs', r', h1, h2, h3, -⟩ := C109_reset_in_nbody_violated (g := demoG) (F := ⟨id, id⟩) (pr := false)
    (r := { demoRun with base := { demo with units := some .nbody } }) (e := ⟨[], []⟩) ⟨fun _ => none, fun _ => true⟩
    ⟨demo_pos.rbar, demo_pos.vbar, demo_pos.zmbar, demo_pos.tbar, demo_pos.ro, demo_pos.vo, demo_pos.time, demo_pos.mass, demo_pos.vel⟩
    ⟨⟨_, rfl, trivial⟩, demo_lin.origin⟩ (demo_good.same rfl rfl rfl rfl) rfl (by norm_num [demo]) (by norm_num [demo]) demo_virial
  exact ⟨rows, fs', r', h1, h3, h2⟩

/-- `fortout(cluster, filename='/tmp/fort.10')` with the default `wdir` does not write `/tmp/fort.10`. -/
example : ∃ fs' r', fortout demoG ⟨id, id⟩ { filename := "/tmp/fort.10" } false demoRun ⟨[], []⟩ ⟨fun _ => none, fun _ => true⟩ = .ok (fs', r', none) ∧
    fs'.file "/tmp/fort.10" = none :=
  C109_name_violated (g := demoG) (F := ⟨id, id⟩) (a := { filename := "/tmp/fort.10" }) (pr := false) (r := demoRun) (e := ⟨[], []⟩)
    ⟨fun _ => none, fun _ => true⟩ demo_pos demo_lin demo_good rfl rfl (by decide)

end

end CT
