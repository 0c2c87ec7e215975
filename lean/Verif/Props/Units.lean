/-
Property theorems C01–C09: unit and origin conversions of `clustertools/cluster/operations.py`.
Vocabulary: `Verif/Spec/Physical.lean` (`phys`, `world`, `galRows`, `Data`), `Verif/Spec/Valid.lean`.
-/
import Verif.Lemmas.Return
import Verif.Spec.Demo

namespace CT

noncomputable section

/-! ### C01 -/

/-- C01: every unit-conversion call from a linear unit system to a linear unit system that returns leaves the
physical cluster (Myr, Msun, pc, km/s; stars, centre and orbit position) unchanged, sets the requested label
and does not touch the origin label. -/
theorem C01_units_preserve_physics (g : Galpy) (c c' : Cluster) (op : Op) (u t : Units) (n : NZ g c)
    (hu : c.units = some u) (hul : u.linear) (ht : op.unitTarget = some t) (htl : t.linear)
    (h : op.exec g c = .ok c') :
    phys g c' = phys g c ∧ (phys g c').isSome ∧ c'.units = some t ∧ c'.origin = c.origin := by
  have s := exec_ustep n hu hul ht htl h
  refine ⟨s.phys, ?_, s.units, s.origin⟩
  unfold phys
  rw [s.units]
  cases t <;> simp_all [Units.linear, unitScale]

/-- C01 (totality): on an admissible cluster with positive scales the call does return. -/
theorem C01_units_total (g : Galpy) (c : Cluster) (op : Op) (u t : Units) (p : Pos g c) (hg : Good c)
    (hu : c.units = some u) (hul : u.linear) (ht : op.unitTarget = some t) (htl : t.linear) :
    ∃ c', op.exec g c = .ok c' ∧ Good c' :=
  exec_utotal p hg hu hul ht htl

/-- C01, read off for one star: going from pckms to nbody divides positions by `rbar`, velocities by `vbar`,
masses by `zmbar` and the time by `tbar`, for stars, centre and orbit position alike. -/
theorem C01_pckms_to_nbody_values (g : Galpy) (c c' : Cluster) (n : NZ g c) (hu : c.units = some .pckms)
    (h : toNbody g c = .ok c') :
    c'.tphys * c.tbar = c.tphys ∧ c'.m.map (· * c.zmbar) = c.m ∧
    c'.st.map (fun p => (⟨p.x * c.rbar, p.y * c.rbar, p.z * c.rbar,
      p.vx * c.vbar, p.vy * c.vbar, p.vz * c.vbar⟩ : Ph)) = c.st ∧
    c'.gc.x * c.rbar = c.gc.x ∧ c'.gc.vz * c.vbar = c.gc.vz ∧
    c'.c.y * c.rbar = c.c.y ∧ c'.c.vx * c.vbar = c.c.vx := by
  have s := toNbody_ustep n hu trivial h
  obtain ⟨e1, e2, e3, e4⟩ := rest_scales s.rest
  have hp := s.phys
  unfold phys at hp
  rw [s.units, hu] at hp
  simp only [unitScale, Option.some.injEq, Phys.mk.injEq, e1, e2, e3, e4, mul_one] at hp
  obtain ⟨k1, k2, k3, k4, k5⟩ := hp
  have i1 : ∀ p : Ph, Scale.ph ⟨1, 1, 1, 1⟩ p = p := fun p => by simp [Scale.ph]
  rw [i1] at k4 k5
  have k3' : c'.st.map (Scale.ph ⟨c.rbar, c.vbar, c.zmbar, c.tbar⟩) = c.st := by
    rw [k3, show Scale.ph ⟨1, 1, 1, 1⟩ = id from funext i1, List.map_id]
  refine ⟨k1, by simpa using k2, k3', ?_, ?_, ?_, ?_⟩
  · rw [← k5]; rfl
  · rw [← k5]; rfl
  · rw [← k4]; rfl
  · rw [← k4]; rfl

example : ∃ c', (Op.toGalpy).exec demoG demo = .ok c' ∧ phys demoG c' = phys demoG demo := by
  obtain ⟨c', h, -⟩ := C01_units_total demoG demo .toGalpy .pckms .galpy demo_pos demo_good rfl trivial rfl
    trivial
  exact ⟨c', h, (C01_units_preserve_physics demoG demo c' .toGalpy .pckms .galpy demo_pos.nz rfl trivial rfl
    trivial h).1⟩

/-! ### C02 -/

/-- C02: after any non-empty history of unit conversions the data are those of one direct conversion to the
last requested units. -/
theorem C02_units_path_independent (g : Galpy) (c c1 c2 : Cluster) (ops : List Op) (op : Op) (u t : Units)
    (n : NZ g c) (hu : c.units = some u) (hul : u.linear)
    (hl : ∀ o ∈ ops, ∃ t, o.unitTarget = some t ∧ t.linear) (hlast : lastUnits ops = some t)
    (hop : op.unitTarget = some t) (htl : t.linear)
    (h1 : run g ops c = .ok c1) (h2 : op.exec g c = .ok c2) : c1.data = c2.data := by
  obtain ⟨k1, k2, k3, k4⟩ := run_usteps n hu hul hl h1
  have s := exec_ustep n hu hul hop htl h2
  refine data_of_phys (n.of_rest s.rest) (k4.trans s.rest.symm) s.units ?_ htl (k3.trans s.origin.symm)
    (k1.trans s.phys.symm)
  rw [k2, hlast]; rfl

example : lastUnits [Op.toNbody, .toGalpy, .toPckms false, .toWDunits] = some .WDunits := rfl

/-! ### C03 -/

/-- C03: any history of unit conversions ending in the original units restores every number. -/
theorem C03_units_round_trip (g : Galpy) (c c' : Cluster) (ops : List Op) (u : Units) (n : NZ g c)
    (hu : c.units = some u) (hul : u.linear)
    (hl : ∀ o ∈ ops, ∃ t, o.unitTarget = some t ∧ t.linear) (hlast : lastUnits ops = some u)
    (h : run g ops c = .ok c') : c'.data = c.data := by
  obtain ⟨k1, k2, k3, k4⟩ := run_usteps n hu hul hl h
  exact data_of_phys n k4 hu (by rw [k2, hlast]; rfl) hul k3 k1

example : ∃ c', run demoG [.toGalpy, .toNbody, .toWDunits, .toAmuse true, .toPckms true] demo = .ok c' ∧
    c'.data = demo.data := by
  have hl : ∀ o ∈ [Op.toGalpy, .toNbody, .toWDunits, .toAmuse true, .toPckms true],
      ∃ t, o.unitTarget = some t ∧ t.linear := by simp [Op.unitTarget, Units.linear]
  obtain ⟨c', h, -⟩ := run_total (ops := [.toGalpy, .toNbody, .toWDunits, .toAmuse true, .toPckms true])
    demo_pos demo_lin
    (fun o ho => ⟨fun u hu => by obtain ⟨t, ht, htl⟩ := hl o ho; rw [ht] at hu; cases hu; exact htl,
      fun u hu => by simp at ho; rcases ho with rfl | rfl | rfl | rfl | rfl <;> cases hu⟩) demo_good
  exact ⟨c', h, C03_units_round_trip demoG demo c' _ .pckms demo_pos.nz rfl trivial hl rfl h⟩

/-! ### C04 -/

/-- C04: converting to the current units leaves the data unchanged. -/
theorem C04_units_idempotent (g : Galpy) (c c' : Cluster) (op : Op) (u : Units) (n : NZ g c)
    (hu : c.units = some u) (hul : u.linear) (ht : op.unitTarget = some u) (h : op.exec g c = .ok c') :
    c'.data = c.data := by
  have s := exec_ustep n hu hul ht hul h
  exact data_of_phys n s.rest hu s.units hul s.origin s.phys

example : (Op.toPckms true).unitTarget = demo.units := rfl

/-! ### C05 -/

/-- C05 (units): a cluster without a unit label is left completely unchanged by every unit conversion except
`to_amuse` (for which see `C05_to_amuse_guard_violated`). -/
theorem C05_no_units_noop_partial (g : Galpy) (c : Cluster) (op : Op) (hu : c.units = none)
    (ht : op.unitTarget ≠ none) (ha : ∀ a, op ≠ .toAmuse a) : op.exec g c = .ok c := by
  cases op <;> simp_all [Op.unitTarget, Op.exec, toPckms, toKpckms, toPcmyr, toKpcgyr, toNbody, toGalpy, toWD,
    toUnits]

/-- C05 (units, radec target): likewise for `to_radec`. -/
theorem C05_no_units_noop_radec (g : Galpy) (s : Bool) (cm : Option CentreMethod) (a : Bool) (c : Cluster)
    (hu : c.units = none) : toRadec g s cm a c = .ok c := by
  simp [toRadec, hu]

/-- C05 is false of the code for `to_amuse`: on every admissible cluster without a unit label it returns a
cluster labelled `amuse`, with unchanged numbers. -/
theorem C05_to_amuse_guard_violated (g : Galpy) (a : Bool) (c : Cluster) (hg : Good c)
    (hu : c.units = none) :
    ∃ c', toAmuse g a c = .ok c' ∧ c'.units = some .amuse ∧ c'.st = c.st ∧ c'.m = c.m := by
  have h1 : toPckms g false c = .ok c := by simp [toPckms, hu]
  have g1 : Good { c with units := some .amuse } := hg.same rfl rfl rfl rfl
  obtain ⟨c', h, -⟩ := analyzeIf_total (a := a) g1
  obtain ⟨k1, -, -, k4, k5, -⟩ := core_fields (analyzeIf_core h)
  exact ⟨c', by simp [toAmuse, hu, h1, bind, Except.bind, h], k1, k5, k4⟩

/-- C05 (origin): a cluster without an origin label is left completely unchanged by every origin change. -/
theorem C05_no_origin_noop (g : Galpy) (c : Cluster) (op : Op) (ho : c.origin = none)
    (ht : op.originTarget ≠ none) : op.exec g c = .ok c := by
  cases op <;> simp_all [Op.originTarget, Op.exec, toCentre, toCluster, toGalaxy, toOrigin]

/-- C05 (origin, sky target). -/
theorem C05_no_origin_noop_sky (g : Galpy) (s : Bool) (cm : Option CentreMethod) (c : Cluster)
    (ho : c.origin = none) : toSky g s cm c = .ok c := by
  simp [toSky, ho]

/-- C05 (unknown unit name): nothing happens. -/
theorem C05_unknown_units_noop (g : Galpy) (c : Cluster) : toUnits g .other c = .ok c := by
  unfold toUnits toUnitsNR
  cases c.units <;> simp

/-- C05 (unknown origin name): the data are unchanged (the cluster is only re-analysed). -/
theorem C05_unknown_origin_noop (g : Galpy) (s : Bool) (cm : Option CentreMethod) (c c' : Cluster)
    (h : toOrigin g .other s cm c = .ok c') : c'.data = c.data := by
  unfold toOrigin at h
  cases ho : c.origin with
  | none => simp [ho] at h; rw [h]
  | some o =>
    simp [ho, bind, Except.bind] at h
    exact core_data (analyze_core h)

example : ({ demo with units := none }).units = none ∧ Good { demo with units := none } :=
  ⟨rfl, demo_good.same rfl rfl rfl rfl⟩

/-! ### C06 -/

/-- C06: an origin change of a cluster in non-radec units leaves the galactocentric rows it describes, the
masses, time, centre, orbit position and unit label unchanged and sets the requested origin label. -/
theorem C06_origin_preserves_galactocentric (g : Galpy) (c c' : Cluster) (op : Op) (o t : Origin)
    (hu : c.units ≠ some .radec) (ho : c.origin = some o) (hol : o.linear)
    (ht : op.originTarget = some t) (htl : t.linear) (h : op.exec g c = .ok c') :
    galRows t c'.c c'.gc c'.st = galRows o c.c c.gc c.st ∧ c'.origin = some t ∧
      c'.m = c.m ∧ c'.tphys = c.tphys ∧ c'.c = c.c ∧ c'.gc = c.gc ∧ c'.units = c.units := by
  have s := exec_ostep hu ho hol ht htl h
  exact ⟨s.rows o ho, s.origin, s.m, s.tphys, s.ctr, s.gcp, s.units⟩

/-- C06 read off: from `galaxy` to `cluster` every star is shifted by minus the orbit position (all six
components). -/
theorem C06_galaxy_to_cluster_values (s : Bool) (cm : Option CentreMethod) (c c' : Cluster)
    (hu : c.units ≠ some .radec) (ho : c.origin = some .galaxy) (h : toCluster s cm c = .ok c') :
    c'.st = c.st.map (fun p => ⟨p.x - c.gc.x, p.y - c.gc.y, p.z - c.gc.z,
      p.vx - c.gc.vx, p.vy - c.gc.vy, p.vz - c.gc.vz⟩) := by
  have e := (toCluster_ostep ho trivial hu h).rows _ ho
  rw [(toCluster_ostep ho trivial hu h).ctr, (toCluster_ostep ho trivial hu h).gcp] at e
  simp only [galRows, galactocentric] at e
  have h2 : (c.st.map (fun p => (⟨p.x - c.gc.x, p.y - c.gc.y, p.z - c.gc.z,
      p.vx - c.gc.vx, p.vy - c.gc.vy, p.vz - c.gc.vz⟩ : Ph))).map (fun p => some (phAdd p c.gc))
      = c.st.map some := by
    simp [Function.comp_def, phAdd]
  refine List.map_injective_iff.mpr ?_ (e.trans h2.symm)
  intro a b hab
  have hab' : phAdd a c.gc = phAdd b c.gc := Option.some.inj hab
  simp only [phAdd, Ph.mk.injEq, add_left_inj] at hab'
  obtain ⟨a1, a2, a3, a4, a5, a6⟩ := hab'
  ext <;> assumption

example : ∃ c', (Op.toCentre true none).exec demoG demo = .ok c' := by
  obtain ⟨c', h, -⟩ := toCentre_total (s := true) (cm := none) (c := demo) (by simp [demo]) demo_good
  exact ⟨c', h⟩

/-! ### C07, C08 -/

/-- C08: any interleaving of unit conversions, origin changes, re-analyses and binary conversions gives data
that depend only on the last requested units and the last requested origin. -/
theorem C08_units_origin_commute (g : Galpy) (c c1 c2 : Cluster) (ops1 ops2 : List Op) (n : NZ g c)
    (l : Lin c) (hl1 : ∀ op ∈ ops1, op.linear) (hl2 : ∀ op ∈ ops2, op.linear)
    (hu : (lastUnits ops1).or c.units = (lastUnits ops2).or c.units)
    (ho : (lastOrigin ops1).or c.origin = (lastOrigin ops2).or c.origin)
    (h1 : run g ops1 c = .ok c1) (h2 : run g ops2 c = .ok c2) : c1.data = c2.data := by
  have s1 := run_steps n l hl1 h1
  have s2 := run_steps n l hl2 h2
  obtain ⟨⟨u, hu2, hul⟩, ⟨o, ho2, hol⟩⟩ := s2.lin
  refine data_of_world (n.of_rest s2.rest) (s1.rest.trans s2.rest.symm) hu2 ?_ hul ho2 ?_ hol
    (s1.world.trans s2.world.symm)
  · rw [s1.units, hu, ← s2.units, hu2]
  · rw [s1.origin, ho, ← s2.origin, ho2]

/-- C08 (totality): on an admissible cluster with positive scales no such history raises. -/
theorem C08_histories_total (g : Galpy) (c : Cluster) (ops : List Op) (p : Pos g c) (l : Lin c)
    (hl : ∀ op ∈ ops, op.linear) (hg : Good c) : ∃ c', run g ops c = .ok c' ∧ Good c' :=
  run_total p l hl hg

/-- C08 (meaning): no such history changes the world the labelled cluster describes. -/
theorem C08_histories_preserve_world (g : Galpy) (c c' : Cluster) (ops : List Op) (n : NZ g c) (l : Lin c)
    (hl : ∀ op ∈ ops, op.linear) (h : run g ops c = .ok c') :
    world g c' = world g c ∧ (world g c).isSome ∧
      c'.units = (lastUnits ops).or c.units ∧ c'.origin = (lastOrigin ops).or c.origin := by
  have s := run_steps n l hl h
  obtain ⟨⟨u, hu, hul⟩, ⟨o, ho, hol⟩⟩ := l
  obtain ⟨w, hw⟩ := world_isSome (g := g) hu hul ho
  exact ⟨s.world, by simp [hw], s.units, s.origin⟩

/-- C07: histories of origin changes are path independent: only the last target matters. -/
theorem C07_origin_path_independent (g : Galpy) (c c1 c2 : Cluster) (ops : List Op) (op : Op) (t : Origin)
    (n : NZ g c) (l : Lin c) (hl : ∀ o ∈ ops, o.linear ∧ o.unitTarget = none)
    (hlast : lastOrigin ops = some t) (hop : op.originTarget = some t) (htl : t.linear)
    (h1 : run g ops c = .ok c1) (h2 : op.exec g c = .ok c2) : c1.data = c2.data := by
  have hopu : op.unitTarget = none := by
    cases op <;> simp_all [Op.originTarget, Op.unitTarget]
  have hlu : ∀ ops : List Op, (∀ o ∈ ops, o.linear ∧ o.unitTarget = none) → lastUnits ops = none := by
    intro ops h
    induction ops with
    | nil => rfl
    | cons a as ih =>
      rw [lastUnits, ih (fun o ho => h o (by simp [ho])), (h a (by simp)).2]; rfl
  refine C08_units_origin_commute g c c1 c2 ops [op] n l (fun o ho => (hl o ho).1) ?_ ?_ ?_ h1 ?_
  · intro o ho
    simp only [List.mem_singleton] at ho; subst ho
    refine ⟨fun u hu => ?_, fun x hx => ?_⟩
    · rw [hopu] at hu; cases hu
    · rw [hop] at hx; cases hx; exact htl
  · rw [hlu ops hl]; simp [lastUnits, hopu]
  · rw [hlast]; simp [lastOrigin, hop]
  · simp [run, h2, Except.bind]

/-- C07: a history of origin changes that ends at the original origin restores every coordinate. -/
theorem C07_origin_round_trip (g : Galpy) (c c' : Cluster) (ops : List Op)
    (n : NZ g c) (l : Lin c) (hl : ∀ o ∈ ops, o.linear ∧ o.unitTarget = none)
    (hlast : lastOrigin ops = c.origin) (h : run g ops c = .ok c') : c'.data = c.data := by
  have hlu : ∀ ops : List Op, (∀ o ∈ ops, o.linear ∧ o.unitTarget = none) → lastUnits ops = none := by
    intro ops h
    induction ops with
    | nil => rfl
    | cons a as ih =>
      rw [lastUnits, ih (fun o ho => h o (by simp [ho])), (h a (by simp)).2]; rfl
  refine C08_units_origin_commute g c c' c ops [] n l (fun o ho => (hl o ho).1) (by simp) ?_ ?_ h rfl
  · rw [hlu ops hl]; simp [lastUnits]
  · rw [hlast]; simp [lastOrigin]

example : ∃ c', run demoG [.toCentre true none, .toGalaxy false, .toOrigin .cluster true none] demo = .ok c' ∧
    c'.data = demo.data := by
  have hl : ∀ o ∈ [Op.toCentre true none, .toGalaxy false, .toOrigin .cluster true none],
      o.linear ∧ o.unitTarget = none := by
    simp [Op.linear, Op.unitTarget, Op.originTarget, Origin.linear]
  obtain ⟨c', h, -⟩ := C08_histories_total demoG demo _ demo_pos demo_lin (fun o ho => (hl o ho).1) demo_good
  exact ⟨c', h, C07_origin_round_trip demoG demo c' _ demo_pos.nz demo_lin hl rfl h⟩

/-! ### C09 -/

/-- C09: save, any history of conversions, return: all data are restored, and if the caller's stored radial
order was current (made for the current origin, right length) it is restored too. -/
theorem C09_return_restores (g : Galpy) (c c1 : Cluster) (ops : List Op) (sort : Bool)
    (cm : Option CentreMethod) (p : Pos g c) (l : Lin c) (hg : Good c)
    (hl : ∀ op ∈ ops, op.linear) (h : run g ops c = .ok c1) :
    ∃ c2, returnCluster g (saveCluster c) sort cm c1 = .ok c2 ∧ c2.data = c.data ∧
      (∀ o, c.rorder = some o → c.rorderOrigin = c.origin → o.length = c.st.length →
        c2.rorder = c.rorder ∧ c2.rorderOrigin = c.rorderOrigin) := by
  have s := run_steps p.nz l hl h
  obtain ⟨c1', h1', g1⟩ := run_total p l hl hg
  rw [h] at h1'; cases h1'
  obtain ⟨c2, h2, h3, -, -, h4, -⟩ := return_of_world (sort := sort) (cm := cm) p l hg g1 s.lin s.rest s.world
  exact ⟨c2, h2, h3, h4⟩

example : ∃ c1, run demoG [.toGalpy, .toGalaxy true, .toNbody] demo = .ok c1 ∧
    ∃ c2, returnCluster demoG (saveCluster demo) false none c1 = .ok c2 ∧ c2.data = demo.data := by
  have hl : ∀ o ∈ [Op.toGalpy, .toGalaxy true, .toNbody], o.linear := by
    simp [Op.linear, Op.unitTarget, Op.originTarget, Units.linear, Origin.linear]
  obtain ⟨c1, h, -⟩ := C08_histories_total demoG demo _ demo_pos demo_lin hl demo_good
  obtain ⟨c2, h2, h3, -⟩ := C09_return_restores demoG demo c1 _ false none demo_pos demo_lin demo_good hl h
  exact ⟨c1, h, c2, h2, h3⟩

end

end CT
