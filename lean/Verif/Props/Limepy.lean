/- Clusters from catalogues and limepy models (C120–C123). -/
import Verif.Model.Limepy
import Verif.Props.Concentration
import Verif.Props.OrbitArg
import Verif.Props.ResetScale

namespace CT

noncomputable section

/-! ### which model is sampled -/

theorem find_row {α : Type} {l : List α} {p : α → Prop} [DecidablePred p] {r : α} (hr : r ∈ l) (hp : p r) (hu : ∀ q ∈ l, p q → q = r) :
    l.find? (fun q => p q) = some r := by
  cases h : l.find? (fun q => p q) with
  | none =>
    rw [List.find?_eq_none] at h
    exact absurd hp (by simpa using h r hr)
  | some q =>
    have h1 := List.find?_some h
    rw [hu q (List.mem_of_find?_eq_some h) (by simpa using h1)]

/-- **C120 (de Boer).**  A cluster in de Boer's catalogue is sampled, by default and on request, from the parameters of its row; the
number of stars is the mass over the mean mass. -/
theorem C120_deBoer {up : String → String} {D : List DRow} {H : List HRow} {gcname : String} {s : Source} {mbar : ℝ} {N : Option ℝ} {r : DRow}
    (hs : s = .default ∨ s = .deBoer) (hr : r ∈ D) (hn : r.name = up gcname) (hu : ∀ q ∈ D, q.name = up gcname → q = r) :
    ∃ S, getClusterSample up D H gcname s mbar N = .ok (some S) ∧ S.phi0 = r.W ∧ S.g = r.g ∧ S.M = r.M ∧ S.rt = r.rt ∧
      S.N = truncZ (r.M / mbar) := by
  have hm : up gcname ∈ D.map DRow.name := List.mem_map.mpr ⟨r, hr, hn⟩
  refine ⟨⟨r.W, r.g, r.M, r.rt, truncZ (r.M / mbar)⟩, ?_, rfl, rfl, rfl, rfl, rfl⟩
  unfold getClusterSample deBoerSample
  rw [if_pos hs, if_pos hm, find_row hr hn hu]
  rfl

/-- **C120 (Harris).**  On request a cluster in Harris's catalogue, under either of its names, is a King model (`g = 1`) whose central
potential is the tabulated one for its concentration `rl/rc`, with the mass and limiting radius of its row; the number of stars is
the one asked for or the mass over the mean mass. -/
theorem C120_harris {up : String → String} {D : List DRow} {H : List HRow} {gcname : String} {mbar : ℝ} {N : Option ℝ} {r : HRow}
    (hr : r ∈ H) (hn : r.name = up gcname ∨ r.name2 = up gcname) (hu : ∀ q ∈ H, q.name = up gcname ∨ q.name2 = up gcname → q = r)
    (h0 : 1.00471 ≤ r.rl / r.rc) (h1 : r.rl / r.rc ≤ 22709.7) :
    ∃ S, getClusterSample up D H gcname .harris mbar N = .ok (some S) ∧ S.g = 1 ∧ S.M = r.mgc ∧ S.rt = r.rl ∧
      OnBrokenLine concTable w0Table (r.rl / r.rc) S.phi0 ∧ S.N = truncZ (N.getD (r.mgc / mbar)) := by
  have hp : 0 < r.rl / r.rc := by linarith
  obtain ⟨w, e, hw, -⟩ := C118_c (c := Real.logb 10 (r.rl / r.rc)) (Real.logb_le_logb_of_le (by norm_num) (by norm_num) h0)
    (Real.logb_le_logb_of_le (by norm_num) hp h1)
  rw [Real.rpow_logb (by norm_num) (by norm_num) hp] at hw
  have hm : up gcname ∈ H.map HRow.name ∨ up gcname ∈ H.map HRow.name2 := by
    rcases hn with hn | hn
    · exact .inl (List.mem_map.mpr ⟨r, hr, hn⟩)
    · exact .inr (List.mem_map.mpr ⟨r, hr, hn⟩)
  refine ⟨⟨w, 1, r.mgc, r.rl, truncZ (N.getD (r.mgc / mbar))⟩, ?_, rfl, rfl, rfl, hw, rfl⟩
  unfold getClusterSample harrisSample
  rw [if_neg (by simp), if_pos ⟨rfl, hm⟩, find_row hr hn hu]
  simp only [Option.elim_some, e, bind, Except.bind, pure, Except.pure, Except.map]

/-- **C120 (unknown).**  On request of Harris's catalogue an unknown name gives the empty cluster. -/
theorem C120_unknown {up : String → String} {D : List DRow} {H : List HRow} {gcname : String} {mbar : ℝ} {N : Option ℝ}
    (h : ∀ r ∈ H, r.name ≠ up gcname ∧ r.name2 ≠ up gcname) : getClusterSample up D H gcname .harris mbar N = .ok none := by
  unfold getClusterSample
  rw [if_neg (by simp), if_neg]
  rintro ⟨-, h1 | h1⟩
  · obtain ⟨r, hr, e⟩ := List.mem_map.mp h1
    exact (h r hr).1 e
  · obtain ⟨r, hr, e⟩ := List.mem_map.mp h1
    exact (h r hr).2 e

/-! ### what goes wrong with the catalogues -/

theorem deBoerSample_missing {D : List DRow} {nm : String} {mbar : ℝ} (h : ∀ r ∈ D, r.name ≠ nm) : deBoerSample D nm mbar = .error .indexError := by
  unfold deBoerSample
  have : D.find? (fun r => r.name = nm) = none := by
    rw [List.find?_eq_none]
    intro r hr
    simpa using h r hr
  rw [this]
  rfl

/-- **C121 (violated: default).**  The documentation says that by default Harris's catalogue is used for clusters de Boer's does not
have.  It never is: a cluster that only Harris's catalogue has raises `IndexError`. -/
theorem C121_fallback_violated {up : String → String} {D : List DRow} {H : List HRow} {gcname : String} {s : Source} {mbar : ℝ} {N : Option ℝ}
    {r : HRow} (hs : s = .default ∨ s = .deBoer) (hr : r ∈ H) (hn : r.name = up gcname ∨ r.name2 = up gcname)
    (hD : ∀ d ∈ D, d.name ≠ up gcname) (hH : ∀ q ∈ H, q.name = up gcname ∨ q.name2 = up gcname → ∀ d ∈ D, d.name ≠ q.name ∧ d.name ≠ q.name2) :
    getClusterSample up D H gcname s mbar N = .error .indexError := by
  have hm : up gcname ∉ D.map DRow.name := by
    intro h
    obtain ⟨d, hd, e⟩ := List.mem_map.mp h
    exact hD d hd e
  unfold getClusterSample deBoerOther
  rw [if_pos hs, if_neg hm]
  cases h1 : H.find? (fun r => r.name = up gcname) with
  | some q =>
    have e1 : q.name = up gcname := by simpa using List.find?_some h1
    have := deBoerSample_missing (mbar := mbar) (fun d hd => (hH q (List.mem_of_find?_eq_some h1) (.inl e1) d hd).2)
    simp only [Option.elim_some, this]
    rfl
  | none =>
    simp only [Option.elim_none]
    cases h2 : H.find? (fun r => r.name2 = up gcname) with
    | some q =>
      have e1 : q.name2 = up gcname := by simpa using List.find?_some h2
      have := deBoerSample_missing (mbar := mbar) (fun d hd => (hH q (List.mem_of_find?_eq_some h2) (.inr e1) d hd).1)
      simp only [Option.elim_some, this]
      rfl
    | none =>
      exfalso
      rw [List.find?_eq_none] at h1 h2
      rcases hn with hn | hn
      · exact absurd hn (by simpa using h1 r hr)
      · exact absurd hn (by simpa using h2 r hr)

/-- **C121 (violated: unknown names).**  By default a name in neither catalogue raises `UnboundLocalError`; no message, no empty
cluster. -/
theorem C121_unknown_violated {up : String → String} {D : List DRow} {H : List HRow} {gcname : String} {s : Source} {mbar : ℝ} {N : Option ℝ}
    (hs : s = .default ∨ s = .deBoer) (hD : ∀ d ∈ D, d.name ≠ up gcname) (hH : ∀ r ∈ H, r.name ≠ up gcname ∧ r.name2 ≠ up gcname) :
    getClusterSample up D H gcname s mbar N = .error .nameError := by
  have hm : up gcname ∉ D.map DRow.name := by
    intro h
    obtain ⟨d, hd, e⟩ := List.mem_map.mp h
    exact hD d hd e
  have h1 : H.find? (fun r => r.name = up gcname) = none := by
    rw [List.find?_eq_none]
    intro r hr
    simpa using (hH r hr).1
  have h2 : H.find? (fun r => r.name2 = up gcname) = none := by
    rw [List.find?_eq_none]
    intro r hr
    simpa using (hH r hr).2
  unfold getClusterSample deBoerOther
  rw [if_pos hs, if_neg hm, h1, h2]
  rfl

/-- **C121 (violated: lower case).**  A row of Harris's catalogue whose names are no upper-case strings (`Ko2`; the alias `47Tuc`)
cannot be reached: whatever name is asked for, and from whatever source, the result is as if the row were not there. -/
theorem C121_case_violated {up : String → String} {D : List DRow} {A B : List HRow} {r : HRow} {mbar : ℝ} {N : Option ℝ}
    (h : ∀ x, up x ≠ r.name ∧ up x ≠ r.name2) (gcname : String) (s : Source) :
    getClusterSample up D (A ++ r :: B) gcname s mbar N = getClusterSample up D (A ++ B) gcname s mbar N := by
  obtain ⟨h1, h2⟩ := h gcname
  have e1 : (A ++ r :: B).find? (fun r => r.name = up gcname) = (A ++ B).find? (fun r => r.name = up gcname) := by
    simp [List.find?_append, Ne.symm h1]
  have e2 : (A ++ r :: B).find? (fun r => r.name2 = up gcname) = (A ++ B).find? (fun r => r.name2 = up gcname) := by
    simp [List.find?_append, Ne.symm h2]
  have e3 : (A ++ r :: B).find? (fun r => r.name = up gcname ∨ r.name2 = up gcname) =
      (A ++ B).find? (fun r => r.name = up gcname ∨ r.name2 = up gcname) := by
    simp [List.find?_append, Ne.symm h1, Ne.symm h2]
  have m1 : up gcname ∈ (A ++ r :: B).map HRow.name ↔ up gcname ∈ (A ++ B).map HRow.name := by
    simp only [List.map_append, List.map_cons, List.mem_append, List.mem_cons, h1, false_or]
  have m2 : up gcname ∈ (A ++ r :: B).map HRow.name2 ↔ up gcname ∈ (A ++ B).map HRow.name2 := by
    simp only [List.map_append, List.map_cons, List.mem_append, List.mem_cons, h2, false_or]
  unfold getClusterSample deBoerOther harrisSample
  rw [e1, e2, e3]
  by_cases hs : s = .default ∨ s = .deBoer
  · rw [if_pos hs, if_pos hs]
  rw [if_neg hs, if_neg hs]
  by_cases hq : s = .harris ∧ (up gcname ∈ (A ++ B).map HRow.name ∨ up gcname ∈ (A ++ B).map HRow.name2)
  · rw [if_pos hq, if_pos (by rw [m1, m2]; exact hq)]
  · rw [if_neg hq, if_neg (by rw [m1, m2]; exact hq)]

/-- **C121 (violated: number of stars).**  For clusters of de Boer's catalogue the number of stars asked for is ignored. -/
theorem C121_number_violated {up : String → String} {D : List DRow} {H : List HRow} {gcname : String} {s : Source} {mbar : ℝ}
    (hs : s = .default ∨ s = .deBoer) (N N' : Option ℝ) :
    getClusterSample up D H gcname s mbar N = getClusterSample up D H gcname s mbar N' := by
  unfold getClusterSample
  rw [if_pos hs, if_pos hs]

/-! ### where the cluster is put -/

theorem limepyOrigin_ok {g : Galpy} {o o0 : Origin} {c : Cluster} (hl : o0.linear) (ho : o.linear) (hu : c.units ≠ some .radec) (h0 : c.origin = some o0)
    (hg : Good c) : ∃ c', limepyOrigin g o c = .ok c' ∧ OStep o c c' ∧ Good c' := by
  unfold limepyOrigin
  by_cases h : c.origin = some o
  · rw [if_neg (by simpa using h)]
    exact ⟨c, rfl, .refl h, hg⟩
  · rw [if_pos h]
    obtain ⟨c', e, g'⟩ := toOrigin_total (g := g) (t := o) (s := true) (cm := none) ho hu hg
    exact ⟨c', e, toOrigin_ostep h0 hl ho hu e, g'⟩

/-- The end of the function in the frame the cluster already has: nothing is moved. -/
theorem limepyEnd_ok {g : Galpy} {o : Origin} {orbit : Option (ℝ → Ph)} {T0 : ℝ} {c c1 : Cluster} (hu : c1.units ≠ some .radec)
    (h : limepyOrbit g orbit T0 none c = .ok c1) (ho : c1.origin = some o) (hg : Good c1) :
    ∃ c', limepyEnd g o orbit T0 none c = .ok c' ∧ c'.core = c1.core ∧ Fresh c' ∧ Good c' := by
  unfold limepyEnd
  by_cases hq : o = .galaxy
  · subst hq
    obtain ⟨c2, h2, g2⟩ := toGalaxy_total (g := g) (s := true) hu hg
    have e2 : c2.core = c1.core := by
      have h2' := h2
      simp only [toGalaxy, ho, bind, hu, if_false] at h2'
      simp [Except.bind] at h2'
      exact analyze_core h2'
    obtain ⟨c3, h3, g3⟩ := analyze_total (s := true) (p := true) g2
    refine ⟨c3, ?_, (analyze_core h3).trans e2, analyze_fresh h3, g3⟩
    simp only [h, h2, bind, Except.bind, if_true]
    exact h3
  · obtain ⟨c3, h3, g3⟩ := analyze_total (s := true) (p := true) hg
    refine ⟨c3, ?_, analyze_core h3, analyze_fresh h3, g3⟩
    simp only [h, bind, Except.bind, if_neg hq]
    exact h3

theorem OStep.lin {o : Origin} {c c' : Cluster} (s : OStep o c c') (l : Lin c) (ho : o.linear) : Lin c' :=
  ⟨by rw [s.units]; exact l.units, o, s.origin, ho⟩

theorem limepyUnits_ok {g : Galpy} {u : Units} {c : Cluster} (p : Pos g c) (l : Lin c) (hg : Good c) (hu : u.linear) :
    ∃ c', limepyUnits g u c = .ok c' ∧ world g c' = world g c ∧ c'.units = some u ∧ c'.origin = c.origin ∧ c'.rest = c.rest ∧ Good c' ∧ Lin c' := by
  unfold limepyUnits
  by_cases h : c.units = some u
  · rw [if_neg (by simpa using h)]
    exact ⟨c, rfl, rfl, h, rfl, rfl, hg, l⟩
  · rw [if_pos h]
    have hlin : ∀ op ∈ [Op.toUnits u], op.linear := by
      intro op hop
      cases List.mem_singleton.mp hop
      cases u <;> simp_all [Op.linear, Op.unitTarget, Op.originTarget, Units.linear]
    obtain ⟨c', e, g'⟩ := run_total p l hlin hg
    have st := run_steps p.nz l hlin e
    simp only [run, Op.exec] at e
    obtain ⟨x, k1, k2⟩ := bind_ok e
    cases k2
    refine ⟨c', k1, st.world, ?_, ?_, st.rest, g', st.lin⟩
    · rw [st.units]; cases u <;> simp_all [lastUnits, Op.unitTarget, Units.linear]
    · rw [st.origin]; simp [lastOrigin, Op.originTarget]

/-- **C122 (catalogue clusters).**  `load_cluster('limepy', gcname=…, units=…, origin=…)` describes the cluster of the catalogue, with
its orbital position, in the units and the frame asked for: time, masses, galactocentric positions and velocities of all stars are
those of the cluster made from the catalogue in pc and km/s; radii and totals are up to date. -/
theorem C122_named {g : Galpy} {u : Units} {o : Origin} {T0 : ℝ} {c : Cluster} (p : Pos g c) (l : Lin c) (hg : Good c) (hu : u.linear) (ho : o.linear) :
    ∃ c', limepyNamed g u o none T0 none c = .ok c' ∧ world g c' = world g c ∧ c'.units = some u ∧ c'.origin = some o ∧ Fresh c' ∧ Good c' := by
  obtain ⟨c1, h1, w1, u1, o1, r1, g1, l1⟩ := limepyUnits_ok p l hg hu
  obtain ⟨o0, ho0, hl0⟩ := l1.origin
  obtain ⟨c2, h2, s2, g2⟩ := limepyOrigin_ok (g := g) hl0 ho (lin_units l1) ho0 g1
  obtain ⟨c3, h3, k3, f3, g3⟩ := limepyEnd_ok (g := g) (orbit := none) (T0 := T0) (c := c2) (c1 := c2) (o := o) (lin_units (s2.lin l1 ho)) rfl s2.origin g2
  have s3 := s2.core k3
  refine ⟨c3, ?_, ?_, s3.units.trans u1, s3.origin, f3, g3⟩
  · unfold limepyNamed
    simp only [h1, h2, bind, Except.bind]
    exact h3
  · rw [s3.world (by rw [ho0]; simp), w1]

/-- **C122 (models on an orbit).**  A limepy model in pc and km/s, in the frame of the cluster, is put on the orbit given at its own
time; its stars are the sampled ones. -/
theorem C122_model {g : Galpy} {orb : ℝ → Ph} {T0 : ℝ} {c : Cluster} (hg : Good c) (ho : c.origin = some .cluster) :
    ∃ c', limepyModel g .pckms .cluster (some orb) T0 none c = .ok c' ∧ OnOrbit g orb T0 c' ∧ c'.st = c.st ∧ c'.m = c.m ∧ c'.tphys = c.tphys ∧
      c'.units = some .pckms ∧ c'.origin = some .cluster ∧ Fresh c' ∧ Good c' := by
  obtain ⟨d, hd⟩ : ∃ d : Cluster, d = { c with units := some Units.pckms, bunits := bunitsOfUnits (some Units.pckms) } := ⟨_, rfl⟩
  have du : d.units = some .pckms := by rw [hd]
  have dor : d.origin = some .cluster := by rw [hd]; exact ho
  have gd : Good d := by rw [hd]; exact hg.same rfl rfl rfl rfl
  obtain ⟨t, ht⟩ : ∃ t, t = c.tphys / 1000 / T0 := ⟨_, rfl⟩
  obtain ⟨e, he⟩ : ∃ e : Cluster, e = { d with gc := (orb t).mulPos 1000 } := ⟨_, rfl⟩
  have hadd : limepyOrbit g (some orb) T0 none d = .ok e := by
    unfold limepyOrbit addOrbit
    have ht' : d.tphys / 1000 / T0 = t := by rw [ht, hd]
    simp only [Option.elim_some, ht', du, ne_eq, not_true_eq_false, if_false, orbitFromKpckms, Option.isSome_none, Bool.false_eq_true, he,
      Option.some.injEq, reduceCtorEq, not_false_eq_true, if_true]
  have eu : e.units ≠ some .radec := by rw [he]; show d.units ≠ _; rw [du]; simp
  obtain ⟨c', h, k, f, g'⟩ := limepyEnd_ok eu hadd (o := .cluster) (by rw [he]; exact dor) (by rw [he]; exact gd.same rfl rfl rfl rfl)
  obtain ⟨k1, k2, k3, k4, k5, -, k7, -⟩ := core_fields k
  have c1 : c'.units = some .pckms := by rw [k1, he]; exact du
  have c3 : c'.tphys = c.tphys := by rw [k3, he, hd]
  have c7 : c'.gc = (orb t).mulPos 1000 := by rw [k7, he]
  refine ⟨c', ?_, ?_, by rw [k5, he, hd], by rw [k4, he, hd], c3, c1, by rw [k2, he]; exact dor, f, g'⟩
  · unfold limepyModel
    rw [← hd]
    have : limepyOrigin g .cluster d = .ok d := by
      unfold limepyOrigin
      rw [if_neg (by rw [dor]; simp)]
    simp only [this, bind, Except.bind]
    exact h
  · unfold OnOrbit phys
    simp only [c1, unitScale]
    refine ⟨_, rfl, ?_⟩
    simp only [Scale.ph, orbRow, mul_one, c3, ← ht, c7, Ph.mulPos]
    simp only [mul_comm]

/-! ### what goes wrong with models -/

/-- **C123 (violated: galactocentric models).**  A limepy model asked for in the frame of the galaxy with an orbit is not put on the
orbit: the orbital position is recorded, the stars stay where they were sampled, around the galactic centre. -/
theorem C123_galaxy_violated {g : Galpy} {fc : Cluster → Except Err Cluster} (hfc : CentreFinder g fc) (orb : ℝ → Ph) (T0 : ℝ) {c : Cluster} (p : Pos g c)
    (hg : Good c) (ho : c.origin = some .cluster) (h0 : c.gc = ⟨0, 0, 0, 0, 0, 0⟩) :
    ∃ c1 c', limepyModel g .pckms .galaxy (some orb) T0 none c = .ok c1 ∧ loadOrbit g fc orb T0 c1 = .ok c' ∧
      c'.units = some .pckms ∧ c'.origin = some .galaxy ∧ OnOrbit g orb T0 c' ∧ c'.st = c.st := by
  obtain ⟨d, hd⟩ : ∃ d : Cluster, d = { c with units := some Units.pckms, bunits := bunitsOfUnits (some Units.pckms) } := ⟨_, rfl⟩
  have du : d.units = some .pckms := by rw [hd]
  have dor : d.origin = some .cluster := by rw [hd]; exact ho
  have gd : Good d := by rw [hd]; exact hg.same rfl rfl rfl rfl
  obtain ⟨e, he, se, ge⟩ := limepyOrigin_ok (g := g) (o := .galaxy) (o0 := .cluster) trivial trivial (by rw [du]; simp) dor gd
  have est : e.st = c.st := by
    have r := se.rows _ dor
    have r' : e.st.map some = d.st.map some := by
      have a1 : galRows .galaxy e.c e.gc e.st = e.st.map some := rfl
      have a2 : galRows .cluster d.c d.gc d.st = d.st.map some := by
        unfold galRows
        apply List.map_congr_left
        intro q _
        have : d.gc = ⟨0, 0, 0, 0, 0, 0⟩ := by rw [hd]; exact h0
        simp [galactocentric, this, phAdd]
      rw [← a1, ← a2, r]
    have := List.map_injective_iff.mpr (Option.some_injective Ph) r'
    rw [this, hd]
  have eu : e.units = some .pckms := se.units.trans du
  obtain ⟨q, s, hq, -⟩ := addOrbit_lin (g := g) (p := orb (e.tphys / 1000 / T0)) (ou := some .kpckms) (t := none) (c := e) (by rw [eu]; simp)
  obtain ⟨f, hf⟩ : ∃ f : Cluster, f = { e with gc := q, tphys := s } := ⟨_, rfl⟩
  have hadd : limepyOrbit g (some orb) T0 none e = .ok f := by
    unfold limepyOrbit
    simp only [Option.elim_some]
    rw [hq, hf]
  have fu : f.units = some .pckms := by rw [hf]; exact eu
  have fo : f.origin = some .galaxy := by rw [hf]; exact se.origin
  obtain ⟨c1, h1, k, fr, g1⟩ := limepyEnd_ok (by rw [fu]; simp) hadd (o := .galaxy) fo (by rw [hf]; exact ge.moved q s)
  obtain ⟨k1, k2, k3, k4, k5, -, k7, -, -, -, -, kr⟩ := core_fields k
  have p1 : Pos g c1 := by
    have e1 : c1.rest = f.rest := kr
    have e2 : f.rest = e.rest := by rw [hf]; rfl
    have pd : Pos g d := by
      rw [hd]
      exact ⟨p.rbar, p.vbar, p.zmbar, p.tbar, p.ro, p.vo, p.time, p.mass, p.vel⟩
    exact pd.of_rest (e1.trans (e2.trans se.rest))
  have u1 : c1.units = some .pckms := k1.trans fu
  have o1 : c1.origin = some .galaxy := k2.trans fo
  obtain ⟨c', h', on, z1, z2, z3, z4, z5, -⟩ := C110_load_orbit hfc orb T0 p1 ⟨⟨_, u1, trivial⟩, _, o1, trivial⟩ g1 fr (.inl u1) (.inl o1)
  refine ⟨c1, c', ?_, h', z1.trans u1, z2.trans o1, on, ?_⟩
  · unfold limepyModel
    rw [← hd]
    simp only [he, bind, Except.bind]
    exact h1
  · rw [z5, k5, hf]
    exact est

/-- **C123 (violated: units of models).**  The units asked for are only written on the model: the numbers are the same, in pc, km/s and
solar masses or whatever limepy uses, for all units. -/
theorem C123_units_violated {g : Galpy} {T0 : ℝ} {c : Cluster} (hg : Good c) (ho : c.origin = some .cluster) (u : Units) (hu : u.linear) :
    ∃ c', limepyModel g u .cluster none T0 none c = .ok c' ∧ c'.units = some u ∧ c'.st = c.st ∧ c'.m = c.m := by
  obtain ⟨d, hd⟩ : ∃ d : Cluster, d = { c with units := some u, bunits := bunitsOfUnits (some u) } := ⟨_, rfl⟩
  have du : d.units = some u := by rw [hd]
  have dor : d.origin = some .cluster := by rw [hd]; exact ho
  have gd : Good d := by rw [hd]; exact hg.same rfl rfl rfl rfl
  obtain ⟨c', h, k, -⟩ := limepyEnd_ok (g := g) (orbit := none) (T0 := T0) (c := d) (c1 := d) (o := .cluster)
    (by rw [du]; rintro e; cases e; exact hu) rfl dor gd
  obtain ⟨k1, -, -, k4, k5, -⟩ := core_fields k
  refine ⟨c', ?_, k1.trans du, by rw [k5, hd], by rw [k4, hd]⟩
  unfold limepyModel
  rw [← hd]
  have : limepyOrigin g .cluster d = .ok d := by
    unfold limepyOrigin
    rw [if_neg (by rw [dor]; simp)]
  simp only [this, bind, Except.bind]
  exact h

/-- **C123 (violated: orbit file).**  With an orbit file (and no orbit) the call raises `TypeError`, for models and for clusters of the
catalogues. -/
theorem C123_ofile_violated {g : Galpy} {u : Units} {o : Origin} {T0 : ℝ} {L : List Line} {c : Cluster} (p : Pos g c) (l : Lin c) (hg : Good c)
    (hu : u.linear) (ho : o.linear) :
    limepyModel g u o none T0 (some L) c = .error .typeError ∧ limepyNamed g u o none T0 (some L) c = .error .typeError := by
  have fin : ∀ d : Cluster, limepyEnd g o none T0 (some L) d = .error .typeError := by
    intro d
    rfl
  constructor
  · obtain ⟨o0, ho0, hl0⟩ := l.origin
    obtain ⟨d, hd⟩ : ∃ d : Cluster, d = { c with units := some u, bunits := bunitsOfUnits (some u) } := ⟨_, rfl⟩
    obtain ⟨e, he, -⟩ := limepyOrigin_ok (g := g) (o := o) (c := d) hl0 ho (by rw [hd]; rintro e; cases e; exact hu) (by rw [hd]; exact ho0)
      (by rw [hd]; exact hg.same rfl rfl rfl rfl)
    unfold limepyModel
    rw [← hd]
    simp only [he, bind, Except.bind, fin]
  · obtain ⟨c1, h1, -, -, o1, -, g1, l1⟩ := limepyUnits_ok p l hg hu
    obtain ⟨o0, ho0, hl0⟩ := l1.origin
    obtain ⟨e, he, -⟩ := limepyOrigin_ok (g := g) (o := o) (c := c1) hl0 ho (lin_units l1) ho0 g1
    unfold limepyNamed
    simp only [h1, he, bind, Except.bind, fin]

/-! ### concrete cases -/

def demoD : List DRow := [⟨"NGC104", 8.308, 1.335, 72.912, 103030.72⟩]
def demoH : List HRow := [⟨"NGC104", "47Tuc", 1187676.38, 0.471238554, 4.14951849, 55.3684959⟩, ⟨"PAL2", "na", 250000, 2, 5, 40⟩]

example : ∃ S, getClusterSample id demoD demoH "NGC104" .default 1 none = .ok (some S) ∧ S.M = 103030.72 := by
  obtain ⟨S, h, -, -, h2, -⟩ := C120_deBoer (up := id) (D := demoD) (H := demoH) (gcname := "NGC104") (mbar := 1) (N := none) (r := ⟨"NGC104", 8.308, 1.335, 72.912, 103030.72⟩) (.inl rfl)
    (by simp [demoD]) rfl (by intro q hq _; simpa [demoD] using hq)
  exact ⟨S, h, h2⟩

example : ∃ S, getClusterSample id demoD demoH "PAL2" .harris 1 (some 1000) = .ok (some S) ∧ S.rt = 40 := by
  obtain ⟨S, h, -, -, h2, -⟩ := C120_harris (up := id) (D := demoD) (H := demoH) (gcname := "PAL2") (mbar := 1) (N := some 1000) (r := ⟨"PAL2", "na", 250000, 2, 5, 40⟩)
    (by simp [demoH]) (.inl rfl) (by
      intro q hq
      simp only [demoH, List.mem_cons, List.not_mem_nil, or_false] at hq
      rcases hq with rfl | rfl
      · intro h
        rcases h with h | h
        · exact absurd h (show ¬ ("NGC104" = "PAL2") by decide)
        · exact absurd h (show ¬ ("47Tuc" = "PAL2") by decide)
      · exact fun _ => rfl) (by norm_num) (by norm_num)
  exact ⟨S, h, h2⟩

/-- Palomar 2 is only in Harris's catalogue. -/
example : getClusterSample id demoD demoH "PAL2" .default 1 none = .error .indexError := by
  refine C121_fallback_violated (.inl rfl) (r := ⟨"PAL2", "na", 250000, 2, 5, 40⟩) (by simp [demoH]) (.inl rfl) ?_ ?_
  · intro d hd
    simp only [demoD, List.mem_singleton] at hd
    subst hd
    decide
  · intro q hq h d hd
    simp only [demoD, List.mem_singleton] at hd
    subst hd
    simp only [demoH, List.mem_cons, List.not_mem_nil, or_false] at hq
    rcases hq with rfl | rfl
    · revert h; decide
    · decide

example : ∃ c c', limepyNamed demoG .galpy .galaxy none 0.03 none c = .ok c' ∧ world demoG c' = world demoG c ∧ c.st = demo.st := by
  obtain ⟨c, -, p, l, hg, f, hm, hst, ho, hu⟩ := demo_fresh
  obtain ⟨c', h, w, -⟩ := C122_named (T0 := 0.03) p l hg (u := .galpy) (o := .galaxy) trivial trivial
  exact ⟨c, c', h, w, hst⟩

end

end CT
