/- C89, C90: what `interpolate_orbits` leaves behind, and the legacy names. -/
import Verif.Props.Interp2
import Verif.Spec.Demo

namespace CT

noncomputable section

set_option linter.unusedSimpArgs false

/-- **C89 violated (derived quantities).**  With the origin at the cluster or its centre, `interpolate_orbits` assigns the new rows but
leaves the radii, speeds, … of the old ones: they are right only if no star changes its distance. -/
theorem C89_stale_radii_violated {g : Galpy} {flow : ℝ → Ph → Ph} {a : PathArgs} {c : Cluster} {u : Units} {s : Scale}
    (p : Pos g c) (l : Lin c) (hg : Good c) (hu : c.units = some u) (hs : unitScale g c u = some s)
    (ho : c.origin = some .cluster ∨ c.origin = some .centre) (hn : 2 ≤ a.nt) (ha : TimeGiven a c) :
    ∃ rows c', interpolateOrbitsMethod g flow a c = .ok (rows, c') ∧ c'.st = rows ∧
      List.Forall₂ (fun q q' => Follows g flow (spanMyr s a.tfinal) (RightVelocities u) (s.ph q) (s.ph q')) c.st rows ∧
      AreNorms (fun p => p.x ^ 2 + p.y ^ 2 + p.z ^ 2) c.st c'.d.r ∧
      (Fresh c' → ∀ i < c.st.length, (c.st[i]!).x ^ 2 + (c.st[i]!).y ^ 2 + (c.st[i]!).z ^ 2 =
        (rows[i]!).x ^ 2 + (rows[i]!).y ^ 2 + (rows[i]!).z ^ 2) := by
  obtain ⟨rows, c3, h1, d3, f3, b⟩ := C88_function (flow := flow) p l hg hu hs hn ha
  have ho3 : c3.origin = c.origin := congrArg Data.origin d3
  have st3 : c3.st = c.st := congrArg Data.st d3
  refine ⟨rows, { c3 with st := rows }, ?_, rfl, b, ?_, ?_⟩
  · unfold interpolateOrbitsMethod
    simp only [h1, bind, Except.bind, pure, Except.pure]
    rw [if_neg]
    rintro ⟨h2, h3⟩
    rcases ho with h | h
    · exact h3 (ho3.trans h)
    · exact h2 (ho3.trans h)
  · show AreNorms _ c.st c3.d.r
    rw [← st3]; exact f3.r
  · intro hf i hi
    have e1 := hf.r
    have e2 := f3.r
    change AreNorms _ rows c3.d.r at e1
    rw [st3] at e2
    unfold AreNorms at e1 e2
    have l1 := e1.length_eq
    have l2 := e2.length_eq
    have hi2 : i < c3.d.r.length := l2 ▸ hi
    have hi3 : i < rows.length := l1.symm ▸ hi2
    have k1 := (List.forall₂_iff_get.mp e1).2 i hi3 hi2
    have k2 := (List.forall₂_iff_get.mp e2).2 i hi hi2
    rw [getElem!_pos c.st i hi, getElem!_pos rows i hi3]
    exact k2.2.symm.trans k1.2

/-- **C89 violated (stored order).**  With the origin at the galaxy the stored radial order of the old positions is kept. -/
theorem C89_kept_order_violated {g : Galpy} {flow : ℝ → Ph → Ph} {a : PathArgs} {c : Cluster} {w : World} {u : Units} {s : Scale}
    (p : Pos g c) (hg : Good c) (hw : world g c = some w) (hu : c.units = some u) (hs : unitScale g c u = some s)
    (ho : c.origin = some .galaxy) (hn : 2 ≤ a.nt) (ha : TimeGiven a c) {o : List ℕ} (hro : c.rorder = some o)
    (hoo : c.rorderOrigin = some .galaxy) (hl : o.length = c.st.length) :
    ∃ rows c', interpolateOrbitsMethod g flow a c = .ok (rows, c') ∧ c'.rorder = some o ∧ c'.rorderOrigin = some .galaxy := by
  obtain ⟨rows, c', w', h1, -, -, -, -, -, -, -, -, -, -, h⟩ := orbits_run (flow := flow) p hg hw hu hs ho hn ha
  obtain ⟨e1, e2⟩ := h o hro (hoo.trans ho.symm) hl
  exact ⟨rows, c', h1, e1, e2.trans ho⟩

/-- Motion without forces. -/
def inertial (t : ℝ) (p : Ph) : Ph := ⟨p.x + t * p.vx, p.y + t * p.vy, p.z + t * p.vz, p.vx, p.vy, p.vz⟩

theorem inertial_isFlow : IsFlow inertial where
  zero p := by ext <;> simp [inertial]
  add s t p := by ext <;> simp [inertial] <;> ring

/-- Two stars on the x-axis, the inner one moving outwards. -/
def movers : Cluster :=
  { demo with
    origin := some .galaxy
    st := [⟨1000, 0, 0, 220, 0, 0⟩, ⟨2000, 0, 0, 0, 0, 0⟩]
    rorder := some [0, 1]
    rproorder := some [0, 1]
    rorderOrigin := some .galaxy }

theorem movers_pos : Pos demoG movers := by constructor <;> norm_num [demoG, demo, movers]

theorem movers_good : Good movers where
  ne := by simp [movers]
  len := by simp [movers, demo]
  mass := by norm_num [movers, demo]
  ro := by
    intro o h; simp only [movers, Option.some.injEq] at h; subst h
    simp only [IsOrder, movers]; decide
  rpo := by
    intro o h; simp only [movers, Option.some.injEq] at h; subst h
    simp only [IsOrder, movers]; decide

/-- The arguments of a call following the orbits for 35.5 Myr. -/
def moverArgs : PathArgs := { tfinal := some 35.5 }

/-- **C89 violated, concretely.**  Without forces the inner of two stars overtakes the other; the stored order, right before the call, is
wrong after it. -/
theorem C89_order_violated : ∃ w, world demoG movers = some w ∧ OrderInv w movers ∧
    ∃ rows c' w', interpolateOrbitsMethod demoG inertial moverArgs movers = .ok (rows, c') ∧ world demoG c' = some w' ∧ ¬ OrderInv w' c' := by
  have hs : unitScale demoG movers .pckms = some ⟨1, 1, 1, 1⟩ := rfl
  obtain ⟨w, hw⟩ := world_isSome (g := demoG) (c := movers) (u := .pckms) (o := .galaxy) rfl trivial rfl
  have hst : w.stars = [some ⟨1000, 0, 0, 220, 0, 0⟩, some ⟨2000, 0, 0, 0, 0, 0⟩] := by
    simp only [world, phys, movers, demo, unitScale, Option.some.injEq] at hw
    rw [← hw]
    simp [galRows, galactocentric, Scale.ph]
  refine ⟨w, hw, ?_, ?_⟩
  · intro o h
    simp only [movers, Option.some.injEq] at h
    subst h
    refine ⟨.galaxy, rfl, trivial, ?_, ?_⟩
    · rw [hst]; simp only [IsOrder]; decide
    · simp only [List.pairwise_cons, List.mem_cons, List.not_mem_nil, or_false, forall_eq, IsEmpty.forall_iff, implies_true,
        List.Pairwise.nil, and_true]
      unfold World.radius
      rw [hst]
      simp only [List.getElem?_cons_zero, List.getElem?_cons_succ, frameOffset]
      apply Real.sqrt_le_sqrt
      norm_num
  · obtain ⟨rows, c', w', h1, -, -, -, h2, -, -, -, -, -, h3, h4⟩ := orbits_run (flow := inertial) (a := moverArgs) movers_pos movers_good hw
      (u := .pckms) rfl hs rfl (by norm_num [moverArgs]) (by intro h; simp [movers, demo] at h)
    obtain ⟨e1, e2⟩ := h4 [0, 1] rfl rfl rfl
    refine ⟨rows, c', w', h1, h2, ?_⟩
    intro hinv
    obtain ⟨f, hf, -, -, hp⟩ := hinv _ e1
    rw [e2] at hf
    cases hf
    rw [hst] at h3
    obtain ⟨y1, l1, ⟨P1, Q1, a1, a2, ⟨a3, a4, a5⟩, -⟩, h5, e3⟩ := List.forall₂_cons_left_iff.mp h3
    obtain ⟨y2, l2, ⟨P2, Q2, b1, b2, ⟨b3, b4, b5⟩, -⟩, h6, e4⟩ := List.forall₂_cons_left_iff.mp h5
    cases a1; cases b1
    have hspan : spanMyr ⟨1, 1, 1, 1⟩ moverArgs.tfinal = 35.5 := by simp [spanMyr, moverArgs]
    rw [hspan] at a3 a4 a5 b3 b4 b5
    simp only [orbitAt, inertial, demoG] at a3 a4 a5 b3 b4 b5
    norm_num at a3 a4 a5 b3 b4 b5
    simp only [List.pairwise_cons, List.mem_cons, List.not_mem_nil, or_false, forall_eq, IsEmpty.forall_iff, implies_true,
        List.Pairwise.nil, and_true] at hp
    unfold World.radius at hp
    rw [e3, e4, a2, b2] at hp
    simp only [List.getElem?_cons_zero, List.getElem?_cons_succ, frameOffset, a3, a4, a5, b3, b4, b5] at hp
    rw [Real.sqrt_le_sqrt_iff (by norm_num)] at hp
    norm_num at hp

/-- **C89 violated (AMUSE).**  In AMUSE units the default time makes the call fail. -/
theorem C89_amuse_violated {g : Galpy} {flow : ℝ → Ph → Ph} {a : PathArgs} {c : Cluster} (p : Pos g c) (hg : Good c)
    (hu : c.units = some .amuse) (hT : a.tfinal = none) : interpolateOrbitsMethod g flow a c = .error .attributeError := by
  obtain ⟨c1, h1, -⟩ := toPckms_total (a := true) (c := c) hu trivial p hg
  unfold interpolateOrbitsMethod interpolateOrbits interpStart
  simp only [hu, if_true, h1, bind, Except.bind, hT, Option.isNone, throw, throwThe, MonadExceptOf.throw]

/-- **C90 violated (functions).**  The legacy function `orbit_interpolate` is refused its keyword `plot`, and `orbits_interpolate` looks up
a name that does not exist, whatever the arguments; were it defined, the call would be refused. -/
theorem C90_functions_violated (g : Galpy) (flow : ℝ → Ph → Ph) (a : PathArgs) (c : Cluster) (known : List String) :
    orbitInterpolate g flow a c = .error .typeError ∧
      ("cluster_pot" ∉ known → orbitsInterpolate g known flow a c = .error .nameError) ∧
      ("cluster_pot" ∈ known → orbitsInterpolate g known flow a c = .error .typeError) := by
  refine ⟨?_, fun h => ?_, fun h => ?_⟩
  · unfold orbitInterpolate bindCall
    rw [if_pos (Or.inr (Or.inl ⟨"plot", by decide, by decide⟩))]
    rfl
  · unfold orbitsInterpolate
    rw [if_pos h]
    rfl
  · unfold orbitsInterpolate bindCall
    rw [if_neg (not_not.mpr h), if_pos (Or.inr (Or.inl ⟨"plot", by decide, by decide⟩))]
    rfl

/-- **C90 violated (methods).**  The legacy methods hand the cluster over twice, so the potential is given twice: a `TypeError` for every
cluster and all arguments. -/
theorem C90_methods_violated (g : Galpy) (flow : ℝ → Ph → Ph) (a : PathArgs) (c : Cluster) :
    orbitInterpolateMethod g flow a c = .error .typeError ∧ orbitsInterpolateMethod g flow a c = .error .typeError := by
  refine ⟨?_, ?_⟩
  · unfold orbitInterpolateMethod bindCall
    rw [if_pos (Or.inr (Or.inr (Or.inl ⟨"pot", by decide, by decide⟩)))]
    rfl
  · unfold orbitsInterpolateMethod bindCall
    rw [if_pos (Or.inr (Or.inr (Or.inl ⟨"pot", by decide, by decide⟩)))]
    rfl

/-- The new names accept what the legacy names are called with. -/
example : bindCall interpolateOrbitMethodParams 1 1 ["pot", "tfinal"] = .ok () := by
  unfold bindCall; rw [if_neg (by decide)]

/-! ### the hypotheses of C86-C88 are met -/

theorem demo_interp_world : ∃ w, world demoG demo = some w := world_isSome (u := .pckms) (o := .cluster) rfl trivial rfl

example : ∃ (w : World) (q : Ph) (c' : Cluster), interpolateOrbitMethod demoG inertial moverArgs demo = .ok (q, c') ∧ world demoG c' = some (w.movedTo q) ∧
    q.y = 8000 := by
  obtain ⟨w, hw⟩ := demo_interp_world
  have hs : unitScale demoG demo .pckms = some ⟨1, 1, 1, 1⟩ := rfl
  obtain ⟨q, c', h1, -, -, -, h2, ⟨-, h3, -⟩, -⟩ := C86_cluster_moves (flow := inertial) (a := moverArgs) demo_pos demo_lin demo_good hw
    (u := .pckms) rfl hs (by norm_num [moverArgs]) (by intro h; simp [demo] at h) rfl
  have hq : Scale.ph ⟨1, 1, 1, 1⟩ q = q := by ext <;> simp [Scale.ph]
  have hgc : w.gc = ⟨8000, 0, 20, 0, 220, 0⟩ := by
    simp only [world, phys, demo, unitScale, Option.some.injEq] at hw
    rw [← hw]
    simp [Scale.ph]
  rw [hq] at h2 h3
  refine ⟨w, q, c', h1, h2, ?_⟩
  rw [h3, hgc]
  simp only [orbitAt, inertial, demoG, spanMyr, moverArgs]
  norm_num

example : ∃ (w : World) (q : Ph) (c' : Cluster) (w' : World), interpolateOrbitMethod demoG inertial { tfinal := some 0, fromCentre := true } demo = .ok (q, c') ∧
    world demoG c' = some w' ∧ w'.gc.y = w.gc.y + w.centre.y ∧ w.centre.y = 2 := by
  obtain ⟨w, hw⟩ := demo_interp_world
  have hs : unitScale demoG demo .pckms = some ⟨1, 1, 1, 1⟩ := rfl
  obtain ⟨q, c', w', h1, h2, -, h3, -⟩ := C87_no_time_violated inertial_isFlow (a := { tfinal := some 0, fromCentre := true }) demo_pos demo_lin
    demo_good hw (u := .pckms) rfl hs (by norm_num) rfl rfl
  refine ⟨w, q, c', w', h1, h2, h3, ?_⟩
  simp only [world, phys, demo, unitScale, Option.some.injEq] at hw
  rw [← hw]
  simp [Scale.ph]

end

end CT
