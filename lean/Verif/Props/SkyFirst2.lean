/- C131: what goes wrong for clusters built from observations: missing data, the centre, later orbits. -/
import Verif.Props.SkyFirst
import Verif.Props.Sky
import Verif.Props.Profiles2

namespace CT

noncomputable section

set_option linter.unusedSimpArgs false

/-- **C131 (violated: missing data).**  When a quantity is missing for all stars and the cluster's is known, `add_orbit` completes only
the sky columns, not `x … vz`: the new cluster, in `radec` units with origin `sky`, has coordinates that differ from its sky
coordinates, and converting it to `kpckms` and back changes its coordinates. -/
theorem C131_missing_violated {g : Galpy} (gp : g.Pos) (l : List (StarArgs × ℕ)) (hne : l ≠ [])
    (f : ∀ c ∈ l, c.1.Fits c.2 ∧ ∀ i < c.2, 0 ≤ (c.1.star i).m) (t0 : ℝ) (p : Ph)
    (hinv : ∀ q ∈ p :: completed (obsOf l) p, g.toSky (g.ofSky q) = q) (hmiss : ¬ Complete (obsOf l) p) :
    ∃ T c', addMany (l.map (fun c => (c.1, true, true))) (blankTab (some .radec) (some .sky) t0) = .ok T ∧
      (addOrbit g p none none T.base).st = obsOf l ∧ (addOrbit g p none none T.base).sky ≠ obsOf l ∧
      calls g [.op (.toKpckms true), .toRadec true none true] (addOrbit g p none none T.base) = .ok c' ∧
      c'.units = some .radec ∧ c'.origin = some .sky ∧ c'.st ≠ (addOrbit g p none none T.base).st := by
  obtain ⟨R, hR⟩ : ∃ R, R = obsOf l := ⟨_, rfl⟩
  have hrows := obsOf_ne hne f
  rw [← hR] at hinv hmiss hrows ⊢
  have hcm : completed R p ≠ R := by
    intro e
    refine hmiss fun F hF => ?_
    by_contra hn
    push Not at hn
    obtain ⟨h1, h2⟩ := hn
    obtain ⟨q, hq⟩ := List.exists_mem_of_ne_nil _ hrows
    have hq' : q ∈ completed R p := by rw [e]; exact hq
    obtain ⟨q0, -, hq0⟩ := List.mem_map.mp hq'
    have z := h1 _ hq
    have key : ∀ G : Ph → ℝ, (∀ q ∈ R, G q = 0) → completedCol R G p q0 = G p := fun G hG => if_pos hG
    simp only [List.mem_cons, List.not_mem_nil, or_false] at hF
    subst hq0
    rcases hF with rfl | rfl | rfl | rfl | rfl | rfl <;> exact h2 ((key _ h1).symm.trans z)
  obtain ⟨T, h, s⟩ := SkyTab.many l (SkyTab.blank t0) f (by simp)
  simp only [List.nil_append] at s
  rw [← hR] at s
  have e := addOrbit_sky (g := g) (p := p) (ou := none) (.inl rfl) s.units s.origin
  have est : (addOrbit g p none none T.base).st = R := by rw [e]; exact (s.st hrows).1
  have esk : (addOrbit g p none none T.base).sky = completed R p := by rw [e]; show completed T.base.sky p = _; rw [s.sky]
  obtain ⟨uA, c1, h1, j, u1, o1⟩ := s.leaves gp hrows (ou := none) (.inl rfl) hinv
  obtain ⟨c2, h2, j2, u2, o2⟩ := j.analyzed true true
  obtain ⟨c3, h3, j3, o3, -⟩ := toRadec_lin j2 true none true
  have l3 : c3.origin = some .sky := by rw [o3, o2.trans o1]; rfl
  have sh := Shows.of_inv hinv (.inr j3)
  refine ⟨T, c3, h, est, by rw [esk]; exact hcm, ?_, j3.state.units, l3, ?_⟩
  · simp only [calls, Call.exec, Op.exec, toKpckms_radec uA h1 u1, analyzeIf, if_true, h2, Except.bind, h3]
  · rw [est, (sh.1 j3.state.units).2.2.1 l3]
    exact hcm

/-- **C131 (violated: the centre).**  Whatever was observed, after `to_kpckms` the stored centre of a cluster built on the sky is the
Galactocentric position that belongs to the sky coordinates `0, 0, 0, 0, 0, 0` (that of the Sun) and `to_centre` subtracts it in
addition to the position of the cluster. -/
theorem C131_centre_violated {g : Galpy} (l : List (StarArgs × ℕ)) (hne : l ≠ [])
    (f : ∀ c ∈ l, c.1.Fits c.2 ∧ ∀ i < c.2, 0 ≤ (c.1.star i).m) (t0 : ℝ) (p : Ph) (hc : Complete (obsOf l) p) :
    ∃ T c1 c2, addMany (l.map (fun c => (c.1, true, true))) (blankTab (some .radec) (some .sky) t0) = .ok T ∧
      toKpckms g true (addOrbit g p none none T.base) = .ok c1 ∧ c1.c = g.ofSky ⟨0, 0, 0, 0, 0, 0⟩ ∧
      toCentre true none c1 = .ok c2 ∧
      c2.st = (obsOf l).map (fun q => ((g.ofSky q).sub (g.ofSky p)).sub (g.ofSky ⟨0, 0, 0, 0, 0, 0⟩)) := by
  obtain ⟨T, h, s⟩ := SkyTab.many l (SkyTab.blank t0) f (by simp)
  simp only [List.nil_append] at s
  have hrows := obsOf_ne hne f
  obtain ⟨s1, s2, s3⟩ := s.st hrows
  have e := addOrbit_sky (g := g) (p := p) (ou := none) (.inl rfl) s.units s.origin
  rw [s.sky, completed_of_complete hc] at e
  obtain ⟨A, hA⟩ : ∃ A, A = addOrbit g p none none T.base := ⟨_, rfl⟩
  rw [e] at hA
  have hu : A.units = some .radec := by rw [hA]; exact s.units
  have ho : A.origin = some .sky := by rw [hA]; exact s.origin
  have hob : A.orbit = none := by rw [hA]; exact (congrArg Cluster.orbit s.rest :)
  have hos : A.orbits = none := by rw [hA]; exact (congrArg Cluster.orbits s.rest :)
  have hx : A.xcn = none := by rw [hA]; exact (congrArg Cluster.xcn s.rest :)
  have hsc : A.skyC = ⟨0, 0, 0, 0, 0, 0⟩ := by rw [hA]; exact (congrArg Cluster.skyC s.rest :)
  have hsk : A.sky = obsOf l := by rw [hA]
  have hsg : A.skyGc = p := by rw [hA]
  have gA : Good A := by rw [hA]; exact s3.newst rfl rfl rfl rfl
  have hst : A.st.length = (obsOf l).length := by rw [hA]; show T.base.st.length = _; rw [s1]
  have fr := fromRadec_fresh (g := g) hu ho hob hos
  obtain ⟨B, hB⟩ : ∃ B, fromRadec g A = .ok B := ⟨_, fr⟩
  rw [hB] at fr
  have fr := Except.ok.inj fr
  have gB : Good B := by
    refine gA.newst ?_ ?_ ?_ ?_
    · rw [fr]; show (A.sky.map g.ofSky).length = _; rw [List.length_map, hsk, hst]
    all_goals rw [fr]
  have uB : B.units = some .kpckms := by rw [fr]
  have oB : B.origin = some .galaxy := by rw [fr]
  have cB : B.c = g.ofSky ⟨0, 0, 0, 0, 0, 0⟩ := by
    rw [fr]; show fromRadecCentre g A = _
    simp only [fromRadecCentre, hx, hsc, Galpy.orbitOfSky]
  have stB : B.st = (obsOf l).map g.ofSky := by rw [fr]; show A.sky.map _ = _; rw [hsk]
  have gcB : B.gc = g.ofSky p := by rw [fr]; show g.ofSky A.skyGc = _; rw [hsg]
  obtain ⟨c1, h1, g1⟩ := analyze_total (s := true) (p := true) gB
  obtain ⟨q1, q2, q3, q4, q5, q6⟩ := analyze_same h1
  have hu1 : c1.units ≠ some .radec := by rw [q3, uB]; simp
  have ho1 : c1.origin = some .galaxy := q4.trans oB
  obtain ⟨c2, h2, g2⟩ := toCentre_total (s := true) (cm := none) hu1 g1
  refine ⟨T, c1, c2, h, ?_, q5.trans cB, h2, ?_⟩
  · rw [e, ← hA, toKpckms_radec hu hB uB]; exact h1
  · obtain ⟨ca, k1, k2⟩ := toCentre_galaxy ho1 hu1 h2
    have r := toCluster_galaxy_rows ho1 hu1 k1
    have cc : ca.c = c1.c := by
      simp only [toCluster, ho1, bind, setMethod, hu1, if_false] at k1
      simp only [ne_eq, reduceCtorEq, not_true, not_false_eq_true, if_true, if_false, Except.bind] at k1
      exact (analyze_same k1).2.2.2.2.1
    rw [(analyze_same k2).2.1]
    show ca.st.map (fun x => x.sub ca.c) = _
    rw [r, cc, q5, cB]
    simp only [inner, ho1, if_true]
    rw [q2, stB, q6, gcB, List.map_map, List.map_map]
    refine List.map_congr_left fun q _ => ?_
    rfl

/-- **C131 (violated: a later orbit).**  `add_orbit` has no lasting effect once the cluster has been on the sky: whenever an orbit is
cached, the position given to `add_orbit` is replaced by that of the cached orbit at the next `to_radec`. -/
theorem C131_later_orbit_violated {g : Galpy} {c : Cluster} (pos : Pos g c) (l : Lin c) (hg : Good c) {o : OrbitObj} {os : List OrbitObj}
    (h1 : c.orbit = some o) (h2 : c.orbits = some os) (hlen : os.length = c.m.length) (p : Ph) (ou : Option Units) :
    ∃ c', toRadec g true none true (addOrbit g p ou none c) = .ok c' ∧ c'.gc = o.sky := by
  obtain ⟨u, hu, hul⟩ := l.units
  have hr : c.units ≠ some .radec := by rw [hu]; rintro h; cases h; exact hul
  obtain ⟨q, hq⟩ : ∃ q, addOrbit g p ou none c = { c with gc := q } := by
    unfold addOrbit
    simp only [hr, if_false, Option.isSome_none, Bool.false_eq_true]
    exact ⟨_, rfl⟩
  rw [hq]
  obtain ⟨c', h, -, -, k⟩ := toRadec_cached (g := g) (c := { c with gc := q }) (pos.of_orbit rfl rfl rfl rfl) ⟨l.units, l.origin⟩
    (hg.newst rfl rfl rfl rfl) h1 h2 hlen
  exact ⟨c', h, k⟩

/-- **C131 (partial: N-body centres).**  For a cluster with a centre recorded in N-body length units (`xcn`), going to the sky and back to
`kpckms` gives that centre's position; but its velocity becomes zero. -/
theorem C131_nbody_centre_partial (g : Galpy) (S : Truth) (c : Cluster) (p : Pos g c) (l : Lin c) (hg : Good c)
    (hd : DescribesLinear g S c) (hc : CachesOf g S c) {a b d : ℝ} (hx : c.xcn = some (a, b, d)) :
    ∃ c' W, calls g [.toRadec true none true, .op (.toKpckms true)] c = .ok c' ∧ world g c' = some W ∧
      W.centre = ⟨a * S.nbody.2.1, b * S.nbody.2.1, d * S.nbody.2.1, 0, 0, 0⟩ := by
  obtain ⟨c1, h1, i1, -, -, x1⟩ := toRadec_lin ⟨p, l, hg, hd, hc⟩ true none true
  obtain ⟨c2, h2, i2, u2, o2, ce2⟩ := fromRadec_sky i1
  obtain ⟨c3, h3, i3, u3, o3⟩ := i2.analyzed true true
  have hk : toKpckms g true c1 = .ok c3 := by
    rw [toKpckms_radec i1.state.units h2 u2]; exact h3
  obtain ⟨W, hW, -⟩ := i3.desc
  refine ⟨c3, W, ?_, hW, ?_⟩
  · simp only [calls, Call.exec, Op.exec, h1, Except.bind, hk]
  · have e3 : c3.c = ⟨a * (c1.rbar / 1000), b * (c1.rbar / 1000), d * (c1.rbar / 1000), 0, 0, 0⟩ := by
      rw [(analyze_same h3).2.2.2.2.1, ce2]
      simp only [fromRadecCentre, x1.trans hx]
    have er : c1.rbar = S.nbody.2.1 := by rw [← i1.nbody]
    unfold world phys at hW
    rw [u3.trans u2, o3.trans o2] at hW
    simp only [unitScale, Option.some.injEq] at hW
    subst hW
    rw [e3, er]
    ext <;> simp [Scale.ph] <;> ring

end

end CT
