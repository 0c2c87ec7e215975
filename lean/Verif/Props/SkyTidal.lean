/- The tidal radius of a cluster in `radec` units. -/
import Verif.Spec.SkyTidal
import Verif.Props.SkyAnalysis
import Verif.Props.Tidal

namespace CT

noncomputable section

theorem describes_galpy {g : Galpy} {S : Truth} {c : Cluster} (hu : c.units = some .galpy) (ho : c.origin = some .galaxy)
    (h : DescribesLinear g S c) :
    c.m.map (· * g.massMsol) = S.mass ∧ c.st.map (Scale.ph ⟨1000 * g.ro, g.vo, g.massMsol, 1000 * g.timeGyr⟩) = S.stars ∧
      Scale.ph ⟨1000 * g.ro, g.vo, g.massMsol, 1000 * g.timeGyr⟩ c.gc = S.gc := by
  obtain ⟨W, hw, h1, h2, h3, h4, -⟩ := h
  unfold world phys at hw
  rw [hu, ho] at hw
  simp only [unitScale, Option.some.injEq] at hw
  subst hw
  refine ⟨h2, ?_, h4⟩
  simp only [galRows, galactocentric] at h3
  exact List.map_injective_iff.mpr (Option.some_injective Ph) h3

theorem Scale.ph_r (s : Scale) (hs : 0 ≤ s.len) (p : Ph) : (s.ph p).r = p.r * s.len := by
  simp only [Ph.r, Scale.ph]
  rw [mul_sqrt hs]
  congr 1
  ring

/-- Where `rtidal` works when the cluster is on the sky: in galpy units, at the Galactic centre. -/
theorem galpy_sky {g : Galpy} {S : Truth} {c : Cluster} (h : SkyInv g S c) :
    ∃ c1 c2, profStart g false false c = .ok c1 ∧ toGalpy g c1 = .ok c2 ∧ LinInv g S c2 ∧ c2.units = some .galpy ∧
      c2.m.map (· * g.massMsol) = S.mass ∧ c2.d.r.map (· * (1000 * g.ro)) = S.stars.map Ph.r ∧
      Scale.ph ⟨1000 * g.ro, g.vo, g.massMsol, 1000 * g.timeGyr⟩ c2.gc = S.gc ∧
      c2.c = ((fromRadecCentre g c).divPos g.ro).divVel g.vo := by
  obtain ⟨c1, h1, i1, k1⟩ : ∃ c1, profStart g false false c = .ok c1 ∧ SkyInv g S c1 ∧ SkyKeep c c1 := by
    unfold profStart
    simp only [h.state.units, bind, Except.bind, Bool.false_eq_true, if_false]
    rw [if_neg (by simp)]
    split
    · obtain ⟨c1, h1, k1, g1, o1, -⟩ := toCentre_sky (s := false) (cm := none) h.state h.good
      exact ⟨c1, h1, h.of_keep k1 g1 (.inr (.inr o1)) (by rw [o1]; simp), k1⟩
    · exact ⟨c, rfl, h, .refl _⟩
  obtain ⟨c2, h2, i2, u2⟩ := units_inv (.inr i1) .toGalpy rfl trivial
  have h2 : toGalpy g c1 = .ok c2 := h2
  obtain ⟨cF, hF, iF, uF, oF, ceF⟩ := fromRadec_sky i1
  have hk : toKpckms g false c1 = .ok cF := by rw [toKpckms_radec i1.state.units hF uF]; rfl
  obtain ⟨d, hd⟩ : ∃ d, d = galpyStep g cF := ⟨_, rfl⟩
  have ha : analyze true d = .ok c2 := by
    rw [← h2, hd]
    simp [toGalpy, i1.state.units, hk, bind, Except.bind]
  have dor : d.origin = some .galaxy := by rw [hd]; simp [galpyStep, uF, oF]
  have dc : d.c = ((fromRadecCentre g c).divPos g.ro).divVel g.vo := by
    have e1 : c1.xcn = c.xcn := (congrArg Cluster.xcn k1.rest :)
    have e2 : c1.rbar = c.rbar := (congrArg Cluster.rbar k1.rest :)
    have e3 : c1.skyC = c.skyC := (congrArg Cluster.skyC k1.rest :)
    rw [hd]
    simp only [galpyStep, uF, if_true, ceF]
    unfold fromRadecCentre
    rw [e1, e2, e3]
  have e := analyze_core ha
  obtain ⟨-, _, _, _, _, hdr⟩ := analyze_d ha
  obtain ⟨hm, hs, hgc⟩ := describes_galpy u2 ((core_origin e).trans dor) i2.desc
  refine ⟨c1, c2, h1, h2, i2, u2, hm, ?_, hgc, (congrArg Cluster.c e :).trans dc⟩
  rw [hdr, ← hs, ← core_st e, List.map_map, List.map_map]
  refine List.map_congr_left fun p _ => ?_
  exact (Scale.ph_r ⟨1000 * g.ro, g.vo, g.massMsol, 1000 * g.timeGyr⟩ (by have := i2.pos.ro; positivity) p).symm

theorem arctan2_pos {y x : ℝ} (hx : 0 < x) : arctan2 y x = Real.arctan (y / x) := by
  unfold arctan2
  have h := abs_lt.mp (Complex.abs_arg_lt_pi_div_two_iff (z := ⟨x, y⟩).mpr (.inl hx))
  have ht : Real.tan (Complex.arg ⟨x, y⟩) = y / x := Complex.tan_arg _
  rw [← ht, Real.arctan_tan h.1 h.2]

/-- The point at which the potential is evaluated. -/
theorem tide_pos_sky {g : Galpy} {c2 : Cluster} (hro : 0 < g.ro) (a : TideArgs) {p q : Ph}
    (hp : (if a.fromCentre then (⟨c2.gc.x + c2.c.x, c2.gc.y + c2.c.y, c2.gc.z + c2.c.z, 0, 0, 0⟩ : Ph) else c2.gc) = q)
    (hx : q.x * (1000 * g.ro) = p.x) (hy : q.y * (1000 * g.ro) = p.y) (hz : q.z * (1000 * g.ro) = p.z) :
    tideR g a c2 = (tideAtPos a p).1 / g.ro ∧ tideZ g a c2 = (tideAtPos a p).2 / g.ro := by
  have hL : 0 ≤ 1000 * g.ro := by positivity
  have eR : Real.sqrt (q.x ^ 2 + q.y ^ 2) = Real.sqrt (p.x ^ 2 + p.y ^ 2) / 1000 / g.ro := by
    rw [← hx, ← hy, show (q.x * (1000 * g.ro)) ^ 2 + (q.y * (1000 * g.ro)) ^ 2 = (q.x ^ 2 + q.y ^ 2) * (1000 * g.ro) ^ 2 by ring,
      ← mul_sqrt hL]
    field_simp
  have eZ : q.z = p.z / 1000 / g.ro := by rw [← hz]; field_simp
  unfold tideR tideZ tideAtPos
  refine ⟨?_, ?_⟩
  · rcases a.rgc with _ | R <;> simp only [Option.elim, Option.getD]
    rw [← eR, ← hp]
    split <;> rfl
  · rcases a.zgc with _ | z <;> simp only [Option.elim, Option.getD]
    rw [← eZ, ← hp]
    split <;> rfl

/-- `rtidal` on the sky, for all its options. -/
theorem rtidal_sky {g : Galpy} {S : Truth} {tide : ℝ → ℝ → ℝ → ℝ} {a : TideArgs} {c : Cluster} {P : Ph} (h : SkyInv g S c)
    (hD : 0 < (g.toSky (kpcRow S.gc)).z)
    (hP : P = if a.fromCentre then phAdd ((fromRadecCentre g c).mulPos 1000) S.gc else S.gc) :
    ∃ c' w f r, rtidal g tide a none c = .ok (seenAngle (w.1 * (1000 * g.ro)) (g.toSky (kpcRow S.gc)).z, none, c') ∧
      SkyInv g S c' ∧ c'.origin = c.origin ∧ (∀ M, f (M / g.massMsol) * (1000 * g.ro) = tidePc g tide (tideAtPos a P) M) ∧
      r.map (· * (1000 * g.ro)) = S.stars.map Ph.r ∧
      w = tideLoop f a.converge (S.mass.map (· / g.massMsol)) r a.iterate (f (S.mass.sum / g.massMsol))
        (List.replicate S.mass.length true) := by
  obtain ⟨c1, c2, h1, h2, i2, u2, m2, r2, gc2, ce2⟩ := galpy_sky h
  obtain ⟨c', h', i', o', -⟩ := return_sky h (.inl i2) false none
  have hro := i2.pos.ro
  have hmm := i2.pos.mass
  have em : c2.m = S.mass.map (· / g.massMsol) := by
    rw [← m2, List.map_map]
    conv_lhs => rw [← List.map_id c2.m]
    refine List.map_congr_left fun x _ => ?_
    simp only [id, Function.comp]
    field_simp
  have eP : tideR g a c2 = (tideAtPos a P).1 / g.ro ∧ tideZ g a c2 = (tideAtPos a P).2 / g.ro := by
    refine tide_pos_sky hro a rfl ?_ ?_ ?_ <;> rw [hP] <;> split <;> rw [← gc2] <;>
      simp only [phAdd, Scale.ph, Ph.mulPos, ce2, Ph.divPos, Ph.divVel] <;> field_simp <;> ring
  have hs : c2.m.sum = S.mass.sum / g.massMsol := by
    rw [em]
    simp only [div_eq_mul_inv]
    rw [List.sum_map_mul_right, List.map_id']
  have hmask : ∀ l : List ℝ, maskSel (List.replicate l.length true) l = l := by
    intro l
    induction l with
    | nil => rfl
    | cons x l ih => simpa [maskSel, List.replicate_succ] using ih
  refine ⟨c', _, tide ((tideAtPos a P).1 / g.ro) ((tideAtPos a P).2 / g.ro), c2.d.r, ?_, i', o', fun M => rfl, r2, rfl⟩
  unfold rtidal
  have h2' : toGalpy g c1 = .ok c2 := h2
  simp only [bind, Except.bind, h1, h2', Option.getD_none, List.length_replicate, ne_eq, not_true_eq_false, if_false, pure, Except.pure, h',
    Option.map_none, i'.state.units, Option.elim_some]
  have hl : c2.m.length = S.mass.length := by rw [em, List.length_map]
  have hf : ∀ x : ℝ, convertLength g c' .galpy .radec x = seenAngle (x * (1000 * g.ro)) (g.toSky (kpcRow S.gc)).z := by
    intro x
    have e : x * g.ro / (g.toSky (kpcRow S.gc)).z = x * (1000 * g.ro) / 1000 / (g.toSky (kpcRow S.gc)).z := by
      congr 1; ring
    simp only [convertLength, Units.isPc, Units.isKpc, i'.gcp, arctan2_pos hD, e, degrees, seenAngle]
    simp
  rw [hf, eP.1, eP.2, hmask, hs, hl, em]

/-- **C163.**  On the sky, `rtidal` without iteration gives the angle under which the tidal radius of the whole cluster at its galactocentric
position is seen, and leaves the cluster as it was on the sky. -/
theorem C163_angle {g : Galpy} {S : Truth} {tide : ℝ → ℝ → ℝ → ℝ} {a : TideArgs} {c0 c : Cluster} {ks0 : List Call} (p : Pos g c0) (l : Lin c0)
    (hg : Good c0) (hd : DescribesLinear g S c0) (hc : CachesOf g S c0) (h0 : calls g ks0 c0 = .ok c) (hu : c.units = some .radec)
    (hD : 0 < (g.toSky (kpcRow S.gc)).z) (hi : a.iterate = 0) (hf : a.fromCentre = false) :
    ∃ c', rtidal g tide a none c = .ok (seenAngle (tidePc g tide (tideAtPos a S.gc) S.mass.sum) (g.toSky (kpcRow S.gc)).z, none, c') ∧
      SameSky c c' ∧ DescribesSky g S c' := by
  have i := on_sky p l hg hd hc h0 hu
  obtain ⟨c', w, f, r, h, i', o', ef, -, hw⟩ := rtidal_sky (tide := tide) (a := a) (P := S.gc) i hD (by simp [hf])
  refine ⟨c', ?_, i.same i' o', i'.desc⟩
  rw [h, ← ef, hw, hi]
  rfl

/-- **C164 is violated: iterating loses the cluster.**  With at least one iteration the answer is zero as soon as the stars are at least as far from
the Galactic centre as the first estimate, however small the cluster is. -/
theorem C164_iterate_violated {g : Galpy} {S : Truth} {tide : ℝ → ℝ → ℝ → ℝ} {a : TideArgs} {c0 c : Cluster} {ks0 : List Call} (p : Pos g c0)
    (l : Lin c0) (hg : Good c0) (hd : DescribesLinear g S c0) (hc : CachesOf g S c0) (h0 : calls g ks0 c0 = .ok c) (hu : c.units = some .radec)
    (hD : 0 < (g.toSky (kpcRow S.gc)).z) (t0 : ∀ R z, tide R z 0 = 0) (hi : a.iterate ≠ 0) (hf : a.fromCentre = false)
    (far : ∀ q ∈ S.stars, tidePc g tide (tideAtPos a S.gc) S.mass.sum ≤ q.r) :
    ∃ c', rtidal g tide a none c = .ok (0, none, c') ∧ SameSky c c' := by
  have i := on_sky p l hg hd hc h0 hu
  obtain ⟨c', w, f, r, h, i', o', ef, er, hw⟩ := rtidal_sky (tide := tide) (a := a) (P := S.gc) i hD (by simp [hf])
  refine ⟨c', ?_, i.same i' o'⟩
  have hL : 0 < 1000 * g.ro := by have := i.pos.ro; positivity
  obtain ⟨k, hk⟩ := Nat.exists_eq_succ_of_ne_zero hi
  have hr : ∀ x ∈ r, f (S.mass.sum / g.massMsol) ≤ x := by
    intro x hx
    have : x * (1000 * g.ro) ∈ S.stars.map Ph.r := by rw [← er]; exact List.mem_map_of_mem hx
    obtain ⟨q, hq, e⟩ := List.mem_map.mp this
    have := far q hq
    rw [← ef, e] at this
    exact le_of_mul_le_mul_right this hL
  have fz : f 0 = 0 := by
    have := ef 0
    simp only [zero_div, tidePc, t0, zero_mul] at this
    exact (mul_eq_zero.mp this).resolve_right hL.ne'
  have none_in : ∀ (w : List Bool), (maskSel (List.zipWith and w (r.map (fun x => decide (x < f (S.mass.sum / g.massMsol)))))
      (S.mass.map (· / g.massMsol))).sum = 0 := by
    intro w
    have hall : ∀ b ∈ List.zipWith and w (r.map (fun x => decide (x < f (S.mass.sum / g.massMsol)))), b = false := by
      intro b hb
      obtain ⟨j, hj, e⟩ := List.getElem_of_mem hb
      rw [List.getElem_zipWith, List.getElem_map] at e
      rw [← e, decide_eq_false (not_lt.mpr (hr _ (List.getElem_mem _))), Bool.and_false]
    have : ∀ (u : List Bool) (m : List ℝ), (∀ b ∈ u, b = false) → maskSel u m = [] := by
      intro u m hu
      unfold maskSel
      rw [List.map_eq_nil_iff, List.filter_eq_nil_iff]
      intro x hx
      rw [hu x.1 (List.of_mem_zip hx).1]
      simp
    rw [this _ _ hall]
    rfl
  have : w.1 = 0 := by
    rw [hw, hk, tideLoop]
    simp only [none_in, fz, if_true]
  rw [h, this]
  simp [seenAngle]

/-- **C164 is violated: `from_centre` doubles the distance.**  With the cluster's position on the sky stored as such, the potential is evaluated at the
galactocentric position of the cluster's centre *plus* that of the cluster, instead of at the cluster's centre. -/
theorem C164_from_centre_violated {g : Galpy} {S : Truth} {tide : ℝ → ℝ → ℝ → ℝ} {a : TideArgs} {c0 : Cluster} {W : World} (p : Pos g c0)
    (l : Lin c0) (hg : Good c0) (hd : DescribesLinear g S c0) (hc : CachesOf g S c0) (hW : world g c0 = some W) (hx : c0.xcn = none)
    (hinv : ∀ q, g.ofSky (g.toSky q) = q) (hD : 0 < (g.toSky (kpcRow S.gc)).z) (hi : a.iterate = 0) (hf : a.fromCentre = true) :
    ∃ c c', toRadec g true none true c0 = .ok c ∧
      rtidal g tide a none c = .ok (seenAngle (tidePc g tide (tideAtPos a (phAdd (phAdd S.gc W.centre) S.gc)) S.mass.sum)
        (g.toSky (kpcRow S.gc)).z, none, c') ∧ SameSky c c' := by
  obtain ⟨c, h, i, o, e, x⟩ := toRadec_lin ⟨p, l, hg, hd, hc⟩ true none true
  obtain ⟨e1, e2⟩ := e W hW
  have hgc : W.gc = S.gc := by
    obtain ⟨W', hW', -, -, -, hgc, -⟩ := hd
    rw [hW] at hW'
    cases hW'
    exact hgc
  rw [hgc] at e1
  have ec : (fromRadecCentre g c).mulPos 1000 = phAdd S.gc W.centre := by
    unfold fromRadecCentre
    rw [x, hx]
    simp only [Galpy.orbitOfSky, e2, e1, hinv]
    ext <;> simp [kpcRow, Ph.mulPos]
  obtain ⟨c', w, f, r, hr, i', o', ef, -, hw⟩ := rtidal_sky (tide := tide) (a := a) (P := phAdd (phAdd S.gc W.centre) S.gc) i hD
    (by simp [hf, ec])
  refine ⟨c, c', h, ?_, i.same i' o'⟩
  rw [hr, ← ef, hw, hi]
  rfl

/-! ### witnesses -/

/-- A tidal radius of 3.6 pc for the demo cluster: without iteration its angle, with iteration zero although the stars are 5 pc apart, and with
`from_centre` the angle for a point 16 kpc away. -/
example : ∃ c c1 c2 c' c3, calls demoG [.toSky true none] demoGalaxy = .ok c ∧
    rtidal demoG (fun _ _ M => 1e7 * M) {} none c =
      .ok (seenAngle (tidePc demoG (fun _ _ M => 1e7 * M) (Real.sqrt (8000 ^ 2 + 0 ^ 2) / 1000, 20 / 1000) 4) (20 / 1000), none, c1) ∧
    rtidal demoG (fun _ _ M => 1e7 * M) { iterate := 1 } none c = .ok (0, none, c2) ∧ SameSky c c2 ∧
    toRadec demoG true none true demoGalaxy = .ok c' ∧
    rtidal demoG (fun R _ M => R * M) { fromCentre := true } none c' =
      .ok (seenAngle (tidePc demoG (fun R _ M => R * M) (Real.sqrt (16001 ^ 2 + 2 ^ 2) / 1000, 43 / 1000) 4) (20 / 1000), none, c3) := by
  obtain ⟨c, h, i, o⟩ := toSky_inv (.inl ⟨demoGalaxy_pos, demoGalaxy_lin, demoGalaxy_good, demoGalaxy_desc, demoGalaxy_caches⟩) true none
  have h0 : calls demoG [.toSky true none] demoGalaxy = .ok c := by simp [calls, Call.exec, h, Except.bind]
  have hz : (demoG.toSky (kpcRow demoGalaxyTruth.gc)).z = 20 / 1000 := rfl
  have hD : 0 < (demoG.toSky (kpcRow demoGalaxyTruth.gc)).z := by rw [hz]; norm_num
  have hm : demoGalaxyTruth.mass.sum = 4 := by norm_num [demoGalaxyTruth]
  obtain ⟨c1, h1, -⟩ := C163_angle (tide := fun _ _ M => 1e7 * M) (a := {}) demoGalaxy_pos demoGalaxy_lin demoGalaxy_good demoGalaxy_desc
    demoGalaxy_caches h0 i.state.units hD rfl rfl
  obtain ⟨c2, h2, s2⟩ := C164_iterate_violated (tide := fun _ _ M => 1e7 * M) (a := { iterate := 1 }) demoGalaxy_pos demoGalaxy_lin
    demoGalaxy_good demoGalaxy_desc demoGalaxy_caches h0 i.state.units hD (by simp) (by simp) rfl (by
      intro q hq
      have : q = ⟨8003, 0, 24, 1, 220, 0⟩ ∨ q = ⟨8000, 1, 20, 0, 218, 5⟩ := by simpa [demoGalaxyTruth] using hq
      rw [hm]
      rcases this with rfl | rfl <;> exact Real.le_sqrt_of_sq_le (by norm_num [tidePc, demoG]))
  obtain ⟨W, hW⟩ := world_isSome (g := demoG) (c := demoGalaxy) (u := .pckms) (o := .galaxy) rfl trivial rfl
  have hc : W.centre = demo.c := by
    unfold world phys at hW
    simp only [demoGalaxy, demo, unitScale, Option.some.injEq] at hW
    subst hW
    ext <;> simp [Scale.ph, demo]
  obtain ⟨c', c3, h3, h4, -⟩ := C164_from_centre_violated (tide := fun R _ M => R * M) (a := { fromCentre := true }) demoGalaxy_pos demoGalaxy_lin
    demoGalaxy_good demoGalaxy_desc demoGalaxy_caches hW rfl (by intro q; rfl) hD rfl rfl
  have e : tideAtPos { fromCentre := true } (phAdd (phAdd demoGalaxyTruth.gc W.centre) demoGalaxyTruth.gc) =
      (Real.sqrt (16001 ^ 2 + 2 ^ 2) / 1000, 43 / 1000) := by
    rw [hc]
    norm_num [tideAtPos, phAdd, demoGalaxyTruth, demo]
  rw [e, hm, hz] at h4
  rw [hm, hz] at h1
  exact ⟨c, c1, c2, c', c3, h0, h1, h2, s2, h3, h4⟩

end

end CT
