/- C161, C162: analysis functions called on clusters on the sky. -/
import Verif.Spec.SkyAnalysis
import Verif.Props.Sky
import Verif.Props.Relax

namespace CT

noncomputable section

theorem analyzed_keep {g : Galpy} {S : Truth} {c : Cluster} (h : SkyInv g S c) (s : Bool) {x : Except Err Cluster} {c0 : Cluster} (hx : x = .ok c0)
    (h0 : SkyInv g S c0) (k0 : SkyKeep c c0) {o : Origin} (ho : c0.origin = some o) :
    ∃ c', (x.bind fun c => analyze s c) = .ok c' ∧ SkyInv g S c' ∧ c'.origin = some o ∧ SkyKeep c c' := by
  obtain ⟨c', e, i, k, o', -⟩ := h0.analyzed s true
  exact ⟨c', by rw [hx]; exact e, i, o'.trans ho, k0.trans k⟩

theorem origin_inv {g : Galpy} {S : Truth} {c : Cluster} (h : SkyInv g S c) {o : Origin} (ho : o = .sky ∨ o = .cluster ∨ o = .centre) (s : Bool)
    (cm : Option CentreMethod) : ∃ c', toOrigin g o.target s cm c = .ok c' ∧ SkyInv g S c' ∧ c'.origin = some o ∧ SkyKeep c c' := by
  obtain ⟨o1, ho1⟩ : ∃ o', c.origin = some o' := by rcases h.state.origin with k | k | k <;> exact ⟨_, k⟩
  simp only [toOrigin, ho1, bind]
  rcases ho with rfl | rfl | rfl
  · obtain ⟨c', h', k, o', st', g', -⟩ := toSkyRadec_spec (s := s) h.state h.good
    exact analyzed_keep h s (by simp [Origin.target, toSky, ho1, h.state.units, h']) (h.of_keep k g' (.inl o') (fun _ => st')) k o'
  · obtain ⟨c', h', k, g', o', -⟩ := toCluster_sky (s := s) (cm := cm) h.state h.good
    exact analyzed_keep h s h' (h.of_keep k g' (.inr (.inl o')) (by rw [o']; simp)) k o'
  · obtain ⟨c', h', k, g', o', -⟩ := toCentre_sky (s := s) (cm := cm) h.state h.good
    exact analyzed_keep h s h' (h.of_keep k g' (.inr (.inr o')) (by rw [o']; simp)) k o'

theorem SkyInv.same {g : Galpy} {S : Truth} {c c' : Cluster} (h : SkyInv g S c) (h' : SkyInv g S c') (ho : c'.origin = c.origin) : SameSky c c' := by
  refine ⟨h'.state.units.trans h.state.units.symm, ho, h'.sky.trans h.sky.symm, h'.gcp.trans h.gcp.symm, h'.m.trans h.m.symm, ?_, ?_, h'.nbody.trans h.nbody.symm⟩
  · have := h'.time.trans h.time.symm
    linarith
  · intro k
    rw [h'.state.sky (ho.trans k), h.state.sky k, h'.sky, h.sky]

/-- What `return_cluster` does with a cluster that is on the sky already. -/
theorem return_from_sky {g : Galpy} {S : Truth} {c c2 : Cluster} (h : SkyInv g S c) (h2 : SkyInv g S c2) (s : Bool) (cm : Option CentreMethod) :
    ∃ c', returnCluster g (saveCluster c) s cm c2 = .ok c' ∧ SkyInv g S c' ∧ c'.origin = c.origin ∧ SkyKeep c2 c' := by
  obtain ⟨o, ho, ho'⟩ : ∃ o', c.origin = some o' ∧ (o' = .sky ∨ o' = .cluster ∨ o' = .centre) := by
    rcases h.state.origin with k | k | k
    · exact ⟨_, k, .inl rfl⟩
    · exact ⟨_, k, .inr (.inl rfl)⟩
    · exact ⟨_, k, .inr (.inr rfl)⟩
  obtain ⟨c3, h3, i3, o3, k3⟩ : ∃ c3, (if c2.origin ≠ some o then toOrigin g o.target s cm c2 else .ok c2) = .ok c3 ∧ SkyInv g S c3 ∧
      c3.origin = some o ∧ SkyKeep c2 c3 := by
    by_cases hq : c2.origin = some o
    · exact ⟨c2, by simp [hq], h2, hq, .refl _⟩
    · obtain ⟨c3, a, b, d, e⟩ := origin_inv h2 ho' s cm
      exact ⟨c3, by simp [hq, a], b, d, e⟩
  obtain ⟨d, hd⟩ : ∃ d : Cluster, d = { c3 with rorder := c.rorder, rorderOrigin := c.rorderOrigin } := ⟨_, rfl⟩
  have kd : SkyKeep c3 d := by rw [hd]; exact ⟨rfl, rfl, rfl, rfl, rfl, rfl⟩
  have hlen : c3.st.length = c.st.length := by rw [← i3.good.len, ← h.good.len, i3.m, h.m]
  have gd : Good d := by
    rw [hd]
    exact ⟨i3.good.ne, i3.good.len, i3.good.mass, fun q hq => by rw [hlen]; exact h.good.ro q hq, i3.good.rpo⟩
  have od : d.origin = c3.origin := by rw [hd]
  have sd : d.st = c3.st := by rw [hd]
  have id : SkyInv g S d := i3.of_keep kd gd (by rw [od]; exact i3.state.origin) (fun k => by rw [sd]; exact i3.state.sky (od ▸ k))
  obtain ⟨c', h', i', k', o', -⟩ := id.analyzed true true
  refine ⟨c', ?_, i', o'.trans (od.trans (o3.trans ho.symm)), (k3.trans kd).trans k'⟩
  unfold returnCluster saveCluster
  have hun : (c2.units ≠ c.units) = False := by rw [h2.state.units, h.state.units]; simp
  simp only [hun, if_false, ho, bind, Except.bind]
  by_cases hq : c2.origin = some o
  · simp only [hq, ne_eq, not_true_eq_false, if_false] at h3 ⊢
    cases h3
    rw [← h', hd]
    simp only [hq]
  · simp only [hq, ne_eq, not_false_eq_true, if_true] at h3 ⊢
    rw [h3]
    simp only
    rw [← h', hd]

/-- Back on the sky from any state. -/
theorem return_sky {g : Galpy} {S : Truth} {c c2 : Cluster} (h : SkyInv g S c) (h2 : Inv g S c2) (s : Bool) (cm : Option CentreMethod) :
    ∃ c', returnCluster g (saveCluster c) s cm c2 = .ok c' ∧ SkyInv g S c' ∧ c'.origin = c.origin ∧
      (∀ W, c2.units ≠ some .radec → world g c2 = some W → c'.c = g.toSky (kpcRow (phAdd W.gc W.centre)) ∧ c'.skyC = c'.c) ∧ c'.xcn = c2.xcn := by
  rcases h2 with h2 | h2
  · obtain ⟨u, hu, hul⟩ := h2.lin.units
    have hr : u ≠ .radec := by rintro rfl; exact hul
    obtain ⟨c3, h3, i3, -, e3, x3⟩ := toRadec_lin h2 false none true
    obtain ⟨c', h', i', o', k'⟩ := return_from_sky h i3 s cm
    refine ⟨c', ?_, i', o', fun W _ hW => ?_, ?_⟩
    · rw [← h']
      unfold returnCluster saveCluster
      have : toUnits g .radec c2 = .ok c3 := by simp [toUnits, hu, h3]
      simp only [hu, h.state.units, i3.state.units, ne_eq, Option.some.injEq, hr, not_false_eq_true, if_true, this, bind, Except.bind,
        not_true_eq_false, if_false]
    · obtain ⟨a, b⟩ := e3 W hW
      have : c'.skyC = c3.skyC := (congrArg Cluster.skyC k'.rest :)
      exact ⟨k'.ctr.trans a, by rw [this, b, k'.ctr]⟩
    · exact ((congrArg Cluster.xcn k'.rest :) : c'.xcn = c3.xcn).trans x3
  · obtain ⟨c', h', i', o', k'⟩ := return_from_sky h h2 s cm
    exact ⟨c', h', i', o', fun W k => absurd h2.state.units k, (congrArg Cluster.xcn k'.rest :)⟩

/-- **C161.**  A cluster that came to the sky by any history of calls: `save_cluster`, any further calls of conversions (leaving the sky, coming back,
recentring), `return_cluster` with what was saved.  None of it raises, and the cluster shows the same stars on the sky. -/
theorem C161_return {g : Galpy} {S : Truth} {c0 c : Cluster} {ks0 ks : List Call} (p : Pos g c0) (l : Lin c0) (hg : Good c0)
    (hd : DescribesLinear g S c0) (hc : CachesOf g S c0) (h0 : calls g ks0 c0 = .ok c) (hu : c.units = some .radec) (s : Bool)
    (cm : Option CentreMethod) :
    ∃ c2 c', calls g ks c = .ok c2 ∧ returnCluster g (saveCluster c) s cm c2 = .ok c' ∧ SameSky c c' ∧ DescribesSky g S c' := by
  obtain ⟨c1, h1, i1⟩ := calls_inv ks0 (.inl ⟨p, l, hg, hd, hc⟩)
  rw [h0] at h1; cases h1
  have i : SkyInv g S c := by
    rcases i1 with i | i
    · obtain ⟨u, hu', hul⟩ := i.lin.units
      rw [hu] at hu'; cases hu'; exact absurd hul id
    · exact i
  obtain ⟨c2, h2, i2⟩ := calls_inv ks (.inr i)
  obtain ⟨c', h', i', o', -⟩ := return_sky i i2 s cm
  exact ⟨c2, c', h2, h', i.same i' o', i'.desc⟩

/-! ### relaxation times on the sky -/

theorem toSkyRadec_order {c c0 : Cluster} {o : Origin} (ho : c.origin = some o) (hs : o ≠ .sky) (h : toSkyRadec true c = .ok c0) :
    c0.rorderOrigin = some .sky := by
  simp only [toSkyRadec, ho] at h
  obtain ⟨q, -, e, -⟩ := analyze_rorder_sorted h
  rw [e]
  have : (some o : Option Origin) ≠ some .sky := by simpa using hs
  simp [this]

theorem fromRadec_order {g : Galpy} {c c' : Cluster} {o : Origin} (hst : SkyState c) (hg : Good c) (ho : c.origin = some o) (hs : o ≠ .sky)
    (h : fromRadec g c = .ok c') : c'.rorderOrigin = some .sky ∧ c'.xcn = c.xcn := by
  obtain ⟨c0, h0, k0, o0, -⟩ := toSkyRadec_spec (s := true) hst hg
  have r0 := toSkyRadec_order ho hs h0
  have x0 : c0.xcn = c.xcn := (congrArg Cluster.xcn k0.rest :)
  have u0 : c0.units = some .radec := k0.units.trans hst.units
  have hs' : (some o : Option Origin) ≠ some .sky := by simpa using hs
  unfold fromRadec at h
  simp only [hst.units, ho, ne_eq, hs', not_false_eq_true, and_self, if_true, h0, bind, Except.bind, pure, Except.pure, u0, o0] at h
  rcases hb : c0.orbit with _ | b <;> rcases hos : c0.orbits with _ | os <;>
    simp only [hb, hos, initOrbitSky, initOrbitsSky] at h <;> injection h with h <;> subst h <;> exact ⟨r0, x0⟩

/-- Where the relaxation times work when the cluster is on the sky: in pc and km/s, at the Galactic centre. -/
theorem pcStart_sky {g : Galpy} {S : Truth} {c : Cluster} (h : SkyInv g S c) (ho : c.origin = some .sky) (hm : ∀ x ∈ S.mass, 0 ≤ x) :
    ∃ c2 R, pcStart g c = .ok c2 ∧ LinInv g S c2 ∧ c2.units = some .pckms ∧ c2.origin = some .galaxy ∧ c2.m = S.mass ∧ c2.st = S.stars ∧
      c2.c = (fromRadecCentre g c).mulPos 1000 ∧ c2.xcn = c.xcn ∧ c2.d.rm = some R ∧ IsMassRadius 0.5 S.mass (S.stars.map Ph.r) R := by
  obtain ⟨c1, h1, k1, g1, o1, -⟩ := toCentre_sky (s := true) (cm := none) h.state h.good
  have i1 : SkyInv g S c1 := h.of_keep k1 g1 (.inr (.inr o1)) (by rw [o1]; simp)
  obtain ⟨c2, h2, i2, u2⟩ := units_inv (.inr i1) (.toPckms true) rfl trivial
  have h2 : toPckms g true c1 = .ok c2 := h2
  obtain ⟨cF, hF, iF, uF, oF, ceF⟩ := fromRadec_sky i1
  obtain ⟨rF, xF⟩ := fromRadec_order i1.state i1.good o1 (by simp) hF
  obtain ⟨st, -, m, -⟩ := describes_kpc uF oF iF.desc
  have hk : toKpckms g false c1 = .ok cF := by rw [toKpckms_radec i1.state.units hF uF]; rfl
  have ha : analyze true (pckmsStep cF) = .ok c2 := by
    rw [← h2]
    simp only [toPckms, i1.state.units, or_true, true_or, if_true, hk, bind, Except.bind, analyzeIf]
  have hp : pckmsStep cF = { cF with
      tphys := cF.tphys * 1000
      st := cF.st.map (·.mulPos 1000)
      gc := cF.gc.mulPos 1000
      c := cF.c.mulPos 1000
      units := some .pckms } := by
    unfold pckmsStep
    rw [uF]
    simp
  obtain ⟨d, hd⟩ : ∃ d, d = pckmsStep cF := ⟨_, rfl⟩
  rw [← hd] at ha
  have dst : d.st = S.stars := by
    rw [hd, hp]
    show cF.st.map (·.mulPos 1000) = S.stars
    rw [st, List.map_map]
    conv_rhs => rw [← List.map_id S.stars]
    refine List.map_congr_left fun p _ => ?_
    ext <;> simp [kpcRow, Ph.mulPos]
  have dm : d.m = S.mass := by rw [hd, hp]; exact m
  have dor : d.origin = some .galaxy := by rw [hd, hp]; exact oF
  have dro : d.rorderOrigin = some .sky := by rw [hd, hp]; exact rF
  have dxc : d.xcn = c.xcn := by
    rw [hd, hp]
    exact xF.trans (congrArg Cluster.xcn k1.rest :)
  have dc : d.c = (fromRadecCentre g c).mulPos 1000 := by
    rw [hd, hp]
    show cF.c.mulPos 1000 = _
    rw [ceF]
    have e1 : c1.xcn = c.xcn := (congrArg Cluster.xcn k1.rest :)
    have e2 : c1.rbar = c.rbar := (congrArg Cluster.rbar k1.rest :)
    have e3 : c1.skyC = c.skyC := (congrArg Cluster.skyC k1.rest :)
    unfold fromRadecCentre
    rw [e1, e2, e3]
  have e := analyze_core ha
  have cst : c2.st = d.st := core_st e
  have cm : c2.m = d.m := (congrArg Cluster.m e :)
  have cor : c2.origin = d.origin := core_origin e
  have cxc : c2.xcn = d.xcn := (congrArg Cluster.xcn e :)
  have ccc : c2.c = d.c := (congrArg Cluster.c e :)
  have hlen : d.m.length = d.st.length := by rw [← cst, ← cm]; exact i2.good.len
  obtain ⟨R, _, hR, -, mR, -⟩ := C16_half_mass_radius true d c2 hlen (by rw [dm]; exact hm)
    (fun q _ hq => by rw [dro, dor] at hq; simp at hq) ha
  rw [dm, dst] at mR
  refine ⟨c2, R, ?_, i2, u2, cor.trans dor, cm.trans dm, cst.trans dst, ccc.trans dc, cxc.trans dxc, hR, mR⟩
  unfold pcStart
  simp only [ho, bind]
  rw [if_pos (by simp), h1]
  exact h2

/-- One call of `half_mass_relaxation_time` on the sky. -/
theorem half_mass_sky {g : Galpy} {S : Truth} {c : Cluster} (γ : ℝ) (h : SkyInv g S c) (ho : c.origin = some .sky) (hm : ∀ x ∈ S.mass, 0 ≤ x)
    (hM : 0 < S.mass.sum) :
    ∃ t c' R, halfMassRelaxationTime g γ false c = .ok (t, c') ∧ SkyInv g S c' ∧ c'.origin = some .sky ∧ c'.xcn = c.xcn ∧
      IsMassRadius 0.5 S.mass (S.stars.map Ph.r) R ∧ t * 1000 = spitzerHalfMass γ S.mass R ∧
      (∀ X, c.xcn = none → c.skyC = g.toSky (kpcRow X) → g.ofSky (g.toSky (kpcRow X)) = kpcRow X →
        c'.c = g.toSky (kpcRow (phAdd S.gc X)) ∧ c'.skyC = c'.c) := by
  obtain ⟨c2, R, h2, i2, u2, o2, m2, st2, ce2, x2, r2, mR⟩ := pcStart_sky h ho hm
  obtain ⟨c', h', i', o', hc', x'⟩ := return_sky h (.inl i2) false none
  have hR : 0 ≤ R := by
    obtain ⟨q, -, e⟩ := List.mem_map.mp mR.1
    rw [← e]; exact Real.sqrt_nonneg _
  have hn : c2.st.length = S.mass.length := by rw [← m2, i2.good.len]
  suffices k : ∃ t, halfMassRelaxationTime g γ false c = .ok (t, c') ∧ t * 1000 = spitzerHalfMass γ S.mass R by
    obtain ⟨t, k1, k2⟩ := k
    refine ⟨t, c', R, k1, i', o'.trans ho, x'.trans x2, mR, k2, fun X hx hX hinv => ?_⟩
    obtain ⟨W, hW, -, -, -, hgc, -⟩ := i2.desc
    have := hc' W (by rw [u2]; simp) hW
    rw [hgc] at this
    have ew : W.centre = X := by
      unfold world phys at hW
      rw [u2, o2] at hW
      simp only [unitScale, Option.some.injEq] at hW
      subst hW
      simp only [ce2, fromRadecCentre, hx, hX, Galpy.orbitOfSky, hinv]
      ext <;> simp [kpcRow, Scale.ph, Ph.mulPos]
    rw [ew] at this
    exact this
  unfold halfMassRelaxationTime
  simp only [bind, h2, Except.bind, attr, r2, Option.elim_some, h', pure, Except.pure, Bool.false_eq_true, if_false]
  refine ⟨_, rfl, ?_⟩
  simp only [i'.state.units, Option.elim_some, u2, getGrav, m2, hn]
  have hf := half_formula (γ := γ) (n := S.mass.length) hM hR
  have hcv : ∀ x : ℝ, convertTime g c' .pckms .radec x * 1000 = x := by
    intro x
    simp [convertTime, Units.isPc, Units.isKpc]
  rw [hcv]
  exact hf

/-- The state of a cluster brought to the sky from a linear one. -/
theorem on_sky {g : Galpy} {S : Truth} {c0 c : Cluster} {ks0 : List Call} (p : Pos g c0) (l : Lin c0) (hg : Good c0)
    (hd : DescribesLinear g S c0) (hc : CachesOf g S c0) (h0 : calls g ks0 c0 = .ok c) (hu : c.units = some .radec) : SkyInv g S c := by
  obtain ⟨c1, h1, i1⟩ := calls_inv ks0 (.inl ⟨p, l, hg, hd, hc⟩)
  rw [h0] at h1; cases h1
  rcases i1 with i | i
  · obtain ⟨u, hu', hul⟩ := i.lin.units
    rw [hu] at hu'; cases hu'; exact absurd hul id
  · exact i

/-- **C161 (relaxation time).**  `half_mass_relaxation_time` of a cluster on the sky does not raise and leaves the stars as they were on the sky. -/
theorem C161_half_mass {g : Galpy} {S : Truth} {c0 c : Cluster} {ks0 : List Call} (γ : ℝ) (p : Pos g c0) (l : Lin c0) (hg : Good c0)
    (hd : DescribesLinear g S c0) (hc : CachesOf g S c0) (h0 : calls g ks0 c0 = .ok c) (hu : c.units = some .radec) (ho : c.origin = some .sky)
    (hm : ∀ x ∈ S.mass, 0 ≤ x) (hM : 0 < S.mass.sum) :
    ∃ t c', halfMassRelaxationTime g γ false c = .ok (t, c') ∧ SameSky c c' ∧ DescribesSky g S c' := by
  have i := on_sky p l hg hd hc h0 hu
  obtain ⟨t, c', R, h, i', o', -⟩ := half_mass_sky γ i ho hm hM
  exact ⟨t, c', h, i.same i' (o'.trans ho.symm), i'.desc⟩

/-- **C162 is violated: the wrong radius.**  The half-mass relaxation time of a cluster on the sky, in Gyr, is Spitzer's for the half-mass radius of its
stars *about the Galactic centre*: if no star is nearer to it than `D`, for a radius of at least `D`, however compact the cluster. -/
theorem C162_radius_violated {g : Galpy} {S : Truth} {c0 c : Cluster} {ks0 : List Call} {D : ℝ} (γ : ℝ) (p : Pos g c0) (l : Lin c0) (hg : Good c0)
    (hd : DescribesLinear g S c0) (hc : CachesOf g S c0) (h0 : calls g ks0 c0 = .ok c) (hu : c.units = some .radec) (ho : c.origin = some .sky)
    (hm : ∀ x ∈ S.mass, 0 ≤ x) (hM : 0 < S.mass.sum) (hD : ∀ q ∈ S.stars, D ≤ q.r) :
    ∃ t c' R, halfMassRelaxationTime g γ false c = .ok (t, c') ∧ IsMassRadius 0.5 S.mass (S.stars.map Ph.r) R ∧ D ≤ R ∧
      t * 1000 = spitzerHalfMass γ S.mass R := by
  have i := on_sky p l hg hd hc h0 hu
  obtain ⟨t, c', R, h, -, -, -, mR, hT, -⟩ := half_mass_sky γ i ho hm hM
  refine ⟨t, c', R, h, mR, ?_, hT⟩
  obtain ⟨q, hq, e⟩ := List.mem_map.mp mR.1
  rw [← e]; exact hD q hq

/-- **C162 is violated: the centre wanders.**  Bring a cluster to the sky and ask for its half-mass relaxation time `n` times: the stored centre has moved
from the sky position of the cluster's centre to that of the point `n` times the cluster's own galactocentric position further. -/
theorem C162_centre_violated {g : Galpy} {S : Truth} {c0 : Cluster} {W : World} (γ : ℝ) (n : ℕ) (p : Pos g c0) (l : Lin c0) (hg : Good c0)
    (hd : DescribesLinear g S c0) (hc : CachesOf g S c0) (hinv : ∀ q, g.ofSky (g.toSky q) = q) (hx : c0.xcn = none) (hW : world g c0 = some W)
    (hgal : c0.origin = some .galaxy) (hm : ∀ x ∈ S.mass, 0 ≤ x) (hM : 0 < S.mass.sum) :
    ∃ c c', toRadec g true none true c0 = .ok c ∧ c.c = g.toSky (kpcRow (phAdd S.gc W.centre)) ∧ askTimes g γ n c = .ok c' ∧
      SameSky c c' ∧ c'.c = g.toSky (kpcRow (addTimes n S.gc (phAdd S.gc W.centre))) := by
  obtain ⟨c, h, i, o, e, x⟩ := toRadec_lin ⟨p, l, hg, hd, hc⟩ true none true
  obtain ⟨e1, e2⟩ := e W hW
  obtain ⟨W', hW', -, -, -, hgc, -⟩ := hd
  rw [hW] at hW'
  cases hW'
  rw [hgc] at e1
  rw [if_pos hgal] at o
  have key : ∀ (n : ℕ) (c : Cluster) (X : Ph), SkyInv g S c → c.origin = some .sky → c.xcn = none → c.c = g.toSky (kpcRow X) → c.skyC = c.c →
      ∃ c', askTimes g γ n c = .ok c' ∧ SkyInv g S c' ∧ c'.origin = some .sky ∧ c'.c = g.toSky (kpcRow (addTimes n S.gc X)) := by
    have comm : ∀ (n : ℕ) (a X : Ph), addTimes n a (phAdd a X) = phAdd a (addTimes n a X) := by
      intro n a X
      induction n with
      | zero => rfl
      | succ n ih => simp only [addTimes, ih]
    intro n
    induction n with
    | zero => exact fun c X i o _ hX _ => ⟨c, rfl, i, o, hX⟩
    | succ n ih =>
      intro c X i o hx hX hs
      obtain ⟨t, c1, R, h1, i1, o1, x1, -, -, k⟩ := half_mass_sky γ i o hm hM
      obtain ⟨k1, k2⟩ := k X hx (hs.trans hX) (hinv _)
      obtain ⟨c', h', i', o', k'⟩ := ih c1 (phAdd S.gc X) i1 o1 (x1.trans hx) k1 k2
      refine ⟨c', ?_, i', o', by rw [k', comm]; rfl⟩
      simp only [askTimes, h1, Except.bind]
      exact h'
  obtain ⟨c', h', i', o', k'⟩ := key n c (phAdd S.gc W.centre) i o (x.trans hx) e1 e2
  exact ⟨c, c', h, e1, h', i.same i' (o'.trans o.symm), k'⟩

/-! ### witnesses -/

/-- The demo cluster seen from the Galactic centre. -/
def demoGalaxy : Cluster :=
  { demo with
    origin := some .galaxy
    st := [⟨8003, 0, 24, 1, 220, 0⟩, ⟨8000, 1, 20, 0, 218, 5⟩] }

def demoGalaxyTruth : Truth :=
  ⟨12, [1, 3], [⟨8003, 0, 24, 1, 220, 0⟩, ⟨8000, 1, 20, 0, 218, 5⟩], ⟨8000, 0, 20, 0, 220, 0⟩, (4, 2, 0.1, 20)⟩

theorem demoGalaxy_pos : Pos demoG demoGalaxy :=
  ⟨demo_pos.rbar, demo_pos.vbar, demo_pos.zmbar, demo_pos.tbar, demo_pos.ro, demo_pos.vo, demo_pos.time, demo_pos.mass, demo_pos.vel⟩

theorem demoGalaxy_lin : Lin demoGalaxy := ⟨⟨_, rfl, trivial⟩, ⟨_, rfl, trivial⟩⟩

theorem demoGalaxy_good : Good demoGalaxy :=
  ⟨by simp [demoGalaxy], by simp [demoGalaxy, demo], demo_good.mass, demo_good.ro, demo_good.rpo⟩

theorem demoGalaxy_desc : DescribesLinear demoG demoGalaxyTruth demoGalaxy := by
  unfold DescribesLinear world phys
  simp only [demoGalaxy, demo, unitScale, demoGalaxyTruth]
  refine ⟨_, rfl, ?_, ?_, ?_, ?_, by simp⟩ <;> norm_num [galRows, galactocentric, phAdd, Scale.ph]

theorem demoGalaxy_caches : CachesOf demoG demoGalaxyTruth demoGalaxy :=
  ⟨fun _ h => by simp [demoGalaxy, demo] at h, fun _ h => by simp [demoGalaxy, demo] at h⟩

/-- `C161_return`, `C161_half_mass` and `C162_radius_violated`: two stars about 5 pc apart, and a radius of at least 8 kpc. -/
example : ∃ c t c' R, calls demoG [.toSky true none] demoGalaxy = .ok c ∧ halfMassRelaxationTime demoG 0.4 false c = .ok (t, c') ∧ SameSky c c' ∧
    8000 ≤ R ∧ t * 1000 = spitzerHalfMass 0.4 [1, 3] R := by
  obtain ⟨c, h, i, o⟩ := toSky_inv (.inl ⟨demoGalaxy_pos, demoGalaxy_lin, demoGalaxy_good, demoGalaxy_desc, demoGalaxy_caches⟩) true none
  have h0 : calls demoG [.toSky true none] demoGalaxy = .ok c := by simp [calls, Call.exec, h, Except.bind]
  have hm : ∀ x ∈ demoGalaxyTruth.mass, 0 ≤ x := by simp [demoGalaxyTruth]
  have hM : 0 < demoGalaxyTruth.mass.sum := by norm_num [demoGalaxyTruth]
  obtain ⟨t, c', h1, h2, -⟩ := C161_half_mass 0.4 demoGalaxy_pos demoGalaxy_lin demoGalaxy_good demoGalaxy_desc demoGalaxy_caches h0 i.state.units o hm hM
  obtain ⟨t', c'', R, k1, -, k2, k3⟩ := C162_radius_violated (D := 8000) 0.4 demoGalaxy_pos demoGalaxy_lin demoGalaxy_good demoGalaxy_desc
    demoGalaxy_caches h0 i.state.units o hm hM (by
      intro q hq
      have : q = ⟨8003, 0, 24, 1, 220, 0⟩ ∨ q = ⟨8000, 1, 20, 0, 218, 5⟩ := by simpa [demoGalaxyTruth] using hq
      rcases this with rfl | rfl <;> exact Real.le_sqrt_of_sq_le (by norm_num))
  rw [h1] at k1
  cases k1
  exact ⟨c, t, c', R, h0, h1, h2, k2, k3⟩

example : ∃ c c', toRadec demoG true none true demoGalaxy = .ok c ∧ askTimes demoG 0.4 3 c = .ok c' ∧ SameSky c c' ∧
    c'.c = demoG.toSky (kpcRow (addTimes 3 demoGalaxyTruth.gc (phAdd demoGalaxyTruth.gc demo.c))) := by
  obtain ⟨W, hW⟩ := world_isSome (g := demoG) (c := demoGalaxy) (u := .pckms) (o := .galaxy) rfl trivial rfl
  obtain ⟨c, c', h1, -, h2, h3, h4⟩ := C162_centre_violated 0.4 3 demoGalaxy_pos demoGalaxy_lin demoGalaxy_good demoGalaxy_desc demoGalaxy_caches
    (by intro q; rfl) rfl hW rfl (by simp [demoGalaxyTruth]) (by norm_num [demoGalaxyTruth])
  have : W.centre = demo.c := by
    unfold world phys at hW
    simp only [demoGalaxy, demo, unitScale, Option.some.injEq] at hW
    subst hW
    ext <;> simp [Scale.ph, demo]
  rw [this] at h4
  exact ⟨c, c', h1, h2, h3, h4⟩

end

end CT
