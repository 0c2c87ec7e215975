/- C171, C172: stars matched to the path of the cluster on the sky. -/
import Verif.Model.SkyPath
import Verif.Spec.SkyPath
import Verif.Props.PathMatch
import Verif.Props.SkyAnalysis
import Verif.Props.SkyTidal

namespace CT

noncomputable section

set_option linter.unusedSimpArgs false

theorem matched_on_sky {path : List PathPt} {i0 k y : ℕ} {p : Ph} {m : Matched} (hi : Present path i0)
    (hk : Nearest true (fun j => (path[j]!).p) path.length p k)
    (hy : y < path.length ∧ ∀ j < path.length, |(path[y]!).p.y - p.y| ≤ |(path[j]!).p.y - p.y|) (ht : m.t = (path[k]!).t)
    (hx : m.dprog = (progress true path)[k]! - (progress true path)[i0]!)
    (hd : m.dpath = (distOf true false path k p).map (· * signOf true path k y p)) :
    ∃ d, m.dpath = some d ∧ MatchedOnSky path i0 p m.t m.dprog d := by
  refine ⟨between true (path[k]!).p p * npSign ((path[y]!).p.y - p.y), by rw [hd]; simp [distOf, signOf], k, hk, ht, ⟨fun h => ?_, fun h => ?_, fun ⟨e, q, τ, hτ, h⟩ => ?_⟩, ?_⟩
  · obtain ⟨b1, b2⟩ := progress_between (pr := true) h hk.1
    rw [hx]
    exact ⟨b1, b2⟩
  · obtain ⟨b1, b2⟩ := progress_between (pr := true) h hi.1
    rw [hx]
    constructor <;> linarith
  · have h' : ∀ j < path.length, PosEq (path[j]!).p ⟨q.x + τ j * e.x, q.y + τ j * e.y, q.z + τ j * e.z, 0, 0, 0⟩ := fun j hj => h j hj
    refine ⟨fun hk' => ?_, fun hk' => ?_⟩
    · rw [hx, progress_straight hτ h' hk' hk.1]
    · rw [hx, ← progress_straight hτ h' hk' hi.1]; ring
  · have hn := between_nonneg true (path[k]!).p p
    refine ⟨fun hall => ?_, fun ⟨j, hj, hjy⟩ => ?_, y, hy.1, hy.2, fun hneg => ?_, fun hpos => ?_⟩
    · have h0 : (path[y]!).p.y - p.y ≠ 0 := fun h => hall y hy.1 (by show (path[y]!).p.y = p.y; linarith)
      have : |npSign ((path[y]!).p.y - p.y)| = 1 := by
        unfold npSign
        rcases lt_or_gt_of_ne h0 with h | h
        · rw [if_pos h]; norm_num
        · rw [if_neg (not_lt.mpr h.le), if_pos h]; norm_num
      rw [abs_mul, this, mul_one, abs_of_nonneg hn]
    · have h0 := hy.2 j hj
      rw [show (path[j]!).p.y = p.y from hjy, sub_self, abs_zero] at h0
      rw [abs_nonpos_iff.mp h0]
      simp [npSign]
    · by_contra hc
      have h2 : 0 ≤ npSign ((path[y]!).p.y - p.y) := by
        unfold npSign
        rw [if_neg (by show ¬ (path[y]!).p.y - p.y < 0; have : ¬ (path[y]!).p.y < p.y := hc; linarith)]
        split_ifs <;> norm_num
      exact absurd hneg (not_lt.mpr (mul_nonneg hn h2))
    · by_contra hc
      have h2 : npSign ((path[y]!).p.y - p.y) ≤ 0 := by
        unfold npSign
        have : ¬ p.y < (path[y]!).p.y := hc
        split_ifs
        · norm_num
        · exfalso; linarith
        · exact le_refl _
      nlinarith

/-- The part between `to_radec` and `return_cluster`. -/
theorem stars_on_sky {path : List PathPt} (h : path ≠ []) (st : List Ph) :
    ∃ i0 out, Present path i0 ∧ matchStars true false false path st = .ok out ∧ out.length = st.length ∧
      ∀ i < st.length, ∃ d, (out[i]!).dpath = some d ∧ MatchedOnSky path i0 st[i]! (out[i]!).t (out[i]!).dprog d := by
  obtain ⟨i0, out, h1, h2, h3⟩ := matchStars_ok (pr := true) (toPath := false) h (by simp) st
  refine ⟨i0, out, h1, h2, h3.length_eq.symm, fun i hi => ?_⟩
  have hm := forall₂_get h3 hi
  obtain ⟨m, k, y, m1, m2, m3, m4, m5, m6⟩ := matchStar_ok (pr := true) (toPath := false) (i0 := i0) h st[i]!
  rw [hm] at m1
  cases m1
  exact matched_on_sky h1 m2 m3 m4 m5 m6

/-- Back to linear units from any state. -/
theorem return_lin {g : Galpy} {S : Truth} {c c2 : Cluster} (h : LinInv g S c) (h2 : Inv g S c2) (s : Bool) (cm : Option CentreMethod) :
    ∃ c', returnCluster g (saveCluster c) s cm c2 = .ok c' ∧ LinInv g S c' ∧ c'.units = c.units ∧ c'.origin = c.origin := by
  obtain ⟨u, hu, hul⟩ := h.lin.units
  obtain ⟨o, ho, hol⟩ := h.lin.origin
  have hlin : ∀ {x : Cluster}, Inv g S x → x.units = some u → LinInv g S x := by
    rintro x (k | k) hx
    · exact k
    · exfalso
      rw [k.state.units] at hx
      cases hx
      exact hul
  obtain ⟨c3, h3, i3, u3⟩ : ∃ c3, (if c2.units ≠ some u then toUnits g u c2 else .ok c2) = .ok c3 ∧ LinInv g S c3 ∧ c3.units = some u := by
    by_cases hq : c2.units = some u
    · exact ⟨c2, by simp [hq], hlin h2 hq, hq⟩
    · obtain ⟨c3, a, b, d⟩ := units_inv h2 (.toUnits u) rfl hul
      exact ⟨c3, by simp only [ne_eq, hq, not_false_eq_true, if_true]; exact a, b, d⟩
  obtain ⟨c4, h4, i4, u4, o4⟩ : ∃ c4, (if c3.origin ≠ some o then toOrigin g o.target s cm c3 else .ok c3) = .ok c4 ∧ LinInv g S c4 ∧
      c4.units = some u ∧ c4.origin = some o := by
    by_cases hq : c3.origin = some o
    · exact ⟨c3, by simp [hq], i3, u3, hq⟩
    · obtain ⟨c4, a, b, st⟩ := Inv.linop (op := .toOrigin o s cm) i3 ⟨fun _ k => by simp [Op.unitTarget] at k, fun _ k => by simp only [Op.originTarget, Option.some.injEq] at k; rw [← k]; exact hol⟩
      exact ⟨c4, by simp only [ne_eq, hq, not_false_eq_true, if_true]; exact a, b, by rw [st.units, u3]; rfl, by rw [st.origin]; rfl⟩
  have hlen : c4.st.length = c.st.length := by
    rw [← i4.good.len, ← h.good.len]
    obtain ⟨W, e, -, k, -⟩ := i4.desc
    obtain ⟨W', e', -, k', -⟩ := h.desc
    have m4 : W.mass.length = c4.m.length := by
      unfold world phys at e
      rw [u4, o4] at e
      obtain ⟨sc, hsc⟩ := unitScale_linear (g := g) (c := c4) hul
      simp only [hsc, Option.some.injEq] at e
      subst e
      simp
    have m1 : W'.mass.length = c.m.length := by
      unfold world phys at e'
      rw [hu, ho] at e'
      obtain ⟨sc, hsc⟩ := unitScale_linear (g := g) (c := c) hul
      simp only [hsc, Option.some.injEq] at e'
      subst e'
      simp
    rw [← m4, ← m1, k, k']
  obtain ⟨d, hd⟩ : ∃ d : Cluster, d = { c4 with rorder := c.rorder, rorderOrigin := c.rorderOrigin } := ⟨_, rfl⟩
  have gd : Good d := by
    rw [hd]
    exact ⟨i4.good.ne, i4.good.len, i4.good.mass, fun q hq => by rw [show Cluster.st { c4 with rorder := c.rorder, rorderOrigin := c.rorderOrigin } = c4.st from rfl, hlen]; exact h.good.ro q hq, i4.good.rpo⟩
  have id : LinInv g S d := i4.of_world (by rw [hd]; exact ⟨⟨u, u4, hul⟩, ⟨o, o4, hol⟩⟩) gd (by rw [hd]; rfl) (by rw [hd]; rfl)
  obtain ⟨c', h', i', u', o'⟩ := id.analyzed true true
  refine ⟨c', ?_, i', u'.trans ?_, o'.trans ?_⟩
  · unfold returnCluster saveCluster
    simp only [hu, ho, bind]
    refine ite_bind_of h3 (ite_bind_of h4 ?_)
    rw [← h', hd]
  · rw [hd, hu]; exact u4
  · rw [hd, ho]; exact o4

theorem desc_length {g : Galpy} {S : Truth} {c : Cluster} (h : SkyInv g S c) (ho : c.origin = some .sky) :
    c.st = S.stars.map (fun p => g.toSky (kpcRow p)) := (h.state.sky ho).trans h.sky

/-- The call from linear units, at the Galactic centre; `π` is the path that was used. -/
theorem sky_run {g : Galpy} {S : Truth} {flow : ℝ → Ph → Ph} {a : MatchArgs} {c : Cluster} (h : LinInv g S c) (ht : a.toPath = false)
    (hd : a.doFull = false) {Q : List PathPt → Prop} (hpath : ∀ c1, SkyInv g S c1 → ∃ π, matchPathSky g flow a c1 = .ok (π, c1) ∧ π ≠ [] ∧ Q π) :
    ∃ π i0 out c' c1, Q π ∧ Present π i0 ∧ orbitalPathMatchSky g flow a c = .ok (out, c') ∧ LinInv g S c' ∧ c'.units = c.units ∧
      c'.origin = c.origin ∧ SkyInv g S c1 ∧ c1.origin = (if c.origin = some .galaxy then some .sky else c.origin) ∧
      (c.origin = some .cluster → ∃ k, c1.st = c1.sky.map (recentred k c1.gc c1.gc)) ∧ out.length = S.stars.length ∧
      ∀ i < S.stars.length, ∃ m d, out[i]! = convertMatch g c' m ∧ m.dpath = some d ∧ MatchedOnSky π i0 c1.st[i]! m.t m.dprog d := by
  obtain ⟨c1, h1, i1, o1, -, -, q1, -⟩ := toRadec_lin_full h true none true
  obtain ⟨π, h2, hne, hQ⟩ := hpath c1 i1
  obtain ⟨i0, out, h3, h4, h5, h6⟩ := stars_on_sky hne c1.st
  obtain ⟨c', h7, i7, u7, o7⟩ := return_lin h (.inr i1) false none
  have hlen : c1.st.length = S.stars.length := by
    rw [← i1.good.len, ← i1.state.len, i1.sky, List.length_map]
  refine ⟨π, i0, out.map (convertMatch g c'), c', c1, hQ, h3, ?_, i7, u7, o7, i1, o1, q1, by rw [List.length_map, h5, hlen], fun i hi => ?_⟩
  · unfold orbitalPathMatchSky
    simp only [h1, h2, bind, Except.bind, ht, hd, h4, h7, pure, Except.pure]
  · obtain ⟨d, e1, e2⟩ := h6 i (by omega)
    exact ⟨out[i]!, d, list_map_at (by omega), e1, e2⟩

theorem given_sky {g : Galpy} {S : Truth} {flow : ℝ → Ph → Ph} {a : MatchArgs} {path : List PathPt} (hp : a.path = some path) (hne : path ≠ []) :
    ∀ c1, SkyInv g S c1 → ∃ π, matchPathSky g flow a c1 = .ok (π, c1) ∧ π ≠ [] ∧ π = path :=
  fun c1 _ => ⟨path, by unfold matchPathSky; rw [hp]; rfl, hne, rfl⟩

/-- In kpc nothing is converted. -/
theorem convertMatch_kpc {g : Galpy} {c : Cluster} {u : Units} (hu : c.units = some u) (hk : u.isKpc = true) (m : Matched) : convertMatch g c m = m := by
  have hL : ∀ x, convertLength g c .kpckms u x = x := by
    intro x
    cases u <;> simp [Units.isKpc] at hk <;> simp [convertLength, Units.isPc, Units.isKpc]
  have hT : ∀ x, convertTime g c .kpckms u x = x := by
    intro x
    cases u <;> simp [Units.isKpc] at hk <;> simp [convertTime, Units.isPc, Units.isKpc]
  rcases m with ⟨t, x, d⟩
  simp only [convertMatch, hu, Option.elim, hL, hT]
  cases d <;> simp [hL]

theorem LinInv.mk' {g : Galpy} {S : Truth} {c : Cluster} (p : Pos g c) (l : Lin c) (hg : Good c) (hd : DescribesLinear g S c) (hc : CachesOf g S c) :
    LinInv g S c := ⟨p, l, hg, hd, hc⟩

theorem isKpc_linear {u : Units} (h : u.isKpc = true) : u.linear := by
  cases u <;> simp [Units.isKpc] at h <;> trivial

/-- **C171.**  A cluster in kpc at the Galactic centre, and a path on the sky: every star is matched to the point of the path that is nearest to it in
right ascension and declination; the time (Gyr), the distance along the path and the distance from it (degrees) are those of that point.  The
cluster describes the same stars afterwards, with the same labels. -/
theorem C171_nearest {g : Galpy} {S : Truth} {flow : ℝ → Ph → Ph} {a : MatchArgs} {c : Cluster} {u : Units} (p : Pos g c) (l : Lin c) (hg : Good c)
    (hd : DescribesLinear g S c) (hc : CachesOf g S c) (hu : c.units = some u) (hk : u.isKpc = true) (ho : c.origin = some .galaxy)
    {path : List PathPt} (hp : a.path = some path) (hne : path ≠ []) (ht : a.toPath = false) (hf : a.doFull = false) :
    ∃ i0 out c', Present path i0 ∧ orbitalPathMatchSky g flow a c = .ok (out, c') ∧ DescribesLinear g S c' ∧ c'.units = c.units ∧
      c'.origin = c.origin ∧ c'.st = c.st ∧ out.length = S.stars.length ∧ ∀ i < S.stars.length, ∃ d, (out[i]!).dpath = some d ∧
        MatchedOnSky path i0 (g.toSky (kpcRow S.stars[i]!)) (out[i]!).t (out[i]!).dprog d := by
  obtain ⟨π, i0, out, c', c1, rfl, h1, h2, h3, h4, h5, h6, h7, -, h8, h9⟩ := sky_run (flow := flow) (LinInv.mk' p l hg hd hc) ht hf
    (given_sky (g := g) (S := S) (flow := flow) hp hne)
  refine ⟨i0, out, c', h1, h2, h3.desc, h4, h5, (describes_same p l hd h3.desc h4 h5 (.inl ho)).1, h8, fun i hi => ?_⟩
  obtain ⟨m, d, e1, e2, e3⟩ := h9 i hi
  rw [convertMatch_kpc (h4.trans hu) hk] at e1
  rw [desc_length h6 (by rw [h7, ho]; simp), list_map_at hi] at e3
  rw [e1]
  exact ⟨d, e2, e3⟩

/-- The path that is computed on the sky, whatever the units the cluster came from. -/
theorem computed_sky {g : Galpy} {S : Truth} {flow : ℝ → Ph → Ph} (hf : IsFlow flow) {a : MatchArgs} (hp : a.path = none) {T : ℝ}
    (hT : a.tfinal = some T) (hn : 2 ≤ a.nt) (hinv : g.ofSky (g.toSky (kpcRow S.gc)) = kpcRow S.gc) :
    ∀ c1, SkyInv g S c1 → ∃ π, matchPathSky g flow a c1 = .ok (π, c1) ∧ π ≠ [] ∧ (π.length = a.nt ∧ ∀ k < a.nt,
      (π[k]!).t = -T + k * (2 * T / (a.nt - 1)) ∧
      (π[k]!).p = g.toSky (kpcRow (orbitAt g flow ((π[k]!).t * 1000) S.gc))) := by
  intro c1 i1
  have pp := i1.pos
  have htm := pp.time.ne'
  have hro := pp.ro.ne'
  refine ⟨(linspace (-1 * (T / g.timeGyr)) (T / g.timeGyr) a.nt).map (fun t =>
    (⟨t * g.timeGyr, g.toSky (orbitRow g (flow t (natural g S.gc)))⟩ : PathPt)), ?_, ?_, by simp [linspace], ?_⟩
  · have h1 : initializeOrbit g a.fromCentre c1 = .ok (natural g S.gc, c1) := by
      unfold initializeOrbit
      rw [if_pos i1.state.units, i1.skyGc_eq, hinv]
      congr 2
      ext <;> simp only [natural, kpcRow, Ph.divPos, Ph.divVel] <;> field_simp
    have h2 : naturalTime g c1 a.tfinal = T / g.timeGyr := by
      simp [naturalTime, hT, i1.state.units, Units.isPc, Units.isKpc]
    unfold matchPathSky orbitalPathSky
    rw [hp]
    simp only [Option.elim, h1, h2, bind, Except.bind, pathRows_ok hf hro pp.vo.ne' hn, pure, Except.pure, List.map_map]
    congr 2
    refine List.map_congr_left fun t _ => ?_
    simp [Function.comp, skyTime, i1.state.units, Units.isPc, Units.isKpc]
  · intro h0
    have := congrArg List.length h0
    simp [linspace] at this
    omega
  · intro k hk
    have hlen : k < (linspace (-1 * (T / g.timeGyr)) (T / g.timeGyr) a.nt).length := by simpa [linspace] using hk
    have hn1 : (a.nt : ℝ) - 1 ≠ 0 := by
      have : (2 : ℝ) ≤ a.nt := by exact_mod_cast hn
      intro h; linarith
    rw [list_map_at hlen]
    dsimp only
    rw [linspace_get hk]
    constructor
    · field_simp
      ring
    · congr 1
      unfold orbitAt
      generalize (-1 * (T / g.timeGyr) + ↑k * ((T / g.timeGyr - -1 * (T / g.timeGyr)) / ((a.nt : ℝ) - 1))) = τ
      have e : τ * g.timeGyr * 1000 / (1000 * g.timeGyr) = τ := by field_simp
      simp only [e, orbitRow, Ph.mulPos, Ph.mulVel, kpcRow]
      ext <;> simp only [natural] <;> ring

/-- **C171 (own path).**  Without a path given the path is the orbit of the cluster seen on the sky, from `tfinal` Gyr ago to `tfinal` Gyr from now. -/
theorem C171_computed {g : Galpy} {S : Truth} {flow : ℝ → Ph → Ph} (hfl : IsFlow flow) {a : MatchArgs} {c : Cluster} {u : Units} (p : Pos g c)
    (l : Lin c) (hg : Good c) (hd : DescribesLinear g S c) (hc : CachesOf g S c) (hu : c.units = some u) (hk : u.isKpc = true)
    (ho : c.origin = some .galaxy) (hp : a.path = none) {T : ℝ} (hT : a.tfinal = some T) (hn : 2 ≤ a.nt)
    (hinv : g.ofSky (g.toSky (kpcRow S.gc)) = kpcRow S.gc) (ht : a.toPath = false) (hf : a.doFull = false) :
    ∃ (π : List PathPt) (i0 : ℕ) (out : List Matched) (c' : Cluster), π.length = a.nt ∧ (∀ k < a.nt, (π[k]!).t = -T + k * (2 * T / (a.nt - 1)) ∧
        (π[k]!).p = g.toSky (kpcRow (orbitAt g flow ((π[k]!).t * 1000) S.gc))) ∧ Present π i0 ∧
      orbitalPathMatchSky g flow a c = .ok (out, c') ∧ DescribesLinear g S c' ∧ c'.units = c.units ∧ c'.origin = c.origin ∧
      out.length = S.stars.length ∧ ∀ i < S.stars.length, ∃ d, (out[i]!).dpath = some d ∧
        MatchedOnSky π i0 (g.toSky (kpcRow S.stars[i]!)) (out[i]!).t (out[i]!).dprog d := by
  obtain ⟨π, i0, out, c', c1, ⟨hl, hπ⟩, h1, h2, h3, h4, h5, h6, h7, -, h8, h9⟩ := sky_run (flow := flow) (LinInv.mk' p l hg hd hc) ht hf
    (computed_sky (S := S) hfl hp hT hn hinv)
  refine ⟨π, i0, out, c', hl, hπ, h1, h2, h3.desc, h4, h5, h8, fun i hi => ?_⟩
  obtain ⟨m, d, e1, e2, e3⟩ := h9 i hi
  rw [convertMatch_kpc (h4.trans hu) hk] at e1
  rw [desc_length h6 (by rw [h7, ho]; simp), list_map_at hi] at e3
  rw [e1]
  exact ⟨d, e2, e3⟩

/-- **C172 is violated in parsec:** the angles are converted as if they were kpc: both distances come out a thousand times the number of degrees. -/
theorem C172_parsec_violated {g : Galpy} {S : Truth} {flow : ℝ → Ph → Ph} {a : MatchArgs} {c : Cluster} (p : Pos g c) (l : Lin c) (hg : Good c)
    (hd : DescribesLinear g S c) (hc : CachesOf g S c) (hu : c.units = some .pckms) (ho : c.origin = some .galaxy)
    {path : List PathPt} (hp : a.path = some path) (hne : path ≠ []) (ht : a.toPath = false) (hf : a.doFull = false) :
    ∃ i0 out c', Present path i0 ∧ orbitalPathMatchSky g flow a c = .ok (out, c') ∧ out.length = S.stars.length ∧
      ∀ i < S.stars.length, ∃ t x d, MatchedOnSky path i0 (g.toSky (kpcRow S.stars[i]!)) t x d ∧ (out[i]!).t = 1000 * t ∧
        (out[i]!).dprog = 1000 * x ∧ (out[i]!).dpath = some (1000 * d) := by
  obtain ⟨π, i0, out, c', c1, rfl, h1, h2, h3, h4, h5, h6, h7, -, h8, h9⟩ := sky_run (flow := flow) (LinInv.mk' p l hg hd hc) ht hf
    (given_sky (g := g) (S := S) (flow := flow) hp hne)
  refine ⟨i0, out, c', h1, h2, h8, fun i hi => ?_⟩
  obtain ⟨m, d, e1, e2, e3⟩ := h9 i hi
  rw [desc_length h6 (by rw [h7, ho]; simp), list_map_at hi] at e3
  refine ⟨m.t, m.dprog, d, e3, ?_, ?_, ?_⟩ <;> rw [e1] <;>
    simp [convertMatch, h4.trans hu, convertTime, convertLength, e2, Units.isPc, Units.isKpc, mul_comm]

/-- **C172 is violated about the cluster:** the stars are then given by their offsets from the cluster on the sky and are compared, so, with a path given
by right ascensions and declinations: a star exactly at the cluster is matched to the point of the path nearest to right ascension zero and
declination zero. -/
theorem C172_offsets_violated {g : Galpy} {S : Truth} {flow : ℝ → Ph → Ph} {a : MatchArgs} {c : Cluster} {u : Units} (p : Pos g c) (l : Lin c)
    (hg : Good c) (hd : DescribesLinear g S c) (hc : CachesOf g S c) (hu : c.units = some u) (hk : u.isKpc = true) (ho : c.origin = some .cluster)
    {path : List PathPt} (hp : a.path = some path) (hne : path ≠ []) (ht : a.toPath = false) (hf : a.doFull = false) {i : ℕ}
    (hi : i < S.stars.length) (hs : S.stars[i]! = S.gc) :
    ∃ i0 out c' d, Present path i0 ∧ orbitalPathMatchSky g flow a c = .ok (out, c') ∧ (out[i]!).dpath = some d ∧
      MatchedOnSky path i0 ⟨0, 0, 0, 0, 0, 0⟩ (out[i]!).t (out[i]!).dprog d := by
  obtain ⟨π, i0, out, c', c1, rfl, h1, h2, h3, h4, h5, h6, h7, hq, h8, h9⟩ := sky_run (flow := flow) (LinInv.mk' p l hg hd hc) ht hf
    (given_sky (g := g) (S := S) (flow := flow) hp hne)
  obtain ⟨m, d, e1, e2, e3⟩ := h9 i hi
  rw [convertMatch_kpc (h4.trans hu) hk] at e1
  obtain ⟨k, hst⟩ := hq ho
  rw [h6.sky, List.map_map] at hst
  rw [hst, list_map_at hi] at e3
  simp only [Function.comp, hs, h6.gcp] at e3
  obtain ⟨r1, r2, r3, r4⟩ := C63_reference_to_zero (g.toSky (kpcRow S.gc)) (g.toSky (kpcRow S.gc))
  have : recentred k (g.toSky (kpcRow S.gc)) (g.toSky (kpcRow S.gc)) (g.toSky (kpcRow S.gc)) = ⟨0, 0, 0, 0, 0, 0⟩ := by
    rcases k with _ | (_ | _ | _)
    · exact r1
    · exact r4
    · exact r3
    · exact r2
  rw [this] at e3
  exact ⟨i0, out, c', d, h1, h2, by rw [e1]; exact e2, by rw [e1]; exact e3⟩

/-- **C172 is violated on the sky:** for a cluster that is on the sky already the degrees are taken to be kpc and turned into an angle again, at the
distance `D` of the cluster. -/
theorem C172_sky_violated {g : Galpy} {S : Truth} {flow : ℝ → Ph → Ph} {a : MatchArgs} {c0 c : Cluster} {ks0 : List Call} (p : Pos g c0) (l : Lin c0)
    (hg : Good c0) (hd : DescribesLinear g S c0) (hc : CachesOf g S c0) (h0 : calls g ks0 c0 = .ok c) (hu : c.units = some .radec)
    (ho : c.origin = some .sky) {D : ℝ} (hD : (g.toSky (kpcRow S.gc)).z = D) (hD0 : 0 < D)
    {path : List PathPt} (hp : a.path = some path) (hne : path ≠ []) (ht : a.toPath = false) (hf : a.doFull = false) :
    ∃ i0 out c', Present path i0 ∧ orbitalPathMatchSky g flow a c = .ok (out, c') ∧ SameSky c c' ∧ out.length = S.stars.length ∧
      ∀ i < S.stars.length, ∃ x d, MatchedOnSky path i0 (g.toSky (kpcRow S.stars[i]!)) (out[i]!).t x d ∧
        (out[i]!).dprog = Real.arctan (x / D) * (180 / Real.pi) ∧ (out[i]!).dpath = some (Real.arctan (d / D) * (180 / Real.pi)) := by
  have i1 := on_sky p l hg hd hc h0 hu
  obtain ⟨i0, out, h3, h4, h5, h6⟩ := stars_on_sky hne c.st
  obtain ⟨c', h7, i7, o7, -⟩ := return_from_sky i1 i1 false none
  have hst := desc_length i1 ho
  have hlen : c.st.length = S.stars.length := by rw [hst, List.length_map]
  have hz : c'.gc.z = D := by rw [i7.gcp, hD]
  refine ⟨i0, out.map (convertMatch g c'), c', h3, ?_, i1.same i7 o7, by rw [List.length_map, h5, hlen], fun i hi => ?_⟩
  · have hr : toRadec g true none true c = .ok c := by simp [toRadec, hu]
    have hm : matchPathSky g flow a c = .ok (path, c) := by unfold matchPathSky; rw [hp]; rfl
    unfold orbitalPathMatchSky
    simp only [hr, hm, bind, Except.bind, ht, hf, h4, h7, pure, Except.pure]
  · obtain ⟨d, e1, e2⟩ := h6 i (by omega)
    rw [hst, list_map_at hi] at e2
    have hget : (out.map (convertMatch g c'))[i]! = convertMatch g c' out[i]! := list_map_at (by omega)
    have ha : ∀ x : ℝ, convertLength g c' .kpckms .radec x = Real.arctan (x / D) * (180 / Real.pi) := by
      intro x
      simp [convertLength, Units.isPc, Units.isKpc, hz, arctan2_pos hD0, degrees]
    refine ⟨(out[i]!).dprog, d, ?_, ?_, ?_⟩
    · rw [hget]
      simpa [convertMatch, i7.state.units, convertTime, Units.isPc, Units.isKpc] using e2
    · rw [hget]
      simp [convertMatch, i7.state.units, ha]
    · rw [hget]
      simp only [convertMatch, i7.state.units, Option.elim, e1, Option.map_some, ha]

/-- **C172 is violated for `from_centre`:** it has no effect on the path that is computed. -/
theorem C172_from_centre_violated {g : Galpy} {S : Truth} {flow : ℝ → Ph → Ph} {a : MatchArgs} {c : Cluster} (p : Pos g c) (l : Lin c) (hg : Good c)
    (hd : DescribesLinear g S c) (hc : CachesOf g S c) :
    orbitalPathMatchSky g flow { a with fromCentre := true } c = orbitalPathMatchSky g flow { a with fromCentre := false } c := by
  obtain ⟨c1, h1, i1, -⟩ := toRadec_lin (LinInv.mk' p l hg hd hc) true none true
  unfold orbitalPathMatchSky
  simp only [h1, bind, Except.bind]
  have : matchPathSky g flow { a with fromCentre := true } c1 = matchPathSky g flow { a with fromCentre := false } c1 := by
    unfold matchPathSky orbitalPathSky initializeOrbit
    simp only [i1.state.units, if_true]
  rw [this]

/-- **C172 is violated for `tfinal`:** in pc and km/s, where times are in Myr, the path extends over `tfinal` Gyr. -/
theorem C172_tfinal_violated {g : Galpy} {S : Truth} {flow : ℝ → Ph → Ph} (hfl : IsFlow flow) {a : MatchArgs} {c : Cluster} (p : Pos g c)
    (l : Lin c) (hg : Good c) (hd : DescribesLinear g S c) (hc : CachesOf g S c) (hu : c.units = some .pckms)
    (ho : c.origin = some .galaxy) (hp : a.path = none) {T : ℝ} (hT : a.tfinal = some T) (hn : 2 ≤ a.nt)
    (hinv : g.ofSky (g.toSky (kpcRow S.gc)) = kpcRow S.gc) (ht : a.toPath = false) (hf : a.doFull = false) :
    ∃ (π : List PathPt) (i0 : ℕ) (out : List Matched) (c' : Cluster), (π[0]!).t = -T ∧
      (π[0]!).p = g.toSky (kpcRow (orbitAt g flow (-(1000 * T)) S.gc)) ∧ orbitalPathMatchSky g flow a c = .ok (out, c') ∧
      ∀ i < S.stars.length, ∃ t x d, MatchedOnSky π i0 (g.toSky (kpcRow S.stars[i]!)) t x d ∧ (out[i]!).t = 1000 * t := by
  obtain ⟨π, i0, out, c', c1, ⟨hl, hπ⟩, h1, h2, h3, h4, h5, h6, h7, -, h8, h9⟩ := sky_run (flow := flow) (LinInv.mk' p l hg hd hc) ht hf
    (computed_sky (S := S) hfl hp hT hn hinv)
  have h0 := hπ 0 (by omega)
  simp only [Nat.cast_zero, zero_mul, add_zero] at h0
  refine ⟨π, i0, out, c', h0.1, by rw [h0.2, h0.1]; congr 3; ring, h2, fun i hi => ?_⟩
  obtain ⟨m, d, e1, e2, e3⟩ := h9 i hi
  rw [desc_length h6 (by rw [h7, ho]; simp), list_map_at hi] at e3
  refine ⟨m.t, m.dprog, d, e3, ?_⟩
  rw [e1]
  simp [convertMatch, h4.trans hu, convertTime, Units.isPc, Units.isKpc, mul_comm]

/-! ### witnesses -/

/-- The demo cluster in kpc, seen from the Galactic centre. -/
def demoSkyKpc : Cluster :=
  { demo with
    units := some .kpckms
    origin := some .galaxy
    tphys := 0.012
    st := [⟨8.003, 0, 0.024, 1, 220, 0⟩, ⟨8, 0.001, 0.02, 0, 218, 5⟩]
    gc := ⟨8, 0, 0.02, 0, 220, 0⟩
    c := ⟨0, 0, 0, 0, 0, 0⟩ }

theorem demoSkyKpc_pos : Pos demoG demoSkyKpc :=
  ⟨demo_pos.rbar, demo_pos.vbar, demo_pos.zmbar, demo_pos.tbar, demo_pos.ro, demo_pos.vo, demo_pos.time, demo_pos.mass, demo_pos.vel⟩

theorem demoSkyKpc_lin : Lin demoSkyKpc := ⟨⟨_, rfl, trivial⟩, ⟨_, rfl, trivial⟩⟩

theorem demoSkyKpc_good : Good demoSkyKpc :=
  ⟨by simp [demoSkyKpc], by simp [demoSkyKpc, demo], demo_good.mass, demo_good.ro, demo_good.rpo⟩

theorem demoSkyKpc_desc : DescribesLinear demoG demoGalaxyTruth demoSkyKpc := by
  unfold DescribesLinear world phys
  simp only [demoSkyKpc, demo, unitScale, demoGalaxyTruth]
  refine ⟨_, rfl, ?_, ?_, ?_, ?_, by simp⟩ <;> norm_num [galRows, galactocentric, phAdd, Scale.ph]

theorem demoSkyKpc_caches : CachesOf demoG demoGalaxyTruth demoSkyKpc :=
  ⟨fun _ h => by simp [demoSkyKpc, demo] at h, fun _ h => by simp [demoSkyKpc, demo] at h⟩

/-- `C171_nearest`: two stars and a path of three points. -/
example : ∃ i0 out c', Present [⟨-1, ⟨7, 1, 0, 0, 0, 0⟩⟩, ⟨0, ⟨8, 2, 0, 0, 0, 0⟩⟩, ⟨1, ⟨9, 3, 0, 0, 0, 0⟩⟩] i0 ∧
    orbitalPathMatchSky demoG (fun _ p => p) { path := some [⟨-1, ⟨7, 1, 0, 0, 0, 0⟩⟩, ⟨0, ⟨8, 2, 0, 0, 0, 0⟩⟩, ⟨1, ⟨9, 3, 0, 0, 0, 0⟩⟩] } demoSkyKpc =
      .ok (out, c') ∧ out.length = 2 := by
  obtain ⟨i0, out, c', h1, h2, -, -, -, -, h3, -⟩ := C171_nearest (flow := fun _ p => p)
    (a := { path := some [⟨-1, ⟨7, 1, 0, 0, 0, 0⟩⟩, ⟨0, ⟨8, 2, 0, 0, 0, 0⟩⟩, ⟨1, ⟨9, 3, 0, 0, 0, 0⟩⟩] })
    demoSkyKpc_pos demoSkyKpc_lin demoSkyKpc_good demoSkyKpc_desc demoSkyKpc_caches rfl rfl rfl rfl (by simp) rfl rfl
  exact ⟨i0, out, c', h1, h2, h3⟩

/-- `C171_computed`. -/
example : ∃ (π : List PathPt) (out : List Matched) (c' : Cluster), π.length = 5 ∧
    orbitalPathMatchSky demoG (fun _ p => p) { tfinal := some 2, nt := 5 } demoSkyKpc = .ok (out, c') ∧ (π[1]!).t = -1 := by
  obtain ⟨π, i0, out, c', h1, h2, -, h3, -⟩ := C171_computed (flow := fun _ p => p) ⟨fun _ => rfl, fun _ _ _ => rfl⟩
    (a := { tfinal := some 2, nt := 5 }) demoSkyKpc_pos demoSkyKpc_lin demoSkyKpc_good demoSkyKpc_desc demoSkyKpc_caches rfl rfl rfl rfl (T := 2) rfl
    (by norm_num) rfl rfl rfl
  exact ⟨π, out, c', h1, h3, by rw [(h2 1 (by norm_num)).1]; norm_num⟩

/-- `C172_sky_violated`: demo sky rows have the height as their distance. -/
example : ∃ (c : Cluster) (i0 : ℕ) (out : List Matched) (c' : Cluster), calls demoG [.toSky true none] demoSkyKpc = .ok c ∧ Present corner i0 ∧
    orbitalPathMatchSky demoG (fun _ p => p) { path := some corner } c = .ok (out, c') ∧ SameSky c c' := by
  obtain ⟨c, h, i, o⟩ := toSky_inv (.inl ⟨demoSkyKpc_pos, demoSkyKpc_lin, demoSkyKpc_good, demoSkyKpc_desc, demoSkyKpc_caches⟩) true none
  have h0 : calls demoG [.toSky true none] demoSkyKpc = .ok c := by simp [calls, Call.exec, h, Except.bind]
  obtain ⟨i0, out, c', h1, h2, h3, -⟩ := C172_sky_violated (flow := fun _ p => p) (a := { path := some corner }) demoSkyKpc_pos demoSkyKpc_lin demoSkyKpc_good
    demoSkyKpc_desc demoSkyKpc_caches h0 i.state.units o (D := 0.02) (by norm_num [demoG, demoGalaxyTruth, kpcRow]) (by norm_num) rfl (by simp [corner]) rfl rfl
  exact ⟨c, i0, out, c', h0, h1, h2, h3⟩

/-- A cluster about its position in kpc, with a star exactly there. -/
def demoSkyAt : Cluster := { demoSkyKpc with origin := some .cluster, st := [⟨0, 0, 0, 0, 0, 0⟩, ⟨0, 0.001, 0, 0, -2, 5⟩] }

def demoSkyAtTruth : Truth := { demoGalaxyTruth with stars := [⟨8000, 0, 20, 0, 220, 0⟩, ⟨8000, 1, 20, 0, 218, 5⟩] }

theorem demoSkyAt_good : Good demoSkyAt :=
  ⟨by simp [demoSkyAt], by simp [demoSkyAt, demoSkyKpc, demo], demo_good.mass, demo_good.ro, demo_good.rpo⟩

/-- `C172_offsets_violated`. -/
example : ∃ i0 out c' d, Present corner i0 ∧ orbitalPathMatchSky demoG (fun _ p => p) { path := some corner } demoSkyAt = .ok (out, c') ∧
    (out[0]!).dpath = some d ∧ MatchedOnSky corner i0 ⟨0, 0, 0, 0, 0, 0⟩ (out[0]!).t (out[0]!).dprog d := by
  refine C172_offsets_violated (S := demoSkyAtTruth) (c := demoSkyAt) (path := corner) ⟨demo_pos.rbar, demo_pos.vbar, demo_pos.zmbar, demo_pos.tbar, demo_pos.ro, demo_pos.vo, demo_pos.time, demo_pos.mass, demo_pos.vel⟩
    ⟨⟨_, rfl, trivial⟩, ⟨_, rfl, trivial⟩⟩ demoSkyAt_good ?_ ?_
    rfl rfl rfl rfl (by simp [corner]) rfl rfl (i := 0) (by simp [demoSkyAtTruth]) (by simp [demoSkyAtTruth, demoGalaxyTruth])
  · unfold DescribesLinear world phys
    simp only [demoSkyAt, demoSkyKpc, demo, unitScale, demoSkyAtTruth, demoGalaxyTruth]
    refine ⟨_, rfl, ?_, ?_, ?_, ?_, by simp⟩ <;> norm_num [galRows, galactocentric, phAdd, Scale.ph]
  · exact ⟨fun _ h => by simp [demoSkyAt, demoSkyKpc, demo] at h, fun _ h => by simp [demoSkyAt, demoSkyKpc, demo] at h⟩

end

end CT
