/- C70: adding rotation. -/
import Verif.Model.Rotation
import Verif.Spec.Rotation
import Verif.Props.Coords
import Verif.Lemmas.Profiles
import Verif.Spec.Demo

namespace CT

noncomputable section

set_option linter.unusedSimpArgs false

/-- Going to the centre as the first step of a function. -/
theorem go_centre {g : Galpy} {c : Cluster} {s : Bool} (l : Lin c) (hg : Good c) :
    ∃ c1, (if c.origin ≠ some .cluster ∧ c.origin ≠ some .centre then toCentre s none c else .ok c) = .ok c1 ∧
      Good c1 ∧ Lin c1 ∧ c1.rest = c.rest ∧ world g c1 = world g c ∧ c1.st = centred c ∧ c1.gc = c.gc := by
  obtain ⟨⟨u, hu, hul⟩, ⟨o, ho, hol⟩⟩ := l
  have hur : c.units ≠ some .radec := by rw [hu]; intro h; cases h; exact hul
  by_cases hgal : o = .galaxy
  · subst hgal
    obtain ⟨c2, h2, g2⟩ := toCentre_total (s := s) (cm := none) hur hg
    have os := toCentre_ostep ho trivial hur h2
    exact ⟨c2, by rw [if_pos (by rw [ho]; simp)]; exact h2, g2, ⟨⟨u, os.units.trans hu, hul⟩, ⟨_, os.origin, trivial⟩⟩, os.rest,
      os.world (by rw [ho]; simp), toCentre_galaxy_rows ho hur h2, os.gcp⟩
  · have hno : ¬ (c.origin ≠ some .cluster ∧ c.origin ≠ some .centre) := by
      cases o <;> simp [Origin.linear] at hol hgal <;> simp [ho]
    refine ⟨c, by rw [if_neg hno], hg, ⟨⟨u, hu, hul⟩, ⟨o, ho, hol⟩⟩, rfl, rfl, ?_, rfl⟩
    unfold centred
    rw [if_neg (by rw [ho]; simpa using hgal)]

theorem rotateStar_ok (q u : ℝ) (p : Ph) : Rotated (u < q) p (rotateStar q u p) := by
  obtain ⟨h3, h4⟩ := polar (x := p.x) (y := p.y)
  have c1 := Real.sin_sq_add_cos_sq (arctan2 p.y p.x)
  have hrt := C32_cyl_roundtrip p
  have hm := C32_cyl_meaning p
  simp only at hm
  obtain ⟨hR, hR2, -, -, -, hsp, hrad, hlz⟩ := hm
  set s := cartToCyl p with hs
  have hx : s.R * Real.cos s.phi = p.x := h3
  have hy : s.R * Real.sin s.phi = p.y := h4
  have hc : Real.sin s.phi ^ 2 + Real.cos s.phi ^ 2 = 1 := c1
  have hvz : s.vz = p.vz := rfl
  have hz : s.z = p.z := rfl
  -- whatever the new `vT`
  have gen : ∀ t : ℝ, t ^ 2 = s.vT ^ 2 → (cylToCart { s with vT := t }).x = p.x ∧ (cylToCart { s with vT := t }).y = p.y ∧
      (cylToCart { s with vT := t }).z = p.z ∧ (cylToCart { s with vT := t }).vz = p.vz ∧
      (cylToCart { s with vT := t }).x * (cylToCart { s with vT := t }).vx + (cylToCart { s with vT := t }).y * (cylToCart { s with vT := t }).vy =
        p.x * p.vx + p.y * p.vy ∧
      (cylToCart { s with vT := t }).vx ^ 2 + (cylToCart { s with vT := t }).vy ^ 2 = p.vx ^ 2 + p.vy ^ 2 ∧
      Lz (cylToCart { s with vT := t }) = t * s.R := by
    intro t ht
    refine ⟨hx, hy, hz, hvz, ?_, ?_, ?_⟩
    · simp only [cylToCart]
      linear_combination (s.R * s.vR) * hc + hrad
    · simp only [cylToCart]
      rw [hvz] at hsp
      linear_combination (s.vR ^ 2 + t ^ 2) * hc + ht + hsp
    · simp only [Lz, cylToCart]
      linear_combination (t * s.R) * hc
  have hlz' : Lz p = s.vT * s.R := by unfold Lz; linarith
  unfold rotateStar
  simp only [← hs]
  by_cases hcase : s.vT < 0 ∧ u < q
  · simp only [if_pos hcase]
    have hsq : Real.sqrt (s.vT * s.vT) = |s.vT| := Real.sqrt_mul_self_eq_abs _
    rw [hsq]
    obtain ⟨a1, a2, a3, a4, a5, a6, a7⟩ := gen |s.vT| (sq_abs _)
    refine ⟨fun h => absurd hcase.2 h, a1, a2, a3, a4, a5, a6, fun _ => ?_⟩
    rw [a7, hlz', abs_mul, abs_of_nonneg hR]
  · simp only [if_neg hcase]
    obtain ⟨a1, a2, a3, a4, a5, a6, a7⟩ := gen s.vT rfl
    refine ⟨fun _ => hrt, a1, a2, a3, a4, a5, a6, fun h => ?_⟩
    have : 0 ≤ s.vT := by
      by_contra hneg
      exact hcase ⟨lt_of_not_ge hneg, h⟩
    rw [a7, hlz', abs_mul, abs_of_nonneg hR, abs_of_nonneg this]

/-- What the call does, whatever the origin. -/
theorem addRotation_run {g : Galpy} {qrot : ℝ} {draws : List ℝ} {c : Cluster} (p : Pos g c) (l : Lin c) (hg : Good c) :
    ∃ c2, addRotation g qrot draws c = .ok (List.zipWith (rotateStar qrot) draws (centred c), c2) ∧ c2.data = c.data ∧ Fresh c2 := by
  obtain ⟨c1, h1, g1, l1, r1, w1, st1, -⟩ := go_centre (g := g) (s := true) l hg
  obtain ⟨c2, h2, d2, f2, -⟩ := return_of_world (sort := false) (cm := none) p l hg g1 l1 r1 w1
  refine ⟨c2, ?_, d2, f2⟩
  unfold addRotation
  simp only [bind]
  refine ite_bind_of (f := fun c1 => (returnCluster g (saveCluster c) false none c1).bind fun c2 =>
      pure (List.zipWith (rotateStar qrot) draws c1.st, c2)) h1 ?_
  simp only [h2, Except.bind, pure, Except.pure, st1]

theorem norms_congr {q : Ph → ℝ} {st st' : List Ph} {l : List ℝ} (h : AreNorms q st l)
    (h2 : List.Forall₂ (fun p p' => q p' = q p) st st') : AreNorms q st' l := by
  unfold AreNorms at *
  induction h generalizing st' with
  | nil => cases h2; exact .nil
  | cons h _ ih =>
    cases h2 with
    | cons h3 h4 => exact .cons (by rw [h3]; exact h) (ih h4)

theorem zip_rotated (q : ℝ) : ∀ {draws : List ℝ} {st : List Ph}, draws.length = st.length →
    List.Forall₂ (fun p p' => ∃ u ∈ draws, Rotated (u < q) p p') st (List.zipWith (rotateStar q) draws st)
  | [], [], _ => .nil
  | [], _ :: _, h => by simp at h
  | _ :: _, [], h => by simp at h
  | u :: draws, p :: st, h => by
    refine .cons ⟨u, List.mem_cons_self, rotateStar_ok q u p⟩ ?_
    refine (zip_rotated q (by simpa using h)).imp fun p p' ⟨v, hv, hr⟩ => ⟨v, List.mem_cons_of_mem _ hv, hr⟩

theorem zipWith_at (q : ℝ) {draws : List ℝ} {st : List Ph} (h : draws.length = st.length) {i : ℕ} (hi : i < st.length) :
    (List.zipWith (rotateStar q) draws st)[i]! = rotateStar q draws[i]! st[i]! := by
  rw [getElem!_pos _ i (by simp; omega), getElem!_pos draws i (by omega), getElem!_pos st i hi, List.getElem_zipWith]

/-- **C70.**  On a cluster given from its position or centre `add_rotation(qrot)` keeps every star's position, speed and
motion away from the z axis and, for the stars whose random number is below `qrot`, makes the angular momentum about the z
axis positive; the other stars, the masses, the labels, the centre, the orbit position and the time are unchanged, and the derived
radii and speeds are still right. -/
theorem C70_add_rotation {g : Galpy} {qrot : ℝ} {draws : List ℝ} {c : Cluster} (p : Pos g c) (l : Lin c) (hg : Good c)
    (ho : c.origin = some .cluster ∨ c.origin = some .centre) (hd : draws.length = c.st.length) :
    ∃ c', addRotationMethod g qrot draws c = .ok c' ∧ { c'.data with st := c.st } = c.data ∧ c'.st.length = c.st.length ∧
      (∀ i < c.st.length, Rotated (draws[i]! < qrot) c.st[i]! c'.st[i]!) ∧ Fresh c' := by
  obtain ⟨c2, h2, d2, f2⟩ := addRotation_run (qrot := qrot) (draws := draws) p l hg
  have hcen : centred c = c.st := by
    unfold centred
    rw [if_neg]
    rcases ho with h | h <;> rw [h] <;> simp
  rw [hcen] at h2
  have hst2 : c2.st = c.st := congrArg Data.st d2
  refine ⟨{ c2 with st := List.zipWith (rotateStar qrot) draws c.st }, ?_, ?_, by simp [hd], ?_, ?_⟩
  · unfold addRotationMethod
    simp only [h2, bind, Except.bind, pure, Except.pure]
  · rw [← d2]
    show ({ units := c2.units, origin := c2.origin, tphys := c2.tphys, m := c2.m, st := c.st, c := c2.c, gc := c2.gc } : Data) = c2.data
    rw [← hst2]; rfl
  · intro i hi
    simp only [zipWith_at qrot hd hi]
    exact rotateStar_ok _ _ _
  · have hz := zip_rotated qrot hd
    rw [hst2.symm] at hz
    have hlen : (List.zipWith (rotateStar qrot) draws c2.st).length = c2.st.length := by simp [hd, hst2]
    have hx : ∀ (q : Ph → ℝ), (∀ t p p', Rotated t p p' → q p' = q p) →
        List.Forall₂ (fun p p' => q p' = q p) c2.st (List.zipWith (rotateStar qrot) draws c2.st) := by
      intro q hq
      exact hz.imp fun p p' ⟨u, _, hr⟩ => hq _ p p' hr
    rw [← hst2]
    exact {
      units := f2.units
      origin := f2.origin
      r := norms_congr f2.r (hx _ fun t p p' h => by simp only [h.x, h.y, h.z])
      rpro := norms_congr f2.rpro (hx _ fun t p p' h => by simp only [h.x, h.y])
      v := norms_congr f2.v (hx _ fun t p p' h => by simp only [h.vz]; linarith [h.speed])
      vpro := norms_congr f2.vpro (hx _ fun t p p' h => h.speed)
      mtot := f2.mtot
      mmean := f2.mmean
      rmean := by simpa [hlen, hd, hst2] using f2.rmean
      rmeanpro := by simpa [hlen, hd, hst2] using f2.rmeanpro
      rmax := f2.rmax
      rmaxpro := f2.rmaxpro }

/-- **C70 (extremes).**  Random numbers being in `[0,1)`: with `qrot ≥ 1` every star rotates in the positive sense or not at
all; with `qrot ≤ 0` nothing is changed. -/
theorem C70_extremes {g : Galpy} {qrot : ℝ} {draws : List ℝ} {c c' : Cluster} (p : Pos g c) (l : Lin c) (hg : Good c)
    (ho : c.origin = some .cluster ∨ c.origin = some .centre) (hd : draws.length = c.st.length)
    (hu : ∀ u ∈ draws, 0 ≤ u ∧ u < 1) (h : addRotationMethod g qrot draws c = .ok c') :
    (1 ≤ qrot → ∀ q ∈ c'.st, 0 ≤ Lz q) ∧ (qrot ≤ 0 → c'.data = c.data) := by
  obtain ⟨c1, h1, d1, len, rows, -⟩ := C70_add_rotation (qrot := qrot) p l hg ho hd
  rw [h] at h1
  injection h1 with h1
  subst h1
  have hmem : ∀ i < c.st.length, draws[i]! ∈ draws := fun i hi => by
    rw [getElem!_pos draws i (by omega)]; exact List.getElem_mem _
  refine ⟨fun hq x hx => ?_, fun hq => ?_⟩
  · obtain ⟨i, hi, rfl⟩ := List.getElem_of_mem hx
    have := (rows i (by omega)).momentum (lt_of_lt_of_le (hu _ (hmem i (by omega))).2 hq)
    rw [getElem!_pos c'.st i hi] at this
    rw [this]; exact abs_nonneg _
  · have : c'.st = c.st := by
      refine List.ext_getElem len fun i hi hi2 => ?_
      have := (rows i hi2).same (not_lt.mpr (hq.trans (hu _ (hmem i hi2)).1))
      rwa [getElem!_pos c'.st i hi, getElem!_pos c.st i hi2] at this
    rw [← d1]
    rw [← this]
    rfl

/-- **C73 is violated for clusters given from the galactic centre:** the stars' positions relative to the cluster centre are stored
as galactocentric ones, so that every star is displaced by the cluster's position (and centre). -/
theorem C73_galaxy_violated {g : Galpy} {qrot : ℝ} {draws : List ℝ} {c : Cluster} (p : Pos g c) (l : Lin c) (hg : Good c)
    (ho : c.origin = some .galaxy) (hd : draws.length = c.st.length) :
    ∃ c', addRotationMethod g qrot draws c = .ok c' ∧ c'.origin = some .galaxy ∧ c'.gc = c.gc ∧ c'.c = c.c ∧
      c'.st.length = c.st.length ∧
      ∀ i < c.st.length, (c'.st[i]!).x = (c.st[i]!).x - c.gc.x - c.c.x ∧ (c'.st[i]!).y = (c.st[i]!).y - c.gc.y - c.c.y ∧
        (c'.st[i]!).z = (c.st[i]!).z - c.gc.z - c.c.z := by
  obtain ⟨c2, h2, d2, f2⟩ := addRotation_run (qrot := qrot) (draws := draws) p l hg
  refine ⟨{ c2 with st := List.zipWith (rotateStar qrot) draws (centred c) }, ?_, (congrArg Data.origin d2).trans ho, congrArg Data.gc d2,
    congrArg Data.c d2, by simp [hd, centred_length], ?_⟩
  · unfold addRotationMethod
    simp only [h2, bind, Except.bind, pure, Except.pure]
  · intro i hi
    have hi' : i < (centred c).length := by rw [centred_length]; exact hi
    have hr := rotateStar_ok qrot draws[i]! (centred c)[i]!
    simp only [zipWith_at qrot (hd.trans (centred_length c).symm) hi']
    rw [hr.x, hr.y, hr.z]
    unfold centred
    rw [if_pos ho, getElem!_pos _ i (by simpa using hi), getElem!_pos c.st i hi, List.getElem_map]
    exact ⟨rfl, rfl, rfl⟩

/-- A star moving clockwise is turned round if its random number is small enough, a star on the axis keeps no angular momentum. -/
example : Rotated (0.3 < (0.5 : ℝ)) ⟨1, 0, 0, 2, -3, 1⟩ ⟨1, 0, 0, 2, 3, 1⟩ :=
  ⟨fun h => absurd (by norm_num) h, rfl, rfl, rfl, rfl, by norm_num, by norm_num, fun _ => by norm_num [Lz]⟩

/-- The hypotheses are met by the demonstration cluster, given from its own position … -/
example : ∃ c', addRotationMethod demoG 0.5 [0.2, 0.9] demo = .ok c' ∧ c'.st.length = 2 :=
  let ⟨c', h, _, hl, _⟩ := C70_add_rotation (qrot := 0.5) (draws := [0.2, 0.9]) demo_pos demo_lin demo_good (Or.inl rfl) rfl
  ⟨c', h, hl⟩

/-- … and from the galactic centre: every star then loses its 8001 pc in `x`. -/
example : ∃ c', addRotationMethod demoG 0.5 [0.2, 0.9] { demo with origin := some .galaxy } = .ok c' ∧ (c'.st[0]!).x = 3 - 8000 - 1 :=
  let ⟨c', h, _, _, _, _, hi⟩ := C73_galaxy_violated (g := demoG) (qrot := 0.5) (draws := [0.2, 0.9]) (c := { demo with origin := some .galaxy })
    (by constructor <;> norm_num [demoG, demo]) ⟨⟨_, rfl, trivial⟩, ⟨_, rfl, trivial⟩⟩ ⟨demo_good.ne, demo_good.len, demo_good.mass, demo_good.ro, demo_good.rpo⟩ rfl rfl
  ⟨c', h, (hi 0 (by simp [demo])).1⟩

end

end CT
