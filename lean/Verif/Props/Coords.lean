/- C32: spherical and cylindrical coordinates. -/
import Verif.Model.Coords
import Verif.Lemmas.Frame
import Verif.Spec.Demo

namespace CT

noncomputable section

set_option linter.unusedSimpArgs false

theorem polar {x y : ℝ} : Real.sqrt (x ^ 2 + y ^ 2) * Real.cos (arctan2 y x) = x ∧
    Real.sqrt (x ^ 2 + y ^ 2) * Real.sin (arctan2 y x) = y := by
  have hn : ‖(⟨x, y⟩ : ℂ)‖ = Real.sqrt (x ^ 2 + y ^ 2) := by
    rw [Complex.norm_def, Complex.normSq_mk]; congr 1; ring
  have h := Complex.norm_mul_cos_add_sin_mul_I (⟨x, y⟩ : ℂ)
  rw [hn] at h
  have hre := congrArg Complex.re h
  have him := congrArg Complex.im h
  simp [-Complex.norm_mul_cos_add_sin_mul_I, Complex.cos_ofReal_re, Complex.sin_ofReal_re] at hre him
  exact ⟨hre, him⟩

/-- `cos θ` and `sin θ` for `θ = arccos(z/r)`. -/
theorem polar_angle {x y z : ℝ} (h : x ^ 2 + y ^ 2 + z ^ 2 ≠ 0) :
    Real.sqrt (x ^ 2 + y ^ 2 + z ^ 2) * Real.cos (Real.arccos (z / Real.sqrt (x ^ 2 + y ^ 2 + z ^ 2))) = z ∧
    Real.sqrt (x ^ 2 + y ^ 2 + z ^ 2) * Real.sin (Real.arccos (z / Real.sqrt (x ^ 2 + y ^ 2 + z ^ 2))) =
      Real.sqrt (x ^ 2 + y ^ 2) := by
  obtain ⟨r, hr⟩ : ∃ r, r = Real.sqrt (x ^ 2 + y ^ 2 + z ^ 2) := ⟨_, rfl⟩
  have hpos : 0 < x ^ 2 + y ^ 2 + z ^ 2 := lt_of_le_of_ne (by positivity) (Ne.symm h)
  have rpos : 0 < r := by rw [hr]; exact Real.sqrt_pos.mpr hpos
  have rsq : r ^ 2 = x ^ 2 + y ^ 2 + z ^ 2 := by rw [hr]; exact Real.sq_sqrt hpos.le
  rw [← hr]
  have hz : z ^ 2 ≤ r ^ 2 := by rw [rsq]; nlinarith [sq_nonneg x, sq_nonneg y]
  have habs : |z| ≤ r := abs_le_of_sq_le_sq hz rpos.le
  have h1 : -1 ≤ z / r := by rw [le_div_iff₀ rpos]; linarith [neg_le_of_abs_le habs]
  have h2 : z / r ≤ 1 := by rw [div_le_one rpos]; exact (abs_le.mp habs).2
  refine ⟨?_, ?_⟩
  · rw [Real.cos_arccos h1 h2]; field_simp
  · rw [Real.sin_arccos]
    have e : x ^ 2 + y ^ 2 = r ^ 2 * (1 - (z / r) ^ 2) := by
      field_simp; linarith [rsq]
    rw [e, Real.sqrt_mul (by positivity), Real.sqrt_sq rpos.le]

/-- **C32 (spherical).**  `sphere_to_cart(*cart_to_sphere(p)) = p` for every point other than the origin and every
velocity. -/
theorem C32_sphere_roundtrip (p : Ph) (h : p.x ^ 2 + p.y ^ 2 + p.z ^ 2 ≠ 0) : sphereToCart (cartToSphere p) = p := by
  obtain ⟨h1, h2⟩ := polar_angle h
  obtain ⟨h3, h4⟩ := polar (x := p.x) (y := p.y)
  have c1 := Real.sin_sq_add_cos_sq (arctan2 p.y p.x)
  have c2 := Real.sin_sq_add_cos_sq (Real.arccos (p.z / Real.sqrt (p.x ^ 2 + p.y ^ 2 + p.z ^ 2)))
  rw [← h2] at h3 h4
  ext
  · simp only [sphereToCart, cartToSphere]; linarith
  · simp only [sphereToCart, cartToSphere]; linarith
  · simp only [sphereToCart, cartToSphere]; exact h1
  all_goals
    simp only [sphereToCart, cartToSphere]
    generalize Real.arccos _ = θ at *
    generalize arctan2 _ _ = φ at *
    generalize Real.sin φ = sf at *
    generalize Real.cos φ = cf at *
    generalize Real.sin θ = st at *
    generalize Real.cos θ = ct at *
    have e1 : cf ^ 2 = 1 - sf ^ 2 := by linarith
    have e2 : ct ^ 2 = 1 - st ^ 2 := by linarith
    ring_nf
    try simp only [e1, e2]
    try ring_nf
    try simp only [e1, e2]
    try ring

/-- **C32 (spherical, meaning).**  `r` is the distance, `theta ∈ [0,π]`, `phi ∈ (-π,π]`, and the speed is preserved;
`vr` is the radial velocity. -/
theorem C32_sphere_meaning (p : Ph) (h : p.x ^ 2 + p.y ^ 2 + p.z ^ 2 ≠ 0) :
    let s := cartToSphere p
    0 < s.r ∧ s.r ^ 2 = p.x ^ 2 + p.y ^ 2 + p.z ^ 2 ∧ 0 ≤ s.theta ∧ s.theta ≤ Real.pi ∧ -Real.pi < s.phi ∧
    s.phi ≤ Real.pi ∧ s.vr ^ 2 + s.vphi ^ 2 + s.vtheta ^ 2 = p.vx ^ 2 + p.vy ^ 2 + p.vz ^ 2 ∧
    s.vr * s.r = p.x * p.vx + p.y * p.vy + p.z * p.vz := by
  have hpos : 0 < p.x ^ 2 + p.y ^ 2 + p.z ^ 2 := lt_of_le_of_ne (by positivity) (Ne.symm h)
  obtain ⟨h1, h2⟩ := polar_angle h
  obtain ⟨h3, h4⟩ := polar (x := p.x) (y := p.y)
  have c1 := Real.sin_sq_add_cos_sq (arctan2 p.y p.x)
  have c2 := Real.sin_sq_add_cos_sq (Real.arccos (p.z / Real.sqrt (p.x ^ 2 + p.y ^ 2 + p.z ^ 2)))
  rw [← h2] at h3 h4
  refine ⟨Real.sqrt_pos.mpr hpos, Real.sq_sqrt hpos.le, Real.arccos_nonneg _, Real.arccos_le_pi _,
    Complex.neg_pi_lt_arg _, Complex.arg_le_pi _, ?_, ?_⟩
  · simp only [cartToSphere]
    generalize Real.arccos _ = θ at *
    generalize arctan2 _ _ = φ at *
    generalize Real.sin φ = sf at *
    generalize Real.cos φ = cf at *
    generalize Real.sin θ = st at *
    generalize Real.cos θ = ct at *
    have e1 : cf ^ 2 = 1 - sf ^ 2 := by linarith
    have e2 : ct ^ 2 = 1 - st ^ 2 := by linarith
    ring_nf
    simp only [e1, e2]
    ring
  · simp only [cartToSphere]
    generalize Real.sqrt _ = r at *
    generalize Real.arccos _ = θ at *
    generalize arctan2 _ _ = φ at *
    rw [← h3, ← h4, ← h1]
    ring

/-- **C32 (spherical, the other way).**  Off the polar axis `cart_to_sphere(*sphere_to_cart(s)) = s`. -/
theorem C32_sphere_inverse (s : Sph) (hr : 0 < s.r) (h1 : 0 < s.theta) (h2 : s.theta < Real.pi)
    (h3 : -Real.pi < s.phi) (h4 : s.phi ≤ Real.pi) : cartToSphere (sphereToCart s) = s := by
  have c1 := Real.sin_sq_add_cos_sq s.phi
  have c2 := Real.sin_sq_add_cos_sq s.theta
  have hs : 0 < Real.sin s.theta := Real.sin_pos_of_pos_of_lt_pi h1 h2
  have er : Real.sqrt ((sphereToCart s).x ^ 2 + (sphereToCart s).y ^ 2 + (sphereToCart s).z ^ 2) = s.r := by
    have : (sphereToCart s).x ^ 2 + (sphereToCart s).y ^ 2 + (sphereToCart s).z ^ 2 = s.r ^ 2 := by
      simp only [sphereToCart]
      have e1 : Real.cos s.phi ^ 2 = 1 - Real.sin s.phi ^ 2 := by linarith
      have e2 : Real.cos s.theta ^ 2 = 1 - Real.sin s.theta ^ 2 := by linarith
      ring_nf
      simp only [e1, e2]
      ring
    rw [this, Real.sqrt_sq hr.le]
  have ephi : arctan2 (sphereToCart s).y (sphereToCart s).x = s.phi := by
    unfold arctan2
    have : (⟨(sphereToCart s).x, (sphereToCart s).y⟩ : ℂ) =
        ((s.r * Real.sin s.theta : ℝ) : ℂ) * (Complex.cos s.phi + Complex.sin s.phi * Complex.I) := by
      apply Complex.ext
      · simp [sphereToCart, Complex.cos_ofReal_re, Complex.sin_ofReal_re]; ring
      · simp [sphereToCart, Complex.cos_ofReal_re, Complex.sin_ofReal_re]; ring
    rw [this]
    exact Complex.arg_mul_cos_add_sin_mul_I (by positivity) ⟨h3, h4⟩
  have etheta : Real.arccos ((sphereToCart s).z / s.r) = s.theta := by
    have : (sphereToCart s).z / s.r = Real.cos s.theta := by
      simp only [sphereToCart]; field_simp
    rw [this, Real.arccos_cos h1.le h2.le]
  unfold cartToSphere
  simp only [er, ephi, etheta]
  ext
  · rfl
  · rfl
  · rfl
  all_goals
    simp only [sphereToCart]
    have e1 : Real.cos s.phi ^ 2 = 1 - Real.sin s.phi ^ 2 := by linarith
    have e2 : Real.cos s.theta ^ 2 = 1 - Real.sin s.theta ^ 2 := by linarith
    ring_nf
    try simp only [e1, e2]
    try ring_nf
    try simp only [e1, e2]
    try ring

/-- **C32 (cylindrical).**  `cyl_to_cart(*cart_to_cyl(p)) = p` for every point and velocity (also on the axis). -/
theorem C32_cyl_roundtrip (p : Ph) : cylToCart (cartToCyl p) = p := by
  obtain ⟨h3, h4⟩ := polar (x := p.x) (y := p.y)
  have c1 := Real.sin_sq_add_cos_sq (arctan2 p.y p.x)
  ext
  · exact h3
  · exact h4
  · rfl
  · simp only [cylToCart, cartToCyl]
    have e1 : Real.cos (arctan2 p.y p.x) ^ 2 = 1 - Real.sin (arctan2 p.y p.x) ^ 2 := by linarith
    ring_nf; simp only [e1]; ring
  · simp only [cylToCart, cartToCyl]
    have e1 : Real.cos (arctan2 p.y p.x) ^ 2 = 1 - Real.sin (arctan2 p.y p.x) ^ 2 := by linarith
    ring_nf; simp only [e1]; ring
  · rfl

/-- **C32 (cylindrical, meaning).** -/
theorem C32_cyl_meaning (p : Ph) :
    let s := cartToCyl p
    0 ≤ s.R ∧ s.R ^ 2 = p.x ^ 2 + p.y ^ 2 ∧ s.z = p.z ∧ -Real.pi < s.phi ∧ s.phi ≤ Real.pi ∧
    s.vR ^ 2 + s.vT ^ 2 + s.vz ^ 2 = p.vx ^ 2 + p.vy ^ 2 + p.vz ^ 2 ∧
    s.vR * s.R = p.x * p.vx + p.y * p.vy ∧ s.vT * s.R = p.x * p.vy - p.y * p.vx := by
  obtain ⟨h3, h4⟩ := polar (x := p.x) (y := p.y)
  have c1 := Real.sin_sq_add_cos_sq (arctan2 p.y p.x)
  refine ⟨Real.sqrt_nonneg _, Real.sq_sqrt (by positivity), rfl, Complex.neg_pi_lt_arg _, Complex.arg_le_pi _, ?_, ?_, ?_⟩
  · simp only [cartToCyl]
    have e1 : Real.cos (arctan2 p.y p.x) ^ 2 = 1 - Real.sin (arctan2 p.y p.x) ^ 2 := by linarith
    ring_nf; simp only [e1]; ring
  · simp only [cartToCyl]
    generalize Real.sqrt _ = r at *
    generalize arctan2 _ _ = φ at *
    rw [← h3, ← h4]; ring
  · simp only [cartToCyl]
    generalize Real.sqrt _ = r at *
    generalize arctan2 _ _ = φ at *
    rw [← h3, ← h4]; ring

/-- **C32 (cylindrical, the other way).** -/
theorem C32_cyl_inverse (s : Cyl) (hr : 0 < s.R) (h3 : -Real.pi < s.phi) (h4 : s.phi ≤ Real.pi) :
    cartToCyl (cylToCart s) = s := by
  have c1 := Real.sin_sq_add_cos_sq s.phi
  have e1 : Real.cos s.phi ^ 2 = 1 - Real.sin s.phi ^ 2 := by linarith
  have ephi : arctan2 (cylToCart s).y (cylToCart s).x = s.phi := by
    unfold arctan2
    have : (⟨(cylToCart s).x, (cylToCart s).y⟩ : ℂ) =
        ((s.R : ℝ) : ℂ) * (Complex.cos s.phi + Complex.sin s.phi * Complex.I) := by
      apply Complex.ext
      · simp [cylToCart, Complex.cos_ofReal_re, Complex.sin_ofReal_re]
      · simp [cylToCart, Complex.cos_ofReal_re, Complex.sin_ofReal_re]
    rw [this]
    exact Complex.arg_mul_cos_add_sin_mul_I hr ⟨h3, h4⟩
  have er : Real.sqrt ((cylToCart s).x ^ 2 + (cylToCart s).y ^ 2) = s.R := by
    have : (cylToCart s).x ^ 2 + (cylToCart s).y ^ 2 = s.R ^ 2 := by
      simp only [cylToCart]; ring_nf; simp only [e1]; ring
    rw [this, Real.sqrt_sq hr.le]
  unfold cartToCyl
  simp only [ephi, er]
  ext
  · rfl
  · rfl
  · rfl
  · simp only [cylToCart]; ring_nf; simp only [e1]; ring
  · simp only [cylToCart]; ring_nf; simp only [e1]; ring
  · rfl

/-! ### on a cluster -/

/-- Only AMUSE units are stripped. -/
theorem strip_amuse {g : Galpy} {c : Cluster} (p : Pos g c) (l : Lin c) (hg : Good c) (f : Fresh c) :
    ∃ c1, (if c.units = some .amuse then toPckms g true c else .ok c) = .ok c1 ∧ c1.st = c.st ∧ c1.m = c.m ∧
      Good c1 ∧ Lin c1 ∧ Fresh c1 ∧ c1.rest = c.rest ∧ world g c1 = world g c ∧
      c1.units = (if c.units = some .amuse then some .pckms else c.units) ∧ c1.origin = c.origin := by
  by_cases ha : c.units = some .amuse
  · obtain ⟨c2, h2, g2⟩ := toPckms_total (g := g) (a := true) ha trivial p hg
    have us := toPckms_ustep ha trivial h2
    obtain ⟨k1, k2, k3, k4, k5⟩ := toPckms_amuse ha h2
    exact ⟨c2, by rw [if_pos ha]; exact h2, k2, k1, g2, ⟨⟨_, k3, trivial⟩, by rw [k4]; exact l.2⟩, k5, us.rest, us.world,
      by rw [if_pos ha, k3], k4⟩
  · exact ⟨c, by rw [if_neg ha], rfl, rfl, hg, l, f, rfl, rfl, by rw [if_neg ha], rfl⟩

/-- **C66 (on a cluster).**  `sphere_coords` and `cyl_coords` return the coordinates of every star, in order, and leave
the cluster as it was. -/
theorem C66_cluster {g : Galpy} {c : Cluster} (p : Pos g c) (l : Lin c) (hg : Good c) (f : Fresh c) :
    (∃ s c', sphereCoords g c = .ok (s, c') ∧ c'.data = c.data ∧ Fresh c' ∧ s.length = c.st.length ∧
      ((∀ q ∈ c.st, q.x ^ 2 + q.y ^ 2 + q.z ^ 2 ≠ 0) → s.map sphereToCart = c.st)) ∧
    (∃ s c', cylCoords g c = .ok (s, c') ∧ c'.data = c.data ∧ Fresh c' ∧ s.map cylToCart = c.st) := by
  obtain ⟨c1, h1, s1, m1, g1, l1, f1, r1, w1, -, -⟩ := strip_amuse p l hg f
  obtain ⟨c2, h2, d2, f2, -⟩ := return_of_world (sort := false) (cm := none) p l hg g1 l1 r1 w1
  have ho : c.origin ≠ some .sky := by
    obtain ⟨-, o, ho, hl⟩ := l
    rw [ho]; rintro e; cases e; exact hl
  have key : ∀ {α : Type} (f : Ph → α), coordsOf f g c = .ok (c.st.map f, c2) := by
    intro α f
    unfold coordsOf
    simp only [if_neg ho, bind, pure, Except.pure]
    refine ite_bind_of h1 ?_
    simp only [h2, Except.bind, s1]
  refine ⟨⟨_, c2, key _, d2, f2, by simp, ?_⟩, ⟨_, c2, key _, d2, f2, ?_⟩⟩
  · intro hne
    rw [List.map_map]
    conv_rhs => rw [← List.map_id c.st]
    exact List.map_congr_left fun q hq => C32_sphere_roundtrip q (hne q hq)
  · rw [List.map_map]
    conv_rhs => rw [← List.map_id c.st]
    exact List.map_congr_left fun q hq => C32_cyl_roundtrip q

/-- **C66 is violated for clusters with origin `sky`:** both calls raise. -/
theorem C66_sky_violated {g : Galpy} {c : Cluster} (ho : c.origin = some .sky) :
    sphereCoords g c = .error .nameError ∧ cylCoords g c = .error .nameError := by
  simp [sphereCoords, cylCoords, coordsOf, ho, throw, throwThe, MonadExceptOf.throw, bind, Except.bind]

example : cartToSphere ⟨3, 0, 4, 1, 2, 3⟩ ≠ cartToSphere ⟨3, 0, 4, 1, 2, 5⟩ := by
  intro h
  have := congrArg sphereToCart h
  rw [C32_sphere_roundtrip _ (by norm_num), C32_sphere_roundtrip _ (by norm_num)] at this
  simp at this

end

end CT
