/- C138, C139: projections on the plane of the sky. -/
import Verif.Spec.SkyPlane
import Verif.Props.Sky

namespace CT

noncomputable section

theorem rad_deg (a : ℝ) : rad (a * (180 / Real.pi)) = a := by
  unfold rad
  have := Real.pi_ne_zero
  field_simp

theorem rad_deg' (a : ℝ) : rad (180 / Real.pi * a) = a := by rw [mul_comm, rad_deg]

theorem radians_rad (a : ℝ) : radians a = rad a := rfl

theorem plane_east (q p : Ph) : Real.cos (rad p.y) * Real.sin (rad p.x - rad q.x) = (skyDir p.x p.y).dot (skyEast q.x q.y) := by
  simp only [skyDir, skyEast, Vec3.dot, Real.sin_sub]; ring

theorem plane_north (q p : Ph) : Real.sin (rad p.y) * Real.cos (rad q.y) - Real.cos (rad p.y) * Real.sin (rad q.y) * Real.cos (rad p.x - rad q.x)
    = (skyDir p.x p.y).dot (skyNorth q.x q.y) := by
  simp only [skyDir, skyNorth, Vec3.dot, Real.cos_sub]; ring

theorem orthographic_plane (q gc p : Ph) : OnPlane q p (recentred (some .orthographic) q gc p) := by
  refine ⟨?_, ?_, rfl, rfl⟩
  · simp only [recentred, orthographicRow, radians_rad, rad_deg, plane_east]
  · simp only [recentred, orthographicRow, radians_rad, rad_deg, plane_north]

theorem vandeven_plane (q gc p : Ph) : OnPlane q p (recentred (some .vandeven) q gc p) := by
  refine ⟨?_, ?_, rfl, rfl⟩
  · simp only [recentred, vandevenRow, radians_rad]
    rw [mul_assoc, rad_deg', plane_east]
  · simp only [recentred, vandevenRow, radians_rad, rad_deg', plane_north]

theorem orthographic_motion (q gc p : Ph) :
    (recentred (some .orthographic) q gc p).vx + gc.vx = (skyMotion p).dot (skyEast q.x q.y) ∧
    (recentred (some .orthographic) q gc p).vy + gc.vy = (skyMotion p).dot (skyNorth q.x q.y) := by
  constructor
  · simp only [recentred, orthographicRow, radians_rad, skyMotion, skyEast, skyNorth, Vec3.dot, Real.sin_sub, Real.cos_sub]; ring
  · simp only [recentred, orthographicRow, radians_rad, skyMotion, skyEast, skyNorth, Vec3.dot, Real.sin_sub, Real.cos_sub]; ring

/-- Recentring after any history on the sky that ends with `to_sky`. -/
theorem recentre_after {g : Galpy} {c : Cluster} (ks : List Call) (s s' : Bool) (cm : Option CentreMethod) (k : CentreMethod) (h : SkyState c)
    (hg : Good c) (hk : ∀ k ∈ ks, k.onSky) :
    (∃ c', calls g (ks ++ [.toSky s cm, .op (.toCluster s' (some k))]) c = .ok c' ∧ c'.origin = some .cluster ∧
      c'.st = c.sky.map (recentred (some k) c.gc c.gc) ∧ c'.sky = c.sky) ∧
    ∃ c', calls g (ks ++ [.toSky s cm, .op (.toCentre s' (some k))]) c = .ok c' ∧ c'.origin = some .centre ∧
      c'.st = c.sky.map (recentred (some k) c.c c.gc) ∧ c'.sky = c.sky := by
  obtain ⟨c1, e1, k1, s1, g1⟩ := onSky_steps (g := g) (ks ++ [.toSky s cm]) h hg (by
    intro k hk'; rcases List.mem_append.mp hk' with h | h
    · exact hk k h
    · simp only [List.mem_singleton] at h; subst h; trivial)
  obtain ⟨c1', e1', -, o1, -⟩ := C14_restores g c ks s cm h hg hk
  rw [e1] at e1'; injection e1' with e1'; subst e1'
  have split : ∀ op : Op, ks ++ [Call.toSky s cm, .op op] = (ks ++ [.toSky s cm]) ++ [.op op] := by intro op; simp
  constructor
  · obtain ⟨c2, e2, k2, g2, o2, -, st2, -⟩ := toCluster_sky (s := s') (cm := some k) s1 g1
    refine ⟨c2, ?_, o2, ?_, k2.sky.trans k1.sky⟩
    · rw [split, calls_append, e1]
      simp only [Except.bind, calls, Call.exec, Op.exec, e2]
    · rw [st2 (by rw [o1]; simp), k1.sky, k1.gcp]; rfl
  · obtain ⟨c2, e2, k2, g2, o2, -, st2, -⟩ := toCentre_sky (s := s') (cm := some k) s1 g1
    refine ⟨c2, ?_, o2, ?_, k2.sky.trans k1.sky⟩
    · rw [split, calls_append, e1]
      simp only [Except.bind, calls, Call.exec, Op.exec, e2]
    · rw [st2 (by rw [o1]; simp), k1.sky, k1.gcp, k1.ctr]; rfl

/-- C138: after any history of recentrings on the sky and `to_sky`, `to_cluster` (`to_centre`) with the orthographic or the van de Ven
method gives every star, in degrees, the components of its direction along the east and the north of the cluster's position (of the
centre), with the differences of distance and line-of-sight velocity. -/
theorem C138_plane (g : Galpy) (c : Cluster) (ks : List Call) (s s' : Bool) (cm : Option CentreMethod) (k : CentreMethod) (h : SkyState c) (hg : Good c)
    (hk : ∀ k ∈ ks, k.onSky) (hm : k = .orthographic ∨ k = .vandeven) :
    (∃ c', calls g (ks ++ [.toSky s cm, .op (.toCluster s' (some k))]) c = .ok c' ∧ List.Forall₂ (OnPlane c.gc) c.sky c'.st) ∧
    ∃ c', calls g (ks ++ [.toSky s cm, .op (.toCentre s' (some k))]) c = .ok c' ∧ List.Forall₂ (OnPlane c.c) c.sky c'.st := by
  obtain ⟨⟨c1, e1, -, st1, -⟩, ⟨c2, e2, -, st2, -⟩⟩ := recentre_after (g := g) ks s s' cm k h hg hk
  have F : ∀ q : Ph, ∀ l : List Ph, List.Forall₂ (OnPlane q) l (l.map (recentred (some k) q c.gc)) := by
    intro q l
    rw [List.forall₂_map_right_iff]
    refine List.forall₂_same.mpr fun p _ => ?_
    rcases hm with rfl | rfl
    · exact orthographic_plane q c.gc p
    · exact vandeven_plane q c.gc p
  exact ⟨⟨c1, e1, st1 ▸ F c.gc c.sky⟩, ⟨c2, e2, st2 ▸ F c.c c.sky⟩⟩

/-- C138 (motions): the orthographic `to_cluster` gives every star the components of its motion across the sky along the east and the
north of the cluster's position, relative to the cluster's own proper motion. -/
theorem C138_motion (g : Galpy) (c : Cluster) (ks : List Call) (s s' : Bool) (cm : Option CentreMethod) (h : SkyState c) (hg : Good c)
    (hk : ∀ k ∈ ks, k.onSky) :
    ∃ c', calls g (ks ++ [.toSky s cm, .op (.toCluster s' (some .orthographic))]) c = .ok c' ∧
      List.Forall₂ (fun p r => r.vx = (skyMotion p).dot (skyEast c.gc.x c.gc.y) - c.gc.vx ∧ r.vy = (skyMotion p).dot (skyNorth c.gc.x c.gc.y) - c.gc.vy)
        c.sky c'.st := by
  obtain ⟨⟨c1, e1, -, st1, -⟩, -⟩ := recentre_after (g := g) ks s s' cm .orthographic h hg hk
  refine ⟨c1, e1, ?_⟩
  rw [st1, List.forall₂_map_right_iff]
  refine List.forall₂_same.mpr fun p _ => ?_
  obtain ⟨h1, h2⟩ := orthographic_motion c.gc c.gc p
  exact ⟨by rw [← h1]; ring, by rw [← h2]; ring⟩

/-- The unit vectors at a point of the sky are orthonormal. -/
theorem sky_basis (a b : ℝ) (v : Vec3) :
    (v.dot (skyEast a b)) ^ 2 + (v.dot (skyNorth a b)) ^ 2 + (v.dot (skyDir a b)) ^ 2 = v.dot v := by
  have h1 := Real.sin_sq_add_cos_sq (rad a)
  have h2 := Real.sin_sq_add_cos_sq (rad b)
  obtain ⟨x, y, z⟩ := v
  simp only [Vec3.dot, skyEast, skyNorth, skyDir]
  set sa := Real.sin (rad a)
  set ca := Real.cos (rad a)
  set sb := Real.sin (rad b)
  set cb := Real.cos (rad b)
  linear_combination (x ^ 2 + y ^ 2) * h1 + ((x * ca + y * sa) ^ 2 + z ^ 2) * h2

/-- C138 (angular distance): a row on the plane lies at a distance from the origin that is the sine of the angle between the star and the
reference point. -/
theorem C138_separation (q p r : Ph) (h : OnPlane q p r) :
    (rad r.x) ^ 2 + (rad r.y) ^ 2 = 1 - ((skyDir p.x p.y).dot (skyDir q.x q.y)) ^ 2 := by
  have e := sky_basis q.x q.y (skyDir p.x p.y)
  have u : (skyDir p.x p.y).dot (skyDir p.x p.y) = 1 := by
    have h1 := Real.sin_sq_add_cos_sq (rad p.x)
    have h2 := Real.sin_sq_add_cos_sq (rad p.y)
    simp only [Vec3.dot, skyDir]
    linear_combination (Real.cos (rad p.y)) ^ 2 * h1 + h2
  rw [h.east, h.north]
  linarith

/-- C138 (whole turns): the projections do not depend on whole turns in right ascension. -/
theorem C138_turns (q gc p : Ph) (k : CentreMethod) (hk : k = .orthographic ∨ k = .vandeven) (n : ℤ) :
    recentred (some k) q gc { p with x := p.x + n * 360 } = recentred (some k) q gc p := by
  have e : rad (p.x + n * 360) - rad q.x = rad p.x - rad q.x + n * (2 * Real.pi) := by unfold rad; ring
  rcases hk with rfl | rfl
  · simp only [recentred, orthographicRow, radians_rad, e, Real.sin_add_int_mul_two_pi, Real.cos_add_int_mul_two_pi]
  · simp only [recentred, vandevenRow, radians_rad, e, Real.sin_add_int_mul_two_pi, Real.cos_add_int_mul_two_pi]

/-! ### C139 -/

/-- C139 is false of the code for the default method: a whole turn in right ascension, which is the same direction, moves the star by 360
degrees times the cosine of the declination.  (A cluster across right ascension zero is torn apart.) -/
theorem C139_flat_turn_violated (q gc p : Ph) :
    (recentred none q gc { p with x := p.x + 360 }).x = (recentred none q gc p).x + 360 * Real.cos (rad q.y) ∧
    skyDir (p.x + 360) p.y = skyDir p.x p.y := by
  constructor
  · simp only [recentred, flatRow, radians_rad]; ring
  · have e : rad (p.x + 360) = rad p.x + 2 * Real.pi := by unfold rad; ring
    simp only [skyDir, e, Real.sin_add_two_pi, Real.cos_add_two_pi]

/-- C139 is false of the code for the default method: a cluster at right ascension 0 with a star at 359 degrees and one at 1 degree.  Both
are one degree away from the cluster along the equator; the first is put at 359 degrees. -/
theorem C139_flat_split_violated (g : Galpy) (c : Cluster) (s s' : Bool) (cm : Option CentreMethod) (h : SkyState c) (hg : Good c)
    (hgc : c.gc = ⟨0, 0, 5, 0, 0, 0⟩) (hs : c.sky = [⟨359, 0, 5, 0, 0, 0⟩, ⟨1, 0, 5, 0, 0, 0⟩]) :
    (∃ c', calls g [.toSky s cm, .op (.toCluster s' (some .other))] c = .ok c' ∧ c'.st.map Ph.x = [359, 1]) ∧
    (skyDir 359 0).dot (skyDir 0 0) = (skyDir 1 0).dot (skyDir 0 0) := by
  obtain ⟨⟨c1, e1, -, st1, -⟩, -⟩ := recentre_after (g := g) [] s s' cm .other h hg (by simp)
  refine ⟨⟨c1, e1, ?_⟩, ?_⟩
  · rw [st1, hs, hgc]
    simp [recentred, flatRow, radians]
  · have e : rad 359 = 2 * Real.pi - rad 1 := by unfold rad; ring
    simp only [skyDir, Vec3.dot, e, Real.cos_two_pi_sub]
    simp [rad]

/-- C139 is false of the code for the van de Ven method: the proper motions are not turned into the axes of the reference point.  Whenever
the component of the motion along the reference's east is not the star's own proper motion in right ascension, the result is wrong; for a
star moving north it is wrong by the sine of its declination times the sine of the difference in right ascension. -/
theorem C139_vandeven_motion_violated (q gc p : Ph) (hx : p.vx = 0) :
    (recentred (some .vandeven) q gc p).vx + q.vx = 0 ∧
    (skyMotion p).dot (skyEast q.x q.y) = -(p.vy * Real.sin (rad p.y) * Real.sin (rad p.x - rad q.x)) := by
  constructor
  · simp [recentred, vandevenRow, hx]
  · simp only [skyMotion, skyEast, skyNorth, Vec3.dot, hx, Real.sin_sub]; ring

/-! ### concrete cases -/

example : ∃ c', calls demoG ([.op (.toCentre true (some .vandeven))] ++ [.toSky true none, .op (.toCluster true (some .orthographic))]) demoSky = .ok c' ∧
    List.Forall₂ (OnPlane ⟨10.5, 20.5, 5.5, 1, 2, 3⟩) [⟨10, 20, 5, 1, 2, 3⟩, ⟨11, 21, 6, 1, 2, 4⟩] c'.st :=
  (C138_plane demoG demoSky [.op (.toCentre true (some .vandeven))] true true none .orthographic ⟨rfl, .inl rfl, rfl, fun _ => rfl⟩
    (demo_good.newst (c' := demoSky) rfl rfl rfl rfl) (by simp [Call.onSky]) (.inl rfl)).1

/-- Two stars on either side of right ascension zero. -/
def demoZero : Cluster :=
  { demoSky with st := [⟨359, 0, 5, 0, 0, 0⟩, ⟨1, 0, 5, 0, 0, 0⟩], sky := [⟨359, 0, 5, 0, 0, 0⟩, ⟨1, 0, 5, 0, 0, 0⟩], gc := ⟨0, 0, 5, 0, 0, 0⟩ }

example : ∃ c', calls demoG [.toSky true none, .op (.toCluster true (some .other))] demoZero = .ok c' ∧ c'.st.map Ph.x = [359, 1] :=
  (C139_flat_split_violated demoG demoZero true true none ⟨rfl, .inl rfl, rfl, fun _ => rfl⟩
    (demo_good.newst (c' := demoZero) rfl rfl rfl rfl) rfl rfl).1

end

end CT
