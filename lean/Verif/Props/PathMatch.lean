/- C43: matching stars to an orbital path. -/
import Verif.Props.Orbits
import Verif.Lemmas.Path
import Mathlib.Tactic.IntervalCases

namespace CT

noncomputable section

set_option linter.unusedSimpArgs false

/-! ### galactocentric kpc -/

/-- What `to_galaxy` and `to_kpckms` leave. -/
structure InKpc (g : Galpy) (s : Scale) (c c2 : Cluster) : Prop where
  good : Good c2
  lin : Lin c2
  units : c2.units = some .kpckms
  origin : c2.origin = some .galaxy
  world : world g c2 = world g c
  rest : c2.rest = c.rest
  len : c2.st.length = c.st.length
  star : ∀ i < c.st.length, kpcScale.ph c2.st[i]! = galStar s c i
  gc : kpcScale.ph c2.gc = s.ph c.gc
  ctr : kpcScale.ph c2.c = s.ph c.c

theorem in_kpc {g : Galpy} {c : Cluster} {u : Units} {s : Scale} {sort : Bool} (p : Pos g c) (l : Lin c) (hg : Good c)
    (hu : c.units = some u) (hs : unitScale g c u = some s) :
    ∃ c1 c2, toGalaxy g sort c = .ok c1 ∧ toKpckms g true c1 = .ok c2 ∧ InKpc g s c c2 := by
  have hul : u.linear := by cases u <;> simp only [unitScale, reduceCtorEq] at hs <;> trivial
  have hr : u ≠ .radec := by rintro rfl; exact hul
  have hur : c.units ≠ some .radec := by rw [hu]; simpa using hr
  obtain ⟨o, ho, hol⟩ := l.2
  obtain ⟨c1, h1, g1⟩ := toGalaxy_total (g := g) (s := sort) hur hg
  have os := toGalaxy_ostep ho hol hur h1
  have hu1 : c1.units = some u := os.units.trans hu
  have p1 := p.of_rest os.rest
  obtain ⟨c2, h2, g2⟩ := toKpckms_total (a := true) hu1 hr p1 g1
  have us := toKpckms_ustep hu1 hul h2
  have hw : world g c2 = world g c := us.world.trans (os.world (by simp [ho]))
  have ho2 : c2.origin = some .galaxy := us.origin.trans os.origin
  have hw' := hw
  have hk : unitScale g c2 .kpckms = some kpcScale := rfl
  simp only [world, phys, us.units, hu, hs, hk, ho2, ho, Option.some.injEq, World.mk.injEq] at hw'
  obtain ⟨-, -, pst, pc, pg⟩ := hw'
  have hlen : c2.st.length = c.st.length := by
    have := congrArg List.length pst
    simpa [galRows] using this
  refine ⟨c1, c2, h1, h2, g2, ⟨⟨_, us.units, trivial⟩, ⟨_, ho2, trivial⟩⟩, us.units, ho2, hw, us.rest.trans os.rest, hlen, ?_, pg, pc⟩
  intro i hi
  have := congrArg (fun l => l[i]?) pst
  simp only [galRows, List.getElem?_map] at this
  rw [List.getElem?_eq_getElem hi, List.getElem?_eq_getElem (by omega)] at this
  rw [getElem!_pos c2.st i (by omega)]
  unfold galStar
  rw [getElem!_pos c.st i hi, ho]
  cases o <;> simp only [Origin.linear] at hol <;>
    simp only [galactocentric, Option.map_some, Option.some.injEq] at this <;> rw [this] <;>
    simp [Scale.ph, phAdd, add_mul]

/-! ### one star -/

theorem below_iff (q p : Ph) : angularDot q p < 0 ↔ Below (kpcScale.ph q) (kpcScale.ph p) := by
  unfold angularDot Below kpcScale Scale.ph
  simp only
  have : (q.y * 1000 * (q.vz * 1) - q.z * 1000 * (q.vy * 1)) * (p.x * 1000 - q.x * 1000) +
      (q.z * 1000 * (q.vx * 1) - q.x * 1000 * (q.vz * 1)) * (p.y * 1000 - q.y * 1000) +
      (q.x * 1000 * (q.vy * 1) - q.y * 1000 * (q.vx * 1)) * (p.z * 1000 - q.z * 1000) =
      1000000 * ((p.x - q.x) * (q.y * q.vz - q.z * q.vy) + (p.y - q.y) * (q.z * q.vx - q.x * q.vz) +
        (p.z - q.z) * (q.x * q.vy - q.y * q.vx)) := by ring
  rw [this]
  constructor <;> intro h <;> linarith

/-- The unsigned distance reported for a star at `p` matched to entry `k`. -/
def distOf (pr toPath : Bool) (path : List PathPt) (k : ℕ) (p : Ph) : Option ℝ :=
  if toPath then lineDist pr (pathSteps path ++ [(pathSteps path).getLastD default])[k]! ((path[k]!).p.sub p)
  else some (between pr (path[k]!).p p)

/-- The sign given to it. -/
def signOf (pr : Bool) (path : List PathPt) (k y : ℕ) (p : Ph) : ℝ :=
  if pr then npSign ((path[y]!).p.y - p.y) else if angularDot (path[k]!).p p < 0 then -1 else 1

theorem matchStar_ok {pr toPath : Bool} {path : List PathPt} {i0 : ℕ} (h : path ≠ []) (p : Ph) :
    ∃ m k y, matchStar pr toPath path i0 p = .ok m ∧ Nearest pr (fun j => (path[j]!).p) path.length p k ∧
      (y < path.length ∧ ∀ j < path.length, |(path[y]!).p.y - p.y| ≤ |(path[j]!).p.y - p.y|) ∧ m.t = (path[k]!).t ∧
      m.dprog = (progress pr path)[k]! - (progress pr path)[i0]! ∧
      m.dpath = (distOf pr toPath path k p).map (· * signOf pr path k y p) := by
  have hne : ((path.map (fun q => q.p.sub p)).map (mag pr)) ≠ [] := by simpa using h
  have hne2 : ((path.map (fun q => q.p.sub p)).map (fun q => |q.y|)) ≠ [] := by simpa using h
  obtain ⟨k, k1, k2, k3⟩ := argminE_spec hne
  obtain ⟨y, y1, y2, y3⟩ := argminE_spec hne2
  simp only [List.length_map] at k2 y2
  have hd : ∀ j < path.length, (path.map (fun q => q.p.sub p))[j]! = ((path[j]!).p).sub p := fun j hj => list_map_at hj
  have hm : ∀ j < path.length, ((path.map (fun q => q.p.sub p)).map (mag pr))[j]! = between pr (path[j]!).p p := by
    intro j hj
    rw [list_map_at (by simpa using hj), hd j hj, mag_sub]
  have hmin : minOf ((path.map (fun q => q.p.sub p)).map (mag pr)) = between pr (path[k]!).p p := by
    obtain ⟨m1, m2⟩ := minOf_spec hne
    rw [← hm k k2]
    refine le_antisymm (m2 _ ?_) (k3 _ m1)
    rw [getElem!_pos _ k (by simpa using k2)]
    exact List.getElem_mem _
  refine ⟨{ t := (path[k]!).t, dprog := (progress pr path)[k]! - (progress pr path)[i0]!
            dpath := (distOf pr toPath path k p).map (· * signOf pr path k y p) }, k, y, ?_, ⟨k2, ?_⟩, ⟨y2, ?_⟩, rfl, rfl, rfl⟩
  rotate_left 1
  · intro j hj
    rw [← hm k k2, ← hm j hj]
    refine k3 _ ?_
    rw [getElem!_pos _ j (by simpa using hj)]
    exact List.getElem_mem _
  · intro j hj
    have e : ∀ j < path.length, ((path.map (fun q => q.p.sub p)).map (fun q => |q.y|))[j]! = |(path[j]!).p.y - p.y| := by
      intro j hj
      rw [list_map_at (by simpa using hj), hd j hj]; rfl
    rw [← e y y2, ← e j hj]
    refine y3 _ ?_
    rw [getElem!_pos _ j (by simpa using hj)]
    exact List.getElem_mem _
  · unfold matchStar
    dsimp only
    rw [k1]
    simp only [bind, Except.bind, y1, pure, Except.pure]
    rw [hmin, hd k k2, hd y y2]
    rfl

theorem matchStars_ok {pr toPath : Bool} {path : List PathPt} (h : path ≠ []) (h2 : toPath = true → 2 ≤ path.length) (st : List Ph) :
    ∃ i0 out, Present path i0 ∧ matchStars pr toPath false path st = .ok out ∧
      List.Forall₂ (fun p m => matchStar pr toPath path i0 p = .ok m) st out := by
  have hne : (path.map (fun q => |q.t|)) ≠ [] := by simpa using h
  obtain ⟨i0, e1, e2, e3⟩ := argminE_spec hne
  simp only [List.length_map] at e2
  obtain ⟨out, o1, o2⟩ := mapM_rel st (matchStar pr toPath path i0) (fun p m => matchStar pr toPath path i0 p = .ok m) (fun p _ => by
    obtain ⟨m, -, -, hm, -⟩ := matchStar_ok (pr := pr) (toPath := toPath) (i0 := i0) h p
    exact ⟨m, hm, hm⟩)
  refine ⟨i0, out, ⟨e2, ?_⟩, ?_, o2⟩
  · intro j hj
    have e : ∀ j < path.length, (path.map (fun q => |q.t|))[j]! = |(path[j]!).t| := fun j hj => list_map_at hj
    rw [← e i0 e2, ← e j hj]
    refine e3 _ ?_
    rw [getElem!_pos _ j (by simpa using hj)]
    exact List.getElem_mem _
  · unfold matchStars
    have hc : ¬ (toPath = true ∧ path.length < 2) := fun hc => by have := h2 hc.1; omega
    simp only [e1, bind, Except.bind, hc, if_false, Bool.false_eq_true, and_false, pure, Except.pure, o1]

/-- The results for one star, in physical terms. -/
structure StarMatch (a : MatchArgs) (path : List PathPt) (i0 : ℕ) (s : Scale) (P : Ph) (k y : ℕ) (m : Matched) : Prop where
  nearest : Nearest a.projected (fun j => kpcScale.ph (path[j]!).p) path.length P k
  yLt : y < path.length
  yMin : ∀ j < path.length, |(kpcScale.ph (path[y]!).p).y - P.y| ≤ |(kpcScale.ph (path[j]!).p).y - P.y|
  time : m.t * s.time = (path[k]!).t * 1000
  prog : m.dprog * s.len = ((progress a.projected path)[k]! - (progress a.projected path)[i0]!) * 1000
  dist : ∃ q, kpcScale.ph q = P ∧ ∀ d, m.dpath = some d → ∃ d0, distOf a.projected a.toPath path k q = some d0 ∧
    d * s.len = d0 * 1000 * signOf a.projected path k y q
  nan : ∃ q, kpcScale.ph q = P ∧ (m.dpath = none ↔ distOf a.projected a.toPath path k q = none)

theorem kpc_pos : (0 : ℝ) < kpcScale.len := by norm_num [kpcScale]

/-- The call with a path given in kpc, km/s and Gyr, or found by itself. -/
theorem match_run {g : Galpy} {flow : ℝ → Ph → Ph} {a : MatchArgs} {c : Cluster} {u : Units} {s : Scale} (p : Pos g c) (l : Lin c)
    (hg : Good c) (hu : c.units = some u) (hs : unitScale g c u = some s)
    (hpath : ∀ c2, InKpc g s c c2 → ∃ path c3, matchPath g flow a c2 = .ok (path, c3) ∧ c3.data = c2.data ∧ Good c3 ∧ c3.rest = c2.rest ∧
      path ≠ [] ∧ (a.toPath = true → 2 ≤ path.length))
    (hd : a.doFull = false) :
    ∃ c2 path c3 out c', InKpc g s c c2 ∧ matchPath g flow a c2 = .ok (path, c3) ∧ orbitalPathMatch g flow a c = .ok (out, c') ∧
      c'.data = c.data ∧ Fresh c' ∧ out.length = c.st.length ∧
      ∃ i0, Present path i0 ∧ ∀ i < c.st.length, ∃ k y, StarMatch a path i0 s (galStar s c i) k y out[i]! := by
  obtain ⟨c1, c2, h1, h2, ik⟩ := in_kpc (sort := false) p l hg hu hs
  obtain ⟨path, c3, h3, d3, g3, r3, hne, hlen⟩ := hpath c2 ik
  have hst : c3.st = c2.st := congrArg Data.st d3
  have l3 : Lin c3 := by
    have e1 : c3.units = c2.units := congrArg Data.units d3
    have e2 : c3.origin = c2.origin := congrArg Data.origin d3
    obtain ⟨x1, x2⟩ := ik.lin
    exact ⟨by rw [e1]; exact x1, by rw [e2]; exact x2⟩
  have w3 : world g c3 = world g c := by
    rw [← ik.world]
    have e0 : ∀ u, unitScale g c3 u = unitScale g c2 u := fun u => unitScale_of_rest r3 u
    have e1 : c3.units = c2.units := congrArg Data.units d3
    have e2 : c3.origin = c2.origin := congrArg Data.origin d3
    have e3 : c3.tphys = c2.tphys := congrArg Data.tphys d3
    have e4 : c3.m = c2.m := congrArg Data.m d3
    have e5 : c3.c = c2.c := congrArg Data.c d3
    have e6 : c3.gc = c2.gc := congrArg Data.gc d3
    simp only [world, phys, e0, e1, e2, e3, e4, e5, e6, hst]
  obtain ⟨i0, out, hi0, ho, hf⟩ := matchStars_ok (pr := a.projected) hne hlen c3.st
  obtain ⟨c4, h4, d4, f4, g4, -, r4⟩ := return_of_world (sort := false) (cm := none) p l hg g3 l3 (r3.trans ik.rest) w3
  obtain ⟨hu4, hs4⟩ := same_units hu hs d4 r4
  have p4 := p.of_rest r4
  refine ⟨c2, path, c3, out.map (convertMatch g c4), c4, ik, h3, ?_, d4, f4, ?_, i0, hi0, ?_⟩
  · unfold orbitalPathMatch
    simp only [h1, h2, h3, bind, Except.bind, hd, ho, h4, pure, Except.pure]
  · rw [List.length_map, ← hf.length_eq, hst, ik.len]
  · intro i hi
    have hi3 : i < c3.st.length := by rw [hst, ik.len]; exact hi
    have hm := forall₂_get hf hi3
    obtain ⟨m, k, y, m1, m2, m3, m4, m5, m6⟩ := matchStar_ok (pr := a.projected) (toPath := a.toPath) (i0 := i0) hne c3.st[i]!
    rw [hm] at m1
    cases m1
    have hstar : kpcScale.ph c3.st[i]! = galStar s c i := by rw [hst]; exact ik.star i hi
    have hget : (out.map (convertMatch g c4))[i]! = convertMatch g c4 out[i]! := list_map_at (by rw [← hf.length_eq]; exact hi3)
    rw [hget]
    have hL : ∀ x, convertLength g c4 .kpckms u x * s.len = x * 1000 := fun x => C38_length p4.nz (su := kpcScale) rfl hs4 x
    refine ⟨k, y, ?_, m3.1, ?_, ?_, ?_, ⟨_, hstar, ?_⟩, ⟨_, hstar, ?_⟩⟩
    · rw [← hstar]
      refine ⟨m2.1, fun j hj => ?_⟩
      rw [between_scale kpc_pos.le, between_scale kpc_pos.le]
      exact mul_le_mul_of_nonneg_right (m2.2 j hj) kpc_pos.le
    · intro j hj
      rw [← hstar]
      have := m3.2 j hj
      simp only [Scale.ph, kpcScale, ← sub_mul, abs_mul] at this ⊢
      exact mul_le_mul_of_nonneg_right this (abs_nonneg _)
    · simp only [convertMatch, hu4, Option.elim, m4]
      exact C38_time p4.nz (.inl rfl) (.inl (by rw [hs4]; rfl)) _
    · simp only [convertMatch, hu4, Option.elim, m5]
      exact hL _
    · intro d hd'
      simp only [convertMatch, hu4, Option.elim, m6, Option.map_map, Option.map_eq_some_iff, Function.comp] at hd'
      obtain ⟨d0, e1, e2⟩ := hd'
      exact ⟨d0, e1, by rw [← e2, hL]; ring⟩
    · simp only [convertMatch, hu4, Option.elim, m6, Option.map_map, Option.map_eq_none_iff]

/-! ### C43 -/

theorem match_given {g : Galpy} {flow : ℝ → Ph → Ph} {a : MatchArgs} {c : Cluster} {u : Units} {s : Scale} (p : Pos g c) (l : Lin c)
    (hg : Good c) (hu : c.units = some u) (hs : unitScale g c u = some s) {path : List PathPt} (hp : a.path = some path)
    (hne : path ≠ []) (h2 : a.toPath = true → 2 ≤ path.length) (hd : a.doFull = false) :
    ∃ out c', orbitalPathMatch g flow a c = .ok (out, c') ∧ c'.data = c.data ∧ Fresh c' ∧ out.length = c.st.length ∧
      ∃ i0, Present path i0 ∧ ∀ i < c.st.length, ∃ k y, StarMatch a path i0 s (galStar s c i) k y out[i]! := by
  have hm : ∀ c2, matchPath g flow a c2 = .ok (path, c2) := fun c2 => by unfold matchPath; rw [hp]; rfl
  obtain ⟨c2, path', c3, out, c', h1, h2', h3, h4, h5, h6, i0, h7, h8⟩ := match_run (flow := flow) (a := a) p l hg hu hs
    (fun c2 ik => ⟨path, c2, hm c2, rfl, ik.good, rfl, hne, h2⟩) hd
  rw [hm c2] at h2'
  cases h2'
  exact ⟨out, c', h3, h4, h5, h6, i0, h7, h8⟩

theorem ph_injective {q q' : Ph} (h : kpcScale.ph q = kpcScale.ph q') : q = q' := by
  simp only [Scale.ph, kpcScale, Ph.mk.injEq] at h
  ext <;> linarith

/-- **C43 (nearest point).**  `orbital_path_match` with a path given in kpc, km/s and Gyr: for every cluster in linear units and every
star there is a nearest point of the path; the reported time is that point's, the reported distance is, up to sign and in the cluster's units,
the distance of star and point, and it is negative exactly for stars below the orbital plane there.  The cluster is left as it was. -/
theorem C43_nearest {g : Galpy} {flow : ℝ → Ph → Ph} {a : MatchArgs} {c : Cluster} {u : Units} {s : Scale} (p : Pos g c) (l : Lin c)
    (hg : Good c) (hu : c.units = some u) (hs : unitScale g c u = some s) {path : List PathPt} (hp : a.path = some path)
    (hne : path ≠ []) (ht : a.toPath = false) (hd : a.doFull = false) (hpr : a.projected = false) :
    ∃ out c', orbitalPathMatch g flow a c = .ok (out, c') ∧ c'.data = c.data ∧ Fresh c' ∧ out.length = c.st.length ∧
      ∀ i < c.st.length, ∃ k d, Nearest false (fun j => kpcScale.ph (path[j]!).p) path.length (galStar s c i) k ∧
        (out[i]!).t * s.time = (path[k]!).t * 1000 ∧ (out[i]!).dpath = some d ∧
        |d| * s.len = between false (kpcScale.ph (path[k]!).p) (galStar s c i) ∧
        (d < 0 ↔ Below (kpcScale.ph (path[k]!).p) (galStar s c i)) := by
  obtain ⟨out, c', h1, h2, h3, h4, i0, -, h6⟩ := match_given (flow := flow) p l hg hu hs hp hne (by simp [ht]) hd
  refine ⟨out, c', h1, h2, h3, h4, fun i hi => ?_⟩
  obtain ⟨k, y, sm⟩ := h6 i hi
  obtain ⟨q, hq, hnan⟩ := sm.nan
  obtain ⟨q', hq', hdist⟩ := sm.dist
  have : q' = q := ph_injective (hq'.trans hq.symm)
  subst this
  have hdo : distOf a.projected a.toPath path k q' = some (between false (path[k]!).p q') := by
    simp [distOf, ht, hpr]
  cases hdp : (out[i]!).dpath with
  | none =>
    have := hnan.mp hdp
    rw [hdo] at this
    cases this
  | some d =>
    obtain ⟨d0, e1, e2⟩ := hdist d hdp
    rw [hdo] at e1
    cases e1
    have hsl : 0 < s.len := (unitScale_pos p hs).1
    have near := sm.nearest
    rw [hpr] at near
    have hb : between false (kpcScale.ph (path[k]!).p) (galStar s c i) = between false (path[k]!).p q' * 1000 := by
      rw [← hq, between_scale kpc_pos.le]; rfl
    have hn := between_nonneg false (path[k]!).p q'
    have hsg : signOf a.projected path k y q' = if angularDot (path[k]!).p q' < 0 then -1 else 1 := by simp [signOf, hpr]
    rw [hsg] at e2
    have hbel := below_iff (path[k]!).p q'
    rw [hq] at hbel
    refine ⟨k, d, near, sm.time, rfl, ?_, ?_⟩
    · rw [hb, ← abs_of_pos hsl, ← abs_mul, e2, abs_mul, abs_mul, abs_of_nonneg hn]
      split <;> simp
    · rw [← hbel]
      by_cases ha : angularDot (path[k]!).p q' < 0
      · simp only [ha, if_true, iff_true] at e2 ⊢
        have hpos : 0 < between false (path[k]!).p q' := by
          rcases hn.lt_or_eq with h | h
          · exact h
          · exfalso
            have h0 := h.symm
            unfold between at h0
            rw [Real.sqrt_eq_zero (by positivity)] at h0
            simp only [Bool.false_eq_true, if_false] at h0
            have z1 : (path[k]!).p.x - q'.x = 0 := by nlinarith [sq_nonneg ((path[k]!).p.x - q'.x), sq_nonneg ((path[k]!).p.y - q'.y), sq_nonneg ((path[k]!).p.z - q'.z)]
            have z2 : (path[k]!).p.y - q'.y = 0 := by nlinarith [sq_nonneg ((path[k]!).p.x - q'.x), sq_nonneg ((path[k]!).p.y - q'.y), sq_nonneg ((path[k]!).p.z - q'.z)]
            have z3 : (path[k]!).p.z - q'.z = 0 := by nlinarith [sq_nonneg ((path[k]!).p.x - q'.x), sq_nonneg ((path[k]!).p.y - q'.y), sq_nonneg ((path[k]!).p.z - q'.z)]
            unfold angularDot at ha
            rw [show q'.x - (path[k]!).p.x = 0 by linarith, show q'.y - (path[k]!).p.y = 0 by linarith,
              show q'.z - (path[k]!).p.z = 0 by linarith] at ha
            simp at ha
        by_contra hc
        have : 0 ≤ d * s.len := mul_nonneg (not_lt.mp hc) hsl.le
        nlinarith
      · simp only [ha, if_false, iff_false, not_lt] at e2 ⊢
        by_contra hc
        have : d * s.len < 0 := mul_neg_of_neg_of_pos (not_le.mp hc) hsl
        nlinarith

/-- The computed path of a cluster in galactocentric kpc. -/
theorem matchPath_computed {g : Galpy} {flow : ℝ → Ph → Ph} (hf : IsFlow flow) {a : MatchArgs} {c c2 : Cluster} {s : Scale}
    (p : Pos g c) (ik : InKpc g s c c2) (hp : a.path = none) {T : ℝ} (hT : a.tfinal = some T) (hn : 2 ≤ a.nt) :
    ∃ path c3, matchPath g flow a c2 = .ok (path, c3) ∧ c3.data = c2.data ∧ Good c3 ∧ c3.rest = c2.rest ∧ path.length = a.nt ∧
      ∀ k < a.nt, (path[k]!).t = -T + k * (2 * T / (a.nt - 1)) ∧
        PosEq (kpcScale.ph (path[k]!).p) (orbitAt g flow ((path[k]!).t * 1000) (orbitStart s a.fromCentre c)) ∧
        VelEq (kpcScale.ph (path[k]!).p) (orbitAt g flow ((path[k]!).t * 1000) (orbitStart s a.fromCentre c)) := by
  have p2 := p.of_rest ik.rest
  have hm : matchPath g flow a c2 = orbitalPath g flow a.toPathArgs c2 := by unfold matchPath; rw [hp]; rfl
  obtain ⟨path, c3, h1, h2, h3, h4, h5⟩ := C59_path_partial (flow := flow) hf (a := a.toPathArgs) p2 ik.lin ik.good ik.units
    (s := kpcScale) rfl hT hn
  obtain ⟨c3', h1', -, -, g3, r3⟩ := orbitalPath_rows (flow := flow) hf (a := a.toPathArgs) p2 ik.lin ik.good ik.units (s := kpcScale) rfl hn
  rw [h1] at h1'
  have e : c3 = c3' := by
    have := (Except.ok.inj h1')
    exact congrArg Prod.snd this
  subst e
  refine ⟨path, c3, hm.trans h1, h2, g3, r3, h4, fun k hk => ?_⟩
  obtain ⟨e1, e2, e3⟩ := h5 k hk
  have hstart : orbitStart kpcScale a.fromCentre c2 = orbitStart s a.fromCentre c := by
    have := ik.gc
    have := ik.ctr
    unfold orbitStart
    cases a.fromCentre
    · exact ik.gc
    · simp only [if_true]
      have add : ∀ (s : Scale) (p q : Ph), s.ph (phAdd p q) = phAdd (s.ph p) (s.ph q) := by
        intro s p q; simp [Scale.ph, phAdd, add_mul]
      rw [add, add, ik.gc, ik.ctr]
  rw [hstart] at e2 e3
  exact ⟨e1, e2, e3 (.inl rfl) (by simp)⟩

theorem convertMatch_same {g : Galpy} {c c' : Cluster} (hd : c'.data = c.data) (hr : c'.rest = c.rest) :
    convertMatch g c' = convertMatch g c := by
  obtain ⟨h1, h2, h3, h4⟩ := rest_scales hr
  have e1 : c'.units = c.units := congrArg Data.units hd
  have e2 : c'.gc = c.gc := congrArg Data.gc hd
  funext m
  have hl : ∀ u t, convertLength g c' u t = convertLength g c u t := by
    intro u t; funext x; simp only [convertLength, h2, e2]
  have ht : ∀ u t, convertTime g c' u t = convertTime g c u t := by
    intro u t; funext x; simp only [convertTime, h4]
  simp only [convertMatch, e1, hl, ht]

/-- **C43 (computed path).**  Without a path the results are those for the cluster's own orbit: `nt ≥ 2` points at equal intervals of time
from `-tfinal` to `tfinal` **Gyr**, each where the cluster is at that time. -/
theorem C43_computed {g : Galpy} {flow : ℝ → Ph → Ph} (hf : IsFlow flow) {a : MatchArgs} {c : Cluster} {u : Units} {s : Scale}
    (p : Pos g c) (l : Lin c) (hg : Good c) (hu : c.units = some u) (hs : unitScale g c u = some s) (hp : a.path = none) {T : ℝ}
    (hT : a.tfinal = some T) (hn : 2 ≤ a.nt) (hd : a.doFull = false) :
    ∃ π out c' c'', orbitalPathMatch g flow a c = .ok (out, c') ∧ orbitalPathMatch g flow { a with path := some π } c = .ok (out, c'') ∧
      c'.data = c.data ∧ Fresh c' ∧ π.length = a.nt ∧ ∀ k < a.nt, (π[k]!).t = -T + k * (2 * T / (a.nt - 1)) ∧
        PosEq (kpcScale.ph (π[k]!).p) (orbitAt g flow ((π[k]!).t * 1000) (orbitStart s a.fromCentre c)) ∧
        VelEq (kpcScale.ph (π[k]!).p) (orbitAt g flow ((π[k]!).t * 1000) (orbitStart s a.fromCentre c)) := by
  obtain ⟨c1, c2, h1, h2, ik⟩ := in_kpc (sort := false) p l hg hu hs
  obtain ⟨path, c3, h3, d3, g3, r3, hlen, hpts⟩ := matchPath_computed (flow := flow) hf (a := a) p ik hp hT hn
  have hne : path ≠ [] := by rintro rfl; simp at hlen; omega
  have hst : c3.st = c2.st := congrArg Data.st d3
  have l3 : Lin c3 := by
    have e1 : c3.units = c2.units := congrArg Data.units d3
    have e2 : c3.origin = c2.origin := congrArg Data.origin d3
    obtain ⟨x1, x2⟩ := ik.lin
    exact ⟨by rw [e1]; exact x1, by rw [e2]; exact x2⟩
  have w3 : world g c3 = world g c := by
    rw [← ik.world]
    have e0 : ∀ u, unitScale g c3 u = unitScale g c2 u := fun u => unitScale_of_rest r3 u
    have e1 : c3.units = c2.units := congrArg Data.units d3
    have e2 : c3.origin = c2.origin := congrArg Data.origin d3
    have e3 : c3.tphys = c2.tphys := congrArg Data.tphys d3
    have e4 : c3.m = c2.m := congrArg Data.m d3
    have e5 : c3.c = c2.c := congrArg Data.c d3
    have e6 : c3.gc = c2.gc := congrArg Data.gc d3
    simp only [world, phys, e0, e1, e2, e3, e4, e5, e6, hst]
  obtain ⟨i0, out, -, ho, -⟩ := matchStars_ok (pr := a.projected) (toPath := a.toPath) hne (fun _ => by omega) c2.st
  obtain ⟨c4, h4, d4, f4, -, -, r4⟩ := return_of_world (sort := false) (cm := none) p l hg g3 l3 (r3.trans ik.rest) w3
  obtain ⟨c5, h5, d5, f5, -, -, r5⟩ := return_of_world (sort := false) (cm := none) p l hg ik.good ik.lin ik.rest ik.world
  refine ⟨path, out.map (convertMatch g c4), c4, c5, ?_, ?_, d4, f4, hlen, hpts⟩
  · unfold orbitalPathMatch
    simp only [h1, h2, h3, bind, Except.bind, hd, hst, ho, h4, pure, Except.pure]
  · have hm : matchPath g flow { a with path := some path } c2 = .ok (path, c2) := rfl
    unfold orbitalPathMatch
    simp only [h1, h2, bind, Except.bind]
    rw [hm]
    simp only [hd, ho, h5, pure, Except.pure]
    rw [convertMatch_same (d5.trans d4.symm) (r5.trans r4.symm)]

/-- **C43 is violated for `tfinal`:** it is documented to be in the units of the cluster, and `orbital_path` so reads it; but the path to
which stars are matched extends over `tfinal` Gyr in all units.  In pc and km/s it is a thousand times longer. -/
theorem C43_tfinal_violated {g : Galpy} {flow : ℝ → Ph → Ph} (hf : IsFlow flow) {a : MatchArgs} {c : Cluster}
    (p : Pos g c) (l : Lin c) (hg : Good c) (hu : c.units = some .pckms) (hp : a.path = none) {T : ℝ}
    (hT : a.tfinal = some T) (hn : 2 ≤ a.nt) (hd : a.doFull = false) :
    ∃ (π π' : List PathPt) (out : List Matched) (c' c'' c''' : Cluster), orbitalPathMatch g flow a c = .ok (out, c') ∧
      orbitalPathMatch g flow { a with path := some π } c = .ok (out, c'') ∧
      orbitalPath g flow a.toPathArgs c = .ok (π', c''') ∧ (π[0]!).t * 1000 = 1000 * (π'[0]!).t ∧ (π'[0]!).t = -T := by
  obtain ⟨π, out, c', c'', h1, h2, -, -, -, h3⟩ := C43_computed (flow := flow) hf p l hg hu rfl hp hT hn hd
  obtain ⟨π', c''', h4, -, -, -, h5⟩ := C59_path_partial (flow := flow) hf (a := a.toPathArgs) p l hg hu rfl hT hn
  have e1 := (h3 0 (by omega)).1
  have e2 := (h5 0 (by show 0 < a.nt; omega)).1
  simp only [Nat.cast_zero, zero_mul, add_zero] at e1 e2
  exact ⟨π, π', out, c', c'', c''', h1, h2, h4, by rw [e1, e2]; ring, e2⟩

theorem between_scaled_length {pr : Bool} {path : List PathPt} (i k : ℕ) :
    pathLength pr (fun j => kpcScale.ph (path[j]!).p) i k = pathLength pr (fun j => (path[j]!).p) i k * 1000 := by
  unfold pathLength
  rw [Finset.sum_mul]
  exact Finset.sum_congr rfl fun j _ => between_scale kpc_pos.le pr _ _

/-- **C43 (progress), what holds.**  The distance along the path is reported with the right sign, and is never larger than the length of the
path between the star's point and the cluster's (the point nearest in time to zero).  It is that length for straight paths, see
`C43_progress_straight`, but not in general, see `C43_progress_violated`. -/
theorem C43_progress_partial {g : Galpy} {flow : ℝ → Ph → Ph} {a : MatchArgs} {c : Cluster} {u : Units} {s : Scale} (p : Pos g c) (l : Lin c)
    (hg : Good c) (hu : c.units = some u) (hs : unitScale g c u = some s) {path : List PathPt} (hp : a.path = some path)
    (hne : path ≠ []) (h2 : a.toPath = true → 2 ≤ path.length) (hd : a.doFull = false) :
    ∃ out c' i0, orbitalPathMatch g flow a c = .ok (out, c') ∧ Present path i0 ∧
      ∀ i < c.st.length, ∃ k, Nearest a.projected (fun j => kpcScale.ph (path[j]!).p) path.length (galStar s c i) k ∧
        (out[i]!).t * s.time = (path[k]!).t * 1000 ∧
        (i0 ≤ k → 0 ≤ (out[i]!).dprog * s.len ∧
          (out[i]!).dprog * s.len ≤ pathLength a.projected (fun j => kpcScale.ph (path[j]!).p) i0 k) ∧
        (k ≤ i0 → -pathLength a.projected (fun j => kpcScale.ph (path[j]!).p) k i0 ≤ (out[i]!).dprog * s.len ∧
          (out[i]!).dprog * s.len ≤ 0) := by
  obtain ⟨out, c', h1, -, -, -, i0, h5, h6⟩ := match_given (flow := flow) p l hg hu hs hp hne h2 hd
  refine ⟨out, c', i0, h1, h5, fun i hi => ?_⟩
  obtain ⟨k, y, sm⟩ := h6 i hi
  refine ⟨k, sm.nearest, sm.time, fun hk => ?_, fun hk => ?_⟩
  · obtain ⟨b1, b2⟩ := progress_between (pr := a.projected) hk sm.nearest.1
    rw [sm.prog, between_scaled_length]
    constructor <;> nlinarith
  · obtain ⟨b1, b2⟩ := progress_between (pr := a.projected) hk h5.1
    rw [sm.prog, between_scaled_length]
    constructor <;> nlinarith

/-- **C43 (progress on straight paths).**  If the points of the path follow each other on a straight line, the distance reported is the
length of the path. -/
theorem C43_progress_straight {g : Galpy} {flow : ℝ → Ph → Ph} {a : MatchArgs} {c : Cluster} {u : Units} {s : Scale} (p : Pos g c)
    (l : Lin c) (hg : Good c) (hu : c.units = some u) (hs : unitScale g c u = some s) {path : List PathPt} (hp : a.path = some path)
    (hne : path ≠ []) (h2 : a.toPath = true → 2 ≤ path.length) (hd : a.doFull = false) {e q : Ph} {τ : ℕ → ℝ} (hτ : Monotone τ)
    (h : ∀ j < path.length, PosEq (path[j]!).p ⟨q.x + τ j * e.x, q.y + τ j * e.y, q.z + τ j * e.z, 0, 0, 0⟩) :
    ∃ out c' i0, orbitalPathMatch g flow a c = .ok (out, c') ∧ Present path i0 ∧
      ∀ i < c.st.length, ∃ k, Nearest a.projected (fun j => kpcScale.ph (path[j]!).p) path.length (galStar s c i) k ∧
        (i0 ≤ k → (out[i]!).dprog * s.len = pathLength a.projected (fun j => kpcScale.ph (path[j]!).p) i0 k) ∧
        (k ≤ i0 → (out[i]!).dprog * s.len = -pathLength a.projected (fun j => kpcScale.ph (path[j]!).p) k i0) := by
  obtain ⟨out, c', h1, -, -, -, i0, h5, h6⟩ := match_given (flow := flow) p l hg hu hs hp hne h2 hd
  refine ⟨out, c', i0, h1, h5, fun i hi => ?_⟩
  obtain ⟨k, y, sm⟩ := h6 i hi
  refine ⟨k, sm.nearest, fun hk => ?_, fun hk => ?_⟩
  · rw [sm.prog, between_scaled_length, progress_straight hτ h hk sm.nearest.1]
  · rw [sm.prog, between_scaled_length, ← progress_straight hτ h hk h5.1]
    ring

/-- A path with a corner (kpc, Gyr). -/
def corner : List PathPt := [⟨-1, ⟨0, 0, 0, 0, 0, 0⟩⟩, ⟨0, ⟨3, 0, 0, 0, 0, 0⟩⟩, ⟨1, ⟨3, 4, 0, 0, 0, 0⟩⟩]

/-- **C43 is violated for the distance along a path that turns:** the cluster now being at the corner of `corner`, a star at its end, 4 kpc
further along the path, is reported at 2 kpc. -/
theorem C43_progress_violated {g : Galpy} {flow : ℝ → Ph → Ph} {a : MatchArgs} {c : Cluster} {u : Units} {s : Scale} (p : Pos g c)
    (l : Lin c) (hg : Good c) (hu : c.units = some u) (hs : unitScale g c u = some s) (hp : a.path = some corner)
    (hd : a.doFull = false) (hpr : a.projected = false) {i : ℕ} (hi : i < c.st.length)
    (hstar : PosEq (galStar s c i) ⟨3000, 4000, 0, 0, 0, 0⟩) :
    ∃ out c', orbitalPathMatch g flow a c = .ok (out, c') ∧ (out[i]!).dprog * s.len = 2000 ∧
      pathLength false (fun j => kpcScale.ph (corner[j]!).p) 1 2 = 4000 := by
  obtain ⟨out, c', h1, -, -, -, i0, h5, h6⟩ := match_given (flow := flow) p l hg hu hs hp (by simp [corner]) (fun _ => by simp [corner]) hd
  obtain ⟨k, y, sm⟩ := h6 i hi
  have near := sm.nearest
  rw [hpr] at near
  obtain ⟨x1, x2, x3⟩ := hstar
  have hk : k = 2 := by
    obtain ⟨n1, n2⟩ := near
    have := n2 2 (by simp [corner])
    simp only [corner, List.length_cons, List.length_nil] at n1
    have h0 : between false (kpcScale.ph (corner[2]!).p) (galStar s c i) = 0 := by
      unfold between; rw [x1, x2, x3]; norm_num [corner, Scale.ph, kpcScale]
    rw [h0] at this
    have hz := le_antisymm this (between_nonneg _ _ _)
    unfold between at hz
    rw [Real.sqrt_eq_zero (by positivity), x1, x2, x3] at hz
    interval_cases k <;> first | rfl | (exfalso; norm_num [corner, Scale.ph, kpcScale] at hz)
  have hi0 : i0 = 1 := by
    obtain ⟨n1, n2⟩ := h5
    have := n2 1 (by simp [corner])
    simp only [corner, List.length_cons, List.length_nil] at n1
    interval_cases i0 <;> first | rfl | (exfalso; norm_num [corner] at this)
  refine ⟨out, c', h1, ?_, ?_⟩
  · rw [sm.prog, hk, hi0, hpr, progress_get (by simp [corner]), progress_get (by simp [corner])]
    have s1 : Real.sqrt 25 = 5 := by rw [show (25 : ℝ) = 5 ^ 2 by norm_num, Real.sqrt_sq (by norm_num)]
    have s2 : Real.sqrt 9 = 3 := by rw [show (9 : ℝ) = 3 ^ 2 by norm_num, Real.sqrt_sq (by norm_num)]
    norm_num [len3, steps, Finset.sum_range_succ, corner, s1, s2]
  · have s1 : Real.sqrt 16000000 = 4000 := by rw [show (16000000 : ℝ) = 4000 ^ 2 by norm_num, Real.sqrt_sq (by norm_num)]
    norm_num [pathLength, between, corner, Scale.ph, kpcScale, s1]

theorem nextPoint_step {path : List PathPt} {k : ℕ} (h2 : 2 ≤ path.length) (hk : k < path.length) :
    ∃ q', (pathSteps path ++ [(pathSteps path).getLastD default])[k]! = q'.sub (path[k]!).p ∧
      PosEq q' (nextPoint (fun j => (path[j]!).p) path.length k) := by
  by_cases hlt : k + 1 < path.length
  · refine ⟨(path[k + 1]!).p, ?_, by simp [nextPoint, hlt, PosEq]⟩
    rw [← pathSteps_get hlt, getElem!_pos _ k (by simp [pathSteps_length]; omega), List.getElem_append_left (by rw [pathSteps_length]; omega),
      getElem!_pos _ k (by rw [pathSteps_length]; omega)]
  · have hkl : k = path.length - 1 := by omega
    have hlast : (pathSteps path).getLastD default = ((path[k]!).p).sub (path[k - 1]!).p := by
      have e := pathSteps_get (path := path) (j := k - 1) (by omega)
      rw [show k - 1 + 1 = k by omega] at e
      rw [← e, getElem!_pos _ (k - 1) (by rw [pathSteps_length]; omega)]
      have hne : pathSteps path ≠ [] := by
        intro h0
        have := pathSteps_length path
        rw [h0] at this
        simp at this
        omega
      rw [List.getLastD_eq_getLast?, List.getLast?_eq_some_getLast hne, Option.getD_some, List.getLast_eq_getElem]
      congr 1
      rw [pathSteps_length]; omega
    refine ⟨((path[k]!).p).add (((path[k]!).p).sub (path[k - 1]!).p), ?_, ?_⟩
    · rw [getElem!_pos _ k (by simp [pathSteps_length]; omega), List.getElem_append_right (by rw [pathSteps_length]; omega)]
      simp only [List.getElem_singleton, hlast]
      ext <;> simp [Ph.add, Ph.sub]
    · simp only [nextPoint, hlt, if_false, PosEq, Ph.add, Ph.sub]
      refine ⟨?_, ?_, ?_⟩ <;> ring

theorem nextPoint_scale (path : List PathPt) (n k : ℕ) :
    PosEq (kpcScale.ph (nextPoint (fun j => (path[j]!).p) n k)) (nextPoint (fun j => kpcScale.ph (path[j]!).p) n k) := by
  unfold nextPoint
  split <;> simp only [PosEq, Scale.ph, kpcScale] <;> (try simp only [true_and, and_self]) <;> refine ⟨?_, ?_, ?_⟩ <;> ring

theorem between_congr {pr : Bool} {p p' q q' : Ph} (h : PosEq p p') (h' : PosEq q q') : between pr p q = between pr p' q' := by
  obtain ⟨a1, a2, a3⟩ := h
  obtain ⟨b1, b2, b3⟩ := h'
  simp only [between, a1, a2, a3, b1, b2, b3]

theorem onLine_congr {p p' q q' : Ph} (h : PosEq p p') (h' : PosEq q q') (t : ℝ) : onLine p q t = onLine p' q' t := by
  obtain ⟨a1, a2, a3⟩ := h
  obtain ⟨b1, b2, b3⟩ := h'
  simp only [onLine, a1, a2, a3, b1, b2, b3]

theorem onLine_scale (q q' : Ph) (t : ℝ) : PosEq (kpcScale.ph (onLine q q' t)) (onLine (kpcScale.ph q) (kpcScale.ph q') t) := by
  simp only [PosEq, onLine, Scale.ph, kpcScale]
  refine ⟨?_, ?_, ?_⟩ <;> ring

/-- **C43 (`to_path`).**  With `to_path` the reported distance is, up to sign and in the cluster's units, the least distance of the star from
the line along the path at its nearest point: if that line is defined and the star is not the point itself. -/
theorem C43_to_path {g : Galpy} {flow : ℝ → Ph → Ph} {a : MatchArgs} {c : Cluster} {u : Units} {s : Scale} (p : Pos g c) (l : Lin c)
    (hg : Good c) (hu : c.units = some u) (hs : unitScale g c u = some s) {path : List PathPt} (hp : a.path = some path)
    (h2 : 2 ≤ path.length) (ht : a.toPath = true) (hd : a.doFull = false) (hpr : a.projected = false) :
    ∃ out c', orbitalPathMatch g flow a c = .ok (out, c') ∧ c'.data = c.data ∧ Fresh c' ∧ out.length = c.st.length ∧
      ∀ i < c.st.length, ∃ k, Nearest false (fun j => kpcScale.ph (path[j]!).p) path.length (galStar s c i) k ∧
        (out[i]!).t * s.time = (path[k]!).t * 1000 ∧
        (0 < between false (kpcScale.ph (path[k]!).p) (nextPoint (fun j => kpcScale.ph (path[j]!).p) path.length k) →
          0 < between false (kpcScale.ph (path[k]!).p) (galStar s c i) →
          ∃ d, (out[i]!).dpath = some d ∧
            (∃ t, |d| * s.len = between false (onLine (kpcScale.ph (path[k]!).p)
              (nextPoint (fun j => kpcScale.ph (path[j]!).p) path.length k) t) (galStar s c i)) ∧
            (∀ t, |d| * s.len ≤ between false (onLine (kpcScale.ph (path[k]!).p)
              (nextPoint (fun j => kpcScale.ph (path[j]!).p) path.length k) t) (galStar s c i)) ∧
            (d ≠ 0 → (d < 0 ↔ Below (kpcScale.ph (path[k]!).p) (galStar s c i)))) := by
  have hne : path ≠ [] := by rintro rfl; simp at h2
  obtain ⟨out, c', h1, h2', h3, h4, i0, -, h6⟩ := match_given (flow := flow) p l hg hu hs hp hne (fun _ => h2) hd
  refine ⟨out, c', h1, h2', h3, h4, fun i hi => ?_⟩
  obtain ⟨k, y, sm⟩ := h6 i hi
  have near := sm.nearest
  rw [hpr] at near
  refine ⟨k, near, sm.time, fun hO hS => ?_⟩
  obtain ⟨q, hq, hnan⟩ := sm.nan
  obtain ⟨q', hq', hdist⟩ := sm.dist
  have : q' = q := ph_injective (hq'.trans hq.symm)
  subst this
  obtain ⟨e, he, hpe⟩ := nextPoint_step h2 near.1
  have hE : PosEq (kpcScale.ph e) (nextPoint (fun j => kpcScale.ph (path[j]!).p) path.length k) := by
    have := nextPoint_scale path path.length k
    obtain ⟨a1, a2, a3⟩ := this
    obtain ⟨b1, b2, b3⟩ := hpe
    refine ⟨?_, ?_, ?_⟩
    · rw [← a1]; simp only [Scale.ph, b1]
    · rw [← a2]; simp only [Scale.ph, b2]
    · rw [← a3]; simp only [Scale.ph, b3]
  have rfl3 : ∀ p : Ph, PosEq p p := fun p => ⟨rfl, rfl, rfl⟩
  have hO' : 0 < between false (path[k]!).p e := by
    rw [← between_congr (rfl3 _) hE, between_scale kpc_pos.le] at hO
    exact pos_of_mul_pos_left hO kpc_pos.le
  have hS' : 0 < between false (path[k]!).p q' := by
    rw [← hq, between_scale kpc_pos.le] at hS
    exact pos_of_mul_pos_left hS kpc_pos.le
  obtain ⟨d0, l1, ⟨t0, l2⟩, l3⟩ := lineDist_spec hO' hS'
  have hdo : distOf a.projected a.toPath path k q' = some d0 := by
    simp only [distOf, ht, hpr, if_true, he, l1]
  have hline : ∀ t, between false (onLine (kpcScale.ph (path[k]!).p) (nextPoint (fun j => kpcScale.ph (path[j]!).p) path.length k) t)
      (galStar s c i) = between false (onLine (path[k]!).p e t) q' * 1000 := by
    intro t
    rw [← onLine_congr (rfl3 _) hE, ← hq, ← between_congr (onLine_scale _ _ t) (rfl3 _), between_scale kpc_pos.le]
    rfl
  cases hdp : (out[i]!).dpath with
  | none =>
    have := hnan.mp hdp
    rw [hdo] at this
    cases this
  | some d =>
    obtain ⟨d1, e1, e2⟩ := hdist d hdp
    rw [hdo] at e1
    cases e1
    have hsl : 0 < s.len := (unitScale_pos p hs).1
    have hd0 : 0 ≤ d0 := by rw [l2]; exact between_nonneg _ _ _
    have hsg : signOf a.projected path k y q' = if angularDot (path[k]!).p q' < 0 then -1 else 1 := by simp [signOf, hpr]
    rw [hsg] at e2
    have habs : |d| * s.len = d0 * 1000 := by
      rw [← abs_of_pos hsl, ← abs_mul, e2, abs_mul, abs_mul, abs_of_nonneg hd0]
      split <;> simp
    have hbel := below_iff (path[k]!).p q'
    rw [hq] at hbel
    refine ⟨d, rfl, ⟨t0, ?_⟩, fun t => ?_, fun hd => ?_⟩
    · rw [habs, hline, l2]
    · rw [habs, hline]
      exact mul_le_mul_of_nonneg_right (l3 t) (by norm_num)
    · rw [← hbel]
      have hd0' : 0 < d0 := by
        rcases hd0.lt_or_eq with h | h
        · exact h
        · exfalso; apply hd
          rw [← h, zero_mul] at habs
          have := (mul_eq_zero.mp habs).resolve_right hsl.ne'
          simpa using this
      by_cases ha : angularDot (path[k]!).p q' < 0
      · simp only [ha, if_true, iff_true] at e2 ⊢
        by_contra hc
        have : 0 ≤ d * s.len := mul_nonneg (not_lt.mp hc) hsl.le
        nlinarith
      · simp only [ha, if_false, iff_false, not_lt] at e2 ⊢
        by_contra hc
        have : d * s.len < 0 := mul_neg_of_neg_of_pos (not_le.mp hc) hsl
        nlinarith

/-- **C43 is violated with `to_path` for stars on a point of the path:** the result is NaN. -/
theorem C43_to_path_violated {g : Galpy} {flow : ℝ → Ph → Ph} {a : MatchArgs} {c : Cluster} {u : Units} {s : Scale} (p : Pos g c) (l : Lin c)
    (hg : Good c) (hu : c.units = some u) (hs : unitScale g c u = some s) {path : List PathPt} (hp : a.path = some path)
    (h2 : 2 ≤ path.length) (ht : a.toPath = true) (hd : a.doFull = false) (hpr : a.projected = false) {i j : ℕ} (hi : i < c.st.length)
    (hj : j < path.length) (hon : PosEq (kpcScale.ph (path[j]!).p) (galStar s c i)) :
    ∃ out c', orbitalPathMatch g flow a c = .ok (out, c') ∧ (out[i]!).dpath = none := by
  have hne : path ≠ [] := by rintro rfl; simp at h2
  obtain ⟨out, c', h1, -, -, -, i0, -, h6⟩ := match_given (flow := flow) p l hg hu hs hp hne (fun _ => h2) hd
  refine ⟨out, c', h1, ?_⟩
  obtain ⟨k, y, sm⟩ := h6 i hi
  have near := sm.nearest
  rw [hpr] at near
  obtain ⟨q, hq, hnan⟩ := sm.nan
  rw [hnan]
  have h0 : between false (kpcScale.ph (path[j]!).p) (galStar s c i) = 0 := by
    obtain ⟨a1, a2, a3⟩ := hon
    unfold between
    rw [a1, a2, a3]
    simp only [sub_self, Bool.false_eq_true, if_false]
    norm_num
  have h3 := near.2 j hj
  simp only at h3
  rw [h0, ← hq, between_scale kpc_pos.le] at h3
  have h4 : between false (path[k]!).p q = 0 := by
    have := between_nonneg false (path[k]!).p q
    have hp := kpc_pos
    nlinarith
  simp only [distOf, ht, hpr, if_true, lineDist, mag_sub]
  rw [if_pos (by rw [h4, mul_zero])]

/-- **C43 is violated for `do_full`:** together with `to_path` it always fails. -/
theorem C43_do_full_violated {pr : Bool} {path : List PathPt} (h2 : 2 ≤ path.length) (st : List Ph) :
    matchStars pr true true path st = .error .valueError := by
  have hne : (path.map (fun q => |q.t|)) ≠ [] := by
    intro h; rw [List.map_eq_nil_iff] at h; subst h; simp at h2
  obtain ⟨i0, e1, -, -⟩ := argminE_spec hne
  unfold matchStars
  have hc : ¬ (path.length < 2) := by omega
  simp only [e1, bind, Except.bind, hc, if_false, and_false, pure, Except.pure, and_self, if_true]
  rfl

/-- **C43 (projected), what holds.**  In projection the distance is that to the nearest point in the xy-plane if the point nearest in `y` is
not at the star's own `y`; otherwise zero is reported, whatever the distance.  The sign tells whether that point is at smaller or
larger `y` than the star. -/
theorem C43_projected_violated {g : Galpy} {flow : ℝ → Ph → Ph} {a : MatchArgs} {c : Cluster} {u : Units} {s : Scale} (p : Pos g c)
    (l : Lin c) (hg : Good c) (hu : c.units = some u) (hs : unitScale g c u = some s) {path : List PathPt} (hp : a.path = some path)
    (hne : path ≠ []) (ht : a.toPath = false) (hd : a.doFull = false) (hpr : a.projected = true) :
    ∃ out c', orbitalPathMatch g flow a c = .ok (out, c') ∧ c'.data = c.data ∧ out.length = c.st.length ∧
      ∀ i < c.st.length, ∃ k d, Nearest true (fun j => kpcScale.ph (path[j]!).p) path.length (galStar s c i) k ∧
        (out[i]!).t * s.time = (path[k]!).t * 1000 ∧ (out[i]!).dpath = some d ∧
        ((∀ j < path.length, (kpcScale.ph (path[j]!).p).y ≠ (galStar s c i).y) →
          |d| * s.len = between true (kpcScale.ph (path[k]!).p) (galStar s c i)) ∧
        ((∃ j < path.length, (kpcScale.ph (path[j]!).p).y = (galStar s c i).y) → d = 0) ∧
        ∃ y < path.length, (∀ j < path.length, |(kpcScale.ph (path[y]!).p).y - (galStar s c i).y|
            ≤ |(kpcScale.ph (path[j]!).p).y - (galStar s c i).y|) ∧
          (d < 0 → (kpcScale.ph (path[y]!).p).y < (galStar s c i).y) ∧
          (0 < d → (galStar s c i).y < (kpcScale.ph (path[y]!).p).y) := by
  obtain ⟨out, c', h1, h2, h3, h4, i0, -, h6⟩ := match_given (flow := flow) p l hg hu hs hp hne (by simp [ht]) hd
  refine ⟨out, c', h1, h2, h4, fun i hi => ?_⟩
  obtain ⟨k, y, sm⟩ := h6 i hi
  obtain ⟨q, hq, hnan⟩ := sm.nan
  obtain ⟨q', hq', hdist⟩ := sm.dist
  have : q' = q := ph_injective (hq'.trans hq.symm)
  subst this
  have hdo : distOf a.projected a.toPath path k q' = some (between true (path[k]!).p q') := by
    simp [distOf, ht, hpr]
  cases hdp : (out[i]!).dpath with
  | none =>
    have := hnan.mp hdp
    rw [hdo] at this
    cases this
  | some d =>
    obtain ⟨d0, e1, e2⟩ := hdist d hdp
    rw [hdo] at e1
    cases e1
    have hsl : 0 < s.len := (unitScale_pos p hs).1
    have near := sm.nearest
    rw [hpr] at near
    have hn := between_nonneg true (path[k]!).p q'
    have hsg : signOf a.projected path k y q' = npSign ((path[y]!).p.y - q'.y) := by simp [signOf, hpr]
    rw [hsg] at e2
    have hy : (kpcScale.ph (path[y]!).p).y = (galStar s c i).y ↔ (path[y]!).p.y - q'.y = 0 := by
      rw [← hq]; simp only [Scale.ph, kpcScale]
      constructor <;> intro h <;> linarith
    refine ⟨k, d, near, sm.time, rfl, fun hall => ?_, fun ⟨j, hj, hjy⟩ => ?_, y, sm.yLt, sm.yMin, fun hneg => ?_, fun hpos => ?_⟩
    · have hne0 : (path[y]!).p.y - q'.y ≠ 0 := fun h => hall y sm.yLt (hy.mpr h)
      have hb : between true (kpcScale.ph (path[k]!).p) (galStar s c i) = between true (path[k]!).p q' * 1000 := by
        rw [← hq, between_scale kpc_pos.le]; rfl
      have : |npSign ((path[y]!).p.y - q'.y)| = 1 := by
        unfold npSign
        rcases lt_or_gt_of_ne hne0 with h | h
        · rw [if_pos h]; norm_num
        · rw [if_neg (not_lt.mpr h.le), if_pos h]; norm_num
      rw [hb, ← abs_of_pos hsl, ← abs_mul, e2, abs_mul, abs_mul, abs_of_nonneg hn, this]
      simp
    · have h0 := sm.yMin j hj
      rw [hjy, sub_self, abs_zero] at h0
      have h1 : (kpcScale.ph (path[y]!).p).y = (galStar s c i).y := by
        have := abs_nonpos_iff.mp h0
        linarith
      rw [hy.mp h1] at e2
      simp only [npSign, lt_self_iff_false, if_false, mul_zero] at e2
      exact (mul_eq_zero.mp e2).resolve_right hsl.ne'
    · have h1 : (path[y]!).p.y - q'.y < 0 := by
        by_contra hc
        have h2 : 0 ≤ npSign ((path[y]!).p.y - q'.y) := by
          unfold npSign; rw [if_neg hc]; split_ifs <;> norm_num
        have h3 : 0 ≤ between true (path[k]!).p q' * 1000 * npSign ((path[y]!).p.y - q'.y) := by positivity
        nlinarith
      rw [← hq]; simp only [Scale.ph, kpcScale]; linarith
    · have h1 : 0 < (path[y]!).p.y - q'.y := by
        by_contra hc
        have h2 : npSign ((path[y]!).p.y - q'.y) ≤ 0 := by
          unfold npSign; rw [if_neg hc]; split_ifs <;> norm_num
        have h3 : 0 ≤ between true (path[k]!).p q' * 1000 := by positivity
        nlinarith [mul_nonneg h3 (neg_nonneg.mpr h2)]
      rw [← hq]; simp only [Scale.ph, kpcScale]; linarith

/-- **C43 is violated for the path of `orbital_path` itself:** in pc and km/s that path is in pc, but `orbital_path_match` reads it as
kpc, so that the distances are those from a path a thousand times larger. -/
theorem C43_own_path_violated {g : Galpy} {flow : ℝ → Ph → Ph} (hf : IsFlow flow) {a : MatchArgs} {c : Cluster}
    (p : Pos g c) (l : Lin c) (hg : Good c) (hu : c.units = some .pckms) {T : ℝ} (hT : a.tfinal = some T) (hn : 2 ≤ a.nt)
    (ht : a.toPath = false) (hd : a.doFull = false) (hpr : a.projected = false) :
    ∃ (path : List PathPt) (c1 : Cluster) (out : List Matched) (c' : Cluster), orbitalPath g flow a.toPathArgs c = .ok (path, c1) ∧
      orbitalPathMatch g flow { a with path := some path } c = .ok (out, c') ∧
      (∀ j < a.nt, PosEq (kpcScale.ph (path[j]!).p)
        ((orbitAt g flow ((path[j]!).t) (orbitStart ⟨1, 1, 1, 1⟩ a.fromCentre c)).mulPos 1000)) ∧
      ∀ i < c.st.length, ∃ k d, Nearest false (fun j => kpcScale.ph (path[j]!).p) a.nt (galStar ⟨1, 1, 1, 1⟩ c i) k ∧
        (out[i]!).dpath = some d ∧ |d| = between false (kpcScale.ph (path[k]!).p) (galStar ⟨1, 1, 1, 1⟩ c i) := by
  obtain ⟨path, c1, h4, -, -, hl, h5⟩ := C59_path_partial (flow := flow) hf (a := a.toPathArgs) p l hg hu rfl hT hn
  have hne : path ≠ [] := by rintro rfl; simp at hl; omega
  obtain ⟨out, c', h1, -, -, -, h6⟩ := C43_nearest (flow := flow) (a := { a with path := some path }) p l hg hu rfl rfl hne ht hd hpr
  refine ⟨path, c1, out, c', h4, h1, fun j hj => ?_, fun i hi => ?_⟩
  · obtain ⟨-, ⟨e1, e2, e3⟩, -⟩ := h5 j hj
    simp only [Scale.ph, mul_one] at e1 e2 e3
    refine ⟨?_, ?_, ?_⟩
    · simp only [Scale.ph, kpcScale, Ph.mulPos, e1]
    · simp only [Scale.ph, kpcScale, Ph.mulPos, e2]
    · simp only [Scale.ph, kpcScale, Ph.mulPos, e3]
  · obtain ⟨k, d, x1, x2, x3, x4, -⟩ := h6 i hi
    rw [hl] at x1
    simp only [mul_one] at x4
    exact ⟨k, d, x1, x3, x4⟩

end

end CT
