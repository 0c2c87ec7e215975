/- Property theorem C154: what only depends on masses and places is the same before and after a session with changing calls. -/
import Verif.Props.Mutate
import Verif.Props.Virial
import Verif.Props.Neighbours
import Verif.Props.Lagrange
import Verif.Props.Stored

namespace CT

noncomputable section

variable {g : Galpy} {w w' : World}

theorem star_of_places (h : w'.places = w.places) (i : ℕ) : place (w'.star i) = place (w.star i) := by
  have e : (w'.stars[i]?).map (Option.map place) = (w.stars[i]?).map (Option.map place) := by
    have := congrArg (fun l : List (Option (ℝ × ℝ × ℝ)) => l[i]?) h
    simpa [World.places] using this
  unfold World.star
  cases ha : w.stars[i]? with
  | none =>
    cases hb : w'.stars[i]? with
    | none => rfl
    | some b => simp [ha, hb] at e
  | some a =>
    cases hb : w'.stars[i]? with
    | none => simp [ha, hb] at e
    | some b =>
      cases a with
      | none => cases b <;> simp [ha, hb] at e ⊢
      | some p =>
        cases b with
        | none => simp [ha, hb] at e
        | some q =>
          simp only [ha, hb, Option.map_some, Option.some.injEq] at e
          simpa using e

theorem apart_of_places (h : w'.places = w.places) (pr : Bool) (i j : ℕ) : w'.apart pr i j = w.apart pr i j := by
  have a := star_of_places h i
  have b := star_of_places h j
  simp only [place, Prod.mk.injEq] at a b
  unfold World.apart between
  simp only [a.1, a.2.1, a.2.2, b.1, b.2.1, b.2.2]

theorem Unmoved.virial (h : Unmoved w w') (pr : Bool) : w'.virial pr = w.virial pr := by
  unfold World.virial
  rw [h.mass, places_length h.places]
  simp only [apart_of_places h.places]

/-- **C154 (virial radius).**  After any allowed session the virial radius is the one before it, by either implementation, in space and in
projection, in the units of length of either cluster. -/
theorem C154_virial_radius {l : List XCall} {e e' : ECluster} (hl : Allowed g l e) (d : Describes g w e.c) (h : msession g l e = .ok e')
    (full full' pr : Bool) {u v : Units} {s r : Scale} (hu : e.c.units = some u) (hs : unitScale g e.c u = some s) (hv : e'.c.units = some v)
    (hr : unitScale g e'.c v = some r) :
    ∃ a x b y, virialInverse g full pr e.c = .ok (a, x) ∧ virialInverse g full' pr e'.c = .ok (b, y) ∧ a * s.len = b * r.len := by
  obtain ⟨w', d', m, -, -⟩ := C152_session hl d h
  obtain ⟨a, x, h1, h2, -⟩ := C45_function d full pr hu hs
  obtain ⟨b, y, h3, h4, -⟩ := C45_function d' full' pr hv hr
  exact ⟨a, x, b, y, h1, h3, by rw [h2, h4, m.virial]⟩

/-- **C154 (distances to neighbours).**  After any allowed session of a cluster of two or more stars, the distance of every star to the star
nearest to it is the one before it. -/
theorem C154_closest_star {l : List XCall} {e e' : ECluster} (hl : Allowed g l e) (d : Describes g w e.c) (h : msession g l e = .ok e')
    {kd kd' : KDTree} (hk : IsKD kd) (hk' : IsKD kd') (hn : 2 ≤ w.stars.length) (pr : Bool) {u v : Units} {s r : Scale} (hu : e.c.units = some u)
    (hs : unitScale g e.c u = some s) (hv : e'.c.units = some v) (hr : unitScale g e'.c v = some r) :
    ∃ a x b y, closestStar kd pr e.c = some (a, x) ∧ closestStar kd' pr e'.c = some (b, y) ∧ a.length = w.stars.length ∧
      b.length = w.stars.length ∧ ∀ i < w.stars.length, a[i]! * s.len = b[i]! * r.len := by
  obtain ⟨w', d', m, -, -⟩ := C152_session hl d h
  have n1 := describes_count d
  have n2 := describes_count d'
  have n3 := places_length m.places
  obtain ⟨a, x, h1, h2, -, h3⟩ := C74_closest_star hk (pr := pr) d.pos d.lin (by omega) d.world hu hs
  obtain ⟨b, y, k1, k2, -, k3⟩ := C74_closest_star hk' (pr := pr) d'.pos d'.lin (by omega) d'.world hv hr
  refine ⟨a, x, b, y, h1, k1, by omega, by omega, fun i hi => ?_⟩
  obtain ⟨a1, ⟨j, hj, hji, a2⟩, -⟩ := h3 i (by omega)
  obtain ⟨b1, ⟨k, hk, hki, b2⟩, -⟩ := k3 i (by omega)
  refine le_antisymm ?_ ?_
  · rw [b2, apart_of_places m.places]
    exact a1 k (by omega) hki
  · rw [a2, ← apart_of_places m.places]
    exact b1 j (by omega) hji

theorem Unmoved.radii (m : Unmoved w w') (hc : w'.centre = w.centre ∧ w'.gc = w.gc) (f : Origin) (n : ℕ) :
    (List.range n).map (w'.radius f) = (List.range n).map (w.radius f) :=
  List.map_congr_left (fun k _ => radius_of_places m.places (by rw [hc.1, hc.2]))

/-- **C154 (Lagrange radii).**  After any allowed session without a centre finder, of a cluster measured from the same point (its centre, or its
position on its orbit), every Lagrange radius is the one before it. -/
theorem C154_lagrange_radii {l : List XCall} {e e' : ECluster} (hl : Allowed g l e) (d : Describes g w e.c) (h : msession g l e = .ok e')
    (hk : ∀ a ∈ l, a.keepsCentre) (hm : ∀ x ∈ w.mass, 0 ≤ x) (hf : workFrame e.c = workFrame e'.c) {n : ℕ} (hn : 0 < n) {u v : Units} {s r : Scale}
    (hu : e.c.units = some u) (hs : unitScale g e.c u = some s) (hv : e'.c.units = some v) (hr : unitScale g e'.c v = some r) :
    ∃ a x b y, rlagrange g n false e.c = .ok (a, x) ∧ rlagrange g n false e'.c = .ok (b, y) ∧ a.length = n ∧ b.length = n ∧
      ∀ k < n, a[k]! * s.len = b[k]! * r.len := by
  obtain ⟨w', d', m, -, hc⟩ := C152_session hl d h
  have n1 := describes_count d
  have n2 := describes_count d'
  have n3 := places_length m.places
  obtain ⟨a, x, h1, -, h2, -, h3, h4⟩ := C17_lagrange_radii g e.c n w u s hn d.pos d.lin d.good d.fresh (masses_nonneg d hm) d.world d.order hu hs
  obtain ⟨b, y, k1, -, k2, -, k3, k4⟩ := C17_lagrange_radii g e'.c n w' v r hn d'.pos d'.lin d'.good d'.fresh
    (masses_nonneg d' (by rw [m.mass]; exact hm)) d'.world d'.order hv hr
  have hf' : (if e'.c.origin = some .cluster then Origin.cluster else Origin.centre) = if e.c.origin = some .cluster then Origin.cluster else Origin.centre :=
    hf.symm
  rw [hf', ← n2, n3, n1, m.radii (hc hk), m.mass] at k3
  rw [hf', ← n2, n3, n1, m.radii (hc hk)] at k4
  refine ⟨a, x, b, y, h1, k1, h2, k2, fun k hk => ?_⟩
  have ha : k < a.length := by omega
  have hb : k < b.length := by omega
  rw [getElem!_pos a k ha, getElem!_pos b k hb]
  rcases Nat.lt_or_ge (k + 1) n with q | q
  · exact (h3 k ha q).unique (k3 k hb q)
  · obtain ⟨p1, p2⟩ := h4 k ha (by omega)
    obtain ⟨q1, q2⟩ := k4 k hb (by omega)
    exact le_antisymm (q2 _ p1) (p2 _ q1)

/-- **C154 (half-mass relaxation time).**  Under the same conditions, the half-mass relaxation time. -/
theorem C154_half_mass_relaxation {l : List XCall} {e e' : ECluster} (hl : Allowed g l e) (d : Describes g w e.c) (h : msession g l e = .ok e')
    (hk : ∀ a ∈ l, a.keepsCentre) (hm : ∀ x ∈ w.mass, 0 ≤ x) (hM : 0 < w.mass.sum) (hf : workFrame e.c = workFrame e'.c) {γ : ℝ}
    {u v : Units} {s r : Scale} (hu : e.c.units = some u) (hs : unitScale g e.c u = some s) (hv : e'.c.units = some v)
    (hr : unitScale g e'.c v = some r) :
    ∃ a x b y, halfMassRelaxationTime g γ false e.c = .ok (a, x) ∧ halfMassRelaxationTime g γ false e'.c = .ok (b, y) ∧
      a * s.time = b * r.time := by
  obtain ⟨w', d', m, -, hc⟩ := C152_session hl d h
  have n1 := describes_count d
  have n2 := describes_count d'
  have n3 := places_length m.places
  obtain ⟨a, x, ρ, h1, -, -, h2, h3⟩ := C71_half_mass (γ := γ) d.pos d.lin d.good d.fresh (masses_nonneg d hm) (mass_sum_pos d hM) d.world d.order hu hs
  obtain ⟨b, y, ρ', k1, -, -, k2, k3⟩ := C71_half_mass (γ := γ) d'.pos d'.lin d'.good d'.fresh (masses_nonneg d' (by rw [m.mass]; exact hm))
    (mass_sum_pos d' (by rw [m.mass]; exact hM)) d'.world d'.order hv hr
  have e1 : w'.radii (workFrame e'.c) e'.c.st.length = w.radii (workFrame e.c) e.c.st.length := by
    unfold World.radii
    rw [← hf, ← n2, n3, n1, m.radii (hc hk)]
  rw [m.mass, e1] at k2
  refine ⟨a, x, b, y, h1, k1, ?_⟩
  rw [h3, k3, m.mass, h2.unique k2]

/-- C154 applies to a session of new velocities and a conversion to kpc, on a two-star cluster: five Lagrange radii. -/
example : ∃ (w : World) (e e' : ECluster) (a b : List ℝ) (x y : Cluster),
    msession demoG [.virialize 0.5 false 0, .call (.convert (.toKpckms true))] e = .ok e' ∧ Describes demoG w e.c ∧ e.c.st = demo.st ∧
    rlagrange demoG 5 false e.c = .ok (a, x) ∧ rlagrange demoG 5 false e'.c = .ok (b, y) ∧ ∀ k < 5, a[k]! = b[k]! * 1000 := by
  obtain ⟨c, w, h0, p, lc, hg, f, hm, hM, hw, i, hu, hn, -⟩ := demo_analysed
  have kc := core_fields (analyze_core h0)
  have d : Describes demoG w c := ⟨p, lc, hg, f, hw, i⟩
  have st0 : c.st = [⟨3, 0, 4, 1, 0, 0⟩, ⟨0, 1, 0, 0, -2, 5⟩] := kc.2.2.2.2.1
  have m0 : c.m = [1, 3] := kc.2.2.2.1
  have o0 : c.origin = some .cluster := kc.2.1
  obtain ⟨e, he⟩ : ∃ e : ECluster, e = ⟨c, [], [], 0, 0, none⟩ := ⟨_, rfl⟩
  have ec : e.c = c := by rw [he]
  have hD : Distinct false e.c.st := by
    rw [ec, st0]
    intro a b ha hb hne
    simp only [List.length_cons, List.length_nil, Nat.reduceAdd] at ha hb
    have : (a = 0 ∧ b = 1) ∨ (a = 1 ∧ b = 0) := by omega
    rcases this with ⟨rfl, rfl⟩ | ⟨rfl, rfl⟩ <;> (simp [rowDist]; norm_num)
  obtain ⟨c1, S, e1, ρ, -, h1, -, -, -, -, -, -, -, -, ho1, -⟩ := virialize_run (q := 0.5) (projected := false) (soft := 0) (e := e)
    (by rw [ec]; exact p) (by rw [ec]; exact lc) (by rw [ec]; exact hg) (by rw [ec]; exact f) hD (by rw [ec, m0]; simp)
  have d0 : Describes demoG w e.c := by rw [ec]; exact d
  obtain ⟨w1, d1, s1, -, -⟩ := virialize_moved d0 e1 h1
  have k2 : Op.linear (.toKpckms true) := by simp [Op.linear, Op.unitTarget, Op.originTarget, Units.linear]
  obtain ⟨c4, h4, -⟩ := exec_total d1.pos d1.lin k2 d1.good
  have st := exec_step d1.pos.nz d1.lin k2 h4
  have run : msession demoG [.virialize 0.5 false 0, .call (.convert (.toKpckms true))] e = .ok { e1 with c := c4 } := by
    simp only [msession, XCall.exec, h1, Except.bind, Except.map, SCall.exec, h4]
  have al : Allowed demoG [.virialize 0.5 false 0, .call (.convert (.toKpckms true))] e :=
    ⟨trivial, fun x hx => ⟨fun w _ => ⟨k2, by simp [Op.analysed]⟩, fun _ _ => trivial⟩⟩
  have hmw : ∀ x ∈ w.mass, 0 ≤ x := by
    have : w.mass = c.m.map (· * 1) := by
      unfold world phys at hw
      simp only [hu, o0, unitScale, Option.some.injEq] at hw
      rw [← hw]
    rw [this, m0]
    norm_num
  have hof : workFrame e.c = workFrame c4 := by
    have : c4.origin = e.c.origin := by rw [st.origin]; exact ho1
    unfold workFrame
    rw [this]
  have hu4 : c4.units = some .kpckms := by rw [st.units]; rfl
  obtain ⟨a, x, b, y, q1, q2, -, -, q3⟩ := C154_lagrange_radii (n := 5) al d0 run (by simp [XCall.keepsCentre]) hmw hof (by norm_num)
    (u := .pckms) (v := .kpckms) (by rw [ec]; exact hu) rfl hu4 rfl
  refine ⟨w, e, _, a, b, x, y, run, d0, by rw [ec]; exact st0, q1, q2, fun k hk => ?_⟩
  have := q3 k hk
  simpa using this

end

end CT
