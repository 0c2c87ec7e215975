/- C61: coordinates along the tails.  C62: matching to the tail path. -/
import Verif.Props.Tails
import Verif.Spec.Demo

namespace CT

noncomputable section

set_option linter.unusedSimpArgs false

theorem rotate_dot {v : ℝ × ℝ × ℝ} {rot : Mat3} (h : TurnsToX v rot) (a b c a' b' c' : ℝ) :
    (a * rot 0 0 + b * rot 1 0 + c * rot 2 0) * (a' * rot 0 0 + b' * rot 1 0 + c' * rot 2 0) +
      (a * rot 0 1 + b * rot 1 1 + c * rot 2 1) * (a' * rot 0 1 + b' * rot 1 1 + c' * rot 2 1) +
      (a * rot 0 2 + b * rot 1 2 + c * rot 2 2) * (a' * rot 0 2 + b' * rot 1 2 + c' * rot 2 2) = a * a' + b * b' + c * c' := by
  have h00 := h.orthogonal 0 0
  have h01 := h.orthogonal 0 1
  have h02 := h.orthogonal 0 2
  have h11 := h.orthogonal 1 1
  have h12 := h.orthogonal 1 2
  have h22 := h.orthogonal 2 2
  simp at h00 h01 h02 h11 h12 h22
  linear_combination a * a' * h00 + (a * b' + b * a') * h01 + (a * c' + c * a') * h02 + b * b' * h11 + (b * c' + c * b') * h12 + c * c' * h22

/-- **C61.**  `to_tail` returns the stars' positions and velocities relative to the centre (rows given from the cluster's position as they
are), rotated: scalar products of all positions and velocities are kept, and orientation; the first coordinate is the component along
the cluster's orbital velocity.  The cluster is left as it was. -/
theorem C61_to_tail {g : Galpy} {rotTo : ℝ × ℝ × ℝ → Mat3} {c : Cluster} (p : Pos g c) (l : Lin c) (hg : Good c)
    (hrot : TurnsToX (c.gc.vx, c.gc.vy, c.gc.vz) (rotTo (c.gc.vx, c.gc.vy, c.gc.vz))) :
    ∃ out c', toTail g rotTo c = .ok (out, c') ∧ c'.data = c.data ∧ Fresh c' ∧ out.length = c.st.length ∧
      (∀ i < c.st.length, ∀ j < c.st.length, dotPos out[i]! out[j]! = dotPos (centred c)[i]! (centred c)[j]! ∧
        dotVel out[i]! out[j]! = dotVel (centred c)[i]! (centred c)[j]! ∧
        dotPosVel out[i]! out[j]! = dotPosVel (centred c)[i]! (centred c)[j]! ∧
        ∀ k < c.st.length, volume out[i]! out[j]! out[k]! = volume (centred c)[i]! (centred c)[j]! (centred c)[k]!) ∧
      ∀ i < c.st.length,
        (out[i]!).x * Real.sqrt (c.gc.vx ^ 2 + c.gc.vy ^ 2 + c.gc.vz ^ 2) =
          ((centred c)[i]!).x * c.gc.vx + ((centred c)[i]!).y * c.gc.vy + ((centred c)[i]!).z * c.gc.vz ∧
        (out[i]!).vx * Real.sqrt (c.gc.vx ^ 2 + c.gc.vy ^ 2 + c.gc.vz ^ 2) =
          ((centred c)[i]!).vx * c.gc.vx + ((centred c)[i]!).vy * c.gc.vy + ((centred c)[i]!).vz * c.gc.vz := by
  obtain ⟨⟨u, hu, hul⟩, ⟨o, ho, hol⟩⟩ := l
  have hur : c.units ≠ some .radec := by rw [hu]; intro h; cases h; exact hul
  obtain ⟨c1, h1, g1, l1, r1, w1, st1, gc1⟩ : ∃ c1, (if c.origin ≠ some .cluster ∧ c.origin ≠ some .centre then toCentre false none c else .ok c) = .ok c1 ∧
      Good c1 ∧ Lin c1 ∧ c1.rest = c.rest ∧ world g c1 = world g c ∧ c1.st = centred c ∧ c1.gc = c.gc := by
    by_cases hgal : o = .galaxy
    · subst hgal
      obtain ⟨c2, h2, g2⟩ := toCentre_total (s := false) (cm := none) hur hg
      have os := toCentre_ostep ho trivial hur h2
      refine ⟨c2, by rw [if_pos (by rw [ho]; simp)]; exact h2, g2, ⟨⟨u, os.units.trans hu, hul⟩, ⟨_, os.origin, trivial⟩⟩, os.rest,
        os.world (by rw [ho]; simp), toCentre_galaxy_rows ho hur h2, os.gcp⟩
    · have hno : ¬ (c.origin ≠ some .cluster ∧ c.origin ≠ some .centre) := by
        cases o <;> simp [Origin.linear] at hol hgal <;> simp [ho]
      refine ⟨c, by rw [if_neg hno], hg, ⟨⟨u, hu, hul⟩, ⟨o, ho, hol⟩⟩, rfl, rfl, ?_, rfl⟩
      unfold centred
      rw [if_neg (by rw [ho]; simpa using hgal)]
  obtain ⟨c2, h2, d2, f2, -, -, -⟩ := return_of_world (sort := false) (cm := none) p ⟨⟨u, hu, hul⟩, ⟨o, ho, hol⟩⟩ hg g1 l1 r1 w1
  set rot := rotTo (c.gc.vx, c.gc.vy, c.gc.vz) with hr
  have hlen : c1.st.length = c.st.length := by rw [st1, centred_length]
  have hget : ∀ i < c.st.length, (c1.st.map (rotateRow rot))[i]! = rotateRow rot (centred c)[i]! := by
    intro i hi
    rw [list_map_at (by omega), st1]
  refine ⟨c1.st.map (rotateRow rot), c2, ?_, d2, f2, by simp [hlen], ?_, ?_⟩
  · unfold toTail
    simp only [bind]
    refine ite_bind_of (f := fun c1 => (returnCluster g (saveCluster c) false none c1).bind fun c2 =>
      pure (c1.st.map (rotateRow (rotTo (c1.gc.vx, c1.gc.vy, c1.gc.vz))), c2)) h1 ?_
    simp only [h2, Except.bind, pure, Except.pure, gc1, hr]
  · intro i hi j hj
    rw [hget i hi, hget j hj]
    refine ⟨?_, ?_, ?_, fun k hk => ?_⟩
    · exact rotate_dot hrot _ _ _ _ _ _
    · exact rotate_dot hrot _ _ _ _ _ _
    · exact rotate_dot hrot _ _ _ _ _ _
    · rw [hget k hk]
      have hp := hrot.proper
      unfold volume rotateRow
      simp only
      generalize (centred c)[i]! = P
      generalize (centred c)[j]! = Q
      generalize (centred c)[k]! = R
      linear_combination (P.x * (Q.y * R.z - Q.z * R.y) - P.y * (Q.x * R.z - Q.z * R.x) + P.z * (Q.x * R.y - Q.y * R.x)) * hp
  · intro i hi
    rw [hget i hi]
    have key : ∀ a b d : ℝ, (a * rot 0 0 + b * rot 1 0 + d * rot 2 0) * Real.sqrt (c.gc.vx ^ 2 + c.gc.vy ^ 2 + c.gc.vz ^ 2) =
        a * c.gc.vx + b * c.gc.vy + d * c.gc.vz := by
      intro a b d
      have := rotate_dot hrot a b d c.gc.vx c.gc.vy c.gc.vz
      have hx := hrot.x
      have hy := hrot.y
      have hz := hrot.z
      simp only at hx hy hz
      rw [hx, hy, hz] at this
      linarith
    exact ⟨key _ _ _, key _ _ _⟩

/-- A rotation that turns (0, 220, 0) to the x-axis. -/
example : TurnsToX (0, 220, 0) (fun i j => ![![0, -1, 0], ![1, 0, 0], ![0, 0, 1]] i j) where
  orthogonal := by
    intro i j
    fin_cases i <;> fin_cases j <;> simp
  proper := by simp
  x := by simp [Real.sqrt_sq]
  y := by simp
  z := by simp

/-! ### C62 -/

/-- The tail path has entries if no star is left out. -/
theorem tail_nonempty {g : Galpy} {flow : ℝ → Ph → Ph} {a : TailArgs} {c : Cluster} {start : Ph} {T : ℝ} (hn : 2 ≤ a.no) (hne : c.st ≠ [])
    {s : Scale} {path : List PathPt} {near : ℕ → ℕ} {B : List (ℝ × ℝ)} {dist : ℕ → ℝ} (ho : IsOrbit g flow start T a.no path)
    (hN : ∀ i < c.st.length, Nearest a.projected (fun j => kpcScale.ph (path[j]!).p) a.no (galStar s c i) (near i))
    (hB : Contig (-|T|) |T| B) {ks : List ℕ}
    (hks : ∀ k, k ∈ ks ↔ k < B.length ∧ 0 < numOver c.st.length (InTailBin path near none dist B k)) : ks ≠ [] := by
  have h0 : 0 < c.st.length := List.length_pos_iff.mpr hne
  obtain ⟨k, ⟨hk, hin⟩, -⟩ := C60_each_star_once (dmax := none) (dist := dist) hn ho hB (i := 0) (hN 0 h0).1 (by simp)
  refine List.ne_nil_of_mem ((hks k).mpr ⟨hk, ?_⟩)
  unfold numOver
  refine Finset.card_pos.mpr ⟨0, ?_⟩
  simp only [Finset.mem_filter, Finset.mem_range]
  exact ⟨h0, hin⟩

/-- **C62, for clusters in kpc and km/s.**  `tail_path_match` without a path matches the stars to the entries of `tail_path`: every star to a
nearest one, with that entry's time and, up to sign, the distance from it.  In other units see `C62_units_violated`. -/
theorem C62_match_partial {g : Galpy} {flow : ℝ → Ph → Ph} (hf : IsFlow flow) {a : TailArgs} {c : Cluster}
    (p : Pos g c) (l : Lin c) (hg : Good c) (hu : c.units = some .kpckms) {T : ℝ} (hT : a.tfinal = some T)
    (hT0 : T ≠ 0) (hn : 2 ≤ a.no) (hb : 0 < a.nt) (hr : a.ntail ≤ a.nt) (hd : a.doFull = false) (hdm : a.dmax = none)
    (ht : a.toPath = false) (hpr : a.projected = false) :
    ∃ (rows : List PathPt) (c1 : Cluster) (out : List Matched) (c' : Cluster), tailPath g flow a c = .ok (rows, c1) ∧
      tailPathMatch g flow a none c = .ok (out, c') ∧ c'.data = c.data ∧ Fresh c' ∧ out.length = c.st.length ∧
      ∀ i < c.st.length, ∃ k d, Nearest false (fun j => kpcScale.ph (rows[j]!).p) rows.length (galStar kpcScale c i) k ∧
        (out[i]!).t = (rows[k]!).t ∧ (out[i]!).dpath = some d ∧
        |d| * 1000 = between false (kpcScale.ph (rows[k]!).p) (galStar kpcScale c i) := by
  have ha : ({ a with toPath := false, doFull := false, projected := false } : TailArgs) = a := by
    cases a; simp only [TailArgs.mk.injEq] at *; simp_all
  obtain ⟨path, near, B, mid, ks, rows, c1, h1, h2, -, ⟨g1, r1⟩, h4, h5, h6, h7, h8, h9⟩ := tail_run (flow := flow) hf p l hg hu
    (s := kpcScale) rfl hT hn hd (.inl hdm) (fun _ h1 h2 => tailBins_ok hT0 hn hb hr h1 h2)
  rw [hdm] at h8
  have hks := tail_nonempty hn hg.ne h4 h5 h6.contig h8
  have hrows : rows ≠ [] := by
    intro h; apply hks; have := h9.length_eq; rw [h] at this; exact List.eq_nil_of_length_eq_zero this
  obtain ⟨out, c', m1, m2, m3, m4, m5⟩ := C43_nearest (flow := flow) (a := a.matchArgs (some rows)) (s := kpcScale) (p.of_rest r1)
    (lin_of_data h2 l) g1 ((congrArg Data.units h2).trans hu) rfl rfl hrows ht hd hpr
  have hst : c1.st = c.st := congrArg Data.st h2
  have hgal : ∀ i, galStar kpcScale c1 i = galStar kpcScale c i := by
    intro i
    have e1 : c1.origin = c.origin := congrArg Data.origin h2
    have e2 : c1.gc = c.gc := congrArg Data.gc h2
    have e3 : c1.c = c.c := congrArg Data.c h2
    simp only [galStar, hst, e1, e2, e3]
  refine ⟨rows, c1, out, c', h1, ?_, m2.trans h2, m3, by rw [m4, hst], fun i hi => ?_⟩
  · unfold tailPathMatch
    rw [ha]
    simp only [Option.elim, h1, bind, Except.bind]
    exact m1
  · obtain ⟨k, d, x1, x2, x3, x4, -⟩ := m5 i (by rw [hst]; exact hi)
    rw [hgal i] at x1 x4
    refine ⟨k, d, x1, ?_, x3, x4⟩
    simp only [kpcScale] at x2
    linarith

/-- **C62 is violated in pc and km/s:** `tail_path_match` reads the tail path, which is in pc, as if it were in kpc.  The tail path of a cluster of
one star is that star; its distance from it is reported as 999 times its distance from the galactic centre. -/
theorem C62_units_violated {g : Galpy} {flow : ℝ → Ph → Ph} (hf : IsFlow flow) {a : TailArgs} {c : Cluster}
    (p : Pos g c) (l : Lin c) (hg : Good c) (hu : c.units = some .pckms) {T : ℝ} (hT : a.tfinal = some T)
    (hT0 : T ≠ 0) (hn : 2 ≤ a.no) (hb : 0 < a.nt) (hr : a.ntail ≤ a.nt) (hd : a.doFull = false) (hdm : a.dmax = none)
    (ht : a.toPath = false) (hpr : a.projected = false) (h1s : c.st.length = 1) :
    ∃ (q : PathPt) (c1 : Cluster) (m : Matched) (c' : Cluster) (d : ℝ), tailPath g flow a c = .ok ([q], c1) ∧
      PosEq q.p (galStar ⟨1, 1, 1, 1⟩ c 0) ∧ tailPathMatch g flow a none c = .ok ([m], c') ∧ m.dpath = some d ∧
      |d| = 999 * between false (galStar ⟨1, 1, 1, 1⟩ c 0) ⟨0, 0, 0, 0, 0, 0⟩ := by
  classical
  have ha : ({ a with toPath := false, doFull := false, projected := false } : TailArgs) = a := by
    cases a; simp only [TailArgs.mk.injEq] at *; simp_all
  obtain ⟨path, near, B, mid, ks, rows, c1, h1, h2, -, ⟨g1, r1⟩, h4, h5, h6, h7, h8, h9⟩ := tail_run (flow := flow) hf p l hg hu
    (s := ⟨1, 1, 1, 1⟩) rfl hT hn hd (.inl hdm) (fun _ h1 h2 => tailBins_ok hT0 hn hb hr h1 h2)
  rw [hdm] at h8
  have hks := tail_nonempty hn hg.ne h4 h5 h6.contig h8
  obtain ⟨k, ks', rfl⟩ := List.exists_cons_of_ne_nil hks
  have hin : ∀ j, 0 < numOver c.st.length (InTailBin path near none
      (fun i => between a.projected (kpcScale.ph (path[near i]!).p) (galStar ⟨1, 1, 1, 1⟩ c i)) B j) → InTailBin path near none
      (fun i => between a.projected (kpcScale.ph (path[near i]!).p) (galStar ⟨1, 1, 1, 1⟩ c i)) B j 0 := by
    intro j hj
    unfold numOver at hj
    obtain ⟨i, hi⟩ := Finset.card_pos.mp hj
    simp only [Finset.mem_filter, Finset.mem_range, h1s] at hi
    have : i = 0 := by omega
    exact this ▸ hi.2
  have hk0 := hin k ((h8 k).mp (by simp)).2
  have hks' : ks' = [] := by
    cases ks' with
    | nil => rfl
    | cons k2 _ =>
      exfalso
      have hk2 := hin k2 ((h8 k2).mp (by simp)).2
      have := h6.contig.inBin_unique hk0.2 hk2.2
      simp only [List.pairwise_cons] at h7
      have := h7.1 k2 (by simp)
      omega
  subst hks'
  rw [hdm] at h9
  simp only [List.forall₂_cons_left_iff, List.forall₂_nil_left_iff] at h9
  obtain ⟨q, _, ⟨-, hq⟩, rfl, rfl⟩ := h9
  have hmean : ∀ f : ℕ → ℝ, meanOver c.st.length (InTailBin path near none
      (fun i => between a.projected (kpcScale.ph (path[near i]!).p) (galStar ⟨1, 1, 1, 1⟩ c i)) B k) f = f 0 := by
    intro f
    rw [meanOver, numOver_eq, sumOver_ite, sumOver_ite, h1s, Finset.sum_range_one, Finset.sum_range_one, if_pos hk0, if_pos hk0, div_one]
  have hpos : PosEq q.p (galStar ⟨1, 1, 1, 1⟩ c 0) := by
    have e1 := hq.x
    have e2 := hq.y
    have e3 := hq.z
    simp only [Option.map_none] at e1 e2 e3
    rw [hmean] at e1 e2 e3
    simp only [Scale.ph, mul_one] at e1 e2 e3
    exact ⟨e1, e2, e3⟩
  obtain ⟨out, c', m1, m2, m3, m4, m5⟩ := C43_nearest (flow := flow) (a := a.matchArgs (some [q])) (s := ⟨1, 1, 1, 1⟩) (p.of_rest r1)
    (lin_of_data h2 l) g1 ((congrArg Data.units h2).trans hu) rfl rfl (by simp) ht hd hpr
  have hst : c1.st = c.st := congrArg Data.st h2
  have hgal : ∀ i, galStar ⟨1, 1, 1, 1⟩ c1 i = galStar ⟨1, 1, 1, 1⟩ c i := by
    intro i
    have e1 : c1.origin = c.origin := congrArg Data.origin h2
    have e2 : c1.gc = c.gc := congrArg Data.gc h2
    have e3 : c1.c = c.c := congrArg Data.c h2
    simp only [galStar, hst, e1, e2, e3]
  rw [hst, h1s] at m4
  obtain ⟨m, rfl⟩ := List.length_eq_one_iff.mp m4
  obtain ⟨k', d, x1, -, x3, x4, -⟩ := m5 0 (by rw [hst, h1s]; omega)
  have hk' : k' = 0 := by have := x1.1; simp only [List.length_singleton] at this; omega
  subst hk'
  refine ⟨q, c1, m, c', d, h1, hpos, ?_, x3, ?_⟩
  · unfold tailPathMatch
    rw [ha]
    simp only [Option.elim, h1, bind, Except.bind]
    exact m1
  · rw [hgal 0] at x4
    simp only [mul_one] at x4
    rw [x4]
    obtain ⟨e1, e2, e3⟩ := hpos
    show between false (kpcScale.ph q.p) _ = _
    unfold between
    simp only [Scale.ph, kpcScale, e1, e2, e3, Bool.false_eq_true, if_false, sub_zero]
    rw [← Real.sqrt_sq (show (0 : ℝ) ≤ 999 by norm_num), ← Real.sqrt_mul (by positivity)]
    congr 1
    ring

/-- **C60 is violated for `to_path` with `dmax`:** a star exactly on a point of the orbit has no distance from it (NaN) and is left out: if
all stars are, the tail is empty, whatever `dmax`. -/
theorem C60_on_path_violated {g : Galpy} {flow : ℝ → Ph → Ph} (hf : IsFlow flow) {a : TailArgs} {c : Cluster} {u : Units} {s : Scale}
    (p : Pos g c) (l : Lin c) (hg : Good c) (hu : c.units = some u) (hs : unitScale g c u = some s) {T d : ℝ} (hT : a.tfinal = some T)
    (hT0 : T ≠ 0) (hn : 2 ≤ a.no) (hb : 0 < a.nt) (hr : a.ntail ≤ a.nt) (hd : a.doFull = false) (hdm : a.dmax = some d)
    (htp : a.toPath = true) (hpr : a.projected = false)
    (hon : ∀ i < c.st.length, ∃ j < a.no, PosEq (orbitAt g flow ((-T + j * (2 * T / (a.no - 1))) * 1000) (orbitStart s a.fromCentre c))
      (galStar s c i)) :
    ∃ c', tailPath g flow a c = .ok ([], c') ∧ c'.data = c.data := by
  obtain ⟨c1, c2, h1, h2, ik⟩ := in_kpc (sort := false) p l hg hu hs
  have p2 := p.of_rest ik.rest
  obtain ⟨path, c3, h3, d3, g3, r3, hlen, hpts⟩ := matchPath_computed (flow := flow) hf (a := a.matchArgs none) p ik rfl hT hn
  have h3' : orbitalPath g flow a.pathArgs c2 = .ok (path, c3) := h3
  have hno : (a.matchArgs none).nt = a.no := rfl
  have hfc : (a.matchArgs none).fromCentre = a.fromCentre := rfl
  rw [hno] at hlen hpts
  rw [hfc] at hpts
  have hne : path ≠ [] := by rintro rfl; simp at hlen; omega
  have p3 := p2.of_rest r3
  have l3 := lin_of_data d3 ik.lin
  have hu3 : c3.units = some .kpckms := (congrArg Data.units d3).trans ik.units
  have ho3 : c3.origin = some .galaxy := (congrArg Data.origin d3).trans ik.origin
  have hst3 : c3.st = c2.st := congrArg Data.st d3
  obtain ⟨Tb, B, lo, hi, hTb, hB, hrange, hup, hmid, -⟩ := tailBins_ok (a := a) hT0 hn hb hr (times := path.map PathPt.t) (by simpa using hlen)
    (fun k hk => by rw [list_map_at (by omega)]; exact (hpts k hk).1)
  obtain ⟨out, c4, h4, d4, f4, hol, i0, -, hm⟩ := match_given (flow := flow) (a := a.matchArgs (some path)) (s := kpcScale) p3 l3 g3 hu3 rfl rfl
    hne (fun _ => by omega) hd
  obtain ⟨g4, r4⟩ := match_keeps (s := kpcScale) p3 l3 g3 hu3 rfl rfl h4
  have r4' : c4.rest = c.rest := (r4.trans r3).trans ik.rest
  have hst4 : c4.st = c2.st := (congrArg Data.st d4).trans hst3
  have l4 := lin_of_data d4 l3
  have w4 : world g c4 = world g c := (world_of_data d4 r4).trans ((world_of_data d3 r3).trans ik.world)
  obtain ⟨c5, h5, d5, f5, g5, -, r5⟩ := return_of_world (sort := false) (cm := none) p l hg g4 l4 r4' w4
  have hn3 : c3.st.length = c.st.length := by rw [hst3]; exact ik.len
  rw [hn3] at hm hol
  have hgal : ∀ i < c.st.length, galStar kpcScale c3 i = galStar s c i := by
    intro i hi'
    rw [← ik.star i hi']
    simp only [galStar, ho3, if_true, hst3]
  have hnone : ∀ i < c.st.length, (out[i]!).dpath = none := by
    intro i hi'
    obtain ⟨k, y, sm⟩ := hm i hi'
    have near := sm.nearest
    obtain ⟨q, hq, hnan⟩ := sm.nan
    rw [hgal i hi'] at hq near
    rw [hnan]
    obtain ⟨j, hj, hon⟩ := hon i hi'
    obtain ⟨e1, ⟨a1, a2, a3⟩, -⟩ := hpts j hj
    rw [e1] at a1 a2 a3
    obtain ⟨b1, b2, b3⟩ := hon
    have hp' : (a.matchArgs (some path)).projected = false := hpr
    have ht' : (a.matchArgs (some path)).toPath = true := htp
    have h0 : between false (kpcScale.ph (path[j]!).p) (galStar s c i) = 0 := by
      unfold between
      rw [a1, a2, a3, b1, b2, b3]
      simp only [sub_self, Bool.false_eq_true, if_false]
      norm_num
    rw [hp'] at near
    have h3 := near.2 j (by omega)
    simp only at h3
    rw [h0, ← hq, between_scale kpc_pos.le] at h3
    have h4 : between false (path[k]!).p q = 0 := by
      have := between_nonneg false (path[k]!).p q
      have hp := kpc_pos
      nlinarith
    simp only [distOf, ht', hp', if_true, lineDist, mag_sub]
    rw [if_pos (by rw [h4, mul_zero])]
  have hmask : MaskOf (tailMask (a.dmax.map (fun d => c.units.elim d (fun u => convertLength g c2 u .kpckms d))) out) c.st.length
      (fun _ => False) := by
    refine ⟨by simp [tailMask, hol], fun i hi' => ?_⟩
    unfold tailMask
    rw [list_map_at (by omega), hdm, hnone i hi']
    simp
  have htime : ∀ i < c.st.length, ∃ k < path.length, (out.map Matched.t)[i]! = (path[k]!).t := by
    intro i hi'
    obtain ⟨k, y, sm⟩ := hm i hi'
    have := sm.time
    simp only [kpcScale] at this
    refine ⟨k, sm.nearest.1, ?_⟩
    rw [list_map_at (by omega)]
    linarith
  obtain ⟨ks, rows, hr', -, hkm, hrows⟩ := tailRows_ok hB hmask (T := Tb) (ts := out.map Matched.t) (st := c4.st) (by simpa using hol)
    (by rw [hst4]; exact ik.len) (fun i hi' => by
      obtain ⟨k, hk, e⟩ := htime i hi'
      rw [e]
      refine hrange _ (List.mem_map.mpr ⟨path[k]!, ?_, rfl⟩)
      rw [getElem!_pos path _ hk]
      exact List.getElem_mem _) hup hmid
  have hks : ks = [] := by
    rw [List.eq_nil_iff_forall_not_mem]
    intro k hk
    have := ((hkm k).mp hk).2
    simp [numOver] at this
  subst hks
  cases hrows
  refine ⟨c5, ?_, d5⟩
  unfold tailPath
  simp only [h1, h2, bind, Except.bind, h3', hTb, h4, hr', h5, pure, Except.pure, List.map_nil]

end

end CT
