/- C59: the cluster's orbital path. -/
import Verif.Props.Tidal
import Verif.Props.Coords
import Verif.Spec.Orbits

namespace CT

noncomputable section

set_option linter.unusedSimpArgs false

/-- The natural units of galpy. -/
def natural (g : Galpy) (P : Ph) : Ph :=
  ⟨P.x / (1000 * g.ro), P.y / (1000 * g.ro), P.z / (1000 * g.ro), P.vx / g.vo, P.vy / g.vo, P.vz / g.vo⟩

theorem initializeOrbit_ok {g : Galpy} {c : Cluster} {u : Units} {s : Scale} {fc : Bool} (p : Pos g c) (l : Lin c) (hg : Good c)
    (hu : c.units = some u) (hs : unitScale g c u = some s) :
    ∃ c', initializeOrbit g fc c = .ok (natural g (orbitStart s fc c), c') ∧ c'.data = c.data ∧ Fresh c' ∧ Good c' ∧ c'.rest = c.rest := by
  have hul : u.linear := by cases u <;> simp only [unitScale, reduceCtorEq] at hs <;> trivial
  have hr : u ≠ .radec := by rintro rfl; exact hul
  obtain ⟨c1, h1, g1⟩ := toGalpy_total hu hul p hg
  have us := toGalpy_ustep p.nz hu hul h1
  have l1 : Lin c1 := ⟨⟨_, us.units, trivial⟩, by rw [us.origin]; exact l.2⟩
  obtain ⟨c2, h2, d2, f2, g2, -, r2⟩ := return_of_world (sort := false) (cm := none) p l hg g1 l1 us.rest us.world
  refine ⟨c2, ?_, d2, f2, g2, r2⟩
  unfold initializeOrbit
  rw [if_neg (by rw [hu]; simpa using hr)]
  simp only [h1, bind, Except.bind, h2, pure, Except.pure]
  rw [C32_cyl_roundtrip]
  congr 2
  have ph := us.phys
  have hg2 : unitScale g c1 .galpy = some ⟨1000 * g.ro, g.vo, g.massMsol, 1000 * g.timeGyr⟩ := rfl
  simp only [phys, us.units, hu, hs, hg2, Option.some.injEq, Phys.mk.injEq] at ph
  obtain ⟨-, -, -, pc, pg⟩ := ph
  simp only [Scale.ph, Ph.mk.injEq] at pc pg
  obtain ⟨a1, a2, a3, a4, a5, a6⟩ := pc
  obtain ⟨b1, b2, b3, b4, b5, b6⟩ := pg
  have hL : 1000 * g.ro ≠ 0 := by have := p.ro; positivity
  have hV := p.vo.ne'
  cases fc <;>
    simp only [natural, orbitStart, Scale.ph, phAdd, Ph.add, Bool.false_eq_true, if_false, if_true] <;>
    ext <;> simp only <;> first | (rw [eq_div_iff hL]; linarith) | (rw [eq_div_iff hV]; linarith)

theorem orbitFrom_row {g : Galpy} (hr : g.ro ≠ 0) (hv : g.vo ≠ 0) (p : Ph) : orbitFrom g (orbitRow g p) = p := by
  have key : ∀ q, orbitFrom g q = ((cylToCart (cartToCyl q)).divPos g.ro).divVel g.vo := by
    intro q
    unfold orbitFrom cylToCart
    simp only [Ph.divPos, Ph.divVel]
    ext <;> simp only <;> ring
  rw [key, C32_cyl_roundtrip]
  unfold orbitRow
  simp only [Ph.divPos, Ph.divVel, Ph.mulPos, Ph.mulVel]
  ext <;> simp only <;> field_simp

theorem linspace_last {a b : ℝ} {n : ℕ} (h : 2 ≤ n) : (linspace a b n).getLast? = some b := by
  obtain ⟨k, rfl⟩ : ∃ k, n = k + 2 := ⟨n - 2, by omega⟩
  unfold linspace
  rw [List.getLast?_map, List.getLast?_range]
  have : ((k + 2 : ℕ) : ℝ) - 1 ≠ 0 := by
    have h0 : (0 : ℝ) ≤ k := Nat.cast_nonneg k
    push_cast
    exact ne_of_gt (by linarith)
  simp only [Nat.add_eq_zero_iff, OfNat.ofNat_ne_zero, and_false, if_false, Option.map_some, Option.some.injEq]
  have e : ((k + 2 - 1 : ℕ) : ℝ) = ((k + 2 : ℕ) : ℝ) - 1 := by
    rw [Nat.cast_sub (by omega)]; simp
  rw [e]
  field_simp
  ring

theorem linspace_head {a b : ℝ} {n : ℕ} (h : 1 ≤ n) : (linspace a b n).headD 0 = a := by
  obtain ⟨k, rfl⟩ : ∃ k, n = k + 1 := ⟨n - 1, by omega⟩
  unfold linspace
  rw [List.range_succ_eq_map]
  simp

theorem pathRows_ok {g : Galpy} {flow : ℝ → Ph → Ph} (hf : IsFlow flow) (hr : g.ro ≠ 0) (hv : g.vo ≠ 0) {tf : ℝ} {nt : ℕ} (hn : 2 ≤ nt)
    (p : Ph) : pathRows g flow tf nt p = .ok ((linspace (-1 * tf) tf nt).map (fun t => ⟨t, orbitRow g (flow t p)⟩)) := by
  unfold pathRows
  rw [linspace_last hn]
  simp only
  rw [linspace_head (by omega)]
  congr 1
  refine List.map_congr_left fun t _ => ?_
  congr 2
  rw [orbitFrom_row hr hv, ← hf.add]
  congr 1
  ring

theorem orbitalPath_rows {g : Galpy} {flow : ℝ → Ph → Ph} (hf : IsFlow flow) {a : PathArgs} {c : Cluster} {u : Units} {s : Scale}
    (p : Pos g c) (l : Lin c) (hg : Good c) (hu : c.units = some u) (hs : unitScale g c u = some s) (hn : 2 ≤ a.nt) :
    ∃ c', orbitalPath g flow a c =
        .ok ((linspace (-1 * naturalTime g c a.tfinal) (naturalTime g c a.tfinal) a.nt).map
          (fun t => convertPt g c' ⟨t, orbitRow g (flow t (natural g (orbitStart s a.fromCentre c)))⟩), c') ∧
      c'.data = c.data ∧ Fresh c' ∧ Good c' ∧ c'.rest = c.rest := by
  obtain ⟨c', h, d', f', g', r'⟩ := initializeOrbit_ok (fc := a.fromCentre) p l hg hu hs
  refine ⟨c', ?_, d', f', g', r'⟩
  unfold orbitalPath
  simp only [h, bind, Except.bind, pathRows_ok hf p.ro.ne' p.vo.ne' hn, pure, Except.pure, List.map_map]
  rfl

theorem naturalTime_eq {g : Galpy} {c : Cluster} {u : Units} {s : Scale} (p : Pos g c) (hu : c.units = some u)
    (hs : unitScale g c u = some s) (T : ℝ) : naturalTime g c (some T) * (1000 * g.timeGyr) = T * s.time := by
  have h1 := p.time.ne'
  cases u <;> simp only [unitScale, Option.some.injEq, reduceCtorEq] at hs <;> subst hs <;>
    simp [naturalTime, hu, Units.isPc, Units.isKpc] <;> field_simp

theorem linspace_get {a b : ℝ} {n k : ℕ} (h : k < n) : (linspace a b n)[k]! = a + k * ((b - a) / (n - 1)) := by
  unfold linspace
  rw [getElem!_pos _ k (by simpa using h)]
  simp

theorem list_map_at {α β : Type} [Inhabited α] [Inhabited β] {l : List α} {f : α → β} {k : ℕ} (h : k < l.length) :
    (l.map f)[k]! = f l[k]! := by
  rw [getElem!_pos _ k (by simpa using h), getElem!_pos l k h]
  simp

/-- A point in the units of the cluster. -/
theorem convertPt_ok {g : Galpy} {flow : ℝ → Ph → Ph} {c' : Cluster} {u : Units} {s : Scale} (p : Pos g c')
    (hu : c'.units = some u) (hs : unitScale g c' u = some s) (t : ℝ) (P : Ph) :
    (convertPt g c' ⟨t, orbitRow g (flow t (natural g P))⟩).t * s.time = t * (1000 * g.timeGyr) ∧
    PosEq (s.ph (convertPt g c' ⟨t, orbitRow g (flow t (natural g P))⟩).p) (orbitAt g flow (t * (1000 * g.timeGyr)) P) ∧
    (VelOk .kpckms u → u ≠ .WDunits →
      VelEq (s.ph (convertPt g c' ⟨t, orbitRow g (flow t (natural g P))⟩).p) (orbitAt g flow (t * (1000 * g.timeGyr)) P)) := by
  have h1 := p.time.ne'
  have ht : t * (1000 * g.timeGyr) / (1000 * g.timeGyr) = t := by field_simp
  refine ⟨?_, ?_, ?_⟩
  · simp only [convertPt, hu, Option.elim]
    exact C38_time p.nz (su := 1000 * g.timeGyr) (.inl rfl) (.inl (by rw [hs]; rfl)) t
  · have hl : ∀ x, convertLength g c' .kpckms u x * s.len = x * 1000 := fun x =>
      C38_length p.nz (su := kpcScale) rfl hs x
    simp only [convertPt, hu, Option.elim, PosEq, Scale.ph, hl, orbitAt, ht, orbitRow, Ph.mulPos, Ph.mulVel]
    refine ⟨?_, ?_, ?_⟩ <;> simp only [natural] <;> ring
  · intro hv hw
    have hl : ∀ x, convertVelocity g c' .kpckms u x * s.vel = x * 1 := by
      intro x
      by_cases hx : x = 0
      · subst hx
        cases u <;> simp [convertVelocity, Units.isPc, Units.isKpc]
      · exact (C38_velocity_partial p.nz (su := kpcScale) rfl hs (by simp) hw hx).mpr hv
    simp only [convertPt, hu, Option.elim, VelEq, Scale.ph, hl, orbitAt, ht, orbitRow, Ph.mulPos, Ph.mulVel]
    refine ⟨?_, ?_, ?_⟩ <;> simp only [natural] <;> ring

theorem same_units {g : Galpy} {c c' : Cluster} {u : Units} {s : Scale} (hu : c.units = some u) (hs : unitScale g c u = some s)
    (hd : c'.data = c.data) (hr : c'.rest = c.rest) : c'.units = some u ∧ unitScale g c' u = some s :=
  ⟨(congrArg Data.units hd).trans hu, by rw [unitScale_of_rest hr]; exact hs⟩

/-- **C59.**  `orbital_path` returns the cluster's orbit: `nt ≥ 2` points at equal intervals of time from `-tfinal` to `tfinal` (in the
cluster's units), each the position to which the cluster's (or, with `from_centre`, its centre's) galactocentric position moves in that
time.  The cluster is left as it was.  Velocities are right in the units `VelOk`, see `C59_velocity_violated`. -/
theorem C59_path_partial {g : Galpy} {flow : ℝ → Ph → Ph} (hf : IsFlow flow) {a : PathArgs} {c : Cluster} {u : Units} {s : Scale}
    (p : Pos g c) (l : Lin c) (hg : Good c) (hu : c.units = some u) (hs : unitScale g c u = some s) {T : ℝ} (hT : a.tfinal = some T)
    (hn : 2 ≤ a.nt) :
    ∃ path c', orbitalPath g flow a c = .ok (path, c') ∧ c'.data = c.data ∧ Fresh c' ∧ path.length = a.nt ∧ ∀ k < a.nt,
      (path[k]!).t = -T + k * (2 * T / (a.nt - 1)) ∧
      PosEq (s.ph (path[k]!).p) (orbitAt g flow ((path[k]!).t * s.time) (orbitStart s a.fromCentre c)) ∧
      (VelOk .kpckms u → u ≠ .WDunits →
        VelEq (s.ph (path[k]!).p) (orbitAt g flow ((path[k]!).t * s.time) (orbitStart s a.fromCentre c))) := by
  obtain ⟨c', h, d', f', -, r'⟩ := orbitalPath_rows (flow := flow) hf p l hg hu hs hn
  refine ⟨_, c', h, d', f', by simp [linspace], fun k hk => ?_⟩
  obtain ⟨hu', hs'⟩ := same_units hu hs d' r'
  have hlen : k < (linspace (-1 * naturalTime g c a.tfinal) (naturalTime g c a.tfinal) a.nt).length := by simpa [linspace] using hk
  rw [list_map_at hlen, linspace_get hk]
  obtain ⟨q1, q2, q3⟩ := convertPt_ok (flow := flow) (p.of_rest r') hu' hs'
    (-1 * naturalTime g c a.tfinal + k * ((naturalTime g c a.tfinal - -1 * naturalTime g c a.tfinal) / (a.nt - 1)))
    (orbitStart s a.fromCentre c)
  rw [← q1] at q2 q3
  refine ⟨?_, q2, q3⟩
  have hst := (unitScale_pos p hs).2.2.2
  refine mul_right_cancel₀ hst.ne' ?_
  have e := naturalTime_eq p hu hs T
  rw [← hT] at e
  rw [q1]
  have hn1 : (a.nt : ℝ) - 1 ≠ 0 := by
    have : (2 : ℝ) ≤ a.nt := by exact_mod_cast hn
    exact ne_of_gt (by linarith)
  have hn2 : (naturalTime g c a.tfinal - -1 * naturalTime g c a.tfinal) / ((a.nt : ℝ) - 1) =
      naturalTime g c a.tfinal * (2 / (a.nt - 1)) := by ring
  rw [hn2]
  linear_combination (-1 + k * (2 / ((a.nt : ℝ) - 1))) * e

/-- **C59 (no `tfinal`).**  Without `tfinal` the path covers 100 Myr each way. -/
theorem C59_default_time {g : Galpy} {c : Cluster} (p : Pos g c) : naturalTime g c none * (1000 * g.timeGyr) = 100 := by
  have := p.time.ne'
  simp only [naturalTime, Option.elim]
  field_simp
  norm_num

/-- **C59 is violated for velocities** in pc/Myr and kpc/Gyr: they are off by the factor 1.02… . -/
theorem C59_velocity_violated {g : Galpy} {flow : ℝ → Ph → Ph} (hf : IsFlow flow) {a : PathArgs} {c : Cluster} {u : Units} {s : Scale}
    (p : Pos g c) (l : Lin c) (hg : Good c) (hu : c.units = some u) (hs : unitScale g c u = some s) (hn : 2 ≤ a.nt)
    (hv : u = .pcmyr ∨ u = .kpcgyr) :
    ∃ path c', orbitalPath g flow a c = .ok (path, c') ∧ ∀ k < a.nt,
      (path[k]!).p.vx * s.vel = (orbitAt g flow ((path[k]!).t * s.time) (orbitStart s a.fromCentre c)).vx / kmsToPcMyr := by
  obtain ⟨c', h, d', f', -, r'⟩ := orbitalPath_rows (flow := flow) hf p l hg hu hs hn
  refine ⟨_, c', h, fun k hk => ?_⟩
  obtain ⟨hu', hs'⟩ := same_units hu hs d' r'
  have hlen : k < (linspace (-1 * naturalTime g c a.tfinal) (naturalTime g c a.tfinal) a.nt).length := by simpa [linspace] using hk
  rw [list_map_at hlen]
  obtain ⟨q1, -, -⟩ := convertPt_ok (flow := flow) (p.of_rest r') hu' hs'
    (linspace (-1 * naturalTime g c a.tfinal) (naturalTime g c a.tfinal) a.nt)[k]! (orbitStart s a.fromCentre c)
  rw [q1]
  have ht := p.time.ne'
  have hc : ∀ x : ℝ, x * (1000 * g.timeGyr) / (1000 * g.timeGyr) = x := fun x => by field_simp
  unfold orbitAt
  simp only [hc]
  rcases hv with rfl | rfl <;> simp only [unitScale, Option.some.injEq] at hs <;> subst hs <;>
    simp [convertPt, hu', convertVelocity, Units.isPc, Units.isKpc, orbitRow, Ph.mulPos, Ph.mulVel, natural, div_eq_mul_inv]

/-- **C59 is violated for `nt = 1`:** the point labelled `-tfinal` is the position at time zero. -/
theorem C59_one_point_violated {g : Galpy} {flow : ℝ → Ph → Ph} (hf : IsFlow flow) {a : PathArgs} {c : Cluster} {u : Units} {s : Scale}
    (p : Pos g c) (l : Lin c) (hg : Good c) (hu : c.units = some u) (hs : unitScale g c u = some s) {T : ℝ} (hT : a.tfinal = some T)
    (hn : a.nt = 1) :
    ∃ q c', orbitalPath g flow a c = .ok ([q], c') ∧ q.t = -T ∧ PosEq (s.ph q.p) (orbitAt g flow 0 (orbitStart s a.fromCentre c)) := by
  obtain ⟨c', h, d', f', g', r'⟩ := initializeOrbit_ok (fc := a.fromCentre) p l hg hu hs
  obtain ⟨hu', hs'⟩ := same_units hu hs d' r'
  have p' := p.of_rest r'
  have hrow : pathRows g flow (naturalTime g c a.tfinal) 1 (natural g (orbitStart s a.fromCentre c)) =
      .ok [⟨-1 * naturalTime g c a.tfinal, orbitRow g (flow 0 (natural g (orbitStart s a.fromCentre c)))⟩] := by
    unfold pathRows
    simp [linspace, hf.zero, orbitFrom_row p.ro.ne' p.vo.ne']
  refine ⟨convertPt g c' ⟨-1 * naturalTime g c a.tfinal, orbitRow g (flow 0 (natural g (orbitStart s a.fromCentre c)))⟩, c', ?_, ?_, ?_⟩
  · unfold orbitalPath
    simp only [h, bind, Except.bind, hn, hrow, pure, Except.pure, List.map_cons, List.map_nil]
  · have hst := (unitScale_pos p hs).2.2.2
    refine mul_right_cancel₀ hst.ne' ?_
    have e := naturalTime_eq p hu hs T
    have q : convertTime g c' .galpy u (-1 * naturalTime g c a.tfinal) * s.time = -1 * naturalTime g c a.tfinal * (1000 * g.timeGyr) :=
      C38_time p'.nz (su := 1000 * g.timeGyr) (.inl rfl) (.inl (by rw [hs']; rfl)) _
    rw [← hT] at e
    simp only [convertPt, hu', Option.elim]
    rw [q]
    linarith
  · obtain ⟨-, q2, -⟩ := convertPt_ok (flow := flow) p' hu' hs' 0 (orbitStart s a.fromCentre c)
    rw [zero_mul] at q2
    simp only [convertPt, hu', Option.elim, PosEq] at q2 ⊢
    exact q2

theorem skyTime_eq {g : Galpy} {c : Cluster} {u : Units} {s : Scale} (p : Pos g c) (hu : c.units = some u)
    (hs : unitScale g c u = some s) (t : ℝ) : skyTime g c t * s.time = t * (1000 * g.timeGyr) := by
  have h1 := p.tbar.ne'
  cases u <;> simp only [unitScale, Option.some.injEq, reduceCtorEq] at hs <;> subst hs <;>
    simp [skyTime, hu, Units.isPc, Units.isKpc] <;> field_simp

/-- **C59 (sky).**  With `skypath` the points are the sky coordinates of the same orbit (galpy's coordinate map takes kpc and
km/s). -/
theorem C59_sky {g : Galpy} {flow : ℝ → Ph → Ph} (hf : IsFlow flow) {a : PathArgs} {c : Cluster} {u : Units} {s : Scale}
    (p : Pos g c) (l : Lin c) (hg : Good c) (hu : c.units = some u) (hs : unitScale g c u = some s) {T : ℝ} (hT : a.tfinal = some T)
    (hn : 2 ≤ a.nt) :
    ∃ path c', orbitalPathSky g flow a c = .ok (path, c') ∧ c'.data = c.data ∧ Fresh c' ∧ path.length = a.nt ∧ ∀ k < a.nt,
      (path[k]!).t = -T + k * (2 * T / (a.nt - 1)) ∧
      (path[k]!).p = g.toSky ((orbitAt g flow ((path[k]!).t * s.time) (orbitStart s a.fromCentre c)).divPos 1000) := by
  obtain ⟨c', h, d', f', g', r'⟩ := initializeOrbit_ok (fc := a.fromCentre) p l hg hu hs
  obtain ⟨hu', hs'⟩ := same_units hu hs d' r'
  have p' := p.of_rest r'
  refine ⟨(linspace (-1 * naturalTime g c a.tfinal) (naturalTime g c a.tfinal) a.nt).map (fun t =>
    (⟨skyTime g c' t, g.toSky (orbitRow g (flow t (natural g (orbitStart s a.fromCentre c))))⟩ : PathPt)), c', ?_, d', f', by simp [linspace], ?_⟩
  · unfold orbitalPathSky
    simp only [h, bind, Except.bind, pathRows_ok hf p.ro.ne' p.vo.ne' hn, pure, Except.pure, List.map_map]
    rfl
  · intro k hk
    have hlen : k < (linspace (-1 * naturalTime g c a.tfinal) (naturalTime g c a.tfinal) a.nt).length := by simpa [linspace] using hk
    rw [list_map_at hlen]
    dsimp only
    rw [skyTime_eq p' hu' hs', linspace_get hk]
    constructor
    · have hst := (unitScale_pos p hs).2.2.2
      refine mul_right_cancel₀ hst.ne' ?_
      rw [skyTime_eq p' hu' hs']
      have e := naturalTime_eq p hu hs T
      rw [← hT] at e
      have hn2 : (naturalTime g c a.tfinal - -1 * naturalTime g c a.tfinal) / ((a.nt : ℝ) - 1) =
          naturalTime g c a.tfinal * (2 / (a.nt - 1)) := by ring
      rw [hn2]
      linear_combination (-1 + k * (2 / ((a.nt : ℝ) - 1))) * e
    · have ht := p.time.ne'
      have hc : ∀ x : ℝ, x * (1000 * g.timeGyr) / (1000 * g.timeGyr) = x := fun x => by field_simp
      congr 1
      unfold orbitAt
      simp only [hc, orbitRow, Ph.mulPos, Ph.mulVel, Ph.divPos]
      ext <;> simp only [natural] <;> ring

/-- The hypotheses are met: a cluster in a potential that moves everything freely. -/
example : IsFlow (fun t p => ⟨p.x + t * p.vx, p.y + t * p.vy, p.z + t * p.vz, p.vx, p.vy, p.vz⟩) where
  zero p := by simp
  add s t p := by ext <;> simp only <;> ring

end

end CT
