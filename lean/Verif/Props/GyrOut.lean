/- C106, C107: `gyrout`. -/
import Verif.Model.Output
import Verif.Spec.Demo
import Verif.Props.ResetScale

namespace CT

noncomputable section

/-- The conversions made by `gyrout`. -/
def gyrOps : List Op := [.toGalaxy false, .toKpckms true]

theorem gyrOps_linear : ∀ op ∈ gyrOps, op.linear := by
  simp [gyrOps, Op.linear, Op.unitTarget, Op.originTarget, Units.linear, Origin.linear]

/-- The cluster whose columns are written. -/
structure AtGalaxy (g : Galpy) (c c2 : Cluster) : Prop where
  good : Good c2
  units : c2.units = some .kpckms
  origin : c2.origin = some .galaxy
  rest : c2.rest = c.rest
  lin : Lin c2
  world : world g c2 = world g c

theorem gyr_convert {g : Galpy} {c : Cluster} (p : Pos g c) (l : Lin c) (hg : Good c) :
    ∃ c1 c2 c3, toGalaxy g false c = .ok c1 ∧ toKpckms g true c1 = .ok c2 ∧ AtGalaxy g c c2 ∧
      returnCluster g (saveCluster c) false none c2 = .ok c3 ∧ c3.data = c.data := by
  obtain ⟨c2, h2, g2⟩ := run_total p l gyrOps_linear hg
  have st := run_steps p.nz l gyrOps_linear h2
  obtain ⟨c3, h3, hd, -⟩ := C09_return_restores g c c2 gyrOps false none p l hg gyrOps_linear h2
  simp only [gyrOps, run, Op.exec] at h2
  obtain ⟨c1, k1, k2⟩ := bind_ok h2
  obtain ⟨c2', k3, k4⟩ := bind_ok k2
  cases k4
  refine ⟨c1, c2, c3, k1, k3, ⟨g2, ?_, ?_, st.rest, st.lin, st.world⟩, h3, hd⟩
  · rw [st.units]; rfl
  · rw [st.origin]; rfl

/-- What the columns mean. -/
theorem AtGalaxy.columns {g : Galpy} {c c2 : Cluster} (h : AtGalaxy g c c2) {W : World} (hW : CT.world g c = some W) :
    W.mass = c2.m ∧ W.stars = c2.st.map (fun p => some (Scale.ph ⟨1000, 1, 1, 1000⟩ p)) := by
  have := h.world
  rw [hW] at this
  unfold CT.world phys at this
  simp only [h.units, h.origin, unitScale, Option.some.injEq] at this
  rw [← this]
  refine ⟨by simp, ?_⟩
  simp [galRows, galactocentric]

/-- A row of the file means mass `M` (Msun), the galactocentric position of `P` (pc) and its velocity (km/s) given in units of `1/k` km/s. -/
structure GyrMeans (k : ℝ) (row : List ℝ) (M : ℝ) (P : Ph) : Prop where
  mass : row[0]! * mconWD = M
  x : row[1]! * 1000 = P.x
  y : row[2]! * 1000 = P.y
  z : row[3]! * 1000 = P.z
  vx : row[4]! = P.vx * k
  vy : row[5]! = P.vy * k
  vz : row[6]! = P.vz * k

theorem gyrRow_means {vk : ℝ} {c2 : Cluster} {i : ℕ} (l : List ℝ) :
    GyrMeans (vk / 220) (gyrRow (gyrVcon vk) c2 i ++ l) (c2.m[i]!) (Scale.ph ⟨1000, 1, 1, 1000⟩ (c2.st[i]!)) := by
  have e : ∀ v : ℝ, v / gyrVcon vk = v * 1 * (vk / 220) := by
    intro v
    unfold gyrVcon
    rw [div_div_eq_mul_div]
    ring
  refine ⟨?_, ?_, ?_, ?_, ?_, ?_, ?_⟩
  · show c2.m[i]! / mconWD * mconWD = _
    exact div_mul_cancel₀ _ mcon_ne
  · rfl
  · rfl
  · rfl
  · exact e _
  · exact e _
  · exact e _

/-- Lengths in pc. -/
def pcOf (g : Galpy) (c : Cluster) (u : Units) (x : ℝ) : ℝ := ((unitScale g c u).map (fun s => x * s.len)).getD 0

theorem convert_kpc {g : Galpy} {c c2 : Cluster} (hr : c2.rest = c.rest) {u : Units} (hu : u.linear) (x : ℝ) :
    convertLength g c2 u .kpckms x * 1000 = pcOf g c u x := by
  obtain ⟨-, h2, -, -⟩ := rest_scales hr
  cases u <;> simp only [Units.linear] at hu <;> simp [convertLength, pcOf, unitScale, Units.isPc, Units.isKpc, h2] <;> ring

/-- The table written without softening lengths. -/
theorem gyrout_run {g : Galpy} {vk : ℝ} {c : Cluster} (p : Pos g c) (l : Lin c) (hg : Good c) (eu : Option Units) :
    ∃ c2 c3, AtGalaxy g c c2 ∧ gyrout g vk none eu c = .ok { rows := some ((List.range c2.st.length).map (gyrRow (gyrVcon vk) c2)), cluster := c3
                                                             eps := none, raised := none } ∧ c3.data = c.data := by
  obtain ⟨c1, c2, c3, h1, h2, h3, h4, h5⟩ := gyr_convert p l hg
  refine ⟨c2, c3, h3, ?_, h5⟩
  unfold gyrout
  simp only [h1, h2, h4, bind, Except.bind, Option.elim_none, Option.map_none, pure, Except.pure]

/-- The table written with softening lengths. -/
theorem gyrout_run_eps {g : Galpy} {vk : ℝ} {c : Cluster} (p : Pos g c) (l : Lin c) (hg : Good c) (eu : Option Units) (e : Eps) :
    ∃ c2 c3, AtGalaxy g c c2 ∧ c3.data = c.data ∧
      (∀ col, epsColumn c2.st.length (convertEps g c2 ((eu.or c.units).getD .other) e) = .ok col →
        gyrout g vk (some e) eu c = .ok
          { rows := some ((List.range c2.st.length).map (fun i => gyrRow (gyrVcon vk) c2 i ++ [col[i]!])), cluster := c3
            eps := some (epsAfter g c2 ((eu.or c.units).getD .other) e), raised := none }) ∧
      ∀ x, epsColumn c2.st.length (convertEps g c2 ((eu.or c.units).getD .other) e) = .error x →
        gyrout g vk (some e) eu c = .ok
          { rows := none, cluster := c2, eps := some (epsAfter g c2 ((eu.or c.units).getD .other) e), raised := some x } := by
  obtain ⟨c1, c2, c3, h1, h2, h3, h4, h5⟩ := gyr_convert p l hg
  refine ⟨c2, c3, h3, h5, fun col hc => ?_, fun x hc => ?_⟩
  · unfold gyrout
    simp only [h1, h2, h4, bind, Except.bind, Option.elim_some, Option.map_some, hc, Except.map, pure, Except.pure]
  · unfold gyrout
    simp only [h1, h2, bind, Except.bind, Option.elim_some, Option.map_some, hc, Except.map, pure, Except.pure]

theorem AtGalaxy.length {g : Galpy} {c c2 : Cluster} (h : AtGalaxy g c c2) {W : World} (hW : CT.world g c = some W) :
    W.stars.length = c2.st.length ∧ c2.st.length = c.st.length := by
  have e := (h.columns hW).2
  refine ⟨by rw [e, List.length_map], ?_⟩
  have h1 : W.stars.length = c.st.length := by
    unfold CT.world phys at hW
    split at hW <;> simp only [Option.some.injEq, reduceCtorEq] at hW
    rename_i P o hP ho
    rw [← hW]
    simp only [galRows, List.length_map]
    split at hP
    · cases hP
    · split at hP
      · cases hP
      · cases hP
        rw [List.length_map]
  rw [← h1, e, List.length_map]

theorem AtGalaxy.row {g : Galpy} {vk : ℝ} {c c2 : Cluster} (h : AtGalaxy g c c2) {W : World} (hW : CT.world g c = some W) {i : ℕ}
    (hi : i < c.st.length) (l : List ℝ) :
    ∃ P, W.stars[i]? = some (some P) ∧ GyrMeans (vk / 220) (gyrRow (gyrVcon vk) c2 i ++ l) (W.mass[i]!) P := by
  have hl := h.length hW
  refine ⟨Scale.ph ⟨1000, 1, 1, 1000⟩ (c2.st[i]!), ?_, ?_⟩
  · rw [(h.columns hW).2, List.getElem?_map, List.getElem?_eq_getElem (by omega), getElem!_pos c2.st i (by omega)]
    rfl
  · rw [(h.columns hW).1]
    exact gyrRow_means l

theorem world_some {g : Galpy} {c : Cluster} (l : Lin c) : ∃ W, world g c = some W := by
  obtain ⟨⟨u, hu, hul⟩, o, ho, -⟩ := l
  obtain ⟨s, hs⟩ := unitScale_linear (g := g) (c := c) hul
  refine Option.isSome_iff_exists.mp ?_
  simp only [world, phys, hu, hs, ho, Option.isSome_some]

/-- **C106.** `gyrout` without softening lengths, from all linear units and origins: one row for each star, in order, with its mass in units of
222288.45… Msun and its galactocentric position in kpc (velocities: see C107); the cluster is as before. -/
theorem C106_gyrout {g : Galpy} {vk : ℝ} {c : Cluster} (p : Pos g c) (l : Lin c) (hg : Good c) (eu : Option Units) {W : World}
    (hW : world g c = some W) :
    ∃ rows c', gyrout g vk none eu c = .ok { rows := some rows, cluster := c', eps := none, raised := none } ∧ c'.data = c.data ∧
      rows.length = c.st.length ∧ ∀ i < c.st.length, rows[i]!.length = 7 ∧ ∃ P, W.stars[i]? = some (some P) ∧ GyrMeans (vk / 220) (rows[i]!) (W.mass[i]!) P := by
  obtain ⟨c2, c3, h1, h2, h3⟩ := gyrout_run (vk := vk) p l hg eu
  have hl := h1.length hW
  refine ⟨_, c3, h2, h3, by rw [List.length_map, List.length_range]; exact hl.2, fun i hi => ?_⟩
  rw [get!_map _ _ _ (by rw [List.length_range]; omega), getElem!_pos (List.range _) i (by rw [List.length_range]; omega), List.getElem_range]
  obtain ⟨P, hP, hm⟩ := h1.row (vk := vk) hW hi []
  rw [List.append_nil] at hm
  exact ⟨rfl, P, hP, hm⟩

/-- **C106.** With a softening length (a float, for all stars) or an array of them in `epsunits` (by default the units of the cluster), the rows
have it in kpc in addition. -/
theorem C106_gyrout_eps {g : Galpy} {vk : ℝ} {c : Cluster} (p : Pos g c) (l : Lin c) (hg : Good c) {eu : Option Units} {u : Units}
    (hu : (eu.or c.units) = some u) (hul : u.linear) {W : World} (hW : world g c = some W) {e : Eps} {f : ℕ → ℝ}
    (he : (∃ x, e = .float x ∧ ∀ i, f i = x) ∨ ∃ xs, e = .arr xs ∧ xs.length = c.st.length ∧ ∀ i, f i = xs[i]!) :
    ∃ rows c' e', gyrout g vk (some e) eu c = .ok { rows := some rows, cluster := c', eps := e', raised := none } ∧ c'.data = c.data ∧
      rows.length = c.st.length ∧ ∀ i < c.st.length, rows[i]!.length = 8 ∧ (rows[i]!)[7]! * 1000 = pcOf g c u (f i) ∧
        ∃ P, W.stars[i]? = some (some P) ∧ GyrMeans (vk / 220) (rows[i]!) (W.mass[i]!) P := by
  obtain ⟨c2, c3, h1, h2, h3, -⟩ := gyrout_run_eps (vk := vk) p l hg eu e
  have hl := h1.length hW
  rw [hu, Option.getD_some] at h3
  obtain ⟨col, hc, hv⟩ : ∃ col, epsColumn c2.st.length (convertEps g c2 u e) = .ok col ∧ ∀ i < c.st.length, col[i]! * 1000 = pcOf g c u (f i) := by
    rcases he with ⟨x, rfl, hx⟩ | ⟨xs, rfl, hxl, hx⟩
    · refine ⟨_, rfl, fun i hi => ?_⟩
      rw [h1.units, Option.getD_some, getElem!_pos _ i (by rw [List.length_replicate]; omega), List.getElem_replicate, hx, convert_kpc h1.rest hul]
    · refine ⟨_, if_pos (by rw [List.length_map]; omega), fun i hi => ?_⟩
      rw [h1.units, Option.getD_some, get!_map _ _ _ (by omega), hx, convert_kpc h1.rest hul]
  refine ⟨_, c3, _, h3 col hc, h2, by rw [List.length_map, List.length_range]; exact hl.2, fun i hi => ?_⟩
  rw [get!_map _ _ _ (by rw [List.length_range]; omega), getElem!_pos (List.range _) i (by rw [List.length_range]; omega), List.getElem_range]
  exact ⟨rfl, hv i hi, h1.row hW hi _⟩

/-- `solar_vo` (constants.py:8-11). -/
def solarVo : ℝ := 8.275 * 30.39 - 12.24

/-- **C107, violated.** One km/s is `K` kpc/Gyr, and galpy's `velocity_in_kpcGyr(vo, ro)` is `vo * K`: the velocities written are those in
kpc/Gyr multiplied by `solar_vo/220` (1.087…), so no moving star has its velocity in the file. -/
theorem C107_velocities_violated {g : Galpy} {K : ℝ} (hK : 0 < K) {c : Cluster} (p : Pos g c) (l : Lin c) (hg : Good c)
    {W : World} (hW : world g c = some W) :
    ∃ rows c', gyrout g (solarVo * K) none none c = .ok { rows := some rows, cluster := c', eps := none, raised := none } ∧
      ∀ i < c.st.length, ∃ P, W.stars[i]? = some (some P) ∧ (rows[i]!)[4]! = P.vx * K * (solarVo / 220) ∧ (rows[i]!)[5]! = P.vy * K * (solarVo / 220) ∧
        (rows[i]!)[6]! = P.vz * K * (solarVo / 220) ∧ ((P.vx ≠ 0 ∨ P.vy ≠ 0 ∨ P.vz ≠ 0) → ¬GyrMeans K (rows[i]!) (W.mass[i]!) P) := by
  obtain ⟨rows, c', h1, -, -, h2⟩ := C106_gyrout (vk := solarVo * K) p l hg none hW
  refine ⟨rows, c', h1, fun i hi => ?_⟩
  obtain ⟨-, P, hP, hm⟩ := h2 i hi
  have e : ∀ v : ℝ, v * (solarVo * K / 220) = v * K * (solarVo / 220) := fun v => by ring
  have hv : solarVo / 220 ≠ 1 := by unfold solarVo; norm_num
  refine ⟨P, hP, hm.vx.trans (e _), hm.vy.trans (e _), hm.vz.trans (e _), fun hne hk => ?_⟩
  have key : ∀ v : ℝ, v * K = v * K * (solarVo / 220) → v = 0 := by
    intro v h
    have : v * K * (solarVo / 220 - 1) = 0 := by linarith
    rcases mul_eq_zero.mp this with h | h
    · exact (mul_eq_zero.mp h).resolve_right hK.ne'
    · exact absurd (by linarith) hv
  rcases hne with h | h | h
  · exact h (key _ (hk.vx.symm.trans (hm.vx.trans (e _))))
  · exact h (key _ (hk.vy.symm.trans (hm.vy.trans (e _))))
  · exact h (key _ (hk.vz.symm.trans (hm.vz.trans (e _))))

/-- **C107, violated.** Softening lengths given as an array in pc are divided by 1000 in the caller's array: the same call again writes them
1000 times too small. -/
theorem C107_eps_changed_violated {g : Galpy} {vk : ℝ} {c : Cluster} (p : Pos g c) (l : Lin c) (hg : Good c) {xs : List ℝ} (hl : xs.length = c.st.length) :
    ∃ rows c' e', gyrout g vk (some (.arr xs)) (some .pckms) c = .ok { rows := some rows, cluster := c', eps := some e', raised := none } ∧
      e' = .arr (xs.map (· / 1000)) ∧
      ∃ rows' c'' e'', gyrout g vk (some e') (some .pckms) c = .ok { rows := some rows', cluster := c'', eps := some e'', raised := none } ∧
        ∀ i < c.st.length, (rows[i]!)[7]! * 1000 = xs[i]! ∧ (rows'[i]!)[7]! * 1000 = xs[i]! / 1000 := by
  obtain ⟨W, hW⟩ := world_some (g := g) l
  have key : ∀ ys : List ℝ, ys.length = c.st.length → ∃ rows c', gyrout g vk (some (.arr ys)) (some .pckms) c =
      .ok { rows := some rows, cluster := c', eps := some (.arr (ys.map (· / 1000))), raised := none } ∧
      ∀ i < c.st.length, (rows[i]!)[7]! * 1000 = ys[i]! := by
    intro ys hy
    obtain ⟨rows, c', e', h1, -, -, h2⟩ := C106_gyrout_eps (vk := vk) p l hg (eu := some .pckms) (u := .pckms) (Option.some_or) trivial hW
      (e := .arr ys) (f := fun i => ys[i]!) (.inr ⟨ys, rfl, hy, fun _ => rfl⟩)
    obtain ⟨c2, c3, k1, -, k2, k3⟩ := gyrout_run_eps (vk := vk) p l hg (some .pckms) (.arr ys)
    refine ⟨rows, c', ?_, fun i hi => ?_⟩
    · have e : epsAfter g c2 (((some Units.pckms).or c.units).getD .other) (.arr ys) = .arr (ys.map (· / 1000)) := by
        simp [epsAfter, convertEps, k1.units, convertLength, Units.isPc, Units.isKpc]
      rw [e] at k2 k3
      cases hc : epsColumn c2.st.length (convertEps g c2 (((some Units.pckms).or c.units).getD .other) (.arr ys)) with
      | ok col =>
        have := k2 col hc
        rw [this] at h1 ⊢
        cases h1
        rfl
      | error x =>
        have := k3 x hc
        rw [this] at h1
        cases h1
    · have := (h2 i hi).2.1
      simpa [pcOf, unitScale] using this
  obtain ⟨rows, c', h1, h2⟩ := key xs hl
  obtain ⟨rows', c'', h3, h4⟩ := key (xs.map (· / 1000)) (by rw [List.length_map, hl])
  refine ⟨rows, c', _, h1, rfl, rows', c'', _, h3, fun i hi => ⟨h2 i hi, ?_⟩⟩
  rw [h4 i hi, get!_map _ _ _ (by omega)]

/-- **C107, violated.** If the number of softening lengths is wrong, or an integer is given in kpc, `ValueError` is raised and the cluster stays
where the computation took it: galactocentric and in kpc. -/
theorem C107_error_violated {g : Galpy} {vk : ℝ} {c : Cluster} (p : Pos g c) (l : Lin c) (hg : Good c) {e : Eps}
    (he : (∃ xs, e = .arr xs ∧ xs.length ≠ c.st.length) ∨ ((∃ k, e = .int k) ∧ c.st.length ≠ 1)) :
    ∃ c' e', gyrout g vk (some e) (some .kpckms) c = .ok { rows := none, cluster := c', eps := e', raised := some .valueError } ∧
      c'.units = some .kpckms ∧ c'.origin = some .galaxy := by
  obtain ⟨W, hW⟩ := world_some (g := g) l
  obtain ⟨c2, c3, h1, -, -, h2⟩ := gyrout_run_eps (vk := vk) p l hg (some .kpckms) e
  have hl := (h1.length hW).2
  refine ⟨c2, _, h2 .valueError ?_, h1.units, h1.origin⟩
  rcases he with ⟨xs, rfl, hx⟩ | ⟨⟨k, rfl⟩, hn⟩
  · show (if (xs.map _).length = c2.st.length then _ else _) = _
    rw [if_neg (by rw [List.length_map, hl]; exact hx)]
  · simp [convertEps, h1.units, epsColumn, hl, hn]

/-- Softening lengths of 1 and 2 pc: the second call of `gyrout` writes 0.001 and 0.002 pc. -/
example : ∃ e' rows' c'' e'', e' = Eps.arr [1 / 1000, 2 / 1000] ∧
    gyrout demoG 1 (some e') (some .pckms) demo = .ok { rows := some rows', cluster := c'', eps := some e'', raised := none } ∧
    (rows'[1]!)[7]! * 1000 = 2 / 1000 := by
  obtain ⟨rows, c', e', -, h1, rows', c'', e'', h2, h3⟩ := C107_eps_changed_violated (vk := 1) demo_pos demo_lin demo_good (xs := [1, 2]) rfl
  exact ⟨e', rows', c'', e'', h1, h2, (h3 1 (by simp [demo])).2⟩

/-- The two-star cluster meets the hypotheses; its first star moves. -/
example : ∃ rows c', gyrout demoG (solarVo * 1.0227) none none demo = .ok { rows := some rows, cluster := c', eps := none, raised := none } ∧
    c'.data = demo.data ∧ rows.length = 2 := by
  obtain ⟨W, hW⟩ := world_some (g := demoG) demo_lin
  obtain ⟨rows, c', h1, h2, h3, -⟩ := C106_gyrout (vk := solarVo * 1.0227) demo_pos demo_lin demo_good none hW
  exact ⟨rows, c', h1, h2, h3⟩

example : ∃ c' e', gyrout demoG 1 (some (.arr [])) (some .kpckms) demo = .ok { rows := none, cluster := c', eps := e', raised := some .valueError } ∧
    c'.units = some .kpckms ∧ c'.origin = some .galaxy :=
  C107_error_violated demo_pos demo_lin demo_good (.inl ⟨[], rfl, fun h => demo_good.ne (List.length_eq_zero_iff.mp h.symm)⟩)

end

end CT
