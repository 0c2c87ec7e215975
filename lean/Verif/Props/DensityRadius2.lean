/- C83: the limiting radius. -/
import Verif.Props.DensityRadius

namespace CT

noncomputable section

set_option linter.unusedSimpArgs false

/-! ### reading the profile -/

theorem first_index (n : ℕ) (q : ℕ → Bool) (h : ∃ k < n, q k = true) :
    ∃ k, ((List.range n).filter q).head? = some k ∧ k < n ∧ q k = true ∧ ∀ j < k, q j = false := by
  rw [List.head?_filter]
  cases hf : (List.range n).find? q with
  | none =>
    obtain ⟨k, k1, k2⟩ := h
    have := List.find?_eq_none.mp hf k (List.mem_range.mpr k1)
    exact absurd k2 this
  | some k =>
    rw [List.find?_range_eq_some] at hf
    obtain ⟨h1, h2, h3⟩ := hf
    exact ⟨k, rfl, List.mem_range.mp h2, h1, fun j hj => by simpa using h3 j hj⟩

theorem last_index (n : ℕ) (q : ℕ → Bool) (h : ∃ k < n, q k = true) :
    ∃ k, ((List.range n).filter q).getLast? = some k ∧ k < n ∧ q k = true ∧ ∀ j, k < j → j < n → q j = false := by
  cases hf : ((List.range n).filter q).getLast? with
  | none =>
    obtain ⟨k, k1, k2⟩ := h
    rw [List.getLast?_eq_none_iff, List.filter_eq_nil_iff] at hf
    exact absurd k2 (hf k (List.mem_range.mpr k1))
  | some k =>
    obtain ⟨ys, hy⟩ := List.getLast?_eq_some_iff.mp hf
    have hk : k ∈ (List.range n).filter q := by rw [hy]; simp
    rw [List.mem_filter, List.mem_range] at hk
    refine ⟨k, rfl, hk.1, hk.2, fun j hj hn => ?_⟩
    by_contra hq
    have hj' : j ∈ (List.range n).filter q := List.mem_filter.mpr ⟨List.mem_range.mpr hn, by simpa using hq⟩
    have hp : ((List.range n).filter q).Pairwise (· < ·) := List.pairwise_lt_range.filter _
    rw [hy] at hj' hp
    rw [List.pairwise_append] at hp
    rw [List.mem_append, List.mem_singleton] at hj'
    rcases hj' with h1 | h1
    · have := hp.2.2 j h1 k (by simp); omega
    · omega

theorem getLastD_get {l : List ℝ} (h : l ≠ []) : l.getLastD 0 = l[l.length - 1]! := by
  have : 0 < l.length := List.length_pos_iff.mpr h
  rw [List.getLastD_eq_getLast?, List.getLast?_eq_getElem?, List.getElem?_eq_getElem (by omega), getElem!_pos l _ (by omega)]
  rfl

/-- A point on the line between two points of a falling piece. -/
theorem on_line {r1 r2 d1 d2 ρ x : ℝ} (hr : r1 < r2) (h1 : ρ ≤ d1) (h2 : d2 < ρ) (hx : (x - r1) * (d1 - d2) = (d1 - ρ) * (r2 - r1)) :
    r1 ≤ x ∧ x < r2 := by
  have hd : 0 < d1 - d2 := by linarith
  constructor
  · by_contra h
    push Not at h
    have : (x - r1) * (d1 - d2) < 0 := mul_neg_of_neg_of_pos (by linarith) hd
    have : 0 ≤ (d1 - ρ) * (r2 - r1) := mul_nonneg (by linarith) (by linarith)
    linarith
  · by_contra h
    push Not at h
    have e1 : (r2 - r1) * (d1 - d2) ≤ (x - r1) * (d1 - d2) := mul_le_mul_of_nonneg_right (by linarith) hd.le
    have e2 : (d1 - ρ) * (r2 - r1) < (d1 - d2) * (r2 - r1) := mul_lt_mul_of_pos_right (by linarith) (by linarith)
    linarith

theorem interpolate_line {r1 r2 d1 d2 ρ : ℝ} (hr : r1 ≠ r2) (hd : d1 ≠ d2) :
    (interpolate r1 d1 r2 d2 none (some ρ) - r1) * (d1 - d2) = (d1 - ρ) * (r2 - r1) := by
  have h1 : r2 - r1 ≠ 0 := sub_ne_zero.mpr hr.symm
  have h2 : d2 - d1 ≠ 0 := sub_ne_zero.mpr hd.symm
  simp only [interpolate]
  field_simp
  ring

theorem limitEdge_spec {rs ds : List ℝ} {ρ : ℝ} (hl : rs.length = ds.length) (hne : ds ≠ [])
    (inc : ∀ i j, i < j → j < ds.length → rs[i]! < rs[j]!) (hx : ds[ds.length - 1]! = ρ → ∃ k < ds.length, ds[k]! < ρ) :
    ∃ x, limitEdge rs ds ρ = .ok x ∧ IsLimiting rs ds ρ x := by
  have hpos : 0 < ds.length := List.length_pos_iff.mpr hne
  have hne' : rs ≠ [] := List.ne_nil_of_length_pos (by omega)
  unfold limitEdge
  rw [getLastD_get hne, getLastD_get hne']
  by_cases h1 : ρ < ds[ds.length - 1]!
  · rw [if_pos h1]; exact ⟨_, rfl, .inl ⟨h1, rfl⟩⟩
  · rw [if_neg h1]
    by_cases h2 : ds[0]! < ρ
    · rw [if_pos h2]; exact ⟨_, rfl, .inr (.inl ⟨not_lt.mp h1, h2, rfl⟩)⟩
    · rw [if_neg h2]
      have hex : ∃ k < ds.length, decide (ds[k]! < ρ) = true := by
        rcases eq_or_lt_of_le (not_lt.mp h1) with h | h
        · obtain ⟨k, k1, k2⟩ := hx h; exact ⟨k, k1, by simpa using k2⟩
        · exact ⟨ds.length - 1, by omega, by simpa using h⟩
      obtain ⟨k, e1, e2, e3, e4⟩ := first_index ds.length (fun k => decide (ds[k]! < ρ)) hex
      simp only [bind, Except.bind, e1, Option.elim, pure, Except.pure]
      have e3' : ds[k]! < ρ := by simpa using e3
      have e4' : ∀ j < k, ρ ≤ ds[j]! := fun j hj => by simpa using e4 j hj
      have hk1 : 1 ≤ k := by
        rcases Nat.eq_zero_or_pos k with h | h
        · rw [h] at e3'; exact absurd e3' h2
        · exact h
      have hi := inc (k - 1) k (by omega) e2
      have hd := e4' (k - 1) (by omega)
      have hline := interpolate_line (ρ := ρ) (d1 := ds[k - 1]!) (d2 := ds[k]!) hi.ne (by linarith)
      obtain ⟨b1, b2⟩ := on_line hi hd e3' hline
      exact ⟨_, rfl, .inr (.inr ⟨not_lt.mp h1, not_lt.mp h2, k, hk1, e2, e3', e4', b1, b2, hline⟩)⟩

theorem limitEdge_error {rs ds : List ℝ} {ρ : ℝ} (hne : ds ≠ []) (hx : ds[ds.length - 1]! = ρ) (ha : ∀ k < ds.length, ρ ≤ ds[k]!) :
    limitEdge rs ds ρ = .error .indexError := by
  have hpos : 0 < ds.length := List.length_pos_iff.mpr hne
  unfold limitEdge
  rw [getLastD_get hne, if_neg (by linarith), if_neg (not_lt.mpr (ha 0 hpos))]
  have : ((List.range ds.length).filter (fun k => decide (ds[k]! < ρ))) = [] := by
    rw [List.filter_eq_nil_iff]
    intro k hk
    simpa using ha k (List.mem_range.mp hk)
  simp only [bind, Except.bind, this, List.head?_nil, Option.elim]

theorem IsFirstFall.unique {rs ds : List ℝ} {ρ x y : ℝ} (hx : IsFirstFall rs ds ρ x) (hy : IsFirstFall rs ds ρ y) : x = y := by
  obtain ⟨k, a1, a2, a3, a4, -, -, a5⟩ := hx
  obtain ⟨j, b1, b2, b3, b4, -, -, b5⟩ := hy
  obtain rfl : k = j := by
    rcases lt_trichotomy k j with h | h | h
    · linarith [b4 k h]
    · exact h
    · linarith [a4 j h]
  have := a4 (k - 1) (by omega)
  have h : (x - rs[k - 1]!) * (ds[k - 1]! - ds[k]!) = (y - rs[k - 1]!) * (ds[k - 1]! - ds[k]!) := a5.trans b5.symm
  have := mul_right_cancel₀ (by linarith : ds[k - 1]! - ds[k]! ≠ 0) h
  linarith

theorem IsLimiting.unique {rs ds : List ℝ} {ρ x y : ℝ} (hx : IsLimiting rs ds ρ x) (hy : IsLimiting rs ds ρ y) : x = y := by
  rcases hx with ⟨a1, rfl⟩ | ⟨a1, a2, rfl⟩ | ⟨a1, a2, a3⟩ <;> rcases hy with ⟨b1, rfl⟩ | ⟨b1, b2, rfl⟩ | ⟨b1, b2, b3⟩ <;>
    first
    | rfl
    | exact a3.unique b3
    | (exfalso; linarith)

theorem scaled_get (l : List ℝ) (L : ℝ) (j : ℕ) : (l.map (· * L))[j]! = l[j]! * L := by
  by_cases hj : j < l.length
  · rw [getElem!_pos _ j (by simpa using hj), getElem!_pos l j hj, List.getElem_map]
  · rw [getElem!_neg _ j (by simpa using hj), getElem!_neg l j hj]
    show (0 : ℝ) = 0 * L
    rw [zero_mul]

theorem IsFirstFall.scale {rs ds : List ℝ} {ρ x L κ : ℝ} (hL : 0 < L) (hκ : 0 < κ) (h : IsFirstFall rs ds ρ x) :
    IsFirstFall (rs.map (· * L)) (ds.map (· * κ)) (ρ * κ) (x * L) := by
  obtain ⟨k, a1, a2, a3, a4, a5, a6, a7⟩ := h
  refine ⟨k, a1, by simpa using a2, ?_, ?_, ?_, ?_, ?_⟩
  · rw [scaled_get]; exact mul_lt_mul_of_pos_right a3 hκ
  · intro j hj; rw [scaled_get]; exact mul_le_mul_of_nonneg_right (a4 j hj) hκ.le
  · rw [scaled_get]; exact mul_le_mul_of_nonneg_right a5 hL.le
  · rw [scaled_get]; exact mul_lt_mul_of_pos_right a6 hL
  · simp only [scaled_get]
    have : (x - rs[k - 1]!) * (ds[k - 1]! - ds[k]!) * (L * κ) = (ds[k - 1]! - ρ) * (rs[k]! - rs[k - 1]!) * (L * κ) := by rw [a7]
    linear_combination this

theorem IsLimiting.scale {rs ds : List ℝ} {ρ x L κ : ℝ} (hL : 0 < L) (hκ : 0 < κ) (h : IsLimiting rs ds ρ x) :
    IsLimiting (rs.map (· * L)) (ds.map (· * κ)) (ρ * κ) (x * L) := by
  unfold IsLimiting
  simp only [List.length_map, scaled_get]
  rcases h with ⟨a1, rfl⟩ | ⟨a1, a2, rfl⟩ | ⟨a1, a2, a3⟩
  · exact .inl ⟨mul_lt_mul_of_pos_right a1 hκ, rfl⟩
  · exact .inr (.inl ⟨mul_le_mul_of_nonneg_right a1 hκ.le, mul_lt_mul_of_pos_right a2 hκ, zero_mul L⟩)
  · exact .inr (.inr ⟨mul_le_mul_of_nonneg_right a1 hκ.le, mul_le_mul_of_nonneg_right a2 hκ.le, a3.scale hL hκ⟩)

/-! ### the run -/

/-- The preparations of `rlimiting`. -/
theorem limiting_start {g : Galpy} {c : Cluster} {w : World} {u : Units} {s : Scale} (p : Pos g c) (l : Lin c) (hg : Good c) (f : Fresh c)
    (hw : world g c = some w) (hu : c.units = some u) (hs : unitScale g c u = some s) :
    ∃ c1 c2, (if c.origin ≠ some .cluster ∧ c.origin ≠ some .centre then toCentre false none c else .ok c) = .ok c1 ∧
      toGalpy g c1 = .ok c2 ∧ Good c2 ∧ Lin c2 ∧ Fresh c2 ∧ world g c2 = some w ∧ c2.rest = c.rest ∧ c2.units = some .galpy ∧
      c2.origin = some (workFrame c) ∧
      ∀ a, tideR g a c2 = (tideAt s a c).1 / g.ro ∧ tideZ g a c2 = (tideAt s a c).2 / g.ro := by
  obtain ⟨⟨u', hu', hul⟩, ⟨o, ho, hol⟩⟩ := id l
  rw [hu] at hu'; cases hu'
  have hur : c.units ≠ some .radec := by rw [hu]; rintro h; cases h; exact hul
  obtain ⟨c1, h1, g1, w1, r1, f1, l1, hu1, ho1⟩ : ∃ c1,
      (if c.origin ≠ some .cluster ∧ c.origin ≠ some .centre then toCentre false none c else .ok c) = .ok c1 ∧ Good c1 ∧
      world g c1 = some w ∧ c1.rest = c.rest ∧ Fresh c1 ∧ Lin c1 ∧ c1.units = some u ∧ c1.origin = some (workFrame c) := by
    by_cases hc : c.origin ≠ some .cluster ∧ c.origin ≠ some .centre
    · rw [if_pos hc]
      have hl : (Op.toCentre false none).linear := by
        simp [Op.linear, Op.unitTarget, Op.originTarget, Origin.linear]
      obtain ⟨c1, h1, g1⟩ := toCentre_total (s := false) (cm := none) hur hg
      have st := exec_step (op := .toCentre false none) p.nz l hl h1
      have os := toCentre_ostep ho hol hur h1
      refine ⟨c1, h1, g1, st.world.trans hw, st.rest, toCentre_fresh f h1, st.lin hl l, os.units.trans hu, ?_⟩
      rw [os.origin, workFrame, if_neg hc.1]
    · rw [if_neg hc]
      refine ⟨c, rfl, hg, hw, rfl, f, l, hu, ?_⟩
      unfold workFrame
      by_cases h1 : c.origin = some .cluster
      · rw [if_pos h1]; exact h1
      · rw [if_neg h1]; by_contra h2; exact hc ⟨h1, h2⟩
  have p1 := p.of_rest r1
  obtain ⟨c2, h2, g2⟩ := toGalpy_total hu1 hul p1 g1
  have us := toGalpy_ustep p1.nz hu1 hul h2
  have w2 : world g c2 = some w := us.world.trans w1
  have ho2 : c2.origin = some (workFrame c) := us.origin.trans ho1
  have hfl : (workFrame c).linear := by unfold workFrame; split <;> trivial
  have hs2 : unitScale g c2 .galpy = some ⟨1000 * g.ro, g.vo, g.massMsol, 1000 * g.timeGyr⟩ := rfl
  refine ⟨c1, c2, h1, h2, g2, ⟨⟨_, us.units, trivial⟩, _, ho2, hfl⟩, toGalpy_fresh f1 h2, w2, us.rest.trans r1, us.units, ho2, ?_⟩
  have hw' := w2.trans hw.symm
  simp only [world, phys, us.units, hu, hs, hs2, ho2, ho, Option.some.injEq, World.mk.injEq] at hw'
  obtain ⟨-, -, -, pc, pg⟩ := hw'
  simp only [Scale.ph, Ph.mk.injEq] at pg pc
  exact fun a => tide_position' ⟨pg.1, pg.2.1, pg.2.2.1⟩ ⟨pc.1, pc.2.1, pc.2.2.1⟩ p.ro (unitScale_pos p hs).1.le a

/-- `rlimiting` is the reading of the physical profile. -/
theorem limiting_run {g : Galpy} {dens : ℝ → ℝ → ℝ} {a : TideArgs} {c : Cluster} {w : World} {u : Units} {s : Scale} {pr : Bool} {e : PStars}
    {nrad : ℕ} (p : Pos g c) (l : Lin c) (hg : Good c) (f : Fresh c)
    (hw : world g c = some w) (hu : c.units = some u) (hs : unitScale g c u = some s)
    (he : StarLists e c.st.length) (hn : 0 < nrad) (ht : TwoRadii w pr (workFrame c) e) :
    ∃ P rs ds, ShellProfile w pr (workFrame c) e nrad P rs ds ∧
      ((ds[ds.length - 1]! = background g dens s a pr rs c → ∃ k < ds.length, ds[k]! < background g dens s a pr rs c) →
        ∃ x c', rlimiting g dens a nrad pr e c = .ok (x, c') ∧ c'.data = c.data ∧ Fresh c' ∧
          IsLimiting rs ds (background g dens s a pr rs c) (x * s.len)) ∧
      (ds[ds.length - 1]! = background g dens s a pr rs c → (∀ k < ds.length, background g dens s a pr rs c ≤ ds[k]!) →
        rlimiting g dens a nrad pr e c = .error .indexError) := by
  obtain ⟨c1, c2, h1, h2, g2, l2, f2, w2, r2, hu2, ho2, hpos⟩ := limiting_start p l hg f hw hu hs
  have p2 := p.of_rest r2
  have hs2 : unitScale g c2 .galpy = some ⟨1000 * g.ro, g.vo, g.massMsol, 1000 * g.timeGyr⟩ := rfl
  have n2 : c2.st.length = c.st.length := by rw [← world_length w2, world_length hw]
  have hfr : workFrame c = .cluster ∨ workFrame c = .centre := by unfold workFrame; split <;> simp
  obtain ⟨rs, ds, ns, af, P, h3, d3, f3, g3, r3, hS⟩ :=
    raw_profile (nrad := nrad) (e := e) p2 l2 g2 f2 w2 hu2 hs2 ho2 hfr (by rw [n2]; exact he) hn ht
  dsimp only at hS
  have hL : 0 < 1000 * g.ro := by have := p.ro; positivity
  have hM : 0 < g.massMsol := p.mass
  obtain ⟨hR, hZ⟩ := hpos a
  have hPne : P ≠ [] := by obtain ⟨lo, hi, q, -⟩ := hS.contig; exact q.ne
  have hPpos := List.length_pos_iff.mpr hPne
  have lr : rs.length = P.length := by simpa using hS.lenr
  have ld : ds.length = P.length := by simpa using hS.lend
  have hdne : ds ≠ [] := List.ne_nil_of_length_pos (by omega)
  have hrne : rs ≠ [] := List.ne_nil_of_length_pos (by omega)
  set L := 1000 * g.ro with hLd
  obtain ⟨κ, hκd⟩ : ∃ κ, κ = g.massMsol / L ^ (if pr then 2 else 3) := ⟨_, rfl⟩
  have hκ : 0 < κ := by rw [hκd]; positivity
  rw [← hκd] at hS
  obtain ⟨ρ, hρd⟩ : ∃ ρ, ρ = dens (tideR g a c2) (tideZ g a c2) * (if pr then 4 * rs.getLastD 0 / 3 else 1) := ⟨_, rfl⟩
  have hback : background g dens s a pr (rs.map (· * L)) c = ρ * κ := by
    rw [hρd, hκd, hR, hZ, getLastD_get hrne]
    unfold background localDensity
    rw [← hLd]
    simp only [List.length_map, scaled_get]
    cases pr
    · simp only [Bool.false_eq_true, if_false]; rw [mul_one, mul_div_assoc]
    · simp only [if_true]
      have hL0 := hL.ne'
      generalize dens ((tideAt s a c).1 / g.ro) ((tideAt s a c).2 / g.ro) = D
      generalize rs[rs.length - 1]! = R
      clear_value L
      field_simp
  have inc : ∀ i j, i < j → j < ds.length → rs[i]! < rs[j]! := by
    intro i j hij hj
    have := hS.increasing hij (by rw [← ld]; exact hj)
    rw [scaled_get, scaled_get] at this
    exact lt_of_mul_lt_mul_right this hL.le
  have w3 : world g af.cluster = some w := by rw [world_of_data d3 r3]; exact w2
  have l3 : Lin af.cluster := by
    refine ⟨?_, ?_⟩
    · rw [show af.cluster.units = c2.units from congrArg Data.units d3]; exact l2.1
    · rw [show af.cluster.origin = c2.origin from congrArg Data.origin d3]; exact l2.2
  obtain ⟨c4, h4, d4, f4, -, -, r4⟩ := return_of_world (sort := false) (cm := none) p l hg g3 l3 (r3.trans r2) (w3.trans hw.symm)
  have hu4 : c4.units = some u := (congrArg Data.units d4).trans hu
  refine ⟨P, rs.map (· * L), ds.map (· * κ), hS, ?_, ?_⟩
  · intro hx
    rw [hback] at hx ⊢
    simp only [List.length_map, scaled_get] at hx
    have hx' : ds[ds.length - 1]! = ρ → ∃ k < ds.length, ds[k]! < ρ := by
      intro h
      obtain ⟨k, k1, k2⟩ := hx (by rw [h])
      exact ⟨k, k1, lt_of_mul_lt_mul_right k2 hκ.le⟩
    obtain ⟨x, hx1, hx2⟩ := limitEdge_spec (by rw [lr, ld]) hdne inc hx'
    refine ⟨convertLength g c4 .galpy u x, c4, ?_, d4, f4, ?_⟩
    · unfold rlimiting
      simp only [bind, pure, Except.pure]
      refine ite_bind_of' h1 ?_
      simp only [h2, h3, Except.bind, hdne, if_false, ← hρd, hx1, h4, hu4, Option.elim]
    · rw [C38_length (p.of_rest r4).nz (su := ⟨1000 * g.ro, g.vo, g.massMsol, 1000 * g.timeGyr⟩) rfl (by rw [unitScale_of_rest r4]; exact hs)]
      exact hx2.scale hL hκ
  · intro hx ha
    rw [hback] at hx ha
    simp only [List.length_map, scaled_get] at hx ha
    have hx' := mul_right_cancel₀ hκ.ne' hx
    have := limitEdge_error (rs := rs) hdne hx' (fun k hk => le_of_mul_le_mul_right (ha k hk) hκ)
    unfold rlimiting
    simp only [bind, pure, Except.pure]
    by_cases hc : c.origin ≠ some .cluster ∧ c.origin ≠ some .centre
    · rw [if_pos hc] at h1 ⊢
      simp only [h1, h2, h3, Except.bind, hdne, if_false, ← hρd, this]
    · rw [if_neg hc] at h1 ⊢
      injection h1 with h1
      simp only [h1, h2, h3, Except.bind, hdne, if_false, ← hρd, this]

end

end CT
