/- C44: the tidal radius. -/
import Verif.Lemmas.Profiles
import Verif.Spec.Tidal
import Verif.Props.Convert
import Verif.Props.Energy2

namespace CT

noncomputable section

set_option linter.unusedSimpArgs false

/-! ### the iteration -/

theorem TideRun.unique {T M : ℝ → ℝ} {q : ℝ} {k : ℕ} {ρ a b : ℝ} (ha : TideRun T M q k ρ a) (hb : TideRun T M q k ρ b) :
    a = b := by
  induction ha with
  | last => cases hb; rfl
  | lost k ρ h => cases hb <;> first | rfl | contradiction
  | done k ρ h h1 => cases hb <;> first | rfl | contradiction | linarith
  | next k ρ ρ' h h1 _ ih =>
    cases hb with
    | lost _ _ h2 => contradiction
    | done _ _ _ h2 => linarith
    | next _ _ _ _ _ h3 => exact ih h3

theorem TideRun.scale {T M : ℝ → ℝ} {q : ℝ} {k : ℕ} {ρ a : ℝ} (h : TideRun T M q k ρ a) {L : ℝ} (hL : 0 < L) {T' M' : ℝ → ℝ}
    (hT : ∀ ρ, T' (M' (ρ * L)) = T (M ρ) * L) : TideRun T' M' q k (ρ * L) (a * L) := by
  induction h with
  | last => exact .last _
  | lost k ρ h => rw [zero_mul]; exact .lost _ _ (by rw [hT, h, zero_mul])
  | done k ρ h h1 =>
    refine .done _ _ (by rw [hT]; exact mul_ne_zero h hL.ne') ?_
    rw [hT, ← mul_assoc]
    exact mul_le_mul_of_nonneg_right h1 hL.le
  | next k ρ ρ' h h1 _ ih =>
    refine .next _ _ _ (by rw [hT]; exact mul_ne_zero h hL.ne') ?_ ?_
    · rw [hT, ← mul_assoc]
      exact mul_lt_mul_of_pos_right h1 hL
    · rw [hT]; exact ih

theorem tideLoop_run {f : ℝ → ℝ} {q : ℝ} {m r : List ℝ} {n : ℕ} {S : ℕ → Prop} (hm : m.length = n) (hr : r.length = n)
    (hq : q ≤ 1) (f0 : f 0 = 0) (fn : ∀ x, 0 ≤ f x) (hrn : ∀ i < n, (0 : ℝ) ≤ r[i]!) (k : ℕ) (ρ : ℝ) (hρ : 0 ≤ ρ) (w : List Bool)
    {W : ℕ → Prop} (hw : MaskOf w n W) (hW : ∀ i < n, r[i]! < ρ → (S i ↔ W i)) :
    TideRun f (fun ρ => sumOver n (fun i => S i ∧ r[i]! < ρ) (fun i => m[i]!)) q k ρ (tideLoop f q m r k ρ w).1 := by
  induction k generalizing ρ w W with
  | zero => exact .last _
  | succ k ih =>
    have hw' : MaskOf (List.zipWith and w (r.map (fun x => decide (x < ρ)))) n (fun i => W i ∧ r[i]! < ρ) :=
      hw.zip ((MaskOf.map hr (fun x => decide (x < ρ))).congr fun i hi => by simp)
    have hs := hw'.sum' hm
    have hs' : sumOver n (fun i => W i ∧ r[i]! < ρ) (fun i => m[i]!) =
        sumOver n (fun i => S i ∧ r[i]! < ρ) (fun i => m[i]!) := by
      refine sumOver_congr (fun i hi => ?_) fun i _ _ => rfl
      constructor
      · rintro ⟨h1, h2⟩; exact ⟨(hW i hi h2).mpr h1, h2⟩
      · rintro ⟨h1, h2⟩; exact ⟨(hW i hi h2).mp h1, h2⟩
    rw [hs'] at hs
    unfold tideLoop
    dsimp only
    rw [hs]
    by_cases h0 : f (sumOver n (fun i => S i ∧ r[i]! < ρ) (fun i => m[i]!)) = 0
    · rw [if_pos h0]; exact .lost _ _ h0
    · rw [if_neg h0]
      have hpos : 0 < ρ := by
        rcases hρ.lt_or_eq with h | h
        · exact h
        · exfalso; apply h0
          have : sumOver n (fun i => S i ∧ r[i]! < ρ) (fun i => m[i]!) = 0 := by
            unfold sumOver
            classical
            refine Finset.sum_eq_zero fun i hi => ?_
            simp only [Finset.mem_filter, Finset.mem_range] at hi
            have := hrn i hi.1
            linarith [hi.2.2]
          rw [this, f0]
      by_cases h1 : q ≤ f (sumOver n (fun i => S i ∧ r[i]! < ρ) (fun i => m[i]!)) / ρ
      · rw [if_pos h1]
        exact .done _ _ h0 ((le_div_iff₀ hpos).mp h1)
      · rw [if_neg h1]
        have h2 : f (sumOver n (fun i => S i ∧ r[i]! < ρ) (fun i => m[i]!)) < q * ρ := by
          rw [not_le, div_lt_iff₀ hpos] at h1; exact h1
        refine .next _ _ _ h0 h2 ?_
        refine ih _ (fn _) _ hw' fun i hi hlt => ?_
        have h3 : r[i]! < ρ := by nlinarith
        exact ⟨fun h => ⟨(hW i hi h3).mp h, h3⟩, fun h => (hW i hi h3).mpr h.1⟩

/-! ### the cluster in galpy units -/

theorem unitScale_of_rest {g : Galpy} {c c' : Cluster} (h : c'.rest = c.rest) (u : Units) : unitScale g c' u = unitScale g c u := by
  obtain ⟨h1, h2, h3, h4⟩ := rest_scales h
  cases u <;> simp only [unitScale, h1, h2, h3, h4]

/-- What the preparations of `rtidal` leave. -/
structure InGalpy (g : Galpy) (s : Scale) (c c2 : Cluster) : Prop where
  good : Good c2
  lin : Lin c2
  fresh : Fresh c2
  world : world g c2 = world g c
  rest : c2.rest = c.rest
  mlen : c2.m.length = c.st.length
  rlen : c2.d.r.length = c.st.length
  mass : ∀ i < c.st.length, c2.m[i]! * g.massMsol = pmass s c i
  dist : ∀ i < c.st.length, c2.d.r[i]! * (1000 * g.ro) = pdist s c i
  rpos : ∀ i < c.st.length, (0 : ℝ) ≤ c2.d.r[i]!
  gc : c2.gc.x * (1000 * g.ro) = c.gc.x * s.len ∧ c2.gc.y * (1000 * g.ro) = c.gc.y * s.len ∧ c2.gc.z * (1000 * g.ro) = c.gc.z * s.len
  ctr : c2.c.x * (1000 * g.ro) = c.c.x * s.len ∧ c2.c.y * (1000 * g.ro) = c.c.y * s.len ∧ c2.c.z * (1000 * g.ro) = c.c.z * s.len

theorem get!_of_map_eq {α β γ : Type} [Inhabited α] [Inhabited β] {a : List α} {b : List β} {f : α → γ} {h : β → γ}
    (e : a.map f = b.map h) {i : ℕ} (hi : i < b.length) : f a[i]! = h b[i]! := by
  have hl : a.length = b.length := by have := congrArg List.length e; simpa using this
  have := congrArg (fun l => l[i]?) e
  simp only [List.getElem?_map] at this
  rw [List.getElem?_eq_getElem hi, List.getElem?_eq_getElem (by omega)] at this
  simp only [Option.map_some, Option.some.injEq] at this
  rw [getElem!_pos a i (by omega), getElem!_pos b i hi]
  exact this

theorem in_galpy {g : Galpy} {c : Cluster} {u : Units} {s : Scale} (p : Pos g c) (l : Lin c) (hg : Good c) (f : Fresh c)
    (hu : c.units = some u) (hs : unitScale g c u = some s) :
    ∃ c1 c2, profStart g false false c = .ok c1 ∧ toGalpy g c1 = .ok c2 ∧ InGalpy g s c c2 := by
  obtain ⟨c1, h1, s1⟩ := profStart_spec false false p l hg f
  have p1 := p.of_rest s1.rest
  obtain ⟨⟨u1, hu1, hul1⟩, ol1⟩ := s1.lin
  obtain ⟨c2, h2, g2⟩ := toGalpy_total hu1 hul1 p1 s1.good
  have us := toGalpy_ustep p1.nz hu1 hul1 h2
  have f2 := toGalpy_fresh s1.fresh h2
  have hs1 : unitScale g c1 u1 = some s := by
    rw [unitScale_of_rest s1.rest]
    have := s1.units
    rw [hu1, hu] at this
    by_cases ha : u = .amuse
    · subst ha
      simp only [if_true, Option.some.injEq] at this
      rw [this]; exact hs
    · rw [if_neg (by simpa using ha)] at this
      cases this; exact hs
  have hg2 : unitScale g c2 .galpy = some ⟨1000 * g.ro, g.vo, g.massMsol, 1000 * g.timeGyr⟩ := rfl
  have ph := us.phys
  simp only [phys, us.units, hu1, hs1, hg2, Option.some.injEq, Phys.mk.injEq] at ph
  obtain ⟨-, pm, pst, -, -⟩ := ph
  have hw : world g c2 = world g c := us.world.trans s1.world
  obtain ⟨o, ho, -⟩ := l.2
  obtain ⟨o2, ho2, -⟩ := ol1
  have hw' := hw
  simp only [world, phys, us.units, hu, hs, hg2, us.origin, ho, ho2, Option.some.injEq, World.mk.injEq] at hw'
  obtain ⟨-, -, -, pc, pg⟩ := hw'
  have hml : c2.m.length = c.st.length := by
    have := congrArg List.length pm
    simp only [List.length_map] at this
    rw [this, s1.m, hg.len]
  have hrl : c2.d.r.length = c.st.length := by
    rw [f2.r.length]
    have := congrArg List.length pst
    simp only [List.length_map] at this
    rw [this, s1.st, centred_length]
  refine ⟨c1, c2, h1, h2, g2, ⟨⟨_, us.units, trivial⟩, by rw [us.origin]; exact s1.lin.2⟩, f2, hw, us.rest.trans s1.rest, hml, hrl, ?_, ?_, ?_, ?_, ?_⟩
  · intro i hi
    have := get!_of_map_eq pm (i := i) (by rw [s1.m, hg.len]; exact hi)
    rw [this, s1.m]; rfl
  · intro i hi
    have hst := get!_of_map_eq pst (i := i) (by rw [s1.st, centred_length]; exact hi)
    rw [s1.st] at hst
    have hr : c2.d.r[i]! = dist0 false c2.st[i]! := by
      rw [f2.r.eq_map]
      have : i < c2.st.length := by rw [← f2.r.length, hrl]; exact hi
      rw [getElem!_pos _ i (by simpa using this), getElem!_pos c2.st i this]
      simp [dist0]
    rw [hr]
    unfold pdist
    simp only [Scale.ph, Ph.mk.injEq] at hst
    obtain ⟨ex, ey, ez, -⟩ := hst
    have hL : 0 ≤ 1000 * g.ro := by have := p.ro; positivity
    have hsl : 0 ≤ s.len := (unitScale_pos p hs).1.le
    unfold dist0
    simp only [Bool.false_eq_true, if_false]
    rw [← Real.sqrt_sq hL, ← Real.sqrt_sq hsl, ← Real.sqrt_mul (by positivity), ← Real.sqrt_mul (by positivity)]
    congr 1
    rw [add_mul, add_mul, add_mul, add_mul, ← mul_pow, ← mul_pow, ← mul_pow, ex, ey, ez, mul_pow, mul_pow, mul_pow]
  · intro i hi
    rw [f2.r.eq_map]
    have : i < c2.st.length := by rw [← f2.r.length, hrl]; exact hi
    rw [getElem!_pos _ i (by simpa using this)]
    simp only [List.getElem_map]
    exact Real.sqrt_nonneg _
  · simp only [Scale.ph, Ph.mk.injEq] at pg
    exact ⟨pg.1, pg.2.1, pg.2.2.1⟩
  · simp only [Scale.ph, Ph.mk.injEq] at pc
    exact ⟨pc.1, pc.2.1, pc.2.2.1⟩

/-! ### C44 -/

theorem mul_sqrt {x L : ℝ} (hL : 0 ≤ L) : Real.sqrt x * L = Real.sqrt (x * L ^ 2) := by
  rw [Real.sqrt_mul' _ (sq_nonneg L), Real.sqrt_sq hL]

theorem tide_position' {g : Galpy} {s : Scale} {c c2 : Cluster}
    (hgc : c2.gc.x * (1000 * g.ro) = c.gc.x * s.len ∧ c2.gc.y * (1000 * g.ro) = c.gc.y * s.len ∧ c2.gc.z * (1000 * g.ro) = c.gc.z * s.len)
    (hctr : c2.c.x * (1000 * g.ro) = c.c.x * s.len ∧ c2.c.y * (1000 * g.ro) = c.c.y * s.len ∧ c2.c.z * (1000 * g.ro) = c.c.z * s.len)
    (hro : 0 < g.ro) (hl : 0 ≤ s.len) (a : TideArgs) :
    tideR g a c2 = (tideAt s a c).1 / g.ro ∧ tideZ g a c2 = (tideAt s a c).2 / g.ro := by
  obtain ⟨gx, gy, gz⟩ := hgc
  obtain ⟨cx, cy, cz⟩ := hctr
  have hL : 0 ≤ 1000 * g.ro := by positivity
  have key : ∀ x y x' y' : ℝ, x * (1000 * g.ro) = x' * s.len → y * (1000 * g.ro) = y' * s.len →
      Real.sqrt (x ^ 2 + y ^ 2) = Real.sqrt (x' ^ 2 + y' ^ 2) * s.len / 1000 / g.ro := by
    intro x y x' y' h1 h2
    rw [div_div, eq_div_iff (by positivity), mul_sqrt hL, mul_sqrt hl]
    congr 1
    have : (x ^ 2 + y ^ 2) * (1000 * g.ro) ^ 2 = (x * (1000 * g.ro)) ^ 2 + (y * (1000 * g.ro)) ^ 2 := by ring
    rw [this, h1, h2]
    ring
  unfold tideR tideZ tideAt
  cases a.fromCentre <;> cases a.rgc <;> cases a.zgc <;>
    simp only [Option.elim, Option.getD, Bool.false_eq_true, if_false, if_true, phAdd] <;>
    refine ⟨?_, ?_⟩ <;>
    first
    | rfl
    | trivial
    | exact key _ _ _ _ gx gy
    | (refine key _ _ _ _ ?_ ?_ <;> rw [add_mul, add_mul] <;> simp only [gx, gy, cx, cy])
    | (rw [div_div, eq_div_iff (by positivity)]; first | exact gz | (rw [add_mul, add_mul, gz, cz]))

theorem tide_position {g : Galpy} {s : Scale} {c c2 : Cluster} (ig : InGalpy g s c c2) (hro : 0 < g.ro) (hl : 0 ≤ s.len) (a : TideArgs) :
    tideR g a c2 = (tideAt s a c).1 / g.ro ∧ tideZ g a c2 = (tideAt s a c).2 / g.ro := tide_position' ig.gc ig.ctr hro hl a

/-- The selection of the caller as a mask. -/
theorem selected_mask {indx : Option (List Bool)} {n : ℕ} (hi : ∀ w, indx = some w → w.length = n) :
    MaskOf (indx.getD (List.replicate n true)) n (Selected indx) := by
  cases indx with
  | none => exact (MaskOf.all n).congr fun i _ => by simp [Selected]
  | some w => exact ⟨hi w rfl, fun i _ => by simp [Selected]⟩

theorem rtidal_run {g : Galpy} {tide : ℝ → ℝ → ℝ → ℝ} {a : TideArgs} {indx : Option (List Bool)} {c : Cluster} {u : Units} {s : Scale}
    (p : Pos g c) (l : Lin c) (hg : Good c) (f : Fresh c) (hu : c.units = some u) (hs : unitScale g c u = some s)
    (hi : ∀ w, indx = some w → w.length = c.st.length) :
    ∃ c2 c3 r, InGalpy g s c c2 ∧
      r = tideLoop (tide (tideR g a c2) (tideZ g a c2)) a.converge c2.m c2.d.r a.iterate
        (tide (tideR g a c2) (tideZ g a c2) (maskSel (indx.getD (List.replicate c.st.length true)) c2.m).sum)
        (indx.getD (List.replicate c.st.length true)) ∧
      rtidal g tide a indx c = .ok (convertLength g c3 .galpy u r.1, indx.map (fun _ => r.2), c3) ∧
      c3.data = c.data ∧ Fresh c3 ∧ c3.rest = c.rest := by
  obtain ⟨c1, c2, h1, h2, ig⟩ := in_galpy p l hg f hu hs
  obtain ⟨c3, h3, d3, f3, -, -, r3⟩ := return_of_world (sort := false) (cm := none) p l hg ig.good ig.lin ig.rest ig.world
  refine ⟨c2, c3, _, ig, rfl, ?_, d3, f3, r3⟩
  have hu3 : c3.units = some u := (congrArg Data.units d3).trans hu
  have hwl : (indx.getD (List.replicate c.st.length true)).length = c.st.length := (selected_mask hi).len
  unfold rtidal
  simp only [h1, h2, bind, Except.bind, ig.mlen, hwl, ne_eq, not_true_eq_false, if_false, h3, hu3, Option.elim, pure, Except.pure]

/-- **C44.**  `rtidal` iterates as described by `TideRun`, in physical terms and for every cluster in any linear units and any
origin: with `T M` the tidal radius in pc of a mass `M` at the cluster's position, the first estimate is that of all selected stars, each
further one that of the selected stars within the previous estimate, and the result is the last one, converted to the cluster's units.
The cluster itself is left as it was.  `tide`, galpy's function, is only assumed to be non-negative and zero for zero mass. -/
theorem C44_iteration {g : Galpy} {tide : ℝ → ℝ → ℝ → ℝ} {a : TideArgs} {indx : Option (List Bool)} {c : Cluster} {u : Units}
    {s : Scale} (p : Pos g c) (l : Lin c) (hg : Good c) (f : Fresh c) (hu : c.units = some u) (hs : unitScale g c u = some s)
    (hi : ∀ w, indx = some w → w.length = c.st.length) (t0 : ∀ R z, tide R z 0 = 0) (tn : ∀ R z M, 0 ≤ tide R z M)
    (hq : a.converge ≤ 1) :
    ∃ ρ w c', rtidal g tide a indx c = .ok (ρ, w, c') ∧ c'.data = c.data ∧ Fresh c' ∧
      TideRun (tidePc g tide (tideAt s a c)) (massIn s c (Selected indx)) a.converge a.iterate
        (tidePc g tide (tideAt s a c) (massAll s c (Selected indx))) (ρ * s.len) := by
  obtain ⟨c2, c3, r, ig, hr, h, d3, f3, r3⟩ := rtidal_run (tide := tide) (a := a) p l hg f hu hs hi
  refine ⟨_, _, c3, h, d3, f3, ?_⟩
  have hL : 0 < 1000 * g.ro := by have := p.ro; positivity
  have hM : 0 < g.massMsol := p.mass
  have hlen : convertLength g c3 .galpy u r.1 * s.len = r.1 * (1000 * g.ro) :=
    C38_length (p.of_rest r3).nz (su := ⟨1000 * g.ro, g.vo, g.massMsol, 1000 * g.timeGyr⟩) rfl
      (by rw [unitScale_of_rest r3]; exact hs) r.1
  rw [hlen, hr]
  obtain ⟨eR, eZ⟩ := tide_position ig p.ro (unitScale_pos p hs).1.le a
  rw [eR, eZ]
  have hmask := selected_mask hi
  have run := tideLoop_run (f := tide ((tideAt s a c).1 / g.ro) ((tideAt s a c).2 / g.ro)) ig.mlen ig.rlen hq (t0 _ _) (tn _ _) ig.rpos
    a.iterate (tide ((tideAt s a c).1 / g.ro) ((tideAt s a c).2 / g.ro) (maskSel (indx.getD (List.replicate c.st.length true)) c2.m).sum)
    (tn _ _ _) _ hmask (S := Selected indx) fun _ _ _ => Iff.rfl
  have hsum : ∀ S : ℕ → Prop, sumOver c.st.length S (pmass s c) / g.massMsol = sumOver c.st.length S (fun i => c2.m[i]!) := by
    intro S
    unfold sumOver
    classical
    rw [Finset.sum_div]
    refine Finset.sum_congr rfl fun i hi => ?_
    simp only [Finset.mem_filter, Finset.mem_range] at hi
    rw [← ig.mass i hi.1, mul_div_assoc, div_self hM.ne', mul_one]
  have start : tidePc g tide (tideAt s a c) (massAll s c (Selected indx)) =
      tide ((tideAt s a c).1 / g.ro) ((tideAt s a c).2 / g.ro) (maskSel (indx.getD (List.replicate c.st.length true)) c2.m).sum *
        (1000 * g.ro) := by
    unfold tidePc massAll
    rw [hsum, hmask.sum' ig.mlen]
  rw [start]
  refine run.scale hL fun ρ => ?_
  unfold tidePc massIn
  rw [hsum]
  congr 2
  refine sumOver_congr (fun i hi => ?_) fun _ _ _ => rfl
  rw [← ig.dist i hi, mul_lt_mul_iff_left₀ hL]

/-- **C44 (never increases).**  The result is at most the first estimate. -/
theorem C44_decreasing {T M : ℝ → ℝ} {q : ℝ} {k : ℕ} {ρ a : ℝ} (h : TideRun T M q k ρ a) (hq : q ≤ 1) (hT : ∀ x, 0 ≤ T x) (hρ : 0 ≤ ρ) :
    0 ≤ a ∧ a ≤ ρ := by
  induction h with
  | last => exact ⟨hρ, le_refl _⟩
  | lost => exact ⟨le_refl _, hρ⟩
  | done => exact ⟨hρ, le_refl _⟩
  | next k ρ ρ' h h1 _ ih =>
    have := ih (hT _)
    exact ⟨this.1, this.2.trans (by nlinarith)⟩

/-- **C44 (stops).**  If more iterations are allowed than there are stars, the iteration has converged: the result is zero or a radius
that is, up to the factor `rtconverge`, the tidal radius of the mass within it.  (`tide` is assumed not to decrease with mass.) -/
theorem C44_converges {s : Scale} {c : Cluster} {S : ℕ → Prop} {T : ℝ → ℝ} {q ρ : ℝ} {k : ℕ} (T0 : T 0 = 0) (hT : ∀ x, 0 ≤ T x)
    (mono : Monotone T) (hq : q ≤ 1) (hm : ∀ i < c.st.length, 0 ≤ pmass s c i) (hk : c.st.length < k)
    (h : TideRun T (massIn s c S) q k (T (massAll s c S)) ρ) :
    ρ = 0 ∨ (q * ρ ≤ T (massIn s c S ρ) ∧ T (massIn s c S ρ) ≤ ρ) := by
  classical
  have cle : ∀ x y, x ≤ y → massIn s c S x ≤ massIn s c S y := by
    intro x y hxy
    unfold massIn sumOver
    refine Finset.sum_le_sum_of_subset_of_nonneg (fun i => ?_) fun i hi _ => ?_
    · simp only [Finset.mem_filter, Finset.mem_range]
      exact fun ⟨h1, h2, h3⟩ => ⟨h1, h2, h3.trans_le hxy⟩
    · simp only [Finset.mem_filter, Finset.mem_range] at hi; exact hm i hi.1
  have call : ∀ x, massIn s c S x ≤ massAll s c S := by
    intro x
    unfold massIn massAll sumOver
    refine Finset.sum_le_sum_of_subset_of_nonneg (fun i => ?_) fun i hi _ => ?_
    · simp only [Finset.mem_filter, Finset.mem_range]
      exact fun ⟨h1, h2, h3⟩ => ⟨h1, h2⟩
    · simp only [Finset.mem_filter, Finset.mem_range] at hi; exact hm i hi.1
  let N : ℝ → ℕ := fun x => ((Finset.range c.st.length).filter (fun i => S i ∧ pdist s c i < x)).card
  have main : ∀ k a b, TideRun T (massIn s c S) q k a b → N a < k → 0 ≤ a → T (massIn s c S a) ≤ a →
      b = 0 ∨ (q * b ≤ T (massIn s c S b) ∧ T (massIn s c S b) ≤ b) := by
    intro k a b h
    induction h with
    | last ρ => intro hk; omega
    | lost => intros; exact .inl rfl
    | done k ρ h1 h2 => intro _ _ h3; exact .inr ⟨h2, h3⟩
    | next k ρ ρ' h0 h1 hr ih =>
      intro hk hρ hle
      have hlt : T (massIn s c S ρ) ≤ ρ := hle
      have hsub : (Finset.range c.st.length).filter (fun i => S i ∧ pdist s c i < T (massIn s c S ρ)) ⊆
          (Finset.range c.st.length).filter (fun i => S i ∧ pdist s c i < ρ) := by
        intro i
        simp only [Finset.mem_filter, Finset.mem_range]
        exact fun ⟨h1, h2, h3⟩ => ⟨h1, h2, h3.trans_le hlt⟩
      have hle' : T (massIn s c S (T (massIn s c S ρ))) ≤ T (massIn s c S ρ) := mono (cle _ _ hlt)
      by_cases heq : (Finset.range c.st.length).filter (fun i => S i ∧ pdist s c i < T (massIn s c S ρ)) =
          (Finset.range c.st.length).filter (fun i => S i ∧ pdist s c i < ρ)
      · have hmeq : massIn s c S (T (massIn s c S ρ)) = massIn s c S ρ := by
          have hx := fun i => Finset.ext_iff.mp heq i
          simp only [Finset.mem_filter, Finset.mem_range] at hx
          exact sumOver_congr (fun i hi => ⟨fun h => ((hx i).mp ⟨hi, h⟩).2, fun h => ((hx i).mpr ⟨hi, h⟩).2⟩) fun _ _ _ => rfl
        cases hr with
        | last =>
          exfalso
          have hz : ((Finset.range c.st.length).filter (fun i => S i ∧ pdist s c i < ρ)).card = 0 := by
            have : N ρ < 1 := hk
            show N ρ = 0
            omega
          apply h0
          have : massIn s c S ρ = 0 := by
            unfold massIn sumOver
            refine Finset.sum_eq_zero fun i hi => ?_
            simp only [Finset.mem_filter, Finset.mem_range] at hi
            have hmem : i ∈ (Finset.range c.st.length).filter (fun i => S i ∧ pdist s c i < ρ) := by
              simp only [Finset.mem_filter, Finset.mem_range]; exact hi
            rw [Finset.card_eq_zero.mp hz] at hmem
            exact absurd hmem (Finset.notMem_empty i)
          rw [this, T0]
        | lost => exact .inl rfl
        | done _ _ h2 h3 => exact .inr ⟨h3, hle'⟩
        | next _ _ _ h2 h3 =>
          exfalso
          rw [hmeq] at h3
          nlinarith [hT (massIn s c S ρ)]
      · have hc : N (T (massIn s c S ρ)) < N ρ := Finset.card_lt_card (hsub.ssubset_of_ne heq)
        exact ih (by omega) (hT _) hle'
  refine main k _ _ h ?_ (hT _) (mono (call _))
  refine lt_of_le_of_lt ?_ hk
  exact (Finset.card_filter_le _ _).trans (by simp)

theorem phys_fields {g : Galpy} {c c' : Cluster} {u u' : Units} {s s' : Scale} (hu : c.units = some u) (hs : unitScale g c u = some s)
    (hu' : c'.units = some u') (hs' : unitScale g c' u' = some s') (h : phys g c' = phys g c) :
    c'.m.map (· * s'.mass) = c.m.map (· * s.mass) ∧ c'.st.map s'.ph = c.st.map s.ph ∧ s'.ph c'.c = s.ph c.c ∧ s'.ph c'.gc = s.ph c.gc := by
  simp only [phys, hu, hs, hu', hs', Option.some.injEq, Phys.mk.injEq] at h
  exact h.2

/-- **C44 (units).**  The physical tidal radius does not depend on the units in which the cluster is given. -/
theorem C44_units {g : Galpy} {tide : ℝ → ℝ → ℝ → ℝ} {a : TideArgs} {indx : Option (List Bool)} {c c' : Cluster} {u u' : Units}
    {s s' : Scale} (p : Pos g c) (l : Lin c) (hg : Good c) (f : Fresh c) (hu : c.units = some u) (hs : unitScale g c u = some s)
    (p' : Pos g c') (l' : Lin c') (hg' : Good c') (f' : Fresh c') (hu' : c'.units = some u') (hs' : unitScale g c' u' = some s')
    (hphys : phys g c' = phys g c) (ho : c'.origin = c.origin)
    (hi : ∀ w, indx = some w → w.length = c.st.length) (t0 : ∀ R z, tide R z 0 = 0) (tn : ∀ R z M, 0 ≤ tide R z M)
    (hq : a.converge ≤ 1) :
    ∃ ρ ρ' w w' d d', rtidal g tide a indx c = .ok (ρ, w, d) ∧ rtidal g tide a indx c' = .ok (ρ', w', d') ∧
      ρ' * s'.len = ρ * s.len := by
  obtain ⟨em, est, ec, eg⟩ := phys_fields hu hs hu' hs' hphys
  have hlen : c'.st.length = c.st.length := by have := congrArg List.length est; simpa using this
  obtain ⟨ρ, w, d, h, -, -, r⟩ := C44_iteration (tide := tide) (a := a) p l hg f hu hs hi t0 tn hq
  obtain ⟨ρ', w', d', h', -, -, r'⟩ := C44_iteration (tide := tide) (a := a) p' l' hg' f' hu' hs' (fun w hw => (hi w hw).trans hlen.symm) t0 tn hq
  refine ⟨ρ, ρ', w, w', d, d', h, h', ?_⟩
  have hl := (unitScale_pos p hs).1.le
  have hl' := (unitScale_pos p' hs').1.le
  simp only [Scale.ph, Ph.mk.injEq] at ec eg
  obtain ⟨cx, cy, cz, -⟩ := ec
  obtain ⟨gx, gy, gz, -⟩ := eg
  have hpm : ∀ i < c.st.length, pmass s' c' i = pmass s c i := fun i hi => get!_of_map_eq em (by rw [hg.len]; exact hi)
  have hpd : ∀ i < c.st.length, pdist s' c' i = pdist s c i := by
    intro i hi
    have hr := get!_of_map_eq est hi
    simp only [Scale.ph, Ph.mk.injEq] at hr
    obtain ⟨ex, ey, ez, -⟩ := hr
    unfold pdist dist0
    simp only [Bool.false_eq_true, if_false]
    rw [mul_sqrt hl, mul_sqrt hl']
    congr 1
    have key : (centred c')[i]!.x * s'.len = (centred c)[i]!.x * s.len ∧ (centred c')[i]!.y * s'.len = (centred c)[i]!.y * s.len ∧
        (centred c')[i]!.z * s'.len = (centred c)[i]!.z * s.len := by
      unfold centred
      rw [ho]
      split
      · rw [getElem!_pos _ i (by simpa [hlen] using hi), getElem!_pos _ i (by simpa using hi)]
        rw [getElem!_pos c'.st i (by rw [hlen]; exact hi), getElem!_pos c.st i hi] at ex ey ez
        simp only [List.getElem_map]
        refine ⟨?_, ?_, ?_⟩ <;> simp only [sub_mul] <;> linarith
      · exact ⟨ex, ey, ez⟩
    have e : ∀ (x y z L : ℝ), (x ^ 2 + y ^ 2 + z ^ 2) * L ^ 2 = (x * L) ^ 2 + (y * L) ^ 2 + (z * L) ^ 2 := by intros; ring
    rw [e, e, key.1, key.2.1, key.2.2]
  have hall : massAll s' c' (Selected indx) = massAll s c (Selected indx) := by
    unfold massAll; rw [hlen]
    exact sumOver_congr (fun _ _ => Iff.rfl) fun i hi _ => hpm i hi
  have hin : massIn s' c' (Selected indx) = massIn s c (Selected indx) := by
    funext ρ
    unfold massIn; rw [hlen]
    exact sumOver_congr (fun i hi => by rw [hpd i hi]) fun i hi _ => hpm i hi
  have hat : tideAt s' a c' = tideAt s a c := by
    have key : ∀ x y x' y' : ℝ, x' * s'.len = x * s.len → y' * s'.len = y * s.len →
        Real.sqrt (x' ^ 2 + y' ^ 2) * s'.len = Real.sqrt (x ^ 2 + y ^ 2) * s.len := by
      intro x y x' y' h1 h2
      rw [mul_sqrt hl, mul_sqrt hl']
      congr 1
      have e : ∀ (x y L : ℝ), (x ^ 2 + y ^ 2) * L ^ 2 = (x * L) ^ 2 + (y * L) ^ 2 := by intros; ring
      rw [e, e, h1, h2]
    unfold tideAt
    cases a.fromCentre
    · simp only [Bool.false_eq_true, if_false, key _ _ _ _ gx gy, gz]
    · simp only [if_true, phAdd]
      rw [key (c.gc.x + c.c.x) (c.gc.y + c.c.y) _ _ (by rw [add_mul, add_mul, gx, cx]) (by rw [add_mul, add_mul, gy, cy]),
        add_mul, gz, cz, ← add_mul]
  rw [hall, hin, hat] at r'
  exact r'.unique r

theorem tideLoop_mask {f : ℝ → ℝ} {q : ℝ} {m r : List ℝ} {n : ℕ} (hr : r.length = n) (k : ℕ) (ρ : ℝ) (w : List Bool) (hw : w.length = n) {i : ℕ}
    (hi : i < n) : (tideLoop f q m r (k + 1) ρ w).2.length = n ∧
      ((tideLoop f q m r (k + 1) ρ w).2[i]! = true → w[i]! = true ∧ r[i]! < ρ) := by
  have hz : MaskOf (List.zipWith and w (r.map (fun x => decide (x < ρ)))) n (fun i => w[i]! = true ∧ r[i]! < ρ) :=
    (show MaskOf w n (fun i => w[i]! = true) from ⟨hw, fun _ _ => Iff.rfl⟩).zip
      ((MaskOf.map hr (fun x => decide (x < ρ))).congr fun i hi => by simp)
  induction k generalizing ρ w with
  | zero =>
    unfold tideLoop
    dsimp only
    repeat' split
    all_goals exact ⟨hz.len, fun h => (hz.val i hi).mp h⟩
  | succ k ih =>
    rw [tideLoop]
    split
    · exact ⟨hz.len, fun h => (hz.val i hi).mp h⟩
    · split
      · exact ⟨hz.len, fun h => (hz.val i hi).mp h⟩
      · have := ih (f (maskSel (List.zipWith and w (r.map (fun x => decide (x < ρ)))) m).sum) _ hz.len
          ((show MaskOf _ n (fun i => (List.zipWith and w (r.map (fun x => decide (x < ρ))))[i]! = true) from
            ⟨hz.len, fun _ _ => Iff.rfl⟩).zip
          ((MaskOf.map hr (fun x => decide (x < _))).congr fun i hi => by simp))
        exact ⟨this.1, fun h => (hz.val i hi).mp (this.2 h).1⟩

/-- **C21 (violated: the caller's selection).**  With at least one iteration the array `indx` passed by the caller is overwritten: every
selected star beyond the first estimate is no longer selected afterwards. -/
theorem C21_rtidal_violated {g : Galpy} {tide : ℝ → ℝ → ℝ → ℝ} {a : TideArgs} {w : List Bool} {c : Cluster} {u : Units}
    {s : Scale} (p : Pos g c) (l : Lin c) (hg : Good c) (f : Fresh c) (hu : c.units = some u) (hs : unitScale g c u = some s)
    (hw : w.length = c.st.length) (hk : 0 < a.iterate) :
    ∃ ρ w' c', rtidal g tide a (some w) c = .ok (ρ, some w', c') ∧ w'.length = c.st.length ∧
      ∀ i < c.st.length, tidePc g tide (tideAt s a c) (massAll s c (Selected (some w))) ≤ pdist s c i → w'[i]! = false := by
  have hi : ∀ w', some w = some w' → w'.length = c.st.length := fun w' h => by cases h; exact hw
  obtain ⟨c2, c3, r, ig, hr, h, d3, f3, r3⟩ := rtidal_run (tide := tide) (a := a) (indx := some w) p l hg f hu hs hi
  refine ⟨_, _, c3, h, ?_, ?_⟩
  · have hpos : 0 < c.st.length := List.length_pos_iff.mpr hg.ne
    obtain ⟨k, hk'⟩ : ∃ k, a.iterate = k + 1 := ⟨a.iterate - 1, by omega⟩
    rw [hr, hk']
    exact (tideLoop_mask ig.rlen k _ _ (by simpa using hw) hpos).1
  · intro i hin hle
    obtain ⟨k, hk'⟩ : ∃ k, a.iterate = k + 1 := ⟨a.iterate - 1, by omega⟩
    have hL : 0 < 1000 * g.ro := by have := p.ro; positivity
    have hM : 0 < g.massMsol := p.mass
    obtain ⟨eR, eZ⟩ := tide_position ig p.ro (unitScale_pos p hs).1.le a
    have := (tideLoop_mask (f := tide (tideR g a c2) (tideZ g a c2)) (q := a.converge) (m := c2.m) ig.rlen k
      (tide (tideR g a c2) (tideZ g a c2) (maskSel w c2.m).sum) w hw hin).2
    rw [← Bool.not_eq_true]
    intro ht
    rw [hr, hk'] at ht
    have hlt := (this ht).2
    have hmask := selected_mask hi
    rw [show maskSel w c2.m = maskSel ((some w).getD (List.replicate c.st.length true)) c2.m from rfl, hmask.sum' ig.mlen, eR, eZ] at hlt
    unfold tidePc massAll at hle
    have hsum : sumOver c.st.length (Selected (some w)) (pmass s c) / g.massMsol = sumOver c.st.length (Selected (some w)) (fun i => c2.m[i]!) := by
      unfold sumOver
      classical
      rw [Finset.sum_div]
      refine Finset.sum_congr rfl fun i hi => ?_
      simp only [Finset.mem_filter, Finset.mem_range] at hi
      rw [← ig.mass i hi.1, mul_div_assoc, div_self hM.ne', mul_one]
    rw [hsum, ← ig.dist i hin] at hle
    nlinarith

/-! ### an instance -/

/-- A tidal radius that grows with mass: with the demo's galpy scales, one pc per solar mass. -/
def demoTide (_R _z M : ℝ) : ℝ := max 0 (M * 9.0e10 / 8000)

theorem demo_tidePc (x : ℝ × ℝ) (M : ℝ) : tidePc demoG demoTide x M = max 0 M := by
  unfold tidePc demoTide
  rw [max_mul_of_nonneg _ _ (by norm_num [demoG])]
  simp only [demoG, zero_mul]
  congr 1
  ring

/-- The demo cluster: stars of 1 and 3 solar masses at 5 and 1 pc.  The first estimate is 4 pc, which leaves the heavier star: the
result is 3 pc, and a selection passed by the caller has lost the lighter star. -/
example : ∃ c, c.m = demo.m ∧ c.st = demo.st ∧
    (∃ w d, rtidal demoG demoTide { iterate := 5 } none c = .ok (3, w, d) ∧ d.data = c.data) ∧
    ∃ ρ w d, rtidal demoG demoTide { iterate := 5 } (some [true, true]) c = .ok (ρ, some w, d) ∧ w[0]! = false := by
  obtain ⟨c, -, p, l, hg, f, hm, hst, ho, hu⟩ := demo_fresh
  have hs : unitScale demoG c .pckms = some ⟨1, 1, 1, 1⟩ := rfl
  have hc : centred c = demo.st := by unfold centred; rw [ho, hst]; simp
  have hn : c.st.length = 2 := by rw [hst]; rfl
  have m0 : pmass ⟨1, 1, 1, 1⟩ c 0 = 1 := by unfold pmass; rw [hm]; norm_num [demo]
  have m1 : pmass ⟨1, 1, 1, 1⟩ c 1 = 3 := by unfold pmass; rw [hm]; norm_num [demo]
  have d0 : pdist ⟨1, 1, 1, 1⟩ c 0 = 5 := by
    unfold pdist dist0; rw [hc]
    have : Real.sqrt ((3 : ℝ) ^ 2 + 0 ^ 2 + 4 ^ 2) = 5 := by
      rw [show (3 : ℝ) ^ 2 + 0 ^ 2 + 4 ^ 2 = 5 ^ 2 by norm_num]; exact Real.sqrt_sq (by norm_num)
    simpa [demo] using this
  have d1 : pdist ⟨1, 1, 1, 1⟩ c 1 = 1 := by
    unfold pdist dist0; rw [hc]
    norm_num [demo]
  have hall : ∀ S : ℕ → Prop, (∀ i, S i) → massAll ⟨1, 1, 1, 1⟩ c S = 4 := by
    intro S hS
    unfold massAll sumOver
    classical
    rw [hn, Finset.sum_filter]
    simp only [hS, if_true, Finset.sum_range_succ, Finset.sum_range_zero, m0, m1]
    norm_num
  have hin : ∀ S : ℕ → Prop, (∀ i, S i) → ∀ ρ, 1 < ρ → ρ ≤ 5 → massIn ⟨1, 1, 1, 1⟩ c S ρ = 3 := by
    intro S hS ρ h1 h5
    unfold massIn sumOver
    classical
    rw [hn, Finset.sum_filter]
    simp only [hS, true_and, Finset.sum_range_succ, Finset.sum_range_zero, m0, m1, d0, d1, h1, not_lt.mpr h5, if_true, if_false]
    norm_num
  refine ⟨c, hm, hst, ?_, ?_⟩
  · have hsel : ∀ i, Selected none i := fun i w h => by cases h
    obtain ⟨ρ, w, d, h, hd, -, r⟩ := C44_iteration (tide := demoTide) (a := { iterate := 5 }) (indx := none) p l hg f hu hs
      (fun w h => by cases h) (fun _ _ => by norm_num [demoTide]) (fun _ _ _ => le_max_left _ _) (by norm_num)
    have run : TideRun (tidePc demoG demoTide (tideAt ⟨1, 1, 1, 1⟩ { iterate := 5 } c)) (massIn ⟨1, 1, 1, 1⟩ c (Selected none)) 0.9 5
        (tidePc demoG demoTide (tideAt ⟨1, 1, 1, 1⟩ { iterate := 5 } c) (massAll ⟨1, 1, 1, 1⟩ c (Selected none))) 3 := by
      rw [hall _ hsel, demo_tidePc]
      have e4 : max (0 : ℝ) 4 = 4 := by norm_num
      have e3 : max (0 : ℝ) 3 = 3 := by norm_num
      rw [e4]
      refine .next _ _ _ ?_ ?_ ?_
      · rw [hin _ hsel 4 (by norm_num) (by norm_num), demo_tidePc]; norm_num
      · rw [hin _ hsel 4 (by norm_num) (by norm_num), demo_tidePc]; norm_num
      · rw [hin _ hsel 4 (by norm_num) (by norm_num), demo_tidePc, e3]
        refine .done _ _ ?_ ?_
        · rw [hin _ hsel 3 (by norm_num) (by norm_num), demo_tidePc]; norm_num
        · rw [hin _ hsel 3 (by norm_num) (by norm_num), demo_tidePc]; norm_num
    have := r.unique run
    simp only [mul_one] at this
    exact ⟨w, d, this ▸ h, hd⟩
  · obtain ⟨ρ, w, d, h, -, hv⟩ := C21_rtidal_violated (tide := demoTide) (a := { iterate := 5 }) (w := [true, true]) p l hg f hu hs
      (by rw [hn]; rfl) (by norm_num)
    refine ⟨ρ, w, d, h, hv 0 (by rw [hn]; norm_num) ?_⟩
    rw [demo_tidePc, d0]
    unfold massAll sumOver
    classical
    rw [hn, Finset.sum_filter]
    simp only [Finset.sum_range_succ, Finset.sum_range_zero, m0, m1]
    split <;> split <;> norm_num

end

end CT
