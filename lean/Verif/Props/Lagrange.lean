/- Property theorem C17: Lagrange radii. -/
import Verif.Props.Analysis
import Verif.Lemmas.Return
import Verif.Model.Lagrange

namespace CT

noncomputable section

set_option linter.unusedSimpArgs false

open Classical in
theorem IsMassRadius.scale {f ρ k μ : ℝ} {m r : List ℝ} (h : IsMassRadius f m r ρ) (hk : 0 < k) (hμ : 0 < μ) :
    IsMassRadius f (m.map (· * μ)) (r.map (· * k)) (ρ * k) := by
  have hm : ∀ x, massWhere (· ≤ x * k) (m.map (· * μ)) (r.map (· * k)) = massWhere (· ≤ x) m r * μ := by
    intro x
    unfold massWhere
    rw [← sum_map_mul]
    congr 1
    rw [List.zip_map, List.map_map, List.map_map]
    apply List.map_congr_left
    intro a _
    simp only [Function.comp, Prod.map, mul_le_mul_iff_left₀ hk]
    split <;> simp
  obtain ⟨h1, h2, h3⟩ := h
  refine ⟨List.mem_map.mpr ⟨ρ, h1, rfl⟩, ?_, ?_⟩
  · rw [hm, sum_map_mul]; nlinarith
  · intro y hy hlt
    obtain ⟨x, hx, rfl⟩ := List.mem_map.mp hy
    have := h3 x hx (lt_of_mul_lt_mul_right hlt hk.le)
    rw [hm, sum_map_mul]; nlinarith

theorem fresh_r {c : Cluster} (f : Fresh c) : c.d.r = c.st.map Ph.r := by
  have : ∀ (st : List Ph) (l : List ℝ), AreNorms (fun p => p.x ^ 2 + p.y ^ 2 + p.z ^ 2) st l →
      l = st.map Ph.r := by
    intro st l h
    induction h with
    | nil => rfl
    | cons h _ ih =>
      have h2 := h.2
      have h1 := h.1
      simp only at h1 h2
      rw [ih, List.map_cons, Ph.r, ← h2, Real.sqrt_sq h1]
  exact this _ _ f.r

theorem sortstars_rorder (p : Bool) (r rp : List ℝ) (c : Cluster) :
    ∃ o, (sortstars p r rp c).rorder = some o ∧ (sortstars p r rp c).rorderOrigin = c.origin ∧
      (o = argsort r ∨ (c.rorder = some o ∧ c.rorderOrigin = c.origin)) := by
  unfold sortstars
  dsimp only
  cases hro : c.rorder with
  | none =>
    dsimp only
    repeat' split
    all_goals exact ⟨_, rfl, rfl, Or.inl rfl⟩
  | some o =>
    dsimp only
    by_cases hc : c.rorderOrigin ≠ c.origin ∨ r.length ≠ o.length
    · simp only [if_pos hc]
      repeat' split
      all_goals exact ⟨_, rfl, rfl, Or.inl rfl⟩
    · simp only [if_neg hc]
      have he : c.rorderOrigin = c.origin := by
        by_contra h'; exact hc (Or.inl h')
      repeat' split
      all_goals exact ⟨o, hro, he, Or.inr ⟨rfl, he⟩⟩

theorem sortstars_d (p : Bool) (r rp : List ℝ) (c : Cluster) : (sortstars p r rp c).d = c.d := by
  unfold sortstars; dsimp only; repeat' split
  all_goals rfl

theorem world_mass {g : Galpy} {c : Cluster} {w : World} {u : Units} {s : Scale}
    (hw : world g c = some w) (hu : c.units = some u) (hs : unitScale g c u = some s) :
    w.mass = c.m.map (· * s.mass) := by
  unfold world phys at hw
  simp only [hu, hs] at hw
  split at hw
  · rename_i P o hP ho
    cases hw
    injection hP with hP
    rw [← hP]
  · cases hw

/-- The loop returns `n` radii with the stated meaning. -/
theorem lagrangeLoop_spec {n : ℕ} {m r : List ℝ} {o : List ℕ} (hs : SortedBy r o) (hr : r.length = m.length)
    (hne : m ≠ []) (hm : ∀ x ∈ m, 0 ≤ x) (hn : 0 < n) :
    ∃ rn, lagrangeLoop n m r o = .ok rn ∧ rn.length = n ∧
      (∀ k (hk : k < rn.length), k + 1 < n → IsMassRadius ((k + 1 : ℕ) / (n : ℝ)) m r rn[k]) ∧
      (∀ k (hk : k < rn.length), k + 1 = n → rn[k] ∈ r ∧ ∀ x ∈ r, x ≤ rn[k]) ∧
      rn.Pairwise (· ≤ ·) := by
  have hfrac : ∀ i ∈ List.range' 1 (n - 1), ∃ ρ, massFracRadius ((i : ℝ) / (n : ℝ)) m.sum m r o = .ok ρ ∧
      IsMassRadius ((i : ℝ) / (n : ℝ)) m r ρ := by
    intro i hi
    rw [List.mem_range'_1] at hi
    have hin : (i : ℝ) ≤ n := by exact_mod_cast (by omega : i ≤ n)
    exact massFracRadius_isMassRadius hs hr hne hm (div_le_one_of_le₀ hin (by positivity))
  have hmapM : ∀ l : List ℕ, (∀ i ∈ l, ∃ ρ, massFracRadius ((i : ℝ) / (n : ℝ)) m.sum m r o = .ok ρ ∧
      IsMassRadius ((i : ℝ) / (n : ℝ)) m r ρ) →
      ∃ rn, l.mapM (fun (i : ℕ) => massFracRadius ((i : ℝ) / (n : ℝ)) m.sum m r o) = .ok rn ∧
        List.Forall₂ (fun (i : ℕ) ρ => IsMassRadius ((i : ℝ) / (n : ℝ)) m r ρ) l rn := by
    intro l
    induction l with
    | nil => intro _; exact ⟨[], rfl, .nil⟩
    | cons a l ih =>
      intro h
      obtain ⟨ρ, e, q⟩ := h a (by simp)
      obtain ⟨rn, e2, q2⟩ := ih (fun i hi => h i (by simp [hi]))
      refine ⟨ρ :: rn, ?_, .cons q q2⟩
      rw [List.mapM_cons, e]
      simp only [bind, Except.bind]
      rw [e2]; rfl
  obtain ⟨rn, e, q⟩ := hmapM _ hfrac
  have hrl : rn.length = n - 1 := by simpa using q.length_eq.symm
  have hrne : r ≠ [] := by
    intro h; rw [h] at hr; exact hne (List.length_eq_zero_iff.mp hr.symm)
  obtain ⟨mx1, mx2⟩ := maxOf_spec hrne
  have hget : ∀ k (hk : k < rn.length), IsMassRadius ((k + 1 : ℕ) / (n : ℝ)) m r rn[k] := by
    intro k hk
    have hk2 : k < (List.range' 1 (n - 1)).length := by simpa [hrl] using hk
    have := q.get hk2 hk
    simp only [List.get_eq_getElem, List.getElem_range', one_mul] at this
    rw [show (k + 1) = 1 + k by omega]; exact this
  refine ⟨rn ++ [maxOf r], ?_, ?_, ?_, ?_, ?_⟩
  · unfold lagrangeLoop
    rw [e]
    simp [bind, Except.bind, pure, Except.pure, Nat.pos_iff_ne_zero.mp hn]
  · simp [hrl]; omega
  · intro k hk hkn
    rw [List.getElem_append_left (by omega)]
    exact hget k (by omega)
  · intro k hk hkn
    rw [List.getElem_append_right (by omega)]
    simp only [List.getElem_singleton]
    exact ⟨mx1, mx2⟩
  · rw [List.pairwise_append]
    refine ⟨?_, by simp, ?_⟩
    · rw [List.pairwise_iff_getElem]
      intro i j hi hj hij
      refine (hget i hi).mono (hget j hj) ?_
      have hs0 := List.sum_nonneg hm
      have : ((i + 1 : ℕ) : ℝ) / n ≤ ((j + 1 : ℕ) : ℝ) / n := by
        apply div_le_div_of_nonneg_right _ (by positivity)
        exact_mod_cast (by omega : i + 1 ≤ j + 1)
      exact mul_le_mul_of_nonneg_right this hs0
    · intro a ha b hb
      simp only [List.mem_singleton] at hb
      subst hb
      obtain ⟨k, hk, rfl⟩ := List.mem_iff_getElem.mp ha
      exact mx2 _ (hget k hk).1

theorem ite_bind_of' {α β : Type} {p : Prop} [Decidable p] {x y : Except Err α}
    {f : α → Except Err β} {c1 : α} {c2 : β} (h1 : (if p then x else y) = .ok c1) (h2 : f c1 = .ok c2) :
    (if p then x.bind f else y.bind f) = .ok c2 := by
  split at h1 <;> simp_all [Except.bind]

/-- The preparations of `rlagrange`. -/
theorem lagrange_start {g : Galpy} {c : Cluster} {w : World} {u : Units} {s : Scale}
    (p : Pos g c) (l : Lin c) (hg : Good c) (f : Fresh c) (hm : ∀ x ∈ c.m, 0 ≤ x)
    (hw : world g c = some w) (i : OrderInv w c) (hu : c.units = some u) (hs : unitScale g c u = some s) :
    ∃ (c1 c2 : Cluster) (o2 : List ℕ) (s1 : Scale), (if c.units = some .amuse then toPckms g true c else .ok c) = .ok c1 ∧
      (if c.origin ≠ some .cluster ∧ c.origin ≠ some .centre then toCentre true none c1
        else .ok (sortstars true c1.d.r c1.d.rpro c1)) = .ok c2 ∧ Good c2 ∧ world g c2 = some w ∧ c2.rest = c.rest ∧
      c2.d.r = c2.st.map Ph.r ∧ c2.d.mtot = c2.m.sum ∧ Lin c2 ∧ c2.rorder = some o2 ∧ SortedBy (c2.st.map Ph.r) o2 ∧
      0 < s1.len ∧ 0 < s1.mass ∧ s1.len = s.len ∧ w.mass = c2.m.map (· * s1.mass) ∧ (∀ x ∈ c2.m, 0 ≤ x) ∧
      (List.range c.st.length).map (w.radius (if c.origin = some .cluster then Origin.cluster
        else Origin.centre)) = (c2.st.map Ph.r).map (· * s1.len) := by
  obtain ⟨⟨u', hu', hul⟩, ⟨o, ho, hol⟩⟩ := id l
  rw [hu] at hu'; cases hu'
  -- stage 1
  obtain ⟨c1, h1, g1, w1, r1, f1, i1, l1, ho1, u1, s1, hu1, hs1, hlen1⟩ : ∃ c1,
      (if c.units = some .amuse then toPckms g true c else .ok c) = .ok c1 ∧ Good c1 ∧ world g c1 = some w ∧
      c1.rest = c.rest ∧ Fresh c1 ∧ OrderInv w c1 ∧ Lin c1 ∧ c1.origin = some o ∧
      ∃ u1 s1, c1.units = some u1 ∧ unitScale g c1 u1 = some s1 ∧ s1.len = s.len := by
    by_cases ha : c.units = some .amuse
    · rw [if_pos ha]
      have hl : (Op.toPckms true).linear := by simp [Op.linear, Op.unitTarget, Op.originTarget, Units.linear]
      obtain ⟨c1, h1, g1⟩ := toPckms_total (a := true) (c := c) hu hul p hg
      have st := exec_step (op := .toPckms true) p.nz l hl h1
      have us := toPckms_ustep hu hul h1
      rw [hu] at ha; cases ha
      simp only [unitScale, Option.some.injEq] at hs
      exact ⟨c1, h1, g1, st.world.trans hw, st.rest, toPckms_fresh f h1,
        (kept_orderInv g w).exec (op := .toPckms true) p l hl hw i h1, st.lin hl l, us.origin.trans ho,
        .pckms, ⟨1, 1, 1, 1⟩, us.units, rfl, by rw [← hs]⟩
    · rw [if_neg ha]
      exact ⟨c, rfl, hg, hw, rfl, f, i, l, ho, u, s, hu, hs, rfl⟩
  have p1 := p.of_rest r1
  have hur1 : c1.units ≠ some .radec := by
    obtain ⟨⟨x, hx, hxl⟩, -⟩ := l1
    rw [hx]; rintro h; cases h; exact hxl
  -- stage 2
  obtain ⟨c2, o2, h2, g2, w2, r2, f2, ft2, l2, ho2, hu2, hro, hsorted⟩ : ∃ c2 o2,
      (if c.origin ≠ some .cluster ∧ c.origin ≠ some .centre then toCentre true none c1
        else .ok (sortstars true c1.d.r c1.d.rpro c1)) = .ok c2 ∧ Good c2 ∧ world g c2 = some w ∧
      c2.rest = c.rest ∧ c2.d.r = c2.st.map Ph.r ∧ c2.d.mtot = c2.m.sum ∧ Lin c2 ∧
      c2.origin = some (if c.origin = some .cluster then Origin.cluster else Origin.centre) ∧
      c2.units = c1.units ∧ c2.rorder = some o2 ∧ SortedBy (c2.st.map Ph.r) o2 := by
    by_cases hc : c.origin ≠ some .cluster ∧ c.origin ≠ some .centre
    · rw [if_pos hc]
      have hl : (Op.toCentre true none).linear := by
        simp [Op.linear, Op.unitTarget, Op.originTarget, Origin.linear]
      obtain ⟨c2, h2, g2⟩ := toCentre_total (s := true) (cm := none) hur1 g1
      have st := exec_step (op := .toCentre true none) p1.nz l1 hl h2
      have os := toCentre_ostep ho1 hol hur1 h2
      have i2 := (kept_orderInv g w).exec (op := .toCentre true none) p1 l1 hl w1 i1 h2
      have fin : ∀ {x : Cluster} {pr}, analyze true x pr = .ok c2 →
          ∃ o2, c2.rorder = some o2 ∧ c2.rorderOrigin = c2.origin := by
        intro x pr hx
        obtain ⟨o, h1, h2, -⟩ := analyze_rorder_sorted hx
        exact ⟨o, h1, by rw [h2, (core_fields (analyze_core hx)).2.1]⟩
      obtain ⟨o2, hr2, hsync⟩ : ∃ o2, c2.rorder = some o2 ∧ c2.rorderOrigin = c2.origin := by
        have h := h2
        unfold toCentre at h
        simp only [ho1, bind, pure, Except.pure] at h
        have hne : ¬ (o = .centre) := by rintro rfl; exact hc.2 ho
        repeat' first | split at h | (with_reducible replace h := bind_ok h; obtain ⟨_, -, h⟩ := h)
        all_goals first
          | exact fin h
          | (exfalso; simp_all [setMethod])
      refine ⟨c2, o2, h2, g2, st.world.trans w1, st.rest.trans r1, fresh_r (toCentre_fresh f1 h2),
        (toCentre_fresh f1 h2).mtot, st.lin hl l1, ?_, os.units, hr2, i2.sorted (p1.of_rest st.rest) (st.lin hl l1) (st.world.trans w1) hr2 hsync⟩
      rw [os.origin, if_neg hc.1]
    · rw [if_neg hc]
      have hcore := sortstars_core true c1.d.r c1.d.rpro c1
      obtain ⟨k1, k2, k3, k4, k5, k6, k7, k8, k9, k10, k11, k12⟩ := core_fields hcore
      obtain ⟨o2, hr2, hsync, hor⟩ := sortstars_rorder true c1.d.r c1.d.rpro c1
      have hso : SortedBy (c1.st.map Ph.r) o2 := by
        rcases hor with rfl | ⟨e1, e2⟩
        · rw [fresh_r f1]; exact SortedBy.argsort _
        · exact i1.sorted p1 l1 w1 e1 e2
      refine ⟨_, o2, rfl, ?_, (world_core hcore).trans w1, k12.trans r1, ?_, by rw [sortstars_d, k4]; exact f1.mtot, ?_, ?_, k1, hr2, ?_⟩
      · refine sortstars_good g1 ?_ ?_
        · exact f1.r.length_eq.symm
        · exact f1.rpro.length_eq.symm
      · rw [sortstars_d, k5]; exact fresh_r f1
      · exact ⟨by rw [k1]; exact l1.1, by rw [k2]; exact l1.2⟩
      · rw [k2, ho1, ← ho]
        split
        · assumption
        · by_contra hx; exact hc ⟨by assumption, hx⟩
      · rw [k5]; exact hso
  -- the loop
  have hu2' : c2.units = some u1 := hu2.trans hu1
  have hs2 : unitScale g c2 u1 = some s1 := by
    obtain ⟨e1, e2, e3, e4⟩ := rest_scales (r2.trans r1.symm)
    rw [← hs1]; unfold unitScale; rw [e1, e2, e3, e4]
  have p2 := p.of_rest r2
  obtain ⟨q1, -, q3, -⟩ := unitScale_pos p2 hs2
  have hmass2 : w.mass = c2.m.map (· * s1.mass) := world_mass w2 hu2' hs2
  have hmass : w.mass = c.m.map (· * s.mass) := world_mass hw hu hs
  have hm2 : ∀ x ∈ c2.m, 0 ≤ x := by
    intro x hx
    have h3 : x * s1.mass ∈ c.m.map (· * s.mass) := by
      rw [← hmass, hmass2]; exact List.mem_map.mpr ⟨x, hx, rfl⟩
    obtain ⟨y, hy, e⟩ := List.mem_map.mp h3
    have : 0 ≤ x * s1.mass := by rw [← e]; exact mul_nonneg (hm y hy) (unitScale_pos p hs).2.2.1.le
    exact nonneg_of_mul_nonneg_left this q3
  have hlen2 : c2.st.length = c.st.length := by rw [← world_length w2, world_length hw]
  obtain ⟨fo, hfo, hfol⟩ := id l2.2
  have hfr : fo = (if c.origin = some .cluster then Origin.cluster else Origin.centre) := by
    rw [hfo] at ho2; exact Option.some.inj ho2
  refine ⟨c1, c2, o2, s1, h1, h2, g2, w2, r2, f2, ft2, l2, hro, hsorted, q1, q3, hlen1, hmass2, hm2, ?_⟩
  have hR : (List.range c.st.length).map (w.radius (if c.origin = some .cluster then Origin.cluster
      else Origin.centre)) = (c2.st.map Ph.r).map (· * s1.len) := by
    rw [← hfr]
    apply List.ext_getElem
    · simp [hlen2]
    · intro k k1 k2
      simp only [List.length_map, List.length_range] at k1
      rw [List.getElem_map, List.getElem_range, World.radius_eq w2 hu2' hfo hfol hs2 q1 k (by omega)]
      rw [List.getElem_map, List.getD_eq_getElem?_getD, List.getElem?_eq_getElem (by simp; omega),
        Option.getD_some, List.getElem_map]
  exact hR

/-- `rlagrange`, with everything that is left as it was. -/
theorem lagrange_full (g : Galpy) (c : Cluster) (n : ℕ) (w : World) (u : Units) (s : Scale) (hn : 0 < n)
    (p : Pos g c) (l : Lin c) (hg : Good c) (f : Fresh c) (hm : ∀ x ∈ c.m, 0 ≤ x)
    (hw : world g c = some w) (i : OrderInv w c) (hu : c.units = some u) (hs : unitScale g c u = some s) :
    ∃ rn c', rlagrange g n false c = .ok (rn, c') ∧ c'.data = c.data ∧ Fresh c' ∧ Good c' ∧ c'.rest = c.rest ∧ rn.length = n ∧
      rn.Pairwise (· ≤ ·) ∧
      let fr := if c.origin = some .cluster then Origin.cluster else Origin.centre
      let R := (List.range c.st.length).map (w.radius fr)
      (∀ k (hk : k < rn.length), k + 1 < n → IsMassRadius ((k + 1 : ℕ) / (n : ℝ)) w.mass R (rn[k] * s.len)) ∧
      (∀ k (hk : k < rn.length), k + 1 = n → rn[k] * s.len ∈ R ∧ ∀ x ∈ R, x ≤ rn[k] * s.len) := by
  obtain ⟨c1, c2, o2, s1, h1, h2, g2, w2, r2, f2, -, l2, hro, hsorted, q1, q3, hlen1, hmass2, hm2, hR⟩ :=
    lagrange_start p l hg f hm hw i hu hs
  have hmne : c2.m ≠ [] := by
    intro h; have := g2.len; rw [h] at this
    exact g2.ne (List.length_eq_zero_iff.mp this.symm)
  obtain ⟨rn, e, a1, a2, a3, a4⟩ := lagrangeLoop_spec (n := n) (m := c2.m) hsorted (by simp [g2.len]) hmne hm2 hn
  have hrest : c2.rest = c.rest := r2
  obtain ⟨c3, h3, hd3, hf3, hg3, -, hr3⟩ := return_of_world (sort := false) (cm := none) p l hg g2 l2 hrest (w2.trans hw.symm)
  refine ⟨rn, c3, ?_, hd3, hf3, hg3, hr3, a1, a4, ?_, ?_⟩
  · unfold rlagrange
    simp only [bind, pure, Except.pure]
    refine ite_bind_of' h1 (ite_bind_of' h2 ?_)
    simp only [hro, Bool.false_eq_true, if_false, f2]
    rw [e]
    simp only [Except.bind]
    rw [h3]
  · intro k hk hkn
    rw [hR, hmass2, ← hlen1]
    exact (a2 k hk hkn).scale q1 q3
  · intro k hk hkn
    rw [hR, ← hlen1]
    obtain ⟨b1, b2⟩ := a3 k hk hkn
    refine ⟨List.mem_map.mpr ⟨_, b1, rfl⟩, ?_⟩
    intro x hx
    obtain ⟨y, hy, rfl⟩ := List.mem_map.mp hx
    exact mul_le_mul_of_nonneg_right (b2 y hy) q1.le

/-- C17: `rlagrange(nlagrange=n)` (3D) on an analysed cluster in any linear units and origin whose stored order
is valid returns; the caller's data are restored; it gives `n` non-decreasing radii; for `k < n` the `k`-th one,
converted to pc, is the radius enclosing the fraction `k/n` of the physical mass, measured about the cluster
origin (or about the centre when the cluster was in the galaxy frame), and the last is the largest radius. -/
theorem C17_lagrange_radii (g : Galpy) (c : Cluster) (n : ℕ) (w : World) (u : Units) (s : Scale) (hn : 0 < n)
    (p : Pos g c) (l : Lin c) (hg : Good c) (f : Fresh c) (hm : ∀ x ∈ c.m, 0 ≤ x)
    (hw : world g c = some w) (i : OrderInv w c) (hu : c.units = some u) (hs : unitScale g c u = some s) :
    ∃ rn c', rlagrange g n false c = .ok (rn, c') ∧ c'.data = c.data ∧ rn.length = n ∧
      rn.Pairwise (· ≤ ·) ∧
      let fr := if c.origin = some .cluster then Origin.cluster else Origin.centre
      let R := (List.range c.st.length).map (w.radius fr)
      (∀ k (hk : k < rn.length), k + 1 < n → IsMassRadius ((k + 1 : ℕ) / (n : ℝ)) w.mass R (rn[k] * s.len)) ∧
      (∀ k (hk : k < rn.length), k + 1 = n → rn[k] * s.len ∈ R ∧ ∀ x ∈ R, x ≤ rn[k] * s.len) := by
  obtain ⟨rn, c', e1, e2, -, -, -, e3⟩ := lagrange_full g c n w u s hn p l hg f hm hw i hu hs
  exact ⟨rn, c', e1, e2, e3⟩

/-- The demo cluster without stored orders. -/
def demoNew : Cluster := { demo with rorder := none, rproorder := none, units := some .amuse, origin := some .galaxy }

/-- C17 instance: an analysed two-star cluster in `amuse` units in the galaxy frame. -/
example : ∃ c0 rn c', analyze false demoNew = .ok c0 ∧ rlagrange demoG 10 false c0 = .ok (rn, c') ∧
    c'.data = c0.data ∧ rn.length = 10 ∧ rn.Pairwise (· ≤ ·) := by
  have g : Good demoNew := ⟨demo_good.ne, demo_good.len, demo_good.mass, by simp [demoNew], by simp [demoNew]⟩
  obtain ⟨c0, h0, g0⟩ := analyze_total (s := false) (p := true) g
  obtain ⟨k1, k2, k3, k4, k5, k6, k7, k8, k9, k10, k11, k12⟩ := core_fields (analyze_core h0)
  have p0 : Pos demoG demoNew :=
    ⟨demo_pos.rbar, demo_pos.vbar, demo_pos.zmbar, demo_pos.tbar, demo_pos.ro, demo_pos.vo, demo_pos.time,
      demo_pos.mass, demo_pos.vel⟩
  have l0 : Lin c0 := ⟨⟨.amuse, k1, trivial⟩, ⟨.galaxy, k2, trivial⟩⟩
  obtain ⟨w, hw⟩ := world_isSome (g := demoG) (c := c0) (u := .amuse) (o := .galaxy) k1 trivial k2
  have ho : c0.rorder = none := by
    rcases analyze_rorder h0 with ⟨a, -⟩ | ⟨a, -⟩
    · rw [a]; rfl
    · cases a
  obtain ⟨rn, c', e1, e2, e3, e4, -⟩ := C17_lagrange_radii demoG c0 10 w .amuse ⟨1, 1, 1, 1⟩ (by norm_num)
    (p0.of_rest k12) l0 g0 (analyze_fresh h0) (by rw [k4]; simp [demoNew, demo]) hw
    (by intro o h; rw [ho] at h; cases h) k1 rfl
  exact ⟨c0, rn, c', h0, e1, e2, e3, e4⟩

/-- C64 is false of the code for projected radii: the projected order of the previous frame is reused, and
`rlagrange(nlagrange=2, projected=True)` on this cluster in the galaxy frame (with a correct projected order)
returns a first radius of 2, although half of the mass lies within projected radius 1 of the centre. -/
theorem C64_lagrange_projected_violated : ∃ c rn c2 c', Good c ∧ Pos demoG c ∧ Lin c ∧
    (∀ o, c.rproorder = some o → SortedBy (c.st.map Ph.rpro) o) ∧
    rlagrange demoG 2 true c = .ok (rn, c') ∧ toCentre true none c = .ok c2 ∧
    c2.st.map Ph.rpro = [2, 1] ∧ c2.m = [1, 1] ∧ rn = [2, 2] ∧
    ¬ IsMassRadius (1 / 2) c2.m (c2.st.map Ph.rpro) 2 := by
  have g : Good { demoStale with c := ⟨0, 0, 0, 0, 0, 0⟩ } :=
    ⟨demoStale_good.ne, demoStale_good.len, demoStale_good.mass, demoStale_good.ro, demoStale_good.rpo⟩
  have p0 : Pos demoG { demoStale with c := ⟨0, 0, 0, 0, 0, 0⟩ } :=
    ⟨demo_pos.rbar, demo_pos.vbar, demo_pos.zmbar, demo_pos.tbar, demo_pos.ro, demo_pos.vo, demo_pos.time,
      demo_pos.mass, demo_pos.vel⟩
  have l0 : Lin { demoStale with c := ⟨0, 0, 0, 0, 0, 0⟩ } :=
    ⟨⟨.pckms, rfl, trivial⟩, ⟨.galaxy, rfl, trivial⟩⟩
  have hur : ({ demoStale with c := ⟨0, 0, 0, 0, 0, 0⟩ } : Cluster).units ≠ some .radec := by
    simp [demoStale, demo]
  obtain ⟨c2, h2, g2⟩ := toCentre_total (s := true) (cm := none) hur g
  have hl : (Op.toCentre true none).linear := by
    simp [Op.linear, Op.unitTarget, Op.originTarget, Origin.linear]
  have st := exec_step (op := .toCentre true none) p0.nz l0 hl h2
  have hro := C64_projected_order_never_updated demoG _ c2 [.toCentre true none] [0, 1] p0 l0
    (by simp [hl]) rfl rfl (by simp [run, Op.exec, h2, Except.bind])
  have hst : c2.st.map Ph.rpro = [2, 1] ∧ c2.m = [1, 1] := by
    have h := h2
    unfold toCentre at h
    simp only [demoStale, demo, bind, pure, Except.pure, setMethod] at h
    simp at h
    obtain ⟨c1, h1, h3⟩ := bind_ok h
    simp only [toCluster, bind, Except.bind, setMethod] at h1
    simp at h1
    have a1 := core_fields (analyze_core h1)
    have a2 := core_fields (analyze_core h3)
    rw [a2.2.2.2.2.1, a2.2.2.2.1]
    simp only [a1.2.2.2.2.1, a1.2.2.2.1, a1.2.2.2.2.2.1]
    simp [Ph.sub, Ph.rpro, Real.sqrt_sq_eq_abs]
    norm_num
  obtain ⟨c3, h3, -⟩ := return_of_world (sort := false) (cm := none) p0 l0 g g2 (st.lin hl l0) st.rest st.world
  have hd : c2.d.rpro = [2, 1] := by
    have : Fresh c2 := by
      have h := h2
      unfold toCentre at h
      simp only [demoStale, demo, bind, pure, Except.pure, setMethod] at h
      simp at h
      obtain ⟨c1, -, h3⟩ := bind_ok h
      exact analyze_fresh h3
    have e : c2.d.rpro = c2.st.map Ph.rpro := by
      have gen : ∀ (st : List Ph) (l : List ℝ), AreNorms (fun p => p.x ^ 2 + p.y ^ 2) st l →
          l = st.map Ph.rpro := by
        intro st l h
        induction h with
        | nil => rfl
        | cons h _ ih =>
          have h2 := h.2
          have h1 := h.1
          simp only at h1 h2
          rw [ih, List.map_cons, Ph.rpro, ← h2, Real.sqrt_sq h1]
      exact gen _ _ this.rpro
    rw [e, hst.1]
  refine ⟨_, [2, 2], c2, c3, g, p0, l0, ?_, ?_, h2, hst.1, hst.2, rfl, ?_⟩
  · intro o ho
    simp only [demoStale, Option.some.injEq] at ho
    subst ho
    refine ⟨by simp only [IsOrder, demoStale]; decide, ?_⟩
    simp [demoStale, Ph.rpro, Real.sqrt_sq_eq_abs]
    norm_num
  · unfold rlagrange
    simp only [bind, pure, Except.pure]
    refine ite_bind_of' (c1 := { demoStale with c := ⟨0, 0, 0, 0, 0, 0⟩ }) (by simp [demoStale, demo]) (ite_bind_of' (c1 := c2) ?_ ?_)
    · rw [if_pos (by simp [demoStale])]; exact h2
    · simp only [if_true, hro, hd, hst.2]
      have e0 : massFracRadius (((1 : ℕ) : ℝ) / ((2 : ℕ) : ℝ)) ([1, 1] : List ℝ).sum [1, 1] [2, 1] [0, 1] = .ok 2 := by
        simp [massFracRadius, cumsum, cumsumFrom, List.findIdx?_cons]
        norm_num
      have e : lagrangeLoop 2 [1, 1] [2, 1] [0, 1] = .ok [2, 2] := by
        unfold lagrangeLoop
        simp only [Nat.add_one_sub_one, List.range'_one, List.mapM_cons, List.mapM_nil, e0]
        simp [maxOf, bind, Except.bind, pure, Except.pure]
      rw [e]
      simp only [Except.bind]
      rw [h3]
  · rw [hst.1, hst.2]
    rintro ⟨-, -, h3⟩
    have := h3 1 (by simp) (by norm_num)
    simp [massWhere] at this
    norm_num at this

end

end CT
