/- Property theorems C76-C77: the core radius and the core relaxation time. -/
import Verif.Props.Neighbours
import Verif.Lemmas.Pairs

namespace CT

noncomputable section

set_option linter.unusedSimpArgs false

theorem getLastD_mem {α : Type} {l : List α} (h : l ≠ []) (d : α) : l.getLastD d ∈ l := by
  rw [List.getLastD_eq_getLast?, List.getLast?_eq_getLast_of_ne_nil h]
  exact List.getLast_mem h

theorem dropLast_append {α : Type} {l : List α} (h : l ≠ []) (d : α) : l.dropLast ++ [l.getLastD d] = l := by
  rw [List.getLastD_eq_getLast?, List.getLast?_eq_getLast_of_ne_nil h]
  exact List.dropLast_append_getLast h

theorem pow_split (pr : Bool) (a b : ℝ) : (a * b) ^ (if pr then 2 else 3) = a ^ (if pr then 2 else 3) * b ^ (if pr then 2 else 3) :=
  mul_pow _ _ _

/-- The densities the code computes are the physical ones up to the unit of density. -/
theorem density_ok {g : Galpy} {kd : KDTree} (hk : IsKD kd) {pr : Bool} {k : ℕ} {c : Cluster} {w : World} {u : Units} {s : Scale}
    {o : Origin} (p : Pos g c) (hg : Good c) (hw : world g c = some w) (hu : c.units = some u) (hs : unitScale g c u = some s)
    (ho : c.origin = some o) (hol : o.linear) (k1 : 1 ≤ k) (kn : k ≤ c.st.length) {i : ℕ} (hi : i < c.st.length) :
    IsCoreDensity w pr k i ((coreRhos kd k pr c.m c.st)[i]! * (s.mass / s.len ^ (if pr then 2 else 3))) := by
  have hp := (unitScale_pos p hs).1
  have hcl := columnStack_length pr c.st
  have hwl := world_length hw
  have hlen := hk.len (columnStack pr c.st) k k1 (by rw [hcl]; exact kn)
  rw [hcl] at hlen
  have hrow := hk.row (columnStack pr c.st) k k1 (by rw [hcl]; exact kn) i (by rw [hcl]; exact hi)
  have hi' : i < (kd (columnStack pr c.st) k).length := by rw [hlen]; exact hi
  unfold coreRhos
  rw [getElem!_pos ((kd (columnStack pr c.st) k).map _) i (by simpa using hi'), List.getElem_map,
    ← getElem!_pos (kd (columnStack pr c.st) k) i hi']
  obtain ⟨L, hL⟩ : ∃ L, L = (kd (columnStack pr c.st) k)[i]! := ⟨_, rfl⟩
  rw [← hL] at hrow ⊢
  have hne : L ≠ [] := by rintro rfl; have := hrow.size; simp at this; omega
  obtain ⟨D, q, hD⟩ : ∃ D q, D ++ [q] = L := ⟨_, _, dropLast_append hne (0, 0)⟩
  have hq : L.getLastD (0, 0) = q := by rw [← hD]; simp
  have hap : ∀ j < c.st.length, w.apart pr i j = dist3 (columnStack pr c.st)[i]! (columnStack pr c.st)[j]! * s.len :=
    fun j hj => apart_eq hw hu ho hol hs hp hi hj
  have hidx : ∀ a ∈ L, a.2 < c.st.length := fun a ha => by have := hrow.index a ha; rwa [hcl] at this
  have hdist : ∀ a ∈ L, w.apart pr i a.2 = a.1 * s.len := fun a ha => by rw [hap _ (hidx a ha), ← hrow.dist a ha]
  have hqL : q ∈ L := by rw [← hD]; simp
  have hDL : ∀ a ∈ D, a ∈ L := fun a ha => by rw [← hD]; simp [ha]
  have hnd : (D.map Prod.snd).Nodup ∧ q.2 ∉ D.map Prod.snd := by
    have := hrow.nodup
    rw [← hD, List.map_append, List.nodup_append] at this
    refine ⟨this.1, fun hx => ?_⟩
    exact this.2.2 _ hx q.2 (by simp) rfl
  have hmassj : ∀ j < c.st.length, w.mass[j]! = c.m[j]! * s.mass := by
    intro j hj
    have hj' : j < c.m.length := by rw [hg.len]; exact hj
    rw [world_mass hw hu hs, getElem!_pos _ j (by simpa using hj'), getElem!_pos c.m j hj', List.getElem_map]
  refine ⟨(D.map Prod.snd).toFinset, q.2, ?_, ?_, by rw [hwl]; exact hidx q hqL, by simpa using hnd.2, ?_, ?_, ?_⟩
  · rw [List.toFinset_card_of_nodup hnd.1, List.length_map, ← hrow.size, ← hD]; simp
  · intro j hj
    rw [List.mem_toFinset, List.mem_map] at hj
    obtain ⟨a, ha, rfl⟩ := hj
    rw [hwl]; exact hidx a (hDL a ha)
  · intro j hj
    rw [List.mem_toFinset, List.mem_map] at hj
    obtain ⟨a, ha, rfl⟩ := hj
    rw [hdist a (hDL a ha), hdist q hqL]
    refine mul_le_mul_of_nonneg_right ?_ hp.le
    have := hrow.sorted
    rw [← hD, List.pairwise_append] at this
    exact this.2.2 a ha q (by simp)
  · intro j hj hjS
    rw [hwl] at hj
    by_cases hjq : j = q.2
    · rw [hjq]
    · rw [hdist q hqL, hap j hj]
      refine mul_le_mul_of_nonneg_right (hrow.others j (by rw [hcl]; exact hj) ?_ q hqL) hp.le
      rw [← hD]
      simp only [List.map_append, List.map_cons, List.map_nil, List.mem_append, List.mem_singleton, not_or]
      exact ⟨by simpa using hjS, hjq⟩
  · dsimp only
    rw [hq, hdist q hqL, List.sum_toFinset _ hnd.1, pow_split, List.map_map]
    have e1 : (L.map (fun q => c.m[q.2]!)).sum - c.m[q.2]! = (D.map (fun a => c.m[a.2]!)).sum := by
      rw [← hD]; simp
    have e2 : (D.map ((fun j => w.mass[j]!) ∘ Prod.snd)).sum = (D.map (fun a => c.m[a.2]!)).sum * s.mass := by
      rw [← List.sum_map_mul_right]
      congr 1
      exact List.map_congr_left fun a ha => hmassj _ (hidx a (hDL a ha))
    rw [e1, e2, mul_div_mul_comm]

theorem coreRhos_length {kd : KDTree} (hk : IsKD kd) {pr : Bool} {k : ℕ} {m : List ℝ} {st : List Ph} (k1 : 1 ≤ k) (kn : k ≤ st.length) :
    (coreRhos kd k pr m st).length = st.length := by
  unfold coreRhos
  rw [List.length_map, hk.len _ _ k1 (by rw [columnStack_length]; exact kn), columnStack_length]

theorem list_eq_range (l : List ℝ) : l = (List.range l.length).map (fun i => l[i]!) := by
  apply List.ext_getElem
  · simp
  · intro i h1 h2
    rw [List.getElem_map, List.getElem_range, getElem!_pos l i h1]

theorem zip_sum_range {n : ℕ} {a b : List ℝ} (ha : a.length = n) (hb : b.length = n) (f : ℝ → ℝ → ℝ) :
    (List.zipWith f a b).sum = ∑ i ∈ Finset.range n, f a[i]! b[i]! := by
  rw [← sum_list_range]
  congr 1
  apply List.ext_getElem
  · simp [ha, hb]
  · intro i h1 h2
    simp only [List.length_zipWith, ha, hb, min_self] at h1
    rw [List.getElem_zipWith, List.getElem_map, List.getElem_range, getElem!_pos a i (by omega), getElem!_pos b i (by omega)]

/-- The computed radius is the core radius, for a cluster given from its centre. -/
theorem core_ok {g : Galpy} {kd : KDTree} (hk : IsKD kd) {pr : Bool} {k : ℕ} {c : Cluster} {w : World} {u : Units} {s : Scale}
    (p : Pos g c) (hg : Good c) (f : Fresh c) (hw : world g c = some w) (hu : c.units = some u) (hs : unitScale g c u = some s)
    (ho : c.origin = some .centre) (k1 : 1 ≤ k) (kn : k ≤ c.st.length) :
    IsCoreRadius w pr k (coreRadius (coreRhos kd k pr c.m c.st) (if pr then c.d.rpro else c.d.r) * s.len) := by
  obtain ⟨hp, -, hpm, -⟩ := unitScale_pos p hs
  have hwl := world_length hw
  obtain ⟨κ, hκ⟩ : ∃ κ, κ = s.mass / s.len ^ (if pr then 2 else 3) := ⟨_, rfl⟩
  have hκ0 : 0 < κ := by rw [hκ]; positivity
  have hrl : (if pr then c.d.rpro else c.d.r).length = c.st.length := by
    cases pr
    · simp only [Bool.false_eq_true, if_false]; rw [fresh_r f]; simp
    · simp only [if_true]; rw [fresh_rpro f]; simp
  have hdist : ∀ i < c.st.length, w.coreDist pr i = (if pr then c.d.rpro else c.d.r)[i]! * s.len := by
    intro i hi
    unfold World.coreDist
    cases pr
    · simp only [Bool.false_eq_true, if_false]
      rw [World.radius_eq hw hu ho trivial hs hp i hi, fresh_r f, List.getD_eq_getElem?_getD, List.getElem?_eq_getElem (by simpa using hi),
        Option.getD_some, getElem!_pos _ i (by simpa using hi)]
    · simp only [if_true]
      rw [World.radiusPro_eq hw hu ho trivial hs hp i hi, fresh_rpro f, getElem!_pos _ i (by simpa using hi)]
  refine ⟨fun i => (coreRhos kd k pr c.m c.st)[i]! * κ, ?_, ?_⟩
  · intro i hi
    rw [hwl] at hi
    rw [hκ]
    exact density_ok hk p hg hw hu hs ho trivial k1 kn hi
  · rw [hwl]
    have e1 := zip_sum_range (coreRhos_length hk (m := c.m) (pr := pr) k1 kn) hrl (fun ρ x => ρ ^ 2 * x ^ 2)
    have e2 : ((coreRhos kd k pr c.m c.st).map (· ^ 2)).sum = ∑ i ∈ Finset.range c.st.length, (coreRhos kd k pr c.m c.st)[i]! ^ 2 := by
      rw [← sum_list_range]
      conv_lhs => rw [list_eq_range (coreRhos kd k pr c.m c.st), coreRhos_length hk k1 kn, List.map_map]
      rfl
    unfold coreRadius
    rw [e1, e2]
    have e3 : ∑ i ∈ Finset.range c.st.length, ((coreRhos kd k pr c.m c.st)[i]! * κ) ^ 2 * w.coreDist pr i ^ 2 =
        (∑ i ∈ Finset.range c.st.length, (coreRhos kd k pr c.m c.st)[i]! ^ 2 * (if pr then c.d.rpro else c.d.r)[i]! ^ 2) * (κ ^ 2 * s.len ^ 2) := by
      rw [Finset.sum_mul]
      refine Finset.sum_congr rfl fun i hi => ?_
      rw [hdist i (by simpa using hi)]
      ring
    have e4 : ∑ i ∈ Finset.range c.st.length, ((coreRhos kd k pr c.m c.st)[i]! * κ) ^ 2 =
        (∑ i ∈ Finset.range c.st.length, (coreRhos kd k pr c.m c.st)[i]! ^ 2) * κ ^ 2 := by
      rw [Finset.sum_mul]
      exact Finset.sum_congr rfl fun i hi => by ring
    rw [e3, e4]
    generalize ∑ i ∈ Finset.range c.st.length, (coreRhos kd k pr c.m c.st)[i]! ^ 2 * (if pr then c.d.rpro else c.d.r)[i]! ^ 2 = A
    generalize ∑ i ∈ Finset.range c.st.length, (coreRhos kd k pr c.m c.st)[i]! ^ 2 = B
    have : A * (κ ^ 2 * s.len ^ 2) / (B * κ ^ 2) = A / B * s.len ^ 2 := by
      rcases eq_or_ne B 0 with h | h
      · simp [h]
      · field_simp
    rw [this, Real.sqrt_mul' _ (by positivity), Real.sqrt_sq hp.le]

theorem rcore_run {g : Galpy} {kd : KDTree} (hk : IsKD kd) {pr : Bool} {k : ℕ} {c : Cluster} {w : World} {u : Units} {s : Scale}
    (p : Pos g c) (l : Lin c) (hg : Good c) (f : Fresh c) (hw : world g c = some w) (hu : c.units = some u)
    (hs : unitScale g c u = some s) (k1 : 1 ≤ k) (kn : k ≤ c.st.length)
    (hc : c.origin = some .centre ∨ ¬ (c.c.x = 0 ∧ c.c.y = 0 ∧ c.c.z = 0)) :
    ∃ rc c', rcore g kd k pr c = .ok (rc, c') ∧ c'.data = c.data ∧ Fresh c' ∧ IsCoreRadius w pr k (rc * s.len) ∧
      Good c' ∧ c'.rest = c.rest ∧ ∃ c2, returnCluster g (saveCluster c) false none c2 = .ok c' := by
  obtain ⟨⟨u', hu', hul⟩, ⟨o, ho, hol⟩⟩ := id l
  rw [hu] at hu'; cases hu'
  obtain ⟨hp, hpv, -, -⟩ := unitScale_pos p hs
  -- from AMUSE units to pc
  obtain ⟨c1, h1, g1, st1, f1, u1, hu1, hul1, hs1, ho1⟩ : ∃ c1, (if c.units = some .amuse then toPckms g true c else .ok c) = .ok c1 ∧
      Good c1 ∧ (world g c1 = some w ∧ c1.rest = c.rest) ∧ Fresh c1 ∧ ∃ u1, c1.units = some u1 ∧ u1.linear ∧
      unitScale g c u1 = some s ∧ c1.origin = some o := by
    by_cases ha : u = .amuse
    · subst ha
      rw [if_pos hu]
      obtain ⟨c1, h1, g1⟩ := toPckms_total (a := true) (c := c) hu hul p hg
      have us := toPckms_ustep hu hul h1
      refine ⟨c1, h1, g1, ⟨us.world.trans hw, us.rest⟩, toPckms_fresh f h1, .pckms, us.units, trivial, hs, us.origin.trans ho⟩
    · rw [if_neg (by rw [hu]; simpa using ha)]
      exact ⟨c, rfl, hg, ⟨hw, rfl⟩, f, u, hu, hul, hs, ho⟩
  obtain ⟨w1, r1⟩ := st1
  have p1 := p.of_rest r1
  have l1 : Lin c1 := ⟨⟨u1, hu1, hul1⟩, ⟨o, ho1, hol⟩⟩
  have hs1' : unitScale g c1 u1 = some s := by rw [unitScale_of_rest r1]; exact hs1
  -- the centre is the same, in those units
  have hcen : c1.c.x = c.c.x ∧ c1.c.y = c.c.y ∧ c1.c.z = c.c.z := by
    have a : w.centre = s.ph c.c := by
      have h := hw; unfold world phys at h
      simp only [hu, ho, hs, Option.some.injEq] at h
      rw [← h]
    have b : w.centre = s.ph c1.c := by
      have h := w1; unfold world phys at h
      simp only [hu1, ho1, hs1', Option.some.injEq] at h
      rw [← h]
    rw [a] at b
    have h1 := congrArg Ph.x b; have h2 := congrArg Ph.y b; have h3 := congrArg Ph.z b
    simp only [Scale.ph] at h1 h2 h3
    exact ⟨(mul_right_cancel₀ hp.ne' h1).symm, (mul_right_cancel₀ hp.ne' h2).symm, (mul_right_cancel₀ hp.ne' h3).symm⟩
  -- to the centre
  obtain ⟨c2, h2, g2, w2, r2, f2, hu2, ho2⟩ : ∃ c2,
      rcoreStart g kd c1 = Except.ok c2 ∧ Good c2 ∧ world g c2 = some w ∧ c2.rest = c.rest ∧ Fresh c2 ∧ c2.units = some u1 ∧
      c2.origin = some .centre := by
    unfold rcoreStart
    by_cases hoc : c.origin = some .centre
    · rw [hoc] at ho; cases ho
      rw [if_neg (not_not.mpr ho1)]
      exact ⟨c1, rfl, g1, w1, r1, f1, hu1, ho1⟩
    · rw [if_pos (by rw [ho1, ← ho]; exact hoc)]
      have hnz : ¬ (c1.c.x = 0 ∧ c1.c.y = 0 ∧ c1.c.z = 0) := by
        rw [hcen.1, hcen.2.1, hcen.2.2]; exact hc.resolve_left hoc
      rw [rcoreCentre, if_neg hnz]
      have hur : c1.units ≠ some .radec := by rw [hu1]; rintro h; cases h; exact hul1
      obtain ⟨c2, h2, g2⟩ := toCentre_total (s := true) (cm := none) hur g1
      have hl : (Op.toCentre true none).linear := by
        simp [Op.linear, Op.unitTarget, Op.originTarget, Origin.linear]
      have st := exec_step (op := .toCentre true none) p1.nz l1 hl h2
      have os := toCentre_ostep ho1 hol hur h2
      exact ⟨c2, h2, g2, st.world.trans w1, st.rest.trans r1, toCentre_fresh f1 h2, os.units.trans hu1, os.origin⟩
  have l2 : Lin c2 := ⟨⟨u1, hu2, hul1⟩, ⟨.centre, ho2, trivial⟩⟩
  have hs2 : unitScale g c2 u1 = some s := by rw [unitScale_of_rest r2]; exact hs1
  have n2 : c2.st.length = c.st.length := by rw [← world_length w2, world_length hw]
  have key := core_ok hk (pr := pr) (k := k) (p.of_rest r2) g2 f2 w2 hu2 hs2 ho2 k1 (by rw [n2]; exact kn)
  obtain ⟨c3, h3, d3, f3, g3, -, r3⟩ := return_of_world (sort := false) (cm := none) p l hg g2 l2 r2 (w2.trans hw.symm)
  have hu3 : c3.units = some u := (congrArg Data.units d3).trans hu
  refine ⟨if c3.units = some .amuse then convertLength g c3 .pckms .amuse (coreRadius (coreRhos kd k pr c2.m c2.st)
      (if pr then c2.d.rpro else c2.d.r)) else coreRadius (coreRhos kd k pr c2.m c2.st) (if pr then c2.d.rpro else c2.d.r),
    c3, ?_, d3, f3, ?_, g3, r3, c2, h3⟩
  · unfold rcore
    simp only [bind]
    refine ite_bind_of' h1 ?_
    simp only [h2, h3, Except.bind, pure, Except.pure]
  · have : (if c3.units = some .amuse then convertLength g c3 .pckms .amuse (coreRadius (coreRhos kd k pr c2.m c2.st)
        (if pr then c2.d.rpro else c2.d.r)) else coreRadius (coreRhos kd k pr c2.m c2.st) (if pr then c2.d.rpro else c2.d.r)) * s.len =
        coreRadius (coreRhos kd k pr c2.m c2.st) (if pr then c2.d.rpro else c2.d.r) * s.len := by
      split
      · rename_i h
        rw [hu3] at h; cases h
        rw [C38_length (p.of_rest r3).nz (su := ⟨1, 1, 1, 1⟩) (st := s) rfl (by rw [unitScale_of_rest r3]; exact hs)]
        cases hs; rfl
      · rfl
    rw [this]
    exact key

/-- **C76 (core radius).**  For a cluster given from its centre, or with a known centre, `rcore` is the core radius of Casertano and Hut
around that centre, in the length unit of the cluster, whatever its units and origin, and the cluster is returned as it was. -/
theorem C76_core_radius {g : Galpy} {kd : KDTree} (hk : IsKD kd) {pr : Bool} {k : ℕ} {c : Cluster} {w : World} {u : Units} {s : Scale}
    (p : Pos g c) (l : Lin c) (hg : Good c) (f : Fresh c) (hw : world g c = some w) (hu : c.units = some u)
    (hs : unitScale g c u = some s) (k1 : 1 ≤ k) (kn : k ≤ c.st.length)
    (hc : c.origin = some .centre ∨ ¬ (c.c.x = 0 ∧ c.c.y = 0 ∧ c.c.z = 0)) :
    ∃ rc c', rcore g kd k pr c = .ok (rc, c') ∧ c'.data = c.data ∧ Fresh c' ∧ IsCoreRadius w pr k (rc * s.len) := by
  obtain ⟨rc, c', a1, a2, a3, a4, -⟩ := rcore_run hk (pr := pr) p l hg f hw hu hs k1 kn hc
  exact ⟨rc, c', a1, a2, a3, a4⟩

theorem apart_self (w : World) (pr : Bool) (i : ℕ) : w.apart pr i i = 0 := by
  simp [World.apart, between]

theorem apart_nonneg (w : World) (pr : Bool) (i j : ℕ) : 0 ≤ w.apart pr i j := Real.sqrt_nonneg _

theorem density_unique {w : World} {pr : Bool} {k i : ℕ} {a b : ℝ} (hgen : w.Generic pr) (hi : i < w.stars.length)
    (ha : IsCoreDensity w pr k i a) (hb : IsCoreDensity w pr k i b) : a = b := by
  have aux : ∀ {S S' : Finset ℕ} {q q' : ℕ}, S.card + 1 = k → S'.card + 1 = k → q ∉ S → q < w.stars.length →
      (∀ j ∈ S, j < w.stars.length) →
      (∀ j ∈ S, w.apart pr i j ≤ w.apart pr i q) → (∀ j < w.stars.length, j ∉ S' → w.apart pr i q' ≤ w.apart pr i j) →
      ¬ w.apart pr i q < w.apart pr i q' := by
    intro S S' q q' h1 h2 h3 h4 h5 h6 h7 hlt
    have hsub : insert q S ⊆ S' := by
      intro j hj
      by_contra hx
      rw [Finset.mem_insert] at hj
      rcases hj with rfl | hj
      · exact absurd (h7 _ h4 hx) (not_le.mpr hlt)
      · exact absurd (h7 _ (h5 j hj) hx) (not_le.mpr ((h6 j hj).trans_lt hlt))
    have := Finset.card_le_card hsub
    rw [Finset.card_insert_of_notMem h3] at this
    omega
  obtain ⟨S, q, h1, h2, h3, h4, h5, h6, rfl⟩ := ha
  obtain ⟨S', q', h1', h2', h3', h4', h5', h6', rfl⟩ := hb
  have n1 := aux h1 h1' h4 h3 h2 h5 h6'
  have n2 := aux h1' h1 h4' h3' h2' h5' h6
  have he : w.apart pr i q = w.apart pr i q' := le_antisymm (not_lt.mp n2) (not_lt.mp n1)
  have hq : q = q' := by
    by_contra hne
    exact hgen i hi q h3 q' h3' hne he
  subst hq
  have hS : S = S' := by
    apply Finset.eq_of_subset_of_card_le
    · intro j hj
      by_contra hx
      have a1 := h6' j (h2 j hj) hx
      have a2 := h5 j hj
      exact hgen i hi j (h2 j hj) q h3 (fun e => h4 (e ▸ hj)) (le_antisymm a2 a1)
    · omega
  rw [hS]

/-- **C76 (one core radius).**  For stars in general position there is only one core radius. -/
theorem C76_unique {w : World} {pr : Bool} {k : ℕ} {a b : ℝ} (hgen : w.Generic pr) (ha : IsCoreRadius w pr k a)
    (hb : IsCoreRadius w pr k b) : a = b := by
  obtain ⟨ρ, h1, rfl⟩ := ha
  obtain ⟨ρ', h1', rfl⟩ := hb
  have e : ∀ i ∈ Finset.range w.stars.length, ρ i = ρ' i := fun i hi =>
    density_unique hgen (by simpa using hi) (h1 i (by simpa using hi)) (h1' i (by simpa using hi))
  have e1 : ∑ i ∈ Finset.range w.stars.length, ρ i ^ 2 * w.coreDist pr i ^ 2 =
      ∑ i ∈ Finset.range w.stars.length, ρ' i ^ 2 * w.coreDist pr i ^ 2 := Finset.sum_congr rfl fun i hi => by rw [e i hi]
  have e2 : ∑ i ∈ Finset.range w.stars.length, ρ i ^ 2 = ∑ i ∈ Finset.range w.stars.length, ρ' i ^ 2 :=
    Finset.sum_congr rfl fun i hi => by rw [e i hi]
  rw [e1, e2]

/-- **C76 (units and origins).**  Two descriptions of the same cluster, in any units and from any origin, have the same core radius. -/
theorem C76_same_cluster {g : Galpy} {kd : KDTree} (hk : IsKD kd) {pr : Bool} {k : ℕ} {c d : Cluster} {w : World} {u v : Units}
    {s r : Scale} (p : Pos g c) (l : Lin c) (hg : Good c) (f : Fresh c) (hw : world g c = some w) (hu : c.units = some u)
    (hs : unitScale g c u = some s) (p' : Pos g d) (l' : Lin d) (hg' : Good d) (f' : Fresh d) (hw' : world g d = some w)
    (hu' : d.units = some v) (hr : unitScale g d v = some r) (k1 : 1 ≤ k) (kn : k ≤ c.st.length) (hgen : w.Generic pr)
    (hc : c.origin = some .centre ∨ ¬ (c.c.x = 0 ∧ c.c.y = 0 ∧ c.c.z = 0))
    (hd : d.origin = some .centre ∨ ¬ (d.c.x = 0 ∧ d.c.y = 0 ∧ d.c.z = 0)) :
    ∃ a b c' d', rcore g kd k pr c = .ok (a, c') ∧ rcore g kd k pr d = .ok (b, d') ∧ a * s.len = b * r.len := by
  obtain ⟨a, c', a1, -, -, a4⟩ := C76_core_radius hk (pr := pr) p l hg f hw hu hs k1 kn hc
  obtain ⟨b, d', b1, -, -, b4⟩ := C76_core_radius hk (pr := pr) p' l' hg' f' hw' hu' hr k1
    (by rw [← world_length hw', world_length hw]; exact kn) hd
  exact ⟨a, b, c', d', a1, b1, C76_unique hgen a4 b4⟩

theorem density_pos {w : World} {pr : Bool} {k i : ℕ} {a : ℝ} (hap : w.Apart pr) (hm : ∀ j < w.stars.length, 0 < w.mass[j]!)
    (k2 : 2 ≤ k) (hi : i < w.stars.length) (ha : IsCoreDensity w pr k i a) : 0 < a := by
  obtain ⟨S, q, h1, h2, h3, h4, h5, h6, rfl⟩ := ha
  have hne : S.Nonempty := by rw [← Finset.card_pos]; omega
  have hq : 0 < w.apart pr i q := by
    obtain ⟨j, hj⟩ := hne
    by_cases hiq : i = q
    · have := hap i hi j (h2 j hj) (fun e => h4 (by rw [← hiq, e]; exact hj))
      exact this.trans_le (h5 j hj)
    · exact hap i hi q h3 hiq
  have hS : 0 < ∑ j ∈ S, w.mass[j]! := Finset.sum_pos (fun j hj => hm j (h2 j hj)) hne
  positivity

/-- **C76 (range).**  With positive masses and no two stars at one place the weights are positive, and the core radius lies between the
smallest and the largest distance from the centre. -/
theorem C76_range {w : World} {pr : Bool} {k : ℕ} {rc : ℝ} (hap : w.Apart pr) (hm : ∀ j < w.stars.length, 0 < w.mass[j]!)
    (hn : 0 < w.stars.length) (k2 : 2 ≤ k) (h : IsCoreRadius w pr k rc) :
    (∃ i < w.stars.length, w.coreDist pr i ≤ rc) ∧ (∃ i < w.stars.length, rc ≤ w.coreDist pr i) := by
  obtain ⟨ρ, h1, rfl⟩ := h
  have hρ : ∀ i < w.stars.length, 0 < ρ i := fun i hi => density_pos hap hm k2 hi (h1 i hi)
  have hR : ∀ i, 0 ≤ w.coreDist pr i := by
    intro i; unfold World.coreDist; split
    · exact radiusPro_nonneg _ _ _
    · exact radius_nonneg _ _ _
  have hne : (Finset.range w.stars.length).Nonempty := ⟨0, by simpa using hn⟩
  have hB : 0 < ∑ i ∈ Finset.range w.stars.length, ρ i ^ 2 :=
    Finset.sum_pos (fun i hi => pow_pos (hρ i (by simpa using hi)) 2) hne
  obtain ⟨q, hq⟩ : ∃ q, q = (∑ i ∈ Finset.range w.stars.length, ρ i ^ 2 * w.coreDist pr i ^ 2) /
      ∑ i ∈ Finset.range w.stars.length, ρ i ^ 2 := ⟨_, rfl⟩
  have hAB : ∑ i ∈ Finset.range w.stars.length, ρ i ^ 2 * w.coreDist pr i ^ 2 = ∑ i ∈ Finset.range w.stars.length, ρ i ^ 2 * q := by
    rw [← Finset.sum_mul, hq]; field_simp
  rw [← hq]
  constructor
  · by_contra hx
    push Not at hx
    have : ∑ i ∈ Finset.range w.stars.length, ρ i ^ 2 * q < ∑ i ∈ Finset.range w.stars.length, ρ i ^ 2 * w.coreDist pr i ^ 2 := by
      refine Finset.sum_lt_sum_of_nonempty hne fun i hi => ?_
      have hi := Finset.mem_range.mp hi
      refine mul_lt_mul_of_pos_left ?_ (pow_pos (hρ i hi) 2)
      exact (Real.sqrt_lt' ((Real.sqrt_nonneg q).trans_lt (hx i hi))).mp (hx i hi)
    linarith
  · by_contra hx
    push Not at hx
    have : ∑ i ∈ Finset.range w.stars.length, ρ i ^ 2 * w.coreDist pr i ^ 2 < ∑ i ∈ Finset.range w.stars.length, ρ i ^ 2 * q := by
      refine Finset.sum_lt_sum_of_nonempty hne fun i hi => ?_
      have hi := Finset.mem_range.mp hi
      refine mul_lt_mul_of_pos_left ?_ (pow_pos (hρ i hi) 2)
      exact (Real.lt_sqrt (hR i)).mp (hx i hi)
    linarith

/-! ### the core relaxation time -/

/-- The half-mass radius after `return_cluster`. -/
theorem returned_rm {g : Galpy} {c x c3 : Cluster} {w : World} (h : returnCluster g (saveCluster c) false none x = .ok c3)
    (p3 : Pos g c3) (l3 : Lin c3) (g3 : Good c3) (w3 : world g c3 = some w) (i : OrderInv w c) (hm : ∀ y ∈ c3.m, 0 ≤ y) :
    ∃ ρ, c3.d.rm = some ρ ∧ IsMassRadius 0.5 c3.m (c3.st.map Ph.r) ρ := by
  obtain ⟨y, hy, e1, e2⟩ : ∃ y, analyze true y = .ok c3 ∧ y.rorder = c.rorder ∧ y.rorderOrigin = c.rorderOrigin := by
    unfold returnCluster saveCluster at h
    simp only [bind] at h
    split at h
    all_goals (try split at h)
    all_goals obtain ⟨y1, -, h⟩ := bind_ok h
    all_goals split at h
    all_goals (try split at h)
    all_goals
      obtain ⟨y2, -, h⟩ := bind_ok h
      exact ⟨_, h, rfl, rfl⟩
  have i3 := (OrderInv.of_eq i e1 e2).analyze p3 l3 w3 hy
  obtain ⟨o2, e3, e4, -⟩ := analyze_rorder_sorted hy
  have hcore := core_fields (analyze_core hy)
  have hsync : c3.rorderOrigin = c3.origin := by rw [e4, hcore.2.1]
  have hsort := i3.sorted p3 l3 w3 e3 hsync
  obtain ⟨a, b, e5, -, e6, -⟩ := analyze_rm hy e3
  rw [← hcore.2.2.2.1, ← hcore.2.2.2.2.1] at e6
  have hmne : c3.m ≠ [] := by
    intro h; have := g3.len; rw [h] at this
    exact g3.ne (List.length_eq_zero_iff.mp this.symm)
  obtain ⟨ρ, e7, e8⟩ := massFracRadius_isMassRadius (f := 0.5) (m := c3.m) hsort (by simp [g3.len]) hmne hm (by norm_num)
  rw [e6] at e7; cases e7
  exact ⟨_, e5, e8⟩

theorem centre_zero {g : Galpy} {c d : Cluster} {w : World} (p : Pos g c) (l : Lin c) (p' : Pos g d) (l' : Lin d)
    (hw : world g c = some w) (hw' : world g d = some w) (h : d.c.x = 0 ∧ d.c.y = 0 ∧ d.c.z = 0) :
    c.c.x = 0 ∧ c.c.y = 0 ∧ c.c.z = 0 := by
  obtain ⟨⟨u, hu, hul⟩, ⟨o, ho, hol⟩⟩ := l
  obtain ⟨⟨v, hv, hvl⟩, ⟨q, hq, hql⟩⟩ := l'
  obtain ⟨s, hs⟩ := unitScale_isSome (g := g) (c := c) hul
  obtain ⟨r, hr⟩ := unitScale_isSome (g := g) (c := d) hvl
  have a : w.centre = s.ph c.c := by
    unfold world phys at hw
    simp only [hu, ho, hs, Option.some.injEq] at hw
    rw [← hw]
  have b : w.centre = r.ph d.c := by
    unfold world phys at hw'
    simp only [hv, hq, hr, Option.some.injEq] at hw'
    rw [← hw']
  rw [a] at b
  have h1 := congrArg Ph.x b; have h2 := congrArg Ph.y b; have h3 := congrArg Ph.z b
  simp only [Scale.ph, h.1, h.2.1, h.2.2, zero_mul, mul_eq_zero, (unitScale_pos p hs).1.ne', or_false] at h1 h2 h3
  exact ⟨h1, h2, h3⟩

/-- **C76 (core relaxation time).**  `core_relaxation_time(coulomb=γ)` is `0.39/ln(γN)·√(rc³/(GM))·N·√(rc·rh)/(rc+rh)` for the physical
masses, the core radius and the half-mass radius, in the time unit of the cluster; the cluster is returned as it was. -/
theorem C76_core_relaxation {g : Galpy} {kd : KDTree} (hk : IsKD kd) {γ : ℝ} {c : Cluster} {w : World} {u : Units} {s : Scale}
    (p : Pos g c) (l : Lin c) (hg : Good c) (f : Fresh c) (hm : ∀ x ∈ c.m, 0 ≤ x) (hM : 0 < c.m.sum) (hw : world g c = some w)
    (i : OrderInv w c) (hu : c.units = some u) (hs : unitScale g c u = some s) (kn : 6 ≤ c.st.length)
    (hc : c.origin ≠ some .cluster ∨ ¬ (c.c.x = 0 ∧ c.c.y = 0 ∧ c.c.z = 0)) :
    ∃ t c' rc rh, coreRelaxationTime g kd γ false c = .ok (t, c') ∧ c'.data = c.data ∧ Fresh c' ∧ IsCoreRadius w false 6 rc ∧
      IsMassRadius 0.5 w.mass (w.radii (workFrame c) c.st.length) rh ∧ t * s.time = coreTime γ w.mass rc rh := by
  obtain ⟨c2, h2, ip⟩ := in_pc p l hg f hm hw i
  have p2 := p.of_rest ip.rest
  have hs2 : unitScale g c2 .pckms = some ⟨1, 1, 1, 1⟩ := rfl
  have hc2 : c2.origin = some .centre ∨ ¬ (c2.c.x = 0 ∧ c2.c.y = 0 ∧ c2.c.z = 0) := by
    by_cases ho : c.origin = some .cluster
    · exact Or.inr fun hz => (hc.resolve_left (not_not.mpr ho)) (centre_zero p l p2 ip.lin hw ip.world hz)
    · exact Or.inl (by rw [ip.origin, workFrame, if_neg ho])
  obtain ⟨rc, c3, a1, a2, a3, a4, a5, a6, x, a7⟩ := rcore_run hk (pr := false) (k := 6) p2 ip.lin ip.good ip.fresh ip.world ip.units hs2
    (by norm_num) (by rw [ip.len]; exact kn) hc2
  have r3 : c3.rest = c.rest := a6.trans ip.rest
  have p3 := p.of_rest r3
  have w3 : world g c3 = some w := (world_of_data a2 a6).trans ip.world
  have hu3 : c3.units = some .pckms := (congrArg Data.units a2).trans ip.units
  have ho3 : c3.origin = some (workFrame c) := (congrArg Data.origin a2).trans ip.origin
  have hm3 : c3.m = c2.m := congrArg Data.m a2
  have hst3 : c3.st = c2.st := congrArg Data.st a2
  have l3 : Lin c3 := ⟨⟨.pckms, hu3, trivial⟩, ⟨_, ho3, by unfold workFrame; split <;> trivial⟩⟩
  have hm0 : ∀ y ∈ w.mass, 0 ≤ y := by
    rw [world_mass hw hu hs]
    intro y hy
    obtain ⟨z, hz, rfl⟩ := List.mem_map.mp hy
    exact mul_nonneg (hm z hz) (unitScale_pos p hs).2.2.1.le
  obtain ⟨ρ, b1, b2⟩ := returned_rm a7 p3 l3 a5 w3 ip.order (by rw [hm3, ip.mass]; exact hm0)
  rw [hm3, ip.mass, hst3, ← fresh_r ip.fresh, ip.r] at b2
  obtain ⟨c4, h4, d4, f4, -, -, r4⟩ := return_of_world (sort := false) (cm := none) p l hg a5 l3 r3 (w3.trans hw.symm)
  have hu4 : c4.units = some u := (congrArg Data.units d4).trans hu
  suffices h : ∃ t, coreRelaxationTime g kd γ false c = .ok (t, c4) ∧ t * s.time = coreTime γ w.mass rc ρ by
    obtain ⟨t, e1, e2⟩ := h
    exact ⟨t, c4, rc, ρ, e1, d4, f4, by simpa using a4, b2, e2⟩
  unfold coreRelaxationTime
  simp only [bind, h2, Except.bind, a1, attr, Bool.false_eq_true, if_false, b1, Option.elim_some, h4, pure, Except.pure]
  refine ⟨_, rfl, ?_⟩
  simp only [hu4, Option.elim_some]
  rw [C38_time (su := 1) (st := s.time) (p.of_rest r4).nz (Or.inl rfl) (Or.inl (by rw [unitScale_of_rest r4, hs]; rfl)), mul_one,
    ip.units, ip.mass, myrFactor_eq]
  have hlen : c2.st.length = w.mass.length := by rw [← ip.mass, ip.good.len]
  have hM' : 0 < w.mass.sum := by
    rw [world_mass hw hu hs, List.sum_map_mul_right]
    simpa using mul_pos hM (unitScale_pos p hs).2.2.1
  have hmean : w.mass.sum / mean w.mass = w.mass.length := by
    have hne : w.mass ≠ [] := by intro h; rw [h] at hM'; simp at hM'
    have := mean_mul hne
    have h0 : mean w.mass ≠ 0 := by intro h; rw [h, zero_mul] at this; linarith
    rw [div_eq_iff h0]; linarith
  unfold coreTime
  rw [hlen, hmean]
  simp only [getGrav, gravPc]
  ring

end

end CT
