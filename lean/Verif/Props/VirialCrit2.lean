/- C81: the radius of a given overdensity, theorems. -/
import Verif.Props.VirialCrit
import Verif.Props.CoreRadius2

namespace CT

noncomputable section

set_option linter.unusedSimpArgs false

/-- A strictly increasing list is determined by its members. -/
theorem increasing_ext {a b : List ℝ} (ha : a.Pairwise (· < ·)) (hb : b.Pairwise (· < ·)) (h : ∀ x, x ∈ a ↔ x ∈ b) : a = b := by
  have hp : a.Perm b := (List.perm_ext_iff_of_nodup (ha.imp (fun h => h.ne)) (hb.imp (fun h => h.ne))).mpr h
  exact hp.eq_of_pairwise (fun x y _ _ h1 h2 => absurd h1 (not_lt.mpr h2.le)) ha hb

theorem ProfileOk.increasing {m r R D : List ℝ} (h : ProfileOk m r R D) : R.Pairwise (· < ·) := by
  rw [List.pairwise_iff_getElem]
  intro i j hi hj hij
  have := h.inc i j hij (by rw [← h.len]; exact hj)
  rwa [getElem!_pos R i hi, getElem!_pos R j hj] at this

theorem ProfileOk.members {m r R D : List ℝ} (h : ProfileOk m r R D) (x : ℝ) : x ∈ R ↔ x ∈ r := by
  rw [h.mem, List.mem_iff_getElem, ← h.len]
  constructor
  · rintro ⟨i, hi, rfl⟩; exact ⟨i, hi, getElem!_pos R i hi⟩
  · rintro ⟨i, hi, rfl⟩; exact ⟨i, hi, (getElem!_pos R i hi).symm⟩

theorem ProfileOk.unique {m r R D R' D' : List ℝ} (h : ProfileOk m r R D) (h' : ProfileOk m r R' D') : R = R' ∧ D = D' := by
  have e : R = R' := increasing_ext h.increasing h'.increasing fun x => by rw [h.members, h'.members]
  subst e
  refine ⟨rfl, List.ext_getElem (by rw [← h.len, h'.len]) fun k k1 k2 => ?_⟩
  have := (h.dens k k1).trans (h'.dens k k2).symm
  rwa [getElem!_pos D k k1, getElem!_pos D' k k2] at this

/-- **C81, where the mean density decreases outwards:** the cluster comes back as given; the returned length is, when the star whose mean
density is nearest to the wanted density is neither the innermost nor the outermost, the radius at which the mean density passes the
wanted one, interpolated between the two stars enclosing it; otherwise it is that star's radius. -/
theorem C81_virial {g : Galpy} {H δ : ℝ} {c : Cluster} {w : World} {u : Units} {s : Scale} (p : Pos g c) (l : Lin c)
    (hg : Good c) (f : Fresh c) (hm : ∀ x ∈ c.m, 0 ≤ x) (hw : world g c = some w) (i : OrderInv w c)
    (hu : c.units = some u) (hs : unitScale g c u = some s)
    (hd : Decreasing w.mass (w.radii (workFrame c) c.st.length)) :
    ∃ t c3 x, virialCrit g H δ c = .ok (t, c3) ∧ c3.data = c.data ∧ Fresh c3 ∧
      IsNearestDensity w.mass (w.radii (workFrame c) c.st.length) (criticalDensity H * δ) x ∧
      (IsExtreme (w.radii (workFrame c) c.st.length) x → t * s.len = x) ∧
      (¬ IsExtreme (w.radii (workFrame c) c.st.length) x →
        IsCrossing w.mass (w.radii (workFrame c) c.st.length) (criticalDensity H * δ) (t * s.len)) := by
  obtain ⟨R, D, c3, a1, a2, a3, a4⟩ := virial_run (H := H) (δ := δ) p l hg f hm hw i hu hs hd.nodup
  obtain ⟨rv, x, b1, b2, b3, b4⟩ := critRadius_decreasing (ρ := criticalDensity H * δ) a1 hd
  obtain ⟨t, e1, e2⟩ := a4 rv b1
  exact ⟨t, c3, x, e1, a2, a3, b2, by rw [e2]; exact b3, by rw [e2]; exact b4⟩

/-- **C81, one description of the cluster or another:** the same physical length. -/
theorem C81_same_cluster {g : Galpy} {H δ : ℝ} {c d : Cluster} {w : World} {u v : Units} {s q : Scale} (p : Pos g c) (l : Lin c)
    (hg : Good c) (f : Fresh c) (hm : ∀ x ∈ c.m, 0 ≤ x) (hw : world g c = some w) (i : OrderInv w c)
    (hu : c.units = some u) (hs : unitScale g c u = some s) (p' : Pos g d) (l' : Lin d)
    (hg' : Good d) (f' : Fresh d) (hm' : ∀ x ∈ d.m, 0 ≤ x) (hw' : world g d = some w) (i' : OrderInv w d)
    (hu' : d.units = some v) (hs' : unitScale g d v = some q) (hf : workFrame c = workFrame d)
    (hn : (w.radii (workFrame c) c.st.length).Nodup) {t t' : ℝ} {c3 d3 : Cluster}
    (h : virialCrit g H δ c = .ok (t, c3)) (h' : virialCrit g H δ d = .ok (t', d3)) : t * s.len = t' * q.len := by
  have hl : c.st.length = d.st.length := by rw [← world_length hw, ← world_length hw']
  obtain ⟨R, D, x3, a1, -, -, a4⟩ := virial_run (H := H) (δ := δ) p l hg f hm hw i hu hs hn
  rw [hf, hl] at hn a1
  obtain ⟨R', D', y3, b1, -, -, b4⟩ := virial_run (H := H) (δ := δ) p' l' hg' f' hm' hw' i' hu' hs' hn
  obtain ⟨rfl, rfl⟩ := a1.unique b1
  have hok : ∃ rv, critRadius R D (criticalDensity H * δ) = .ok rv := by
    obtain ⟨k, k1, -⟩ := argminE_spec (l := D.map (fun d => |d - criticalDensity H * δ|)) (by simpa using a1.ne)
    unfold critRadius
    simp only [bind, k1, Except.bind]
    split
    · exact ⟨_, rfl⟩
    · split <;> exact ⟨_, rfl⟩
  obtain ⟨rv, hrv⟩ := hok
  obtain ⟨t1, e1, e2⟩ := a4 rv hrv
  obtain ⟨t2, e3, e4⟩ := b4 rv hrv
  rw [e1] at h; cases h
  rw [e3] at h'; cases h'
  rw [e2, e4]

/-- The place of the unique nearest density. -/
theorem critRadius_at {m r R D : List ℝ} {ρ : ℝ} (hp : ProfileOk m r R D) {k : ℕ} (hk : k < D.length)
    (hu : ∀ j < D.length, j ≠ k → |D[k]! - ρ| < |D[j]! - ρ|) : argminE (D.map (fun d => |d - ρ|)) = .ok k := by
  obtain ⟨n, n1, n2, n3⟩ := argminE_spec (l := D.map (fun d => |d - ρ|)) (by simpa using hp.ne)
  rw [List.length_map] at n2
  by_cases h : n = k
  · rw [← h]; exact n1
  · exfalso
    have h1 := n3 |D[k]! - ρ| (List.mem_map.mpr ⟨D[k], List.getElem_mem hk, by rw [getElem!_pos D k hk]⟩)
    rw [getElem!_pos _ n (by simpa using n2), List.getElem_map, ← getElem!_pos D n n2] at h1
    linarith [hu n n2 h]

/-- **C82 is violated at the edges:** when the wanted density lies strictly between the mean densities within the two innermost stars, but
nearer to that of the innermost, the innermost star's radius is returned instead of the crossing between them. -/
theorem C82_edge_violated {g : Galpy} {H δ : ℝ} {c : Cluster} {w : World} {u : Units} {s : Scale} (p : Pos g c) (l : Lin c)
    (hg : Good c) (f : Fresh c) (hm : ∀ x ∈ c.m, 0 ≤ x) (hw : world g c = some w) (i : OrderInv w c)
    (hu : c.units = some u) (hs : unitScale g c u = some s)
    (hd : Decreasing w.mass (w.radii (workFrame c) c.st.length)) {a b : ℝ}
    (ha : a ∈ w.radii (workFrame c) c.st.length) (hb : b ∈ w.radii (workFrame c) c.st.length) (hab : a < b)
    (hin : ∀ x ∈ w.radii (workFrame c) c.st.length, x = a ∨ b ≤ x)
    (h1 : criticalDensity H * δ < meanDensity w.mass (w.radii (workFrame c) c.st.length) a)
    (h2 : meanDensity w.mass (w.radii (workFrame c) c.st.length) b < criticalDensity H * δ)
    (h3 : meanDensity w.mass (w.radii (workFrame c) c.st.length) a - criticalDensity H * δ <
      criticalDensity H * δ - meanDensity w.mass (w.radii (workFrame c) c.st.length) b) :
    ∃ t c3 rv, virialCrit g H δ c = .ok (t, c3) ∧ t * s.len = a ∧ a < rv ∧ rv < b ∧
      IsCrossing w.mass (w.radii (workFrame c) c.st.length) (criticalDensity H * δ) rv ∧
      ¬ IsCrossing w.mass (w.radii (workFrame c) c.st.length) (criticalDensity H * δ) (t * s.len) := by
  obtain ⟨t, c3, x, e1, -, -, b2, b3, -⟩ := C81_virial (H := H) (δ := δ) p l hg f hm hw i hu hs hd
  set r := w.radii (workFrame c) c.st.length
  set ρ := criticalDensity H * δ
  have hx : x = a := by
    rcases hin x b2.1 with h | h
    · exact h
    · exfalso
      have hle : meanDensity w.mass r x ≤ meanDensity w.mass r b := by
        rcases eq_or_lt_of_le h with h | h
        · rw [h]
        · exact (hd.anti b hb x b2.1 h).le
      have := b2.2 a ha
      rw [abs_of_neg (by linarith), abs_of_pos (by linarith)] at this
      linarith
  subst hx
  have ht : t * s.len = x := b3 (Or.inl fun y hy => (hin y hy).elim (fun h => h.ge) (fun h => by linarith))
  refine ⟨t, c3, x + (b - x) * ((meanDensity w.mass r x - ρ) / (meanDensity w.mass r x - meanDensity w.mass r b)), e1, ht, ?_, ?_, ?_, ?_⟩
  · have : 0 < (b - x) * ((meanDensity w.mass r x - ρ) / (meanDensity w.mass r x - meanDensity w.mass r b)) :=
      mul_pos (by linarith) (div_pos (by linarith) (by linarith))
    linarith
  · have : (meanDensity w.mass r x - ρ) / (meanDensity w.mass r x - meanDensity w.mass r b) < 1 := by
      rw [div_lt_one (by linarith)]; linarith
    nlinarith
  · have q0 : 0 ≤ (meanDensity w.mass r x - ρ) / (meanDensity w.mass r x - meanDensity w.mass r b) := div_nonneg (by linarith) (by linarith)
    have q1 : (meanDensity w.mass r x - ρ) / (meanDensity w.mass r x - meanDensity w.mass r b) ≤ 1 := by
      rw [div_le_one (by linarith)]; linarith
    refine ⟨x, ha, b, hb, hab, fun y hy => (hin y hy).imp (fun h => h.le) id, h2.le, h1.le, by nlinarith, by nlinarith, ?_⟩
    have : meanDensity w.mass r x - meanDensity w.mass r b ≠ 0 := by linarith
    field_simp
    ring
  · rw [ht]
    rintro ⟨a', ha', b', hb', k1, k2, k3, k4, k5, k6, k7⟩
    have hax : a' = x := by
      rcases hin a' ha' with h | h
      · exact h
      · linarith
    subst hax
    have : (b' - a') * (meanDensity w.mass r a' - ρ) = 0 := by rw [← k7]; ring
    rcases mul_eq_zero.mp this with h | h <;> linarith

/-- **C82 is violated where the mean density rises outwards:** at a star whose mean density is below the wanted one and nearest to it, with a
lower one at the next star inwards, the line through the two is extended outwards and a radius beyond the star is returned, although from
that star outwards the mean density is always below the wanted one. -/
theorem C82_rising_violated {g : Galpy} {H δ : ℝ} {c : Cluster} {w : World} {u : Units} {s : Scale} (p : Pos g c) (l : Lin c)
    (hg : Good c) (f : Fresh c) (hm : ∀ x ∈ c.m, 0 ≤ x) (hw : world g c = some w) (i : OrderInv w c)
    (hu : c.units = some u) (hs : unitScale g c u = some s)
    (hn : (w.radii (workFrame c) c.st.length).Nodup) {a b z : ℝ}
    (ha : a ∈ w.radii (workFrame c) c.st.length) (hb : b ∈ w.radii (workFrame c) c.st.length) (hz : z ∈ w.radii (workFrame c) c.st.length)
    (hab : a < b) (hbz : b < z) (hnext : ∀ x ∈ w.radii (workFrame c) c.st.length, x ≤ a ∨ b ≤ x)
    (h1 : meanDensity w.mass (w.radii (workFrame c) c.st.length) a < meanDensity w.mass (w.radii (workFrame c) c.st.length) b)
    (h2 : ∀ x ∈ w.radii (workFrame c) c.st.length, b ≤ x →
      meanDensity w.mass (w.radii (workFrame c) c.st.length) x < criticalDensity H * δ)
    (h3 : ∀ x ∈ w.radii (workFrame c) c.st.length, x ≠ b →
      |meanDensity w.mass (w.radii (workFrame c) c.st.length) b - criticalDensity H * δ| <
        |meanDensity w.mass (w.radii (workFrame c) c.st.length) x - criticalDensity H * δ|) :
    ∃ t c3, virialCrit g H δ c = .ok (t, c3) ∧ b < t * s.len ∧
      ¬ IsCrossing w.mass (w.radii (workFrame c) c.st.length) (criticalDensity H * δ) (t * s.len) := by
  obtain ⟨R, D, c3, a1, -, -, a4⟩ := virial_run (H := H) (δ := δ) p l hg f hm hw i hu hs hn
  set r := w.radii (workFrame c) c.st.length
  set ρ := criticalDensity H * δ
  have hle : ∀ i j, j < D.length → i < D.length → R[i]! < R[j]! → i < j := by
    intro i j hj hi h
    by_contra hc
    rcases Nat.lt_or_ge j i with h' | h'
    · linarith [a1.inc j i h' hi]
    · have : i = j := by omega
      subst this; exact lt_irrefl _ h
  obtain ⟨ka, ka1, ka2⟩ := (a1.mem a).mp ha
  obtain ⟨kb, kb1, kb2⟩ := (a1.mem b).mp hb
  obtain ⟨kz, kz1, kz2⟩ := (a1.mem z).mp hz
  have hkab : ka < kb := hle ka kb kb1 ka1 (by rw [ka2, kb2]; exact hab)
  have hkbz : kb < kz := hle kb kz kz1 kb1 (by rw [kb2, kz2]; exact hbz)
  have hadj : kb = ka + 1 := by
    by_contra hc
    have g1 := a1.inc ka (ka + 1) (by omega) (by omega)
    have g2 := a1.inc (ka + 1) kb (by omega) kb1
    rcases hnext R[ka + 1]! ((a1.mem _).mpr ⟨ka + 1, by omega, rfl⟩) with h | h <;> linarith
  have hk := critRadius_at (ρ := ρ) a1 kb1 (fun j hj hjk => by
    rw [a1.dens kb kb1, a1.dens j hj, kb2]
    refine h3 _ ((a1.mem _).mpr ⟨j, hj, rfl⟩) fun h => ?_
    rcases Nat.lt_or_ge j kb with h' | h'
    · linarith [a1.inc j kb h' kb1]
    · linarith [a1.inc kb j (by omega) hj])
  have hDb : D[kb]! = meanDensity w.mass r b := by rw [a1.dens kb kb1, kb2]
  have hDa : D[ka]! = meanDensity w.mass r a := by rw [a1.dens ka ka1, ka2]
  have hbρ := h2 b hb le_rfl
  have hrv : critRadius R D ρ = .ok ((ρ - (meanDensity w.mass r b - (meanDensity w.mass r b - meanDensity w.mass r a) / (b - a) * b)) /
      ((meanDensity w.mass r b - meanDensity w.mass r a) / (b - a))) := by
    unfold critRadius
    simp only [bind, hk, Except.bind]
    rw [if_neg (by omega), if_neg (by rw [hDb]; exact hbρ.ne)]
    simp only [hDb, if_pos hbρ]
    have e1 : kb - 1 = ka := by omega
    rw [e1, ← hadj, hDb, hDa, ka2, kb2]
    rfl
  obtain ⟨t, e1, e2⟩ := a4 _ hrv
  have hpos : 0 < (meanDensity w.mass r b - meanDensity w.mass r a) / (b - a) := div_pos (by linarith) (by linarith)
  have hgt : b < t * s.len := by
    rw [e2, lt_div_iff₀ hpos]
    have : b * ((meanDensity w.mass r b - meanDensity w.mass r a) / (b - a)) =
      (meanDensity w.mass r b - meanDensity w.mass r a) / (b - a) * b := mul_comm _ _
    linarith
  refine ⟨t, c3, e1, hgt, ?_⟩
  rintro ⟨a', ha', b', hb', k1, k2, k3, k4, k5, k6, -⟩
  rcases le_or_gt b a' with h | h
  · linarith [h2 a' ha' h]
  · rcases k2 b hb with h' | h'
    · linarith
    · linarith

/-- Radii and masses of the six stars. -/
theorem demoSix_radii (cz : Ph) : ∃ c0 w, analyze true (demoSix cz) = .ok c0 ∧ Pos demoG c0 ∧ Lin c0 ∧ Good c0 ∧ Fresh c0 ∧
    (∀ x ∈ c0.m, 0 ≤ x) ∧ world demoG c0 = some w ∧ OrderInv w c0 ∧ c0.units = some .pckms ∧ w.mass = [1, 1, 1, 1, 1, 1] ∧
    w.radii (workFrame c0) c0.st.length = [1, 2, 4, 8, 16, 32] := by
  obtain ⟨c0, w, h0, p, l, hg, f, hm, hM, hw, i, hu, ho, hc, hn, hx, hgen, hap⟩ := demoSix_ok cz
  have k5 := (core_fields (analyze_core h0)).2.2.2.2.1
  have k4 := (core_fields (analyze_core h0)).2.2.2.1
  have hst : c0.st = (List.range 6).map (fun i => (⟨2 ^ i, 0, 0, 0, 0, 0⟩ : Ph)) := k5
  refine ⟨c0, w, h0, p, l, hg, f, fun x h => (hm x h).le, hw, i, hu, ?_, ?_⟩
  · rw [world_mass (s := ⟨1, 1, 1, 1⟩) hw hu rfl, k4]; simp [demoSix]
  · have hwf : workFrame c0 = .cluster := by simp [workFrame, ho]
    have hr : ∀ i < 6, w.radius .cluster i = 2 ^ i := by
      intro i hi
      rw [World.radius_eq hw hu ho trivial rfl one_pos i (by rw [hn]; exact hi), List.getD_eq_getElem?_getD,
        List.getElem?_eq_getElem (by rw [List.length_map, hn]; exact hi), Option.getD_some, mul_one]
      simp only [hst, List.map_map, List.getElem_map, List.getElem_range, Function.comp, Ph.r]
      rw [show ((2 : ℝ) ^ i) ^ 2 + 0 ^ 2 + 0 ^ 2 = (2 ^ i) ^ 2 by ring, Real.sqrt_sq (by positivity)]
    rw [hwf, hn]
    simp only [World.radii, List.range_succ, List.range_zero, List.nil_append, List.cons_append, List.map_cons, List.map_nil]
    rw [hr 0 (by norm_num), hr 1 (by norm_num), hr 2 (by norm_num), hr 3 (by norm_num), hr 4 (by norm_num), hr 5 (by norm_num)]
    norm_num

/-- Mean density of the six equal stars. -/
theorem six_density {n : ℕ} (hn : n < 6) : meanDensity [1, 1, 1, 1, 1, 1] [1, 2, 4, 8, 16, 32] (2 ^ n) =
    (n + 1) / 8 ^ n * (4 / 3 * Real.pi)⁻¹ := by
  have := Real.pi_pos
  unfold meanDensity massWhere
  interval_cases n <;> simp <;> norm_num <;> field_simp <;> norm_num

theorem six_mem (x : ℝ) (hx : x ∈ ([1, 2, 4, 8, 16, 32] : List ℝ)) : ∃ n < 6, x = 2 ^ n := by
  simp only [List.mem_cons, List.not_mem_nil, or_false] at hx
  rcases hx with h | h | h | h | h | h
  · exact ⟨0, by norm_num, by rw [h]; norm_num⟩
  · exact ⟨1, by norm_num, by rw [h]; norm_num⟩
  · exact ⟨2, by norm_num, by rw [h]; norm_num⟩
  · exact ⟨3, by norm_num, by rw [h]; norm_num⟩
  · exact ⟨4, by norm_num, by rw [h]; norm_num⟩
  · exact ⟨5, by norm_num, by rw [h]; norm_num⟩

theorem six_decreasing : Decreasing [1, 1, 1, 1, 1, 1] [1, 2, 4, 8, 16, 32] := by
  have hpi : 0 < (4 / 3 * Real.pi)⁻¹ := by have := Real.pi_pos; positivity
  refine ⟨by norm_num, by simp, ?_⟩
  intro x hx y hy hxy
  obtain ⟨i, hi, rfl⟩ := six_mem x hx
  obtain ⟨j, hj, rfl⟩ := six_mem y hy
  rw [six_density hi, six_density hj]
  refine mul_lt_mul_of_pos_right ?_ hpi
  interval_cases i <;> interval_cases j <;> first | (exfalso; norm_num at hxy; done) | norm_num

theorem critical_pos {H : ℝ} (h : 0 < H) : 0 < criticalDensity H := by
  have := Real.pi_pos
  unfold criticalDensity gravPc
  positivity

/-- The nearest of the six densities is at one of the six radii. -/
theorem six_nearest {q x : ℝ} (h : IsNearestDensity [1, 1, 1, 1, 1, 1] [1, 2, 4, 8, 16, 32] (q * (4 / 3 * Real.pi)⁻¹) x) :
    ∃ n : ℕ, n < 6 ∧ x = 2 ^ n ∧ ∀ k : ℕ, k < 6 → |((n : ℝ) + 1) / 8 ^ n - q| ≤ |((k : ℝ) + 1) / 8 ^ k - q| := by
  have hpi : 0 < (4 / 3 * Real.pi)⁻¹ := by have := Real.pi_pos; positivity
  obtain ⟨n, hn, hx⟩ := six_mem x h.1
  refine ⟨n, hn, hx, fun k hk => ?_⟩
  have h1 := h.2 (2 ^ k) (by interval_cases k <;> norm_num)
  rw [hx, six_density hn, six_density hk, ← sub_mul, ← sub_mul, abs_mul, abs_mul, abs_of_pos hpi] at h1
  exact le_of_mul_le_mul_right h1 hpi

/-- C81: six stars; a wanted density between those of the second and third gives a radius between 2 and 4 pc. -/
example : ∃ c0 t c3 δ, virialCrit demoG 70 δ c0 = .ok (t, c3) ∧ c3.data = c0.data ∧ 2 ≤ t ∧ t ≤ 4 := by
  obtain ⟨c0, w, h0, p, l, hg, f, hm, hw, i, hu, e1, e2⟩ := demoSix_radii ⟨3, 0, 0, 0, 0, 0⟩
  have hc := critical_pos (H := 70) (by norm_num)
  have hpi : 0 < (4 / 3 * Real.pi)⁻¹ := by have := Real.pi_pos; positivity
  obtain ⟨t, c3, x, a1, a2, -, a3, a4, a5⟩ := C81_virial (H := 70) (δ := 0.1 * (4 / 3 * Real.pi)⁻¹ / criticalDensity 70)
    (s := ⟨1, 1, 1, 1⟩) p l hg f hm hw i hu rfl (by rw [e1, e2]; exact six_decreasing)
  have hρ : criticalDensity 70 * (0.1 * (4 / 3 * Real.pi)⁻¹ / criticalDensity 70) = 0.1 * (4 / 3 * Real.pi)⁻¹ := by field_simp
  rw [hρ, e1, e2] at a3 a5
  obtain ⟨n, hn, hx, hmin⟩ := six_nearest a3
  have hn2 : n = 2 := by
    have h2 := hmin 2 (by norm_num)
    interval_cases n <;> first | rfl | (exfalso; norm_num [abs_of_pos, abs_of_neg] at h2)
  subst hn2
  have hcr := a5 (by
    rintro (h | h)
    · have := h 1 (by simp)
      rw [hx] at this; norm_num at this
    · have := h 8 (by simp)
      rw [hx] at this; norm_num at this)
  rw [mul_one] at hcr
  obtain ⟨a, ha, b, hb, k1, k2, k3, k4, k5, k6, -⟩ := hcr
  obtain ⟨i, hi, rfl⟩ := six_mem a ha
  obtain ⟨j, hj, rfl⟩ := six_mem b hb
  rw [six_density hj] at k3
  rw [six_density hi] at k4
  have k3 := le_of_mul_le_mul_right k3 hpi
  have k4 := le_of_mul_le_mul_right k4 hpi
  refine ⟨c0, t, c3, _, a1, a2, ?_⟩
  have hi2 : i ≤ 1 := by
    by_contra hc
    interval_cases i <;> norm_num at hc k4
  have hj2 : 2 ≤ j := by
    by_contra hc
    interval_cases j <;> norm_num at hc k3
  have g2 := k2 2 (by simp)
  have g4 := k2 4 (by simp)
  have hp1 : (2 : ℝ) ^ i ≤ 2 := by
    calc (2 : ℝ) ^ i ≤ 2 ^ 1 := pow_le_pow_right₀ (by norm_num) hi2
      _ = 2 := by norm_num
  have hp2 : (4 : ℝ) ≤ 2 ^ j := by
    calc (4 : ℝ) = 2 ^ 2 := by norm_num
      _ ≤ 2 ^ j := pow_le_pow_right₀ (by norm_num) hj2
  have f1 : (2 : ℝ) ≤ 2 ^ i := g2.resolve_right (by linarith)
  have f2 : (2 : ℝ) ^ j ≤ 4 := g4.resolve_left (by linarith)
  exact ⟨by linarith, by linarith⟩

/-- C81: a wanted density between those of the two innermost of the six stars, nearer to the inner one: 1 pc is returned. -/
example : ∃ c0 t c3 δ, virialCrit demoG 70 δ c0 = .ok (t, c3) ∧ t = 1 ∧ ¬ IsCrossing [1, 1, 1, 1, 1, 1] [1, 2, 4, 8, 16, 32]
    (criticalDensity 70 * δ) t := by
  obtain ⟨c0, w, h0, p, l, hg, f, hm, hw, i, hu, e1, e2⟩ := demoSix_radii ⟨3, 0, 0, 0, 0, 0⟩
  have hc := critical_pos (H := 70) (by norm_num)
  have hpi : 0 < (4 / 3 * Real.pi)⁻¹ := by have := Real.pi_pos; positivity
  have hρ : criticalDensity 70 * (0.9 * (4 / 3 * Real.pi)⁻¹ / criticalDensity 70) = 0.9 * (4 / 3 * Real.pi)⁻¹ := by field_simp
  have d0 := six_density (n := 0) (by norm_num)
  have d1 := six_density (n := 1) (by norm_num)
  simp only [pow_zero, pow_one] at d0 d1
  obtain ⟨t, c3, rv, a1, a2, -, -, -, a3⟩ := C82_edge_violated (H := 70) (δ := 0.9 * (4 / 3 * Real.pi)⁻¹ / criticalDensity 70)
    (s := ⟨1, 1, 1, 1⟩) (a := 1) (b := 2) p l hg f hm hw i hu rfl (by rw [e1, e2]; exact six_decreasing) (by rw [e2]; simp)
    (by rw [e2]; simp) (by norm_num) (by
      rw [e2]
      intro x hx
      simp only [List.mem_cons, List.not_mem_nil, or_false] at hx
      rcases hx with h | h | h | h | h | h
      · left; exact h
      all_goals (right; rw [h]; try norm_num))
    (by rw [e1, e2, d0, hρ]; exact mul_lt_mul_of_pos_right (by norm_num) hpi)
    (by rw [e1, e2, d1, hρ]; exact mul_lt_mul_of_pos_right (by norm_num) hpi)
    (by rw [e1, e2, d0, d1, hρ, ← sub_mul, ← sub_mul]; exact mul_lt_mul_of_pos_right (by norm_num) hpi)
  rw [e1, e2] at a3
  rw [mul_one] at a2 a3
  exact ⟨c0, t, c3, _, a1, a2, a3⟩

/-- Four stars at 1, 2, 3 and 4 pc, of 100, 4, 436 and 4 Msun: the mean density rises from the second to the third. -/
def demoFour : Cluster :=
  { demo with
    m := [100, 4, 436, 4]
    st := (List.range 4).map (fun (i : ℕ) => ⟨(i : ℝ) + 1, 0, 0, 0, 0, 0⟩)
    c := ⟨0, 0, 0, 0, 0, 0⟩
    rorder := none
    rproorder := none }

theorem demoFour_radii : ∃ c0 w, analyze true demoFour = .ok c0 ∧ Pos demoG c0 ∧ Lin c0 ∧ Good c0 ∧ Fresh c0 ∧
    (∀ x ∈ c0.m, 0 ≤ x) ∧ world demoG c0 = some w ∧ OrderInv w c0 ∧ c0.units = some .pckms ∧ w.mass = [100, 4, 436, 4] ∧
    w.radii (workFrame c0) c0.st.length = [1, 2, 3, 4] := by
  have gd : Good demoFour := ⟨by simp [demoFour, List.range_succ], by simp [demoFour], by simp [demoFour]; norm_num,
    by intro o ho; simp [demoFour] at ho, by intro o ho; simp [demoFour] at ho⟩
  have pd : Pos demoG demoFour := ⟨demo_pos.rbar, demo_pos.vbar, demo_pos.zmbar, demo_pos.tbar, demo_pos.ro, demo_pos.vo,
    demo_pos.time, demo_pos.mass, demo_pos.vel⟩
  obtain ⟨c0, h0, g0⟩ := analyze_total (s := true) (p := true) gd
  obtain ⟨k1, k2, k3, k4, k5, k6, k7, k8, k9, k10, k11, k12⟩ := core_fields (analyze_core h0)
  have l0 : Lin c0 := ⟨⟨.pckms, k1, trivial⟩, ⟨.cluster, k2, trivial⟩⟩
  have p0 := pd.of_rest k12
  obtain ⟨w, hw⟩ := world_isSome (g := demoG) (c := demoFour) (u := .pckms) (o := .cluster) rfl trivial rfl
  have hw0 : world demoG c0 = some w := (world_core (analyze_core h0)).trans hw
  have hst : c0.st = (List.range 4).map (fun (i : ℕ) => (⟨(i : ℝ) + 1, 0, 0, 0, 0, 0⟩ : Ph)) := k5
  have hn : c0.st.length = 4 := by rw [hst]; simp
  have hm0 : c0.m = [100, 4, 436, 4] := k4
  have i0 : OrderInv w demoFour := by intro o ho; simp [demoFour] at ho
  refine ⟨c0, w, h0, p0, l0, g0, analyze_fresh h0, by rw [hm0]; simp, hw0, i0.analyze p0 l0 hw0 h0, k1, ?_, ?_⟩
  · rw [world_mass (s := ⟨1, 1, 1, 1⟩) hw0 k1 rfl, hm0]; simp
  · have hwf : workFrame c0 = .cluster := by simp [workFrame, k2, demoFour, demo]
    have hr : ∀ i : ℕ, i < 4 → w.radius .cluster i = (i : ℝ) + 1 := by
      intro i hi
      rw [World.radius_eq hw0 k1 k2 trivial rfl one_pos i (by rw [hn]; exact hi), List.getD_eq_getElem?_getD,
        List.getElem?_eq_getElem (by rw [List.length_map, hn]; exact hi), Option.getD_some, mul_one]
      simp only [hst, List.map_map, List.getElem_map, List.getElem_range, Function.comp, Ph.r]
      rw [show ((i : ℝ) + 1) ^ 2 + 0 ^ 2 + 0 ^ 2 = (i + 1) ^ 2 by ring, Real.sqrt_sq (by positivity)]
    rw [hwf, hn]
    simp only [World.radii, List.range_succ, List.range_zero, List.nil_append, List.cons_append, List.map_cons, List.map_nil]
    rw [hr 0 (by norm_num), hr 1 (by norm_num), hr 2 (by norm_num), hr 3 (by norm_num)]
    norm_num

theorem four_density : ∀ x ∈ ([1, 2, 3, 4] : List ℝ), meanDensity [100, 4, 436, 4] [1, 2, 3, 4] x =
    (if x = 1 then 100 else if x = 2 then 13 else if x = 3 then 20 else 8.5) * (4 / 3 * Real.pi)⁻¹ := by
  have := Real.pi_pos
  intro x hx
  simp only [List.mem_cons, List.not_mem_nil, or_false] at hx
  unfold meanDensity massWhere
  rcases hx with rfl | rfl | rfl | rfl <;> norm_num <;> field_simp <;> norm_num

/-- C81: the four stars satisfy the hypotheses of the second violation: a radius beyond 3 pc is returned for a density that is only
reached within 2 pc. -/
example : ∃ c0 t c3 δ, virialCrit demoG 70 δ c0 = .ok (t, c3) ∧ 3 < t ∧ ¬ IsCrossing [100, 4, 436, 4] [1, 2, 3, 4]
    (criticalDensity 70 * δ) t := by
  obtain ⟨c0, w, h0, p, l, hg, f, hm, hw, i, hu, e1, e2⟩ := demoFour_radii
  have hc := critical_pos (H := 70) (by norm_num)
  have hpi : 0 < (4 / 3 * Real.pi)⁻¹ := by have := Real.pi_pos; positivity
  have hρ : criticalDensity 70 * (22 * (4 / 3 * Real.pi)⁻¹ / criticalDensity 70) = 22 * (4 / 3 * Real.pi)⁻¹ := by field_simp
  obtain ⟨t, c3, a1, a2, a3⟩ := C82_rising_violated (H := 70) (δ := 22 * (4 / 3 * Real.pi)⁻¹ / criticalDensity 70)
    (s := ⟨1, 1, 1, 1⟩) (a := 2) (b := 3) (z := 4) p l hg f hm hw i hu rfl (by rw [e2]; norm_num) (by rw [e2]; simp)
    (by rw [e2]; simp) (by rw [e2]; simp) (by norm_num) (by norm_num) (by
      rw [e2]
      intro x hx
      simp only [List.mem_cons, List.not_mem_nil, or_false] at hx
      rcases hx with rfl | rfl | rfl | rfl <;> norm_num)
    (by
      rw [e1, e2, four_density 2 (by simp), four_density 3 (by simp)]
      exact mul_lt_mul_of_pos_right (by norm_num) hpi)
    (by
      rw [e1, e2, hρ]
      intro x hx h3
      rw [four_density x hx]
      refine mul_lt_mul_of_pos_right ?_ hpi
      simp only [List.mem_cons, List.not_mem_nil, or_false] at hx
      rcases hx with rfl | rfl | rfl | rfl <;> first | (exfalso; norm_num at h3; done) | norm_num)
    (by
      rw [e1, e2, hρ]
      intro x hx h3
      rw [four_density x hx, four_density 3 (by simp), ← sub_mul, ← sub_mul, abs_mul, abs_mul]
      refine mul_lt_mul_of_pos_right ?_ (abs_pos.mpr hpi.ne')
      simp only [List.mem_cons, List.not_mem_nil, or_false] at hx
      rcases hx with rfl | rfl | rfl | rfl <;> first | (exfalso; norm_num at h3; done) | norm_num [abs_of_pos, abs_of_neg])
  rw [e1, e2] at a3
  rw [mul_one] at a2 a3
  exact ⟨c0, t, c3, _, a1, a2, a3⟩

end

end CT
