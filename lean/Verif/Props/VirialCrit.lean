/- C81: the radius of a given overdensity. -/
import Verif.Spec.VirialCrit
import Verif.Props.Relax
import Verif.Lemmas.Vcirc

namespace CT

noncomputable section

set_option linter.unusedSimpArgs false

theorem rhocrit_eq {g : Galpy} {c : Cluster} (p : Pos g c) (H : ℝ) : densMsolPc3 g / densCritical g H = criticalDensity H := by
  have h1 := p.ro
  have h2 := p.vo
  unfold densMsolPc3 densCritical criticalDensity gravPc
  rcases eq_or_ne H 0 with h | h
  · subst h; simp
  · have := Real.pi_pos
    field_simp
    norm_num

/-- The star at place `k` of a sorted order encloses the cumulated mass. -/
theorem cumsum_massWhere {m r : List ℝ} {o : List ℕ} (hs : SortedBy r o) (hl : r.length = m.length) (hn : r.Nodup) {k : ℕ}
    (hk : k < o.length) : (cumsum (o.map (fun i => m.getD i 0)))[k]'(by rw [cumsum_length]; simpa using hk) =
      (open Classical in massWhere (· ≤ r.getD o[k] 0) m r) := by
  classical
  have ho : IsOrder m.length o := hl ▸ hs.1
  rw [cumsum_getElem, massWhere_order hl ho, ← List.map_take]
  have hpw := List.pairwise_iff_getElem.mp hs.2
  have split_sum : ∀ F : ℕ → ℝ, (o.map F).sum = ((o.take (k + 1)).map F).sum + ((o.drop (k + 1)).map F).sum := by
    intro F
    rw [← List.sum_append, ← List.map_append, List.take_append_drop]
  rw [split_sum]
  have hon : o.Nodup := hs.1.nodup_iff.mpr List.nodup_range
  have hlt : ∀ i (hi : i < o.length), o[i] < r.length := fun i hi => hs.1.lt (List.getElem_mem hi)
  have e1 : (o.take (k + 1)).map (fun i => if r.getD i 0 ≤ r.getD o[k] 0 then m.getD i 0 else 0) =
      (o.take (k + 1)).map (fun i => m.getD i 0) := by
    apply List.map_congr_left
    intro i hi
    obtain ⟨j, hj, rfl⟩ := List.mem_iff_getElem.mp hi
    simp only [List.length_take] at hj
    rw [List.getElem_take, if_pos]
    rcases Nat.lt_or_ge j k with h | h
    · exact hpw j k (by omega) hk h
    · have : j = k := by omega
      subst this; exact le_refl _
  have e2 : (o.drop (k + 1)).map (fun i => if r.getD i 0 ≤ r.getD o[k] 0 then m.getD i 0 else 0) =
      (o.drop (k + 1)).map (fun _ => (0 : ℝ)) := by
    apply List.map_congr_left
    intro i hi
    obtain ⟨j, hj, rfl⟩ := List.mem_iff_getElem.mp hi
    simp only [List.length_drop] at hj
    rw [List.getElem_drop, if_neg]
    rw [not_le]
    have h1 := hpw k (k + 1 + j) hk (by omega) (by omega)
    refine lt_of_le_of_ne h1 fun h => ?_
    rw [List.getD_eq_getElem?_getD, List.getElem?_eq_getElem (hlt k hk), List.getD_eq_getElem?_getD,
      List.getElem?_eq_getElem (hlt _ (by omega)), Option.getD_some, Option.getD_some] at h
    have h2 := (hn.getElem_inj_iff).mp h
    have h3 := (hon.getElem_inj_iff).mp h2
    omega
  rw [e1, e2]
  simp

/-- What the code reads off a sorted order of different radii. -/
structure ProfileOk (m r R D : List ℝ) : Prop where
  ne : D ≠ []
  len : R.length = D.length
  mem : ∀ x, x ∈ r ↔ ∃ k < D.length, R[k]! = x
  inc : ∀ i j, i < j → j < D.length → R[i]! < R[j]!
  dens : ∀ k < D.length, D[k]! = meanDensity m r R[k]!

theorem profile_ok {m r : List ℝ} {o : List ℕ} (hs : SortedBy r o) (hl : r.length = m.length) (hn : r.Nodup) (hne : r ≠ []) :
    ProfileOk m r (o.map (fun i => r.getD i 0)) (densProfile m r o) := by
  classical
  have hlen : (densProfile m r o).length = o.length := by
    unfold densProfile
    rw [List.length_zipWith, cumsum_length, List.length_map, List.length_map, Nat.min_self]
  have hol : o.length = r.length := by simpa using hs.1.length_eq
  have hon : o.Nodup := hs.1.nodup_iff.mpr List.nodup_range
  have hlt : ∀ i (hi : i < o.length), o[i] < r.length := fun i hi => hs.1.lt (List.getElem_mem hi)
  have hR : ∀ k (hk : k < o.length), (o.map (fun i => r.getD i 0))[k]! = r[o[k]]'(hlt k hk) := by
    intro k hk
    rw [getElem!_pos _ k (by simpa using hk), List.getElem_map, List.getD_eq_getElem?_getD, List.getElem?_eq_getElem (hlt k hk)]
    rfl
  have hpw := List.pairwise_iff_getElem.mp hs.2
  refine ⟨?_, by rw [hlen]; simp, fun x => ?_, fun i j hij hj => ?_, fun k hk => ?_⟩
  · intro h
    have : (densProfile m r o).length = 0 := by rw [h]; rfl
    rw [hlen, hol] at this
    exact hne (List.length_eq_zero_iff.mp this)
  · rw [hlen]
    constructor
    · intro hx
      obtain ⟨i, hi, rfl⟩ := List.mem_iff_getElem.mp hx
      have hio : i ∈ o := hs.1.mem_iff.mpr (by simpa using hi)
      obtain ⟨j, hj, rfl⟩ := List.mem_iff_getElem.mp hio
      exact ⟨j, hj, hR j hj⟩
    · rintro ⟨k, hk, rfl⟩
      rw [hR k hk]; exact List.getElem_mem _
  · rw [hlen] at hj
    rw [hR i (by omega), hR j hj]
    have h1 := hpw i j (by omega) hj hij
    rw [List.getD_eq_getElem?_getD, List.getElem?_eq_getElem (hlt i (by omega)), List.getD_eq_getElem?_getD,
      List.getElem?_eq_getElem (hlt j hj), Option.getD_some, Option.getD_some] at h1
    refine lt_of_le_of_ne h1 fun h => ?_
    have h3 := (hon.getElem_inj_iff).mp ((hn.getElem_inj_iff).mp h)
    omega
  · have hk' : k < o.length := by omega
    rw [getElem!_pos _ k hk]
    have e : (densProfile m r o)[k] = (cumsum (o.map (fun i => m.getD i 0)))[k]'(by rw [cumsum_length]; simpa using hk') /
        (4.0 / 3.0 * Real.pi * (r.getD o[k] 0) ^ 3) := by
      unfold densProfile; simp
    rw [e, cumsum_massWhere hs hl hn hk']
    unfold meanDensity
    rw [hR k hk', List.getD_eq_getElem?_getD, List.getElem?_eq_getElem (hlt k hk'), Option.getD_some]
    norm_num

/-- The interpolation of `critRadius` for a decreasing profile. -/
theorem critRadius_decreasing {m r R D : List ℝ} {ρ : ℝ} (hp : ProfileOk m r R D) (hd : Decreasing m r) :
    ∃ rv x, critRadius R D ρ = .ok rv ∧ IsNearestDensity m r ρ x ∧ (IsExtreme r x → rv = x) ∧ (¬ IsExtreme r x → IsCrossing m r ρ rv) := by
  classical
  have hne : D.map (fun d => |d - ρ|) ≠ [] := by simpa using hp.ne
  obtain ⟨k, k1, k2, k3⟩ := argminE_spec hne
  rw [List.length_map] at k2
  have hDk : (D.map (fun d => |d - ρ|))[k]! = |D[k]! - ρ| := by
    rw [getElem!_pos _ k (by simpa using k2), List.getElem_map, getElem!_pos D k k2]
  have hmin : ∀ j < D.length, |D[k]! - ρ| ≤ |D[j]! - ρ| := by
    intro j hj
    rw [← hDk]
    refine k3 _ (List.mem_map.mpr ⟨D[j], List.getElem_mem hj, ?_⟩)
    rw [getElem!_pos D j hj]
  have hmem : ∀ j < D.length, R[j]! ∈ r := fun j hj => (hp.mem _).mpr ⟨j, hj, rfl⟩
  have hanti : ∀ i j, i < j → j < D.length → D[j]! < D[i]! := by
    intro i j hij hj
    rw [hp.dens i (by omega), hp.dens j hj]
    exact hd.anti _ (hmem i (by omega)) _ (hmem j hj) (hp.inc i j hij hj)
  have hle : ∀ i j, i ≤ j → j < D.length → R[i]! ≤ R[j]! := by
    intro i j hij hj
    rcases Nat.eq_or_lt_of_le hij with rfl | h
    · exact le_rfl
    · exact (hp.inc i j h hj).le
  have hnear : IsNearestDensity m r ρ R[k]! := by
    refine ⟨hmem k k2, fun y hy => ?_⟩
    obtain ⟨j, hj, rfl⟩ := (hp.mem y).mp hy
    rw [← hp.dens k k2, ← hp.dens j hj]
    exact hmin j hj
  have hext : IsExtreme r R[k]! ↔ k = D.length - 1 ∨ k = 0 := by
    constructor
    · rintro (h | h)
      · by_contra hc
        push Not at hc
        have := h _ (hmem 0 (by omega))
        have := hp.inc 0 k (by omega) k2
        linarith
      · by_contra hc
        push Not at hc
        have := h _ (hmem (k + 1) (by omega))
        have := hp.inc k (k + 1) (by omega) (by omega)
        linarith
    · rintro (h | h)
      · right
        intro y hy
        obtain ⟨j, hj, rfl⟩ := (hp.mem y).mp hy
        exact hle j k (by omega) k2
      · left
        intro y hy
        obtain ⟨j, hj, rfl⟩ := (hp.mem y).mp hy
        exact hle k j (by omega) hj
  -- the crossing between places `j` and `j + 1`
  have hcross : ∀ j, j + 1 < D.length → D[j + 1]! ≤ ρ → ρ ≤ D[j]! →
      IsCrossing m r ρ ((ρ - (D[j + 1]! - (D[j + 1]! - D[j]!) / (R[j + 1]! - R[j]!) * R[j + 1]!)) / ((D[j + 1]! - D[j]!) / (R[j + 1]! - R[j]!))) := by
    intro j hj h1 h2
    have hR := hp.inc j (j + 1) (by omega) hj
    have hDD := hanti j (j + 1) (by omega) hj
    have e : (ρ - (D[j + 1]! - (D[j + 1]! - D[j]!) / (R[j + 1]! - R[j]!) * R[j + 1]!)) / ((D[j + 1]! - D[j]!) / (R[j + 1]! - R[j]!)) =
        R[j]! + (R[j + 1]! - R[j]!) * ((D[j]! - ρ) / (D[j]! - D[j + 1]!)) := by
      have h3 : R[j + 1]! - R[j]! ≠ 0 := by linarith
      have h4 : D[j]! - D[j + 1]! ≠ 0 := by linarith
      have h5 : D[j + 1]! - D[j]! ≠ 0 := by linarith
      rw [div_eq_iff (div_ne_zero h5 h3)]
      field_simp
      ring
    rw [e]
    have q0 : 0 ≤ (D[j]! - ρ) / (D[j]! - D[j + 1]!) := div_nonneg (by linarith) (by linarith)
    have q1 : (D[j]! - ρ) / (D[j]! - D[j + 1]!) ≤ 1 := by rw [div_le_one (by linarith)]; linarith
    refine ⟨R[j]!, hmem j (by omega), R[j + 1]!, hmem (j + 1) hj, hR, fun x hx => ?_, by rw [← hp.dens _ hj]; exact h1,
      by rw [← hp.dens j (by omega)]; exact h2, by nlinarith, by nlinarith, ?_⟩
    · obtain ⟨i, hi, rfl⟩ := (hp.mem x).mp hx
      rcases Nat.lt_or_ge j i with h | h
      · right; exact hle (j + 1) i h hi
      · left; exact hle i j h (by omega)
    · rw [← hp.dens j (by omega), ← hp.dens (j + 1) hj]
      have h4 : D[j]! - D[j + 1]! ≠ 0 := by linarith
      field_simp
      ring
  unfold critRadius
  simp only [bind, k1, Except.bind]
  by_cases hx : k = D.length - 1 ∨ k = 0
  · rw [if_pos hx]
    exact ⟨_, R[k]!, rfl, hnear, fun _ => rfl, fun h => absurd (hext.mpr hx) h⟩
  · rw [if_neg hx]
    push Not at hx
    by_cases he : D[k]! = ρ
    · rw [if_pos he]
      refine ⟨_, R[k]!, rfl, hnear, fun _ => rfl, fun _ => ?_⟩
      have := hcross k (by omega) (by rw [← he]; exact (hanti k (k + 1) (by omega) (by omega)).le) he.ge
      have e : R[k]! = (ρ - (D[k + 1]! - (D[k + 1]! - D[k]!) / (R[k + 1]! - R[k]!) * R[k + 1]!)) / ((D[k + 1]! - D[k]!) / (R[k + 1]! - R[k]!)) := by
        have hR := hp.inc k (k + 1) (by omega) (by omega)
        have hDD := hanti k (k + 1) (by omega) (by omega)
        have h3 : R[k + 1]! - R[k]! ≠ 0 := by linarith
        have h5 : D[k + 1]! - D[k]! ≠ 0 := by linarith
        rw [eq_div_iff (div_ne_zero h5 h3), ← he]
        field_simp
        ring
      rw [← e] at this
      exact this
    · rw [if_neg he]
      refine ⟨_, R[k]!, rfl, hnear, fun h => absurd (hext.mp h) (by push Not; exact hx), fun _ => ?_⟩
      by_cases hlt : D[k]! < ρ
      · simp only [if_pos hlt]
        have hk1 : k - 1 + 1 = k := by omega
        refine hcross (k - 1) (by omega) (by rw [hk1]; exact hlt.le) ?_
        -- the density one place inwards is not below ρ, else it would be nearer
        by_contra hc
        push Not at hc
        have h1 := hanti (k - 1) k (by omega) k2
        have h2 := hmin (k - 1) (by omega)
        rw [abs_of_neg (by linarith), abs_of_neg (by linarith)] at h2
        linarith
      · simp only [if_neg hlt]
        have hgt : ρ < D[k]! := lt_of_le_of_ne (not_lt.mp hlt) (Ne.symm he)
        refine hcross k (by omega) ?_ hgt.le
        by_contra hc
        push Not at hc
        have h1 := hanti k (k + 1) (by omega) (by omega)
        have h2 := hmin (k + 1) (by omega)
        rw [abs_of_pos (by linarith), abs_of_pos (by linarith)] at h2
        linarith

/-- What `virial_radius_critical_density` returns, in terms of the profile. -/
theorem virial_run {g : Galpy} {H δ : ℝ} {c : Cluster} {w : World} {u : Units} {s : Scale} (p : Pos g c) (l : Lin c)
    (hg : Good c) (f : Fresh c) (hm : ∀ x ∈ c.m, 0 ≤ x) (hw : world g c = some w) (i : OrderInv w c)
    (hu : c.units = some u) (hs : unitScale g c u = some s) (hn : (w.radii (workFrame c) c.st.length).Nodup) :
    ∃ R D c3, ProfileOk w.mass (w.radii (workFrame c) c.st.length) R D ∧ c3.data = c.data ∧ Fresh c3 ∧
      ∀ rv, critRadius R D (criticalDensity H * δ) = .ok rv → ∃ t, virialCrit g H δ c = .ok (t, c3) ∧ t * s.len = rv := by
  obtain ⟨c2, h2, ip⟩ := in_pc p l hg f hm hw i
  obtain ⟨o, ho, hsync⟩ := ip.ro
  have hsort := ip.order.sorted (p.of_rest ip.rest) ip.lin ip.world ho hsync
  rw [← fresh_r ip.fresh, ip.r] at hsort
  have hl : (w.radii (workFrame c) c.st.length).length = w.mass.length := by
    rw [← ip.mass, ip.good.len, ip.len]; simp [World.radii]
  have hne : w.radii (workFrame c) c.st.length ≠ [] := by
    intro h
    have : (w.radii (workFrame c) c.st.length).length = 0 := by rw [h]; rfl
    simp only [World.radii, List.length_map, List.length_range] at this
    exact hg.ne (List.length_eq_zero_iff.mp this)
  obtain ⟨c3, h3, d3, f3, -, -, r3⟩ := return_of_world (sort := false) (cm := none) p l hg ip.good ip.lin ip.rest (ip.world.trans hw.symm)
  have hu3 : c3.units = some u := (congrArg Data.units d3).trans hu
  refine ⟨_, _, c3, profile_ok hsort hl hn hne, d3, f3, fun rv hrv => ?_⟩
  refine ⟨convertLength g c3 .pckms u rv, ?_, ?_⟩
  · unfold virialCrit
    simp only [bind, h2, Except.bind, ho, Option.elim_some]
    rw [rhocrit_eq p, ip.mass, ip.r, hrv]
    simp only [h3, hu3, Option.elim_some, pure, Except.pure]
  · rw [C38_length (su := ⟨1, 1, 1, 1⟩) (p.of_rest r3).nz rfl (by rw [unitScale_of_rest r3, hs]), mul_one]

end

end CT
