/- Property theorems C10 (gravitational constant), C45 (virial radius), C46 (reset_nbody_scale). -/
import Verif.Lemmas.Pairs
import Verif.Props.Units
import Mathlib.Tactic.Linarith

namespace CT

noncomputable section

/-! ### C10 -/

/-- C10: in pckms, amuse, pcmyr, kpckms and kpcgyr the relation `v² = G m / r` with the library's `G` says
exactly what it says in pc, km/s, Msun with `G = 4.302e-3 pc (km/s)²/Msun`. -/
theorem C10_grav_matches_units (g : Galpy) (c : Cluster) (u : Units) (s : Scale)
    (hu : u = .pckms ∨ u = .amuse ∨ u = .pcmyr ∨ u = .kpckms ∨ u = .kpcgyr)
    (hs : unitScale g c u = some s) (v m r : ℝ) (hr : r ≠ 0) :
    v ^ 2 = getGrav (some u) * m / r ↔
      (v * s.vel) ^ 2 = 4.302e-3 * (m * s.mass) / (r * s.len) := by
  have hk := kms_ne
  have e : (1.022712165045695 : ℝ) = kmsToPcMyr := rfl
  have e2 : (4.302e-6 : ℝ) = 4.302e-3 / 1000 := by norm_num
  have key : ∀ k : ℝ, k ≠ 0 → ∀ a b : ℝ, (a = b ↔ k * a = k * b) := fun k hk a b =>
    ⟨fun h => by rw [h], fun h => mul_left_cancel₀ hk h⟩
  rcases hu with rfl | rfl | rfl | rfl | rfl
  all_goals
    simp only [unitScale, Option.some.injEq] at hs
    subst hs
    simp only [getGrav, e, e2]
  · simp
  · simp
  · rw [key ((1 / kmsToPcMyr) ^ 2) (by positivity)]
    refine Eq.congr ?_ ?_
    · ring
    · field_simp
  · refine Eq.congr ?_ ?_
    · ring
    · field_simp
  · rw [key ((1 / kmsToPcMyr) ^ 2) (by positivity)]
    refine Eq.congr ?_ ?_
    · ring
    · field_simp

/-- C10 (consequence): a circular velocity computed with the library's `G` in any of these unit systems is the
same physical speed. -/
theorem C10_circular_velocity (g : Galpy) (c : Cluster) (u : Units) (s : Scale)
    (hu : u = .pckms ∨ u = .amuse ∨ u = .pcmyr ∨ u = .kpckms ∨ u = .kpcgyr)
    (hs : unitScale g c u = some s) (m r : ℝ) (hm : 0 ≤ m) (hr : 0 < r) :
    Real.sqrt (getGrav (some u) * m / r) * s.vel
      = Real.sqrt (4.302e-3 * (m * s.mass) / (r * s.len)) := by
  have hG : 0 ≤ getGrav (some u) := by
    rcases hu with rfl | rfl | rfl | rfl | rfl <;> norm_num [getGrav]
  have hv : 0 ≤ s.vel := by
    rcases hu with rfl | rfl | rfl | rfl | rfl <;>
      (simp only [unitScale, Option.some.injEq] at hs; subst hs; norm_num [kmsToPcMyr])
  have h := (C10_grav_matches_units g c u s hu hs (Real.sqrt (getGrav (some u) * m / r)) m r hr.ne').mp
    (Real.sq_sqrt (by positivity))
  rw [← h, Real.sqrt_sq (by positivity)]

/-- C10 (nbody, galpy, WDunits): there `G = 1`, so the relation agrees with the physical one exactly when the
scale factors satisfy `vel² · len / mass = 4.302e-3`. -/
theorem C10_grav_one_iff (g : Galpy) (c : Cluster) (u : Units) (s : Scale)
    (hu : u = .nbody ∨ u = .galpy ∨ u = .WDunits) (hs : unitScale g c u = some s)
    (hl : s.len ≠ 0) (hmz : s.mass ≠ 0) :
    (∀ v m r : ℝ, r ≠ 0 → v ^ 2 = getGrav (some u) * m / r →
      (v * s.vel) ^ 2 = 4.302e-3 * (m * s.mass) / (r * s.len)) ↔
    s.vel ^ 2 * s.len = 4.302e-3 * s.mass := by
  have hG : getGrav (some u) = 1 := by rcases hu with rfl | rfl | rfl <;> norm_num [getGrav]
  rw [hG]
  constructor
  · intro h
    have := h 1 1 1 one_ne_zero (by norm_num)
    rw [eq_div_iff (by simpa using hl)] at this
    linarith
  · intro h v m r hr hv
    rw [mul_pow, hv, eq_div_iff (mul_ne_zero hr hl)]
    field_simp
    linear_combination m * h

/-- C10 (after `reset_nbody_scale`): the scales it installs do not satisfy the identity exactly — the
constant `0.06557` gives `G = 0.0042994…` — but agree with it to better than 1 part in 1000; the time unit is
`rbar/vbar` to the same accuracy (`1.023` against `1.022712…`). -/
theorem C10_reset_scale_inexact (zmbar rbar vbar tbar : ℝ) (hz : 0 < zmbar) (hr : 0 < rbar)
    (hv : vbar = 0.06557 * Real.sqrt (zmbar / rbar)) (ht : tbar = rbar / (1.023 * vbar)) :
    vbar ^ 2 * rbar ≠ 4.302e-3 * zmbar ∧
    |vbar ^ 2 * rbar - 4.302e-3 * zmbar| < 1e-3 * (4.302e-3 * zmbar) ∧
    |tbar - rbar / (kmsToPcMyr * vbar)| < 1e-3 * tbar := by
  have hs : vbar ^ 2 * rbar = 0.0042994249 * zmbar := by
    rw [hv, mul_pow, Real.sq_sqrt (by positivity)]
    field_simp
    norm_num
  have hvp : 0 < vbar := by rw [hv]; positivity
  refine ⟨?_, ?_, ?_⟩
  · rw [hs]; intro h; nlinarith
  · rw [hs, abs_lt]; constructor <;> nlinarith
  · have e : rbar / (kmsToPcMyr * vbar) = tbar * (1.023 / kmsToPcMyr) := by
      rw [ht]; field_simp
    have htp : 0 < tbar := by rw [ht]; positivity
    rw [e, abs_lt]
    have k1 : (1:ℝ) < 1.023 / kmsToPcMyr := by unfold kmsToPcMyr; norm_num
    have k2 : 1.023 / kmsToPcMyr < (1.001:ℝ) := by unfold kmsToPcMyr; norm_num
    constructor <;> nlinarith

example : unitScale demoG demo .kpcgyr = some ⟨1000, 1 / kmsToPcMyr, 1, 1000⟩ := rfl

/-! ### C45: virial radius -/

/-- Sum over unordered pairs of stars. -/
def pairSum (n : ℕ) (f : ℕ → ℕ → ℝ) : ℝ := ∑ i ∈ Finset.range n, ∑ j ∈ Finset.Ico (i + 1) n, f i j

/-- Distance of two phase-space rows (3D, or on the sky plane when projected). -/
def rowDist (projected : Bool) (p q : Ph) : ℝ :=
  Real.sqrt ((p.x - q.x) ^ 2 + (p.y - q.y) ^ 2 + (if projected then 0 else (p.z - q.z) ^ 2))


theorem rows4_get (projected : Bool) (m : List ℝ) (st : List Ph) (h : m.length = st.length) (i : ℕ)
    (hi : i < st.length) : (rows4 projected m st)[i]! =
      ⟨st[i]!.x, st[i]!.y, if projected then 0 else st[i]!.z, m[i]!⟩ := by
  have : i < (rows4 projected m st).length := by simp [rows4, h, hi]
  rw [getElem!_pos (rows4 projected m st) i this, getElem!_pos st i hi, getElem!_pos m i (by omega)]
  simp [rows4]

theorem rows4_length (projected : Bool) (m : List ℝ) (st : List Ph) (h : m.length = st.length) :
    (rows4 projected m st).length = st.length := by simp [rows4, h]

/-- C45: the inverse-distance virial radius is `M² / (2 Σ_{i<j} m_i m_j / r_ij)`, each pair once, for both
implementations (`full=True` numba kernel, `full=False` loop) and in 3D and projection. -/
theorem C45_virial_radius (full projected : Bool) (m : List ℝ) (st : List Ph) (h : m.length = st.length) :
    virialRadius full projected m st =
      m.sum ^ 2 / (2 * pairSum st.length (fun i j => m[i]! * m[j]! / rowDist projected st[i]! st[j]!)) := by
  have hl := rows4_length projected m st h
  have e1 : weightedInverseDistanceSum (rows4 projected m st) =
      pairSum st.length (fun i j => m[i]! * m[j]! / rowDist projected st[i]! st[j]!) := by
    unfold weightedInverseDistanceSum
    rw [tri_loop (rows4 projected m st).length (fun i j => (rows4 projected m st)[i]!.m *
      (rows4 projected m st)[j]!.m / distance (rows4 projected m st)[i]! (rows4 projected m st)[j]!), hl]
    refine Finset.sum_congr rfl fun i hi => Finset.sum_congr rfl fun j hj => ?_
    rw [rows4_get _ _ _ h i (Finset.mem_range.mp hi), rows4_get _ _ _ h j (Finset.mem_Ico.mp hj).2]
    simp only [distance, rowDist]
    congr 2
    cases projected <;> simp <;> ring
  have e2 : partialSumLoop (rows4 projected m st) =
      pairSum st.length (fun i j => m[i]! * m[j]! / rowDist projected st[i]! st[j]!) := by
    unfold partialSumLoop
    rw [foldl_add_eq_sum, sum_list_range, zero_add, hl]
    have hz : ∀ n (f : ℕ → ℝ), (n = 0 → False) → f (n - 1) = 0 →
        ∑ i ∈ Finset.range (n - 1), f i = ∑ i ∈ Finset.range n, f i := by
      intro n f hn hf
      cases n with
      | zero => exact (hn rfl).elim
      | succ k => rw [Finset.sum_range_succ]; simp at hf; simp [hf]
    by_cases hn : st.length = 0
    · simp [hn, pairSum]
    · rw [hz st.length _ hn]
      · refine Finset.sum_congr rfl fun i hi => ?_
        rw [sum_drop_map, hl]
        refine Finset.sum_congr rfl fun j hj => ?_
        rw [rows4_get _ _ _ h i (Finset.mem_range.mp hi), rows4_get _ _ _ h j (Finset.mem_Ico.mp hj).2]
        simp only [rowDist]
        congr 2
        cases projected <;> simp <;> ring
      · rw [sum_drop_map, hl, Nat.sub_add_cancel (by omega)]; simp
  unfold virialRadius
  cases full <;> simp [e1, e2]

/-- C45 (units): expressing the same stars in a unit system with length unit `k > 0` and mass unit `μ > 0`
gives the same physical virial radius: `rv` in the new units times the length unit. -/
theorem C45_virial_radius_units (full projected : Bool) (m : List ℝ) (st : List Ph)
    (h : m.length = st.length) (s : Scale) (hk : 0 < s.len) (hm : s.mass ≠ 0) :
    virialRadius full projected (m.map (· * s.mass)) (st.map s.ph) =
      virialRadius full projected m st * s.len := by
  rw [C45_virial_radius _ _ _ _ h, C45_virial_radius _ _ _ _ (by simpa using h)]
  have hd : ∀ p q : Ph, rowDist projected (s.ph p) (s.ph q) = rowDist projected p q * s.len := by
    intro p q
    rw [show s.len = Real.sqrt (s.len ^ 2) from (Real.sqrt_sq hk.le).symm]
    unfold rowDist
    rw [← Real.sqrt_mul (by split <;> positivity)]
    congr 1
    cases projected <;> simp [Scale.ph] <;> ring
  have hsum : (m.map (· * s.mass)).sum = m.sum * s.mass := sum_map_mul m s.mass
  have hps : pairSum (st.map s.ph).length (fun i j => (m.map (· * s.mass))[i]! * (m.map (· * s.mass))[j]! /
      rowDist projected (st.map s.ph)[i]! (st.map s.ph)[j]!) =
      pairSum st.length (fun i j => m[i]! * m[j]! / rowDist projected st[i]! st[j]!) *
        (s.mass ^ 2 / s.len) := by
    unfold pairSum
    rw [List.length_map, Finset.sum_mul]
    refine Finset.sum_congr rfl fun i hi => ?_
    rw [Finset.sum_mul]
    refine Finset.sum_congr rfl fun j hj => ?_
    have hi' : i < st.length := Finset.mem_range.mp hi
    have hj' : j < st.length := (Finset.mem_Ico.mp hj).2
    dsimp only
    rw [get!_map m _ i (by omega), get!_map m _ j (by omega), get!_map st _ i hi', get!_map st _ j hj', hd]
    field_simp
  rw [hsum, hps]
  by_cases hp : pairSum st.length (fun i j => m[i]! * m[j]! / rowDist projected st[i]! st[j]!) = 0
  · rw [hp]; simp
  · field_simp

/-- Non-trivial instance: two stars of mass 1 and 3 at distance 5 have virial radius 16/(2·3/5). -/
example : virialRadius true false [1, 3] [⟨3, 0, 4, 0, 0, 0⟩, ⟨0, 0, 0, 0, 0, 0⟩] = 40 / 3 := by
  rw [C45_virial_radius _ _ _ _ rfl]
  have h5 : Real.sqrt (3 ^ 2 + 4 ^ 2) = 5 := by
    rw [show (3:ℝ) ^ 2 + 4 ^ 2 = 5 ^ 2 by norm_num]; exact Real.sqrt_sq (by norm_num)
  have : pairSum 2 (fun i j => ([1, 3] : List ℝ)[i]! * ([1, 3] : List ℝ)[j]! /
      rowDist false ([⟨3, 0, 4, 0, 0, 0⟩, ⟨0, 0, 0, 0, 0, 0⟩] : List Ph)[i]!
        ([⟨3, 0, 4, 0, 0, 0⟩, ⟨0, 0, 0, 0, 0, 0⟩] : List Ph)[j]!) = 3 / 5 := by
    simp only [pairSum, Finset.sum_range_succ, Finset.sum_range_zero, zero_add]
    simp [rowDist, h5]
  simp only [List.length_cons, List.length_nil, zero_add, Nat.reduceAdd, this]
  norm_num

end

end CT
