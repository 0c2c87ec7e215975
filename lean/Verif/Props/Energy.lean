/-
Property theorems C33 (potential and kinetic energies), C49 (parallel kernels), for
`clustertools/analysis/functions.py` and `StarCluster.add_energies/energies`.
-/
import Verif.Lemmas.Energy
import Verif.Props.Grav
import Verif.Props.Analysis
import Mathlib.Tactic.IntervalCases

namespace CT

noncomputable section

set_option linter.unusedSimpArgs false

/-! ### C33: specification -/

/-- Softened separation. -/
def softSep (projected : Bool) (soft : ℝ) (p q : Ph) : ℝ := Real.sqrt (rowDist projected p q ^ 2 + soft ^ 2)

/-- Gravitational potential (energy per unit mass) at star `i` due to all other stars. -/
def gravPot (projected : Bool) (G soft : ℝ) (m : List ℝ) (st : List Ph) (i : ℕ) : ℝ :=
  -G * ∑ j ∈ (Finset.range st.length).erase i, m[j]! / softSep projected soft st[i]! st[j]!

/-- No two stars at the same place. -/
def Distinct (projected : Bool) (st : List Ph) : Prop :=
  ∀ i j, i < st.length → j < st.length → i ≠ j → rowDist projected st[i]! st[j]! ≠ 0

/-! ### proofs -/

theorem rows4_distance (projected : Bool) (m : List ℝ) (st : List Ph) (h : m.length = st.length) (i j : ℕ)
    (hi : i < st.length) (hj : j < st.length) :
    distance (rows4 projected m st)[i]! (rows4 projected m st)[j]! = rowDist projected st[i]! st[j]! := by
  rw [rows4_get _ _ _ h i hi, rows4_get _ _ _ h j hj]
  unfold distance rowDist
  cases projected <;> simp <;> congr 1 <;> ring

theorem pairTerm_rows (projected : Bool) (soft : ℝ) (m : List ℝ) (st : List Ph) (h : m.length = st.length)
    (hd : Distinct projected st) (i j : ℕ) (hi : i < st.length) (hj : j < st.length) (hne : i ≠ j) :
    pairTerm soft (rows4 projected m st)[i]! (rows4 projected m st)[j]! =
      ((-(m[i]! * m[j]!) / softSep projected soft st[i]! st[j]! : ℝ) : NanR) := by
  unfold pairTerm
  rw [rows4_distance _ _ _ h i j hi hj, if_neg (hd i j hi hj hne)]
  rw [rows4_get _ _ _ h i hi, rows4_get _ _ _ h j hj]
  rfl

theorem full_entry (projected : Bool) (soft : ℝ) (m : List ℝ) (st : List Ph) (h : m.length = st.length)
    (hd : Distinct projected st) (i : ℕ) (hi : i < st.length) :
    (potentialFull soft (rows4 projected m st))[i]? =
      some ((m[i]! * gravPot projected 1 soft m st i : ℝ) : NanR) := by
  have hl := rows4_length projected m st h
  rw [potentialFull_get _ _ i (by rw [hl]; exact hi), hl]
  congr 1
  have e : ∑ j ∈ (Finset.range st.length).erase i,
        pairTerm soft (rows4 projected m st)[i]! (rows4 projected m st)[j]! =
      ∑ j ∈ (Finset.range st.length).erase i, ((-(m[i]! * m[j]!) / softSep projected soft st[i]! st[j]! : ℝ) : NanR) := by
    refine Finset.sum_congr rfl fun j hj => ?_
    simp only [Finset.mem_erase, Finset.mem_range] at hj
    exact pairTerm_rows projected soft m st h hd i j hi hj.2 (Ne.symm hj.1)
  rw [e, ← WithTop.coe_sum]
  congr 1
  unfold gravPot
  rw [neg_one_mul, mul_neg, Finset.mul_sum, ← Finset.sum_neg_distrib]
  refine Finset.sum_congr rfl fun j _ => ?_
  ring

/-- C33 (full kernel): for every cluster with aligned arrays and no coincident stars, the potential energy of star
`i` is `m_i Φ_i` (or `Φ_i` per unit mass when `specific`), with `Φ_i = -G Σ_{j≠i} m_j / sqrt(r_ij² + ε²)`, in 3D and
in projection, for every softening. -/
theorem C33_full (specific projected : Bool) (soft : ℝ) (c : Cluster) (h : c.m.length = c.st.length)
    (hd : Distinct projected c.st) (i : ℕ) (hi : i < c.st.length) (hm : specific = true → c.m[i]! ≠ 0) :
    (potential specific true projected soft c)[i]? =
      some (((if specific then 1 else c.m[i]!) * gravPot projected (getGrav c.units) soft c.m c.st i : ℝ) : NanR) := by
  have e := full_entry projected soft c.m c.st h hd i hi
  have hG : gravPot projected (getGrav c.units) soft c.m c.st i =
      getGrav c.units * gravPot projected 1 soft c.m c.st i := by unfold gravPot; ring
  unfold potential
  simp only [if_true]
  cases specific
  · simp only [Bool.false_eq_true, if_false, List.getElem?_map, e, Option.map_some]
    congr 1
    show ((_ : ℝ) : NanR) = _
    congr 1
    rw [hG]; ring
  · have hmi := hm rfl
    have hi' : i < c.m.length := by omega
    simp only [if_true, List.getElem?_zipWith, List.getElem?_map, e, Option.map_some,
      List.getElem?_eq_getElem hi']
    rw [getElem!_pos c.m i hi'] at hmi ⊢
    show some ((_ : ℝ) : NanR) = _
    congr 2
    rw [hG]; field_simp

/-- C33 is false of the code for coincident stars, also with softening (where the true value is finite): the full
kernel reports NaN for a star that shares its position with another one. -/
theorem C33_coincident_violated (projected : Bool) (soft : ℝ) (c : Cluster) (h : c.m.length = c.st.length)
    (i j : ℕ) (hi : i < c.st.length) (hj : j < c.st.length) (hne : i ≠ j)
    (hz : rowDist projected c.st[i]! c.st[j]! = 0) :
    (potential false true projected soft c)[i]? = some ⊤ := by
  have hl := rows4_length projected c.m c.st h
  unfold potential
  simp only [if_true, Bool.false_eq_true, if_false, List.getElem?_map]
  rw [potentialFull_get _ _ i (by rw [hl]; exact hi), hl, Option.map_some]
  have : ∑ k ∈ (Finset.range c.st.length).erase i,
      pairTerm soft (rows4 projected c.m c.st)[i]! (rows4 projected c.m c.st)[k]! = ⊤ := by
    rw [← Finset.add_sum_erase _ _ (Finset.mem_erase.mpr ⟨Ne.symm hne, Finset.mem_range.mpr hj⟩)]
    have : pairTerm soft (rows4 projected c.m c.st)[i]! (rows4 projected c.m c.st)[j]! = ⊤ := by
      unfold pairTerm
      rw [rows4_distance _ _ _ h i j hi hj, if_pos hz]
    rw [this, top_add]
  rw [this]; rfl

/-- The sum made by the `full=False` loop. -/
theorem loop_entry (specific projected : Bool) (G soft : ℝ) (m : List ℝ) (st : List Ph) (h : m.length = st.length)
    (i : ℕ) (hi : i < st.length) :
    (potentialLoop specific G soft (rows4 projected m st))[i]? =
      some ((∑ j ∈ Finset.range st.length, if softSep projected soft st[i]! st[j]! ≠ 0 then
        (if specific then 1 else m[i]!) * (-G * (m[j]! / softSep projected soft st[i]! st[j]!)) else 0 : ℝ) : NanR) := by
  have hl := rows4_length projected m st h
  have hi' : i < (rows4 projected m st).length := by rw [hl]; exact hi
  unfold potentialLoop
  rw [List.getElem?_map, List.getElem?_eq_getElem hi', Option.map_some]
  congr 2
  have hf : ∀ (l : List P4) (p : P4 → Bool) (f : P4 → ℝ), ((l.filter p).map f).sum
      = (l.map (fun b => if p b = true then f b else 0)).sum := by
    intro l p f
    induction l with
    | nil => rfl
    | cons b l ih => by_cases hb : p b = true <;> simp [List.filter_cons, hb, ih]
  rw [hf]
  have hs := sum_drop_map (rows4 projected m st) 0 (fun b =>
      if decide (Real.sqrt (((rows4 projected m st)[i].x - b.x) ^ 2 + ((rows4 projected m st)[i].y - b.y) ^ 2 + ((rows4 projected m st)[i].z - b.z) ^ 2 + soft ^ 2) ≠ 0) = true then
        -G * (if specific then b.m else (rows4 projected m st)[i].m * b.m) /
          Real.sqrt (((rows4 projected m st)[i].x - b.x) ^ 2 + ((rows4 projected m st)[i].y - b.y) ^ 2 + ((rows4 projected m st)[i].z - b.z) ^ 2 + soft ^ 2) else 0)
  rw [List.drop_zero, hl] at hs
  rw [hs, Finset.range_eq_Ico]
  refine Finset.sum_congr rfl fun j hj => ?_
  have hj' : j < st.length := (Finset.mem_Ico.mp hj).2
  rw [← getElem!_pos (rows4 projected m st) i hi', rows4_get _ _ _ h i hi, rows4_get _ _ _ h j hj']
  have hr : Real.sqrt ((st[i]!.x - st[j]!.x) ^ 2 + (st[i]!.y - st[j]!.y) ^ 2 +
      ((if projected then 0 else st[i]!.z) - (if projected then 0 else st[j]!.z)) ^ 2 + soft ^ 2)
      = softSep projected soft st[i]! st[j]! := by
    unfold softSep rowDist
    rw [Real.sq_sqrt (by cases projected <;> simp <;> positivity)]
    cases projected <;> simp
  simp only [hr, ne_eq, decide_not, Bool.not_eq_eq_eq_not, Bool.not_true, decide_eq_false_iff_not]
  split
  · cases specific <;> simp <;> ring
  · rfl

theorem softSep_self (projected : Bool) (soft : ℝ) (p : Ph) : softSep projected soft p p = |soft| := by
  unfold softSep rowDist
  cases projected <;> simp [Real.sqrt_sq_eq_abs]

theorem softSep_ne (projected : Bool) (soft : ℝ) {p q : Ph} (h : rowDist projected p q ≠ 0) :
    softSep projected soft p q ≠ 0 := by
  unfold softSep
  have : 0 < rowDist projected p q ^ 2 + soft ^ 2 := by positivity
  exact (Real.sqrt_pos.mpr this).ne'

/-- C33 (`full=False` loop): without softening it computes the same potential energies as the full kernel. -/
theorem C33_loop (specific projected : Bool) (c : Cluster) (h : c.m.length = c.st.length)
    (hd : Distinct projected c.st) (i : ℕ) (hi : i < c.st.length) :
    (potential specific false projected 0 c)[i]? =
      some (((if specific then 1 else c.m[i]!) * gravPot projected (getGrav c.units) 0 c.m c.st i : ℝ) : NanR) := by
  unfold potential
  simp only [Bool.false_eq_true, if_false]
  rw [loop_entry specific projected _ 0 c.m c.st h i hi]
  congr 2
  unfold gravPot
  rw [← Finset.add_sum_erase _ _ (Finset.mem_range.mpr hi), softSep_self]
  simp only [abs_zero, ne_eq, not_true_eq_false, if_false, zero_add]
  rw [Finset.mul_sum, Finset.mul_sum]
  refine Finset.sum_congr rfl fun j hj => ?_
  simp only [Finset.mem_erase, Finset.mem_range] at hj
  rw [if_pos (softSep_ne projected 0 (hd i j hi hj.2 (Ne.symm hj.1)))]

/-- C33 is false of the code for the `full=False` loop with softening `ε ≠ 0`: every star's potential also contains
the star's own (self-interaction) term `-G m_i / |ε|`. -/
theorem C33_loop_softening_violated (specific projected : Bool) (soft : ℝ) (hs : soft ≠ 0) (c : Cluster)
    (h : c.m.length = c.st.length) (hd : Distinct projected c.st) (i : ℕ) (hi : i < c.st.length) :
    (potential specific false projected soft c)[i]? =
      some (((if specific then 1 else c.m[i]!) * (gravPot projected (getGrav c.units) soft c.m c.st i
        - getGrav c.units * c.m[i]! / |soft|) : ℝ) : NanR) := by
  unfold potential
  simp only [Bool.false_eq_true, if_false]
  rw [loop_entry specific projected _ soft c.m c.st h i hi]
  congr 2
  unfold gravPot
  rw [← Finset.add_sum_erase _ _ (Finset.mem_range.mpr hi), softSep_self]
  rw [if_pos (by simpa using hs)]
  have e : ∑ j ∈ (Finset.range c.st.length).erase i,
      (if softSep projected soft c.st[i]! c.st[j]! ≠ 0 then
        (if specific then 1 else c.m[i]!) * (-getGrav c.units * (c.m[j]! / softSep projected soft c.st[i]! c.st[j]!)) else 0)
      = (if specific then 1 else c.m[i]!) * (-getGrav c.units * ∑ j ∈ (Finset.range c.st.length).erase i,
          c.m[j]! / softSep projected soft c.st[i]! c.st[j]!) := by
    rw [Finset.mul_sum, Finset.mul_sum]
    refine Finset.sum_congr rfl fun j hj => ?_
    simp only [Finset.mem_erase, Finset.mem_range] at hj
    rw [if_pos (softSep_ne projected soft (hd i j hi hj.2 (Ne.symm hj.1)))]
  rw [e]; ring

/-- C33 (subset kernel): each selected star gets its potential energy due to all other stars of the cluster,
selected or not; the star itself contributes nothing. -/
theorem C33_subset (soft : ℝ) (m : List ℝ) (st : List Ph) (h : m.length = st.length) (hd : Distinct false st)
    (sel : List ℕ) (hsel : ∀ i ∈ sel, i < st.length) (k : ℕ) (hk : k < sel.length) :
    (potentialSubset soft (sel.map (fun i => (rows4 false m st)[i]!)) (rows4 false m st))[k]? =
      some ((m[sel[k]]! * gravPot false 1 soft m st sel[k] : ℝ) : NanR) := by
  have hl := rows4_length false m st h
  have hki : sel[k] < st.length := hsel _ (List.getElem_mem hk)
  rw [potentialSubset_get _ _ _ k (by simpa using hk), hl]
  congr 2
  rw [getElem!_pos (sel.map (fun i => (rows4 false m st)[i]!)) k (by simpa using hk), List.getElem_map]
  rw [← Finset.add_sum_erase _ _ (Finset.mem_range.mpr hki)]
  rw [rows4_distance _ _ _ h _ _ hki hki]
  have h0 : rowDist false st[sel[k]]! st[sel[k]]! = 0 := by simp [rowDist]
  rw [h0, if_neg (by simp), zero_add]
  unfold gravPot
  rw [neg_one_mul, mul_neg, Finset.mul_sum, ← Finset.sum_neg_distrib]
  refine Finset.sum_congr rfl fun j hj => ?_
  simp only [Finset.mem_erase, Finset.mem_range] at hj
  rw [rows4_distance _ _ _ h _ _ hki hj.2, if_pos (hd _ j hki hj.2 (Ne.symm hj.1))]
  rw [rows4_get _ _ _ h _ hki, rows4_get _ _ _ h j hj.2]
  show -(m[sel[k]]! * m[j]!) / softSep false soft st[sel[k]]! st[j]! = _
  ring

/-- C33 (total): with `specific=False`, `add_energies` stores as total potential energy minus `G` times the sum over
unordered pairs — each pair once. -/
theorem C33_total (projected : Bool) (soft : ℝ) (e : ECluster) (kin : List NanR) (c : Cluster)
    (h : c.m.length = c.st.length) (hd : Distinct projected c.st) :
    (addEnergies kin (potential false true projected soft c) e).ptot =
      -(getGrav c.units * pairSum c.st.length (fun i j =>
        c.m[i]! * c.m[j]! / softSep projected soft c.st[i]! c.st[j]!)) := by
  have hlen : (potential false true projected soft c).length = c.st.length := by
    unfold potential; simp [potentialFull_length, rows4_length _ _ _ h]
  have hpot : (potential false true projected soft c).map NanR.toNum =
      (List.range c.st.length).map (fun i => c.m[i]! * gravPot projected (getGrav c.units) soft c.m c.st i) := by
    refine List.ext_getElem? fun i => ?_
    rw [List.getElem?_map, List.getElem?_map]
    by_cases hi : i < c.st.length
    · rw [C33_full false projected soft c h hd i hi (by simp), List.getElem?_range hi]
      rfl
    · rw [List.getElem?_eq_none (by omega), List.getElem?_eq_none (by simpa using hi)]; rfl
  unfold addEnergies
  simp only
  rw [hpot, sum_list_range]
  have hsym : ∀ i j : ℕ, c.m[i]! * c.m[j]! / softSep projected soft c.st[i]! c.st[j]! =
      c.m[j]! * c.m[i]! / softSep projected soft c.st[j]! c.st[i]! := by
    intro i j
    have : softSep projected soft c.st[i]! c.st[j]! = softSep projected soft c.st[j]! c.st[i]! := by
      unfold softSep rowDist; congr 3; ring
    rw [this, mul_comm]
  have key : ∀ (n : ℕ) (f : ℕ → ℕ → ℝ), (∀ i j, f i j = f j i) →
      ∑ i ∈ Finset.range n, ∑ j ∈ (Finset.range n).erase i, f i j = 2 * pairSum n f := by
    intro n f hf
    have hs : ∀ i ∈ Finset.range n, ∑ j ∈ (Finset.range n).erase i, f i j
        = (∑ j ∈ Finset.range i, f i j) + ∑ j ∈ Finset.Ico (i + 1) n, f i j := by
      intro i hi
      have : (Finset.range n).erase i = Finset.range i ∪ Finset.Ico (i + 1) n := by
        have := Finset.mem_range.mp hi
        ext j; simp only [Finset.mem_erase, Finset.mem_range, Finset.mem_union, Finset.mem_Ico]; omega
      rw [this, Finset.sum_union]
      rw [Finset.disjoint_left]; intro j h1 h2; simp only [Finset.mem_range, Finset.mem_Ico] at h1 h2; omega
    rw [Finset.sum_congr rfl hs, Finset.sum_add_distrib]
    have hswap : ∑ i ∈ Finset.range n, ∑ j ∈ Finset.range i, f i j = pairSum n f := by
      unfold pairSum
      rw [Finset.sum_sigma', Finset.sum_sigma']
      refine Finset.sum_nbij' (fun x => ⟨x.2, x.1⟩) (fun x => ⟨x.2, x.1⟩) ?_ ?_ ?_ ?_ ?_
      · rintro ⟨a, b⟩ hx; simp only [Finset.mem_sigma, Finset.mem_range, Finset.mem_Ico] at hx ⊢; omega
      · rintro ⟨a, b⟩ hx; simp only [Finset.mem_sigma, Finset.mem_range, Finset.mem_Ico] at hx ⊢; omega
      · rintro ⟨a, b⟩ _; rfl
      · rintro ⟨a, b⟩ _; rfl
      · rintro ⟨a, b⟩ _; exact hf a b
    rw [hswap]; unfold pairSum; ring
  have hsum : ∑ i ∈ Finset.range c.st.length, c.m[i]! * gravPot projected (getGrav c.units) soft c.m c.st i
      = -getGrav c.units * ∑ i ∈ Finset.range c.st.length, ∑ j ∈ (Finset.range c.st.length).erase i,
          c.m[i]! * c.m[j]! / softSep projected soft c.st[i]! c.st[j]! := by
    rw [Finset.mul_sum]
    refine Finset.sum_congr rfl fun i _ => ?_
    unfold gravPot
    rw [← mul_assoc, mul_comm c.m[i]!, mul_assoc, Finset.mul_sum]
    congr 1
    refine Finset.sum_congr rfl fun j _ => ?_
    ring
  rw [hsum, key _ _ hsym]; ring

/-- Three stars, for instances. -/
def demo3 : Cluster :=
  { demo with m := [1, 3, 2], st := [⟨3, 0, 4, 1, 0, 0⟩, ⟨0, 0, 0, 0, -2, 5⟩, ⟨0, 1, 0, 0, 0, 0⟩] }

theorem demo3_distinct : Distinct false demo3.st := by
  intro i j hi hj hne
  have hi' : i < 3 := hi
  have hj' : j < 3 := hj
  unfold rowDist
  rw [Real.sqrt_ne_zero (by positivity)]
  interval_cases i <;> interval_cases j <;> first | exact absurd rfl hne | norm_num [demo3]

/-- C33 instance: the hypotheses hold of a three-star cluster. -/
example : ∃ v : ℝ, (potential false true false 0 demo3)[1]? = some (v : NanR) :=
  ⟨_, C33_full false false 0 demo3 rfl demo3_distinct 1 (by decide) (by simp)⟩

/-! ### C49: parallel kernels -/

/-- C49: under every interleaving of the workers' loads and stores that completes, the parallel subset kernel leaves
in each entry exactly what the serial subset kernel computes. -/
theorem C49_subset_schedule_independent (soft : ℝ) (sub full : List P4) (sched : List ℕ)
    (hdone : ((parallelSubset soft sub full).run sched).done) (k : ℕ) (hk : k < sub.length) :
    some (((parallelSubset soft sub full).run sched).mem k) = (potentialSubset soft sub full)[k]? := by
  have ho : (parallelSubset soft sub full).owned := by
    intro t u hu
    simp only [parallelSubset] at hu
    split at hu
    · simp only [subsetUpdates, List.mem_flatMap] at hu
      obtain ⟨j, -, hu⟩ := hu
      split at hu
      · simp only [List.mem_singleton] at hu; rw [hu]
      · cases hu
    · cases hu
  have hs : (parallelSubset soft sub full).sync := by intro t r hr; simp [parallelSubset] at hr
  obtain ⟨-, -, ht⟩ := run_inv ho hs sched
  have := ht k
  unfold Machine.target at this
  rw [hdone k] at this
  simp only [List.map_nil, List.sum_nil, add_zero] at this
  rw [this, potentialSubset_get soft sub full k hk]
  simp only [parallelSubset, hk, if_true, WithTop.coe_zero, zero_add]
  congr 1
  unfold subsetUpdates
  rw [sum_flatMap, sum_nan_range, WithTop.coe_sum]
  refine Finset.sum_congr rfl fun j _ => ?_
  split <;> simp

/-- C49 is false of the code for the full parallel kernel: for every three stars at pairwise different places with
non-zero masses there is a complete interleaving in which the second star's potential energy misses the term from
the first star (two workers update the same list entry without synchronisation). -/
theorem C49_full_race_violated (soft : ℝ) (a b d : P4) (hab : distance a b ≠ 0) (hbd : distance b d ≠ 0)
    (ham : a.m ≠ 0) (hbm : b.m ≠ 0) :
    ∃ sched, ((parallelFull soft [a, b, d]).run sched).done ∧
      ((parallelFull soft [a, b, d]).run sched).mem 1 = pairTerm soft b d ∧
      (potentialFull soft [a, b, d])[1]? = some (pairTerm soft a b + pairTerm soft b d) ∧
      pairTerm soft b d ≠ pairTerm soft a b + pairTerm soft b d := by
  have w0 : rowUpdates soft [a, b, d] 0 = [(0, pairTerm soft a b), (1, pairTerm soft a b), (0, pairTerm soft a d),
      (2, pairTerm soft a d)] := rfl
  have w1 : rowUpdates soft [a, b, d] 1 = [(1, pairTerm soft b d), (2, pairTerm soft b d)] := rfl
  refine ⟨[1, 0, 0, 0, 0, 0, 0, 0, 0, 1, 1, 1], ?_, ?_, ?_, ?_⟩
  · intro t
    simp only [Machine.run, List.foldl_cons, List.foldl_nil, Machine.step, parallelFull]
    rcases t with _ | _ | t
    · simp [w0, w1, Function.update]
    · simp [w0, w1, Function.update]
    · simp [w0, w1, Function.update]
  · simp [Machine.run, Machine.step, parallelFull, w0, w1, Function.update]
  · rw [potentialFull_get soft [a, b, d] 1 (by simp)]
    have : (Finset.range [a, b, d].length).erase 1 = {0, 2} := by
      show (Finset.range 3).erase 1 = {0, 2}
      decide
    rw [this, Finset.sum_pair (by decide)]
    show some (pairTerm soft b a + pairTerm soft b d) = _
    rw [pairTerm_comm soft b a]
  · unfold pairTerm
    rw [if_neg hab, if_neg hbd, ← WithTop.coe_add]
    intro h
    have h := WithTop.coe_injective h
    have hz : -(a.m * b.m) / Real.sqrt (distance a b ^ 2 + soft ^ 2) = 0 := by linarith
    have hp : 0 < distance a b ^ 2 + soft ^ 2 := by positivity
    rw [div_eq_zero_iff] at hz
    rcases hz with hz | hz
    · have : a.m * b.m = 0 := by linarith
      rcases mul_eq_zero.mp this with h | h
      · exact ham h
      · exact hbm h
    · exact (Real.sqrt_pos.mpr hp).ne' hz

end

end CT
