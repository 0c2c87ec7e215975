/- C22 (counts, binaries) and C23 (overlap_cluster). -/
import Verif.Props.Subset3

namespace CT

noncomputable section

set_option linter.unusedSimpArgs false

/-- **C22 (binaries).**  The binaries of the result are the rows of the parent's binary table with at least one member
among the selected stars, in order, with their values; `nb` is their number. -/
theorem C22_binaries {q : SubArgs} {sort : Bool} {p s : Full} {indx : Option ℕ} {mem mem' : Mem} {n k : ℕ}
    (al : Aligned p.tab n) (ok : p.view.Ok q n) (hi : GivenOk indx mem n) (hk : 1 ≤ k)
    (h1 : p.id1.length = k) (h2 : p.tab.id2.length = k) (h3 : p.tab.base.bin.semi.length = k)
    (h4 : p.tab.base.bin.pb.length = k) (h5 : p.tab.base.bin.m1.length = k) (h6 : p.tab.base.bin.m2.length = k)
    (h : subCluster q sort p indx mem = .ok (s, mem')) (hne : s.tab.x ≠ []) :
    ∃ sel : List ℕ, sel.Pairwise (· < ·) ∧
      (∀ b, b ∈ sel ↔ b < k ∧ (p.id1[b]! ∈ s.tab.id ∨ p.tab.id2[b]! ∈ s.tab.id)) ∧
      Picked sel p.id1 s.id1 ∧ Picked sel p.tab.id2 s.tab.id2 ∧ Picked sel p.tab.base.bin.semi s.tab.base.bin.semi ∧
      Picked sel p.tab.base.bin.pb s.tab.base.bin.pb ∧ Picked sel p.tab.base.bin.m1 s.tab.base.bin.m1 ∧
      Picked sel p.tab.base.bin.m2 s.tab.base.bin.m2 ∧ s.tab.nb = sel.length := by
  obtain ⟨mask, hm, hcase⟩ := subCluster_run ok hi h
  rcases hcase with ⟨he, rfl⟩ | ⟨hne', t, t', ht, ht', rfl⟩
  · exact (hne rfl).elim
  · have hf := subArgs_fits al hm.len hne'
    obtain ⟨al1, n1, -, -, s1, i1, -⟩ := C18_add_stars hf (newTab_aligned _) ht
    simp only [Nat.zero_add] at al1 i1
    obtain ⟨t1, t2, t3, t4, t5, t6, t7⟩ := addStars_base hf (newTab_aligned _) ht
    have hids : t.id = maskSel mask p.tab.id := by
      have hl : (maskSel mask p.tab.id).length = (maskPos mask).length := maskSel_length (by rw [hm.len, al.id])
      refine List.ext_getElem (by rw [al1.id, hl]) fun j hj hj' => ?_
      have := i1 _ rfl j (by rw [al1.id] at hj; exact hj)
      rw [getElem!_pos _ j hj] at this
      rw [this]
      show (maskSel mask p.tab.id)[j]! = _
      rw [getElem!_pos _ j hj']
    obtain ⟨c1, c2, c3, c4, c5, c6, c7⟩ := copied_bse (mask := mask) (p := p) (t := t) t5 t6 (by omega)
    obtain ⟨d, rfl, hd⟩ := analyzeTab_base ht'
    have hbin : d.bin = (copied mask p (fresh p t)).tab.base.bin := (congrArg Cluster.bin (analyze_core hd) :)
    obtain ⟨nb, id2, b, hb, -⟩ := copied_tab (mask := mask) (p := p) (t := t)
    have hid : (copied mask p (fresh p t)).tab.id = t.id := by rw [hb]
    obtain ⟨bm, hbm⟩ : ∃ bm, bm = List.zipWith or (isinMask p.id1 (maskSel mask p.tab.id))
      (isinMask p.tab.id2 (maskSel mask p.tab.id)) := ⟨_, rfl⟩
    rw [← hbm] at c1 c2 c3 c4 c5 c6 c7
    have hbl : bm.length = k := by
      rw [hbm]; simp [isinMask, h1, h2]
    refine ⟨maskPos bm, maskPos_sorted bm, ?_, ?_, ?_, ?_, ?_, ?_, ?_, ?_⟩
    · intro b
      show _ ↔ _ ∧ (p.id1[b]! ∈ (copied mask p (fresh p t)).tab.id ∨ p.tab.id2[b]! ∈ (copied mask p (fresh p t)).tab.id)
      rw [hid, mem_maskPos, hbl, hids]
      refine and_congr_right fun hb => ?_
      rw [getElem!_pos bm b (by omega)]
      simp only [hbm, List.getElem_zipWith, isinMask, List.getElem_map, Bool.or_eq_true, decide_eq_true_eq]
      rw [getElem!_pos p.id1 b (by omega), getElem!_pos p.tab.id2 b (by omega)]
    · show Picked _ _ (copied mask p (fresh p t)).id1
      rw [c1]; exact Picked.of_mask (by omega)
    · show Picked _ _ (copied mask p (fresh p t)).tab.id2
      rw [c2]; exact Picked.of_mask (by omega)
    · show Picked _ _ d.bin.semi
      rw [hbin, c4]; exact Picked.of_mask (by omega)
    · show Picked _ _ d.bin.pb
      rw [hbin, c5]; exact Picked.of_mask (by omega)
    · show Picked _ _ d.bin.m1
      rw [hbin, c6]; exact Picked.of_mask (by omega)
    · show Picked _ _ d.bin.m2
      rw [hbin, c7]; exact Picked.of_mask (by omega)
    · show (copied mask p (fresh p t)).tab.nb = _
      rw [c3, maskSel_length (by omega)]

/-- **C22 is violated by the counts `ns` and `nb`** of a cluster without a binary table: they are those of the parent,
whatever was selected. -/
theorem C22_counts_violated {q : SubArgs} {sort : Bool} {p s : Full} {indx : Option ℕ} {mem mem' : Mem} {n : ℕ}
    (w : Whole p n) (ok : p.view.Ok q n) (hi : GivenOk indx mem n) (hb : p.tab.id2 = [])
    (h : subCluster q sort p indx mem = .ok (s, mem')) (hne : s.tab.x ≠ []) :
    s.tab.ns = p.tab.ns ∧ s.tab.nb = p.tab.nb :=
  let ⟨_, _, h1, h2⟩ := sub_facts w ok hi h hne
  ⟨h1, h2 hb⟩

/-- **C22 is violated by the units of the binaries**: the numbers are copied, their units are replaced by the units of
the cluster. -/
theorem C22_binary_units_violated {q : SubArgs} {sort : Bool} {p s : Full} {indx : Option ℕ} {mem mem' : Mem} {n : ℕ}
    (w : Whole p n) (ok : p.view.Ok q n) (hi : GivenOk indx mem n) (hu : p.tab.base.units = some .pckms)
    (hb : p.tab.base.bunits = some .audays)
    (h : subCluster q sort p indx mem = .ok (s, mem')) (hne : s.tab.x ≠ []) :
    s.tab.base.bunits ≠ p.tab.base.bunits := by
  obtain ⟨-, h1, -⟩ := sub_facts w ok hi h hne
  rw [h1, hb, hu]
  simp [bunitsOfUnits]

/-- **C22: an empty selection loses units and origin** (and keeps only the age). -/
theorem C22_empty {q : SubArgs} {sort : Bool} {p : Full} {indx : Option ℕ} {mem : Mem} {n : ℕ}
    (ok : p.view.Ok q n) (hi : GivenOk indx mem n) (hnone : ∀ i < n, ¬(given indx mem i ∧ Passes q p.view i)) :
    ∃ s mem', subCluster q sort p indx mem = .ok (s, mem') ∧ s.tab.ntot = 0 ∧ s.tab.x = [] ∧
      s.tab.base.tphys = p.tab.base.tphys ∧ s.tab.base.units = none ∧ s.tab.base.origin = none := by
  obtain ⟨k, mem1, h1, hm⟩ := subset_any ok hi
  unfold subCluster
  simp only [h1, bind, Except.bind, pure, Except.pure]
  have hc : ¬ 0 < (mem1[k]!).count true := by
    rw [count_pos_iff, not_not, List.eq_nil_iff_forall_not_mem]
    intro i hi'
    obtain ⟨a, b⟩ := mem_maskPos.mp hi'
    rw [hm.len] at a
    exact hnone i a ((hm.val i a).mp b)
  rw [if_neg hc]
  exact ⟨_, _, rfl, rfl, rfl, rfl, rfl, rfl⟩

/-! ### A concrete cluster -/

/-- A cluster just filled by `add_stars` is consistent. -/
theorem whole_added {a : StarArgs} {n : ℕ} {u : Option Units} {o : Option Origin} {bu : Option BUnits} {tphys : ℝ}
    {t : Tab} (f : a.Fits n) (h : addStars a 0 true true (newTab (newCluster u o bu tphys)) = .ok t) :
    Whole { newFull (newCluster u o bu tphys) with tab := t } n := by
  obtain ⟨al1, n1, -, -, s1, i1, -⟩ := C18_add_stars f (newTab_aligned _) h
  simp only [Nat.zero_add] at al1 n1
  obtain ⟨s, hs, hb⟩ : ∃ s d, analyze true s = .ok d ∧ t.base = d ∧ s.st = rowsOf t.x t.y t.z t.vx t.vy t.vz := by
    unfold addStars at h
    simp only [Nat.lt_irrefl, if_false, bind, Except.bind, if_true, Nat.mul_zero] at h
    split at h
    · simp at h
    · rename_i t1 ht1
      obtain ⟨b, rfl, hb⟩ := analyzeTab_base ht1
      have e := Except.ok.inj h
      refine ⟨_, b, hb, ?_, ?_⟩
      · rw [← e]
      · rw [← e]
  obtain ⟨h1, rfl, h3⟩ := hb
  refine ⟨al1, n1, analyze_fresh h1, ?_, .inl rfl, .inl ⟨rfl, rfl, rfl⟩⟩
  rw [← h3]
  exact (analyze_same h1).2.1

/-- Three stars of masses 1, 1, 10. -/
def args3 : StarArgs :=
  { x := .arr [1, 2, 0], y := .scalar 0, z := .arr [0, 5, 3], vx := .scalar 0, vy := .scalar 1, vz := .arr [2, 3, 4],
    m := some (.arr [1, 1, 10]), id := none, m0 := none, npop := none }

theorem args3_fits : args3.Fits 3 := by
  constructor <;> simp [args3, Val.fits, Val.isArr]

/-- The cluster made of them. -/
theorem full3_exists : ∃ p : Full, Whole p 3 ∧ p.tab.ns = 3 ∧ p.tab.nb = 0 ∧ p.tab.id2 = [] ∧ p.tab.m = [1, 1, 10] ∧
    p.kw = [] ∧ p.etot = [] ∧ p.kin = [] ∧ p.pot = [] ∧ p.tab.base.units = some .pckms := by
  obtain ⟨t, ht, -⟩ := C65_total_sorted args3_fits
    (newTab_aligned (newCluster (some .pckms) (some .cluster) (some .other) 0)) (by intro o h; cases h)
    (by intro o h; cases h) (by
      show (0 : ℝ) ≤ [].sum + _
      simp [args3, StarArgs.star, Val.at, List.range_succ]; norm_num)
  have w := whole_added args3_fits ht
  obtain ⟨t1, -, -, -, -, t6, t7⟩ := addStars_base args3_fits (newTab_aligned _) ht
  obtain ⟨b, hb⟩ := addStars_cols args3_fits (newTab_aligned _) ht
  refine ⟨_, w, ?_, t7, t6, ?_, rfl, rfl, rfl, rfl, t1⟩
  · show t.ns = 3
    rw [hb]; rfl
  · show t.m = _
    rw [hb]
    show [] ++ _ = _
    simp [args3, StarArgs.star, Val.at, List.range_succ]

/-- Selecting the heavy star: one star, but `ns` still says three. -/
theorem C22_counts_example_violated : ∃ p s mem', Whole p 3 ∧ subCluster { mmin := some 5 } true p none [] = .ok (s, mem') ∧
    s.tab.ntot = 1 ∧ s.tab.m = [10] ∧ s.tab.ns = 3 := by
  obtain ⟨p, w, p1, p2, p3, p4, p5, p6, p7, p8, p9⟩ := full3_exists
  have ok : p.view.Ok { mmin := some 5 } 3 := w.ok (by norm_num) (.inl ⟨rfl, rfl⟩)
  have hi : GivenOk none [] 3 := by intro p h; cases h
  obtain ⟨s, mem', h⟩ := C22_total (mem := []) w.al ok hi (by rw [p4]; simp)
  obtain ⟨sel, c1, c2, c3, c4, c5, -⟩ := C22_rows w.al ok hi h
  have hsel : sel = [2] := by
    refine List.Pairwise.eq_of_mem_iff (r := (· < ·)) c1 (by simp) fun i => ?_
    rw [c2]
    have key : ∀ i, Passes { mmin := some 5 } p.view i ↔ 5 ≤ p.tab.m[i]! := by
      intro i
      constructor
      · intro h; exact h.m.1 5 rfl
      · intro h
        refine ⟨?_, ?_, ?_, ?_, ?_, ?_⟩
        · simp [Within]
        · exact ⟨by rintro b ⟨⟩; exact h, by intro b hb; cases hb⟩
        · simp [Within]
        · simp [Within]
        · intro p hp; cases hp
        · intro hp; exact (hp p5).elim
    rw [key, p4, List.mem_singleton]
    constructor
    · rintro ⟨h1, -, h2⟩
      interval_cases i
      · norm_num at h2
      · norm_num at h2
      · rfl
    · rintro rfl
      refine ⟨by norm_num, trivial, by norm_num⟩
  subst hsel
  have hx : s.tab.x ≠ [] := by
    intro e
    have := c3.x
    rw [e] at this
    simp at this
  refine ⟨p, s, mem', w, h, c4, ?_, ?_⟩
  · have h1 := (c5 0 (by simp)).1
    have h2 : s.tab.m[0]! = p.tab.m[2]! := (congrArg Star.m h1 :)
    have h3 := c3.m
    rw [p4] at h2
    match hm : s.tab.m, h3 with
    | [a], _ =>
      rw [hm] at h2
      simp at h2
      rw [h2]
  · rw [(C22_counts_violated w ok hi p3 h hx).1, p1]

/-! ### overlap_cluster -/

theorem foldl_min_lt {l : List ℝ} {a t : ℝ} : l.foldl min a < t ↔ a < t ∨ ∃ x ∈ l, x < t := by
  induction l generalizing a with
  | nil => simp
  | cons b l ih =>
    rw [List.foldl_cons, ih, min_lt_iff]
    simp only [List.mem_cons, exists_eq_or_imp]
    tauto

theorem overlapMask_spec {tol : ℝ} {projected : Bool} {b : List Ph} (hb : b ≠ []) (a : List Ph) :
    ∃ mask, overlapMask tol projected a b = .ok mask ∧
      MaskOf mask a.length (fun i => ∃ q ∈ b, sepOf projected a[i]! q < tol) := by
  induction a with
  | nil => exact ⟨[], rfl, rfl, by intro i hi; simp at hi⟩
  | cons p a ih =>
    obtain ⟨mask, h1, h2⟩ := ih
    obtain ⟨q, b, rfl⟩ := List.exists_cons_of_ne_nil hb
    refine ⟨decide ((b.map (sepOf projected p)).foldl min (sepOf projected p q) < tol) :: mask, ?_, ?_, ?_⟩
    · unfold overlapMask at h1 ⊢
      rw [List.mapM_cons, h1]
      rfl
    · simp [h2.len]
    · intro i hi
      cases i with
      | zero =>
        simp only [List.getElem!_cons_zero, decide_eq_true_eq, foldl_min_lt, List.mem_map, List.mem_cons]
        constructor
        · rintro (h | ⟨x, ⟨y, hy, rfl⟩, h⟩)
          · exact ⟨q, .inl rfl, h⟩
          · exact ⟨y, .inr hy, h⟩
        · rintro ⟨y, rfl | hy, h⟩
          · exact .inl h
          · exact .inr ⟨_, ⟨y, hy, rfl⟩, h⟩
      | succ i =>
        simp only [List.getElem!_cons_succ]
        exact h2.val i (by simpa using hi)

/-- Star `i` of the cluster is nearer than `tol` to some star of `b`. -/
def Near (projected : Bool) (tol : ℝ) (t : Tab) (b : List Ph) (i : ℕ) : Prop :=
  ∃ q ∈ b, Real.sqrt ((t.x[i]! - q.x) ^ 2 + (t.y[i]! - q.y) ^ 2 + if projected then 0 else (t.z[i]! - q.z) ^ 2) < tol

/-- **C23.**  `overlap_cluster(a, b, tol, projected)` returns exactly the stars of `a` nearer than `tol` to at least one
star of `b`, in order and with their rows — among the stars of types 0 … 15, if the cluster has stellar types. -/
theorem C23_overlap {tol : ℝ} {projected : Bool} {p s : Full} {b : List Ph} {mem mem' : Mem} {n : ℕ}
    (w : Whole p n) (hn : 1 ≤ n) (hb : b ≠ []) (h : overlapCluster tol projected p b mem = .ok (s, mem')) :
    ∃ sel : List ℕ, sel.Pairwise (· < ·) ∧
      (∀ i, i ∈ sel ↔ i < n ∧ Near projected tol p.tab b i ∧ (p.kw ≠ [] → 0 ≤ p.kw[i]! ∧ p.kw[i]! ≤ 15)) ∧
      Aligned s.tab sel.length ∧ s.tab.ntot = sel.length ∧
      ∀ j < sel.length, s.tab.star j = p.tab.star sel[j]! ∧ s.tab.id[j]! = p.tab.id[sel[j]!]! := by
  have hrl := rowsOf_length w.al.x w.al.y w.al.z w.al.vx w.al.vy w.al.vz
  obtain ⟨mask, h1, h2⟩ := overlapMask_spec (tol := tol) (projected := projected) hb
    (rowsOf p.tab.x p.tab.y p.tab.z p.tab.vx p.tab.vy p.tab.vz)
  rw [hrl] at h2
  unfold overlapCluster at h
  simp only [h1, bind, Except.bind] at h
  have hget : (mem ++ [mask])[mem.length]! = mask := by rw [getElem!_pos _ _ (by simp)]; simp
  have hi : GivenOk (some mem.length) (mem ++ [mask]) n := by
    rintro p ⟨⟩
    rw [hget]; exact h2.len
  obtain ⟨sel, c1, c2, c3, c4, c5, -⟩ := C22_rows w.al (w.ok hn (.inl ⟨rfl, rfl⟩)) hi h
  refine ⟨sel, c1, fun i => ?_, c3, c4, c5⟩
  rw [c2]
  refine and_congr_right fun hin => and_congr ?_ ?_
  · show ((mem ++ [mask])[mem.length]!)[i]! = true ↔ _
    rw [hget, h2.val i hin, rowsOf_get w.al.x w.al.y w.al.z w.al.vx w.al.vy w.al.vz i hin]
    unfold Near sepOf
    cases projected <;> simp
  · constructor
    · intro h; exact h.kw
    · intro h
      refine ⟨?_, ?_, ?_, ?_, ?_, h⟩ <;> simp [Within]

/-- `overlap_cluster` succeeds on every consistent cluster of non-negative masses. -/
theorem C23_total {tol : ℝ} {projected : Bool} {p : Full} {b : List Ph} {mem : Mem} {n : ℕ}
    (w : Whole p n) (hn : 1 ≤ n) (hb : b ≠ []) (hm : ∀ x ∈ p.tab.m, 0 ≤ x) :
    ∃ s mem', overlapCluster tol projected p b mem = .ok (s, mem') := by
  have hrl := rowsOf_length w.al.x w.al.y w.al.z w.al.vx w.al.vy w.al.vz
  obtain ⟨mask, h1, h2⟩ := overlapMask_spec (tol := tol) (projected := projected) hb
    (rowsOf p.tab.x p.tab.y p.tab.z p.tab.vx p.tab.vy p.tab.vz)
  rw [hrl] at h2
  unfold overlapCluster
  simp only [h1, bind, Except.bind]
  refine C22_total w.al (w.ok hn (.inl ⟨rfl, rfl⟩)) ?_ hm
  rintro p ⟨⟩
  rw [getElem!_pos _ _ (by simp)]
  simpa using h2.len

/-- With a comparison cluster without stars the call raises instead of returning no stars. -/
theorem C23_empty_other_violated {tol : ℝ} {projected : Bool} {p : Full} {mem : Mem} {n : ℕ} (w : Whole p n) (hn : 1 ≤ n) :
    overlapCluster tol projected p [] mem = .error .valueError := by
  have hrl := rowsOf_length w.al.x w.al.y w.al.z w.al.vx w.al.vy w.al.vz
  unfold overlapCluster
  match e : rowsOf p.tab.x p.tab.y p.tab.z p.tab.vx p.tab.vy p.tab.vz with
  | [] => rw [e] at hrl; simp at hrl; omega
  | q :: l =>
    simp only [e, overlapMask, List.mapM_cons, List.map_nil, aminE]
    rfl

/-- Pre-main-sequence stars (type -1) are dropped however near they are. -/
theorem C23_types_violated {tol : ℝ} {projected : Bool} {p s : Full} {b : List Ph} {mem mem' : Mem} {n i : ℕ}
    (w : Whole p n) (hn : 1 ≤ n) (hb : b ≠ []) (h : overlapCluster tol projected p b mem = .ok (s, mem'))
    (hi : i < n) (hid : p.tab.id.Nodup) (hkw : p.kw.length = n) (hneg : p.kw[i]! = -1) :
    p.tab.id[i]! ∉ s.tab.id := by
  obtain ⟨sel, c1, c2, c3, c4, c5⟩ := C23_overlap w hn hb h
  intro hmem
  obtain ⟨j, hj, e⟩ := List.getElem_of_mem hmem
  have hj' : j < sel.length := by rw [← c3.id]; exact hj
  have e2 := (c5 j hj').2
  rw [getElem!_pos _ j hj, e] at e2
  have hs : sel[j]! ∈ sel := by rw [getElem!_pos _ j hj']; exact List.getElem_mem hj'
  obtain ⟨k1, -, k2⟩ := (c2 _).mp hs
  rw [getElem!_pos _ i (by rw [w.al.id]; exact hi), getElem!_pos _ sel[j]! (by rw [w.al.id]; exact k1)] at e2
  have := (List.Nodup.getElem_inj_iff hid).mp e2
  rw [← this] at k2
  have hk := k2 (by intro e3; rw [e3] at hkw; simp at hkw; omega)
  rw [hneg] at hk
  omega

/-- The hypotheses hold for a concrete cluster: the star at the origin's neighbourhood is found. -/
example : ∃ p s mem', Whole p 3 ∧ overlapCluster 2 false p [⟨0, 0, 0, 0, 0, 0⟩] [] = .ok (s, mem') := by
  obtain ⟨p, w, -, -, -, p4, -⟩ := full3_exists
  obtain ⟨s, mem', h⟩ := C23_total (tol := 2) (projected := false) (mem := []) (b := [⟨0, 0, 0, 0, 0, 0⟩]) w (by norm_num)
    (by simp) (by rw [p4]; simp)
  exact ⟨p, s, mem', w, h⟩

end

end CT
