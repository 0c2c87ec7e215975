/- C22, C23: totality, filters of filters, counts, binaries; overlap_cluster. -/
import Verif.Props.Subset2

namespace CT

noncomputable section

set_option linter.unusedSimpArgs false

theorem rowsOf_get {n : ℕ} : ∀ {x y z vx vy vz : List ℝ}, x.length = n → y.length = n → z.length = n →
    vx.length = n → vy.length = n → vz.length = n → ∀ i < n,
    (rowsOf x y z vx vy vz)[i]! = ⟨x[i]!, y[i]!, z[i]!, vx[i]!, vy[i]!, vz[i]!⟩ := by
  induction n with
  | zero => intro x y z vx vy vz _ _ _ _ _ _ i hi; omega
  | succ n ih =>
    intro x y z vx vy vz h1 h2 h3 h4 h5 h6 i hi
    match x, y, z, vx, vy, vz with
    | a :: x, b :: y, c :: z, d :: vx, e :: vy, f :: vz =>
      simp only [List.length_cons, Nat.add_right_cancel_iff] at h1 h2 h3 h4 h5 h6
      cases i with
      | zero => simp [rowsOf]
      | succ i =>
        simp only [rowsOf, List.getElem!_cons_succ]
        exact ih h1 h2 h3 h4 h5 h6 i (by omega)

/-- A consistent cluster of `n` stars: all arrays aligned, derived data up to date, stellar types and energies there for
every star or not at all. -/
structure Whole (p : Full) (n : ℕ) : Prop where
  al : Aligned p.tab n
  ntot : p.tab.ntot = n
  fresh : Fresh p.tab.base
  rows : p.tab.base.st = rowsOf p.tab.x p.tab.y p.tab.z p.tab.vx p.tab.vy p.tab.vz
  kw : p.kw = [] ∨ p.kw.length = n
  energies : (p.kin = [] ∧ p.pot = [] ∧ p.etot = []) ∨ (p.kin.length = n ∧ p.pot.length = n ∧ p.etot.length = n)

theorem AreNorms.len {q : Ph → ℝ} {st : List Ph} {l : List ℝ} (h : AreNorms q st l) : l.length = st.length :=
  (List.Forall₂.length_eq h).symm

theorem Whole.st_len {p : Full} {n : ℕ} (w : Whole p n) : p.tab.base.st.length = n := by
  rw [w.rows]; exact rowsOf_length w.al.x w.al.y w.al.z w.al.vx w.al.vy w.al.vz

theorem Whole.arrays {p : Full} {n : ℕ} (w : Whole p n) (hn : 1 ≤ n) : p.view.Arrays n :=
  { pos := hn
    ntot := w.ntot
    r := w.fresh.r.len.trans w.st_len
    rpro := w.fresh.rpro.len.trans w.st_len
    v := w.fresh.v.len.trans w.st_len
    vpro := w.fresh.vpro.len.trans w.st_len
    m := w.al.m
    npop := w.al.npop
    kw := w.kw }

theorem Whole.ok {q : SubArgs} {p : Full} {n : ℕ} (w : Whole p n) (hn : 1 ≤ n)
    (he : (q.emin = none ∧ q.emax = none) ∨ p.etot ≠ []) : p.view.Ok q n :=
  { w.arrays hn with
    etot := by
      rcases he with h | h
      · exact .inl h
      · rcases w.energies with ⟨-, -, e⟩ | ⟨-, -, e⟩
        · exact (h e).elim
        · exact .inr e }

/-- Distance from the origin, as the user computes it from the row. -/
theorem Whole.radii {p : Full} {n : ℕ} (w : Whole p n) {i : ℕ} (hi : i < n) (b : Bool) :
    p.view.rAt b i = (if b then Real.sqrt ((p.tab.star i).x ^ 2 + (p.tab.star i).y ^ 2)
      else Real.sqrt ((p.tab.star i).x ^ 2 + (p.tab.star i).y ^ 2 + (p.tab.star i).z ^ 2)) ∧
    p.view.vAt b i = (if b then Real.sqrt ((p.tab.star i).vx ^ 2 + (p.tab.star i).vy ^ 2)
      else Real.sqrt ((p.tab.star i).vx ^ 2 + (p.tab.star i).vy ^ 2 + (p.tab.star i).vz ^ 2)) := by
  obtain ⟨h1, h2, h3, h4⟩ := C20_radius w.fresh (i := i) (by rw [w.st_len]; exact hi)
  have e := rowsOf_get w.al.x w.al.y w.al.z w.al.vx w.al.vy w.al.vz i hi
  rw [← w.rows] at e
  rw [e] at h1 h2 h3 h4
  cases b
  · exact ⟨h1, h3⟩
  · exact ⟨h2, h4⟩

/-- Facts about a non-empty result. -/
theorem sub_facts {q : SubArgs} {sort : Bool} {p s : Full} {indx : Option ℕ} {mem mem' : Mem} {n : ℕ}
    (w : Whole p n) (ok : p.view.Ok q n) (hi : GivenOk indx mem n)
    (h : subCluster q sort p indx mem = .ok (s, mem')) (hne : s.tab.x ≠ []) :
    Whole s s.tab.x.length ∧ s.tab.base.bunits = bunitsOfUnits p.tab.base.units ∧ s.tab.ns = p.tab.ns ∧
      (p.tab.id2 = [] → s.tab.nb = p.tab.nb) := by
  obtain ⟨mask, hm, hcase⟩ := subCluster_run ok hi h
  rcases hcase with ⟨he, rfl⟩ | ⟨hne', t, t', ht, ht', rfl⟩
  · exact (hne rfl).elim
  · have hf := subArgs_fits w.al hm.len hne'
    obtain ⟨al1, n1, -, -, s1, i1, -⟩ := C18_add_stars hf (newTab_aligned _) ht
    simp only [Nat.zero_add] at al1 n1 s1 i1
    obtain ⟨nb, id2, b, hb, b1, b2, b3, b4, b5, b6, b7, b8, b9⟩ := copied_tab (mask := mask) (p := p) (t := t)
    obtain ⟨t1, t2, t3, t4, -⟩ := addStars_base hf (newTab_aligned _) ht
    rw [hb] at ht'
    obtain ⟨d, rfl, hd⟩ := analyzeTab_base ht'
    obtain ⟨v1, v2, v3, v4, v5, v6, v7, v8⟩ := copied_cols (mask := mask) (p := p) (t := t)
    have hst := (analyze_same hd).2.1
    have hbu : d.bunits = b.bunits := (congrArg Cluster.bunits (analyze_core hd) :)
    have npos := ok.pos
    have hlen : t.x.length = (maskPos mask).length := al1.x
    refine ⟨?_, hbu.trans (b4.trans t4), rfl, b9⟩
    refine ⟨?_, ?_, ?_, ?_, ?_, ?_⟩
    · show Aligned _ t.x.length
      rw [hlen]
      exact ⟨al1.x, al1.y, al1.z, al1.vx, al1.vy, al1.vz, al1.m, al1.m0, al1.npop, al1.id⟩
    · exact n1.trans hlen.symm
    · exact analyze_fresh hd
    · exact hst
    · show (copied mask p (fresh p t)).kw = [] ∨ (copied mask p (fresh p t)).kw.length = t.x.length
      rw [v1]
      rcases w.kw with e | e
      · left
        simp [e, maskSel]
      · right
        rw [if_pos (.inr (by omega)), maskSel_length (by rw [hm.len, e]), hlen]
    · show ((copied mask p (fresh p t)).kin = [] ∧ (copied mask p (fresh p t)).pot = [] ∧
        (copied mask p (fresh p t)).etot = []) ∨ ((copied mask p (fresh p t)).kin.length = t.x.length ∧
        (copied mask p (fresh p t)).pot.length = t.x.length ∧ (copied mask p (fresh p t)).etot.length = t.x.length)
      rw [v6, v7, v8]
      rcases w.energies with ⟨-, -, e⟩ | ⟨e1, e2, e3⟩
      · left; simp [e]
      · right
        rw [if_pos (by omega), if_pos (by omega), if_pos (by omega), List.length_zipWith,
          maskSel_length (by rw [hm.len, e1]), maskSel_length (by rw [hm.len, e2]), hlen]
        simp

/-- Energies of the selected stars. -/
theorem sub_etot {q : SubArgs} {sort : Bool} {p s : Full} {indx : Option ℕ} {mem mem' : Mem} {n : ℕ}
    (w : Whole p n) (ok : p.view.Ok q n) (hi : GivenOk indx mem n) {sel : List ℕ} (hsel : sel.Pairwise (· < ·))
    (hmem : ∀ i, i ∈ sel ↔ i < n ∧ given indx mem i ∧ Passes q p.view i)
    (h : subCluster q sort p indx mem = .ok (s, mem')) (he : ∀ i < n, p.etot[i]! = p.kin[i]! + p.pot[i]!)
    (hp : p.etot ≠ []) (hne : sel ≠ []) : Picked sel p.etot s.etot := by
  obtain ⟨mask, hm, hcase⟩ := subCluster_run ok hi h
  have e : sel = maskPos mask := by
    refine List.Pairwise.eq_of_mem_iff (r := (· < ·)) hsel (maskPos_sorted mask) fun i => ?_
    rw [hmem, mem_maskPos, hm.len]
    constructor
    · rintro ⟨h1, h2⟩; exact ⟨h1, (hm.val i h1).mpr h2⟩
    · rintro ⟨h1, h2⟩; exact ⟨h1, (hm.val i h1).mp h2⟩
  subst e
  rcases hcase with ⟨he, rfl⟩ | ⟨-, t, t', ht, ht', rfl⟩
  · exact (hne he).elim
  · obtain ⟨v1, v2, v3, v4, v5, v6, v7, v8⟩ := copied_cols (mask := mask) (p := p) (t := t)
    show Picked _ _ (copied mask p (fresh p t)).etot
    rcases w.energies with ⟨-, -, e⟩ | ⟨e1, e2, e3⟩
    · exact (hp e).elim
    · have hpos : 0 < p.etot.length := List.length_pos_iff.mpr hp
      rw [v8, if_pos hpos]
      have k1 := Picked.of_mask (mask := mask) (l := p.kin) (by rw [hm.len, e1])
      have k2 := Picked.of_mask (mask := mask) (l := p.pot) (by rw [hm.len, e2])
      have hl : (List.zipWith (· + ·) (maskSel mask p.kin) (maskSel mask p.pot)).length = (maskPos mask).length := by
        rw [List.length_zipWith, k1.1, k2.1, min_self]
      refine ⟨hl, fun j hj => ?_⟩
      have hin : (maskPos mask)[j]! < n := by
        rw [getElem!_pos _ j hj]
        have := (mem_maskPos.mp (List.getElem_mem hj)).1
        rwa [hm.len] at this
      rw [he _ hin, ← k1.2 j hj, ← k2.2 j hj, getElem!_pos _ j (by rw [hl]; exact hj), List.getElem_zipWith,
        getElem!_pos _ j (by rw [k1.1]; exact hj), getElem!_pos _ j (by rw [k2.1]; exact hj)]


/-- **C22 (success).**  `sub_cluster(…)` with its default `sortstars` succeeds on every consistent cluster if the
selected stars have non-negative masses. -/
theorem C22_total {q : SubArgs} {p : Full} {indx : Option ℕ} {mem : Mem} {n : ℕ}
    (al : Aligned p.tab n) (ok : p.view.Ok q n) (hi : GivenOk indx mem n) (hm0 : ∀ x ∈ p.tab.m, 0 ≤ x) :
    ∃ s mem', subCluster q true p indx mem = .ok (s, mem') := by
  obtain ⟨k, mem1, h1, hm⟩ := subset_any ok hi
  unfold subCluster
  simp only [h1, bind, Except.bind, pure, Except.pure]
  by_cases hc : 0 < (mem1[k]!).count true
  · rw [if_pos hc]
    obtain ⟨mask, hmask⟩ : ∃ mask, mask = mem1[k]! := ⟨_, rfl⟩
    rw [← hmask] at hc hm ⊢
    have hne := count_pos_iff.mp hc
    have hf := subArgs_fits al hm.len hne
    obtain ⟨t, ht, hts, o1, o2⟩ := C65_total_sorted hf (newTab_aligned
      (newCluster p.tab.base.units p.tab.base.origin (bunitsOfUnits p.tab.base.units) p.tab.base.tphys))
      (by intro o h; cases h) (by intro o h; cases h) (by
        show 0 ≤ (([] : List ℝ).sum + _)
        rw [List.sum_nil, zero_add]
        refine List.sum_nonneg fun x hx => ?_
        obtain ⟨i, hi', rfl⟩ := List.mem_map.mp hx
        rw [subArgs_star al hm.len (List.mem_range.mp hi')]
        show (0 : ℝ) ≤ p.tab.m[(maskPos mask)[i]!]!
        have hj := List.mem_range.mp hi'
        have hin : (maskPos mask)[i]! < n := by
          rw [getElem!_pos _ i hj]
          have := (mem_maskPos.mp (List.getElem_mem hj)).1
          rwa [hm.len] at this
        rw [getElem!_pos p.tab.m _ (by rw [al.m]; exact hin)]
        exact hm0 _ (List.getElem_mem _))
    rw [ht]
    simp only
    obtain ⟨al1, n1, -, -, s1, i1, -⟩ := C18_add_stars hf (newTab_aligned _) ht
    obtain ⟨nb, id2, b, hb, b1, b2, b3, b4, b5, b6, b7, b8, b9⟩ := copied_tab (mask := mask) (p := p) (t := t)
    obtain ⟨t', ht'⟩ : ∃ t', analyzeTab true (copied mask p (fresh p t)).tab = .ok t' := by
      rw [hb]
      unfold analyzeTab
      rw [if_neg (by simp only [al1.x, al1.y, al1.z, al1.vx, al1.vy, al1.vz]; simp)]
      have hrl := rowsOf_length al1.x al1.y al1.z al1.vx al1.vy al1.vz
      have hpos := hf.pos
      obtain ⟨d, hd, -⟩ := analyze_total (s := true) (p := true)
        (c := { b with st := rowsOf t.x t.y t.z t.vx t.vy t.vz, m := t.m })
        { ne := by
            intro e
            have e' : rowsOf t.x t.y t.z t.vx t.vy t.vz = [] := e
            rw [e'] at hrl
            simp at hrl
            omega
          len := by
            show t.m.length = (rowsOf t.x t.y t.z t.vx t.vy t.vz).length
            rw [hrl, al1.m]
          mass := by
            show 0 ≤ t.m.sum
            rw [hts]
            show 0 ≤ (([] : List ℝ).sum + _)
            rw [List.sum_nil, zero_add]
            refine List.sum_nonneg fun x hx => ?_
            obtain ⟨i, hi', rfl⟩ := List.mem_map.mp hx
            rw [subArgs_star al hm.len (List.mem_range.mp hi')]
            show (0 : ℝ) ≤ p.tab.m[(maskPos mask)[i]!]!
            have hj := List.mem_range.mp hi'
            have hin : (maskPos mask)[i]! < n := by
              rw [getElem!_pos _ i hj]
              have := (mem_maskPos.mp (List.getElem_mem hj)).1
              rwa [hm.len] at this
            rw [getElem!_pos p.tab.m _ (by rw [al.m]; exact hin)]
            exact hm0 _ (List.getElem_mem _)
          ro := by
            intro o ho
            show IsOrder (rowsOf t.x t.y t.z t.vx t.vy t.vz).length o
            rw [hrl]
            exact o1 o (by rw [← b7]; exact ho)
          rpo := by
            intro o ho
            show IsOrder (rowsOf t.x t.y t.z t.vx t.vy t.vz).length o
            rw [hrl]
            exact o2 o (by rw [← b8]; exact ho) }
      simp only [bind, Except.bind, pure, Except.pure]
      rw [hd]
      exact ⟨_, rfl⟩
    have e : subOrbit p (subEnergies mask p (subBse mask p (subSse mask p (subNbody6 mask p
        { newFull (newTab (newCluster p.tab.base.units p.tab.base.origin (bunitsOfUnits p.tab.base.units)
            p.tab.base.tphys)).base with tab := t })))) = copied mask p (fresh p t) := rfl
    rw [e, ht']
    exact ⟨_, _, rfl⟩
  · rw [if_neg hc]
    exact ⟨_, _, rfl⟩

/-- **C22 (no filter).**  If every star passes (in particular with no bounds and all stellar types in 0 … 15), the
result has all the stars, in order. -/
theorem C22_no_filter {q : SubArgs} {sort : Bool} {p s : Full} {mem mem' : Mem} {n : ℕ}
    (al : Aligned p.tab n) (ok : p.view.Ok q n) (hall : ∀ i < n, Passes q p.view i)
    (h : subCluster q sort p none mem = .ok (s, mem')) :
    s.tab.ntot = n ∧ s.tab.stars n = p.tab.stars n ∧ s.tab.id = p.tab.id := by
  obtain ⟨sel, h1, h2, al2, h3, h4, -⟩ := C22_rows al ok (by intro p h; cases h) h
  have e : sel = List.range n := by
    refine List.Pairwise.eq_of_mem_iff (r := (· < ·)) h1 List.pairwise_lt_range fun i => ?_
    rw [h2, List.mem_range]
    exact ⟨fun h => h.1, fun h => ⟨h, trivial, hall i h⟩⟩
  subst e
  rw [List.length_range] at al2 h3 h4
  have key : ∀ j < n, s.tab.star j = p.tab.star j ∧ s.tab.id[j]! = p.tab.id[j]! := by
    intro j hj
    have := h4 j hj
    rwa [getElem!_pos _ j (by simpa using hj), List.getElem_range] at this
  refine ⟨h3, List.map_congr_left fun i hi => (key i (List.mem_range.mp hi)).1, ?_⟩
  refine List.ext_getElem (by rw [al2.id, al.id]) fun j hj hj' => ?_
  have := (key j (by rwa [al2.id] at hj)).2
  rwa [getElem!_pos _ j hj, getElem!_pos _ j hj'] at this

/-- A star passes the filter of the part exactly when it passes in the parent. -/
theorem passes_part {q q2 : SubArgs} {sort : Bool} {p s : Full} {indx : Option ℕ} {mem mem' : Mem} {n : ℕ} {sel : List ℕ}
    (w : Whole p n) (ok : p.view.Ok q n) (hi : GivenOk indx mem n) (hsel : sel.Pairwise (· < ·))
    (hmem : ∀ i, i ∈ sel ↔ i < n ∧ given indx mem i ∧ Passes q p.view i)
    (h : subCluster q sort p indx mem = .ok (s, mem'))
    (he : ∀ i < n, p.etot[i]! = p.kin[i]! + p.pot[i]!)
    (he2 : (q2.emin = none ∧ q2.emax = none) ∨ p.etot ≠ []) {j : ℕ} (hj : j < sel.length) :
    Passes q2 s.view j ↔ Passes q2 p.view sel[j]! := by
  obtain ⟨sel', h1, h2, al2, h3, h4, h5⟩ := C22_rows w.al ok hi h
  have e : sel' = sel := List.Pairwise.eq_of_mem_iff (r := (· < ·)) h1 hsel fun i => by rw [h2, hmem]
  subst e
  have hne : sel' ≠ [] := by rintro rfl; simp at hj
  have hxl : s.tab.x.length = sel'.length := al2.x
  have hx : s.tab.x ≠ [] := by intro e; rw [e] at hxl; simp at hxl; omega
  obtain ⟨ws, -⟩ := sub_facts w ok hi h hx
  rw [hxl] at ws
  obtain ⟨-, -, -, -, -, k1, -⟩ := h5 hne
  have hin : sel'[j]! < n := by
    rw [getElem!_pos _ j hj]
    exact ((hmem _).mp (List.getElem_mem hj)).1
  have hstar := (h4 j hj).1
  have hr : s.view.rAt q2.projected j = p.view.rAt q2.projected sel'[j]! := by
    rw [(ws.radii hj _).1, (w.radii hin _).1, hstar]
  have hv : s.view.vAt q2.projected j = p.view.vAt q2.projected sel'[j]! := by
    rw [(ws.radii hj _).2, (w.radii hin _).2, hstar]
  have hmm : s.view.m[j]! = p.view.m[sel'[j]!]! := (congrArg Star.m hstar :)
  have hnp : s.view.npop[j]! = p.view.npop[sel'[j]!]! := (congrArg Star.npop hstar :)
  have hee : Within q2.emin q2.emax s.view.etot[j]! ↔ Within q2.emin q2.emax p.view.etot[sel'[j]!]! := by
    rcases he2 with ⟨e1, e2⟩ | e
    · simp [Within, e1, e2]
    · have := (sub_etot w ok hi hsel hmem h he e hne).2 j hj
      have this' : s.view.etot[j]! = p.view.etot[sel'[j]!]! := this
      rw [this']
  have hkw : (s.view.kw ≠ [] → q2.kwmin ≤ s.view.kw[j]! ∧ s.view.kw[j]! ≤ q2.kwmax) ↔
      (p.view.kw ≠ [] → q2.kwmin ≤ p.view.kw[sel'[j]!]! ∧ p.view.kw[sel'[j]!]! ≤ q2.kwmax) := by
    by_cases e : p.kw = []
    · have e' : s.kw = [] := by
        obtain ⟨mask, hm, hcase⟩ := subCluster_run ok hi h
        rcases hcase with ⟨_, rfl⟩ | ⟨_, t, t', ht, ht', rfl⟩
        · rfl
        · have := (copied_cols (mask := mask) (p := p) (t := t)).1
          show (copied mask p (fresh p t)).kw = []
          rw [this, e]
          simp [maskSel]
      have e1 : p.view.kw = [] := e
      have e2 : s.view.kw = [] := e'
      simp [e1, e2]
    · have hl : p.kw.length = n := w.kw.resolve_left e
      obtain ⟨l1, l2⟩ := k1 hl
      have l2' : s.view.kw[j]! = p.view.kw[sel'[j]!]! := l2 j hj
      have e1 : p.view.kw ≠ [] := e
      have e2 : s.view.kw ≠ [] := by
        intro e2
        have e3 : s.kw = [] := e2
        rw [e3] at l1
        simp at l1; omega
      rw [l2']
      simp [e1, e2]
  constructor
  · rintro ⟨a, b, c, d, f, g⟩
    exact ⟨hr ▸ a, hmm ▸ b, hv ▸ c, hee.mp d, hnp ▸ f, hkw.mp g⟩
  · rintro ⟨a, b, c, d, f, g⟩
    exact ⟨hr ▸ a, hmm ▸ b, hv ▸ c, hee.mpr d, hnp ▸ f, hkw.mpr g⟩

/-- **C22 (parts of parts).**  Filtering the result of `sub_cluster` again selects exactly the stars of the original
cluster that pass both filters. -/
theorem C22_compose {q1 q2 : SubArgs} {sort1 sort2 : Bool} {p s s2 : Full} {mem mem1 mem2 mem3 : Mem} {n : ℕ}
    (w : Whole p n) (hn : 1 ≤ n)
    (he : ∀ i < n, p.etot[i]! = p.kin[i]! + p.pot[i]!)
    (he1 : (q1.emin = none ∧ q1.emax = none) ∨ p.etot ≠ [])
    (he2 : (q2.emin = none ∧ q2.emax = none) ∨ p.etot ≠ [])
    (h : subCluster q1 sort1 p none mem = .ok (s, mem1)) (hne : s.tab.x ≠ [])
    (h2 : subCluster q2 sort2 s none mem2 = .ok (s2, mem3)) :
    ∃ sel : List ℕ, sel.Pairwise (· < ·) ∧ (∀ i, i ∈ sel ↔ i < n ∧ Passes q1 p.view i ∧ Passes q2 p.view i) ∧
      Aligned s2.tab sel.length ∧ s2.tab.ntot = sel.length ∧
      ∀ j < sel.length, s2.tab.star j = p.tab.star sel[j]! ∧ s2.tab.id[j]! = p.tab.id[sel[j]!]! := by
  have ok1 := w.ok hn he1
  have hi : GivenOk none mem n := by intro p h; cases h
  have hi2 : ∀ k, GivenOk none mem2 k := by intro k p h; cases h
  obtain ⟨sel, c1, c2, al2, c3, c4, c5⟩ := C22_rows w.al ok1 hi h
  obtain ⟨ws, -⟩ := sub_facts w ok1 hi h hne
  have hxl : s.tab.x.length = sel.length := al2.x
  rw [hxl] at ws
  have hsn : 1 ≤ sel.length := by rw [← hxl]; exact List.length_pos_iff.mpr hne
  have hsel : sel ≠ [] := List.length_pos_iff.mp hsn
  have ok2 : s.view.Ok q2 sel.length := by
    refine ws.ok hsn ?_
    rcases he2 with e | e
    · exact .inl e
    · right
      intro e'
      have := (sub_etot w ok1 hi c1 c2 h he e hsel).1
      rw [e'] at this
      simp at this
      omega
  obtain ⟨sel2, d1, d2, al3, d3, d4, -⟩ := C22_rows ws.al ok2 (hi2 _) h2
  have hlt : ∀ j ∈ sel2, j < sel.length := fun j hj => ((d2 j).mp hj).1
  have hmono : ∀ a b, a < b → b < sel.length → sel[a]! < sel[b]! := by
    intro a b hab hb
    rw [getElem!_pos _ a (by omega), getElem!_pos _ b hb]
    exact List.pairwise_iff_getElem.mp c1 a b (by omega) hb hab
  refine ⟨sel2.map (fun j => sel[j]!), ?_, ?_, by rw [List.length_map]; exact al3, by rw [List.length_map]; exact d3, ?_⟩
  · rw [List.pairwise_map]
    exact d1.imp_of_mem fun {a b} _ hb hab => hmono a b hab (hlt b hb)
  · intro i
    rw [List.mem_map]
    constructor
    · rintro ⟨j, hj, rfl⟩
      obtain ⟨e1, -, e2⟩ := (d2 j).mp hj
      have hin := (c2 sel[j]!).mp (by rw [getElem!_pos _ j e1]; exact List.getElem_mem e1)
      exact ⟨hin.1, hin.2.2, (passes_part w ok1 hi c1 c2 h he he2 e1).mp e2⟩
    · rintro ⟨e1, e2, e3⟩
      have : i ∈ sel := (c2 i).mpr ⟨e1, trivial, e2⟩
      obtain ⟨j, hj, rfl⟩ := List.getElem_of_mem this
      refine ⟨j, (d2 j).mpr ⟨hj, trivial, (passes_part w ok1 hi c1 c2 h he he2 hj).mpr ?_⟩, getElem!_pos _ j hj⟩
      rw [getElem!_pos _ j hj]
      exact e3
  · intro j hj
    rw [List.length_map] at hj
    have hj2 := hlt sel2[j]! (by rw [getElem!_pos _ j hj]; exact List.getElem_mem hj)
    rw [getElem!_pos (sel2.map _) j (by simpa using hj), List.getElem_map, ← getElem!_pos sel2 j hj]
    exact ⟨(d4 j hj).1.trans (c4 _ hj2).1, (d4 j hj).2.trans (c4 _ hj2).2⟩

end

end CT
