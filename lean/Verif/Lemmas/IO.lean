import Verif.Spec.IO
import Verif.Props.Subset3
import Verif.Props.Stars3
import Verif.Props.Centre3

namespace CT

noncomputable section

set_option linter.unusedSimpArgs false

/-! ### tables -/

theorem rowsOnly_rows (rows : List (List ℝ)) : rowsOnly (rows.map Line.row) = .ok rows := by
  induction rows with
  | nil => rfl
  | cons r rows ih => simp only [List.map_cons, rowsOnly, ih, bind, Except.bind, pure, Except.pure]

theorem loadtxt_table {skip w : ℕ} {rows : List (List ℝ)} {f : List Line} (h : IsTable skip w rows f) (hne : rows ≠ []) :
    loadtxt skip f = .ok ⟨rows, w⟩ := by
  obtain ⟨header, hl, rfl, hw⟩ := h
  have e : (rows.headD []).length = w := by
    cases rows with
    | nil => exact absurd rfl hne
    | cons r rows => exact hw r (by simp)
  unfold loadtxt
  simp only [← hl, List.drop_left, rowsOnly_rows, bind, Except.bind, e, pure, Except.pure]
  rw [if_pos hw]

/-- The values of a named column. -/
def colOf (names : List String) (nums : List ℕ) (rows : List (List ℝ)) (nm : String) : Option (List ℝ) :=
  if nm ∈ names then some (rows.map (fun r => r[(nums[names.idxOf nm]!)]!)) else none

theorem namedCol_table {kw : Kw} {w : ℕ} {rows : List (List ℝ)} {names : List String} {nums : List ℕ}
    (hn : kw.names.getD defaultNames = names) (hk : kw.nums.getD defaultNums = nums) (hl : LayoutOk names nums w)
    (hr : 2 ≤ rows.length) (hw : 2 ≤ w) (nm : String) :
    namedCol kw ⟨rows, w⟩ nm = .ok (colOf names nums rows nm) := by
  unfold namedCol colOf
  simp only [hn, hk]
  split
  · rename_i hm
    have h1 : names.idxOf nm < nums.length := by rw [← hl.1]; exact List.idxOf_lt_length_of_mem hm
    have h2 : (nums[names.idxOf nm]!) < w := by
      rw [getElem!_pos nums _ h1]
      exact hl.2 _ (List.getElem_mem h1)
    rw [if_pos h1, Arr2.col, if_pos ⟨hr, hw, h2⟩]
    rfl
  · rfl

/-- The call of `add_stars` made for a table. -/
def tableArgs (names : List String) (nums : List ℕ) (rows : List (List ℝ)) : StarArgs :=
  { x := colOr (colOf names nums rows "x") 0, y := colOr (colOf names nums rows "y") 0
    z := colOr (colOf names nums rows "z") 0, vx := colOr (colOf names nums rows "vx") 0
    vy := colOr (colOf names nums rows "vy") 0, vz := colOr (colOf names nums rows "vz") 0
    m := some (colOr (colOf names nums rows "m") 1)
    id := (colOf names nums rows "id").map (fun l => .arr (l.map truncZ)), m0 := none, npop := none }

theorem snapArgs_table {kw : Kw} {w : ℕ} {rows : List (List ℝ)} {names : List String} {nums : List ℕ}
    (hn : kw.names.getD defaultNames = names) (hk : kw.nums.getD defaultNums = nums) (hl : LayoutOk names nums w)
    (hr : 2 ≤ rows.length) (hw : 2 ≤ w) :
    snapArgs kw ⟨rows, w⟩ = .ok (tableArgs names nums rows, (colOf names nums rows "kw").getD []) := by
  unfold snapArgs
  simp only [namedCol_table hn hk hl hr hw, bind, Except.bind, pure, Except.pure]
  rfl

theorem colOr_fits (names : List String) (nums : List ℕ) (rows : List (List ℝ)) (nm : String) (d : ℝ) :
    (colOr (colOf names nums rows nm) d).fits rows.length := by
  unfold colOr colOf
  split
  · simp [Val.fits]
  · trivial

theorem colOr_arr {names : List String} (nums : List ℕ) (rows : List (List ℝ)) {nm : String} (d : ℝ) (h : nm ∈ names) :
    (colOr (colOf names nums rows nm) d).isArr := by
  unfold colOr colOf
  rw [if_pos h]
  trivial

theorem colOr_at (names : List String) (nums : List ℕ) (rows : List (List ℝ)) (nm : String) (d : ℝ) {i : ℕ}
    (hi : i < rows.length) : (colOr (colOf names nums rows nm) d).at i = cell names nums rows nm d i := by
  unfold colOr colOf cell
  split
  · show (rows.map _)[i]! = _
    rw [getElem!_pos _ i (by simpa using hi), List.getElem_map, getElem!_pos rows i hi]
  · rfl

/-- The columns that `add_stars` is given. -/
def starColumns : List String := ["m", "x", "y", "z", "vx", "vy", "vz", "id"]

theorem tableArgs_fits {names : List String} {nums : List ℕ} {rows : List (List ℝ)} (hr : 2 ≤ rows.length)
    (hs : ∃ nm ∈ names, nm ∈ starColumns) : (tableArgs names nums rows).Fits rows.length := by
  have hc := colOr_fits names nums rows
  refine ⟨by omega, hc _ _, hc _ _, hc _ _, hc _ _, hc _ _, hc _ _, ?_, ?_, (by intro v h; cases h), (by intro v h; cases h), ?_⟩
  · intro v h
    cases h
    exact hc _ _
  · intro v h
    simp only [tableArgs, colOf] at h
    split at h
    · simp only [Option.map_some, Option.some.injEq] at h
      subst h
      simp [Val.fits]
    · cases h
  · obtain ⟨nm, h1, h2⟩ := hs
    have ha := fun (d : ℝ) => colOr_arr nums rows d h1
    right
    simp only [starColumns, List.mem_cons, List.not_mem_nil, or_false] at h2
    rcases h2 with rfl | rfl | rfl | rfl | rfl | rfl | rfl | rfl
    · exact .inr (.inr (.inr (.inr (.inr (.inr (.inl ⟨_, rfl, ha 1⟩))))))
    · exact .inl (ha 0)
    · exact .inr (.inl (ha 0))
    · exact .inr (.inr (.inl (ha 0)))
    · exact .inr (.inr (.inr (.inl (ha 0))))
    · exact .inr (.inr (.inr (.inr (.inl (ha 0)))))
    · exact .inr (.inr (.inr (.inr (.inr (.inl (ha 0))))))
    · refine .inr (.inr (.inr (.inr (.inr (.inr (.inr (.inl
        ⟨.arr ((rows.map (fun r => r[(nums[names.idxOf "id"]!)]!)).map truncZ), ?_, trivial⟩)))))))
      simp only [tableArgs, colOf, if_pos h1, Option.map_some]

/-! ### adding the stars to a new cluster -/

theorem analyze_unsorted {c : Cluster} (hne : c.st ≠ []) (h1 : c.rorder = none) (h2 : c.rproorder = none) :
    ∃ c', analyze false c = .ok c' ∧ c'.rorder = none ∧ c'.rproorder = none := by
  unfold analyze
  simp only [if_neg hne, Bool.false_eq_true, if_false, h1, h2, massRadii, bind, Except.bind, pure, Except.pure]
  exact ⟨_, rfl, rfl, rfl⟩

theorem addStars_blank {a : StarArgs} {n : ℕ} (f : a.Fits n) (u : Option Units) (o : Option Origin) (t : ℝ) :
    ∃ T, addStars a 0 false true (blankTab u o t) = .ok T ∧
      T.base.st = (List.range n).map (fun i => ⟨a.x.at i, a.y.at i, a.z.at i, a.vx.at i, a.vy.at i, a.vz.at i⟩) ∧
      T.base.m = (List.range n).map (fun i => (a.m.map (·.at i)).getD 1) ∧
      T.base.units = u ∧ T.base.origin = o ∧ T.base.tphys = t ∧ T.base.rorder = none ∧ T.base.rproorder = none ∧
      (¬(u = some .radec ∧ o = some .sky) → T.base.rest = (newCluster u o (bunitsOfUnits u) t).rest) ∧
      T.base.c = ⟨0, 0, 0, 0, 0, 0⟩ ∧ T.base.gc = ⟨0, 0, 0, 0, 0, 0⟩ ∧
      Fresh T.base ∧ T.id = a.ids n [] 0 ∧ T.ntot = n := by
  obtain ⟨s, hs, s1, s2, s3, s4, s5, s6, s7, s8⟩ : ∃ s, addSkyCols a.expand (appended a n (blankTab u o t)) =
      { appended a n (blankTab u o t) with base := s } ∧
      s.units = u ∧ s.origin = o ∧ s.tphys = t ∧ s.rorder = none ∧ s.rproorder = none ∧
      (¬(u = some .radec ∧ o = some .sky) → s.rest = (newCluster u o (bunitsOfUnits u) t).rest) ∧
      s.c = ⟨0, 0, 0, 0, 0, 0⟩ ∧ s.gc = ⟨0, 0, 0, 0, 0, 0⟩ := by
    unfold addSkyCols
    split
    · rename_i h
      exact ⟨_, rfl, rfl, rfl, rfl, rfl, rfl, fun h' => absurd h h', rfl, rfl⟩
    · exact ⟨_, rfl, rfl, rfl, rfl, rfl, rfl, fun _ => rfl, rfl, rfl⟩
  have al : Aligned (appended a n (blankTab u o t)) (0 + n) := (newTab_aligned _).appended
  obtain ⟨rows, hrows⟩ : ∃ rows, rows = rowsOf (appended a n (blankTab u o t)).x (appended a n (blankTab u o t)).y
    (appended a n (blankTab u o t)).z (appended a n (blankTab u o t)).vx (appended a n (blankTab u o t)).vy
    (appended a n (blankTab u o t)).vz := ⟨_, rfl⟩
  have hr2 : rows = (List.range n).map (fun i => ⟨a.x.at i, a.y.at i, a.z.at i, a.vx.at i, a.vy.at i, a.vz.at i⟩) := by
    rw [hrows]
    simp only [appended, blankTab, newTab, List.nil_append, rowsOf_map]
  have hne : rows ≠ [] := by
    rw [hr2]
    have := f.pos
    simp
    omega
  obtain ⟨b, hb, b1, b2⟩ := analyze_unsorted
    (c := { s with st := rows, m := (appended a n (blankTab u o t)).m }) hne s4 s5
  have e : analyzeTab false { appended a n (blankTab u o t) with base := s } =
      .ok { appended a n (blankTab u o t) with base := b } := by
    unfold analyzeTab
    rw [if_neg (by simp only [al.x, al.y, al.z, al.vx, al.vy, al.vz]; simp)]
    simp only [bind, Except.bind, pure, Except.pure]
    rw [← hrows, hb]
  obtain ⟨k1, k2, k3, k4, k5, k6, k7, -, -, -, -, k8⟩ := core_fields (analyze_core hb)
  refine ⟨{ appended a n (blankTab u o t) with base := b, ntot := n, ns := (n : ℤ) - 0 }, ?_, ?_, ?_, k1.trans s1, k2.trans s2,
    k3.trans s3, b1, b2, fun h => k8.trans (s6 h), k6.trans s7, k7.trans s8, analyze_fresh hb, rfl, rfl⟩
  · unfold addStars
    simp only [Nat.lt_irrefl, if_false, bind, Except.bind, Nat.mul_zero, addSingles_eq f, al.fix, if_true, hs, e, pure,
      Except.pure]
    have hx : (appended a n (blankTab u o t)).x.length = n := by rw [al.x]; omega
    rw [hx]
    rfl
  · rw [← hr2]; exact k5
  · exact k4

/-! ### settling -/

theorem Galpy.Positive.pos {g : Galpy} (h : g.Positive) (u : Option Units) (o : Option Origin) (b : Option BUnits) (t : ℝ) :
    Pos g (newCluster u o b t) :=
  ⟨one_pos, one_pos, one_pos, one_pos, h.ro, h.vo, h.time, h.mass, h.vel⟩

theorem addOrbit_lin {g : Galpy} {p : Ph} {ou : Option Units} {t : Option ℝ} {c : Cluster} (hu : c.units ≠ some .radec) :
    ∃ q s, addOrbit g p ou t c = { c with gc := q, tphys := s } ∧ (ou = none → q = p ∧ s = t.getD c.tphys) := by
  unfold addOrbit
  simp only [if_neg hu]
  refine ⟨_, _, rfl, ?_⟩
  rintro rfl
  refine ⟨rfl, ?_⟩
  cases t <;> rfl

theorem Fresh.moved {c : Cluster} (f : Fresh c) (q : Ph) (s : ℝ) : Fresh { c with gc := q, tphys := s } :=
  ⟨f.1, f.2, f.3, f.4, f.5, f.6, f.7, f.8, f.9, f.10, f.11, f.12⟩

theorem Good.moved {c : Cluster} (h : Good c) (q : Ph) (s : ℝ) : Good { c with gc := q, tphys := s } :=
  h.same rfl rfl rfl rfl

/-- The values read from a line with the default columns. -/
theorem orbitVals_default {f : List Line} {n : ℕ} {t : ℝ} {p : Ph} (h : OrbitAt f n t p) :
    orbitVals f[n]? ["t", "x", "y", "z", "vx", "vy", "vz"] [0, 1, 2, 3, 4, 5, 6] ⟨0, ⟨0, 0, 0, 0, 0, 0⟩⟩ = .ok ⟨t, p⟩ := by
  obtain ⟨more, e⟩ := h
  rw [e]
  simp [orbitVals, orbitStep, orbitCell, bind, Except.bind, pure, Except.pure]

theorem orbitLines_eq (kw : Kw) (adv : Bool) : orbitLines kw adv - 1 = if adv then 0 else kw.nsnap.getD 0 := by
  unfold orbitLines
  cases adv
  · by_cases h : kw.nsnap.getD 0 = 0 <;> simp [h]
  · simp

/-- The cluster after reading the orbit file. -/
def placed (kw : Kw) (f : Option (List Line)) (t : ℝ) (p : Ph) (c : Cluster) : Cluster :=
  { c with
    gc := if f.isSome then p else c.gc
    tphys := if f.isSome ∧ kw.otime.getD false then t else c.tphys }

theorem readOrbitIf_ok {g : Galpy} {kw : Kw} {adv : Bool} {f : Option (List Line)} {t : ℝ} {p : Ph} {c : Cluster}
    (hu : c.units ≠ some .radec) (ok : OrbitOk kw adv f t p) :
    ∃ f', readOrbitIf g kw adv f c = .ok (placed kw f t p c, f') := by
  cases f with
  | none => exact ⟨none, rfl⟩
  | some L =>
    obtain ⟨k1, k2, k3, k4⟩ := ok L rfl
    simp only [placed, readOrbitIf, Option.elim_some, readOrbit, k1, k2, k3, Option.getD_none, orbitLines_eq,
      orbitVals_default k4, bind, Except.bind, pure, Except.pure, Option.isSome_some, if_true, true_and]
    obtain ⟨q, s, e, hqs⟩ := addOrbit_lin (g := g) (p := p) (ou := none)
      (t := if kw.otime.getD false then some t else none) hu
    obtain ⟨rfl, rfl⟩ := hqs rfl
    refine ⟨some (L.drop (orbitLines kw adv)), ?_⟩
    simp only [e]
    by_cases ht : kw.otime.getD false = true
    · simp only [if_pos ht, Option.getD_some]
    · simp only [if_neg ht, Option.getD_none]

/-- The end of loading: the stars stay where the file puts them. -/
structure Settled (kw : Kw) (f : Option (List Line)) (t : ℝ) (p : Ph) (c c' : Cluster) : Prop where
  units : c'.units = c.units
  origin : c'.origin = c.origin
  m : c'.m = c.m
  st : c'.st = c.st
  gc : f.isSome → c'.gc = p
  tphys : c'.tphys = if f.isSome ∧ kw.otime.getD false then t else c.tphys
  good : Good c'

theorem lin_units {c : Cluster} (l : Lin c) : c.units ≠ some .radec := by
  obtain ⟨u, h1, h2⟩ := l.units
  rw [h1]
  rintro e
  cases e
  exact h2

theorem galRows_galaxy (c gc : Ph) (st : List Ph) : galRows .galaxy c gc st = st.map some := rfl

theorem galRows_cluster_centre (c c' gc : Ph) (st : List Ph) : galRows .cluster c gc st = galRows .cluster c' gc st := rfl

theorem settleGalaxy_ok {g : Galpy} {fc : Cluster → Except Err Cluster} (hfc : CentreFinder g fc) {kw : Kw} {c : Cluster}
    (p : Pos g c) (l : Lin c) (hg : Good c) (fr : Fresh c) (ho : c.origin = some .galaxy) :
    ∃ c', settleGalaxy g fc kw c = .ok c' ∧ c'.units = c.units ∧ c'.origin = c.origin ∧ c'.m = c.m ∧ c'.st = c.st ∧
      c'.gc = c.gc ∧ c'.tphys = c.tphys ∧ Good c' := by
  unfold settleGalaxy
  split
  · have hu := lin_units l
    obtain ⟨c1, h1, g1⟩ := toCluster_total (s := false) (cm := none) hu hg
    have s1 := toCluster_ostep ho trivial hu h1
    have f1 := toCluster_fresh fr h1
    have p1 := p.of_rest s1.rest
    have l1 : Lin c1 := ⟨by rw [s1.units]; exact l.units, _, s1.origin, trivial⟩
    obtain ⟨c2, h2, k2, e2⟩ := hfc c1 p1 l1 g1 f1
    have eg := e2 s1.origin
    have hu2 : c2.units ≠ some .radec := by rw [k2.units, s1.units]; exact hu
    have ho2 : c2.origin = some .cluster := by rw [k2.origin]; exact s1.origin
    obtain ⟨c3, h3, g3⟩ := toCentre_total (s := kw.sort.getD true) (cm := none) hu2 k2.good
    have s3 := toCentre_ostep ho2 trivial hu2 h3
    have hu3 : c3.units ≠ some .radec := by rw [s3.units]; exact hu2
    obtain ⟨c4, h4, g4⟩ := toGalaxy_total (g := g) (s := true) hu3 g3
    have s4 := toGalaxy_ostep s3.origin trivial hu3 h4
    refine ⟨c4, by simp only [h1, h2, h3, h4, bind, Except.bind], ?_, ?_, ?_, ?_, ?_, ?_, g4⟩
    · rw [s4.units, s3.units, k2.units, s1.units]
    · rw [s4.origin, ho]
    · rw [s4.m, s3.m, k2.m, s1.m]
    · have r4 := s4.rows _ s3.origin
      rw [s3.rows _ ho2, eg, k2.st, galRows_cluster_centre c2.c c1.c, s1.rows _ ho] at r4
      simp only [galRows_galaxy] at r4
      exact List.map_injective_iff.mpr (Option.some_injective _) r4
    · rw [s4.gcp, s3.gcp, eg, s1.gcp]
    · rw [s4.tphys, s3.tphys, k2.tphys, s1.tphys]
  · exact ⟨c, rfl, rfl, rfl, rfl, rfl, rfl, rfl, hg⟩

theorem settleCluster_ok {g : Galpy} {fc : Cluster → Except Err Cluster} (hfc : CentreFinder g fc) {kw : Kw} {c : Cluster}
    (p : Pos g c) (l : Lin c) (hg : Good c) (fr : Fresh c) :
    ∃ c', settleCluster fc kw c = .ok c' ∧ c'.units = c.units ∧ c'.origin = c.origin ∧ c'.m = c.m ∧ c'.st = c.st ∧
      c'.tphys = c.tphys ∧ Good c' := by
  unfold settleCluster
  split
  · obtain ⟨c1, h1, k1, -⟩ := hfc c p l hg fr
    obtain ⟨c2, h2, g2⟩ := analyze_total (s := kw.sort.getD true) (p := true) k1.good
    obtain ⟨e1, e2, e3, e4, e5, -⟩ := core_fields (analyze_core h2)
    exact ⟨c2, by simp only [h1, h2, bind, Except.bind], e1.trans k1.units, e2.trans k1.origin, e4.trans k1.m,
      e5.trans k1.st, e3.trans k1.tphys, g2⟩
  · exact ⟨c, rfl, rfl, rfl, rfl, rfl, rfl, hg⟩

theorem settle_ok {g : Galpy} {fc : Cluster → Except Err Cluster} (hfc : CentreFinder g fc) {kw : Kw} {c : Cluster}
    {adv : Bool} {f : Option (List Line)} {t : ℝ} {q : Ph} {o : Option Origin}
    (p : Pos g c) (l : Lin c) (hg : Good c) (fr : Fresh c) (ho : c.origin = o) (ok : OrbitOk kw adv f t q) :
    ∃ c' f', settle g fc kw o adv f c = .ok (c', f') ∧ Settled kw f t q c c' := by
  have hu := lin_units l
  obtain ⟨o', ho', hl⟩ := l.origin
  have e : o = some o' := ho.symm.trans ho'
  unfold settle
  by_cases h1 : o = some .galaxy
  · rw [if_pos h1]
    obtain ⟨c1, f1, e1, k1, k2, k3, k4, k5, k6, g1, r1, fr1⟩ : ∃ c1 f1, placeGalaxy g fc kw adv f c = .ok (c1, f1) ∧
        c1.units = c.units ∧ c1.origin = c.origin ∧ c1.m = c.m ∧ c1.st = c.st ∧ (f.isSome → c1.gc = q) ∧
        c1.tphys = (if f.isSome ∧ kw.otime.getD false then t else c.tphys) ∧ Good c1 ∧ c1.rest = c.rest ∧ Fresh c1 := by
      unfold placeGalaxy
      cases f with
      | none =>
        obtain ⟨c1, h1, k1, -⟩ := hfc c p l hg fr
        exact ⟨c1, none, by simp [h1, bind, Except.bind, pure, Except.pure], k1.units, k1.origin, k1.m, k1.st, by simp, by simp [k1.tphys], k1.good, k1.rest, k1.fresh⟩
      | some L =>
        obtain ⟨f', hf⟩ := readOrbitIf_ok (g := g) hu ok
        refine ⟨placed kw (some L) t q c, f', ?_, rfl, rfl, rfl, rfl, fun _ => rfl, rfl, hg.moved _ _, rfl,
          fr.moved _ _⟩
        rw [if_neg (by simp)]
        exact hf
    obtain ⟨c2, h2, m1, m2, m3, m4, m5, m6, g2⟩ := settleGalaxy_ok hfc (kw := kw) (p.of_rest r1)
      ⟨by rw [k1]; exact l.units, by rw [k2]; exact l.origin⟩ g1 fr1 (by rw [k2, ho, h1])
    refine ⟨c2, f1, ?_, ⟨m1.trans k1, m2.trans k2, m3.trans k3, m4.trans k4, fun h => m5.trans (k5 h), m6.trans k6, g2⟩⟩
    simp only [e1, bind, Except.bind, h2, pure, Except.pure]
  · have h2 : o = some .cluster ∨ o = some .centre := by
      rw [e] at h1 ⊢
      cases o' <;> simp_all [Origin.linear]
    rw [if_neg h1, if_pos h2]
    obtain ⟨c1, e1, k1, k2, k3, k4, k5, g1⟩ := settleCluster_ok hfc (kw := kw) p l hg fr
    obtain ⟨f', hf⟩ := readOrbitIf_ok (g := g) (c := c1) (by rw [k1]; exact hu) ok
    refine ⟨placed kw f t q c1, f', by simp only [e1, bind, Except.bind]; exact hf, k1, k2, k3, k4, fun h => if_pos h, ?_,
      g1.moved _ _⟩
    rw [← k5]
    rfl

/-- `cluster.find_centre()` with its default arguments. -/
def findCentreDefault (g : Galpy) (c : Cluster) : Except Err Cluster :=
  (findCentreMethod g {} .harfst 101 none [] false c).map Prod.snd

theorem findCentreDefault_ok (g : Galpy) : CentreFinder g (findCentreDefault g) := by
  intro c p l hg fr
  have hst : c.st.length ≠ 0 := by simpa using hg.ne
  have hne : maskSel (List.replicate c.st.length true) (List.zip c.m c.st) ≠ [] := by
    intro e
    haveI : Inhabited MStar := ⟨(0, ⟨0, 0, 0, 0, 0, 0⟩)⟩
    have h1 := maskSel_length (mask := List.replicate c.st.length true) (l := List.zip c.m c.st)
      (by rw [List.length_zip, hg.len]; simp)
    rw [e] at h1
    have h2 := count_pos_iff.mp (List.count_pos_iff.mpr (show true ∈ List.replicate c.st.length true by simp [hst]))
    exact h2 (List.length_eq_zero_iff.mp h1.symm)
  obtain ⟨q, R, h1, -, -⟩ := C36_harfst (start := ({} : CentreArgs).start) (nsphere := ({} : CentreArgs).nsphere)
    (rmin := ({} : CentreArgs).rmin) (rmax := ({} : CentreArgs).rmax) (nmax := ({} : CentreArgs).nmax) (fuel := 101)
    (l := maskSel (List.replicate c.st.length true) (List.zip c.m c.st)) (Or.inl hne) (by decide)
  obtain ⟨c2, h2, d2, f2, g2, r2⟩ := findCentre_run (g := g) (a := {}) (meth := .harfst) (fuel := 101) (mask := none)
    (ids := []) (r := some q) p l hg fr (by intro m h; cases h) (by
      unfold centreOf
      rw [if_pos rfl]
      exact h1)
  obtain ⟨e1, e2, e3, e4, e5, e6⟩ := setCentre_same false q c2
  have hf : Fresh (setCentre false q c2) ∧ (setCentre false q c2).tphys = c2.tphys ∧
      (c2.origin = some .cluster → (setCentre false q c2).gc = c2.gc) := by
    unfold setCentre
    simp only
    repeat' split
    all_goals exact ⟨⟨f2.1, by simp_all [f2.2], f2.3, f2.4, f2.5, f2.6, f2.7, f2.8, f2.9, f2.10, f2.11, f2.12⟩, rfl, by simp_all⟩
  refine ⟨setCentre false q c2, ?_, ⟨e3.trans (congrArg Data.units d2), e4.trans (congrArg Data.origin d2),
    hf.2.1.trans (congrArg Data.tphys d2), e2.trans (congrArg Data.m d2), e1.trans (congrArg Data.st d2), e5.trans r2,
    e6 g2, hf.1⟩, ?_⟩
  · simp only [findCentreDefault, findCentreMethod, h2, bind, Except.bind, pure, Except.pure, Except.map, Option.map_some,
      Option.getD_some]
  · intro ho
    exact (hf.2.2 ((congrArg Data.origin d2).trans ho)).trans (congrArg Data.gc d2)

end

end CT
