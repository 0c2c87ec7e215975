/- Astropy tables (C114, C115). -/
import Verif.Spec.AstropyTable
import Verif.Lemmas.IO
import Verif.Props.IO2
import Verif.Props.IO3

namespace CT

noncomputable section

/-! ### columns -/

theorem searchCol_only {low : String → String} {t : ATable} {vs : List String} {l : List ℝ} (h : OnlyCol low t vs l) :
    searchCol low t vs = some l := by
  obtain ⟨nm, h1, h2, h3⟩ := h
  have key : ∀ v ∈ vs, ∀ a, (t.cols.find? (fun c => low c.1 = v)).map Prod.snd = some a → a = l := by
    intro v hv a ha
    obtain ⟨c, hc, rfl⟩ := Option.map_eq_some_iff.mp ha
    have hp := List.find?_some hc
    have hm := List.mem_of_find?_eq_some hc
    simp only [decide_eq_true_eq] at hp
    rw [h3 c hm (by rw [hp]; exact hv)]
  unfold searchCol
  cases hf : vs.findSome? (fun v => (t.cols.find? (fun c => low c.1 = v)).map Prod.snd) with
  | none =>
    exfalso
    have := List.findSome?_eq_none_iff.mp hf (low nm) h2
    rw [Option.map_eq_none_iff, List.find?_eq_none] at this
    exact this (nm, l) h1 (by simp)
  | some a =>
    obtain ⟨v, hv, ha⟩ := List.exists_of_findSome?_eq_some hf
    rw [key v hv a ha]

theorem searchCol_none {low : String → String} {t : ATable} {vs : List String} (h : NoCol low t vs) : searchCol low t vs = none := by
  unfold searchCol
  rw [List.findSome?_eq_none_iff]
  intro v hv
  rw [Option.map_eq_none_iff, List.find?_eq_none]
  intro c hc hq
  simp only [decide_eq_true_eq] at hq
  exact h c hc (by rw [hq]; exact hv)

theorem searchCol_opt {low : String → String} {t : ATable} {vs : List String} {l : Option (List ℝ)} (h : OptCol low t vs l) :
    searchCol low t vs = l := by
  cases l with
  | none => exact searchCol_none (h.2 rfl)
  | some a => exact searchCol_only (h.1 a rfl)

/-- **C114 (preference).**  Among several candidates the first name of the list that occurs decides, and among columns whose names
agree up to case the first one. -/
theorem C114_preference {low : String → String} {t : ATable} {a b : List String} {v : String} {p s : List (String × List ℝ)} {nm : String}
    {l : List ℝ} (h1 : NoCol low t a) (h2 : t.cols = p ++ (nm, l) :: s) (h3 : low nm = v) (h4 : ∀ c ∈ p, low c.1 ≠ v) :
    searchCol low t (a ++ v :: b) = some l := by
  have ha := searchCol_none h1
  unfold searchCol at ha ⊢
  rw [List.findSome?_append, ha]
  have : t.cols.find? (fun c => low c.1 = v) = some (nm, l) := by
    rw [h2, List.find?_append]
    have hp : p.find? (fun c => low c.1 = v) = none := by
      rw [List.find?_eq_none]
      intro c hc
      simpa using h4 c hc
    rw [hp]
    simp [h3]
  simp [this]

theorem searchTable_cartesian {low : String → String} {t : ATable} {k : ATCols} (h : Cartesian low t k) :
    searchTable low t false = .ok k := by
  unfold searchTable
  simp only [searchNames, searchCol_only h.x, searchCol_only h.y, searchCol_only h.z, searchCol_only h.vx, searchCol_only h.vy, searchCol_only h.vz,
    searchCol_opt h.m, searchCol_opt h.id, needCol, Option.elim_some, bind, Except.bind, pure, Except.pure]

theorem searchTable_sky {low : String → String} {t : ATable} {k : ATCols} (h : OnSky low t k) :
    searchTable low t true = .ok k := by
  unfold searchTable
  simp only [searchNames, searchCol_only h.x, searchCol_only h.y, searchCol_only h.z, searchCol_only h.vx, searchCol_only h.vy, searchCol_only h.vz,
    searchCol_opt h.m, searchCol_opt h.id, needCol, Option.elim_some, bind, Except.bind, pure, Except.pure]

theorem get_col {t : ATable} {n : ℕ} (ok : t.Ok n) {nm : String} {l : List ℝ} (h : (nm, l) ∈ t.cols) : t.get nm = .ok l := by
  unfold ATable.get
  obtain ⟨s, p, hs⟩ := List.append_of_mem h
  have hn := ok.names
  rw [hs, List.map_append, List.map_cons] at hn
  have hp : s.find? (fun c => c.1 = nm) = none := by
    rw [List.find?_eq_none]
    intro c hc hq
    simp only [decide_eq_true_eq] at hq
    have := (List.nodup_append.mp hn).2.2 c.1 (List.mem_map_of_mem hc) nm (by simp)
    exact this hq
  rw [hs, List.find?_append, hp]
  simp

theorem popCol_ok {t : ATable} {n : ℕ} (ok : t.Ok n) {cm : Mapper} {q : String} {l : List ℝ} (h : ∃ nm, cm q = some nm ∧ (nm, l) ∈ t.cols) :
    popCol t cm q = .ok l := by
  obtain ⟨nm, h1, h2⟩ := h
  unfold popCol
  rw [h1]
  exact get_col ok h2

theorem popColIf_ok {t : ATable} {n : ℕ} (ok : t.Ok n) {cm : Mapper} {q : String} {l : Option (List ℝ)}
    (h : (∀ a, l = some a → ∃ nm, cm q = some nm ∧ (nm, a) ∈ t.cols) ∧ (l = none → cm q = none)) : popColIf t cm q = .ok l := by
  unfold popColIf
  cases l with
  | none => rw [h.2 rfl]; rfl
  | some a =>
    obtain ⟨nm, h1, h2⟩ := h.1 a rfl
    rw [h1]
    simp only [Option.elim_some, get_col ok h2, bind, Except.bind, pure, Except.pure]

theorem mapTable_ok {t : ATable} {n : ℕ} (ok : t.Ok n) {cm : Mapper} {k : ATCols} (h : Mapped t cm k) :
    mapTable t cm = .ok (k, fun q => if q ∈ poppedKeys then none else cm q) := by
  unfold mapTable
  simp only [popCol_ok ok h.x, popCol_ok ok h.y, popCol_ok ok h.z, popCol_ok ok h.vx, popCol_ok ok h.vy, popCol_ok ok h.vz, popColIf_ok ok h.m,
    popColIf_ok ok h.id, bind, Except.bind, pure, Except.pure]

/-- All columns have `n` rows. -/
structure ATCols.Len (k : ATCols) (n : ℕ) : Prop where
  x : k.x.length = n
  y : k.y.length = n
  z : k.z.length = n
  vx : k.vx.length = n
  vy : k.vy.length = n
  vz : k.vz.length = n
  m : ∀ l, k.m = some l → l.length = n
  id : ∀ l, k.id = some l → l.length = n

theorem OnlyCol.len {low : String → String} {t : ATable} {vs : List String} {l : List ℝ} {n : ℕ} (h : OnlyCol low t vs l) (ok : t.Ok n) :
    l.length = n := by
  obtain ⟨nm, h1, -⟩ := h
  exact ok.rows _ h1

theorem Cartesian.len {low : String → String} {t : ATable} {k : ATCols} {n : ℕ} (h : Cartesian low t k) (ok : t.Ok n) : k.Len n :=
  ⟨h.x.len ok, h.y.len ok, h.z.len ok, h.vx.len ok, h.vy.len ok, h.vz.len ok, fun l hl => (h.m.1 l hl).len ok, fun l hl => (h.id.1 l hl).len ok⟩

theorem OnSky.len {low : String → String} {t : ATable} {k : ATCols} {n : ℕ} (h : OnSky low t k) (ok : t.Ok n) : k.Len n :=
  ⟨h.x.len ok, h.y.len ok, h.z.len ok, h.vx.len ok, h.vy.len ok, h.vz.len ok, fun l hl => (h.m.1 l hl).len ok, fun l hl => (h.id.1 l hl).len ok⟩

theorem Mapped.len {t : ATable} {cm : Mapper} {k : ATCols} {n : ℕ} (h : Mapped t cm k) (ok : t.Ok n) : k.Len n := by
  have q : ∀ {s : String} {l : List ℝ}, (∃ nm, cm s = some nm ∧ (nm, l) ∈ t.cols) → l.length = n := by
    rintro s l ⟨nm, -, h⟩
    exact ok.rows _ h
  exact ⟨q h.x, q h.y, q h.z, q h.vx, q h.vy, q h.vz, fun l hl => q (h.m.1 l hl), fun l hl => q (h.id.1 l hl)⟩

/-! ### stars -/

theorem ATCols.Len.fits {k : ATCols} {n : ℕ} (h : k.Len n) (hn : 1 ≤ n) : k.args.Fits n := by
  refine ⟨hn, h.x, h.y, h.z, h.vx, h.vy, h.vz, ?_, ?_, (by intro v h; cases h), (by intro v h; cases h), .inr (.inl trivial)⟩
  · intro v hv
    obtain ⟨l, hl, rfl⟩ := Option.map_eq_some_iff.mp hv
    exact h.m l hl
  · intro v hv
    obtain ⟨l, hl, rfl⟩ := Option.map_eq_some_iff.mp hv
    show (l.map truncZ).length = n
    rw [List.length_map]
    exact h.id l hl

/-- The stars are added as the columns say, and stay so as long as nothing moves them. -/
theorem addTable {k : ATCols} {n : ℕ} (h : k.Len n) (hn : 1 ≤ n) (u : Option Units) (o : Option Origin) (kw : Kw) :
    ∃ T, addStars k.args 0 false true (blankTab u o 0) = .ok T ∧ T.base.units = u ∧ T.base.origin = o ∧ T.base.tphys = 0 ∧
      (¬(u = some .radec ∧ o = some .sky) → T.base.rest = (newCluster u o (bunitsOfUnits u) 0).rest) ∧ Fresh T.base ∧
      T.base.c = ⟨0, 0, 0, 0, 0, 0⟩ ∧ T.base.gc = ⟨0, 0, 0, 0, 0, 0⟩ ∧
      ((∀ l, k.m = some l → 0 ≤ l.sum) → Good T.base) ∧
      ∀ (b : Cluster) (f : Option (List Line)), b.st = T.base.st → b.m = T.base.m → HasCols n k { runOf kw u o T [] b with ofile := f } := by
  obtain ⟨T, h1, h2, h3, h4, h5, h6, h7, h8, h9, h13, h14, h10, h11, h12⟩ := addStars_blank (h.fits hn) u o 0
  have em : ∀ i, (k.args.m.map (·.at i)).getD 1 = (k.m.map (·[i]!)).getD 1 := by
    intro i
    unfold ATCols.args
    cases k.m <;> rfl
  refine ⟨T, h1, h4, h5, h6, h9, h10, h13, h14, ?_, ?_⟩
  · intro hm
    refine ⟨?_, ?_, ?_, ?_, ?_⟩
    · rw [h2]
      intro e
      have := congrArg List.length e
      rw [List.length_map, List.length_range, List.length_nil] at this
      omega
    · rw [h2, h3]; simp
    · rw [h3]
      simp only [em]
      cases hk : k.m with
      | none => simp
      | some l =>
        have hl := h.m l hk
        have : (List.range n).map (fun i => (some (l[i]!)).getD 1) = l := by
          apply List.ext_getElem
          · simp [hl]
          · intro i g1 g2
            simp only [Option.getD_some, List.getElem_map, List.getElem_range]
            rw [getElem!_pos l i g2]
        simp only [Option.map_some]
        rw [this]
        exact hm l hk
    · rw [h7]; intro o h; cases h
    · rw [h8]; intro o h; cases h
  · intro b f hb1 hb2
    refine ⟨h12, ?_, ?_, ?_, ?_, ?_, ?_, ?_⟩
    · show b.st.length = _
      rw [hb1, h2]; simp
    · show b.m.length = _
      rw [hb2, h3]; simp
    · show T.id.length = _
      rw [h11, StarArgs.ids_length]
    · intro i hi
      show b.st[i]! = _
      rw [hb1, h2, get!_range_map hi]
      rfl
    · intro i hi
      show b.m[i]! = _
      rw [hb2, h3, get!_range_map hi, em]
    · intro l hl i hi j hj
      show T.id[i]! = j
      have e : k.args.id = some (.arr (l.map truncZ)) := by
        unfold ATCols.args
        rw [hl]
        rfl
      have hlen := h.id l hl
      rw [h11]
      unfold StarArgs.ids
      rw [e]
      simp only [get!_range_map hi, Val.at]
      rw [getElem!_pos _ i (by simpa [hlen] using hi), List.getElem_map]
      rw [getElem!_pos l i (by rw [hlen]; exact hi)] at hj
      rw [hj, truncZ_int]
    · intro hl i hi
      show T.id[i]! = _
      have e : k.args.id = none := by
        unfold ATCols.args
        rw [hl]
        rfl
      rw [h11, StarArgs.ids_none e, get!_range_map hi]
      simp [idStart]

/-- Doing nothing is a centre finder. -/
theorem CentreFinder.trivial (g : Galpy) : CentreFinder g Except.ok := by
  intro c _ _ hg fr
  exact ⟨c, rfl, ⟨rfl, rfl, rfl, rfl, rfl, rfl, hg, fr⟩, fun _ => rfl⟩

theorem settleTable_ok {g : Galpy} {fc : Cluster → Except Err Cluster} (hfc : CentreFinder g fc) {kw : Kw} {c : Cluster}
    {adv : Bool} {f : Option (List Line)} {t : ℝ} {q : Ph} {o : Option Origin}
    (p : Pos g c) (l : Lin c) (hg : Good c) (fr : Fresh c) (ho : c.origin = o) (ok : OrbitOk kw adv f t q) :
    ∃ c' f', settleTable g fc kw o adv f c = .ok (c', f') ∧ Settled kw f t q c c' := by
  by_cases h1 : o = some .galaxy
  · have : settleTable g fc kw o adv f c = settle g fc kw o adv f c := by
      unfold settleTable settle
      rw [if_pos h1, if_pos h1]
    rw [this]
    exact settle_ok hfc p l hg fr ho ok
  · have : settleTable g fc kw o adv f c = settle g Except.ok kw o adv f c := by
      unfold settleTable settle settleCluster analyzeKw
      rw [if_neg h1, if_neg h1]
      rfl
    rw [this]
    exact settle_ok (CentreFinder.trivial g) p l hg fr ho ok

/-- What `load_cluster` does once the columns are known. -/
theorem loadTable_cols {g : Galpy} {fc : Cluster → Except Err Cluster} {low : String → String} {t : ATable} {n : ℕ} {k : ATCols} {u : Units}
    {o : Origin} {kw : Kw} {ofile : Option (List Line)} {τ : ℝ} {p : Ph} {mapper m' : Option Mapper}
    (hc : tableCols low t mapper (some u) (some o) = .ok (k, m')) (hg : g.Positive) (hfc : CentreFinder g fc) (hl : k.Len n) (hn : 1 ≤ n)
    (hu : u.linear) (ho : o.linear) (hm : ∀ l, k.m = some l → 0 ≤ l.sum) (ht : kw.tphys = none) (hof : OrbitOk kw false ofile τ p) :
    ∃ r, loadTable g fc low t mapper (some u) (some o) ofile kw = .ok (r, m') ∧ HasCols n k r ∧
      r.base.units = some u ∧ r.base.origin = some o ∧ (ofile.isSome → r.base.gc = p) ∧
      r.base.tphys = (if ofile.isSome ∧ kw.otime.getD false then τ else 0) := by
  obtain ⟨T, h1, h2, h3, h4, h5, h6, -, -, h7, h8⟩ := addTable hl hn (some u) (some o) kw
  have hx : ¬((some u : Option Units) = some .radec ∧ (some o : Option Origin) = some .sky) := by
    rintro ⟨e, -⟩
    cases e
    exact hu
  obtain ⟨b, f', h9, s⟩ := settleTable_ok hfc (kw := kw) (adv := false) (f := ofile) (t := τ) (q := p) (o := some o)
    ((hg.pos (some u) (some o) (bunitsOfUnits (some u)) 0).of_rest (h5 hx))
    ⟨⟨u, h2, hu⟩, o, h3, ho⟩ (h7 hm) h6 h3 hof
  refine ⟨_, ?_, h8 b f' s.st s.m, s.units.trans h2, s.origin.trans h3, s.gc, ?_⟩
  · unfold loadTable
    rw [ht]
    simp only [hc, h1, h9, bind, Except.bind, pure, Except.pure, Option.isSome_none, Bool.false_eq_true, if_false]
  · show b.tphys = _
    rw [s.tphys, h4]

/-- **C114 (search).**  A table whose column names, up to case, determine the Cartesian columns gives one star per row, in order:
positions and velocities of the row, mass (1 if there is no such column) and id (the row number if there is none), in the units
and the frame given, placed where the orbit file says. -/
theorem C114_search {g : Galpy} {fc : Cluster → Except Err Cluster} {low : String → String} {t : ATable} {n : ℕ} {k : ATCols} {u : Units}
    {o : Origin} {kw : Kw} {ofile : Option (List Line)} {τ : ℝ} {p : Ph} (hg : g.Positive) (hfc : CentreFinder g fc) (ok : t.Ok n)
    (hn : 1 ≤ n) (hk : Cartesian low t k) (hu : u.linear) (ho : o.linear) (hm : ∀ l, k.m = some l → 0 ≤ l.sum) (ht : kw.tphys = none)
    (hof : OrbitOk kw false ofile τ p) :
    ∃ r, loadTable g fc low t none (some u) (some o) ofile kw = .ok (r, none) ∧ HasCols n k r ∧
      r.base.units = some u ∧ r.base.origin = some o ∧ (ofile.isSome → r.base.gc = p) ∧
      r.base.tphys = (if ofile.isSome ∧ kw.otime.getD false then τ else 0) := by
  have hc : tableCols low t none (some u) (some o) = .ok (k, none) := by
    unfold tableCols
    have : decide ((some u : Option Units) = some .radec ∧ (some o : Option Origin) = some .sky) = false := by
      rw [decide_eq_false_iff_not]
      rintro ⟨e, -⟩
      cases e
      exact hu
    simp only [Option.elim_none, this, searchTable_cartesian hk, bind, Except.bind, pure, Except.pure]
  exact loadTable_cols hc hg hfc (hk.len ok) hn hu ho hm ht hof

/-- **C114 (dictionary).**  The same with the columns named by `column_mapper`, whatever they are called. -/
theorem C114_mapper {g : Galpy} {fc : Cluster → Except Err Cluster} {low : String → String} {t : ATable} {n : ℕ} {k : ATCols} {u : Units}
    {o : Origin} {kw : Kw} {ofile : Option (List Line)} {τ : ℝ} {p : Ph} {cm : Mapper} (hg : g.Positive) (hfc : CentreFinder g fc) (ok : t.Ok n)
    (hn : 1 ≤ n) (hk : Mapped t cm k) (hu : u.linear) (ho : o.linear) (hm : ∀ l, k.m = some l → 0 ≤ l.sum) (ht : kw.tphys = none)
    (hof : OrbitOk kw false ofile τ p) :
    ∃ r m', loadTable g fc low t (some cm) (some u) (some o) ofile kw = .ok (r, m') ∧ HasCols n k r ∧
      r.base.units = some u ∧ r.base.origin = some o ∧ (ofile.isSome → r.base.gc = p) ∧
      r.base.tphys = (if ofile.isSome ∧ kw.otime.getD false then τ else 0) := by
  have hc : tableCols low t (some cm) (some u) (some o) = .ok (k, some (fun q => if q ∈ poppedKeys then none else cm q)) := by
    unfold tableCols
    simp only [Option.elim_some, mapTable_ok ok hk, bind, Except.bind, pure, Except.pure]
  obtain ⟨r, h⟩ := loadTable_cols hc hg hfc (hk.len ok) hn hu ho hm ht hof
  exact ⟨r, _, h⟩

/-- **C114 (sky).**  In `radec` units with origin `sky` the columns are the coordinates on the sky; the stars have these, in
order, as coordinates; any masses. -/
theorem C114_sky {g : Galpy} {fc : Cluster → Except Err Cluster} {low : String → String} {t : ATable} {n : ℕ} {k : ATCols}
    {kw : Kw} {ofile : Option (List Line)} (ok : t.Ok n) (hn : 1 ≤ n) (hk : OnSky low t k) (ht : kw.tphys = none) :
    ∃ r, loadTable g fc low t none (some .radec) (some .sky) ofile kw = .ok (r, none) ∧ HasCols n k r ∧
      r.base.units = some .radec ∧ r.base.origin = some .sky := by
  obtain ⟨T, h1, h2, h3, h4, h5, h6, -, -, h7, h8⟩ := addTable (hk.len ok) hn (some .radec) (some .sky) kw
  refine ⟨_, ?_, h8 T.base ofile rfl rfl, h2, h3⟩
  unfold loadTable tableCols settleTable
  rw [ht]
  simp only [Option.elim_none, and_self, decide_true, searchTable_sky hk, h1, bind, Except.bind, pure, Except.pure, Option.isSome_none,
    Bool.false_eq_true, if_false, reduceCtorEq, Option.some.injEq, or_self]

/-- **C114 (missing columns).**  A table in which one of the six coordinates is not found raises `ValueError`; nothing is
guessed. -/
theorem C114_missing {g : Galpy} {fc : Cluster → Except Err Cluster} {low : String → String} {t : ATable} {u : Option Units} {o : Option Origin}
    {kw : Kw} {ofile : Option (List Line)} {vs : List String} (hq : vs ∈ coordNames (u = some .radec ∧ o = some .sky)) (h : NoCol low t vs) :
    loadTable g fc low t none u o ofile kw = .error .valueError := by
  obtain ⟨q, hq, h⟩ : ∃ q, q ∈ ["x", "y", "z", "vx", "vy", "vz"] ∧
      NoCol low t (searchNames (decide (u = some .radec ∧ o = some .sky)) q) := by
    unfold coordNames at hq
    by_cases hs : u = some Units.radec ∧ o = some Origin.sky
    · rw [if_pos hs] at hq
      rw [decide_eq_true hs]
      simp only [List.mem_cons, List.not_mem_nil, or_false] at hq
      rcases hq with rfl | rfl | rfl | rfl | rfl | rfl
      · exact ⟨"x", by decide, h⟩
      · exact ⟨"y", by decide, h⟩
      · exact ⟨"z", by decide, h⟩
      · exact ⟨"vx", by decide, h⟩
      · exact ⟨"vy", by decide, h⟩
      · exact ⟨"vz", by decide, h⟩
    · rw [if_neg hs] at hq
      rw [decide_eq_false hs]
      simp only [List.mem_cons, List.not_mem_nil, or_false] at hq
      rcases hq with rfl | rfl | rfl | rfl | rfl | rfl
      · exact ⟨"x", by decide, h⟩
      · exact ⟨"y", by decide, h⟩
      · exact ⟨"z", by decide, h⟩
      · exact ⟨"vx", by decide, h⟩
      · exact ⟨"vy", by decide, h⟩
      · exact ⟨"vz", by decide, h⟩
  have hs := searchCol_none h
  unfold loadTable tableCols searchTable
  obtain ⟨sky, hsky⟩ : ∃ sky, sky = decide (u = some Units.radec ∧ o = some Origin.sky) := ⟨_, rfl⟩
  rw [← hsky] at hs ⊢
  simp only [Option.elim_none, bind, Except.bind, needCol]
  cases hx : searchCol low t (searchNames sky "x") <;> simp only [Option.elim_none, Option.elim_some]
  cases hy : searchCol low t (searchNames sky "y") <;> simp only [Option.elim_none, Option.elim_some]
  cases hz : searchCol low t (searchNames sky "z") <;> simp only [Option.elim_none, Option.elim_some]
  cases hvx : searchCol low t (searchNames sky "vx") <;> simp only [Option.elim_none, Option.elim_some]
  cases hvy : searchCol low t (searchNames sky "vy") <;> simp only [Option.elim_none, Option.elim_some]
  cases hvz : searchCol low t (searchNames sky "vz") <;> simp only [Option.elim_none, Option.elim_some]
  simp only [List.mem_cons, List.not_mem_nil, or_false] at hq
  rcases hq with rfl | rfl | rfl | rfl | rfl | rfl <;> simp_all

theorem popCol_missing {t : ATable} {cm : Mapper} {q : String} (h : ∀ nm, cm q = some nm → ∀ c ∈ t.cols, c.1 ≠ nm) :
    popCol t cm q = .error .keyError := by
  unfold popCol
  cases hq : cm q with
  | none => rfl
  | some nm =>
    have : t.cols.find? (fun c => c.1 = nm) = none := by
      rw [List.find?_eq_none]
      intro c hc
      simpa using h nm hq c hc
    simp only [Option.elim_some, ATable.get, this, Option.elim_none]

theorem popCol_total (t : ATable) (cm : Mapper) (q : String) : (∃ l, popCol t cm q = .ok l) ∨ popCol t cm q = .error .keyError := by
  unfold popCol
  cases cm q with
  | none => exact .inr rfl
  | some nm =>
    simp only [Option.elim_some, ATable.get]
    cases t.cols.find? (fun c => c.1 = nm) with
    | none => exact .inr rfl
    | some c => exact .inl ⟨_, rfl⟩

/-- **C114 (missing columns, dictionary).**  A dictionary that does not name one of the six coordinates, or names a column the
table does not have, raises `KeyError`. -/
theorem C114_missing_key {g : Galpy} {fc : Cluster → Except Err Cluster} {low : String → String} {t : ATable} {u : Option Units} {o : Option Origin}
    {kw : Kw} {ofile : Option (List Line)} {cm : Mapper} {q : String} (hq : q ∈ ["x", "y", "z", "vx", "vy", "vz"])
    (h : ∀ nm, cm q = some nm → ∀ c ∈ t.cols, c.1 ≠ nm) :
    loadTable g fc low t (some cm) u o ofile kw = .error .keyError := by
  have hs := popCol_missing h
  have tot := popCol_total t cm
  unfold loadTable tableCols mapTable
  simp only [Option.elim_some, bind, Except.bind]
  rcases tot "x" with ⟨_, hx⟩ | hx <;> simp only [hx]
  rcases tot "y" with ⟨_, hy⟩ | hy <;> simp only [hy]
  rcases tot "z" with ⟨_, hz⟩ | hz <;> simp only [hz]
  rcases tot "vx" with ⟨_, hvx⟩ | hvx <;> simp only [hvx]
  rcases tot "vy" with ⟨_, hvy⟩ | hvy <;> simp only [hvy]
  rcases tot "vz" with ⟨_, hvz⟩ | hvz <;> simp only [hvz]
  simp only [List.mem_cons, List.not_mem_nil, or_false] at hq
  rcases hq with rfl | rfl | rfl | rfl | rfl | rfl <;> simp_all

/-! ### what goes wrong -/

/-- **C115 (violated: the caller's dictionary).**  Loading empties the dictionary passed as `column_mapper`: the second call with
the same arguments raises `KeyError`. -/
theorem C115_mapper_violated {g : Galpy} {fc : Cluster → Except Err Cluster} {low : String → String} {t : ATable} {n : ℕ} {k : ATCols} {u : Units}
    {o : Origin} {kw : Kw} {ofile : Option (List Line)} {τ : ℝ} {p : Ph} {cm : Mapper} (hg : g.Positive) (hfc : CentreFinder g fc) (ok : t.Ok n)
    (hn : 1 ≤ n) (hk : Mapped t cm k) (hu : u.linear) (ho : o.linear) (hm : ∀ l, k.m = some l → 0 ≤ l.sum) (ht : kw.tphys = none)
    (hof : OrbitOk kw false ofile τ p) :
    ∃ r m', loadTable g fc low t (some cm) (some u) (some o) ofile kw = .ok (r, some m') ∧ HasCols n k r ∧
      loadTable g fc low t (some m') (some u) (some o) ofile kw = .error .keyError := by
  have hc : tableCols low t (some cm) (some u) (some o) = .ok (k, some (fun q => if q ∈ poppedKeys then none else cm q)) := by
    unfold tableCols
    simp only [Option.elim_some, mapTable_ok ok hk, bind, Except.bind, pure, Except.pure]
  obtain ⟨r, h, h2, -⟩ := loadTable_cols hc hg hfc (hk.len ok) hn hu ho hm ht hof
  refine ⟨r, _, h, h2, ?_⟩
  unfold loadTable tableCols mapTable popCol
  simp [poppedKeys, bind, Except.bind]

/-- **C115 (violated: age).**  A cluster read from a table cannot be given its age: with the keyword `tphys` the call raises
`TypeError` for every table. -/
theorem C115_tphys_violated {g : Galpy} {fc : Cluster → Except Err Cluster} {low : String → String} {t : ATable} {mapper m' : Option Mapper}
    {u : Option Units} {o : Option Origin} {kw : Kw} {ofile : Option (List Line)} {k : ATCols} (h : tableCols low t mapper u o = .ok (k, m'))
    (ht : kw.tphys.isSome) : loadTable g fc low t mapper u o ofile kw = .error .typeError := by
  unfold loadTable
  simp only [h, bind, Except.bind, ht, if_true]
  rfl

/-- **C115 (violated: centre).**  Unlike for other readers, the centre of a cluster given in its own frame is not searched for:
it is left at the origin whatever the stars. -/
theorem C115_centre_violated {g : Galpy} {fc : Cluster → Except Err Cluster} {low : String → String} {t : ATable} {n : ℕ} {k : ATCols} {u : Units}
    {o : Origin} {kw : Kw} {mapper m' : Option Mapper} (hc : tableCols low t mapper (some u) (some o) = .ok (k, m'))
    (hl : k.Len n) (hn : 1 ≤ n) (ho : o = .cluster ∨ o = .centre)
    (hm : ∀ l, k.m = some l → 0 ≤ l.sum) (ht : kw.tphys = none) :
    ∃ r, loadTable g fc low t mapper (some u) (some o) none kw = .ok (r, m') ∧ HasCols n k r ∧ r.base.c = ⟨0, 0, 0, 0, 0, 0⟩ := by
  obtain ⟨T, h1, h2, h3, h4, h5, h6, hc0, -, h7, h8⟩ := addTable hl hn (some u) (some o) kw
  obtain ⟨b, hb, e1, e2, e3⟩ : ∃ b, analyzeKw kw T.base = .ok b ∧ b.st = T.base.st ∧ b.m = T.base.m ∧ b.c = T.base.c := by
    unfold analyzeKw
    split
    · obtain ⟨b, hb, -⟩ := analyze_total (s := kw.sort.getD true) (p := true) (h7 hm)
      obtain ⟨-, -, -, k4, k5, k6, -⟩ := core_fields (analyze_core hb)
      exact ⟨b, hb, k5, k4, k6⟩
    · exact ⟨_, rfl, rfl, rfl, rfl⟩
  refine ⟨_, ?_, h8 b none e1 e2, e3.trans hc0⟩
  have hs : settleTable g fc kw (some o) false none T.base = .ok (b, none) := by
    unfold settleTable
    rw [if_neg (by rcases ho with rfl | rfl <;> simp), if_pos (by rcases ho with rfl | rfl <;> simp)]
    simp only [hb, bind, Except.bind]
    rfl
  unfold loadTable
  rw [ht]
  simp only [hc, h1, hs, bind, Except.bind, pure, Except.pure, Option.isSome_none, Bool.false_eq_true, if_false]

/-! ### a concrete case -/

def demoTable : ATable :=
  ⟨[("ID", [7, 3]), ("X", [1, -2]), ("y", [0, 1]), ("z", [0, 0]), ("VX", [0, 1]), ("v_y", [3, 0]), ("vz", [0, 0]), ("Mass", [2, 1])]⟩

def demoLow (s : String) : String :=
  if s = "ID" then "id" else if s = "X" then "x" else if s = "VX" then "vx" else if s = "Mass" then "mass" else s

theorem demoTable_ok : demoTable.Ok 2 := by
  constructor
  · simp only [demoTable]
    decide
  · intro c hc
    simp only [demoTable, List.mem_cons, List.not_mem_nil, or_false] at hc
    rcases hc with rfl | rfl | rfl | rfl | rfl | rfl | rfl | rfl <;> rfl

theorem demoTable_cartesian : Cartesian demoLow demoTable ⟨[1, -2], [0, 1], [0, 0], [0, 1], [3, 0], [0, 0], some [2, 1], some [7, 3]⟩ := by
  have key : ∀ (vs : List String) (nm : String) (l : List ℝ), (nm, l) ∈ demoTable.cols → demoLow nm ∈ vs →
      (∀ s ∈ ["ID", "X", "y", "z", "VX", "v_y", "vz", "Mass"], demoLow s ∈ vs → s = nm) → OnlyCol demoLow demoTable vs l := by
    intro vs nm l h1 h2 h3
    refine ⟨nm, h1, h2, ?_⟩
    intro c hc hv
    have hcn : c.1 = nm := by
      apply h3 c.1 _ hv
      have : c.1 ∈ demoTable.cols.map Prod.fst := List.mem_map_of_mem hc
      simpa [demoTable] using this
    have e1 := get_col demoTable_ok (nm := c.1) (l := c.2) hc
    have e2 := get_col demoTable_ok h1
    rw [hcn, e2] at e1
    have : l = c.2 := by injection e1
    rw [this, ← hcn]
  refine ⟨key _ "X" _ (by simp [demoTable]) (by decide) (by decide), key _ "y" _ (by simp [demoTable]) (by decide) (by decide),
    key _ "z" _ (by simp [demoTable]) (by decide) (by decide), key _ "VX" _ (by simp [demoTable]) (by decide) (by decide),
    key _ "v_y" _ (by simp [demoTable]) (by decide) (by decide), key _ "vz" _ (by simp [demoTable]) (by decide) (by decide), ⟨?_, ?_⟩, ⟨?_, ?_⟩⟩
  · intro a ha
    cases ha
    exact key _ "Mass" _ (by simp [demoTable]) (by decide) (by decide)
  · intro h; cases h
  · intro a ha
    cases ha
    exact key _ "ID" _ (by simp [demoTable]) (by decide) (by decide)
  · intro h; cases h

/-- The hypotheses are met: two stars with masses 2 and 1. -/
example : ∃ r, loadTable demoG (findCentreDefault demoG) demoLow demoTable none (some .pckms) (some .cluster) none {} = .ok (r, none) ∧
    r.ntot = 2 ∧ r.base.m[0]! = 2 ∧ r.base.st[1]! = ⟨-2, 1, 0, 1, 0, 0⟩ ∧ r.id[0]! = 7 := by
  obtain ⟨r, h, k, -⟩ := C114_search (n := 2) (τ := 0) (p := ⟨0, 0, 0, 0, 0, 0⟩) (kw := {}) (ofile := none) (u := .pckms) (o := .cluster) demoG_positive (findCentreDefault_ok _) demoTable_ok (by norm_num)
    demoTable_cartesian trivial trivial (by intro l hl; cases hl; norm_num) rfl (by intro L h; cases h)
  exact ⟨r, h, k.ntot, k.mass 0 (by norm_num), k.star 1 (by norm_num), k.ids _ rfl 0 (by norm_num) 7 (by simp)⟩

/-- A dictionary naming the columns; the second call with it fails. -/
example : ∃ r m', loadTable demoG (findCentreDefault demoG) demoLow demoTable (some (fun q => if q = "x" then some "X" else if q = "vx" then some "VX" else
      if q = "vy" then some "v_y" else if q = "m" then some "Mass" else if q = "id" then some "ID" else if q ∈ ["y", "z", "vz"] then some q else none))
      (some .pckms) (some .cluster) none {} = .ok (r, some m') ∧
    HasCols 2 ⟨[1, -2], [0, 1], [0, 0], [0, 1], [3, 0], [0, 0], some [2, 1], some [7, 3]⟩ r ∧
    loadTable demoG (findCentreDefault demoG) demoLow demoTable (some m') (some .pckms) (some .cluster) none {} = .error .keyError := by
  refine C115_mapper_violated (n := 2) (τ := 0) (p := ⟨0, 0, 0, 0, 0, 0⟩) demoG_positive (findCentreDefault_ok _) demoTable_ok (by norm_num) ?_ trivial trivial
    (by intro l hl; cases hl; norm_num) rfl (by intro L h; cases h)
  refine ⟨⟨"X", by simp, by simp [demoTable]⟩, ⟨"y", by simp, by simp [demoTable]⟩, ⟨"z", by simp, by simp [demoTable]⟩,
    ⟨"VX", by simp, by simp [demoTable]⟩, ⟨"v_y", by simp, by simp [demoTable]⟩, ⟨"vz", by simp, by simp [demoTable]⟩, ⟨?_, by intro h; cases h⟩,
    ⟨?_, by intro h; cases h⟩⟩
  · intro l hl
    cases hl
    exact ⟨"Mass", by simp, by simp [demoTable]⟩
  · intro l hl
    cases hl
    exact ⟨"ID", by simp, by simp [demoTable]⟩

end

end CT
