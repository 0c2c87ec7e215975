/- C40: column layouts.  C42: writing and reading back. -/
import Verif.Lemmas.IO

namespace CT

noncomputable section

set_option linter.unusedSimpArgs false

theorem truncZ_int (k : ℤ) : truncZ (k : ℝ) = k := by
  unfold truncZ
  split <;> simp

/-- A loaded cluster with the stars added from a table and not moved afterwards. -/
theorem hasTable_of {names : List String} {nums : List ℕ} {rows : List (List ℝ)} (hr : 2 ≤ rows.length)
    (hs : ∃ nm ∈ names, nm ∈ starColumns) (kw : Kw) (u : Option Units) (o : Option Origin) (t : ℝ) :
    ∃ T, addStars (tableArgs names nums rows) 0 false true (blankTab u o t) = .ok T ∧
      T.base.units = u ∧ T.base.origin = o ∧ T.base.tphys = t ∧
      (¬(u = some .radec ∧ o = some .sky) → T.base.rest = (newCluster u o (bunitsOfUnits u) t).rest) ∧ Fresh T.base ∧
      (0 ≤ ((List.range rows.length).map (cell names nums rows "m" 1)).sum → Good T.base) ∧
      ∀ (b : Cluster) (f : Option (List Line)), b.st = T.base.st → b.m = T.base.m →
        HasTable names nums rows { runOf kw u o T ((colOf names nums rows "kw").getD []) b with ofile := f } := by
  obtain ⟨T, h1, h2, h3, h4, h5, h6, h7, h8, h9, -, -, h10, h11, h12⟩ := addStars_blank (tableArgs_fits (nums := nums) hr hs) u o t
  have em : T.base.m = (List.range rows.length).map (cell names nums rows "m" 1) := by
    rw [h3]
    refine List.map_congr_left fun i hi => ?_
    exact colOr_at names nums rows "m" 1 (List.mem_range.mp hi)
  have es : T.base.st = (List.range rows.length).map (tableStar names nums rows) := by
    rw [h2]
    refine List.map_congr_left fun i hi => ?_
    have hi := List.mem_range.mp hi
    simp only [tableArgs, colOr_at names nums rows _ _ hi, tableStar]
  refine ⟨T, h1, h4, h5, h6, h9, h10, ?_, ?_⟩
  · intro hm
    refine ⟨?_, ?_, ?_, ?_, ?_⟩
    · rw [es]
      intro e
      have := congrArg List.length e
      rw [List.length_map, List.length_range, List.length_nil] at this
      omega
    · rw [es, em]; simp
    · rw [em]; exact hm
    · rw [h7]; intro o h; cases h
    · rw [h8]; intro o h; cases h
  · intro b f hb1 hb2
    refine ⟨h12, ?_, ?_, ?_, ?_, ?_, ?_, ?_, ?_⟩
    · show b.st.length = _
      rw [hb1, es]; simp
    · show b.m.length = _
      rw [hb2, em]; simp
    · show T.id.length = _
      rw [h11, StarArgs.ids_length]
    · intro i hi
      show b.st[i]! = _
      rw [hb1, es, get!_range_map hi]
    · intro i hi
      show b.m[i]! = _
      rw [hb2, em, get!_range_map hi]
    · intro hid i hi k hk
      show T.id[i]! = k
      rw [h11]
      have e : (tableArgs names nums rows).id = some (.arr ((rows.map (fun r => r[(nums[names.idxOf "id"]!)]!)).map truncZ)) := by
        simp only [tableArgs, colOf, if_pos hid, Option.map_some]
      unfold StarArgs.ids
      rw [e]
      simp only [get!_range_map hi, Val.at]
      rw [getElem!_pos _ i (by simpa using hi), List.getElem_map, List.getElem_map]
      rw [cell, if_pos hid, getElem!_pos rows i hi] at hk
      rw [hk, truncZ_int]
    · intro hid i hi
      show T.id[i]! = _
      rw [h11]
      have e : (tableArgs names nums rows).id = none := by
        simp only [tableArgs, colOf, if_neg hid, Option.map_none]
      rw [StarArgs.ids_none e, get!_range_map hi]
      simp [idStart]
    · intro hkw
      have e : (colOf names nums rows "kw").getD [] = rows.map (fun r => r[(nums[names.idxOf "kw"]!)]!) := by
        simp only [colOf, if_pos hkw, Option.getD_some]
      refine ⟨?_, ?_⟩
      · show ((colOf names nums rows "kw").getD []).length = _
        rw [e]; simp
      · intro i hi
        show ((colOf names nums rows "kw").getD [])[i]! = _
        rw [e, cell, if_pos hkw, getElem!_pos _ i (by simpa using hi), List.getElem_map, getElem!_pos rows i hi]

/-- **C40.**  Loading a snapshot file — a table with at least two rows and two columns after its header — with any
layout of named columns gives one star per row, in order, each named quantity taken from its column, missing
positions and velocities 0, missing masses 1, missing ids the row number.  Centring, sorting and a change of frame during
loading leave the values as they are in the file; with an orbit file the cluster is placed where its line says. -/
theorem C40_columns {g : Galpy} {fc : Cluster → Except Err Cluster} {fs : FS} {filename : Option String} {kw : Kw}
    {f : List Line} {u : Units} {o : Origin} {names : List String} {nums : List ℕ} {rows : List (List ℝ)} {w : ℕ}
    {ofile : Option (List Line)} {t : ℝ} {p : Ph}
    (hg : g.Positive) (hfc : CentreFinder g fc) (hfile : snapFile fs filename kw = some f)
    (ht : IsTable (kw.skiprows.getD 0) w rows f) (hn : kw.names.getD defaultNames = names)
    (hk : kw.nums.getD defaultNums = nums) (hl : LayoutOk names nums w) (hr : 2 ≤ rows.length) (hw : 2 ≤ w)
    (hs : ∃ nm ∈ names, nm ∈ starColumns) (hu : u.linear) (ho : o.linear)
    (hm : 0 ≤ ((List.range rows.length).map (cell names nums rows "m" 1)).sum) (hof : OrbitOk kw false ofile t p) :
    ∃ r, loadCluster g fc fs filename kw (some u) (some o) ofile = .ok r ∧ HasTable names nums rows r ∧
      r.base.units = some u ∧ r.base.origin = some o ∧ (ofile.isSome → r.base.gc = p) := by
  have hne : rows ≠ [] := by rintro rfl; simp at hr
  obtain ⟨T, h1, h2, h3, h4, h5, h6, h7, h8⟩ := hasTable_of (nums := nums) hr hs kw (some u) (some o) (kw.tphys.getD 0)
  have hx : ¬((some u : Option Units) = some .radec ∧ (some o : Option Origin) = some .sky) := by
    rintro ⟨e, -⟩
    cases e
    exact hu
  obtain ⟨b, f', h9, s⟩ := settle_ok hfc (kw := kw) (adv := false) (f := ofile) (t := t) (q := p) (o := some o)
    ((hg.pos (some u) (some o) (bunitsOfUnits (some u)) (kw.tphys.getD 0)).of_rest (h5 hx))
    ⟨⟨u, h2, hu⟩, o, h3, ho⟩ (h7 hm) h6 h3 hof
  refine ⟨_, ?_, h8 b f' s.st s.m, s.units.trans h2, s.origin.trans h3, s.gc⟩
  unfold loadCluster getSnapshot
  rw [hfile]
  simp only [Option.elim_some, loadtxt_table ht hne, snapArgs_table hn hk hl hr hw, h1, h9, bind, Except.bind, pure,
    Except.pure]

/-- **C40 (no frame).**  The same without an origin, or with an origin for which nothing is computed during loading: any
units, any masses. -/
theorem C40_columns_raw {g : Galpy} {fc : Cluster → Except Err Cluster} {fs : FS} {filename : Option String} {kw : Kw}
    {f : List Line} {u : Option Units} {o : Option Origin} {names : List String} {nums : List ℕ} {rows : List (List ℝ)}
    {w : ℕ} {ofile : Option (List Line)} (hfile : snapFile fs filename kw = some f)
    (ht : IsTable (kw.skiprows.getD 0) w rows f) (hn : kw.names.getD defaultNames = names)
    (hk : kw.nums.getD defaultNums = nums) (hl : LayoutOk names nums w) (hr : 2 ≤ rows.length) (hw : 2 ≤ w)
    (hs : ∃ nm ∈ names, nm ∈ starColumns)
    (ho : o ≠ some .galaxy ∧ o ≠ some .cluster ∧ o ≠ some .centre) :
    ∃ r, loadCluster g fc fs filename kw u o ofile = .ok r ∧ HasTable names nums rows r ∧ r.base.units = u ∧
      r.base.origin = o := by
  have hne : rows ≠ [] := by rintro rfl; simp at hr
  obtain ⟨T, h1, h2, h3, h4, h5, h6, h7, h8⟩ := hasTable_of (nums := nums) hr hs kw u o (kw.tphys.getD 0)
  refine ⟨_, ?_, h8 T.base ofile rfl rfl, h2, h3⟩
  unfold loadCluster getSnapshot settle
  rw [hfile]
  simp only [Option.elim_some, loadtxt_table ht hne, snapArgs_table hn hk hl hr hw, h1, bind, Except.bind, pure,
    Except.pure, if_neg ho.1, ho.2.1, ho.2.2, or_self, if_false]

theorem rowsOnly_text {l : List Line} (h : Line.text ∈ l) : rowsOnly l = .error .valueError := by
  induction l with
  | nil => simp at h
  | cons a l ih =>
    cases a with
    | text => rfl
    | row r =>
      have h' : Line.text ∈ l := by simpa using h
      simp only [rowsOnly, ih h', bind, Except.bind]

/-- **C40 (nothing is skipped).**  A file which holds, after the header, a line that is not a row of numbers, or rows of different
lengths, is not loaded at all: the call raises `ValueError`; it never returns the stars of the other lines. -/
theorem C40_malformed {g : Galpy} {fc : Cluster → Except Err Cluster} {fs : FS} {filename : Option String} {kw : Kw}
    {f : List Line} {u : Option Units} {o : Option Origin} {ofile : Option (List Line)} (hfile : snapFile fs filename kw = some f)
    (hbad : Line.text ∈ f.drop (kw.skiprows.getD 0) ∨
      ∃ rows : List (List ℝ), f.drop (kw.skiprows.getD 0) = rows.map Line.row ∧ ∃ r ∈ rows, ∃ r' ∈ rows, r.length ≠ r'.length) :
    loadCluster g fc fs filename kw u o ofile = .error .valueError := by
  have key : loadtxt (kw.skiprows.getD 0) f = .error .valueError := by
    unfold loadtxt
    rcases hbad with h | ⟨rows, h, r, hr, r', hr', hne⟩
    · simp only [rowsOnly_text h, bind, Except.bind]
    · rw [h, rowsOnly_rows]
      simp only [bind, Except.bind]
      rw [if_neg]
      · rfl
      · intro hall
        exact hne ((hall r hr).trans (hall r' hr').symm)
  unfold loadCluster getSnapshot
  rw [hfile]
  simp only [Option.elim_some, key, bind, Except.bind]

/-- **C40, C42 (violated: one star).**  A snapshot with a single star cannot be loaded: whatever its columns, as soon as
one of them is asked for, reading it fails. -/
theorem C40_single_star_violated {g : Galpy} {fc : Cluster → Except Err Cluster} {fs : FS} {filename : Option String} {kw : Kw}
    {f : List Line} {u : Option Units} {o : Option Origin} {row : List ℝ} {ofile : Option (List Line)}
    (hfile : snapFile fs filename kw = some f) (ht : IsTable (kw.skiprows.getD 0) row.length [row] f)
    (hl : (kw.names.getD defaultNames).length = (kw.nums.getD defaultNums).length)
    (hs : ∃ nm ∈ kw.names.getD defaultNames, nm ∈ starColumns) :
    loadCluster g fc fs filename kw u o ofile = .error .indexError := by
  have key : ∀ nm, namedCol kw ⟨[row], row.length⟩ nm =
      if nm ∈ kw.names.getD defaultNames then .error .indexError else .ok none := by
    intro nm
    unfold namedCol
    simp only
    split
    · rename_i h
      have h1 := List.idxOf_lt_length_of_mem h
      rw [hl] at h1
      rw [if_pos h1, Arr2.col, if_neg (by simp)]
      rfl
    · rfl
  have hargs : snapArgs kw ⟨[row], row.length⟩ = .error .indexError := by
    obtain ⟨nm, h1, h2⟩ := hs
    unfold snapArgs
    simp only [key, bind]
    simp only [starColumns, List.mem_cons, List.not_mem_nil, or_false] at h2
    by_cases e1 : "m" ∈ kw.names.getD defaultNames
    · rw [if_pos e1]; rfl
    by_cases e2 : "x" ∈ kw.names.getD defaultNames
    · rw [if_neg e1, if_pos e2]; rfl
    by_cases e3 : "y" ∈ kw.names.getD defaultNames
    · rw [if_neg e1, if_neg e2, if_pos e3]; rfl
    by_cases e4 : "z" ∈ kw.names.getD defaultNames
    · rw [if_neg e1, if_neg e2, if_neg e3, if_pos e4]; rfl
    by_cases e5 : "vx" ∈ kw.names.getD defaultNames
    · rw [if_neg e1, if_neg e2, if_neg e3, if_neg e4, if_pos e5]; rfl
    by_cases e6 : "vy" ∈ kw.names.getD defaultNames
    · rw [if_neg e1, if_neg e2, if_neg e3, if_neg e4, if_neg e5, if_pos e6]; rfl
    by_cases e7 : "vz" ∈ kw.names.getD defaultNames
    · rw [if_neg e1, if_neg e2, if_neg e3, if_neg e4, if_neg e5, if_neg e6, if_pos e7]; rfl
    by_cases e8 : "id" ∈ kw.names.getD defaultNames
    · rw [if_neg e1, if_neg e2, if_neg e3, if_neg e4, if_neg e5, if_neg e6, if_neg e7, if_pos e8]; rfl
    rcases h2 with rfl | rfl | rfl | rfl | rfl | rfl | rfl | rfl <;> contradiction
  unfold loadCluster getSnapshot
  rw [hfile]
  simp only [Option.elim_some, loadtxt_table ht (by simp), hargs, bind, Except.bind]

/-! ### C42 -/

/-- The layout of the files written by `snapout`, with the stellar type if it is written. -/
def outNames (withKw : Bool) : List String :=
  ["m", "x", "y", "z", "vx", "vy", "vz", "id"] ++ (if withKw then ["kw"] else [])
def outNums (withKw : Bool) : List ℕ := [0, 1, 2, 3, 4, 5, 6, 7] ++ (if withKw then [8] else [])

theorem snapoutRows_length (r : Run) : (snapoutRows r).length = r.base.st.length := by simp [snapoutRows]

theorem snapoutRows_get {r : Run} {i : ℕ} (hi : i < r.base.st.length) :
    (snapoutRows r)[i]! = [r.base.m[i]!, (r.base.st[i]!).x, (r.base.st[i]!).y, (r.base.st[i]!).z, (r.base.st[i]!).vx,
      (r.base.st[i]!).vy, (r.base.st[i]!).vz, (r.id[i]! : ℝ)] ++ (if r.kw.length = r.ntot then [r.kw[i]!] else []) := by
  unfold snapoutRows
  rw [get!_range_map hi]

/-- A cluster all of whose arrays have one entry per star. -/
structure RunOk (r : Run) : Prop where
  two : 2 ≤ r.base.st.length
  m : r.base.m.length = r.base.st.length
  id : r.id.length = r.base.st.length
  ntot : r.ntot = r.base.st.length

theorem ext_get! {α : Type} [Inhabited α] {a b : List α} {n : ℕ} (ha : a.length = n) (hb : b.length = n)
    (h : ∀ i < n, a[i]! = b[i]!) : a = b := by
  refine List.ext_getElem (ha.trans hb.symm) fun i h1 h2 => ?_
  have := h i (by omega)
  rwa [getElem!_pos _ i h1, getElem!_pos _ i h2] at this

/-- Reading back what `snapout` wrote, from any table found to have its layout. -/
theorem read_back {r r' : Run} {b : Bool} (ok : RunOk r) (hb : b = decide (r.kw.length = r.ntot))
    (h : HasTable (outNames b) (outNums b) (snapoutRows r) r') :
    r'.base.st = r.base.st ∧ r'.base.m = r.base.m ∧ r'.id = r.id ∧ r'.ntot = r.ntot ∧ (b = true → r'.kw = r.kw) := by
  have hl := snapoutRows_length r
  have hcell : ∀ (nm : String) (k : ℕ) (d : ℝ), nm ∈ outNames b → (outNums b)[(outNames b).idxOf nm]! = k →
      ∀ i < r.base.st.length, cell (outNames b) (outNums b) (snapoutRows r) nm d i = ((snapoutRows r)[i]!)[k]! := by
    intro nm k d h1 h2 i hi
    rw [cell, if_pos h1, h2]
  refine ⟨?_, ?_, ?_, ?_, ?_⟩
  · refine ext_get! (n := r.base.st.length) (h.st.trans hl) rfl fun i hi => ?_
    rw [h.star i (by rw [hl]; exact hi)]
    unfold tableStar
    rw [hcell "x" 1 0 (by cases b <;> decide) (by cases b <;> decide) i hi,
      hcell "y" 2 0 (by cases b <;> decide) (by cases b <;> decide) i hi,
      hcell "z" 3 0 (by cases b <;> decide) (by cases b <;> decide) i hi,
      hcell "vx" 4 0 (by cases b <;> decide) (by cases b <;> decide) i hi,
      hcell "vy" 5 0 (by cases b <;> decide) (by cases b <;> decide) i hi,
      hcell "vz" 6 0 (by cases b <;> decide) (by cases b <;> decide) i hi, snapoutRows_get hi]
    rfl
  · refine ext_get! (n := r.base.st.length) (h.m.trans hl) ok.m fun i hi => ?_
    rw [h.mass i (by rw [hl]; exact hi), hcell "m" 0 1 (by cases b <;> decide) (by cases b <;> decide) i hi, snapoutRows_get hi]
    rfl
  · refine ext_get! (n := r.base.st.length) (h.id.trans hl) ok.id fun i hi => ?_
    refine h.ids (by cases b <;> decide) i (by rw [hl]; exact hi) _ ?_
    rw [hcell "id" 7 0 (by cases b <;> decide) (by cases b <;> decide) i hi, snapoutRows_get hi]
    rfl
  · rw [h.ntot, hl, ok.ntot]
  · intro hbt
    have hkw : r.kw.length = r.ntot := by rw [hbt] at hb; simpa using hb.symm
    obtain ⟨k1, k2⟩ := h.kw (by rw [hbt]; decide)
    refine ext_get! (n := r.base.st.length) (k1.trans hl) (hkw.trans ok.ntot) fun i hi => ?_
    rw [k2 i (by rw [hl]; exact hi), hcell "kw" 8 0 (by rw [hbt]; decide) (by rw [hbt]; decide) i hi, snapoutRows_get hi,
      if_pos hkw]
    rfl

/-- **C42.**  A cluster of at least two stars written with `snapout` to a file in the current directory and loaded again
with the written column layout has the same masses, positions, velocities, ids and (if there were any) stellar types,
in the same order, whatever its units and origin (linear), and whether or not loading recentres and sorts it. -/
theorem C42_round_trip {g : Galpy} {fc : Cluster → Except Err Cluster} {fs : FS} {filename : String} {kw : Kw} {r : Run}
    {u : Units} {o : Origin} {b : Bool}
    (hg : g.Positive) (hfc : CentreFinder g fc) (ok : RunOk r) (hb : b = decide (r.kw.length = r.ntot))
    (hm : 0 ≤ r.base.m.sum) (hu : u.linear) (ho : o.linear) (hw : kw.wdir = none) (hd : kw.snapdir = none)
    (hs : kw.skiprows = none) (hn : kw.names = some (outNames b)) (hk : kw.nums = some (outNums b)) :
    ∃ r', loadCluster g fc (snapout r filename fs) (some filename) kw (some u) (some o) none = .ok r' ∧
      r'.base.st = r.base.st ∧ r'.base.m = r.base.m ∧ r'.id = r.id ∧ r'.ntot = r.ntot ∧ (b = true → r'.kw = r.kw) ∧
      r'.base.units = some u ∧ r'.base.origin = some o := by
  have hfile : snapFile (snapout r filename fs) (some filename) kw = some ((snapoutRows r).map Line.row) := by
    have e : dirSlash "" = "" := by decide
    simp [snapFile, hw, hd, e, snapout]
  have ht : IsTable (kw.skiprows.getD 0) (8 + if b then 1 else 0) (snapoutRows r) ((snapoutRows r).map Line.row) := by
    refine ⟨[], by rw [hs]; rfl, rfl, ?_⟩
    intro x hx
    obtain ⟨i, -, rfl⟩ := List.mem_map.mp hx
    rw [hb]
    by_cases h : r.kw.length = r.ntot <;> simp [h]
  have hl : LayoutOk (outNames b) (outNums b) (8 + if b then 1 else 0) := by
    cases b <;> exact ⟨by decide, by decide⟩
  have hmass : ((List.range (snapoutRows r).length).map (cell (outNames b) (outNums b) (snapoutRows r) "m" 1)) = r.base.m := by
    rw [snapoutRows_length]
    refine ext_get! (n := r.base.st.length) (by simp) ok.m fun i hi => ?_
    rw [get!_range_map hi, cell, if_pos (by cases b <;> decide), snapoutRows_get hi]
    have : (outNums b)[(outNames b).idxOf "m"]! = 0 := by cases b <;> decide
    rw [this]
    rfl
  obtain ⟨r', h1, h2, h3, h4, -⟩ := C40_columns (names := outNames b) (nums := outNums b) (kw := kw) (ofile := none) (t := 0)
    (p := ⟨0, 0, 0, 0, 0, 0⟩) (fc := fc) (u := u) (o := o) hg hfc hfile ht (by rw [hn]; rfl) (by rw [hk]; rfl) hl
    (by rw [snapoutRows_length]; exact ok.two) (by omega) ⟨"m", by cases b <;> decide, by decide⟩ hu ho (by rw [hmass]; exact hm)
    (by intro L h; cases h)
  obtain ⟨k1, k2, k3, k4, k5⟩ := read_back ok hb h2
  exact ⟨r', h1, k1, k2, k3, k4, k5, h3, h4⟩

end

end CT
