/- C39: whole histories, file names, restarts. -/
import Verif.Props.IO
import Verif.Props.IO2

namespace CT

noncomputable section

set_option linter.unusedSimpArgs false

/-! ### file names -/

/-- A directory name gets a slash at its end unless it is empty or has one. -/
theorem C39_dir (d : String) :
    (d = "" → dirSlash d = "") ∧ (∀ e, d = e ++ "/" → dirSlash d = d) ∧
      (d ≠ "" → (∀ e, d ≠ e ++ "/") → dirSlash d = d ++ "/") := by
  refine ⟨?_, ?_, ?_⟩
  · rintro rfl; decide
  · rintro e rfl
    unfold dirSlash
    rw [if_neg]
    simp
  · intro h1 h2
    unfold dirSlash
    rw [if_pos]
    refine ⟨h1, fun h => ?_⟩
    obtain ⟨l, hl⟩ := List.getLast?_eq_some_iff.mp h
    refine h2 (String.ofList l) ?_
    apply String.toList_inj.mp
    rw [hl]
    simp

theorem repr_digits (n : ℕ) : (Nat.repr n).toList = Nat.toDigits 10 n := by
  simp [Nat.repr]

/-- **C39 (numbers in file names).**  The number in a file name is the snapshot number in decimal, padded with zeros on
the left to the given width and never cut. -/
theorem C39_number (w n : ℕ) :
    (zfill w n).toList.length = max w (Nat.toDigits 10 n).length ∧ Nat.ofDigitChars 10 (zfill w n).toList 0 = n ∧
      Nat.toDigits 10 n <:+ (zfill w n).toList := by
  have e : (zfill w n).toList = List.replicate (w - (Nat.toDigits 10 n).length) '0' ++ Nat.toDigits 10 n := by
    simp only [zfill, String.toList_append, repr_digits, String.toList_ofList]
    congr 2
    rw [← repr_digits, String.length_toList]
  rw [e]
  refine ⟨?_, ?_, List.suffix_append _ _⟩
  · rw [List.length_append, List.length_replicate]
    omega
  · have z : ∀ k, Nat.ofDigitChars 10 (List.replicate k '0' ++ Nat.toDigits 10 n) 0 = n := by
      intro k
      induction k with
      | zero => simpa using Nat.ofDigitChars_toDigits (b := 10) (n := n) (by omega) (by omega)
      | succ k ih =>
        rw [List.replicate_succ, List.cons_append, Nat.ofDigitChars_cons]
        simpa using ih
    exact z _

/-- **C39 (numbers in file names).**  Different snapshots have different numbers. -/
theorem C39_number_distinct {w w' n n' : ℕ} (h : zfill w n = zfill w' n') : n = n' := by
  rw [← (C39_number w n).2.1, h, (C39_number w' n').2.1]

/-! ### histories -/

/-- With the options `kw` a file is found, and it is a table that holds the rows of `rows`: at least two rows and two
columns, an acceptable layout naming at least one known column, a total mass that is not negative. -/
def Readable (fs : FS) (kw : Kw) (rows : List (List ℝ)) : Prop :=
  ∃ (f : List Line) (w : ℕ), snapFile fs none kw = some f ∧ IsTable (kw.skiprows.getD 0) w rows f ∧
    LayoutOk (kw.names.getD defaultNames) (kw.nums.getD defaultNums) w ∧ 2 ≤ rows.length ∧ 2 ≤ w ∧
    (∃ nm ∈ kw.names.getD defaultNames, nm ∈ ["m", "x", "y", "z", "vx", "vy", "vz", "id"]) ∧
    0 ≤ ((List.range rows.length).map
      (cell (kw.names.getD defaultNames) (kw.nums.getD defaultNums) rows "m" 1)).sum

/-- A file in its usual place is found. -/
theorem snapFile_usual {fs : FS} {kw : Kw} {n : ℕ} {f : List Line}
    (h : fs.file (dirSlash (kw.wdir.getD "") ++ (dirSlash (kw.snapdir.getD "") ++ (kw.snapbase.getD "" ++
      (zfill (kw.nzfill.getD 5) n ++ kw.snapend.getD ".dat")))) = some f) :
    snapFile fs none { kw with nsnap := some n } = some f := by
  simp [snapFile, h]

theorem load_readable {g : Galpy} {fc : Cluster → Except Err Cluster} {fs : FS} {kw : Kw} {u : Units} {o : Origin}
    {rows : List (List ℝ)} {ofile : Option (List Line)} {t : ℝ} {p : Ph} {n : ℕ}
    (hg : g.Positive) (hfc : CentreFinder g fc) (h : Readable fs { kw with nsnap := some n } rows) (hu : u.linear)
    (ho : o.linear) (hof : OrbitOk { kw with nsnap := some n } false ofile t p) :
    ∃ r, loadCluster g fc fs none { kw with nsnap := some n } (some u) (some o) ofile = .ok r ∧
      HasTable (kw.names.getD defaultNames) (kw.nums.getD defaultNums) rows r ∧ r.nsnap = n ∧
      r.base.units = some u ∧ r.base.origin = some o ∧ (ofile.isSome → r.base.gc = p) ∧ r.ntot ≠ 0 := by
  obtain ⟨f, w, h1, h2, h3, h4, h5, h6, h7⟩ := h
  obtain ⟨r, k1, k2, k3, k4, k5⟩ := C40_columns (u := u) (o := o) hg hfc h1 h2 rfl rfl h3 h4 h5 h6 hu ho h7 hof
  have hn : r.ntot ≠ 0 := by rw [k2.ntot]; omega
  exact ⟨r, k1, k2, (load_facts k1 hn).1.nsnap, k3, k4, k5, hn⟩

/-- **C39 (histories).**  A simulation whose snapshots `n, n+1, …, n+k` are readable files, with an orbit file (if any)
whose line `n + j` holds the position of the cluster at snapshot `n + j`: loading snapshot `n` and advancing `k` times
succeeds and gives the stars of snapshot `n + k`, its number, the units and origin of the first call and the orbital
position of line `n + k`. -/
theorem C39_histories {g : Galpy} {fc : Cluster → Except Err Cluster} {fs : FS} {kw a : Kw} {u : Units} {o : Origin}
    {ofile : Option (List Line)} {n k : ℕ} {rows : ℕ → List (List ℝ)} {t : ℕ → ℝ} {p : ℕ → Ph}
    (hg : g.Positive) (hfc : CentreFinder g fc) (hu : u.linear) (ho : o.linear) (hk : 1 ≤ k) (ha : a.nsnap = none)
    (hd : (kw.then a).wdir = none → ∀ q, fs.file ("./" ++ q) = fs.file q)
    (h0 : Readable fs { kw with nsnap := some n } (rows 0))
    (hall : ∀ j, 1 ≤ j → j ≤ k → Readable fs { (kw.then a) with nsnap := some (n + j) } (rows j))
    (hof0 : OrbitOk { kw with nsnap := some n } false ofile (t 0) (p 0))
    (hof : ∀ j, 1 ≤ j → j ≤ k → OrbitOk { (kw.then a) with nsnap := some (n + j) } false ofile (t j) (p j)) :
    ∃ r r', loadCluster g fc fs none { kw with nsnap := some n } (some u) (some o) ofile = .ok r ∧
      advanceMany g fc fs a k r = .ok r' ∧
      HasTable (a.names.getD defaultNames) (a.nums.getD defaultNums) (rows k) r' ∧ r'.nsnap = n + k ∧
      r'.base.units = some u ∧ r'.base.origin = some o ∧ (ofile.isSome → r'.base.gc = p k) := by
  obtain ⟨r, h1, -, -, -, -, -, h2⟩ := load_readable hg hfc h0 hu ho hof0
  obtain ⟨r', k1, k2, k3, k4, k5, k6, k7⟩ := load_readable hg hfc (hall k hk le_rfl) hu ho (hof k hk le_rfl)
  refine ⟨r, r', h1, ?_, k2, k3, k4, k5, k6⟩
  rw [← k1]
  refine C39_chain hk (by rw [ha]; exact Nat.zero_le _) hd h1 h2 fun j j1 j2 => ?_
  obtain ⟨c, c1, -, -, -, -, -, c2⟩ := load_readable hg hfc (hall j j1 j2) hu ho (hof j j1 j2)
  exact ⟨c, c1, c2⟩

/-- **C68 (violated: layouts are not remembered).**  The column layout given when loading is not remembered: advancing
without repeating it reads the next file with the default layout.  Here a table with columns `x y z vx vy vz m`. -/
theorem C68_layout_forgotten_violated {g : Galpy} {fc : Cluster → Except Err Cluster} {fs : FS} {kw : Kw} {u : Units} {o : Origin}
    {n : ℕ} {rows : ℕ → List (List ℝ)}
    (hg : g.Positive) (hfc : CentreFinder g fc) (hu : u.linear) (ho : o.linear)
    (hd : kw.wdir = none → ∀ q, fs.file ("./" ++ q) = fs.file q)
    (h0 : Readable fs { kw with nsnap := some n } (rows 0))
    (h1 : Readable fs { (kw.then {}) with nsnap := some (n + 1) } (rows 1)) (q : ℝ × ℝ × ℝ × ℝ × ℝ × ℝ × ℝ)
    (hq : (rows 1)[0]! = [q.1, q.2.1, q.2.2.1, q.2.2.2.1, q.2.2.2.2.1, q.2.2.2.2.2.1, q.2.2.2.2.2.2]) :
    ∃ r r', loadCluster g fc fs none { kw with nsnap := some n } (some u) (some o) none = .ok r ∧
      advanceCluster g fc fs none {} none r = .ok r' ∧ r'.base.m[0]! = q.1 ∧
      r'.base.st[0]! = ⟨q.2.1, q.2.2.1, q.2.2.2.1, q.2.2.2.2.1, q.2.2.2.2.2.1, q.2.2.2.2.2.2⟩ := by
  obtain ⟨r, r', k1, k2, k3, -⟩ := C39_histories (a := {}) (k := 1) (ofile := none) (t := fun _ => 0)
    (p := fun _ => ⟨0, 0, 0, 0, 0, 0⟩) hg hfc hu ho le_rfl rfl
    (by simpa [Kw.then] using hd) h0 (by
      intro j j1 j2
      obtain rfl : j = 1 := by omega
      exact h1) (by intro L h; cases h) (by intro j _ _ L h; cases h)
  have e : advanceMany g fc fs {} 1 r = advanceCluster g fc fs none {} none r := by
    simp only [advanceMany, bind, Except.bind]
    cases advanceCluster g fc fs none {} none r <;> rfl
  have hpos : 0 < (rows 1).length := by
    obtain ⟨_, _, _, _, _, h, _⟩ := h1
    omega
  refine ⟨r, r', k1, e ▸ k2, ?_, ?_⟩
  · rw [k3.mass 0 hpos, cell, hq]
    simp [defaultNames, defaultNums]
  · rw [k3.star 0 hpos]
    unfold tableStar cell
    rw [hq]
    simp [defaultNames, defaultNums, List.idxOf, List.findIdx, List.findIdx.go]

/-! ### the end of a simulation and restarts -/

/-- **C39 (end).**  When there is no next file and no directory `cont/`, advancing gives a cluster without stars, with the
next number and the remembered file-name options. -/
theorem C39_end {g : Galpy} {fc : Cluster → Except Err Cluster} {fs : FS} {a : Kw} {ofile : Option (List Line)} {r : Run}
    (h : snapFile fs none (advKw a r) = none) (hc : fs.dir (a.wdir.getD r.wdir ++ "cont/") = false) :
    ∃ r', advanceCluster g fc fs none a ofile r = .ok r' ∧ r'.ntot = 0 ∧ r'.base.st = [] ∧
      r'.nsnap = max (a.nsnap.getD 0) r.nsnap + 1 ∧ r'.nzfill = a.nzfill.getD r.nzfill ∧
      r'.wdir = a.wdir.getD r.wdir ∧ r'.snapdir = a.snapdir.getD r.snapdir ∧
      r'.snapbase = a.snapbase.getD r.snapbase ∧ r'.snapend = a.snapend.getD r.snapend ∧
      r'.skiprows = a.skiprows.getD r.skiprows := by
  refine ⟨emptyRun (advKw a r), ?_, rfl, rfl, rfl, rfl, rfl, rfl, rfl, rfl, rfl⟩
  unfold advanceCluster getSnapshot
  simp only [h, Option.elim_none, bind, Except.bind, empty_ntot, if_true]
  rw [if_neg]
  show ¬fs.dir ((advKw a r).wdir.getD "./" ++ "cont/") = true
  simp [advKw, hc]

/-- **C68 (violated: restart without labels).**  When the next file is found only after a restart, in the directory
`cont/`, it is loaded without the units and the origin of the cluster that was advanced, and with the default column
layout, even if the call repeats the layout. -/
theorem C68_restart_violated {g : Galpy} {fc : Cluster → Except Err Cluster} {fs : FS} {a : Kw} {r : Run} {f : List Line}
    {rows : List (List ℝ)} {w : ℕ}
    (h : snapFile fs none (advKw a r) = none) (hc : fs.dir (a.wdir.getD r.wdir ++ "cont/") = true) (ho : r.ofile = none)
    (hf : snapFile fs none { advKw a r with wdir := some (a.wdir.getD r.wdir ++ "cont/") } = some f)
    (ht : IsTable (a.skiprows.getD r.skiprows) w rows f) (hr : 2 ≤ rows.length) (hw : 7 ≤ w) :
    ∃ r', advanceCluster g fc fs none a none r = .ok r' ∧ HasTable defaultNames defaultNums rows r' ∧
      r'.base.units = none ∧ r'.base.origin = none := by
  obtain ⟨r', k1, k2, k3, k4⟩ := C40_columns_raw (g := g) (fc := fc) (fs := fs) (filename := none)
    (kw := { advKw a r with wdir := some (a.wdir.getD r.wdir ++ "cont/"), names := none, nums := none }) (f := f)
    (u := none) (o := none) (names := defaultNames) (nums := defaultNums) (rows := rows) (w := w) (ofile := none)
    (by simpa [snapFile] using hf) ht rfl rfl
    ⟨by decide, by intro k hk; simp [defaultNums] at hk; omega⟩ hr (by omega) ⟨"m", by decide, by decide⟩
    ⟨by simp, by simp, by simp⟩
  refine ⟨r', ?_, k2, k3, k4⟩
  unfold advanceCluster getSnapshot
  simp only [h, Option.elim_none, bind, Except.bind, empty_ntot, if_true, ho, Option.none_or]
  have e : (emptyRun (advKw a r)).wdir = a.wdir.getD r.wdir := rfl
  rw [e, if_pos hc]
  simp only [Option.isSome_none, Bool.false_eq_true, if_false]
  exact k1

/-- **C68 (violated: restart with an orbit file).**  With an orbit file a restart fails. -/
theorem C68_restart_orbit_violated {g : Galpy} {fc : Cluster → Except Err Cluster} {fs : FS} {a : Kw} {r : Run}
    (h : snapFile fs none (advKw a r) = none) (hc : fs.dir (a.wdir.getD r.wdir ++ "cont/") = true)
    (ho : r.ofile.isSome) : advanceCluster g fc fs none a none r = .error .keyError := by
  unfold advanceCluster getSnapshot
  simp only [h, Option.elim_none, bind, Except.bind, empty_ntot, if_true, ho, Option.none_or]
  have e : (emptyRun (advKw a r)).wdir = a.wdir.getD r.wdir := rfl
  rw [e, if_pos hc]

/-! ### a concrete simulation -/

/-- Two stars at each of two snapshots. -/
def demoRows (j : ℕ) : List (List ℝ) := [[1, 1 + j, 0, 0, 0, 1, 0], [2, -1, 0, 0, 0, -1, 0]]

def demoFS : FS :=
  { file := fun s =>
      if s = "run/00003.dat" then some (Line.text :: (demoRows 0).map Line.row)
      else if s = "run/00004.dat" then some (Line.text :: (demoRows 1).map Line.row) else none
    dir := fun _ => false }

def demoKw : Kw := { wdir := some "run", skiprows := some 1 }

/-- The orbit of the cluster: five snapshots. -/
def demoOrbit : List Line := (List.range 5).map (fun (n : ℕ) => Line.row [n, 8 + n, 0, 0, 0, 220, 0])

theorem demo_readable (j : ℕ) (hj : j ≤ 1) : Readable demoFS { demoKw with nsnap := some (3 + j) } (demoRows j) := by
  have e1 : dirSlash "run" = "run/" := by decide
  have e2 : dirSlash "" = "" := by decide
  have e3 : zfill 5 3 = "00003" := by decide
  have e4 : zfill 5 4 = "00004" := by decide
  refine ⟨Line.text :: (demoRows j).map Line.row, 7, ?_, ⟨[Line.text], rfl, rfl, ?_⟩, 
    (by show LayoutOk defaultNames defaultNums 7; exact ⟨by decide, by decide⟩), by simp [demoRows], by omega,
    ⟨"m", (by show "m" ∈ defaultNames; decide), by decide⟩, ?_⟩
  · refine snapFile_usual ?_
    rcases (by omega : j = 0 ∨ j = 1) with rfl | rfl
    · simp [demoKw, e1, e2, e3, demoFS]
    · simp [demoKw, e1, e2, e4, demoFS]
  · intro r hr
    simp [demoRows] at hr
    rcases hr with rfl | rfl <;> rfl
  · simp [demoRows, cell, demoKw, defaultNames, defaultNums, List.range_succ]
    norm_num

theorem demoG_positive : demoG.Positive := by
  constructor <;> norm_num [demoG]

/-- The hypotheses of `C39_histories` are met: a run with a one-line header in `run/`, loaded at snapshot 3 with an orbit
file, and advanced once, with the centre of density found by the code's own algorithm. -/
example : ∃ r r', loadCluster demoG (findCentreDefault demoG) demoFS none { demoKw with nsnap := some 3 } (some .kpckms) (some .cluster)
      (some demoOrbit) = .ok r ∧
      advanceMany demoG (findCentreDefault demoG) demoFS {} 1 r = .ok r' ∧ r'.nsnap = 4 ∧
      r'.base.st[0]! = ⟨2, 0, 0, 0, 1, 0⟩ ∧ r'.base.gc = ⟨12, 0, 0, 0, 220, 0⟩ := by
  obtain ⟨r, r', h1, h2, h3, h4, -, -, h5⟩ := C39_histories (g := demoG) (fc := findCentreDefault demoG) (fs := demoFS)
    (kw := demoKw) (a := {}) (u := .kpckms) (o := .cluster) (ofile := some demoOrbit) (n := 3) (k := 1) (rows := demoRows)
    (t := fun j => 3 + j) (p := fun j => ⟨8 + (3 + j), 0, 0, 0, 220, 0⟩)
    demoG_positive (findCentreDefault_ok _) trivial trivial le_rfl rfl (by intro h; cases h) (demo_readable 0 (by omega))
    (by
      intro j j1 j2
      exact demo_readable j j2)
    (by
      intro L hL
      cases hL
      exact ⟨rfl, rfl, rfl, [], by simp [demoOrbit]⟩)
    (by
      intro j j1 j2 L hL
      cases hL
      obtain rfl : j = 1 := by omega
      exact ⟨rfl, rfl, rfl, [], by simp [demoOrbit]; norm_num⟩)
  refine ⟨r, r', h1, h2, h4, ?_, ?_⟩
  · rw [h3.star 0 (by simp [demoRows])]
    simp [tableStar, cell, demoRows, defaultNames, defaultNums, List.idxOf, List.findIdx, List.findIdx.go]
    norm_num
  · rw [h5 rfl]
    norm_num

/-- `C42_round_trip` applies to the cluster just read. -/
example {r : Run} {g : Galpy} (hg : g.Positive) (h : HasTable defaultNames defaultNums (demoRows 1) r) (hk : r.kw = []) :
    ∃ r', loadCluster g (findCentreDefault g) (snapout r "out.dat" demoFS) (some "out.dat")
      { names := some (outNames false), nums := some (outNums false) } (some .pckms) (some .galaxy) none = .ok r' ∧
      r'.base.st = r.base.st ∧ r'.base.m = r.base.m ∧ r'.id = r.id := by
  have hl : (demoRows 1).length = 2 := rfl
  have hm : r.base.m = [1, 2] := by
    refine ext_get! (n := 2) (by rw [h.m, hl]) rfl fun i hi => ?_
    rw [h.mass i (by omega)]
    rcases (by omega : i = 0 ∨ i = 1) with rfl | rfl <;> simp [cell, defaultNames, defaultNums, demoRows]
  obtain ⟨r', k1, k2, k3, k4, -⟩ := C42_round_trip (g := g) (fc := findCentreDefault g) (fs := demoFS) (filename := "out.dat")
    (kw := { names := some (outNames false), nums := some (outNums false) }) (r := r) (u := .pckms) (o := .galaxy) (b := false)
    hg (findCentreDefault_ok _) ⟨by rw [h.st, hl], by rw [h.m, h.st], by rw [h.id, h.st], by rw [h.ntot, h.st]⟩
    (by rw [hk, h.ntot, hl]; rfl) (by rw [hm]; norm_num) trivial trivial rfl rfl rfl rfl rfl
  exact ⟨r', k1, k2, k3, k4⟩

/-- `C39_end`: there is no snapshot 5. -/
example {r : Run} (h1 : r.nsnap = 4) (h2 : r.wdir = "run") (h3 : r.snapdir = "") (h4 : r.snapbase = "")
    (h5 : r.snapend = ".dat") (h6 : r.nzfill = 5) (fc : Cluster → Except Err Cluster) :
    ∃ r', advanceCluster demoG fc demoFS none {} none r = .ok r' ∧ r'.ntot = 0 ∧ r'.nsnap = 5 := by
  have e1 : dirSlash "run" = "run/" := by decide
  have e2 : dirSlash "" = "" := by decide
  have e3 : zfill 5 5 = "00005" := by decide
  obtain ⟨r', k1, k2, -, k3, -⟩ := C39_end (g := demoG) (fc := fc) (fs := demoFS) (a := {}) (ofile := none) (r := r)
    (by simp [snapFile, advKw, h1, h2, h3, h4, h5, h6, e1, e2, e3, demoFS]) (by simp [demoFS])
  exact ⟨r', k1, k2, by rw [k3, h1]; rfl⟩

/-- **C42 (violated: default layout).**  Read back with the default column layout a file written by `snapout` gives ids
`0, 1, 2, …` whatever the ids were. -/
theorem C42_default_layout_violated {g : Galpy} {fc : Cluster → Except Err Cluster} {fs : FS} {filename : String} {r : Run}
    {u : Option Units} (ok : RunOk r) :
    ∃ r', loadCluster g fc (snapout r filename fs) (some filename) {} u none none = .ok r' ∧
      r'.id = (List.range r.ntot).map (fun (i : ℕ) => (i : ℤ)) := by
  have hfile : snapFile (snapout r filename fs) (some filename) {} = some ((snapoutRows r).map Line.row) := by
    have e : dirSlash "" = "" := by decide
    simp [snapFile, e, snapout]
  have ht : IsTable 0 (8 + if decide (r.kw.length = r.ntot) then 1 else 0) (snapoutRows r) ((snapoutRows r).map Line.row) := by
    refine ⟨[], rfl, rfl, ?_⟩
    intro x hx
    obtain ⟨i, -, rfl⟩ := List.mem_map.mp hx
    by_cases h : r.kw.length = r.ntot <;> simp [h]
  obtain ⟨r', k1, k2, -, -⟩ := C40_columns_raw (g := g) (fc := fc) (u := u) (o := none) (ofile := none) (kw := {})
    (names := defaultNames) (nums := defaultNums) hfile ht rfl rfl
    ⟨by decide, by intro k hk; simp [defaultNums] at hk; omega⟩
    (by rw [snapoutRows_length]; exact ok.two) (by omega) ⟨"m", by decide, by decide⟩ ⟨by simp, by simp, by simp⟩
  refine ⟨r', k1, ?_⟩
  have hl := snapoutRows_length r
  refine ext_get! (n := r.base.st.length) (k2.id.trans hl) (by simp [ok.ntot]) fun i hi => ?_
  rw [k2.noIds (by decide) i (by rw [hl]; exact hi), get!_range_map (by rw [ok.ntot]; exact hi)]

end

end CT
