/- C159, C160: `snapout` with its options. -/
import Verif.Model.Snapout
import Verif.Props.IO2
import Verif.Props.IO3

namespace CT

noncomputable section

theorem stackCols_ok {c : List ℝ} {cs : List (List ℝ)} (h : ∀ d ∈ cs, d.length = c.length) :
    stackCols (c :: cs) = .ok ((List.range c.length).map (fun i => (c :: cs).map (fun d : List ℝ => d[i]!))) := by
  simp only [stackCols]
  rw [if_pos h]

theorem stackCols_error {c : List ℝ} {cs : List (List ℝ)} {d : List ℝ} (hd : d ∈ cs) (h : d.length ≠ c.length) :
    stackCols (c :: cs) = .error .valueError := by
  simp only [stackCols]
  rw [if_neg (fun k => h (k d hd))]

theorem mapFn_get! {α β : Type} [Inhabited α] [Inhabited β] (f : α → β) {l : List α} {i : ℕ} (h : i < l.length) : (l.map f)[i]! = f l[i]! := by
  rw [getElem!_pos _ i (by simpa using h), getElem!_pos _ i h, List.getElem_map]

theorem starCols_row {r : Run} (ok : RunOk r) {i : ℕ} (hi : i < r.base.st.length) :
    (starCols r).map (fun d : List ℝ => d[i]!) = [r.base.m[i]!, (r.base.st[i]!).x, (r.base.st[i]!).y, (r.base.st[i]!).z, (r.base.st[i]!).vx,
      (r.base.st[i]!).vy, (r.base.st[i]!).vz, (r.id[i]! : ℝ)] := by
  have hid : i < r.id.length := by rw [ok.id]; exact hi
  simp only [starCols, List.map_cons, List.map_nil]
  rw [mapFn_get! Ph.x hi, mapFn_get! Ph.y hi, mapFn_get! Ph.z hi, mapFn_get! Ph.vx hi, mapFn_get! Ph.vy hi, mapFn_get! Ph.vz hi,
    mapFn_get! (fun k : ℤ => (k : ℝ)) hid]

theorem starCols_stack {r : Run} (ok : RunOk r) {more : List (List ℝ)} (h : ∀ d ∈ more, d.length = r.base.st.length) :
    stackCols (starCols r ++ more) = .ok ((List.range r.base.st.length).map (fun (i : ℕ) =>
      [r.base.m[i]!, (r.base.st[i]!).x, (r.base.st[i]!).y, (r.base.st[i]!).z, (r.base.st[i]!).vx,
        (r.base.st[i]!).vy, (r.base.st[i]!).vz, ((r.id[i]! : ℤ) : ℝ)] ++ more.map (fun d : List ℝ => d[i]!))) := by
  have e : starCols r ++ more = r.base.m :: ((starCols r).tail ++ more) := rfl
  rw [e, stackCols_ok ?_, ok.m]
  · congr 1
    refine List.map_congr_left fun i hi => ?_
    have hi : i < r.base.st.length := by simpa using hi
    have := starCols_row ok hi
    rw [← this, ← List.map_append, ← e]
  · intro d hd
    rw [ok.m]
    rcases List.mem_append.mp hd with k | k
    · simp only [starCols, List.tail_cons, List.mem_cons, List.not_mem_nil, or_false] at k
      rcases k with rfl | rfl | rfl | rfl | rfl | rfl | rfl <;> simp [ok.id]
    · exact h d k

/-- **C159 (plain).**  Without options `snapout` writes one row for each star: mass, position, velocity, id, and the stellar type if there is
one for each star.  So C42 is about this function. -/
theorem C159_plain {r : Run} (ok : RunOk r) (e : EnCols) (filename : String) (fs : FS) :
    snapoutFull r e false false filename fs = (snapout r filename fs, none) := by
  unfold snapoutFull snapoutCols snapout snapoutRows
  by_cases h : r.kw.length = r.ntot
  · have := starCols_stack ok (more := [r.kw]) (by simp [h, ok.ntot])
    simp only [h, if_true, if_false, Bool.false_eq_true, bind, Except.bind, pure, Except.pure, this]
    rfl
  · have := starCols_stack ok (more := []) (by simp)
    rw [List.append_nil] at this
    simp only [h, if_false, Bool.false_eq_true, bind, Except.bind, pure, Except.pure, this]
    rfl

/-- The row of star `i` in a file with energies, as the documentation of `snapout` has it. -/
def energyRow (r : Run) (e : EnCols) (i : ℕ) : List ℝ :=
  let p := r.base.st[i]!
  [r.base.m[i]!, p.x, p.y, p.z, p.vx, p.vy, p.vz, (r.id[i]! : ℝ), r.kw[i]!, e.kin[i]!, e.pot[i]!, e.etot[i]!]

/-- One energy of each kind for each star. -/
structure EnCols.Fit (e : EnCols) (n : ℕ) : Prop where
  kin : e.kin.length = n
  pot : e.pot.length = n
  etot : e.etot.length = n

/-- **C159 (energies).**  With stellar types and energies for all stars `snapout(energies=True)` writes the twelve documented columns, one row for
each star in order, and touches no other file. -/
theorem C159_energies {r : Run} (ok : RunOk r) (hk : r.kw.length = r.base.st.length) {e : EnCols} (he : e.Fit r.base.st.length) (filename : String)
    (fs : FS) :
    ∃ fs', snapoutFull r e true false filename fs = (fs', none) ∧
      fs'.file filename = some ((List.range r.base.st.length).map (fun i => Line.row (energyRow r e i))) ∧
      ∀ f, f ≠ filename → fs'.file f = fs.file f := by
  have := starCols_stack ok (more := [r.kw, e.kin, e.pot, e.etot]) (by simp [hk, he.kin, he.pot, he.etot])
  refine ⟨fs.write filename ((List.range r.base.st.length).map (energyRow r e)), ?_, ?_, ?_⟩
  · unfold snapoutFull snapoutCols
    simp only [if_true, if_false, Bool.false_eq_true, bind, Except.bind, pure, Except.pure, List.append_nil, this]
    rfl
  · simp [FS.write]
  · intro f hf
    simp [FS.write, hf]

theorem cell_prefix {rows rows' : List (List ℝ)} {nm : String} {d : ℝ} {i : ℕ} {names : List String} {nums : List ℕ}
    (h : nm ∈ names → (rows'[i]!)[nums[names.idxOf nm]!]! = (rows[i]!)[nums[names.idxOf nm]!]!) :
    cell names nums rows' nm d i = cell names nums rows nm d i := by
  unfold cell
  split
  · exact h ‹_›
  · rfl

theorem HasTable.congr {names : List String} {nums : List ℕ} {rows rows' : List (List ℝ)} {r : Run} (h : HasTable names nums rows' r)
    (hl : rows'.length = rows.length) (hc : ∀ i < rows.length, ∀ nm d, cell names nums rows' nm d i = cell names nums rows nm d i) :
    HasTable names nums rows r := by
  refine ⟨h.ntot.trans hl, h.st.trans hl, h.m.trans hl, h.id.trans hl, fun i hi => ?_, fun i hi => ?_, fun k i hi z hz => ?_, fun k i hi => ?_, fun k => ?_⟩
  · rw [h.star i (hl ▸ hi)]
    simp only [tableStar, hc i hi]
  · rw [h.mass i (hl ▸ hi), hc i hi]
  · exact h.ids k i (hl ▸ hi) z (by rw [hc i hi]; exact hz)
  · exact h.noIds k i (hl ▸ hi)
  · obtain ⟨a, b⟩ := h.kw k
    exact ⟨a.trans hl, fun i hi => by rw [b i (hl ▸ hi), hc i hi]⟩

/-- **C159 (read back).**  A file written with energies and loaded with the written column layout gives the same stars, masses, ids and types. -/
theorem C159_round_trip {g : Galpy} {fc : Cluster → Except Err Cluster} {fs fs' : FS} {filename : String} {kw : Kw} {r : Run} {e : EnCols}
    {u : Units} {o : Origin} (hg : g.Positive) (hfc : CentreFinder g fc) (ok : RunOk r) (hkw : r.kw.length = r.base.st.length)
    (he : e.Fit r.base.st.length) (h : snapoutFull r e true false filename fs = (fs', none))
    (hm : 0 ≤ r.base.m.sum) (hu : u.linear) (ho : o.linear) (hw : kw.wdir = none) (hd : kw.snapdir = none)
    (hs : kw.skiprows = none) (hn : kw.names = some (outNames true)) (hk : kw.nums = some (outNums true)) :
    ∃ r', loadCluster g fc fs' (some filename) kw (some u) (some o) none = .ok r' ∧
      r'.base.st = r.base.st ∧ r'.base.m = r.base.m ∧ r'.id = r.id ∧ r'.ntot = r.ntot ∧ r'.kw = r.kw ∧
      r'.base.units = some u ∧ r'.base.origin = some o := by
  obtain ⟨fs'', a1, a2, -⟩ := C159_energies ok hkw he filename fs
  rw [h] at a1
  injection a1 with a1 _
  subst a1
  have hb : true = decide (r.kw.length = r.ntot) := by rw [hkw, ok.ntot]; simp
  obtain ⟨R, hR⟩ : ∃ R, R = (List.range r.base.st.length).map (energyRow r e) := ⟨_, rfl⟩
  have hRl : R.length = r.base.st.length := by rw [hR]; simp
  have hfile : snapFile fs' (some filename) kw = some (R.map Line.row) := by
    have e : dirSlash "" = "" := by decide
    simp [snapFile, hw, hd, e, a2, hR]
  have ht : IsTable (kw.skiprows.getD 0) 12 R (R.map Line.row) := by
    refine ⟨[], by rw [hs]; rfl, rfl, ?_⟩
    intro x hx
    rw [hR] at hx
    obtain ⟨i, -, rfl⟩ := List.mem_map.mp hx
    rfl
  have hl : LayoutOk (outNames true) (outNums true) 12 := ⟨by decide, by decide⟩
  have hcell : ∀ i < (snapoutRows r).length, ∀ nm d, cell (outNames true) (outNums true) R nm d i =
      cell (outNames true) (outNums true) (snapoutRows r) nm d i := by
    intro i hi nm d
    rw [snapoutRows_length] at hi
    refine cell_prefix fun hnm => ?_
    have e1 : R[i]! = energyRow r e i := by rw [hR, get!_range_map hi]
    rw [e1, snapoutRows_get hi, if_pos (by rw [hkw, ok.ntot])]
    have hk : (outNums true)[(outNames true).idxOf nm]! < 9 := by
      simp only [outNames, if_true, List.cons_append, List.nil_append, List.mem_cons, List.not_mem_nil, or_false] at hnm
      rcases hnm with rfl | rfl | rfl | rfl | rfl | rfl | rfl | rfl | rfl <;> decide
    generalize (outNums true)[(outNames true).idxOf nm]! = k at hk
    unfold energyRow
    match k, hk with
    | 0, _ | 1, _ | 2, _ | 3, _ | 4, _ | 5, _ | 6, _ | 7, _ | 8, _ => rfl
    | k + 9, hk => exact absurd hk (by omega)
  have hmass : ((List.range R.length).map (cell (outNames true) (outNums true) R "m" 1)) = r.base.m := by
    rw [hRl]
    refine ext_get! (n := r.base.st.length) (by simp) ok.m fun i hi => ?_
    rw [get!_range_map hi, hcell i (by rw [snapoutRows_length]; exact hi), cell, if_pos (by decide), snapoutRows_get hi]
    have : (outNums true)[(outNames true).idxOf "m"]! = 0 := by decide
    rw [this]
    rfl
  obtain ⟨r', h1, h2, h3, h4, -⟩ := C40_columns (names := outNames true) (nums := outNums true) (kw := kw) (ofile := none) (t := 0)
    (p := ⟨0, 0, 0, 0, 0, 0⟩) (fc := fc) (u := u) (o := o) hg hfc hfile ht (by rw [hn]; rfl) (by rw [hk]; rfl) hl
    (by rw [hRl]; exact ok.two) (by omega) ⟨"m", by decide, by decide⟩ hu ho (by rw [hmass]; exact hm)
    (by intro L h; cases h)
  obtain ⟨k1, k2, k3, k4, k5⟩ := read_back (b := true) ok hb (h2.congr (rows := snapoutRows r) (by rw [hRl, snapoutRows_length]) hcell)
  exact ⟨r', h1, k1, k2, k3, k4, k5 rfl, h3, h4⟩

/-- **C160 is violated: sky coordinates.**  `snapout(radec=True)` raises `TypeError` and writes nothing, whatever the cluster. -/
theorem C160_radec_violated (r : Run) (e : EnCols) (b : Bool) (filename : String) (fs : FS) :
    snapoutFull r e b true filename fs = (fs, some .typeError) := by
  cases b <;> rfl

/-- **C160 is violated: energies without stellar types.**  `snapout(energies=True)` raises for every cluster that does not have a stellar type for
each star, though energies are there and without `energies=True` it is written. -/
theorem C160_no_types_violated {r : Run} (ok : RunOk r) (h : r.kw.length ≠ r.base.st.length) (e : EnCols) (filename : String) (fs : FS) :
    snapoutFull r e true false filename fs = (fs, some .valueError) ∧ (snapoutFull r e false false filename fs).2 = none := by
  refine ⟨?_, by rw [C159_plain ok]⟩
  unfold snapoutFull snapoutCols
  have : stackCols (starCols r ++ [r.kw, e.kin, e.pot, e.etot]) = .error .valueError :=
    stackCols_error (c := r.base.m) (d := r.kw) (by simp) (by rw [ok.m]; exact h)
  simp only [if_true, if_false, Bool.false_eq_true, bind, Except.bind, pure, Except.pure, List.append_nil, this]

/-- **C160 is violated: no energies.**  For a cluster whose energies have not been calculated `snapout(energies=True)` raises. -/
theorem C160_no_energies_violated {r : Run} (ok : RunOk r) (filename : String) (fs : FS) :
    snapoutFull r ⟨[], [], []⟩ true false filename fs = (fs, some .valueError) := by
  unfold snapoutFull snapoutCols
  have : stackCols (starCols r ++ [r.kw, [], [], []]) = .error .valueError :=
    stackCols_error (c := r.base.m) (d := []) (by simp) (by rw [ok.m]; have := ok.two; simp only [List.length_nil, ne_eq]; omega)
  simp only [if_true, if_false, Bool.false_eq_true, bind, Except.bind, pure, Except.pure, List.append_nil, this]

/-- **C160 is violated: energies in other units than velocities.**  Energies calculated in pc and km/s, then `to_nbody`: in the row written for any
moving star the kinetic energy is not half the square of the velocity beside it. -/
theorem C160_stale_energies_violated {g : Galpy} {r : Run} {e : EnCols} {c' : Cluster} (hu : r.base.units = some .pckms)
    (hk : e.kin = r.base.st.map (fun p => p.v ^ 2 / 2)) (hv : r.base.vbar ^ 2 ≠ 1) (hv0 : r.base.vbar ≠ 0) (h : toNbody g r.base = .ok c') (i : ℕ)
    (hi : i < r.base.st.length) (hm : (r.base.st[i]!).v ≠ 0) :
    let row := energyRow { r with base := c' } e i
    row[9]! ≠ (row[4]! ^ 2 + row[5]! ^ 2 + row[6]! ^ 2) / 2 := by
  have hst : c'.st = r.base.st.map (fun p => (p.divPos r.base.rbar).divVel r.base.vbar) := by
    simp only [toNbody, hu, bind] at h
    simp only [ne_eq, not_true_eq_false, false_and, if_false, Except.bind] at h
    rw [(core_fields (analyze_core h)).2.2.2.2.1]
    have : (nbodyBinStep (nbodyStep r.base)).st = (nbodyStep r.base).st := by
      unfold nbodyBinStep
      split
      · rfl
      · split <;> rfl
    rw [this]
    simp [nbodyStep, hu]
  have hi' : i < c'.st.length := by rw [hst]; simpa using hi
  have hs : c'.st[i]! = ((r.base.st[i]!).divPos r.base.rbar).divVel r.base.vbar := by rw [hst, mapFn_get! _ hi]
  have hk' : e.kin[i]! = (r.base.st[i]!).v ^ 2 / 2 := by rw [hk, mapFn_get! _ hi]
  show e.kin[i]! ≠ ((c'.st[i]!).vx ^ 2 + (c'.st[i]!).vy ^ 2 + (c'.st[i]!).vz ^ 2) / 2
  rw [hs, hk']
  generalize r.base.st[i]! = p at hm
  have hsq : p.v ^ 2 = p.vx ^ 2 + p.vy ^ 2 + p.vz ^ 2 := by
    unfold Ph.v
    exact Real.sq_sqrt (by positivity)
  have h0 : 0 < p.v ^ 2 := by positivity
  intro hcon
  have e : ((p.divPos r.base.rbar).divVel r.base.vbar).vx ^ 2 + ((p.divPos r.base.rbar).divVel r.base.vbar).vy ^ 2 +
      ((p.divPos r.base.rbar).divVel r.base.vbar).vz ^ 2 = p.v ^ 2 / r.base.vbar ^ 2 := by
    rw [hsq]
    simp only [Ph.divPos, Ph.divVel, div_pow]
    ring
  rw [e] at hcon
  have : p.v ^ 2 * r.base.vbar ^ 2 = p.v ^ 2 := by
    have h1 : r.base.vbar ^ 2 ≠ 0 := pow_ne_zero _ hv0
    have h2 : p.v ^ 2 = p.v ^ 2 / r.base.vbar ^ 2 := by linarith
    exact (eq_div_iff h1).mp h2
  exact hv (mul_left_cancel₀ h0.ne' (by linarith))

/-! ### witnesses -/

/-- Two stars with types and energies. -/
def outDemo : Run :=
  { runOf {} (some .pckms) (some .cluster) (blankTab (some .pckms) (some .cluster) 0) [1, 14] demo with id := [7, 3], ntot := 2 }

def outDemoE : EnCols := ⟨demo.st.map (fun p => p.v ^ 2 / 2), [-1, -1], [0, 1]⟩

theorem outDemo_ok : RunOk outDemo := ⟨by simp [outDemo, runOf, demo], rfl, rfl, rfl⟩

theorem outDemoE_fit : outDemoE.Fit outDemo.base.st.length := ⟨rfl, rfl, rfl⟩

example : ∃ fs', snapoutFull outDemo outDemoE true false "out.dat" demoFS = (fs', none) ∧
    ∃ r', loadCluster demoG (findCentreDefault demoG) fs' (some "out.dat") { names := some (outNames true), nums := some (outNums true) }
      (some .pckms) (some .cluster) none = .ok r' ∧ r'.kw = [1, 14] ∧ r'.id = [7, 3] := by
  obtain ⟨fs', h, -⟩ := C159_energies outDemo_ok rfl outDemoE_fit "out.dat" demoFS
  obtain ⟨r', k1, -, -, k2, -, k3, -⟩ := C159_round_trip (g := demoG) (fc := findCentreDefault demoG)
    (kw := { names := some (outNames true), nums := some (outNums true) }) (u := .pckms) (o := .cluster) ⟨demo_pos.ro, demo_pos.vo, demo_pos.time,
      demo_pos.mass, demo_pos.vel⟩ (findCentreDefault_ok _) outDemo_ok rfl outDemoE_fit h
    (by norm_num [outDemo, runOf, demo]) trivial trivial rfl rfl rfl rfl rfl
  exact ⟨fs', h, r', k1, k3, k2⟩

example : (snapoutFull { outDemo with kw := [] } outDemoE true false "out.dat" demoFS).2 = some .valueError := by
  rw [(C160_no_types_violated (r := { outDemo with kw := [] }) ⟨outDemo_ok.two, rfl, rfl, rfl⟩ (by simp [outDemo, runOf, demo]) _ _ _).1]

example : ∃ c', toNbody demoG outDemo.base = .ok c' ∧ (energyRow { outDemo with base := c' } outDemoE 0)[9]! ≠
    ((energyRow { outDemo with base := c' } outDemoE 0)[4]! ^ 2 + (energyRow { outDemo with base := c' } outDemoE 0)[5]! ^ 2 +
      (energyRow { outDemo with base := c' } outDemoE 0)[6]! ^ 2) / 2 := by
  obtain ⟨c', h, -⟩ := toNbody_total (g := demoG) (c := outDemo.base) (u := .pckms) rfl trivial demo_pos demo_good
  refine ⟨c', h, C160_stale_energies_violated (g := demoG) (r := outDemo) (e := outDemoE) rfl rfl ?_ ?_ h 0 ?_ ?_⟩
  · norm_num [outDemo, runOf, demo]
  · norm_num [outDemo, runOf, demo]
  · simp [outDemo, runOf, demo]
  · simp [outDemo, runOf, demo, Ph.v]

end

end CT
