/- Histories of NBODY6++ snapshots (C112) and what goes wrong (C113). -/
import Verif.Props.Nbody6pp
import Verif.Props.IO3
import Verif.Spec.Paths

namespace CT

noncomputable section

theorem dirSlash_idem (d : String) : dirSlash (dirSlash d) = dirSlash d := by
  obtain ⟨-, h2, h3⟩ := C39_dir d
  by_cases h : d = ""
  · subst h; decide
  · by_cases he : ∃ e, d = e ++ "/"
    · obtain ⟨e, he⟩ := he
      rw [h2 e he, h2 e he]
    · push Not at he
      rw [h3 h he]
      exact (C39_dir _).2.1 d rfl

/-- Directories in file names. -/
theorem dirSlash_inDir (d f : String) : dirSlash d ++ f = inDir d f := by
  obtain ⟨h1, h2, h3⟩ := C39_dir d
  unfold inDir
  by_cases e : d = ""
  · rw [if_pos e, h1 e, String.empty_append]
  · rw [if_neg e]
    by_cases e2 : ∃ x, d = x ++ "/"
    · rw [if_pos e2, h2 _ e2.choose_spec]
    · rw [if_neg e2, h3 e (fun x hx => e2 ⟨x, hx⟩)]

theorem dirSlash_runFile (w s f : String) : dirSlash w ++ dirSlash s ++ f = runFile w s f := by
  unfold runFile
  rw [← dirSlash_inDir, ← dirSlash_inDir, String.append_assoc]

theorem conf3_named (w s : String) (n : ℕ) : conf3Name w s n = runFile w s ("conf.3_" ++ Nat.repr n) := by
  rw [← dirSlash_runFile, conf3Name, String.append_assoc]

theorem conf3Name_slash (w s : String) (n : ℕ) : conf3Name (dirSlash w) s n = conf3Name w s n := by
  unfold conf3Name
  rw [dirSlash_idem]

/-- What a loaded cluster has for snapshot number `n` with record `r`. -/
structure PPAt (r : PPRec) (q : ℕ) (n : ℕ) (pos : Option Ph) (c : PPRun) : Prop where
  stars : IsPP r q c.tab
  /-- kinetic energies in N-body units -/
  kin : ∀ i < r.stars.length - q, c.kin[i]! = c.tab.m[i]! * ((c.tab.row i).vx ^ 2 + (c.tab.row i).vy ^ 2 + (c.tab.row i).vz ^ 2) / 2
  ektot : c.ektot = ((List.range (r.stars.length - q)).map (fun i => c.kin[i]!)).sum
  /-- densities of single stars -/
  rhos : ∀ j < r.stars.length - 2 * q, c.rhos[q + j]! = (r.stars.map (fun s => s.rho.value))[2 * q + j]!
  /-- positions and velocities that all functions of the cluster work with -/
  st : c.tab.base.st.length = r.stars.length - q ∧ (∀ i < r.stars.length - q, c.tab.base.st[i]! = c.tab.row i) ∧ c.tab.base.m = c.tab.m
  gc : c.tab.base.gc = pos.getD ⟨0, 0, 0, 0, 0, 0⟩
  nsnap : c.nsnap = n

theorem kinCol_at {t : Tab} {n i : ℕ} (al : Aligned t n) (h : i < n) :
    (kinCol t)[i]! = t.m[i]! * ((t.row i).vx ^ 2 + (t.row i).vy ^ 2 + (t.row i).vz ^ 2) / 2 := by
  unfold kinCol
  rw [al.x, get!_range_map h, Real.sq_sqrt (by positivity)]
  show 0.5 * t.m[i]! * (t.vx[i]! ^ 2 + t.vy[i]! ^ 2 + t.vz[i]! ^ 2) = t.m[i]! * (t.vx[i]! ^ 2 + t.vy[i]! ^ 2 + t.vz[i]! ^ 2) / 2
  ring

theorem joinPairs_single {q j : ℕ} {l : List ℝ} : (joinPairs q l)[q + j]! = l[2 * q + j]! := by
  unfold joinPairs
  have h : q = ((List.range q).map (fun (k : ℕ) => l[2 * k]! + l[2 * k + 1]!)).length := by simp
  rw [get!_append_right (by simp)]
  simp [List.getElem!_eq_getElem?_getD, List.getElem?_drop]

theorem joinPairs_pair {q i : ℕ} {l : List ℝ} (h : i < q) : (joinPairs q l)[i]! = l[2 * i]! + l[2 * i + 1]! := by
  unfold joinPairs
  rw [get!_append_left (by simpa using h), get!_range_map h]

/-- One snapshot, as `PPAt`. -/
theorem getNbody6pp_at {g : Galpy} {r : PPRec} {q n d : ℕ} {s : Bytes} {kw : Kw} {adv : Bool} {ofile : Option (List Line)} {t : ℝ} {p : Ph}
    (hr : r.Full q) (hm : ∀ i < r.stars.length, 0 < r.mass i) (ha : kw.analyze.getD true)
    (ho : OrbitOk { kw with nsnap := some (n / d) } adv ofile t p) :
    ∃ c, getNbody6pp g (some (r.file ++ s)) ofile adv kw n d = .ok c ∧ PPAt r q n (if ofile.isSome then some p else none) c ∧
      c.wdir = dirSlash (kw.wdir.getD "") ∧ c.snapdir = "" ∧
      c.ofile = ofile.map (List.drop (orbitLines { kw with nsnap := some (n / d) } adv)) := by
  obtain ⟨c, k1, k2, -, k4, k5, -, k7, -, k9, k10, -, k12, k13, k14, k15⟩ := getNbody6pp_ok (g := g) (s := s) hr hm ho
  refine ⟨c, k1, ⟨k2, ?_, ?_, ?_, k9 ha, ?_, k12⟩, k13, k14, k15⟩
  · intro i hi
    rw [k5, kinCol_at k2.len hi]
  · rw [k7, k5]
    congr 1
    unfold kinCol
    rw [k2.len.x]
    apply List.map_congr_left
    intro i hi
    rw [get!_range_map (List.mem_range.mp hi)]
  · intro j _
    rw [k4, joinPairs_single]
  · rw [k10]
    cases ofile <;> rfl

/-- **C112.**  Snapshots `rs 0, rs 1, …` of an NBODY6++ run are in files `conf.3_n` with `n = n0, n0+d, n0+2d, …`: loading
snapshot `n0` and advancing `k` times with the same `dtout = d` (and the same `snapdir`, if any) gives snapshot `k`: binaries as
single stars with the mass and centre of mass of their components, followed by the other stars in the order of the file, with
ids, N-body scales, centre, kinetic energies, densities, and the position given by the line `n0/d + k` of the orbit file, if
there is one.  `otime` only replaces the time. -/
theorem C112_histories {g : Galpy} {fs : String → Option Bytes} {rs : ℕ → PPRec} {q : ℕ → ℕ} {kw a : Kw} {ofile : Option (List Line)}
    {n0 d k : ℕ} {t : ℕ → ℝ} {p : ℕ → Ph} {w s : String} (hd : 1 ≤ d)
    (hr : ∀ j ≤ k, (rs j).Full (q j)) (hm : ∀ j ≤ k, ∀ i < (rs j).stars.length, 0 < (rs j).mass i)
    (hf : ∀ j ≤ k, ∃ more, fs (runFile w s ("conf.3_" ++ Nat.repr (n0 + j * d))) = some ((rs j).file ++ more))
    (kn : kw.nsnap.getD 0 = n0) (kwd : kw.wdir.getD "" = w) (ks : kw.snapdir.getD "" = s) (ka : kw.analyze.getD true)
    (an : a.nsnap = none) (awd : a.wdir = none) (as : a.snapdir.getD "" = s) (aa : a.analyze.getD true)
    (ho : ∀ L, ofile = some L → (kw.ocolNames = none ∧ kw.ocolNums = none ∧ kw.ounits = none) ∧
      (a.ocolNames = none ∧ a.ocolNums = none ∧ a.ounits = none) ∧ ∀ j ≤ k, OrbitAt L (n0 / d + j) (t j) (p j)) :
    ∃ c c', loadNbody6pp g fs ofile kw d = .ok c ∧ advanceNbody6ppMany g fs a d k c = .ok c' ∧
      PPAt (rs k) (q k) (n0 + k * d) (if ofile.isSome then some (p k) else none) c' := by
  simp only [← conf3_named] at hf
  have step : ∀ (m : ℕ), m ≤ k → ∀ (c : PPRun), c.wdir = dirSlash w → c.snapdir = "" → c.nsnap = n0 + m * d →
      c.ofile = ofile.map (List.drop (n0 / d + m + 1)) → PPAt (rs m) (q m) (n0 + m * d) (if ofile.isSome then some (p m) else none) c →
      ∃ c', advanceNbody6ppMany g fs a d (k - m) c = .ok c' ∧
        PPAt (rs k) (q k) (n0 + k * d) (if ofile.isSome then some (p k) else none) c' := by
    intro m hmk
    induction h : k - m generalizing m with
    | zero =>
      intro c h1 h2 h3 h4 h5
      obtain rfl : m = k := by omega
      exact ⟨c, rfl, h5⟩
    | succ e ih =>
      intro c h1 h2 h3 h4 h5
      obtain ⟨more, hfile⟩ := hf (m + 1) (by omega)
      obtain ⟨K, hK⟩ : ∃ K : Kw, K = { nbAdvKw a with wdir := some (dirSlash w), snapdir := some s } := ⟨_, rfl⟩
      have hn : max (a.nsnap.getD 0) c.nsnap + 1 + d - 1 = n0 + (m + 1) * d := by
        rw [an, h3, Nat.add_mul]
        simp
        omega
      have hs : a.snapdir.getD c.snapdir = s := by rw [h2, as]
      obtain ⟨c1, k1, k2, k3, k4, k5⟩ := getNbody6pp_at (g := g) (r := rs (m + 1)) (q := q (m + 1)) (n := n0 + (m + 1) * d) (d := d) (s := more)
        (kw := K) (adv := true) (ofile := ofile.map (List.drop (n0 / d + m + 1))) (t := t (m + 1)) (p := p (m + 1)) (hr _ (by omega))
        (hm _ (by omega)) (by rw [hK]; exact aa)
        (by
          intro L hL
          cases hof : ofile with
          | none => rw [hof] at hL; cases hL
          | some L' =>
            rw [hof] at hL
            cases hL
            obtain ⟨-, ⟨q1, q2, q3⟩, q4⟩ := ho L' hof
            refine ⟨by rw [hK]; exact q1, by rw [hK]; exact q2, by rw [hK]; exact q3, ?_⟩
            obtain ⟨more, q5⟩ := q4 (m + 1) (by omega)
            refine ⟨more, ?_⟩
            have : n0 / d + m + 1 = n0 / d + (m + 1) := by omega
            simpa [List.getElem?_drop, this] using q5)
      have hadv : advanceNbody6pp g fs a d c = .ok c1 := by
        unfold advanceNbody6pp
        simp only [hn, hs, awd, h1, Option.getD_none, conf3Name_slash, hfile, h4]
        rw [← hK, k1]
        simp only [bind, Except.bind, pure, Except.pure]
        rw [if_neg]
        rw [k2.stars.ntot]
        have := List.length_pos_iff.mpr (hr (m + 1) (by omega)).ne
        have := (hr (m + 1) (by omega)).pairs
        omega
      have hsome : (ofile.map (List.drop (n0 / d + m + 1))).isSome = ofile.isSome := by cases ofile <;> rfl
      rw [hsome] at k2
      obtain ⟨c', j1, j2⟩ := ih (m + 1) (by omega) (by omega) c1 (by rw [k3, hK]; exact dirSlash_idem w) k4 k2.nsnap (by
        rw [k5]
        have : orbitLines { K with nsnap := some ((n0 + (m + 1) * d) / d) } true = 1 := by simp [orbitLines]
        rw [this, Option.map_map]
        cases ofile with
        | none => rfl
        | some L =>
          simp only [Option.map_some, Function.comp, List.drop_drop]
          rfl) k2
      refine ⟨c', ?_, j2⟩
      simp only [advanceNbody6ppMany, hadv, bind, Except.bind]
      exact j1
  obtain ⟨more, hfile⟩ := hf 0 (by omega)
  rw [Nat.zero_mul, Nat.add_zero] at hfile
  obtain ⟨c, k1, k2, k3, k4, k5⟩ := getNbody6pp_at (g := g) (r := rs 0) (q := q 0) (n := n0) (d := d) (s := more)
    (kw := kw) (adv := false) (ofile := ofile) (t := t 0) (p := p 0) (hr _ (by omega)) (hm _ (by omega)) ka
    (by
      intro L hL
      obtain ⟨⟨q1, q2, q3⟩, -, q4⟩ := ho L hL
      exact ⟨q1, q2, q3, q4 0 (by omega)⟩)
  have hload : loadNbody6pp g fs ofile kw d = .ok c := by
    unfold loadNbody6pp
    simp only [kn, kwd, ks, hfile]
    exact k1
  obtain ⟨c', j1, j2⟩ := step 0 (by omega) c (by rw [k3, kwd]) k4 (by rw [k2.nsnap]; simp) (by
    rw [k5]
    congr 2
    unfold orbitLines
    by_cases h : n0 / d = 0 <;> simp [h]) (by simpa using k2)
  exact ⟨c, c', hload, j1, j2⟩

/-! ### what goes wrong -/

/-- **C113 (violated: number of binaries).**  The cluster counts every binary twice. -/
theorem C113_binaries_violated {g : Galpy} {r : PPRec} {q n d : ℕ} {s : Bytes} {kw : Kw} {adv : Bool} (hr : r.Full q)
    (hm : ∀ i < r.stars.length, 0 < r.mass i) :
    ∃ c, getNbody6pp g (some (r.file ++ s)) none adv kw n d = .ok c ∧ IsPP r q c.tab ∧ c.tab.nb = 2 * q := by
  obtain ⟨c, k1, k2, k3, -⟩ := getNbody6pp_ok (g := g) (s := s) (kw := kw) (adv := adv) (ofile := none) (n := n) (d := d) (t := 0)
    (p := ⟨0, 0, 0, 0, 0, 0⟩) hr hm (by intro L h; cases h)
  exact ⟨c, k1, k2, k3⟩

/-- The bits of a negative number that is not huge, read as an integer. -/
theorem asInt_neg {s : Single} (h : s.Ok) (hn : s.value < 0) (hb : -2 ^ 28 < s.value) : asInt s.bits < -838860800 := by
  obtain ⟨h1, h2⟩ := h
  have neg : s.neg = true := by
    by_contra hc
    have : 0 ≤ s.value := by
      unfold Single.value
      rw [if_neg hc]
      split <;> positivity
    linarith
  have he : s.exp ≤ 155 := by
    by_contra hc
    push Not at hc
    have e0 : s.exp ≠ 0 := by omega
    unfold Single.value at hb
    rw [if_pos neg, if_neg e0] at hb
    have p1 : (2 : ℝ) ^ (28 : ℤ) ≤ (2 : ℝ) ^ ((s.exp : ℤ) - 127) := zpow_le_zpow_right₀ (by norm_num) (by omega)
    have p2 : (1 : ℝ) ≤ 1 + s.frac / 2 ^ 23 := by
      have : (0 : ℝ) ≤ s.frac / 2 ^ 23 := by positivity
      linarith
    have p3 : (2 : ℝ) ^ (28 : ℤ) ≤ (1 + s.frac / 2 ^ 23) * (2 : ℝ) ^ ((s.exp : ℤ) - 127) := by
      have : (0 : ℝ) ≤ (2 : ℝ) ^ ((s.exp : ℤ) - 127) := by positivity
      nlinarith
    norm_num at p3 hb
    linarith
  unfold asInt Single.bits
  rw [if_pos neg]
  split
  · omega
  · push_cast
    omega

/-- **C113 (violated: potentials).**  Potentials are read as integers: a star that has a negative potential not below `-2^28` in
the file, gets one below `-8.3·10^8`. -/
theorem C113_potentials_violated {g : Galpy} {r : PPRec} {q n d j : ℕ} {s : Bytes} {kw : Kw} {adv : Bool} (hr : r.Full q)
    (hm : ∀ i < r.stars.length, 0 < r.mass i) (hj : 2 * q + j < r.stars.length)
    (h1 : r.stars[2 * q + j].pot.value < 0) (h2 : -2 ^ 28 < r.stars[2 * q + j].pot.value) :
    ∃ c, getNbody6pp g (some (r.file ++ s)) none adv kw n d = .ok c ∧ IsPP r q c.tab ∧ c.pot[q + j]! < -838860800 := by
  obtain ⟨c, k1, k2, -, -, -, k6, -⟩ := getNbody6pp_ok (g := g) (s := s) (kw := kw) (adv := adv) (ofile := none) (n := n) (d := d) (t := 0)
    (p := ⟨0, 0, 0, 0, 0, 0⟩) hr hm (by intro L h; cases h)
  refine ⟨c, k1, k2, ?_⟩
  rw [k6, joinPairs_single, List.map_map, getElem!_pos _ _ (by simpa using hj), List.getElem_map]
  have := asInt_neg (hr.ok.stars _ (List.getElem_mem hj)).2.2.2 h1 h2
  have : ((asInt r.stars[2 * q + j].pot.bits : ℤ) : ℝ) < ((-838860800 : ℤ) : ℝ) := by exact_mod_cast this
  simpa using this

/-- Without stars: what is left of a run whose file does not exist. -/
theorem getNbody6pp_none {g : Galpy} {kw : Kw} {adv : Bool} {n d : ℕ} :
    ∃ c, getNbody6pp g none none adv kw n d = .ok c ∧ c.tab.ntot = 0 ∧ c.tab.base.st = [] := by
  have hr : readConf3 none = .ok emptyPP := rfl
  have ha : alistAt emptyPP.base 0 = .ok 0 := by
    unfold alistAt emptyPP
    rw [if_pos (by simp [emptySnap])]
    rfl
  have hp : ∀ t, addPP emptyPP t = .ok (t, [], [], []) := fun t => rfl
  have hz : (blankTab (some .nbody) (some .cluster) 0).ntot = 0 := rfl
  unfold getNbody6pp
  simp only [hr, ha, hp, bind, Except.bind, nbAnalyze, hz, lt_irrefl, and_false, if_false, readOrbitIf, Option.elim_none, pure, Except.pure]
  exact ⟨_, rfl, rfl, rfl⟩

/-- **C113 (violated: `snapdir`).**  The directory of the snapshots is forgotten: a cluster loaded from files in a directory
`snapdir`, that has the next snapshot too, is advanced (without repeating the keyword) to a cluster without stars. -/
theorem C113_snapdir_violated {g : Galpy} {fs : String → Option Bytes} {r : PPRec} {q d : ℕ} {kw : Kw} {s : Bytes} (hr : r.Full q)
    (hm : ∀ i < r.stars.length, 0 < r.mass i)
    (hf : fs (conf3Name (kw.wdir.getD "") (kw.snapdir.getD "") (kw.nsnap.getD 0)) = some (r.file ++ s))
    (hno : fs (conf3Name (kw.wdir.getD "") "" (kw.nsnap.getD 0 + 1 + d - 1)) = none) :
    ∃ c c', loadNbody6pp g fs none kw d = .ok c ∧ IsPP r q c.tab ∧ advanceNbody6pp g fs {} d c = .ok c' ∧ c'.tab.ntot = 0 ∧
      c'.tab.base.st = [] := by
  obtain ⟨c, k1, k2, -, -, -, -, -, -, -, -, -, k12, k13, k14, k15⟩ := getNbody6pp_ok (g := g) (s := s) (kw := kw) (adv := false) (ofile := none)
    (n := kw.nsnap.getD 0) (d := d) (t := 0) (p := ⟨0, 0, 0, 0, 0, 0⟩) hr hm (by intro L h; cases h)
  obtain ⟨K, hK⟩ : ∃ K : Kw, K = { nbAdvKw {} with wdir := some (dirSlash (kw.wdir.getD "")), snapdir := some "" } := ⟨_, rfl⟩
  obtain ⟨c', j1, j2, j3⟩ := getNbody6pp_none (g := g) (kw := K) (adv := true) (n := kw.nsnap.getD 0 + 1 + d - 1) (d := d)
  have hl : loadNbody6pp g fs none kw d = .ok c := by
    unfold loadNbody6pp
    simp only [hf]
    exact k1
  refine ⟨c, { c' with ofile := none }, hl, k2, ?_, j2, j3⟩
  unfold advanceNbody6pp
  simp only [k12, k13, k14, k15, Option.getD_none, Nat.zero_max, conf3Name_slash, hno, Option.map_none]
  rw [← hK, j1]
  simp only [bind, Except.bind, pure, Except.pure, if_pos j2]

/-- **C113 (violated: damaged files).**  Sizes that differ at the ends of the header block raise `TypeError` (the reader returns
`-1`, the caller unpacks thirteen values) rather than an error about the file. -/
theorem C113_header_violated {g : Galpy} {kw : Kw} {adv : Bool} {n d : ℕ} {h e a b m k : ℤ} {t : Bytes} {ofile : Option (List Line)} (i1 : Int32 h) (i2 : Int32 e)
    (i3 : Int32 a) (i4 : Int32 b) (i5 : Int32 m) (i6 : Int32 k) (hne : h ≠ e) :
    getNbody6pp g (some (intBytes h ++ (intBytes a ++ (intBytes b ++ (intBytes m ++ (intBytes k ++ (intBytes e ++ t))))))) ofile adv kw n d =
      .error .typeError := by
  unfold getNbody6pp readConf3 conf3Rest
  simp only [Option.elim_some, readInt_bytes i1, readInt_bytes i2, readInt_bytes i3, readInt_bytes i4, readInt_bytes i5, readInt_bytes i6,
    bind, Except.bind, ne_eq, hne, not_false_eq_true, if_true]
  rfl

/-! ### a concrete case -/

/-- Two stars, the components of a binary, and a third one; header entry 1 is the number of binaries. -/
def demoPP : PPRec :=
  { model := 1, nrun := -2, alist := ⟨false, 128, 0⟩ :: ⟨false, 127, 0⟩ :: List.replicate 18 ⟨false, 128, 0⟩
    stars := [
      ⟨⟨⟨false, 127, 4194304⟩, ⟨true, 127, 0⟩, ⟨false, 0, 0⟩, ⟨false, 0, 0⟩, ⟨false, 0, 0⟩, ⟨false, 0, 0⟩, ⟨false, 0, 1⟩, 7⟩,
        ⟨false, 127, 0⟩, ⟨false, 127, 0⟩, ⟨true, 127, 0⟩⟩,
      ⟨⟨⟨false, 127, 0⟩, ⟨false, 128, 0⟩, ⟨false, 0, 0⟩, ⟨false, 0, 0⟩, ⟨false, 0, 0⟩, ⟨true, 0, 0⟩, ⟨false, 0, 0⟩, 3⟩,
        ⟨false, 127, 0⟩, ⟨false, 127, 0⟩, ⟨true, 127, 0⟩⟩,
      ⟨⟨⟨false, 127, 0⟩, ⟨false, 129, 0⟩, ⟨false, 0, 0⟩, ⟨false, 0, 0⟩, ⟨false, 0, 0⟩, ⟨true, 0, 0⟩, ⟨false, 0, 0⟩, 4⟩,
        ⟨false, 127, 0⟩, ⟨false, 127, 0⟩, ⟨true, 127, 0⟩⟩] }

theorem demoPP_full : demoPP.Full 1 := by
  refine ⟨⟨?_, ?_, ?_, ?_, ?_, ?_⟩, ?_, ?_, ?_, ?_⟩
  · exact ⟨by norm_num [demoPP], by norm_num [demoPP]⟩
  · exact ⟨by norm_num [demoPP], by norm_num [demoPP]⟩
  · simp [demoPP]
  · simp [demoPP]
  · intro s hs
    simp [demoPP] at hs
    rcases hs with rfl | rfl | rfl <;> exact ⟨by norm_num, by norm_num⟩
  · intro s hs
    simp [demoPP] at hs
    rcases hs with rfl | rfl | rfl <;> simp [PPStar.Ok, StarRec.Ok, Single.Ok, Int32]
  · simp [demoPP]
  · simp [demoPP]
  · simp [demoPP, PPRec.head, Single.value]
  · simp [demoPP]

theorem demoPP_mass : ∀ i < demoPP.stars.length, 0 < demoPP.mass i := by
  intro i hi
  have : i < 3 := by simpa [demoPP] using hi
  interval_cases i <;> simp [PPRec.mass, demoPP, Single.value] <;> positivity

/-- The hypotheses of C112 are met by a run with snapshots 0, 2, 4; the cluster then has two stars, the first of mass 2.5. -/
example : ∃ c c', loadNbody6pp demoG (fun _ => some (demoPP.file ++ [])) none {} 2 = .ok c ∧
    advanceNbody6ppMany demoG (fun _ => some (demoPP.file ++ [])) {} 2 2 c = .ok c' ∧ c'.tab.ntot = 2 ∧ c'.tab.m[0]! = 2.5 ∧ c'.nsnap = 4 := by
  obtain ⟨c, c', k1, k2, k3⟩ := C112_histories (g := demoG) (fs := fun _ => some (demoPP.file ++ [])) (rs := fun _ => demoPP) (q := fun _ => 1)
    (kw := {}) (a := {}) (ofile := none) (n0 := 0) (d := 2) (k := 2) (t := fun _ => 0) (p := fun _ => ⟨0, 0, 0, 0, 0, 0⟩) (w := "") (s := "")
    (by norm_num) (fun _ _ => demoPP_full) (fun _ _ => demoPP_mass) (fun _ _ => ⟨[], rfl⟩) rfl rfl rfl rfl rfl rfl rfl rfl (by intro L h; cases h)
  have m0 : demoPP.mass 0 = 1.5 := by simp [PPRec.mass, demoPP, Single.value]; norm_num
  have m1 : demoPP.mass 1 = 1 := by simp [PPRec.mass, demoPP, Single.value]
  refine ⟨c, c', k1, k2, ?_, ?_, ?_⟩
  · rw [k3.stars.ntot]; simp [demoPP]
  · have := (k3.stars.pair 0 (by norm_num) (by rw [Nat.mul_zero, m0, Nat.zero_add, m1]; norm_num)).m
    rw [this, Nat.mul_zero, m0, Nat.zero_add, m1]
    norm_num
  · rw [k3.nsnap]

/-- A potential of -1 becomes one below -8·10^8. -/
example : ∃ c, getNbody6pp demoG (some (demoPP.file ++ [])) none false {} 0 1 = .ok c ∧ IsPP demoPP 1 c.tab ∧ c.pot[1 + 0]! < -838860800 :=
  C113_potentials_violated demoPP_full demoPP_mass (by simp [demoPP]) (by simp [demoPP, Single.value]) (by simp [demoPP, Single.value]; norm_num)

/-- Files in a directory `snaps`: loading finds them, advancing does not. -/
example : ∃ c c', loadNbody6pp demoG (fun f => if f = "snaps/conf.3_0" ∨ f = "snaps/conf.3_1" then some (demoPP.file ++ []) else none) none
      { snapdir := some "snaps" } 1 = .ok c ∧ IsPP demoPP 1 c.tab ∧
    advanceNbody6pp demoG (fun f => if f = "snaps/conf.3_0" ∨ f = "snaps/conf.3_1" then some (demoPP.file ++ []) else none) {} 1 c = .ok c' ∧
    c'.tab.ntot = 0 ∧ c'.tab.base.st = [] := by
  have e1 : dirSlash "snaps" = "snaps/" := by decide
  have e2 : dirSlash "" = "" := by decide
  have e3 : conf3Name "" "snaps" 0 = "snaps/conf.3_0" := by unfold conf3Name; rw [e1, e2]; decide
  have e4 : conf3Name "" "" (0 + 1 + 1 - 1) = "conf.3_1" := by unfold conf3Name; rw [e2]; decide
  refine C113_snapdir_violated (s := []) demoPP_full demoPP_mass ?_ ?_
  · exact if_pos (.inl e3)
  · refine if_neg ?_
    show ¬(conf3Name "" "" (0 + 1 + 1 - 1) = "snaps/conf.3_0" ∨ conf3Name "" "" (0 + 1 + 1 - 1) = "snaps/conf.3_1")
    rw [e4]
    decide

end

end CT
