/- Stellar evolution files of NBODY6++: histories (C126) and what goes wrong (C127). -/
import Verif.Props.Nbody6ppEv2

namespace CT

noncomputable section

/-- The cluster of snapshot number `n` with record `r` and stellar evolution files `ps`, `ss`. -/
structure PPEvAt (r : PPRec) (q : ℕ) (ps : List PairLine) (ss : List SingleLine) (n : ℕ) (pos : Option Ph) (c : PPEvRun) : Prop where
  snap : PPAt r q n pos c.run
  ev : ∃ e, c.ev = some e ∧ HasEv r q ps ss c.run.tab e ∧ Binding c.run.tab.base e
  solar : SolarBin ps c.run.tab.base

/-- One snapshot. -/
theorem getNbody6ppEv_at {g : Galpy} {r : PPRec} {q n d : ℕ} {s : Bytes} {kw : Kw} {adv : Bool} {ofile : Option (List Line)} {t : ℝ} {p : Ph}
    {ps : List PairLine} {ss : List SingleLine} (hr : r.Full q) (hm : ∀ i < r.stars.length, 0 < r.mass i) (ok : EvOk r q ps ss)
    (h2 : 0 < r.head 2) (h3 : 0 < r.head 3) (ha : kw.analyze.getD true) (ho : OrbitOk { kw with nsnap := some (n / d) } adv ofile t p) :
    ∃ c, getNbody6ppEv g (some (r.file ++ s)) (some (bevFile ps)) (some (sevFile ss)) ofile adv kw n d = .ok c ∧
      PPEvAt r q ps ss n (if ofile.isSome then some p else none) c ∧ c.run.wdir = dirSlash (kw.wdir.getD "") ∧ c.run.snapdir = "" ∧
      c.run.ofile = ofile.map (List.drop (orbitLines { kw with nsnap := some (n / d) } adv)) := by
  obtain ⟨c, e, k1, k2, k3, k4, k5, -, -, -, k6, k7, k8, k9, k10, k11, k12, k13, k14⟩ :=
    getNbody6ppEv_ok (g := g) (s := s) hr hm ok h2 h3 ho
  refine ⟨_, k1, ⟨⟨k2, ?_, ?_, ?_, k9 ha, ?_, k11⟩, ⟨e, rfl, k3, k5⟩, k4⟩, k12, k13, k14⟩
  · intro i hi
    show c.kin[i]! = _
    rw [k7, kinCol_at k2.len hi]
  · show c.ektot = _
    rw [k8, k7]
    congr 1
    unfold kinCol
    rw [k2.len.x]
    apply List.map_congr_left
    intro i hi
    rw [get!_range_map (List.mem_range.mp hi)]
  · intro j _
    show c.rhos[q + j]! = _
    rw [k6, joinPairs_single]
  · show c.tab.base.gc = _
    rw [k10]
    cases ofile <;> rfl

theorem ev_named (b w s : String) (n : ℕ) : evName b w s n = runFile w s (b ++ Nat.repr n) := by
  rw [← dirSlash_runFile, evName, String.append_assoc]

/-- **C126.**  Snapshots `rs 0, rs 1, …` of an NBODY6++ run with stellar evolution files, `n = n0, n0+d, n0+2d, …`: after loading
snapshot `n0` and advancing `k` times the cluster is that of snapshot `k` (as in C112), each line of sev.83 has gone to the star
with its id, position and velocity, whatever the order of the lines (single stars without a line are marked by type -10), each
binary has its ids, types, eccentricity and number, and in solar units its semi-major axis, period and masses are those of the
file; binding energies are `m1 m2/(2a)`. -/
theorem C126_histories {g : Galpy} {fs : PPFiles} {rs : ℕ → PPRec} {q : ℕ → ℕ} {ps : ℕ → List PairLine} {ss : ℕ → List SingleLine}
    {kw a : Kw} {ofile : Option (List Line)} {n0 d k : ℕ} {t : ℕ → ℝ} {p : ℕ → Ph} {w s : String} (hd : 1 ≤ d)
    (hr : ∀ j ≤ k, (rs j).Full (q j)) (hm : ∀ j ≤ k, ∀ i < (rs j).stars.length, 0 < (rs j).mass i)
    (he : ∀ j ≤ k, EvOk (rs j) (q j) (ps j) (ss j)) (hl : ∀ j ≤ k, 0 < (rs j).head 2 ∧ 0 < (rs j).head 3)
    (hf : ∀ j ≤ k, ∃ more, fs.conf3 (runFile w s ("conf.3_" ++ Nat.repr (n0 + j * d))) = some ((rs j).file ++ more))
    (hb : ∀ j ≤ k, fs.ev (runFile w s ("bev.82_" ++ Nat.repr (n0 + j * d))) = some (bevFile (ps j)))
    (hv : ∀ j ≤ k, fs.ev (runFile w s ("sev.83_" ++ Nat.repr (n0 + j * d))) = some (sevFile (ss j)))
    (kn : kw.nsnap.getD 0 = n0) (kwd : kw.wdir.getD "" = w) (ks : kw.snapdir.getD "" = s) (ka : kw.analyze.getD true)
    (an : a.nsnap = none) (awd : a.wdir = none) (as : a.snapdir.getD "" = s) (aa : a.analyze.getD true)
    (ho : ∀ L, ofile = some L → (kw.ocolNames = none ∧ kw.ocolNums = none ∧ kw.ounits = none) ∧
      (a.ocolNames = none ∧ a.ocolNums = none ∧ a.ounits = none) ∧ ∀ j ≤ k, OrbitAt L (n0 / d + j) (t j) (p j)) :
    ∃ c c', loadNbody6ppEv g fs ofile kw d = .ok c ∧ advanceNbody6ppEvMany g fs a d k c = .ok c' ∧
      PPEvAt (rs k) (q k) (ps k) (ss k) (n0 + k * d) (if ofile.isSome then some (p k) else none) c' := by
  simp only [← conf3_named] at hf
  simp only [← ev_named] at hb hv
  have evName_slash : ∀ b n, evName b (dirSlash w) s n = evName b w s n := by
    intro b n
    unfold evName
    rw [dirSlash_idem]
  have step : ∀ (m : ℕ), m ≤ k → ∀ (c : PPEvRun), c.run.wdir = dirSlash w → c.run.snapdir = "" → c.run.nsnap = n0 + m * d →
      c.run.ofile = ofile.map (List.drop (n0 / d + m + 1)) →
      PPEvAt (rs m) (q m) (ps m) (ss m) (n0 + m * d) (if ofile.isSome then some (p m) else none) c →
      ∃ c', advanceNbody6ppEvMany g fs a d (k - m) c = .ok c' ∧
        PPEvAt (rs k) (q k) (ps k) (ss k) (n0 + k * d) (if ofile.isSome then some (p k) else none) c' := by
    intro m hmk
    induction h : k - m generalizing m with
    | zero =>
      intro c h1 h2 h3 h4 h5
      obtain rfl : m = k := by omega
      exact ⟨c, rfl, h5⟩
    | succ e ih =>
      intro c h1 h2 h3 h4 h5
      obtain ⟨more, hfile⟩ := hf (m + 1) (by omega)
      obtain ⟨K, hK⟩ : ∃ K : Kw, K = { nbAdvKw a with wdir := some (dirSlash w), snapdir := some s } := ⟨_, rfl⟩
      have hn : max (a.nsnap.getD 0) c.run.nsnap + 1 + d - 1 = n0 + (m + 1) * d := by
        rw [an, h3, Nat.add_mul]
        simp
        omega
      have hs : a.snapdir.getD c.run.snapdir = s := by rw [h2, as]
      obtain ⟨c1, k1, k2, k3, k4, k5⟩ := getNbody6ppEv_at (g := g) (r := rs (m + 1)) (q := q (m + 1)) (n := n0 + (m + 1) * d) (d := d) (s := more)
        (ps := ps (m + 1)) (ss := ss (m + 1))
        (kw := K) (adv := true) (ofile := ofile.map (List.drop (n0 / d + m + 1))) (t := t (m + 1)) (p := p (m + 1)) (hr _ (by omega))
        (hm _ (by omega)) (he _ (by omega)) (hl _ (by omega)).1 (hl _ (by omega)).2 (by rw [hK]; exact aa)
        (by
          intro L hL
          cases hof : ofile with
          | none => rw [hof] at hL; cases hL
          | some L' =>
            rw [hof] at hL
            cases hL
            obtain ⟨-, ⟨q1, q2, q3⟩, q4⟩ := ho L' hof
            refine ⟨by rw [hK]; exact q1, by rw [hK]; exact q2, by rw [hK]; exact q3, ?_⟩
            obtain ⟨more, q5⟩ := q4 (m + 1) (by omega)
            refine ⟨more, ?_⟩
            have : n0 / d + m + 1 = n0 / d + (m + 1) := by omega
            simpa [List.getElem?_drop, this] using q5)
      have hadv : advanceNbody6ppEv g fs a d c = .ok c1 := by
        unfold advanceNbody6ppEv
        simp only [hn, hs, awd, h1, Option.getD_none, conf3Name_slash, evName_slash, hfile, hb (m + 1) (by omega), hv (m + 1) (by omega), h4]
        rw [← hK, k1]
        simp only [bind, Except.bind, pure, Except.pure]
        rw [if_neg]
        rw [k2.snap.stars.ntot]
        have := List.length_pos_iff.mpr (hr (m + 1) (by omega)).ne
        have := (hr (m + 1) (by omega)).pairs
        omega
      have hsome : (ofile.map (List.drop (n0 / d + m + 1))).isSome = ofile.isSome := by cases ofile <;> rfl
      rw [hsome] at k2
      obtain ⟨c', j1, j2⟩ := ih (m + 1) (by omega) (by omega) c1 (by rw [k3, hK]; exact dirSlash_idem w) k4 k2.snap.nsnap (by
        rw [k5]
        have : orbitLines { K with nsnap := some ((n0 + (m + 1) * d) / d) } true = 1 := by simp [orbitLines]
        rw [this, Option.map_map]
        cases ofile with
        | none => rfl
        | some L =>
          simp only [Option.map_some, Function.comp, List.drop_drop]
          rfl) k2
      refine ⟨c', ?_, j2⟩
      simp only [advanceNbody6ppEvMany, hadv, bind, Except.bind]
      exact j1
  obtain ⟨more, hfile⟩ := hf 0 (by omega)
  have hb0 := hb 0 (by omega)
  have hv0 := hv 0 (by omega)
  rw [Nat.zero_mul, Nat.add_zero] at hfile hb0 hv0
  obtain ⟨c, k1, k2, k3, k4, k5⟩ := getNbody6ppEv_at (g := g) (r := rs 0) (q := q 0) (n := n0) (d := d) (s := more)
    (ps := ps 0) (ss := ss 0)
    (kw := kw) (adv := false) (ofile := ofile) (t := t 0) (p := p 0) (hr _ (by omega)) (hm _ (by omega)) (he _ (by omega)) (hl _ (by omega)).1
    (hl _ (by omega)).2 ka
    (by
      intro L hL
      obtain ⟨⟨q1, q2, q3⟩, -, q4⟩ := ho L hL
      exact ⟨q1, q2, q3, q4 0 (by omega)⟩)
  have hload : loadNbody6ppEv g fs ofile kw d = .ok c := by
    unfold loadNbody6ppEv
    simp only [kn, kwd, ks, hfile, hb0, hv0]
    exact k1
  obtain ⟨c', j1, j2⟩ := step 0 (by omega) c (by rw [k3, kwd]) k4 (by rw [k2.snap.nsnap]; simp) (by
    rw [k5]
    congr 2
    unfold orbitLines
    by_cases h : n0 / d = 0 <;> simp [h]) (by simpa using k2)
  exact ⟨c, c', hload, j1, j2⟩

/-! ### what goes wrong -/

/-- **C127 (violated: luminosities of single stars).**  A star with `log L` between 0 and 1 gets luminosity 1, less than it has. -/
theorem C127_luminosity_violated {g : Galpy} {r : PPRec} {q n d : ℕ} {s : Bytes} {kw : Kw} {adv : Bool} {ps : List PairLine}
    {ss : List SingleLine} (hr : r.Full q) (hm : ∀ i < r.stars.length, 0 < r.mass i) (ok : EvOk r q ps ss) (h2 : 0 < r.head 2)
    (h3 : 0 < r.head 3) {x : SingleLine} (hx : x ∈ ss) (l0 : 0 < x.logL) (l1 : x.logL < 1) :
    ∃ c e, getNbody6ppEv g (some (r.file ++ s)) (some (bevFile ps)) (some (sevFile ss)) none adv kw n d = .ok ⟨c, some e⟩ ∧
      ∃ i < c.tab.ntot, c.tab.id[i]! = x.id ∧ e.lum[i]! = 1 ∧ 1 < (10 : ℝ) ^ x.logL := by
  obtain ⟨c, e, k1, k2, k3, -, -, -, -, k6, -⟩ := getNbody6ppEv_ok (g := g) (s := s) (kw := kw) (adv := adv) (ofile := none) (n := n) (d := d)
    (t := 0) (p := ⟨0, 0, 0, 0, 0, 0⟩) hr hm ok h2 h3 (by intro L h; cases h)
  obtain ⟨i, i1, i2, i3⟩ := k6 x hx
  refine ⟨c, e, k1, i, by rw [k2.ntot]; exact i1, i2, ?_, Real.one_lt_rpow (by norm_num) l0⟩
  have : truncZ x.logL = 0 := by
    unfold truncZ
    rw [if_pos l0.le, Int.floor_eq_zero_iff]
    exact ⟨l0.le, l1⟩
  rw [k3.lum, get!_map _ _ _ (by rw [k3.lenL]; exact i1), i3, this]
  simp

/-- **C127 (violated: few binaries).**  With fewer than 14 binaries each is given luminosity 1 and radius `10^0`, whatever the file
says. -/
theorem C127_few_binaries_violated {g : Galpy} {r : PPRec} {q n d : ℕ} {s : Bytes} {kw : Kw} {adv : Bool} {ps : List PairLine}
    {ss : List SingleLine} (hr : r.Full q) (hm : ∀ i < r.stars.length, 0 < r.mass i) (ok : EvOk r q ps ss) (h2 : 0 < r.head 2)
    (h3 : 0 < r.head 3) (hq : q < 14) :
    ∃ c e, getNbody6ppEv g (some (r.file ++ s)) (some (bevFile ps)) (some (sevFile ss)) none adv kw n d = .ok ⟨c, some e⟩ ∧
      ∀ i < q, e.lum[i]! = 1 ∧ e.logr[i]! = 0 := by
  obtain ⟨c, e, k1, k2, k3, -, -, k4, k5, k6, -⟩ := getNbody6ppEv_ok (g := g) (s := s) (kw := kw) (adv := adv) (ofile := none) (n := n) (d := d)
    (t := 0) (p := ⟨0, 0, 0, 0, 0, 0⟩) hr hm ok h2 h3 (by intro L h; cases h)
  refine ⟨c, e, k1, ?_⟩
  intro i hi
  have := hr.pairs
  refine ⟨?_, ?_⟩
  · rw [k3.lum, get!_map _ _ _ (by rw [k3.lenL]; omega), k4 i hi, if_neg (by omega)]
    simp
  · rw [k5 i hi, if_neg (by omega)]

/-- **C127 (violated: many binaries).**  With 14 binaries or more the luminosity of a binary is the product of those of its
components, not the sum, in solar units. -/
theorem C127_binaries_violated {g : Galpy} {r : PPRec} {q n d : ℕ} {s : Bytes} {kw : Kw} {adv : Bool} {ps : List PairLine}
    {ss : List SingleLine} (hr : r.Full q) (hm : ∀ i < r.stars.length, 0 < r.mass i) (ok : EvOk r q ps ss) (h2 : 0 < r.head 2)
    (h3 : 0 < r.head 3) (hq : 14 ≤ q) :
    ∃ c e, getNbody6ppEv g (some (r.file ++ s)) (some (bevFile ps)) (some (sevFile ss)) none adv kw n d = .ok ⟨c, some e⟩ ∧
      ∀ i < q, e.lum[i]! = (10 : ℝ) ^ (ps.map PairLine.logL1)[i]! * (10 : ℝ) ^ (ps.map PairLine.logL2)[i]! ∧
        ((ps.map PairLine.logL1)[i]! < 0 → e.lum[i]! < (10 : ℝ) ^ (ps.map PairLine.logL1)[i]! + (10 : ℝ) ^ (ps.map PairLine.logL2)[i]!) := by
  obtain ⟨c, e, k1, k2, k3, -, -, k4, k5, k6, -⟩ := getNbody6ppEv_ok (g := g) (s := s) (kw := kw) (adv := adv) (ofile := none) (n := n) (d := d)
    (t := 0) (p := ⟨0, 0, 0, 0, 0, 0⟩) hr hm ok h2 h3 (by intro L h; cases h)
  refine ⟨c, e, k1, ?_⟩
  intro i hi
  have := hr.pairs
  have hl : e.lum[i]! = (10 : ℝ) ^ (ps.map PairLine.logL1)[i]! * (10 : ℝ) ^ (ps.map PairLine.logL2)[i]! := by
    rw [k3.lum, get!_map _ _ _ (by rw [k3.lenL]; omega), k4 i hi, if_pos (by omega), Real.rpow_add (by norm_num)]
  refine ⟨hl, fun hn => ?_⟩
  rw [hl]
  have a : (10 : ℝ) ^ (ps.map PairLine.logL1)[i]! < 1 := Real.rpow_lt_one_of_one_lt_of_neg (by norm_num) hn
  have b : (0 : ℝ) < (10 : ℝ) ^ (ps.map PairLine.logL1)[i]! := by positivity
  have c : (0 : ℝ) < (10 : ℝ) ^ (ps.map PairLine.logL2)[i]! := by positivity
  nlinarith

/-- **C127 (violated: one single star).**  If sev.83 has one line, nothing is loaded: `IndexError`. -/
theorem C127_one_star_violated {g : Galpy} {r : PPRec} {q n d : ℕ} {s : Bytes} {kw : Kw} {adv : Bool} {ofile : Option (List Line)}
    {ps : List PairLine} {x : SingleLine} (hr : r.Full q) :
    getNbody6ppEv g (some (r.file ++ s)) (some (bevFile ps)) (some (sevFile [x])) ofile adv kw n d = .error .indexError := by
  obtain ⟨T, e1, -⟩ := addPP_ok hr (r.head 0)
  have h0 : alistAt r.read.base 0 = .ok (r.head 0) :=
    alistAt_ok (r := r.plain) (k := 0) (by have := hr.head; show 0 < r.alist.length; omega)
  have h1 : alistAt r.read.base 1 = .ok (q : ℝ) := by
    rw [← hr.nb]
    exact alistAt_ok (r := r.plain) (k := 1) (by have := hr.head; show 1 < r.alist.length; omega)
  have hn : r.read.base.n = r.stars.length := by
    show (r.plain.stars.length : ℤ) = _
    simp [PPRec.plain]
  have e0 : readConf3 (some (r.file ++ s)) = .ok r.read := by rw [readConf3_file hr.ok, if_neg hr.ne]
  have hl : loadtxt 0 (sevFile [x]).body = .ok ⟨[x.nums], 9⟩ := by
    have := loadtxt_nums (l := [x]) (φ := SingleLine.nums) (w := 9) (fun _ _ => rfl) (by simp)
    simpa [sevFile] using this
  have hsev : readSev (sevFile [x]) = .error .indexError := by
    unfold readSev
    simp only [hl, bind, Except.bind]
    rfl
  have e2 : addEv r.read (some (bevFile ps)) (some (sevFile [x])) T = .error .indexError := by
    have : (0 : ℤ) < r.stars.length := by exact_mod_cast List.length_pos_iff.mpr hr.ne
    unfold addEv attachEv getEv
    simp only [Option.elim_some, hn, if_pos this, h1, bind, Except.bind, readBev_file, hsev]
  unfold getNbody6ppEv
  simp only [bind, Except.bind, e0, h0, e1, e2]

/-- **C127 (violated: no stars).**  If conf.3 does not exist (or has no stars) but the stellar evolution files do, `NameError` is
raised, while without them an empty cluster is returned (`getNbody6pp_none`). -/
theorem C127_no_snapshot_violated {g : Galpy} {n d : ℕ} {kw : Kw} {adv : Bool} {ofile : Option (List Line)} {b v : EvFile} :
    getNbody6ppEv g none (some b) (some v) ofile adv kw n d = .error .nameError ∧
      ∃ c, getNbody6ppEv g none none none none adv kw n d = .ok c ∧ c.run.tab.ntot = 0 := by
  have hr : readConf3 none = .ok emptyPP := rfl
  have ha : alistAt emptyPP.base 0 = .ok 0 := by
    unfold alistAt emptyPP
    rw [if_pos (by simp [emptySnap])]
    rfl
  have hp : ∀ t, addPP emptyPP t = .ok (t, [], [], []) := fun t => rfl
  have he : ∀ t, addEv emptyPP (some b) (some v) t = .error .nameError := fun t => rfl
  have he' : ∀ t, addEv emptyPP none none t = .ok (t, none) := fun t => rfl
  have hz : (blankTab (some .nbody) (some .cluster) 0).ntot = 0 := rfl
  unfold getNbody6ppEv
  simp only [bind, Except.bind, hr, ha, hp, he, he', nbAnalyze, hz, lt_irrefl, and_false, if_false, readOrbitIf, Option.elim_none, pure, Except.pure]
  exact ⟨trivial, _, rfl, rfl⟩

/-! ### a concrete case -/

/-- The snapshot of C112 has one single star; here is one with two. -/
def demoPP2 : PPRec :=
  { demoPP with
    stars := demoPP.stars ++ [⟨⟨⟨false, 127, 0⟩, ⟨false, 129, 1⟩, ⟨false, 0, 0⟩, ⟨false, 0, 0⟩, ⟨false, 0, 0⟩, ⟨true, 0, 0⟩, ⟨false, 0, 0⟩, 9⟩,
        ⟨false, 127, 0⟩, ⟨false, 127, 0⟩, ⟨true, 127, 0⟩⟩] }

theorem demoPP2_full : demoPP2.Full 1 := by
  have h := demoPP_full
  refine ⟨⟨h.ok.model, h.ok.nrun, h.ok.nk, ?_, h.ok.alist, ?_⟩, ?_, h.head, h.nb, ?_⟩
  · simp [demoPP2, demoPP]
  · intro s hs
    simp only [demoPP2, List.mem_append, List.mem_singleton] at hs
    rcases hs with hs | rfl
    · exact h.ok.stars s hs
    · simp [PPStar.Ok, StarRec.Ok, Single.Ok, Int32]
  · simp [demoPP2, demoPP]
  · simp [demoPP2, demoPP]

theorem demoPP2_mass : ∀ i < demoPP2.stars.length, 0 < demoPP2.mass i := by
  intro i hi
  have : i < 4 := by simpa [demoPP2, demoPP] using hi
  interval_cases i <;> simp [PPRec.mass, demoPP2, demoPP, Single.value] <;> positivity

/-- A binary (types 1 and 13) and two single stars, the second one first. -/
def demoPairs : List PairLine := [⟨0, 1, 2, 7, 3, 1, 13, -1, 0, 0.5, 3, 2, 1.5, 1, 0.2, -3, 0, -4, 3.7, 5⟩]
def demoSingles : List SingleLine := [⟨0, 4, 9, 2, 0, 1, 0.5, 0.3, 3.7⟩, ⟨0, 3, 4, 1, 0, 1, -0.5, -0.1, 3.6⟩]

theorem demoEvOk : EvOk demoPP2 1 demoPairs demoSingles := by
  refine ⟨rfl, by simp [demoSingles], ?_, by simp [demoSingles], ?_⟩
  · intro s hs
    simp only [demoSingles, List.mem_cons, List.not_mem_nil, or_false] at hs
    rcases hs with rfl | rfl <;> simp [demoPP2, demoPP]
  · intro s hs
    simp only [demoSingles, List.mem_cons, List.not_mem_nil, or_false] at hs
    rcases hs with rfl | rfl <;> simp [PPRec.id, demoPP2, demoPP]

theorem demoPP2_scales : 0 < demoPP2.head 2 ∧ 0 < demoPP2.head 3 := by
  constructor <;> simp [PPRec.head, demoPP2, demoPP, Single.value]

/-- The hypotheses of C126 are met; after two advances the cluster has one binary of type 13, semi-major axis 100 solar radii and
period 1000 days, and the star with id 9 has type 2. -/
example : ∃ c c', loadNbody6ppEv demoG ⟨fun _ => some (demoPP2.file ++ []), fun f => if f.toList.head? = some 'b' then some (bevFile demoPairs) else
      some (sevFile demoSingles)⟩ none {} 2 = .ok c ∧
    advanceNbody6ppEvMany demoG ⟨fun _ => some (demoPP2.file ++ []), fun f => if f.toList.head? = some 'b' then some (bevFile demoPairs) else
      some (sevFile demoSingles)⟩ {} 2 2 c = .ok c' ∧ c'.run.tab.nb = 1 ∧ (toSudays c'.run.tab.base).bin.semi = [100] ∧
      ∃ e, c'.ev = some e ∧ e.kw[0]! = 13 ∧ ∃ i < 3, c'.run.tab.id[i]! = 9 ∧ e.kw[i]! = 2 := by
  obtain ⟨c, c', k1, k2, k3⟩ := C126_histories (g := demoG) (fs := ⟨fun _ => some (demoPP2.file ++ []), fun f =>
      if f.toList.head? = some 'b' then some (bevFile demoPairs) else some (sevFile demoSingles)⟩) (rs := fun _ => demoPP2) (q := fun _ => 1)
    (ps := fun _ => demoPairs) (ss := fun _ => demoSingles)
    (kw := {}) (a := {}) (ofile := none) (n0 := 0) (d := 2) (k := 2) (t := fun _ => 0) (p := fun _ => ⟨0, 0, 0, 0, 0, 0⟩) (w := "") (s := "")
    (by norm_num) (fun _ _ => demoPP2_full) (fun _ _ => demoPP2_mass) (fun _ _ => demoEvOk) (fun _ _ => demoPP2_scales) (fun _ _ => ⟨[], rfl⟩)
    (fun j hj => by interval_cases j <;> rfl) (fun j hj => by interval_cases j <;> rfl)
    rfl rfl rfl rfl rfl rfl rfl rfl (by intro L h; cases h)
  obtain ⟨e, e1, e2, -⟩ := k3.ev
  refine ⟨c, c', k1, k2, e2.nb.1, ?_, e, e1, ?_, ?_⟩
  · rw [k3.solar.1]
    simp [demoPairs]
    norm_num
  · rw [e2.pair 0 (by norm_num)]
    simp [demoPairs]
  · obtain ⟨i, i1, i2, -, i4, -⟩ := e2.single ⟨0, 4, 9, 2, 0, 1, 0.5, 0.3, 3.7⟩ (by simp [demoSingles])
    refine ⟨i, ?_, i2, ?_⟩
    · have : demoPP2.stars.length = 4 := by simp [demoPP2, demoPP]
      rw [this] at i1
      omega
    · rw [i4]; norm_num

/-- The star with id 9 has `log L = 0.5` in the file and luminosity 1 in the cluster. -/
example : ∃ c e, getNbody6ppEv demoG (some (demoPP2.file ++ [])) (some (bevFile demoPairs)) (some (sevFile demoSingles)) none false {} 0 1 =
      .ok ⟨c, some e⟩ ∧ ∃ i < c.tab.ntot, c.tab.id[i]! = 9 ∧ e.lum[i]! = 1 ∧ 1 < (10 : ℝ) ^ (0.5 : ℝ) :=
  C127_luminosity_violated demoPP2_full demoPP2_mass demoEvOk demoPP2_scales.1 demoPP2_scales.2
    (x := ⟨0, 4, 9, 2, 0, 1, 0.5, 0.3, 3.7⟩) (by simp [demoSingles]) (by norm_num) (by norm_num)

/-- A snapshot with fourteen binaries and two single stars, all alike. -/
def demoPP14 : PPRec :=
  { model := 1, nrun := 1, alist := ⟨false, 128, 0⟩ :: ⟨false, 130, 6291456⟩ :: List.replicate 18 ⟨false, 128, 0⟩
    stars := List.replicate 30 ⟨⟨⟨false, 127, 4194304⟩, ⟨true, 127, 0⟩, ⟨false, 0, 0⟩, ⟨false, 0, 0⟩, ⟨false, 0, 0⟩, ⟨false, 0, 0⟩, ⟨false, 0, 1⟩, 7⟩,
        ⟨false, 127, 0⟩, ⟨false, 127, 0⟩, ⟨true, 127, 0⟩⟩ }

theorem demoPP14_full : demoPP14.Full 14 := by
  refine ⟨⟨?_, ?_, ?_, ?_, ?_, ?_⟩, ?_, ?_, ?_, ?_⟩
  · exact ⟨by norm_num [demoPP14], by norm_num [demoPP14]⟩
  · exact ⟨by norm_num [demoPP14], by norm_num [demoPP14]⟩
  · simp [demoPP14]
  · simp [demoPP14]
  · intro s hs
    simp [demoPP14] at hs
    rcases hs with rfl | rfl | rfl <;> exact ⟨by norm_num, by norm_num⟩
  · intro s hs
    rw [List.eq_of_mem_replicate hs]
    simp [PPStar.Ok, StarRec.Ok, Single.Ok, Int32]
  · simp [demoPP14]
  · simp [demoPP14]
  · simp [demoPP14, PPRec.head, Single.value]
    norm_num
  · simp [demoPP14]

theorem demoPP14_mass : ∀ i < demoPP14.stars.length, 0 < demoPP14.mass i := by
  intro i hi
  have h : i < 30 := by simpa [demoPP14] using hi
  simp only [PPRec.mass, demoPP14, List.map_replicate]
  rw [getElem!_pos _ i (by simpa using h), List.getElem_replicate]
  simp [Single.value]
  positivity

def demoPairs14 : List PairLine := List.replicate 14 ⟨0, 1, 2, 7, 7, 1, 1, -1, 0, 0.5, 3, 2, 1.5, 1.5, -1, -1, 0, 0, 3.7, 3.7⟩
def demoSingles14 : List SingleLine := [⟨0, 29, 7, 2, 0, 1, 0.5, 0.3, 3.7⟩, ⟨0, 30, 7, 1, 0, 1, -0.5, -0.1, 3.6⟩]

theorem demoEvOk14 : EvOk demoPP14 14 demoPairs14 demoSingles14 := by
  refine ⟨by simp [demoPairs14], by simp [demoSingles14], ?_, by simp [demoSingles14], ?_⟩
  · intro s hs
    simp only [demoSingles14, List.mem_cons, List.not_mem_nil, or_false] at hs
    rcases hs with rfl | rfl <;> simp [demoPP14]
  · intro s hs
    simp only [demoSingles14, List.mem_cons, List.not_mem_nil, or_false] at hs
    rcases hs with rfl | rfl <;> simp [PPRec.id, demoPP14]

/-- Two components of a tenth of the solar luminosity each make a binary of a hundredth. -/
example : ∃ c e, getNbody6ppEv demoG (some (demoPP14.file ++ [])) (some (bevFile demoPairs14)) (some (sevFile demoSingles14)) none false {} 0 1 =
      .ok ⟨c, some e⟩ ∧ e.lum[0]! = 0.01 := by
  obtain ⟨c, e, k1, k2⟩ := C127_binaries_violated (g := demoG) (s := []) (kw := {}) (adv := false) (n := 0) (d := 1) demoPP14_full demoPP14_mass
    demoEvOk14 (by simp [PPRec.head, demoPP14, Single.value]) (by simp [PPRec.head, demoPP14, Single.value]) le_rfl
  refine ⟨c, e, k1, ?_⟩
  rw [(k2 0 (by norm_num)).1]
  simp [demoPairs14]
  rw [show (-1 : ℝ) = ((-1 : ℤ) : ℝ) by norm_num, Real.rpow_intCast]
  norm_num

end

end CT
