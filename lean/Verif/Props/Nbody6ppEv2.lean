/- Stellar evolution files of NBODY6++, continued (C126, C127). -/
import Verif.Props.Nbody6ppEv

namespace CT

noncomputable section

/-- Analysing a cluster read from a snapshot. -/
theorem nbAnalyze_PP {r : PPRec} {q : ℕ} {T : Tab} {kw : Kw} (hr : r.Full q) (hm : ∀ i < r.stars.length, 0 < r.mass i) (P : IsPP r q T)
    (ro : T.base.rorder = none) (rpo : T.base.rproorder = none) :
    ∃ b', nbAnalyze kw T = .ok { T with base := b' } ∧
      b'.core = ({ T.base with st := b'.st, m := b'.m } : Cluster).core ∧
      (kw.analyze.getD true → b'.st = rowsOf T.x T.y T.z T.vx T.vy T.vz ∧ b'.m = T.m) := by
  have hN : 0 < r.stars.length - q := by
    have := List.length_pos_iff.mpr hr.ne
    have := hr.pairs
    omega
  have hrl : (rowsOf T.x T.y T.z T.vx T.vy T.vz).length = r.stars.length - q :=
    rowsOf_length P.len.x P.len.y P.len.z P.len.vx P.len.vy P.len.vz
  have hmass : ∀ i < r.stars.length - q, 0 ≤ T.m[i]! := by
    have hpr := hr.pairs
    intro i hi
    by_cases hiq : i < q
    · have a := hm (2 * i) (by omega)
      have b := hm (2 * i + 1) (by omega)
      have := (P.pair i hiq (by positivity)).m
      rw [this]
      positivity
    · obtain ⟨j, rfl⟩ : ∃ j, i = q + j := ⟨i - q, by omega⟩
      rw [(P.single j (by omega)).2.1]
      exact (hm _ (by omega)).le
  have hsum : 0 ≤ T.m.sum := by
    refine List.sum_nonneg ?_
    intro x hx
    obtain ⟨i, hi, rfl⟩ := List.getElem_of_mem hx
    have := hmass i (by rw [← P.len.m]; exact hi)
    rwa [getElem!_pos _ i hi] at this
  unfold nbAnalyze
  split
  · have good : Good { T.base with st := rowsOf T.x T.y T.z T.vx T.vy T.vz, m := T.m } := by
      refine ⟨?_, ?_, hsum, ?_, ?_⟩
      · show rowsOf T.x T.y T.z T.vx T.vy T.vz ≠ []
        intro h
        rw [h] at hrl
        simp at hrl
        omega
      · show T.m.length = (rowsOf T.x T.y T.z T.vx T.vy T.vz).length
        rw [hrl, P.len.m]
      · show ∀ o, T.base.rorder = some o → _
        rw [ro]; intro o h; cases h
      · show ∀ o, T.base.rproorder = some o → _
        rw [rpo]; intro o h; cases h
    obtain ⟨b', hb', -⟩ := analyze_total (s := kw.sort.getD true) (p := true) good
    have hcore := analyze_core hb'
    obtain ⟨-, -, -, -, -, -, -, -, -, k10, k11⟩ := rest_of_fields hcore
    refine ⟨b', ?_, ?_, fun _ => ⟨k10, k11⟩⟩
    · unfold analyzeTab
      have al := P.len
      rw [if_neg (by simp only [al.x, al.y, al.z, al.vx, al.vy, al.vz]; simp)]
      simp only [bind, Except.bind, pure, Except.pure, hb']
    · rw [hcore, k10, k11]
  · rename_i hna
    exact ⟨T.base, rfl, rfl, fun h => absurd ⟨h, by rw [P.ntot]; exact hN⟩ hna⟩

/-- Semi-major axes, periods and masses of binaries in solar radii, days and solar masses are those of the file. -/
def SolarBin (ps : List PairLine) (c : Cluster) : Prop :=
  (toSudays c).bin.semi = ps.map (fun p => (10 : ℝ) ^ p.logA) ∧ (toSudays c).bin.pb = ps.map (fun p => (10 : ℝ) ^ p.logP) ∧
    (toSudays c).bin.m1 = ps.map PairLine.m1 ∧ (toSudays c).bin.m2 = ps.map PairLine.m2

theorem toSudays_nbody {c : Cluster} (h : c.bunits = some .nbody) : (toSudays c).bin = c.bin.mul c.rbarSu c.tbarDays c.zmbar := by
  unfold toSudays
  simp [h]

/-- The binding energies are `m1 m2/(2a)` in the units of the cluster. -/
def Binding (c : Cluster) (e : PPEv) : Prop :=
  e.eb.length = c.bin.semi.length ∧
    ∀ i < e.eb.length, e.eb[i]! * (2 * c.bin.semi[i]!) = c.bin.m1[i]! * c.bin.m2[i]!

/-- The scales of a cluster made by the reader. -/
theorem addPP_scales {r : PPRec} {q : ℕ} (hr : r.Full q) {t0 : ℝ} {t : Tab} {a b c : List ℝ}
    (h : addPP r.read (blankTab (some .nbody) (some .cluster) t0) = .ok (t, a, b, c)) :
    t.base.bunits = some .nbody ∧
      t.base.tbarDays = 365.25 * ((r.head 2 * 1296000 / (2 * Real.pi)) ^ (1.5 : ℝ) / Real.sqrt (r.head 3)) ∧
      t.base.rbarSu = 1296000 / (2 * Real.pi) * 1.49597870700e13 / 6.957e10 * r.head 2 := by
  have hn : r.plain.stars ≠ [] := by simpa [PPRec.plain] using hr.ne
  have full : r.plain.Full := ⟨hr.ok.plain, hn, hr.head⟩
  have hp : 0 < r.read.base.n := by
    have := List.length_pos_iff.mpr hn
    show (0 : ℤ) < r.plain.stars.length
    exact_mod_cast this
  have hb : alistAt r.read.base 1 = .ok (q : ℝ) := by
    rw [← hr.nb]
    exact alistAt_ok (r := r.plain) (k := 1) (by have := hr.head; show 1 < r.alist.length; omega)
  have hh := addHeader_ok full (blankTab (some .nbody) (some .cluster) t0)
  have hlen : r.plain.stars.length = r.stars.length := by simp [PPRec.plain]
  have hfits := snapStars_fits hn
  rw [hlen] at hfits
  obtain ⟨T, hT⟩ : ∃ T, T = addNbody6 (r.head 2) (r.head 6) (r.head 7) (r.head 8) (r.head 3) (r.head 11) (r.head 10) (r.head 1)
    (blankTab (some .nbody) (some .cluster) t0) := ⟨_, rfl⟩
  have hh : addHeader r.read.base (blankTab (some .nbody) (some .cluster) t0) = .ok T := by
    rw [hT]; exact addHeader_ok full _
  obtain ⟨t', ht', al, nt, nb, hbase, -⟩ := addStars_pairs (sort := true) (t := T) (ids := .arr r.plain.snap.id) hfits
    (by rw [hT]; constructor <;> rfl) hr.pairs (by simp [snapStars]) rfl (by rw [hT]; rfl) (by rw [hT]; rfl)
    (by rw [hT]; rintro ⟨e, -⟩; cases e)
  have h' : addStars (snapStars r.read.base) q true false T = .ok t' := ht'
  unfold addPP at h
  rw [if_pos hp] at h
  simp only [bind, Except.bind, hh, hb, truncZ_nat, h', pure, Except.pure] at h
  cases h
  rw [hbase, hT]
  exact ⟨rfl, rfl, rfl⟩

/-- One snapshot with its stellar evolution files. -/
theorem getNbody6ppEv_ok {g : Galpy} {r : PPRec} {q n d : ℕ} {s : Bytes} {kw : Kw} {adv : Bool} {ofile : Option (List Line)} {t : ℝ} {p : Ph}
    {ps : List PairLine} {ss : List SingleLine} (hr : r.Full q) (hm : ∀ i < r.stars.length, 0 < r.mass i) (ok : EvOk r q ps ss)
    (h2 : 0 < r.head 2) (h3 : 0 < r.head 3) (ho : OrbitOk { kw with nsnap := some (n / d) } adv ofile t p) :
    ∃ c e, getNbody6ppEv g (some (r.file ++ s)) (some (bevFile ps)) (some (sevFile ss)) ofile adv kw n d = .ok ⟨c, some e⟩ ∧ IsPP r q c.tab ∧
      HasEv r q ps ss c.tab e ∧ SolarBin ps c.tab.base ∧ Binding c.tab.base e ∧
      (∀ i < q, e.logl[i]! = if 14 ≤ q then (ps.map PairLine.logL1)[i]! + (ps.map PairLine.logL2)[i]! else 0) ∧
      (∀ i < q, e.logr[i]! = if 14 ≤ q then (ps.map PairLine.logR1)[i]! + (ps.map PairLine.logR2)[i]! else 0) ∧
      (∀ s ∈ ss, ∃ i < r.stars.length - q, c.tab.id[i]! = s.id ∧ e.logl[i]! = truncZ s.logL) ∧
      c.rhos = joinPairs q (r.stars.map (fun s => s.rho.value)) ∧ c.kin = kinCol c.tab ∧ c.ektot = c.kin.sum ∧
      (kw.analyze.getD true → c.tab.base.st.length = r.stars.length - q ∧ (∀ i < r.stars.length - q, c.tab.base.st[i]! = c.tab.row i) ∧
        c.tab.base.m = c.tab.m) ∧
      c.tab.base.gc = (if ofile.isSome then p else ⟨0, 0, 0, 0, 0, 0⟩) ∧
      c.nsnap = n ∧ c.wdir = dirSlash (kw.wdir.getD "") ∧ c.snapdir = "" ∧
      c.ofile = ofile.map (List.drop (orbitLines { kw with nsnap := some (n / d) } adv)) := by
  obtain ⟨T, e1, P, nb, gc, tp, ro, rpo⟩ := addPP_ok hr (r.head 0)
  obtain ⟨sb, sd, su⟩ := addPP_scales hr e1
  have h0 : alistAt r.read.base 0 = .ok (r.head 0) :=
    alistAt_ok (r := r.plain) (k := 0) (by have := hr.head; show 0 < r.alist.length; omega)
  have h1 : alistAt r.read.base 1 = .ok (q : ℝ) := by
    rw [← hr.nb]
    exact alistAt_ok (r := r.plain) (k := 1) (by have := hr.head; show 1 < r.alist.length; omega)
  have hn : r.read.base.n = r.stars.length := by
    show (r.plain.stars.length : ℤ) = _
    simp [PPRec.plain]
  obtain ⟨k, l, z, a1, a2, a3, a4, a5⟩ := attachEv_ok ok hr.pairs P
  obtain ⟨B, hB⟩ : ∃ B, B = ps.map (PairLine.read (decide (14 ≤ ps.length))) := ⟨_, rfl⟩
  rw [← hB] at a1 a2
  obtain ⟨S, hS⟩ : ∃ S, S = storeEv B k l z T := ⟨_, rfl⟩
  rw [← hS] at a1 a2
  have e2 : addEv r.read (some (bevFile ps)) (some (sevFile ss)) T = .ok (S.1, some S.2) := by
    have : (0 : ℤ) < r.stars.length := by exact_mod_cast List.length_pos_iff.mpr hr.ne
    unfold addEv
    simp only [Option.elim_some, hn, if_pos this, h1, bind, Except.bind, truncZ_nat, Int.toNat_natCast, a1, pure, Except.pure]
  have P' : IsPP r q S.1 := by
    rw [hS]
    exact ⟨⟨P.len.x, P.len.y, P.len.z, P.len.vx, P.len.vy, P.len.vz, P.len.m, P.len.m0, P.len.npop, P.len.id⟩, P.ntot, P.pair, P.pairId,
      P.single, P.units, P.origin, P.rbar, P.zmbar, P.vbar, P.tbar, P.centre⟩
  obtain ⟨b', e3, hcore, i3⟩ := nbAnalyze_PP (kw := kw) hr hm P' (by rw [hS]; exact ro) (by rw [hS]; exact rpo)
  obtain ⟨f1, f2, f3, f4, f5, f6, f7, f8, f9, -, -⟩ := rest_of_fields hcore
  have fb : b'.bin = S.1.base.bin := (congrArg Cluster.bin hcore :)
  have fu : b'.bunits = S.1.base.bunits := (congrArg Cluster.bunits hcore :)
  have fn : b'.nb = S.1.base.nb := (congrArg Cluster.nb hcore :)
  have fs : b'.rbarSu = S.1.base.rbarSu := (congrArg Cluster.rbarSu hcore :)
  have fd : b'.tbarDays = S.1.base.tbarDays := (congrArg Cluster.tbarDays hcore :)
  obtain ⟨f', e4⟩ := readOrbitIf_ok (g := g) (c := b') (by rw [f8]; show S.1.base.units ≠ _; rw [P'.units]; rintro ⟨⟩) ho
  have e0 : readConf3 (some (r.file ++ s)) = .ok r.read := by rw [readConf3_file hr.ok, if_neg hr.ne]
  have hrl : (rowsOf S.1.x S.1.y S.1.z S.1.vx S.1.vy S.1.vz).length = r.stars.length - q :=
    rowsOf_length P'.len.x P'.len.y P'.len.z P'.len.vx P'.len.vy P'.len.vz
  have hsu : T.base.rbarSu ≠ 0 := by rw [su]; positivity
  have hsd : T.base.tbarDays ≠ 0 := by rw [sd]; positivity
  have hz : T.base.zmbar ≠ 0 := by rw [P.zmbar]; exact h3.ne'
  have hTb : S.1.base = { T.base with nb := B.length, bin := S.1.base.bin } := by rw [hS]; rfl
  unfold getNbody6ppEv
  simp only [bind, Except.bind, e0, h0, e1, e2, e3, e4, pure, Except.pure]
  refine ⟨_, _, rfl, ?_, ?_, ?_, ?_, ?_, ?_, ?_, rfl, ?_, rfl, ?_, ?_, rfl, rfl, rfl, readOrbitIf_drop e4⟩
  · exact ⟨⟨P'.len.x, P'.len.y, P'.len.z, P'.len.vx, P'.len.vy, P'.len.vz, P'.len.m, P'.len.m0, P'.len.npop, P'.len.id⟩, P'.ntot, P'.pair,
      P'.pairId, P'.single, f8.trans P'.units, f9.trans P'.origin, f1.trans P'.rbar, f2.trans P'.zmbar, f3.trans P'.vbar, f4.trans P'.tbar,
      f5.trans P'.centre⟩
  · exact ⟨a2.lenKw, a2.lenL, a2.lenR, a2.single, a2.missing, a2.pair, ⟨a2.nb.1, fn.trans a2.nb.2⟩, a2.id1, a2.id2, a2.kw1, a2.kw2, a2.kcm,
      a2.ecc, a2.lum, a2.ltot⟩
  · have hu : (placed { kw with nsnap := some (n / d) } ofile t p b').bunits = some .nbody := by
      show b'.bunits = _
      rw [fu, hTb]; exact sb
    have hbin : S.1.base.bin = ⟨B.map (fun e : BevRow => (10 : ℝ) ^ e.semi / T.base.rbarSu), B.map (fun e : BevRow => (10 : ℝ) ^ e.pb / T.base.tbarDays),
        B.map (fun e : BevRow => e.m1 / T.base.zmbar), B.map (fun e : BevRow => e.m2 / T.base.zmbar)⟩ := by rw [hS]; rfl
    have hsu' : b'.rbarSu = T.base.rbarSu := by rw [fs, hTb]
    have hsd' : b'.tbarDays = T.base.tbarDays := by rw [fd, hTb]
    have hz' : b'.zmbar = T.base.zmbar := by rw [f2]; show S.1.base.zmbar = _; rw [hTb]
    unfold SolarBin
    rw [toSudays_nbody hu]
    simp only [placed, Bin.mul, fb, hbin, hB, List.map_map, hsu', hsd', hz']
    refine ⟨?_, ?_, ?_, ?_⟩ <;> (apply List.map_congr_left; intro x _; simp only [Function.comp, PairLine.read]; field_simp)
  · unfold Binding
    have hbin : S.1.base.bin = ⟨B.map (fun e : BevRow => (10 : ℝ) ^ e.semi / T.base.rbarSu), B.map (fun e : BevRow => (10 : ℝ) ^ e.pb / T.base.tbarDays),
        B.map (fun e : BevRow => e.m1 / T.base.zmbar), B.map (fun e : BevRow => e.m2 / T.base.zmbar)⟩ := by rw [hS]; rfl
    have heb : S.2.eb = B.map (fun e : BevRow => 0.5 * (e.m1 / T.base.zmbar) * (e.m2 / T.base.zmbar) / ((10 : ℝ) ^ e.semi / T.base.rbarSu)) := by
      rw [hS]
      simp only [storeEv, List.zipWith_map_left, List.zipWith_map_right, List.zipWith_self]
    simp only [placed, fb, hbin, heb, List.length_map]
    refine ⟨trivial, ?_⟩
    intro i hi
    simp only [getElem!_pos, List.length_map, hi, List.getElem_map]
    have : (10 : ℝ) ^ B[i].semi ≠ 0 := by positivity
    field_simp
    norm_num
    ring
  · rw [hS]; exact a3
  · rw [hS]; exact a4
  · rw [hS]; exact a5
  · rw [hS]; rfl
  · intro h
    obtain ⟨g1, g2⟩ := i3 h
    refine ⟨?_, ?_, g2⟩
    · show b'.st.length = _
      rw [g1, hrl]
    · intro i hi
      show b'.st[i]! = S.1.row i
      rw [g1, rowsOf_get P'.len.x P'.len.y P'.len.z P'.len.vx P'.len.vy P'.len.vz i hi]
      rfl
  · show (if ofile.isSome then p else b'.gc) = _
    rw [f6]
    show (if ofile.isSome then p else S.1.base.gc) = _
    rw [hTb]
    show (if ofile.isSome then p else T.base.gc) = _
    rw [gc]

end

end CT
