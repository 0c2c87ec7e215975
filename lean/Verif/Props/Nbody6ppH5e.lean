/- HDF5 output of NBODY6++: what goes wrong (C129). -/
import Verif.Props.Nbody6ppH5d
import Verif.Spec.Demo

namespace CT

noncomputable section

/-- **C129 (violated: end of the run).**  In the situation of C128, at the last group of the last file: the next advance raises `FileNotFoundError`, and does
not give a cluster without stars as for the other formats. -/
theorem C129_end_violated {g : Galpy} {fs : H5Files} {w s : String} {n0 d j i : ℕ} {f : ℕ → List H5Group} {r : ℕ → PPRec} {kw a : Kw}
    {q : H5Group} {hist : List (List Op)} {ops : List Op} (hd : 1 ≤ d) (hG : g.Pos)
    (S : H5Series fs w s n0 d f r j) (hi : (f j)[i]? = some q) (hk : hist.length = groupsBefore f j + i) (hl : ∀ ops ∈ hist, ∀ op ∈ ops, op.linear)
    (kn : kw.nsnap.getD 0 = n0) (kwd : kw.wdir.getD "" = w) (ks : kw.snapdir.getD "" = s) (ko : kw.otime.getD false = false)
    (an : a.nsnap = none) (awd : a.wdir = none) (as : a.snapdir.getD "" = s) (ao : a.otime.getD false = false)
    (hlast : i + 1 = (f j).length) (hno : fs.snap40 (snap40Name w s (n0 + (j + 1) * d)) = none) (hops : ∀ op ∈ ops, op.linear) :
    ∃ c c', loadNbody6ppH5 g fs none kw 0 d = .ok c ∧ advanceNbody6ppH5Many g fs a d hist c = .ok c' ∧ H5At g (r j) q (n0 + j * d) i none c' ∧
      advanceNbody6ppH5Many g fs a d (hist ++ [ops]) c = .error .osError := by
  obtain ⟨c, c', h1, h2, h3, h4, h5, h6, h7⟩ := h5_histories (t := fun _ => 0) (p := fun _ => ⟨0, 0, 0, 0, 0, 0⟩) (ofile := none) hd hG S hi hk hl kn kwd ks ko
    an awd as ao (by intro L h; cases h)
  obtain ⟨T, hT⟩ := h7 ops hops
  refine ⟨c, c', h1, h2, h3, ?_⟩
  rw [advanceMany_snoc h2 hT]
  unfold advanceNbody6ppH5
  have hn : max ((none : Option ℕ).getD 0) (n0 + j * d) + 1 + d - 1 = n0 + (j + 1) * d := by
    rw [Nat.add_mul]
    simp
    omega
  simp only [Option.getD_none] at hn
  simp only [h3.ngroup, h4, hlast, lt_irrefl, if_false, bind, Except.bind, an, awd, h3.nsnap, h5, h6, as, Option.getD_none, hn, snap40Name_slash, hno, Option.elim_none]

/-- **C129 (violated: header without stars).**  When `conf.3` says that it has no stars, loading raises `IndexError`, although the
stars are in the other file. -/
theorem C129_header_violated {g : Galpy} {fs : H5Files} {kw : Kw} {d : ℕ} {ofile : Option (List Line)} {f : List H5Group} {q : H5Group} {r : PPRec} {more : Bytes}
    (hf : fs.snap40 (snap40Name (kw.wdir.getD "") (kw.snapdir.getD "") (kw.nsnap.getD 0)) = some f) (hq : f[0]? = some q)
    (hc : fs.conf3 (conf3Name (kw.wdir.getD "") (kw.snapdir.getD "") (kw.nsnap.getD 0)) = some (r.file ++ more)) (ok : r.Ok) (hr : r.stars = []) :
    loadNbody6ppH5 g fs ofile kw 0 d = .error .indexError := by
  unfold loadNbody6ppH5
  have hh : ∀ a b, headScales (r.file ++ more) a b = .error .indexError := by
    intro a b
    unfold headScales
    have : ¬(0 < emptyPP.base.n) := by simp [emptyPP, emptySnap]
    simp only [readConf3_file ok more, if_pos hr, bind, Except.bind, this, not_false_eq_true, if_true]
    rfl
  simp only [hf, hc, Option.elim_some]
  unfold getNbody6ppH5
  simp only [h5Group, hq, Option.elim_some, bind, Except.bind, chooseScales, hh]

/-- Loading, with what the properties below need. -/
theorem loadNbody6ppH5_ok {g : Galpy} {fs : H5Files} {kw : Kw} {d : ℕ} {f : List H5Group} {q : H5Group} {r : PPRec} {more : Bytes} {i : ℕ} (hG : g.Pos)
    (hf : fs.snap40 (snap40Name (kw.wdir.getD "") (kw.snapdir.getD "") (kw.nsnap.getD 0)) = some f) (hi : f[i]? = some q) (hq : q.Ok)
    (hc : fs.conf3 (conf3Name (kw.wdir.getD "") (kw.snapdir.getD "") (kw.nsnap.getD 0)) = some (r.file ++ more)) (hr : r.Header)
    (h1 : 0 < r.head 2) (h2 : 0 < r.head 3) (h3 : 0 < r.head 10) (h4 : 0 < r.head 11) :
    ∃ c s, loadNbody6ppH5 g fs none kw i d = .ok c ∧ H5Cluster g q s c.tab c.ev ∧ s.From r ∧ s.np = q.nSingle + r.head 1 ∧ c.tab.base.tphys = q.time ∧
      c.tab.base.gc = ⟨0, 0, 0, 0, 0, 0⟩ ∧
      c.nc = s.nc ∧ c.np = s.np ∧ c.file = f ∧ c.ngroups = f.length ∧ c.ngroup = i ∧ c.nsnap = kw.nsnap.getD 0 ∧
      c.wdir = dirSlash (kw.wdir.getD "") ∧ c.snapdir = "" ∧ c.ofile = none := by
  obtain ⟨s, hs1, from0, np0, -⟩ := headScales_ok hr more q.nSingle (q.pairs.elim 0 List.length)
  obtain ⟨c0, l1, l2, l3, l4, l5, l6, l7, l8, l9, l10, l11, l12, l13⟩ := getNbody6ppH5_ok (g := g) (conf3 := some (r.file ++ more)) (file := f) (q := q)
    (i := i) (n := kw.nsnap.getD 0) (d := d) (ofile := none) (adv := false) (handed := none) (s := s) (kw := kw) (t := 0) (p := ⟨0, 0, 0, 0, 0, 0⟩) hG hi hq
    (by simp [chooseScales, hs1, bind, Except.bind, pure, Except.pure]) (from0.pos h1 h2 h3 h4) (by intro L hL; cases hL)
  refine ⟨c0, s, ?_, l2, from0, np0, ?_, ?_, l5, l6, l7, l8, l9, l10, l11, l12, l13⟩
  · unfold loadNbody6ppH5
    simp only [hf, hc, Option.elim_some]
    exact l1
  · rw [l3]; simp
  · rw [l4]; simp

/-- Reading a group when no scales are handed on. -/
theorem getNbody6ppH5_noscale {g : Galpy} {file : List H5Group} {q : H5Group} {i n d : ℕ} {kw : Kw} (hG : g.Pos) (hf : file[i]? = some q) (hq : q.Ok) :
    ∃ c, getNbody6ppH5 g none file i none true none kw n d = .ok c ∧ c.tab.base.units = some .nbody ∧ c.tab.base.rbar = 1 ∧ c.tab.base.tbar = 1 ∧
      (phys g c.tab.base).map Phys.time = some q.time ∧ (phys g c.tab.base).map Phys.stars = some q.rows ∧ c.tab.ntot = q.rows.length ∧ c.ngroup = i := by
  obtain ⟨b, hb⟩ : ∃ b, b = (blankTab (some .pckms) (some .cluster) q.time).base := ⟨_, rfl⟩
  obtain ⟨T, e1, cols, hT, -⟩ := addGroup_ok (q := q) (b := b) (t := blankTab (some .pckms) (some .cluster) q.time) (by rw [hb]; rfl) (by rw [hb]; rfl)
  obtain ⟨f1, f2, f3, f4, f5, f6, f7, f8, f9, f10, f11, f12, f13⟩ := groupBase_fields q b
  rw [hb] at f1 f2 f3 f4 f5 f6 f7 f8 f9 f10 f11
  obtain ⟨D, hD⟩ : ∃ D : Cluster, D = { T.base with st := rowsOf T.x T.y T.z T.vx T.vy T.vz, m := T.m } := ⟨_, rfl⟩
  have du : D.units = some .pckms := by rw [hD]; show T.base.units = _; rw [hT, hb, f1]; rfl
  have dor : D.origin = some .cluster := by rw [hD]; show T.base.origin = _; rw [hT, hb, f2]; rfl
  have dr : D.rbar = 1 := by rw [hD]; show T.base.rbar = _; rw [hT, hb, f3]; rfl
  have dv : D.vbar = 1 := by rw [hD]; show T.base.vbar = _; rw [hT, hb, f4]; rfl
  have dz : D.zmbar = 1 := by rw [hD]; show T.base.zmbar = _; rw [hT, hb, f5]; rfl
  have dt : D.tbar = 1 := by rw [hD]; show T.base.tbar = _; rw [hT, hb, f6]; rfl
  have dtp : D.tphys = q.time := by rw [hD]; show T.base.tphys = _; rw [hT, hb, f7]; rfl
  have dst : D.st = q.rows := by rw [hD]; exact cols.rowsOf_eq
  have dm : D.m = q.masses := by rw [hD]; exact cols.m
  have good : Good D := by
    refine ⟨by rw [dst]; exact hq.ne, by rw [dst, dm]; exact masses_length q, ?_, ?_, ?_⟩
    · rw [dm]; exact List.sum_nonneg (fun x hx => (hq.mass_pos x hx).le)
    · intro o ho
      have : D.rorder = none := by rw [hD]; show T.base.rorder = _; rw [hT, hb, f10]; rfl
      rw [this] at ho; cases ho
    · intro o ho
      have : D.rproorder = none := by rw [hD]; show T.base.rproorder = _; rw [hT, hb, f11]; rfl
      rw [this] at ho; cases ho
  have pos : Pos g D := ⟨by rw [dr]; norm_num, by rw [dv]; norm_num, by rw [dz]; norm_num, by rw [dt]; norm_num, hG.ro, hG.vo, hG.time, hG.mass, hG.vel⟩
  have lin : Lin D := ⟨⟨_, du, trivial⟩, ⟨_, dor, trivial⟩⟩
  obtain ⟨c1, h1, g1⟩ := toNbody_total (g := g) du trivial pos good
  have us := toNbody_ustep pos.nz du trivial h1
  obtain ⟨k1, k2, k3, k4⟩ := rest_scales us.rest
  have hph : phys g c1 = phys g D := us.phys
  obtain ⟨T', hT'⟩ : ∃ T' : Tab, T' = { T with x := c1.st.map Ph.x, y := c1.st.map Ph.y, z := c1.st.map Ph.z, vx := c1.st.map Ph.vx, vy := c1.st.map Ph.vy,
                                                vz := c1.st.map Ph.vz, m := c1.m, base := c1 } := ⟨_, rfl⟩
  have e2 : onCluster (toNbody g) T = .ok T' := by
    unfold onCluster
    rw [← hD, h1, hT']
    rfl
  have hlen : c1.st.length = q.rows.length := by
    have : (phys g c1).map (fun P => P.stars.length) = (phys g D).map (fun P => P.stars.length) := by rw [hph]
    simpa [phys, us.units, du, unitScale, dst] using this
  obtain ⟨S, hS⟩ : ∃ S, S = setNb q T' := ⟨_, rfl⟩
  have sb : S.base = { c1 with nb := S.base.nb } := by
    rw [hS, hT']; unfold setNb; cases q.pairs <;> rfl
  have sc : S = { T' with nb := S.nb, base := S.base } := by
    rw [hS]; unfold setNb; cases q.pairs <;> rfl
  have al : Aligned S q.rows.length := by
    rw [sc, hT']
    have al := cols.len
    constructor
    all_goals first | exact al.m0 | exact al.npop | exact al.id | simpa using hlen | (rw [← hlen]; exact g1.len)
  have sst : S.base.st = rowsOf S.x S.y S.z S.vx S.vy S.vz := by
    have a : S.base.st = c1.st := by rw [sb]
    rw [a, sc, hT']; exact (rowsOf_rows _).symm
  have sm : S.base.m = S.m := by
    have a : S.base.m = c1.m := by rw [sb]
    rw [a, sc, hT']
  have goodS : Good S.base := by
    rw [sb]; obtain ⟨g1, g2, g3, g4, g5⟩ := g1
    exact ⟨g1, g2, g3, g4, g5⟩
  obtain ⟨b', e3, core, -⟩ := nbAnalyze_same (kw := kw) al sst sm goodS
  obtain ⟨j1, j2, j3, j4, j5, j6, j7, j8, j9, j10, j11⟩ := rest_of_fields core
  have hph2 : phys g b' = phys g D := by
    rw [phys_core core, sb, ← hph]; rfl
  refine ⟨{ tab := { S with base := b' }, ev := groupEv q, nc := 0, np := 0, file := file, ngroups := file.length, ngroup := i, nsnap := n
            wdir := dirSlash (kw.wdir.getD ""), snapdir := "", ofile := none }, ?_, ?_, ?_, ?_, ?_, ?_, ?_, rfl⟩
  · unfold getNbody6ppH5
    simp only [h5Group, hf, Option.elim_some, bind, Except.bind, chooseScales, Option.elim_none, e1, settleScales, Option.isSome_none, Bool.false_eq_true, if_false,
      if_true, e2]
    rw [← hS, e3]
    simp only [readOrbitIf, Option.elim_none, pure, Except.pure]
  · show b'.units = _
    rw [j8, sb]; exact us.units
  · show b'.rbar = _
    rw [j1, sb]; exact k2.trans dr
  · show b'.tbar = _
    rw [j4, sb]; exact k4.trans dt
  · show (phys g b').map _ = _
    rw [hph2]; simp [phys, du, unitScale, dtp]
  · show (phys g b').map _ = _
    rw [hph2]
    have hid : (fun p : Ph => Scale.ph ⟨1, 1, 1, 1⟩ p) = id := by
      funext p
      simp [Scale.ph]
    simp only [phys, du, unitScale, Option.map_some, dst]
    rw [show q.rows.map (Scale.ph ⟨1, 1, 1, 1⟩) = q.rows.map id from congrArg (fun f => q.rows.map f) hid, List.map_id]
  · show S.ntot = _
    rw [sc, hT']; exact cols.ntot

/-- **C129 (violated: N-body scales).**  The header gives zero for the number of stars in the core (entry 13): the first group is read with the scales
of the header, the second has none: its radius scale is 1 and its time, that the file gives in N-body units, is taken for Myr. -/
theorem C129_scales_violated {g : Galpy} {fs : H5Files} {kw : Kw} {d : ℕ} {f : List H5Group} {q q1 : H5Group} {r : PPRec} {more : Bytes} (hG : g.Pos)
    (hf : fs.snap40 (snap40Name (kw.wdir.getD "") (kw.snapdir.getD "") (kw.nsnap.getD 0)) = some f) (hi : f[0]? = some q) (hq : q.Ok) (hi1 : f[1]? = some q1)
    (hq1 : q1.Ok) (hc : fs.conf3 (conf3Name (kw.wdir.getD "") (kw.snapdir.getD "") (kw.nsnap.getD 0)) = some (r.file ++ more)) (hr : r.Header)
    (h1 : 0 < r.head 2) (h2 : 0 < r.head 3) (h3 : 0 < r.head 10) (h4 : 0 < r.head 11) (hz : r.head 13 = 0) :
    ∃ c c', loadNbody6ppH5 g fs none kw 0 d = .ok c ∧ c.tab.base.rbar = r.head 2 ∧ (phys g c.tab.base).map Phys.time = some (q.time * r.head 10) ∧
      advanceNbody6ppH5 g fs {} d c = .ok c' ∧ c'.ngroup = 1 ∧ c'.tab.base.units = some .nbody ∧ c'.tab.base.rbar = 1 ∧
      (phys g c'.tab.base).map Phys.time = some q1.time ∧ (phys g c'.tab.base).map Phys.stars = some q1.rows := by
  obtain ⟨c, s, l1, l2, l3, -, l4, -, l5, -, l7, l8, l9, l10, l11, l12, l13⟩ := loadNbody6ppH5_ok (d := d) hG hf hi hq hc hr h1 h2 h3 h4
  obtain ⟨K, hK⟩ : ∃ K : Kw, K = { nbAdvKw {} with wdir := some (dirSlash (kw.wdir.getD "")), snapdir := some "" } := ⟨_, rfl⟩
  obtain ⟨c', a1, a2, a3, a4, a5, a6, a7, a8⟩ := getNbody6ppH5_noscale (g := g) (n := kw.nsnap.getD 0) (d := d) (kw := K) hG hi1 hq1
  have hnt : c'.tab.ntot ≠ 0 := by
    rw [a7]
    have := List.length_pos_iff.mpr hq1.ne
    omega
  have hlen : 0 + 1 < f.length := by
    by_contra hn
    rw [List.getElem?_eq_none (by omega)] at hi1
    cases hi1
  refine ⟨c, c', l1, by rw [l2.rbar, l3.rbar], ?_, ?_, a8, a2, a3, a5, a6⟩
  · simp only [phys, l2.units, unitScale, Option.map_some, l4, l2.tbar, l3.tbar]
  · have ho : handOn g c = .ok none := by
      unfold handOn
      rw [if_neg (by rw [l5, l3.nc, hz]; simp)]
    unfold advanceNbody6ppH5
    simp only [l9, l8, hlen, if_true, ho, bind, Except.bind, l7, l10, l11, l12, l13, Option.getD_none, Nat.zero_max, Nat.add_sub_cancel]
    rw [← hK, a1]
    simp only [pure, Except.pure, if_neg hnt]

/-- **C129 (violated: number of binaries).**  A group without a part for binaries gets the number of binaries of the group before it. -/
theorem C129_stale_violated {g : Galpy} {fs : H5Files} {kw : Kw} {d : ℕ} {f : List H5Group} {q q1 : H5Group} {r : PPRec} {more : Bytes} (hG : g.Pos)
    (hf : fs.snap40 (snap40Name (kw.wdir.getD "") (kw.snapdir.getD "") (kw.nsnap.getD 0)) = some f) (hi : f[0]? = some q) (hq : q.Ok) (hi1 : f[1]? = some q1)
    (hq1 : q1.Ok) (hc : fs.conf3 (conf3Name (kw.wdir.getD "") (kw.snapdir.getD "") (kw.nsnap.getD 0)) = some (r.file ++ more)) (hr : r.Header)
    (h1 : 0 < r.head 2) (h2 : 0 < r.head 3) (h3 : 0 < r.head 10) (h4 : 0 < r.head 11) (hz : r.head 13 ≠ 0) (hp : (q.nSingle : ℝ) + r.head 1 ≠ 0)
    (hb : q.pairs.isSome) (hb1 : q1.pairs = none) :
    ∃ c c', loadNbody6ppH5 g fs none kw 0 d = .ok c ∧ advanceNbody6ppH5 g fs {} d c = .ok c' ∧ H5At g r q1 (kw.nsnap.getD 0) 1 none c' ∧
      c'.tab.nb = q.bin.length := by
  obtain ⟨c, s, l1, l2, l3, l3', l4, -, l5, l6, l7, l8, l9, l10, l11, l12, l13⟩ := loadNbody6ppH5_ok (d := d) hG hf hi hq hc hr h1 h2 h3 h4
  have P' : s.Pos := l3.pos h1 h2 h3 h4
  have hlen : 0 + 1 < f.length := by
    by_contra hn
    rw [List.getElem?_eq_none (by omega)] at hi1
    cases hi1
  obtain ⟨T, b1, -, -, -, b5⟩ := handOn_ok (ops := []) hG P' l2 (by rw [l5, l3.nc]; exact hz) (by rw [l6, l3']; exact hp) (by simp)
  have hT : handOn g c = .ok (some ⟨c.nc, s.rbar, s.xc, s.yc, s.zc, s.zmbar, s.vbar, s.tbar, c.tab.nb, c.np⟩) := by
    have e : handOn g { c with tab := T } = handOn g c := by
      have e : ({ c.tab.base with st := rowsOf c.tab.x c.tab.y c.tab.z c.tab.vx c.tab.vy c.tab.vz, m := c.tab.m } : Cluster) = c.tab.base := by
        rw [← l2.cols.1, ← l2.cols.2]
      unfold onCluster at b1
      rw [e] at b1
      simp only [run, bind, Except.bind, pure, Except.pure, Except.ok.injEq] at b1
      rw [← b1]
      rfl
    rw [← e, b5]
  have P2 : (⟨c.nc, s.rbar, s.xc, s.yc, s.zc, s.zmbar, s.vbar, s.tbar, c.tab.nb, c.np⟩ : H5Scales).Pos := ⟨P'.rbar, P'.zmbar, P'.vbar, P'.tbar⟩
  obtain ⟨K, hK⟩ : ∃ K : Kw, K = { nbAdvKw {} with wdir := some (dirSlash (kw.wdir.getD "")), snapdir := some "" } := ⟨_, rfl⟩
  obtain ⟨c', k1, k2, k3, k4, k5, k6, k7, k8, k9, k10, k11, k12, k13⟩ := getNbody6ppH5_ok (g := g) (conf3 := none) (file := f) (q := q1)
    (i := 1) (n := kw.nsnap.getD 0) (d := d) (ofile := none) (adv := true)
    (handed := some ⟨c.nc, s.rbar, s.xc, s.yc, s.zc, s.zmbar, s.vbar, s.tbar, c.tab.nb, c.np⟩)
    (s := ⟨c.nc, s.rbar, s.xc, s.yc, s.zc, s.zmbar, s.vbar, s.tbar, c.tab.nb, c.np⟩) (kw := K)
    (t := 0) (p := ⟨0, 0, 0, 0, 0, 0⟩) hG hi1 hq1 rfl P2 (by intro L h; cases h)
  have hnt : c'.tab.ntot ≠ 0 := by
    rw [k2.ntot]
    have := List.length_pos_iff.mpr hq1.ne
    omega
  have from2 : (⟨c.nc, s.rbar, s.xc, s.yc, s.zc, s.zmbar, s.vbar, s.tbar, c.tab.nb, c.np⟩ : H5Scales).From r :=
    ⟨by rw [l5]; exact l3.nc, l3.rbar, l3.xc, l3.yc, l3.zc, l3.zmbar, l3.vbar, l3.tbar⟩
  refine ⟨c, c', l1, ?_, ?_, ?_⟩
  · unfold advanceNbody6ppH5
    rw [hT]
    simp only [l9, l8, hlen, if_true, bind, Except.bind, l7, l10, l11, l12, l13, Option.getD_none, Nat.zero_max, Nat.add_sub_cancel]
    rw [← hK, k1]
    simp only [pure, Except.pure, if_neg hnt]
  · have := k2.at (pos := none) hq1 from2 (by rw [k3]; simp) (by rw [k4]; simp)
    rwa [k10, k9] at this
  · rw [k2.staleNb hb1, (l2.nb hb).1]
    show (truncZ ((q.bin.length : ℕ) : ℝ)).toNat = _
    rw [truncZ_nat]

/-- **C129 (violated: component masses, single stars, radii).**  The masses of the components of binaries are given as 1, whatever the file says; the number of
single stars is given as that number minus the number of binaries; the stored `logr` are the radii, not their logarithms. -/
theorem C129_attributes_violated {g : Galpy} {fs : H5Files} {kw : Kw} {d : ℕ} {f : List H5Group} {q : H5Group} {r : PPRec} {more : Bytes} {i : ℕ} (hG : g.Pos)
    (hf : fs.snap40 (snap40Name (kw.wdir.getD "") (kw.snapdir.getD "") (kw.nsnap.getD 0)) = some f) (hi : f[i]? = some q) (hq : q.Ok)
    (hc : fs.conf3 (conf3Name (kw.wdir.getD "") (kw.snapdir.getD "") (kw.nsnap.getD 0)) = some (r.file ++ more)) (hr : r.Header)
    (h1 : 0 < r.head 2) (h2 : 0 < r.head 3) (h3 : 0 < r.head 10) (h4 : 0 < r.head 11) (hb : q.pairs.isSome) :
    ∃ c, loadNbody6ppH5 g fs none kw i d = .ok c ∧ H5At g r q (kw.nsnap.getD 0) i none c ∧
      (∀ k < q.bin.length, c.tab.mb1[k]! = 1 ∧ c.tab.mb2[k]! = 1) ∧ c.tab.ns = (q.stars.length : ℤ) - q.bin.length ∧
      c.ev.logr = q.bin.map (fun b => max b.rad1 b.rad2) ++ q.stars.map H5Star.rad := by
  obtain ⟨c, s, l1, l2, l3, -, l4, lg, -, -, -, -, l9, l10, -⟩ := loadNbody6ppH5_ok (d := d) hG hf hi hq hc hr h1 h2 h3 h4
  refine ⟨c, l1, ?_, ?_, l2.ns hb, ?_⟩
  · have := l2.at (pos := none) hq l3 l4 (by rw [lg]; rfl)
    rwa [l10, l9] at this
  · intro k hk
    rw [l2.mb1, l2.mb2, getElem!_pos _ k (by simpa using hk)]
    simp
  · rw [l2.ev]
    exact (groupEv_spec hq).2.2.2.2.2.2.2.2.2.2.1

/-! ### a concrete case -/

/-- A binary (masses 2 and 3, semi-major axis 4 au) and a single star. -/
def demoGroup (t : ℝ) : H5Group :=
  { time := t, nSingle := 1, stars := [⟨7, ⟨1, 2, 3, 4, 5, 6⟩, 1.5, -1, 1, 10, 2⟩]
    pairs := some [⟨3, 4, ⟨-1, -2, -3, 0, 0, 1⟩, ⟨1, 0, 0, 0, 2, 0⟩, 2, 3, -4, 1, 13, 0, 5, 7, 1, 2, 4, 0.5, 100⟩] }

/-- The same star alone, in a group without binaries. -/
def demoGroup1 : H5Group := { time := 3, nSingle := 1, stars := [⟨7, ⟨1, 2, 3, 4, 5, 6⟩, 1.5, -1, 1, 10, 2⟩], pairs := none }

theorem demoGroup_ok (t : ℝ) : (demoGroup t).Ok := by
  constructor <;> simp [demoGroup, H5Group.rows, H5Group.bin] <;> norm_num

theorem demoGroup1_ok : demoGroup1.Ok := by
  constructor <;> simp [demoGroup1, H5Group.rows, H5Group.bin] <;> norm_num

theorem demoG_pos : demoG.Pos := by constructor <;> norm_num [demoG]

theorem demoPP_header : demoPP.Header := ⟨demoPP_full.ok, demoPP_full.ne, demoPP_full.head⟩

theorem demoPP_head : demoPP.head 1 = 1 ∧ ∀ k, 2 ≤ k → k < 20 → demoPP.head k = 2 := by
  refine ⟨by simp [demoPP, PPRec.head, Single.value], ?_⟩
  intro k h1 h2
  interval_cases k <;> simp [demoPP, PPRec.head, Single.value]

/-- Two groups in each file. -/
def demoH5 : H5Files := ⟨fun _ => some (demoPP.file ++ []), fun _ => some [demoGroup 1, demoGroup1]⟩

theorem demoH5_series (w s : String) (n0 d j : ℕ) : H5Series demoH5 w s n0 d (fun _ => [demoGroup 1, demoGroup1]) (fun _ => demoPP) j := by
  obtain ⟨h1, h2⟩ := demoPP_head
  constructor
  · intro i _; rfl
  · intro i _; exact ⟨[], rfl⟩
  · intro i _; simp
  · intro i _ q hq
    simp only [List.mem_cons, List.not_mem_nil, or_false] at hq
    rcases hq with rfl | rfl
    · exact demoGroup_ok 1
    · exact demoGroup1_ok
  · intro i _; exact demoPP_header
  · intro i _; rw [h2 2 (by norm_num) (by norm_num)]; norm_num
  · intro i _; rw [h2 3 (by norm_num) (by norm_num)]; norm_num
  · intro i _; rw [h2 10 (by norm_num) (by norm_num)]; norm_num
  · intro i _; rw [h2 11 (by norm_num) (by norm_num)]; norm_num
  · intro i _; rw [h2 13 (by norm_num) (by norm_num)]; norm_num
  · intro i _ q hq
    simp only [List.head?_cons, Option.some.injEq] at hq
    subst hq
    rw [h1]
    norm_num [demoGroup]

/-- The hypotheses of C128 are met: after three advances, with conversions in between, the second group of the file with number 2. -/
example : ∃ c c', loadNbody6ppH5 demoG demoH5 none {} 0 2 = .ok c ∧
    advanceNbody6ppH5Many demoG demoH5 {} 2 [[.toPckms true, .toGalaxy true], [], [.toGalpy]] c = .ok c' ∧ c'.nsnap = 2 ∧ c'.ngroup = 1 ∧ c'.tab.ntot = 1 := by
  obtain ⟨c, c', h1, h2, h3⟩ := C128_histories (g := demoG) (kw := {}) (a := {}) (ofile := none) (t := fun _ => 0) (p := fun _ => ⟨0, 0, 0, 0, 0, 0⟩)
    (i := 1) (q := demoGroup1) (hist := [[.toPckms true, .toGalaxy true], [], [.toGalpy]]) (by norm_num) demoG_pos (demoH5_series "" "" 0 2 1) rfl
    (by simp [groupsBefore]) (by
      intro ops ho op hop
      simp only [List.mem_cons, List.not_mem_nil, or_false] at ho
      rcases ho with rfl | rfl | rfl
      · simp only [List.mem_cons, List.not_mem_nil, or_false] at hop
        rcases hop with rfl | rfl
        · exact ⟨by intro u h; cases h; trivial, by intro o h; cases h⟩
        · exact ⟨(by intro u h; cases h), (by intro o h; cases h; trivial)⟩
      · cases hop
      · simp only [List.mem_cons, List.not_mem_nil, or_false] at hop
        subst hop
        exact ⟨by intro u h; cases h; trivial, by intro o h; cases h⟩)
    rfl rfl rfl rfl rfl rfl rfl rfl (by intro L h; cases h)
  exact ⟨c, c', h1, h2, by rw [h3.nsnap], h3.ngroup, by rw [h3.ntot]; simp [demoGroup1, H5Group.rows, H5Group.bin]⟩

/-- The binary count of the first group stays. -/
example : ∃ c c', loadNbody6ppH5 demoG demoH5 none {} 0 1 = .ok c ∧ advanceNbody6ppH5 demoG demoH5 {} 1 c = .ok c' ∧ H5At demoG demoPP demoGroup1 0 1 none c' ∧
    c'.tab.nb = 1 := by
  obtain ⟨h1, h2⟩ := demoPP_head
  exact C129_stale_violated (q := demoGroup 1) (kw := {}) demoG_pos rfl rfl (demoGroup_ok 1) rfl demoGroup1_ok rfl demoPP_header
    (by rw [h2 2 (by norm_num) (by norm_num)]; norm_num) (by rw [h2 3 (by norm_num) (by norm_num)]; norm_num)
    (by rw [h2 10 (by norm_num) (by norm_num)]; norm_num) (by rw [h2 11 (by norm_num) (by norm_num)]; norm_num)
    (by rw [h2 13 (by norm_num) (by norm_num)]; norm_num) (by rw [h1]; norm_num [demoGroup]) rfl rfl

/-- Masses 2 and 3 become 1 and 1; one single star and one binary are counted as no single star. -/
example : ∃ c, loadNbody6ppH5 demoG demoH5 none {} 0 1 = .ok c ∧ c.tab.mb1[0]! = 1 ∧ c.tab.ns = 0 := by
  obtain ⟨h1, h2⟩ := demoPP_head
  obtain ⟨c, k1, -, k3, k4, -⟩ := C129_attributes_violated (q := demoGroup 1) (kw := {}) (d := 1) (fs := demoH5) (i := 0) demoG_pos rfl rfl (demoGroup_ok 1) rfl demoPP_header
    (by rw [h2 2 (by norm_num) (by norm_num)]; norm_num) (by rw [h2 3 (by norm_num) (by norm_num)]; norm_num)
    (by rw [h2 10 (by norm_num) (by norm_num)]; norm_num) (by rw [h2 11 (by norm_num) (by norm_num)]; norm_num) rfl
  exact ⟨c, k1, (k3 0 (by simp [demoGroup, H5Group.bin])).1, by rw [k4]; simp [demoGroup, H5Group.bin]⟩

/-- As `demoPP`, with no stars in the core. -/
def demoPP0 : PPRec := { demoPP with alist := demoPP.alist.set 13 ⟨false, 0, 0⟩ }

/-- Time 1 in N-body units of 2 Myr is 2 Myr; time 3 in the same units is taken for 3 Myr. -/
example : ∃ c c', loadNbody6ppH5 demoG ⟨fun _ => some (demoPP0.file ++ []), fun _ => some [demoGroup 1, demoGroup 3]⟩ none {} 0 1 = .ok c ∧
    (phys demoG c.tab.base).map Phys.time = some 2 ∧
    advanceNbody6ppH5 demoG ⟨fun _ => some (demoPP0.file ++ []), fun _ => some [demoGroup 1, demoGroup 3]⟩ {} 1 c = .ok c' ∧
    (phys demoG c'.tab.base).map Phys.time = some 3 := by
  have ok : demoPP0.Header := by
    refine ⟨⟨?_, ?_, ?_, ?_, ?_, ?_⟩, demoPP_full.ne, by simp [demoPP0, demoPP]⟩
    · exact demoPP_full.ok.model
    · exact demoPP_full.ok.nrun
    · simpa [demoPP0] using demoPP_full.ok.nk
    · exact demoPP_full.ok.n
    · intro s hs
      rcases List.mem_or_eq_of_mem_set hs with h | h
      · exact demoPP_full.ok.alist s h
      · subst h; exact ⟨by norm_num, by norm_num⟩
    · exact demoPP_full.ok.stars
  have e2 : demoPP0.head 2 = 2 := by simp [demoPP0, demoPP, PPRec.head, Single.value]
  have e3 : demoPP0.head 3 = 2 := by simp [demoPP0, demoPP, PPRec.head, Single.value]
  have e10 : demoPP0.head 10 = 2 := by simp [demoPP0, demoPP, PPRec.head, Single.value]
  have e11 : demoPP0.head 11 = 2 := by simp [demoPP0, demoPP, PPRec.head, Single.value]
  have e13 : demoPP0.head 13 = 0 := by simp [demoPP0, demoPP, PPRec.head, Single.value]
  obtain ⟨c, c', k1, -, k3, k4, -, -, -, k8, -⟩ := C129_scales_violated (g := demoG)
    (fs := ⟨fun _ => some (demoPP0.file ++ []), fun _ => some [demoGroup 1, demoGroup 3]⟩) (kw := {}) (d := 1) demoG_pos rfl rfl (demoGroup_ok 1) rfl (demoGroup_ok 3) rfl
    ok (by rw [e2]; norm_num) (by rw [e3]; norm_num) (by rw [e10]; norm_num) (by rw [e11]; norm_num) e13
  refine ⟨c, c', k1, ?_, k4, k8⟩
  rw [k3, e10]
  simp [demoGroup]

/-- One file only: the second advance raises. -/
example : ∃ c, loadNbody6ppH5 demoG ⟨demoH5.conf3, fun n => if n = "snap.40_0.h5part" then some [demoGroup 1, demoGroup1] else none⟩ none {} 0 1 = .ok c ∧
    advanceNbody6ppH5Many demoG ⟨demoH5.conf3, fun n => if n = "snap.40_0.h5part" then some [demoGroup 1, demoGroup1] else none⟩ {} 1 [[], []] c =
      .error .osError := by
  have e0 : snap40Name "" "" 0 = "snap.40_0.h5part" := by
    unfold snap40Name
    rw [show dirSlash "" = "" by decide]
    decide
  have e1 : snap40Name "" "" 1 = "snap.40_1.h5part" := by
    unfold snap40Name
    rw [show dirSlash "" = "" by decide]
    decide
  have ser : H5Series ⟨demoH5.conf3, fun n => if n = "snap.40_0.h5part" then some [demoGroup 1, demoGroup1] else none⟩ "" "" 0 1
      (fun _ => [demoGroup 1, demoGroup1]) (fun _ => demoPP) 0 := by
    obtain ⟨a1, a2, a3, a4, a5, a6, a7, a8, a9, a10, a11⟩ := demoH5_series "" "" 0 1 0
    refine ⟨?_, a2, a3, a4, a5, a6, a7, a8, a9, a10, a11⟩
    intro i hi
    obtain rfl : i = 0 := by omega
    show (if runFile "" "" ("snap.40_" ++ Nat.repr (0 + 0 * 1) ++ ".h5part") = "snap.40_0.h5part" then some [demoGroup 1, demoGroup1] else none) = _
    rw [← snap40_named, show 0 + 0 * 1 = 0 by norm_num, e0, if_pos rfl]
  obtain ⟨c, c', h1, -, -, h4⟩ := C129_end_violated (g := demoG) (kw := {}) (a := {})
    (i := 1) (q := demoGroup1) (hist := [[]]) (ops := []) le_rfl demoG_pos ser rfl
    (by simp [groupsBefore]) (by intro ops ho op hop; simp only [List.mem_singleton] at ho; subst ho; cases hop)
    rfl rfl rfl rfl rfl rfl rfl rfl rfl (by
      show (if snap40Name "" "" (0 + (0 + 1) * 1) = "snap.40_0.h5part" then some [demoGroup 1, demoGroup1] else none) = none
      rw [show 0 + (0 + 1) * 1 = 1 by norm_num, e1, if_neg (by decide)]) (by intro op hop; cases hop)
  exact ⟨c, h1, h4⟩

/-- A header without stars. -/
example : loadNbody6ppH5 demoG ⟨fun _ => some (({ model := 1, nrun := 2, alist := [], stars := [] } : PPRec).file ++ []), demoH5.snap40⟩ none {} 0 1 =
    .error .indexError := by
  refine C129_header_violated (r := { model := 1, nrun := 2, alist := [], stars := [] }) (f := [demoGroup 1, demoGroup1]) (q := demoGroup 1) rfl rfl rfl ?_ rfl
  refine ⟨⟨by norm_num, by norm_num⟩, ⟨by norm_num, by norm_num⟩, by norm_num, by norm_num, ?_, ?_⟩
  · intro s hs; cases hs
  · intro s hs; cases hs

end

end CT
