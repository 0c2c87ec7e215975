/- HDF5 output of NBODY6++ (C128, C129): reading a group, and handing on the scales. -/
import Verif.Props.Nbody6ppH5b
import Verif.Props.Nbody6pp2

namespace CT

noncomputable section

/-- The scales are those of record `r`. -/
structure H5Scales.From (s : H5Scales) (r : PPRec) : Prop where
  nc : s.nc = r.head 13
  rbar : s.rbar = r.head 2
  xc : s.xc = r.head 6
  yc : s.yc = r.head 7
  zc : s.zc = r.head 8
  zmbar : s.zmbar = r.head 3
  vbar : s.vbar = r.head 11
  tbar : s.tbar = r.head 10

theorem headScales_ok {r : PPRec} (h : r.Header) (more : Bytes) (ns nb : ℕ) :
    ∃ s, headScales (r.file ++ more) ns nb = .ok s ∧ s.From r ∧ s.np = ns + r.head 1 ∧ s.nb = nb := by
  have hl := h.head
  have at_ : ∀ k < 18, alistAt r.read.base k = .ok (r.head k) := by
    intro k hk
    exact alistAt_ok (r := r.plain) (k := k) (by show k < r.alist.length; omega)
  have hn : 0 < r.read.base.n := by
    have := List.length_pos_iff.mpr h.ne
    show 0 < r.plain.snap.n
    have e : r.plain.snap.n = (r.stars.length : ℤ) := by simp [Rec.snap, PPRec.plain]
    rw [e]
    exact_mod_cast this
  refine ⟨⟨r.head 13, r.head 2, r.head 6, r.head 7, r.head 8, r.head 3, r.head 11, r.head 10, nb, ns + r.head 1⟩, ?_,
    ⟨rfl, rfl, rfl, rfl, rfl, rfl, rfl, rfl⟩, rfl, rfl⟩
  unfold headScales
  simp only [readConf3_file h.ok more, if_neg h.ne, bind, Except.bind, hn, not_true_eq_false, if_false, at_ 13 (by norm_num), at_ 12 (by norm_num),
    at_ 2 (by norm_num), at_ 4 (by norm_num), at_ 6 (by norm_num), at_ 7 (by norm_num), at_ 8 (by norm_num), at_ 3 (by norm_num),
    at_ 11 (by norm_num), at_ 10 (by norm_num), at_ 17 (by norm_num), at_ 1 (by norm_num), pure, Except.pure]

/-- Reading a group with known scales. -/
theorem getNbody6ppH5_ok {g : Galpy} {conf3 : Option Bytes} {file : List H5Group} {q : H5Group} {i n d : ℕ} {ofile : Option (List Line)} {adv : Bool}
    {handed : Option H5Scales} {s : H5Scales} {kw : Kw} {t : ℝ} {p : Ph} (hG : g.Pos) (hf : file[i]? = some q) (hq : q.Ok)
    (hs : chooseScales conf3 handed q = .ok (some s)) (sp : s.Pos) (ho : OrbitOk { kw with nsnap := some (n / d) } adv ofile t p) :
    ∃ c, getNbody6ppH5 g conf3 file i ofile adv handed kw n d = .ok c ∧ H5Cluster g q s c.tab c.ev ∧
      c.tab.base.tphys = (if ofile.isSome ∧ kw.otime.getD false then t else q.time) ∧
      c.tab.base.gc = (if ofile.isSome then p else ⟨0, 0, 0, 0, 0, 0⟩) ∧ c.nc = s.nc ∧ c.np = s.np ∧ c.file = file ∧ c.ngroups = file.length ∧
      c.ngroup = i ∧ c.nsnap = n ∧ c.wdir = dirSlash (kw.wdir.getD "") ∧ c.snapdir = "" ∧
      c.ofile = ofile.map (List.drop (orbitLines { kw with nsnap := some (n / d) } adv)) := by
  obtain ⟨b, hb⟩ : ∃ b, b = (s.add (blankTab (some .pckms) (some .cluster) q.time)).base := ⟨_, rfl⟩
  obtain ⟨T, e1, cols, hT, hnb⟩ := addGroup_ok (q := q) (b := b) (t := s.add (blankTab (some .pckms) (some .cluster) q.time))
    (by rw [hb]; rfl) (by rw [hb]; rfl)
  obtain ⟨T', e2, t1, t2, t3, t4, t5, t6, t7, t8, t9, t10, t11, t12, t13, t14, t15, t16, t17⟩ := toNbody_group (g := g) hq sp
    ⟨hG.ro.ne', hG.vo.ne', hG.time.ne', hG.mass.ne', hG.vel.ne'⟩ hb cols hT
  obtain ⟨S, hS⟩ : ∃ S, S = setNb q T' := ⟨_, rfl⟩
  have sb : S.base = { T'.base with nb := S.base.nb } := by
    rw [hS]; unfold setNb; cases q.pairs <;> rfl
  have sc : S = { T' with nb := S.nb, base := S.base } := by
    rw [hS]; unfold setNb; cases q.pairs <;> rfl
  have snb : q.pairs.isSome → S.nb = q.bin.length ∧ S.base.nb = q.bin.length := by
    intro h
    obtain ⟨l, hl⟩ := Option.isSome_iff_exists.mp h
    rw [hS]; unfold setNb; simp [hl, H5Group.bin]
  have snb0 : q.pairs = none → S.nb = (truncZ s.nb).toNat := by
    intro h
    rw [hS]; unfold setNb
    simp only [h, Option.elim_none]
    rw [t3, hnb h]
    rfl
  have al : Aligned S q.rows.length := by
    rw [sc]; obtain ⟨a1, a2, a3, a4, a5, a6, a7, a8, a9⟩ := t4
    constructor <;> assumption
  have sst : S.base.st = rowsOf S.x S.y S.z S.vx S.vy S.vz := by
    have a : S.base.st = T'.base.st := by rw [sb]
    rw [a, sc]; exact t14.1
  have sm : S.base.m = S.m := by
    have a : S.base.m = T'.base.m := by rw [sb]
    rw [a, sc]; exact t14.2
  have good : Good S.base := by
    rw [sb]; obtain ⟨g1, g2, g3, g4, g5⟩ := t16
    exact ⟨g1, g2, g3, g4, g5⟩
  obtain ⟨b', e3, core, hg⟩ := nbAnalyze_same (kw := kw) al sst sm good
  obtain ⟨k1, k2, k3, k4, k5, k6, k7, k8, k9, k10, k11⟩ := rest_of_fields core
  have hu : b'.units ≠ some .radec := by
    rw [k8, sb]
    show T'.base.units ≠ _
    rw [t5]; decide
  obtain ⟨f', e4⟩ := readOrbitIf_ok (g := g) (kw := { kw with nsnap := some (n / d) }) (adv := adv) hu ho
  have e5 := readOrbitIf_drop e4
  have hphys : phys g (placed { kw with nsnap := some (n / d) } ofile t p b') = (phys g b').map (fun P : Phys =>
      { P with time := (placed { kw with nsnap := some (n / d) } ofile t p b').tphys * b'.tbar
               gc := Scale.ph ⟨b'.rbar, b'.vbar, b'.zmbar, b'.tbar⟩ (placed { kw with nsnap := some (n / d) } ofile t p b').gc }) := by
    have hub : b'.units = some .nbody := by rw [k8, sb]; exact t5
    unfold phys
    simp only [placed, hub, unitScale, Option.map_some]
  have hphys2 : phys g b' = phys g T'.base := by
    rw [phys_core core, sb]; rfl
  refine ⟨{ tab := { S with base := placed { kw with nsnap := some (n / d) } ofile t p b' }, ev := groupEv q, nc := s.nc, np := s.np, file := file
            ngroups := file.length, ngroup := i, nsnap := n, wdir := dirSlash (kw.wdir.getD ""), snapdir := "", ofile := f' }, ?_, ?_, ?_, ?_,
    rfl, rfl, rfl, rfl, rfl, rfl, rfl, rfl, e5⟩
  · unfold getNbody6ppH5
    simp only [h5Group, hf, Option.elim_some, bind, Except.bind, hs, e1, settleScales, Option.isSome_some, if_true, e2]
    rw [← hS, e3]
    simp only [e4, pure, Except.pure]
  · constructor
    · show b'.units = _
      rw [k8, sb]; exact t5
    · show b'.origin = _
      rw [k9, sb]; exact t6
    · show b'.rbar = _
      rw [k1, sb]; exact t7
    · show b'.zmbar = _
      rw [k2, sb]; exact t8
    · show b'.vbar = _
      rw [k3, sb]; exact t9
    · show b'.tbar = _
      rw [k4, sb]; exact t10
    · show b'.c = _
      rw [k5, sb]; exact t11
    · rw [hphys, hphys2, Option.map_map]
      exact t12
    · rw [hphys, hphys2, Option.map_map]
      exact t13
    · refine ⟨?_, ?_⟩
      · show b'.st = _
        rw [k10]; exact sst
      · show b'.m = _
        rw [k11]; exact sm
    · show S.id = _
      rw [sc, t17]; exact cols.id
    · show S.ntot = _
      rw [sc, t17]; exact cols.ntot
    · intro h
      refine ⟨(snb h).1, ?_⟩
      show b'.nb = _
      rw [show b'.nb = S.base.nb from (congrArg Cluster.nb core :)]
      exact (snb h).2
    · show AuBin q (placed _ _ _ _ b')
      unfold AuBin at t15 ⊢
      rw [← t15]
      have h1 : ∀ c c' : Cluster, c.bin = c'.bin → c.bunits = c'.bunits → c.rbarAu = c'.rbarAu → c.rbarSu = c'.rbarSu →
          c.tbarDays = c'.tbarDays → c.zmbar = c'.zmbar → (toAudays c).bin = (toAudays c').bin := by
        intro c c' h1 h2 h3 h4 h6 h7
        unfold toAudays
        cases hu : c.bunits with
        | none => rw [hu] at h2; rw [← h2]; exact h1
        | some u =>
          rw [hu] at h2
          rw [← h2]
          dsimp only
          cases u <;> simp [hu, ← h2, h1, h3, h4, h6, h7]
      apply h1
      · show b'.bin = _
        rw [show b'.bin = S.base.bin from (congrArg Cluster.bin core :), sb]
      · show b'.bunits = _
        rw [show b'.bunits = S.base.bunits from (congrArg Cluster.bunits core :), sb]
      · show b'.rbarAu = _
        rw [show b'.rbarAu = S.base.rbarAu from (congrArg Cluster.rbarAu core :), sb]
      · show b'.rbarSu = _
        rw [show b'.rbarSu = S.base.rbarSu from (congrArg Cluster.rbarSu core :), sb]
      · show b'.tbarDays = _
        rw [show b'.tbarDays = S.base.tbarDays from (congrArg Cluster.tbarDays core :), sb]
      · show b'.zmbar = _
        rw [k2, sb]
    · show S.id2 = _
      rw [sc, t17]; exact cols.id2
    · show S.b1 = _
      rw [sc, t17]; exact cols.b1
    · show S.b2 = _
      rw [sc, t17]; exact cols.b2
    · show S.mb1 = _
      rw [sc, t17]; exact cols.mb1
    · show S.mb2 = _
      rw [sc, t17]; exact cols.mb2
    · intro h
      show S.ns = _
      rw [sc, t17]; exact cols.ns h
    · exact snb0
    · rfl
    · show Good (placed _ _ _ _ b')
      obtain ⟨g1, g2, g3, g4, g5⟩ := hg
      exact ⟨g1, g2, g3, g4, g5⟩
  · show (if ofile.isSome ∧ kw.otime.getD false then t else b'.tphys) = _
    rw [k7, sb]
    show (if ofile.isSome ∧ kw.otime.getD false then t else T'.base.tphys) = _
    rw [t1]
  · show (if ofile.isSome then p else b'.gc) = _
    rw [k6, sb]
    show (if ofile.isSome then p else T'.base.gc) = _
    rw [t2]

end

end CT
