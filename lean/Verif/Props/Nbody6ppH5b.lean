/- HDF5 output of NBODY6++ (C128, C129): the cluster made from a group. -/
import Verif.Props.Nbody6ppH5

namespace CT

noncomputable section

theorem H5Group.Ok.mass_pos {q : H5Group} (h : q.Ok) : ∀ x ∈ q.masses, 0 < x := by
  intro x hx
  rcases List.mem_append.mp hx with hx | hx
  · obtain ⟨b, hb, rfl⟩ := List.mem_map.mp hx
    exact add_pos (h.m1 b hb) (h.m2 b hb)
  · obtain ⟨s, hs, rfl⟩ := List.mem_map.mp hx
    exact h.m s hs

theorem masses_length (q : H5Group) : q.masses.length = q.rows.length := by simp [H5Group.masses, H5Group.rows]

/-- Analysing a cluster whose columns agree with it. -/
theorem nbAnalyze_same {kw : Kw} {T : Tab} {n : ℕ} (al : Aligned T n) (hst : T.base.st = rowsOf T.x T.y T.z T.vx T.vy T.vz) (hm : T.base.m = T.m)
    (good : Good T.base) : ∃ b', nbAnalyze kw T = .ok { T with base := b' } ∧ b'.core = T.base.core ∧ Good b' := by
  unfold nbAnalyze
  split
  · obtain ⟨b', hb', hg⟩ := analyze_total (s := kw.sort.getD true) (p := true) good
    refine ⟨b', ?_, analyze_core hb', hg⟩
    have e : ({ T.base with st := rowsOf T.x T.y T.z T.vx T.vy T.vz, m := T.m } : Cluster) = T.base := by rw [← hst, ← hm]
    unfold analyzeTab
    rw [if_neg (by simp only [al.x, al.y, al.z, al.vx, al.vy, al.vz]; simp), e]
    simp only [bind, Except.bind, pure, Except.pure, hb']
  · exact ⟨T.base, rfl, rfl, good⟩

/-- Positive scales. -/
structure H5Scales.Pos (s : H5Scales) : Prop where
  rbar : 0 < s.rbar
  zmbar : 0 < s.zmbar
  vbar : 0 < s.vbar
  tbar : 0 < s.tbar

theorem addNbody6_bin {a x y z m v t nb : ℝ} {T : Tab} (ha : 0 < a) (hm : 0 < m) :
    0 < (addNbody6 a x y z m v t nb T).base.rbarAu ∧ 0 < (addNbody6 a x y z m v t nb T).base.tbarDays := by
  constructor
  · show (0 : ℝ) < 1296000 / (2 * Real.pi) * 1.49597870700e13 / 1.49597870700e13 * a
    positivity
  · show (0 : ℝ) < 365.25 * ((a * 1296000 / (2 * Real.pi)) ^ (1.5 : ℝ) / Real.sqrt m)
    positivity

theorem groupBase_fields (q : H5Group) (b : Cluster) :
    (groupBase q b).units = b.units ∧ (groupBase q b).origin = b.origin ∧ (groupBase q b).rbar = b.rbar ∧ (groupBase q b).vbar = b.vbar ∧
      (groupBase q b).zmbar = b.zmbar ∧ (groupBase q b).tbar = b.tbar ∧ (groupBase q b).tphys = b.tphys ∧ (groupBase q b).c = b.c ∧
      (groupBase q b).gc = b.gc ∧ (groupBase q b).rorder = b.rorder ∧ (groupBase q b).rproorder = b.rproorder ∧
      (groupBase q b).rbarAu = b.rbarAu ∧ (groupBase q b).tbarDays = b.tbarDays := by
  unfold groupBase
  cases q.pairs <;> simp

theorem rowsOf_rows (l : List Ph) : rowsOf (l.map Ph.x) (l.map Ph.y) (l.map Ph.z) (l.map Ph.vx) (l.map Ph.vy) (l.map Ph.vz) = l := by
  rw [rowsOf_map]
  simp

theorem GroupCols.rowsOf_eq {q : H5Group} {T : Tab} (h : GroupCols q T) : rowsOf T.x T.y T.z T.vx T.vy T.vz = q.rows := by
  rw [h.x, h.y, h.z, h.vx, h.vy, h.vz, rowsOf_rows]

/-- The binaries in au, days and solar masses. -/
def AuBin (q : H5Group) (c : Cluster) : Prop :=
  (toAudays c).bin = ⟨q.bin.map H5Pair.a, q.bin.map H5Pair.p, q.bin.map H5Pair.m1, q.bin.map H5Pair.m2⟩

/-- Binary data after conversion to N-body units and back. -/
theorem auBin_nbody {q : H5Group} {b c : Cluster} (hb : b.bin = ⟨[], [], [], []⟩) (hu : b.bunits = some .other) (ha : 0 < b.rbarAu)
    (ht : 0 < b.tbarDays) (hz : 0 < b.zmbar)
    (hbin : c.bin = (nbodyBinStep (groupBase q b)).bin) (hbu : c.bunits = (nbodyBinStep (groupBase q b)).bunits) (hsu : c.rbarAu = b.rbarAu)
    (htd : c.tbarDays = b.tbarDays) (hzm : c.zmbar = b.zmbar) : AuBin q c := by
  unfold AuBin
  cases hp : q.pairs with
  | none =>
    have e : groupBase q b = b := by simp [groupBase, hp]
    rw [e] at hbin hbu
    have e2 : nbodyBinStep b = b := by simp [nbodyBinStep, hu]
    rw [e2] at hbin hbu
    unfold toAudays
    simp [hbu, hu, hbin, hb, H5Group.bin, hp]
  | some l =>
    by_cases hl : l = []
    · subst hl
      have e2 : nbodyBinStep (groupBase q b) = groupBase q b := by simp [nbodyBinStep, groupBase, hp]
      rw [e2] at hbin hbu
      have hbu : c.bunits = some .audays := by rw [hbu]; simp [groupBase, hp]
      have hbin : c.bin = ⟨[], [], [], []⟩ := by rw [hbin]; simp [groupBase, hp]
      unfold toAudays
      simp [hbu, hbin, H5Group.bin, hp]
    · have hpos : 0 < l.length := List.length_pos_iff.mpr hl
      have hbu : c.bunits = some .nbody := by rw [hbu]; simp [nbodyBinStep, groupBase, hp, hpos]
      have hbin : c.bin = (⟨l.map H5Pair.a, l.map H5Pair.p, l.map H5Pair.m1, l.map H5Pair.m2⟩ : Bin).div b.rbarAu b.tbarDays b.zmbar := by
        rw [hbin]; simp [nbodyBinStep, groupBase, hp, hpos]
      have e : toAudays c = { c with bin := c.bin.mul c.rbarAu c.tbarDays c.zmbar, bunits := some .audays } := by
        unfold toAudays
        simp [hbu]
      rw [e]
      show c.bin.mul c.rbarAu c.tbarDays c.zmbar = _
      rw [hbin, hsu, htd, hzm]
      simp only [Bin.mul, Bin.div, List.map_map, H5Group.bin, hp, Option.getD_some]
      congr 1 <;> (apply List.map_congr_left; intro x _; simp only [Function.comp]; field_simp)

/-- What the cluster made from group `q` has, with scales `s`. -/
structure H5Cluster (g : Galpy) (q : H5Group) (s : H5Scales) (t : Tab) (e : H5Ev) : Prop where
  units : t.base.units = some .nbody
  origin : t.base.origin = some .cluster
  rbar : t.base.rbar = s.rbar
  zmbar : t.base.zmbar = s.zmbar
  vbar : t.base.vbar = s.vbar
  tbar : t.base.tbar = s.tbar
  centre : t.base.c = ⟨s.xc, s.yc, s.zc, 0, 0, 0⟩
  /-- stars in pc, km/s, solar masses -/
  stars : (phys g t.base).map Phys.stars = some q.rows
  masses : (phys g t.base).map Phys.mass = some q.masses
  cols : t.base.st = rowsOf t.x t.y t.z t.vx t.vy t.vz ∧ t.base.m = t.m
  ids : t.id = q.ids
  ntot : t.ntot = q.rows.length
  nb : q.pairs.isSome → t.nb = q.bin.length ∧ t.base.nb = q.bin.length
  au : AuBin q t.base
  id2 : t.id2 = q.bin.map H5Pair.id2
  b1 : t.b1 = q.bin.map (fun b => relPh (b.m2 / (b.m1 + b.m2)) b.rel)
  b2 : t.b2 = q.bin.map (fun b => relPh (-b.m1 / (b.m1 + b.m2)) b.rel)
  mb1 : t.mb1 = List.replicate q.bin.length 1
  mb2 : t.mb2 = List.replicate q.bin.length 1
  ns : q.pairs.isSome → t.ns = (q.stars.length : ℤ) - q.bin.length
  staleNb : q.pairs = none → t.nb = (truncZ s.nb).toNat
  ev : e = groupEv q
  good : Good t.base

/-- Conversion of the stars of a group to N-body units. -/
theorem toNbody_group {g : Galpy} {q : H5Group} {s : H5Scales} {T : Tab} {b : Cluster} (hq : q.Ok) (hs : s.Pos)
    (hG : g.ro ≠ 0 ∧ g.vo ≠ 0 ∧ g.timeGyr ≠ 0 ∧ g.massMsol ≠ 0 ∧ g.velKpcGyr ≠ 0)
    (hb : b = (s.add (blankTab (some .pckms) (some .cluster) q.time)).base) (cols : GroupCols q T) (hT : T.base = groupBase q b) :
    ∃ T', onCluster (toNbody g) (scaleCentre T) = .ok T' ∧ T'.base.tphys = q.time ∧ T'.base.gc = ⟨0, 0, 0, 0, 0, 0⟩ ∧ T'.nb = T.nb ∧
      Aligned T' q.rows.length ∧ T'.base.units = some .nbody ∧ T'.base.origin = some .cluster ∧ T'.base.rbar = s.rbar ∧ T'.base.zmbar = s.zmbar ∧
      T'.base.vbar = s.vbar ∧ T'.base.tbar = s.tbar ∧ T'.base.c = ⟨s.xc, s.yc, s.zc, 0, 0, 0⟩ ∧
      (phys g T'.base).map Phys.stars = some q.rows ∧ (phys g T'.base).map Phys.mass = some q.masses ∧
      (T'.base.st = rowsOf T'.x T'.y T'.z T'.vx T'.vy T'.vz ∧ T'.base.m = T'.m) ∧ AuBin q T'.base ∧ Good T'.base ∧
      T' = { T with x := T'.x, y := T'.y, z := T'.z, vx := T'.vx, vy := T'.vy, vz := T'.vz, m := T'.m, base := T'.base } := by
  obtain ⟨f1, f2, f3, f4, f5, f6, f7, f8, f9, f10, f11, f12, f13⟩ := groupBase_fields q b
  obtain ⟨d, hd⟩ : ∃ d : Cluster, d = { (scaleCentre T).base with
      st := rowsOf T.x T.y T.z T.vx T.vy T.vz, m := T.m } := ⟨_, rfl⟩
  have dst : d.st = q.rows := by rw [hd]; exact cols.rowsOf_eq
  have dm : d.m = q.masses := by rw [hd]; exact cols.m
  have du : d.units = some .pckms := by rw [hd]; show T.base.units = _; rw [hT, f1, hb]; rfl
  have dorg : d.origin = some .cluster := by rw [hd]; show T.base.origin = _; rw [hT, f2, hb]; rfl
  have drb : d.rbar = s.rbar := by rw [hd]; show T.base.rbar = _; rw [hT, f3, hb]; rfl
  have dvb : d.vbar = s.vbar := by rw [hd]; show T.base.vbar = _; rw [hT, f4, hb]; rfl
  have dzb : d.zmbar = s.zmbar := by rw [hd]; show T.base.zmbar = _; rw [hT, f5, hb]; rfl
  have dtb : d.tbar = s.tbar := by rw [hd]; show T.base.tbar = _; rw [hT, f6, hb]; rfl
  have dt : d.tphys = q.time * s.tbar := by
    rw [hd]; show T.base.tphys * T.base.tbar = _; rw [hT, f7, f6, hb]; rfl
  have dc : d.c = ⟨s.xc * s.rbar, s.yc * s.rbar, s.zc * s.rbar, 0, 0, 0⟩ := by
    rw [hd]
    show ({ T.base.c with x := T.base.c.x * T.base.rbar, y := T.base.c.y * T.base.rbar, z := T.base.c.z * T.base.rbar } : Ph) = _
    rw [hT, f8, f3, hb]; rfl
  have dgc : d.gc = ⟨0, 0, 0, 0, 0, 0⟩ := by rw [hd]; show T.base.gc = _; rw [hT, f9, hb]; rfl
  have dro : d.rorder = none := by rw [hd]; show T.base.rorder = _; rw [hT, f10, hb]; rfl
  have drp : d.rproorder = none := by rw [hd]; show T.base.rproorder = _; rw [hT, f11, hb]; rfl
  have nz : NZ g d := ⟨by rw [drb]; exact hs.rbar.ne', by rw [dvb]; exact hs.vbar.ne', by rw [dzb]; exact hs.zmbar.ne',
    by rw [dtb]; exact hs.tbar.ne', hG.1, hG.2.1, hG.2.2.1, hG.2.2.2.1, hG.2.2.2.2⟩
  have u1 := nbodyStep_ustep nz du
  have u2 := nbodyBinStep_ustep (g := g) u1.units
  obtain ⟨e, he⟩ : ∃ e, e = nbodyBinStep (nbodyStep d) := ⟨_, rfl⟩
  have en : nbodyStep d = { d with tphys := d.tphys / d.tbar, m := d.m.map (· / d.zmbar), st := d.st.map (fun p => (p.divPos d.rbar).divVel d.vbar)
                                   c := (d.c.divPos d.rbar).divVel d.vbar, gc := (d.gc.divPos d.rbar).divVel d.vbar, units := some .nbody } := by
    simp [nbodyStep, du]
  have hbs : ∀ c : Cluster, nbodyBinStep c = { c with bin := (nbodyBinStep c).bin, bunits := (nbodyBinStep c).bunits } := by
    intro c
    unfold nbodyBinStep
    split
    · rfl
    · split <;> rfl
  have hbs2 : ∀ c c' : Cluster, c.bin = c'.bin → c.bunits = c'.bunits → c.nb = c'.nb → c.rbarAu = c'.rbarAu → c.rbarSu = c'.rbarSu →
      c.tbarDays = c'.tbarDays → c.zmbar = c'.zmbar →
      (nbodyBinStep c).bin = (nbodyBinStep c').bin ∧ (nbodyBinStep c).bunits = (nbodyBinStep c').bunits := by
    intro c c' h1 h2 h3 h4 h5 h6 h7
    unfold nbodyBinStep
    rw [h1, h2, h3, h4, h5, h6, h7]
    split
    · exact ⟨rfl, rfl⟩
    · split
      · exact ⟨rfl, rfl⟩
      · exact ⟨h1, h2⟩
  have hgood : Good e := by
    have e1 : e.st = d.st.map (fun p => (p.divPos d.rbar).divVel d.vbar) := by rw [he, hbs, en]
    have e2 : e.m = d.m.map (· / d.zmbar) := by rw [he, hbs, en]
    have e3 : e.rorder = none := by rw [he, hbs, en]; exact dro
    have e4 : e.rproorder = none := by rw [he, hbs, en]; exact drp
    refine ⟨?_, ?_, ?_, ?_, ?_⟩
    · rw [e1, dst]; simpa using hq.ne
    · rw [e1, e2, dst, dm]; simp [masses_length]
    · rw [e2]
      refine List.sum_nonneg ?_
      intro x hx
      obtain ⟨y, hy, rfl⟩ := List.mem_map.mp hx
      rw [dm] at hy
      rw [dzb]
      exact (div_pos (hq.mass_pos y hy) hs.zmbar).le
    · rw [e3]; intro o h; cases h
    · rw [e4]; intro o h; cases h
  obtain ⟨c1, hc1, gc1⟩ := analyze_total (s := true) (p := true) hgood
  have hcore := analyze_core hc1
  obtain ⟨k1, k2, k3, k4, k5, k6, k7, k8, k9, k10, k11⟩ := rest_of_fields hcore
  have kph : phys g c1 = phys g d := by rw [phys_core hcore, he, u2.phys, u1.phys]
  have pd : phys g d = some { time := d.tphys * 1, mass := d.m.map (· * 1), stars := d.st.map (Scale.ph ⟨1, 1, 1, 1⟩), centre := Scale.ph ⟨1, 1, 1, 1⟩ d.c
                              gc := Scale.ph ⟨1, 1, 1, 1⟩ d.gc } := by
    unfold phys
    simp only [du, unitScale]
  have htn : toNbody g d = .ok c1 := by
    unfold toNbody
    simp only [du, bind, Except.bind, ne_eq, not_true_eq_false, false_and, if_false]
    rw [← he]
    exact hc1
  have hr := hs.rbar.ne'
  obtain ⟨S, hS⟩ : ∃ S, S = scaleCentre T := ⟨_, rfl⟩
  have ecols : ({ S.base with st := rowsOf S.x S.y S.z S.vx S.vy S.vz, m := S.m } : Cluster) = d := by rw [hd, hS]; rfl
  have hlen : c1.st.length = q.rows.length := by rw [k10, he, hbs, en]; simp [dst]
  have hmlen : c1.m.length = q.rows.length := by rw [k11, he, hbs, en]; simp [dm, masses_length]
  rw [← hS]
  unfold onCluster
  rw [ecols, htn]
  simp only [bind, Except.bind, pure, Except.pure]
  subst hS
  refine ⟨_, rfl, ?_, ?_, rfl, ?_, ?_, ?_, ?_, ?_, ?_, ?_, ?_, ?_, ?_, ⟨?_, rfl⟩, ?_, gc1, rfl⟩
  · show c1.tphys = _
    rw [k7, he, hbs, en]
    show d.tphys / d.tbar = _
    rw [dt, dtb, mul_div_assoc, div_self hs.tbar.ne', mul_one]
  · show c1.gc = _
    rw [k6, he, hbs, en]
    show (d.gc.divPos d.rbar).divVel d.vbar = _
    rw [dgc]
    simp [Ph.divPos, Ph.divVel]
  · have al := cols.len
    constructor
    all_goals first | exact al.m0 | exact al.npop | exact al.id | simpa using hlen | exact hmlen
  · show c1.units = _
    rw [k8, he, hbs, en]
  · show c1.origin = _
    rw [k9, he, hbs, en]; exact dorg
  · show c1.rbar = _
    rw [k1, he, hbs, en]; exact drb
  · show c1.zmbar = _
    rw [k2, he, hbs, en]; exact dzb
  · show c1.vbar = _
    rw [k3, he, hbs, en]; exact dvb
  · show c1.tbar = _
    rw [k4, he, hbs, en]; exact dtb
  · show c1.c = _
    rw [k5, he, hbs, en]
    show (d.c.divPos d.rbar).divVel d.vbar = _
    rw [dc, drb]
    simp [Ph.divPos, Ph.divVel, mul_div_assoc, div_self hr]
  · show (phys g c1).map Phys.stars = _
    rw [kph, pd]
    have hid : (fun p : Ph => Scale.ph ⟨1, 1, 1, 1⟩ p) = id := by
      funext p
      simp [Scale.ph]
    simp only [Option.map_some, dst]
    rw [show q.rows.map (Scale.ph ⟨1, 1, 1, 1⟩) = q.rows.map id from congrArg (fun f => q.rows.map f) hid, List.map_id]
  · show (phys g c1).map Phys.mass = _
    rw [kph, pd]
    simp only [Option.map_some, dm, mul_one]
    simp
  · exact (rowsOf_rows _).symm
  · have hdg : d.bin = (groupBase q b).bin ∧ d.bunits = (groupBase q b).bunits ∧ d.nb = (groupBase q b).nb ∧ d.rbarAu = (groupBase q b).rbarAu ∧
        d.rbarSu = (groupBase q b).rbarSu ∧ d.tbarDays = (groupBase q b).tbarDays ∧ d.zmbar = (groupBase q b).zmbar := by
      rw [hd, ← hT]; exact ⟨rfl, rfl, rfl, rfl, rfl, rfl, rfl⟩
    obtain ⟨g1, g2, g3, g4, g5, g6, g7⟩ := hdg
    obtain ⟨z1, z2⟩ := hbs2 (nbodyStep d) (groupBase q b) (by rw [en]; exact g1) (by rw [en]; exact g2) (by rw [en]; exact g3) (by rw [en]; exact g4)
      (by rw [en]; exact g5) (by rw [en]; exact g6) (by rw [en]; exact g7)
    have pos := addNbody6_bin (x := s.xc) (y := s.yc) (z := s.zc) (v := s.vbar) (t := s.tbar) (nb := s.nb)
      (T := blankTab (some .pckms) (some .cluster) q.time) hs.rbar hs.zmbar
    show AuBin q c1
    refine auBin_nbody (b := b) (by rw [hb]; rfl) (by rw [hb]; rfl) (by rw [hb]; exact pos.1) (by rw [hb]; exact pos.2) (by rw [hb]; exact hs.zmbar)
      ?_ ?_ ?_ ?_ ?_
    · rw [show c1.bin = e.bin from (congrArg Cluster.bin hcore :), he, z1]
    · rw [show c1.bunits = e.bunits from (congrArg Cluster.bunits hcore :), he, z2]
    · rw [show c1.rbarAu = e.rbarAu from (congrArg Cluster.rbarAu hcore :), he, hbs, en]; exact g4.trans f12
    · rw [show c1.tbarDays = e.tbarDays from (congrArg Cluster.tbarDays hcore :), he, hbs, en]; exact g6.trans f13
    · rw [k2, he, hbs, en]; exact g7.trans f5

end

end CT
