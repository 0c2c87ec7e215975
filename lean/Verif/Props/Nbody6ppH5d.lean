/- HDF5 output of NBODY6++: histories (C128). -/
import Verif.Props.Nbody6ppH5c

namespace CT

noncomputable section

theorem ten_lg {x : ℝ} (h : 0 < x) : (10 : ℝ) ^ lg x = x := Real.rpow_logb (by norm_num) (by norm_num) h

/-- What is stored about stellar evolution. -/
theorem groupEv_spec {q : H5Group} (hq : q.Ok) :
    (groupEv q).kw = q.types ∧ (groupEv q).lum = q.lums ∧ (groupEv q).ltot = q.lums.sum ∧ (groupEv q).pot = q.pots ∧
      (groupEv q).id1 = q.bin.map H5Pair.id1 ∧ (groupEv q).kw1 = q.bin.map H5Pair.kw1 ∧ (groupEv q).kw2 = q.bin.map H5Pair.kw2 ∧
      (groupEv q).kcm = q.bin.map H5Pair.kwc ∧ (groupEv q).ecc = q.bin.map H5Pair.ecc ∧
      (groupEv q).eb = q.bin.map (fun b => 0.5 * b.m1 * b.m2 / b.a) ∧ (groupEv q).logr = q.bin.map (fun b => max b.rad1 b.rad2) ++ q.stars.map H5Star.rad ∧
      (groupEv q).logl = q.lums.map lg := by
  have hs : ∀ x ∈ q.stars, (10 : ℝ) ^ lg x.lum = x.lum := fun x hx => ten_lg (hq.lum x hx)
  have hb : ∀ b ∈ q.bin, lg ((10 : ℝ) ^ lg b.lum1 + (10 : ℝ) ^ lg b.lum2) = lg (b.lum1 + b.lum2) := by
    intro b hx
    rw [ten_lg (hq.lum1 b hx), ten_lg (hq.lum2 b hx)]
  have hb2 : ∀ b ∈ q.bin, (10 : ℝ) ^ lg (b.lum1 + b.lum2) = b.lum1 + b.lum2 := fun b hx => ten_lg (add_pos (hq.lum1 b hx) (hq.lum2 b hx))
  have e : q.pairs.elim emptyEv bseOf = bseOf q.bin ∨ q.pairs = none := by
    cases h : q.pairs with
    | none => exact .inr rfl
    | some l => left; simp [H5Group.bin, h]
  have hlogl : (groupEv q).logl = q.lums.map lg := by
    rcases e with e | e
    · unfold groupEv
      rw [e]
      simp only [H5Ev.addSse, bseOf, H5Group.lums, List.map_append, List.map_map]
      congr 1
      exact List.map_congr_left hb
    · simp [groupEv, e, H5Ev.addSse, emptyEv, H5Group.lums, H5Group.bin, Function.comp_def]
  have hlums : q.lums.map (fun x => (10 : ℝ) ^ lg x) = q.lums := by
    unfold H5Group.lums
    rw [List.map_append, List.map_map, List.map_map]
    congr 1
    · exact List.map_congr_left hb2
    · exact List.map_congr_left hs
  have hlum : (groupEv q).lum = (groupEv q).logl.map (fun x : ℝ => (10 : ℝ) ^ x) := rfl
  have hltot : (groupEv q).ltot = ((groupEv q).logl.map (fun x : ℝ => (10 : ℝ) ^ x)).sum := rfl
  have hlum2 : (groupEv q).logl.map (fun x : ℝ => (10 : ℝ) ^ x) = q.lums := by
    rw [hlogl, List.map_map]
    exact hlums
  refine ⟨?_, hlum.trans hlum2, by rw [hltot, hlum2], ?_, ?_, ?_, ?_, ?_, ?_, ?_, ?_, hlogl⟩
  all_goals cases h : q.pairs <;>
    simp [groupEv, h, H5Ev.addSse, emptyEv, bseOf, H5Group.types, H5Group.pots, H5Group.bin]

/-- The components of a binary. -/
theorem relPh_comp (b : H5Pair) (h1 : 0 < b.m1) (h2 : 0 < b.m2) :
    phAdd (relPh (-b.m1 / (b.m1 + b.m2)) b.rel) b.rel = relPh (b.m2 / (b.m1 + b.m2)) b.rel ∧
      phAdd (Scale.ph ⟨b.m1, b.m1, 1, 1⟩ (relPh (b.m2 / (b.m1 + b.m2)) b.rel)) (Scale.ph ⟨b.m2, b.m2, 1, 1⟩ (relPh (-b.m1 / (b.m1 + b.m2)) b.rel)) =
        ⟨0, 0, 0, 0, 0, 0⟩ := by
  have h : b.m1 + b.m2 ≠ 0 := (add_pos h1 h2).ne'
  constructor
  · simp only [phAdd, relPh, Ph.mk.injEq]
    refine ⟨?_, ?_, ?_, ?_, ?_, ?_⟩ <;> (field_simp; ring)
  · simp only [phAdd, relPh, Scale.ph, Ph.mk.injEq]
    refine ⟨?_, ?_, ?_, ?_, ?_, ?_⟩ <;> (field_simp; ring)

/-- The cluster of a group, in the words of the specification. -/
theorem H5Cluster.at {g : Galpy} {q : H5Group} {s : H5Scales} {r : PPRec} {c : H5Run} {pos : Option Ph} (h : H5Cluster g q s c.tab c.ev) (hq : q.Ok)
    (hs : s.From r) (ht : c.tab.base.tphys = q.time) (hgc : c.tab.base.gc = pos.getD ⟨0, 0, 0, 0, 0, 0⟩) :
    H5At g r q c.nsnap c.ngroup pos c := by
  obtain ⟨v1, v2, v3, v4, v5, v6, v7, v8, v9, v10, v11, v12⟩ := groupEv_spec hq
  rw [← h.ev] at v1 v2 v3 v4 v5 v6 v7 v8 v9 v10 v11 v12
  constructor
  · rfl
  · rfl
  · exact h.units
  · exact h.origin
  · rw [h.rbar, hs.rbar]
  · rw [h.zmbar, hs.zmbar]
  · rw [h.vbar, hs.vbar]
  · rw [h.tbar, hs.tbar]
  · rw [h.centre, hs.xc, hs.yc, hs.zc]
  · exact ht
  · exact hgc
  · exact h.stars
  · exact h.masses
  · exact h.ids
  · exact h.ntot
  · exact fun hp => (h.nb hp).1
  · exact h.au
  · exact v5
  · exact h.id2
  · refine ⟨by rw [h.b1]; simp, by rw [h.b2]; simp, ?_⟩
    intro k hk
    have e1 : c.tab.b1[k]! = relPh (q.bin[k].m2 / (q.bin[k].m1 + q.bin[k].m2)) q.bin[k].rel := by
      rw [h.b1, getElem!_pos _ k (by simpa using hk), List.getElem_map]
    have e2 : c.tab.b2[k]! = relPh (-q.bin[k].m1 / (q.bin[k].m1 + q.bin[k].m2)) q.bin[k].rel := by
      rw [h.b2, getElem!_pos _ k (by simpa using hk), List.getElem_map]
    rw [e1, e2]
    exact relPh_comp _ (hq.m1 _ (List.getElem_mem hk)) (hq.m2 _ (List.getElem_mem hk))
  · exact v1
  · exact v6
  · exact v7
  · exact v8
  · exact v9
  · exact v2
  · exact v3
  · exact v4
  · intro k hk
    rw [v10, getElem!_pos _ k (by simpa using hk), List.getElem_map]
    have := (hq.a _ (List.getElem_mem hk)).ne'
    rw [div_eq_div_iff this (mul_ne_zero two_ne_zero this)]
    ring

/-- Conversions of the cluster between two advances, and the scales that are handed on. -/
theorem handOn_ok {g : Galpy} {q : H5Group} {s : H5Scales} {c : H5Run} {ops : List Op} (hG : g.Pos) (hs : s.Pos) (h : H5Cluster g q s c.tab c.ev)
    (hnc : c.nc ≠ 0) (hnp : c.np ≠ 0) (hl : ∀ op ∈ ops, op.linear) :
    ∃ t, onCluster (run g ops) c.tab = .ok t ∧ Good t.base ∧ Lin t.base ∧ Pos g t.base ∧
      handOn g { c with tab := t } = .ok (some ⟨c.nc, s.rbar, s.xc, s.yc, s.zc, s.zmbar, s.vbar, s.tbar, c.tab.nb, c.np⟩) := by
  have pos : Pos g c.tab.base := ⟨by rw [h.rbar]; exact hs.rbar, by rw [h.vbar]; exact hs.vbar, by rw [h.zmbar]; exact hs.zmbar,
    by rw [h.tbar]; exact hs.tbar, hG.ro, hG.vo, hG.time, hG.mass, hG.vel⟩
  have lin : Lin c.tab.base := ⟨⟨_, h.units, trivial⟩, ⟨_, h.origin, trivial⟩⟩
  obtain ⟨b, hb, gb⟩ := run_total pos lin hl h.good
  have st := run_steps pos.nz lin hl hb
  have e : ({ c.tab.base with st := rowsOf c.tab.x c.tab.y c.tab.z c.tab.vx c.tab.vy c.tab.vz, m := c.tab.m } : Cluster) = c.tab.base := by
    rw [← h.cols.1, ← h.cols.2]
  have posb := pos.of_rest st.rest
  obtain ⟨b2, hb2, w2, r2, u2⟩ : ∃ b2, (if b.units ≠ some .nbody then toNbody g b else .ok b) = .ok b2 ∧ world g b2 = world g b ∧ b2.rest = b.rest ∧
      b2.units = some .nbody := by
    by_cases hu : b.units = some .nbody
    · exact ⟨b, by simp [hu], rfl, rfl, hu⟩
    · obtain ⟨b2, hb2, -⟩ := exec_total (op := .toNbody) posb st.lin ⟨by intro u h; cases h; trivial, by intro o h; cases h⟩ gb
      have s2 := exec_step (op := .toNbody) posb.nz st.lin ⟨by intro u h; cases h; trivial, by intro o h; cases h⟩ hb2
      refine ⟨b2, by rw [if_pos hu]; exact hb2, s2.world, s2.rest, ?_⟩
      rw [s2.units]; rfl
  obtain ⟨k1, k2, k3, k4⟩ := rest_scales (r2.trans st.rest)
  have hw : (world g b2).map World.centre = (world g c.tab.base).map World.centre := by rw [w2, st.world]
  obtain ⟨o2, ho2⟩ : ∃ o, b2.origin = some o := by
    have hne : world g b2 ≠ none := by
      rw [w2, st.world]
      simp [CT.world, phys, h.units, unitScale, h.origin]
    cases ho : b2.origin with
    | none => exact absurd (by simp [CT.world, ho]) hne
    | some o => exact ⟨o, rfl⟩
  have hc : b2.c = c.tab.base.c := by
    simp only [CT.world, phys, u2, h.units, unitScale, ho2, h.origin, Option.map_some, Option.some.injEq, k2, k3] at hw
    have r0 := pos.rbar.ne'
    have v0 := pos.vbar.ne'
    simp only [Scale.ph, Ph.mk.injEq, mul_left_inj' r0, mul_left_inj' v0] at hw
    exact Ph.ext hw.1 hw.2.1 hw.2.2.1 hw.2.2.2.1 hw.2.2.2.2.1 hw.2.2.2.2.2
  refine ⟨{ c.tab with x := b.st.map Ph.x, y := b.st.map Ph.y, z := b.st.map Ph.z, vx := b.st.map Ph.vx, vy := b.st.map Ph.vy, vz := b.st.map Ph.vz
                       m := b.m, base := b }, ?_, ?_, ?_, ?_, ?_⟩
  · unfold onCluster
    rw [e, hb]
    rfl
  · exact gb
  · exact st.lin
  · exact posb
  · unfold handOn
    rw [if_pos ⟨hnc, hnp⟩]
    have fin : (Except.ok (some (⟨c.nc, b2.rbar, b2.c.x, b2.c.y, b2.c.z, b2.zmbar, b2.vbar, b2.tbar, c.tab.nb, c.np⟩ : H5Scales)) :
        Except Err (Option H5Scales)) = .ok (some ⟨c.nc, s.rbar, s.xc, s.yc, s.zc, s.zmbar, s.vbar, s.tbar, c.tab.nb, c.np⟩) := by
      rw [hc, k1, k2, k3, k4, h.centre, h.rbar, h.zmbar, h.vbar, h.tbar]
    by_cases hu : b.units = some .nbody
    · simp only [ne_eq, hu, not_true_eq_false, if_false, Except.ok.injEq] at hb2
      subst hb2
      simp only [ne_eq, hu, not_true_eq_false, if_false, bind, Except.bind, pure, Except.pure]
      exact fin
    · rw [if_pos hu] at hb2
      simp only [ne_eq, hu, not_false_eq_true, if_true, hb2, bind, Except.bind, pure, Except.pure]
      exact fin

/-! ### C128 -/

theorem advanceMany_snoc {g : Galpy} {fs : H5Files} {a : Kw} {d : ℕ} {h : List (List Op)} {ops : List Op} {c c1 : H5Run} {t : Tab}
    (h1 : advanceNbody6ppH5Many g fs a d h c = .ok c1) (h2 : onCluster (run g ops) c1.tab = .ok t) :
    advanceNbody6ppH5Many g fs a d (h ++ [ops]) c = advanceNbody6ppH5 g fs a d { c1 with tab := t } := by
  induction h generalizing c with
  | nil =>
    cases h1
    simp only [List.nil_append, advanceNbody6ppH5Many, h2, bind, Except.bind]
    generalize advanceNbody6ppH5 g fs a d { c1 with tab := t } = x
    cases x <;> rfl
  | cons o h ih =>
    simp only [advanceNbody6ppH5Many] at h1
    obtain ⟨t', e1, h1⟩ := bind_ok h1
    obtain ⟨c', e2, h1⟩ := bind_ok h1
    simp only [List.cons_append, advanceNbody6ppH5Many, e1, e2, bind, Except.bind]
    exact ih h1

theorem snap40_named (w s : String) (n : ℕ) : snap40Name w s n = runFile w s ("snap.40_" ++ Nat.repr n ++ ".h5part") := by
  rw [← dirSlash_runFile, snap40Name]
  simp only [String.append_assoc]

theorem snap40Name_slash (w s : String) (n : ℕ) : snap40Name (dirSlash w) s n = snap40Name w s n := by
  unfold snap40Name
  rw [dirSlash_idem]

theorem H5Scales.From.pos {s : H5Scales} {r : PPRec} (h : s.From r) (h1 : 0 < r.head 2) (h2 : 0 < r.head 3) (h3 : 0 < r.head 10) (h4 : 0 < r.head 11) :
    s.Pos := ⟨by rw [h.rbar]; exact h1, by rw [h.zmbar]; exact h2, by rw [h.vbar]; exact h4, by rw [h.tbar]; exact h3⟩

theorem groupsBefore_succ (f : ℕ → List H5Group) (j : ℕ) : groupsBefore f (j + 1) = groupsBefore f j + (f j).length := by
  simp [groupsBefore, List.range_succ]

/-- C128, with what the next advance depends on. -/
theorem h5_histories {g : Galpy} {fs : H5Files} {w s : String} {n0 d j i : ℕ} {f : ℕ → List H5Group} {r : ℕ → PPRec} {kw a : Kw}
    {ofile : Option (List Line)} {t : ℕ → ℝ} {p : ℕ → Ph} {q : H5Group} {hist : List (List Op)} (hd : 1 ≤ d) (hG : g.Pos)
    (S : H5Series fs w s n0 d f r j) (hi : (f j)[i]? = some q) (hk : hist.length = groupsBefore f j + i) (hl : ∀ ops ∈ hist, ∀ op ∈ ops, op.linear)
    (kn : kw.nsnap.getD 0 = n0) (kwd : kw.wdir.getD "" = w) (ks : kw.snapdir.getD "" = s) (ko : kw.otime.getD false = false)
    (an : a.nsnap = none) (awd : a.wdir = none) (as : a.snapdir.getD "" = s) (ao : a.otime.getD false = false)
    (ho : ∀ L, ofile = some L → (kw.ocolNames = none ∧ kw.ocolNums = none ∧ kw.ounits = none) ∧
      (a.ocolNames = none ∧ a.ocolNums = none ∧ a.ounits = none) ∧ ∀ m ≤ hist.length, OrbitAt L (n0 / d + m) (t m) (p m)) :
    ∃ c c', loadNbody6ppH5 g fs ofile kw 0 d = .ok c ∧ advanceNbody6ppH5Many g fs a d hist c = .ok c' ∧
      H5At g (r j) q (n0 + j * d) i (if ofile.isSome then some (p hist.length) else none) c' ∧ c'.ngroups = (f j).length ∧ c'.wdir = dirSlash w ∧ c'.snapdir = "" ∧
      ∀ ops : List Op, (∀ op ∈ ops, op.linear) → ∃ T, onCluster (run g ops) c'.tab = .ok T := by
  -- loading
  have f0 : (f 0)[0]? = (f 0).head? := by cases f 0 <;> rfl
  obtain ⟨q0, hq0⟩ : ∃ q0, (f 0)[0]? = some q0 := by
    have := List.length_pos_iff.mpr (S.ne 0 (by omega))
    exact ⟨(f 0)[0], by simp [this]⟩
  have mem0 : q0 ∈ f 0 := List.mem_of_getElem? hq0
  obtain ⟨more0, hc0⟩ := S.conf3 0 (by omega)
  rw [← conf3_named] at hc0
  have hs0 := S.snap40 0 (by omega)
  rw [← snap40_named] at hs0
  rw [Nat.zero_mul, Nat.add_zero] at hc0 hs0
  obtain ⟨s0, hs1, from0, np0, -⟩ := headScales_ok (S.header 0 (by omega)) more0 q0.nSingle (q0.pairs.elim 0 List.length)
  have P0 : s0.Pos := from0.pos (S.rbar 0 (by omega)) (S.zmbar 0 (by omega)) (S.tbar 0 (by omega)) (S.vbar 0 (by omega))
  obtain ⟨c0, l1, l2, l3, l4, l5, l6, l7, l8, l9, l10, l11, l12, l13⟩ := getNbody6ppH5_ok (g := g) (conf3 := some ((r 0).file ++ more0)) (file := f 0) (q := q0)
    (i := 0) (n := n0) (d := d) (ofile := ofile) (adv := false) (handed := none) (s := s0) (kw := kw) (t := t 0) (p := p 0) hG hq0
    (S.groups 0 (by omega) q0 mem0) (by simp [chooseScales, hs1, bind, Except.bind, pure, Except.pure]) P0 (by
      intro L hL
      obtain ⟨⟨q1, q2, q3⟩, -, q4⟩ := ho L hL
      exact ⟨q1, q2, q3, q4 0 (by omega)⟩)
  have load : loadNbody6ppH5 g fs ofile kw 0 d = .ok c0 := by
    unfold loadNbody6ppH5
    simp only [kn, kwd, ks, hs0, hc0, Option.elim_some]
    exact l1
  -- every number of advances
  have main : ∀ (hist' : List (List Op)), (∃ rest, hist = hist' ++ rest) → ∀ j' ≤ j, ∀ i' q', (f j')[i']? = some q' →
      hist'.length = groupsBefore f j' + i' →
      ∃ c s', advanceNbody6ppH5Many g fs a d hist' c0 = .ok c ∧ H5Cluster g q' s' c.tab c.ev ∧ s'.From (r j') ∧ c.tab.base.tphys = q'.time ∧
        c.tab.base.gc = (if ofile.isSome then some (p hist'.length) else none).getD ⟨0, 0, 0, 0, 0, 0⟩ ∧ c.nc = s'.nc ∧ c.np ≠ 0 ∧
        c.file = f j' ∧ c.ngroups = (f j').length ∧ c.ngroup = i' ∧ c.nsnap = n0 + j' * d ∧ c.wdir = dirSlash w ∧ c.snapdir = "" ∧
        c.ofile = ofile.map (List.drop (n0 / d + hist'.length + 1)) := by
    intro hist'
    induction hist' using List.reverseRecOn with
    | nil =>
      intro _ j' hj i' q' hq' hlen
      have hz : groupsBefore f j' = 0 ∧ i' = 0 := by simp at hlen; omega
      obtain rfl : j' = 0 := by
        by_contra hne
        obtain ⟨m, rfl⟩ : ∃ m, j' = m + 1 := ⟨j' - 1, by omega⟩
        have := hz.1
        rw [groupsBefore_succ] at this
        have := List.length_pos_iff.mpr (S.ne m (by omega))
        omega
      obtain rfl := hz.2
      rw [hq0] at hq'
      cases hq'
      refine ⟨c0, s0, rfl, l2, from0, ?_, ?_, l5, ?_, l7, l8, l9, by rw [l10]; simp, by rw [l11, kwd], l12, ?_⟩
      · rw [l3, ko]; simp
      · rw [l4]; cases ofile <;> rfl
      · rw [l6, np0]; exact S.np 0 (by omega) q0 (by rw [← f0, hq0])
      · rw [l13]
        congr 2
        unfold orbitLines
        by_cases h : n0 / d = 0 <;> simp [h]
    | append_singleton h ops ih =>
      rintro ⟨rest, hrest⟩ j' hj i' q' hq' hlen
      have hops : ∀ op ∈ ops, op.linear := hl ops (by rw [hrest]; simp)
      have hlt : h.length + 1 ≤ hist.length := by rw [hrest]; simp
      simp only [List.length_append, List.length_singleton] at hlen ⊢
      have mem' : q' ∈ f j' := List.mem_of_getElem? hq'
      have ilt : i' < (f j').length := by
        by_contra hc
        rw [List.getElem?_eq_none (by omega)] at hq'
        cases hq'
      -- orbit
      have orb : ∀ K : Kw, K.ocolNames = a.ocolNames → K.ocolNums = a.ocolNums → K.ounits = a.ounits → ∀ n,
          OrbitOk { K with nsnap := some n } true (ofile.map (List.drop (n0 / d + h.length + 1))) (t (h.length + 1)) (p (h.length + 1)) := by
        intro K K1 K2 K3 n L hL
        cases hof : ofile with
        | none => rw [hof] at hL; cases hL
        | some L' =>
          rw [hof] at hL
          cases hL
          obtain ⟨-, ⟨q1, q2, q3⟩, q4⟩ := ho L' hof
          refine ⟨K1.trans q1, K2.trans q2, K3.trans q3, ?_⟩
          obtain ⟨more, q5⟩ := q4 (h.length + 1) hlt
          refine ⟨more, ?_⟩
          have : n0 / d + h.length + 1 = n0 / d + (h.length + 1) := by omega
          simpa [List.getElem?_drop, this] using q5
      have lines : ∀ (K : Kw) n, orbitLines { K with nsnap := some n } true = 1 := by intro K n; simp [orbitLines]
      have hsome : (ofile.map (List.drop (n0 / d + h.length + 1))).isSome = ofile.isSome := by cases ofile <;> rfl
      have hdrop : (ofile.map (List.drop (n0 / d + h.length + 1))).map (List.drop 1) = ofile.map (List.drop (n0 / d + (h.length + 1) + 1)) := by
        cases ofile with
        | none => rfl
        | some L => simp only [Option.map_some, List.drop_drop]; rfl
      have hgc : ∀ x : Ph, x = (if ofile.isSome then p (h.length + 1) else ⟨0, 0, 0, 0, 0, 0⟩) →
          x = (if ofile.isSome then some (p (h.length + 1)) else none).getD ⟨0, 0, 0, 0, 0, 0⟩ := by
        intro x hx; rw [hx]; cases ofile <;> rfl
      obtain ⟨K, hK⟩ : ∃ K : Kw, K = { nbAdvKw a with wdir := some (dirSlash w), snapdir := some s } := ⟨_, rfl⟩
      have Ko : K.otime.getD false = false := by rw [hK]; exact ao
      have K1 : K.ocolNames = a.ocolNames ∧ K.ocolNums = a.ocolNums ∧ K.ounits = a.ounits := by rw [hK]; exact ⟨rfl, rfl, rfl⟩
      have Kw' : dirSlash (K.wdir.getD "") = dirSlash w := by rw [hK]; exact dirSlash_idem w
      cases i' with
      | succ i1 =>
        obtain ⟨q1, hq1⟩ : ∃ q1, (f j')[i1]? = some q1 := ⟨(f j')[i1], by simp⟩
        obtain ⟨c, s', a1, a2, a3, a4, a5, a6, a7, a8, a9, a10, a11, a12, a13, a14⟩ := ih ⟨[ops] ++ rest, by rw [hrest]; simp⟩ j' hj i1 q1 hq1 (by omega)
        have P' : s'.Pos := a3.pos (S.rbar _ hj) (S.zmbar _ hj) (S.tbar _ hj) (S.vbar _ hj)
        obtain ⟨T, b1, -, -, -, b5⟩ := handOn_ok hG P' a2 (by rw [a6, a3.nc]; exact S.nc _ hj) a7 hops
        have P2 : (⟨c.nc, s'.rbar, s'.xc, s'.yc, s'.zc, s'.zmbar, s'.vbar, s'.tbar, c.tab.nb, c.np⟩ : H5Scales).Pos := ⟨P'.rbar, P'.zmbar, P'.vbar, P'.tbar⟩
        obtain ⟨c1, l1, l2, l3, l4, l5, l6, l7, l8, l9, l10, l11, l12, l13⟩ := getNbody6ppH5_ok (g := g) (conf3 := none) (file := f j') (q := q')
          (i := i1 + 1) (n := n0 + j' * d) (d := d) (ofile := ofile.map (List.drop (n0 / d + h.length + 1))) (adv := true)
          (handed := some ⟨c.nc, s'.rbar, s'.xc, s'.yc, s'.zc, s'.zmbar, s'.vbar, s'.tbar, c.tab.nb, c.np⟩)
          (s := ⟨c.nc, s'.rbar, s'.xc, s'.yc, s'.zc, s'.zmbar, s'.vbar, s'.tbar, c.tab.nb, c.np⟩) (kw := K)
          (t := t (h.length + 1)) (p := p (h.length + 1)) hG hq' (S.groups _ hj q' mem') rfl P2 (orb K K1.1 K1.2.1 K1.2.2 _)
        have hnt : c1.tab.ntot ≠ 0 := by
          rw [l2.ntot]
          have := List.length_pos_iff.mpr (S.groups _ hj q' mem').ne
          omega
        refine ⟨c1, ⟨c.nc, s'.rbar, s'.xc, s'.yc, s'.zc, s'.zmbar, s'.vbar, s'.tbar, c.tab.nb, c.np⟩, ?_, l2,
          ⟨by rw [a6]; exact a3.nc, a3.rbar, a3.xc, a3.yc, a3.zc, a3.zmbar, a3.vbar, a3.tbar⟩, ?_, ?_, l5, by rw [l6]; exact a7, l7, l8, l9, l10, ?_, l12, ?_⟩
        · rw [advanceMany_snoc a1 b1]
          unfold advanceNbody6ppH5
          rw [b5]
          simp only [a10, a9, ilt, if_true, bind, Except.bind, a8, a14, an, awd, a11, a12, a13, as, Option.getD_none, Nat.zero_max]
          rw [← hK, Nat.add_sub_cancel, l1]
          simp only [pure, Except.pure, if_neg hnt]
        · rw [l3, Ko]; simp
        · rw [hsome] at l4; exact hgc _ l4
        · rw [l11, Kw']
        · rw [l13, lines, hdrop]
      | zero =>
        obtain ⟨j1, rfl⟩ : ∃ j1, j' = j1 + 1 := by
          refine ⟨j' - 1, ?_⟩
          have : j' ≠ 0 := by
            rintro rfl
            simp [groupsBefore] at hlen
          omega
        rw [groupsBefore_succ] at hlen
        have hpos := List.length_pos_iff.mpr (S.ne j1 (by omega))
        obtain ⟨q1, hq1⟩ : ∃ q1, (f j1)[(f j1).length - 1]? = some q1 := ⟨(f j1)[(f j1).length - 1], by simp [hpos]⟩
        obtain ⟨c, s', a1, a2, a3, a4, a5, a6, a7, a8, a9, a10, a11, a12, a13, a14⟩ := ih ⟨[ops] ++ rest, by rw [hrest]; simp⟩ j1 (by omega)
          ((f j1).length - 1) q1 hq1 (by omega)
        have P' : s'.Pos := a3.pos (S.rbar _ (by omega)) (S.zmbar _ (by omega)) (S.tbar _ (by omega)) (S.vbar _ (by omega))
        obtain ⟨T, b1, -, -, -, -⟩ := handOn_ok hG P' a2 (by rw [a6, a3.nc]; exact S.nc _ (by omega)) a7 hops
        obtain ⟨more, hc3⟩ := S.conf3 (j1 + 1) hj
        rw [← conf3_named] at hc3
        have hs3 := S.snap40 (j1 + 1) hj
        rw [← snap40_named] at hs3
        obtain ⟨s2, hs2, from2, np2, -⟩ := headScales_ok (S.header (j1 + 1) hj) more q'.nSingle (q'.pairs.elim 0 List.length)
        have P2 : s2.Pos := from2.pos (S.rbar _ hj) (S.zmbar _ hj) (S.tbar _ hj) (S.vbar _ hj)
        obtain ⟨c1, l1, l2, l3, l4, l5, l6, l7, l8, l9, l10, l11, l12, l13⟩ := getNbody6ppH5_ok (g := g) (conf3 := some ((r (j1 + 1)).file ++ more))
          (file := f (j1 + 1)) (q := q') (i := 0) (n := n0 + (j1 + 1) * d) (d := d) (ofile := ofile.map (List.drop (n0 / d + h.length + 1))) (adv := true)
          (handed := none) (s := s2) (kw := K) (t := t (h.length + 1)) (p := p (h.length + 1)) hG hq' (S.groups _ hj q' mem')
          (by simp [chooseScales, hs2, bind, Except.bind, pure, Except.pure]) P2 (orb K K1.1 K1.2.1 K1.2.2 _)
        have hnt : c1.tab.ntot ≠ 0 := by
          rw [l2.ntot]
          have := List.length_pos_iff.mpr (S.groups _ hj q' mem').ne
          omega
        have hn : max ((none : Option ℕ).getD 0) (n0 + j1 * d) + 1 + d - 1 = n0 + (j1 + 1) * d := by
          rw [Nat.add_mul]
          simp
          omega
        have hlast : ¬((f j1).length - 1 + 1 < (f j1).length) := by omega
        refine ⟨c1, s2, ?_, l2, from2, ?_, ?_, l5, ?_, l7, l8, l9, l10, ?_, l12, ?_⟩
        · rw [advanceMany_snoc a1 b1]
          unfold advanceNbody6ppH5
          simp only [a10, a9, hlast, if_false, bind, Except.bind, a14, an, awd, a11, a12, a13, as, Option.getD_none]
          simp only [Option.getD_none] at hn
          rw [hn]
          simp only [snap40Name_slash, conf3Name_slash, hs3, hc3, Option.elim_some]
          rw [← hK, l1]
          simp only [pure, Except.pure, if_neg hnt]
        · rw [l3, Ko]; simp
        · rw [hsome] at l4; exact hgc _ l4
        · rw [l6, np2]
          refine S.np (j1 + 1) hj q' ?_
          rw [← hq']
          cases f (j1 + 1) <;> rfl
        · rw [l11, Kw']
        · rw [l13, lines, hdrop]
  obtain ⟨c, s', a1, a2, a3, a4, a5, a6, a7, a8, a9, a10, a11, a12, a13, a14⟩ := main hist ⟨[], by simp⟩ j le_rfl i q hi hk
  refine ⟨c0, c, load, a1, ?_, a9, a12, a13, ?_⟩
  · have := a2.at (S.groups j le_rfl q (List.mem_of_getElem? hi)) a3 a4 a5
    rwa [a11, a10] at this
  · intro ops hops
    have P' : s'.Pos := a3.pos (S.rbar _ le_rfl) (S.zmbar _ le_rfl) (S.tbar _ le_rfl) (S.vbar _ le_rfl)
    obtain ⟨T, b1, -⟩ := handOn_ok hG P' a2 (by rw [a6, a3.nc]; exact S.nc _ le_rfl) a7 hops
    exact ⟨T, b1⟩

/-- **C128.**  The output of a run is in files `snap.40_n.h5part` (groups) and `conf.3_n` (header) with `n = n0, n0+d, …`.  Load the first group of file
`n0`, and advance `k` times with the same `dtout = d` (and the same `snapdir`), applying between advances any unit conversions and changes of origin.
The cluster that results is group `i` of file `n0 + jd`, where `k` is the number of groups in the files before that plus `i`, at the place that
line `n0/d + k` of the orbit file gives, if there is one. -/
theorem C128_histories {g : Galpy} {fs : H5Files} {w s : String} {n0 d j i : ℕ} {f : ℕ → List H5Group} {r : ℕ → PPRec} {kw a : Kw}
    {ofile : Option (List Line)} {t : ℕ → ℝ} {p : ℕ → Ph} {q : H5Group} {hist : List (List Op)} (hd : 1 ≤ d) (hG : g.Pos)
    (S : H5Series fs w s n0 d f r j) (hi : (f j)[i]? = some q) (hk : hist.length = groupsBefore f j + i) (hl : ∀ ops ∈ hist, ∀ op ∈ ops, op.linear)
    (kn : kw.nsnap.getD 0 = n0) (kwd : kw.wdir.getD "" = w) (ks : kw.snapdir.getD "" = s) (ko : kw.otime.getD false = false)
    (an : a.nsnap = none) (awd : a.wdir = none) (as : a.snapdir.getD "" = s) (ao : a.otime.getD false = false)
    (ho : ∀ L, ofile = some L → (kw.ocolNames = none ∧ kw.ocolNums = none ∧ kw.ounits = none) ∧
      (a.ocolNames = none ∧ a.ocolNums = none ∧ a.ounits = none) ∧ ∀ m ≤ hist.length, OrbitAt L (n0 / d + m) (t m) (p m)) :
    ∃ c c', loadNbody6ppH5 g fs ofile kw 0 d = .ok c ∧ advanceNbody6ppH5Many g fs a d hist c = .ok c' ∧
      H5At g (r j) q (n0 + j * d) i (if ofile.isSome then some (p hist.length) else none) c' := by
  obtain ⟨c, c', h1, h2, h3, -⟩ := h5_histories hd hG S hi hk hl kn kwd ks ko an awd as ao ho
  exact ⟨c, c', h1, h2, h3⟩

end

end CT
