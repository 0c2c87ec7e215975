/- Clusters made of AMUSE particles (C132, C133). -/
import Verif.Spec.Amuse
import Verif.Props.Galpydf

namespace CT

noncomputable section

theorem amuseScaled_len (l v : ℝ) (ps : List APart) : (amuseScaled l v ps).Len ps.length := by
  refine ⟨?_, ?_, ?_, ?_, ?_, ?_, ?_, ?_⟩
  · simp [amuseScaled]
  · simp [amuseScaled]
  · simp [amuseScaled]
  · simp [amuseScaled]
  · simp [amuseScaled]
  · simp [amuseScaled]
  · intro k hk; cases hk; simp
  · intro k hk; cases hk; simp

/-- The columns as rows. -/
theorem amuseScaled_rows {l v : ℝ} {ps : List APart} {r : Run} (h : HasCols ps.length (amuseScaled l v ps) r) :
    r.base.st = ps.map (fun a => (a.p.mulPos l).mulVel v) ∧ r.base.m = ps.map (·.m) ∧ r.id = ps.map (·.key) := by
  have hq : ∀ (F : APart → ℝ) (i : ℕ) (hi : i < ps.length), (ps.map F)[i]! = F ps[i] := by
    intro F i hi
    rw [getElem!_pos _ i (by simpa using hi), List.getElem_map]
  refine ⟨?_, ?_, ?_⟩
  · apply List.ext_getElem
    · rw [h.st]; simp
    · intro i h1 h2
      have hi : i < ps.length := by rw [← h.st]; exact h1
      have := h.star i hi
      rw [getElem!_pos _ i h1] at this
      rw [this, List.getElem_map]
      simp only [amuseScaled, hq _ i hi]
      rfl
  · apply List.ext_getElem
    · rw [h.m]; simp
    · intro i h1 h2
      have hi : i < ps.length := by rw [← h.m]; exact h1
      have := h.mass i hi
      rw [getElem!_pos _ i h1] at this
      rw [this, List.getElem_map]
      simp only [amuseScaled, Option.map_some, Option.getD_some, hq _ i hi]
  · apply List.ext_getElem
    · rw [h.id]; simp
    · intro i h1 h2
      have hi : i < ps.length := by rw [← h.id]; exact h1
      have := h.ids _ rfl i hi ps[i].key (hq _ i hi)
      rw [getElem!_pos _ i h1] at this
      rw [this, List.getElem_map]

/-- What adding the particles gives. -/
theorem amuseTab_ok {g : Galpy} {A : ℝ} {u : Option Units} {f : Origin} {ps : List APart} (kw : Kw) (hg : g.Positive) (hu : AmuseUnits u)
    (hf : f.linear) (hp : PartsOk ps) (hA : A = kmsToPcMyr) :
    ∃ T, amuseTab g A u (some f) ps = .ok T ∧ Pos g T.base ∧ Lin T.base ∧ Good T.base ∧ Fresh T.base ∧
      T.base.units = some (u.getD .amuse) ∧ T.base.origin = some f ∧
      (∀ b : Cluster, b.units = T.base.units → b.m = T.base.m → b.st = T.base.st → ∃ P, phys g b = some P ∧ P.stars = ps.map (·.p) ∧
        P.mass = ps.map (·.m)) ∧
      T.id = ps.map (·.key) ∧ T.ntot = ps.length ∧ T.base.tphys = 0 := by
  have hn : 1 ≤ ps.length := List.length_pos_iff.mpr hp.1
  -- the four unit systems of numbers
  have key : ∀ (v : Units) (l w : ℝ), v.linear →
      ∃ T, addStars (amuseScaled l w ps).args 0 false true (blankTab (some v) (some f) 0) = .ok T ∧ Pos g T.base ∧ Lin T.base ∧ Good T.base ∧
        Fresh T.base ∧ T.base.units = some v ∧ T.base.origin = some f ∧ T.base.st = ps.map (fun a => (a.p.mulPos l).mulVel w) ∧
        T.base.m = ps.map (·.m) ∧ T.id = ps.map (·.key) ∧ T.ntot = ps.length ∧ T.base.tphys = 0 := by
    intro v l w hv
    obtain ⟨T, h1, h2, h3, h4, h5, h6, -, -, h7, h8⟩ := addTable (amuseScaled_len l w ps) hn (some v) (some f) kw
    have hx : ¬((some v : Option Units) = some .radec ∧ (some f : Option Origin) = some .sky) := by
      rintro ⟨e, -⟩
      cases e
      exact hv
    obtain ⟨e1, e2, e3⟩ := amuseScaled_rows (h8 T.base none rfl rfl)
    exact ⟨T, h1, (hg.pos (some v) (some f) (bunitsOfUnits (some v)) 0).of_rest (h5 hx), ⟨⟨v, h2, hv⟩, f, h3, hf⟩,
      h7 (by intro k hk; cases hk; exact hp.2), h6, h2, h3, e1, e2, e3, (h8 T.base none rfl rfl).ntot, h4⟩
  have hk := kms_ne
  -- AMUSE quantities
  have quant : ∃ T, amuseQuantities g (some f) ps = .ok T ∧ Pos g T.base ∧ Lin T.base ∧ Good T.base ∧ Fresh T.base ∧
      T.base.units = some .amuse ∧ T.base.origin = some f ∧
      (∀ b : Cluster, b.units = T.base.units → b.m = T.base.m → b.st = T.base.st → ∃ P, phys g b = some P ∧ P.stars = ps.map (·.p) ∧
        P.mass = ps.map (·.m)) ∧
      T.id = ps.map (·.key) ∧ T.ntot = ps.length ∧ T.base.tphys = 0 := by
    obtain ⟨T, h1, p1, l1, g1, f1, e1, e2, e3, e4, e5, e6, e7⟩ := key .pckms 1 1 trivial
    obtain ⟨b1, h2, g2⟩ := toAmuse_total (a := true) e1 trivial p1 g1
    have s2 := toAmuse_ustep e1 trivial h2
    obtain ⟨b2, h3, g3⟩ := analyze_total (s := false) (p := true) g2
    obtain ⟨k1, k2, k3, k4, k5, k6, k7, k8, k9, k10, k11, k12⟩ := core_fields (analyze_core h3)
    have ph : phys g b2 = phys g T.base := (phys_core (analyze_core h3)).trans s2.phys
    have ph1 : phys g T.base = some
        { time := T.base.tphys * 1, mass := T.base.m.map (· * 1), stars := T.base.st.map (Scale.ph ⟨1, 1, 1, 1⟩),
          centre := Scale.ph ⟨1, 1, 1, 1⟩ T.base.c, gc := Scale.ph ⟨1, 1, 1, 1⟩ T.base.gc } := by
      unfold phys
      rw [e1]
      rfl
    have hu2 : b2.units = some .amuse := k1.trans s2.units
    have ph2 : ∀ b : Cluster, b.units = some .amuse → phys g b = some
        { time := b.tphys * 1, mass := b.m.map (· * 1), stars := b.st.map (Scale.ph ⟨1, 1, 1, 1⟩),
          centre := Scale.ph ⟨1, 1, 1, 1⟩ b.c, gc := Scale.ph ⟨1, 1, 1, 1⟩ b.gc } := by
      intro b hb
      unfold phys
      rw [hb]
      rfl
    have hst : b2.st.map (Scale.ph ⟨1, 1, 1, 1⟩) = ps.map (·.p) ∧ b2.m.map (· * 1) = ps.map (·.m) ∧ b2.tphys * 1 = 0 := by
      have e := (ph2 b2 hu2).symm.trans (ph.trans ph1)
      simp only [Option.some.injEq, Phys.mk.injEq] at e
      obtain ⟨q1, q2, q3, -⟩ := e
      refine ⟨q3.trans ?_, q2.trans ?_, q1.trans ?_⟩
      · rw [e3, List.map_map]
        apply List.map_congr_left
        intro a _
        simp [Function.comp, Scale.ph, Ph.mulPos, Ph.mulVel]
      · rw [e4]; simp
      · rw [e7]; simp
    refine ⟨{ T with base := b2 }, ?_, (p1.of_rest s2.rest).of_rest k12, ⟨⟨.amuse, hu2, trivial⟩, f, ?_, hf⟩, g3, analyze_fresh h3, hu2, ?_, ?_,
      e5, e6, ?_⟩
    · unfold amuseQuantities
      simp only [convertAmuse, h1, h2, h3, bind, Except.bind, pure, Except.pure]
    · exact (k2.trans s2.origin).trans e2
    · exact (k2.trans s2.origin).trans e2
    · intro b hb1 hb2 hb3
      refine ⟨_, ph2 b (hb1.trans hu2), ?_, ?_⟩
      · show b.st.map _ = _
        rw [hb3]; exact hst.1
      · show b.m.map _ = _
        rw [hb2]; exact hst.2.1
    · show b2.tphys = 0
      simpa using hst.2.2
  -- from scaled numbers back to pc and km/s
  have back : ∀ (v : Units) (l w a : ℝ) (s t : ℝ), v ≠ .amuse → v.linear → convertAmuse A v ps = .ok (amuseScaled l w ps) →
      (∀ b : Cluster, unitScale g b v = some ⟨s, t, 1, a⟩) → l * s = 1 → w * t = 1 →
      ∃ T, amuseTab g A (some v) (some f) ps = .ok T ∧ Pos g T.base ∧ Lin T.base ∧ Good T.base ∧ Fresh T.base ∧
      T.base.units = some v ∧ T.base.origin = some f ∧
      (∀ b : Cluster, b.units = T.base.units → b.m = T.base.m → b.st = T.base.st → ∃ P, phys g b = some P ∧ P.stars = ps.map (·.p) ∧
        P.mass = ps.map (·.m)) ∧
      T.id = ps.map (·.key) ∧ T.ntot = ps.length ∧ T.base.tphys = 0 := by
    intro v l w a s t hv hl hc hs h1 h2
    obtain ⟨T, k1, p1, l1, g1, f1, e1, e2, e3, e4, e5, e6, e7⟩ := key v l w hl
    refine ⟨T, ?_, p1, l1, g1, f1, e1, e2, ?_, e5, e6, e7⟩
    · unfold amuseTab
      simp only [Option.elim_some, if_neg hv, hc, bind, Except.bind]
      exact k1
    · intro b hb1 hb2 hb3
      refine ⟨_, by unfold phys; rw [hb1, e1]; simp only [hs]; rfl, ?_, ?_⟩
      · show b.st.map (Scale.ph ⟨s, t, 1, a⟩) = _
        rw [hb3, e3, List.map_map]
        apply List.map_congr_left
        intro q _
        simp only [Function.comp, Scale.ph, Ph.mulPos, Ph.mulVel, mul_assoc, h1, h2, mul_one]
      · show b.m.map (· * 1) = _
        rw [hb2, e4]; simp
  rcases hu with rfl | rfl | rfl | rfl | rfl | rfl
  · exact back .pckms 1 1 1 1 1 (by decide) trivial rfl (fun _ => rfl) (by norm_num) (by norm_num)
  · exact back .kpckms (1 / 1000) 1 1000 1000 1 (by decide) trivial rfl (fun _ => rfl) (by norm_num) (by norm_num)
  · exact back .kpcgyr (1 / 1000) A _ 1000 (1 / kmsToPcMyr) (by decide) trivial rfl (fun _ => rfl) (by norm_num)
      (by rw [hA]; field_simp)
  · exact back .pcmyr 1 A _ 1 (1 / kmsToPcMyr) (by decide) trivial rfl (fun _ => rfl) (by norm_num)
      (by rw [hA]; field_simp)
  · exact quant
  · exact quant

/-- What `_get_amuse_particles` gives. -/
theorem getAmuse_ok {g : Galpy} {fc : Cluster → Except Err Cluster} {A : ℝ} {u : Option Units} {f : Origin} {ps : List APart} {kw : Kw}
    (hg : g.Positive) (hfc : CentreFinder g fc) (hu : AmuseUnits u) (hf : f.linear) (hp : PartsOk ps) (hA : A = kmsToPcMyr)
    (ht : kw.tphys = none) :
    ∃ r, getAmuse g fc A ps u (some f) none kw = .ok r ∧ HasParticles g u f ps r ∧ r.base.tphys = 0 ∧
      ∃ T b, r = { runOf kw (some (u.getD .amuse)) (some f) T [] b with ofile := none } := by
  obtain ⟨T, h1, p1, l1, g1, f1, e1, e2, e3, e4, e5, e6⟩ := amuseTab_ok kw hg hu hf hp hA
  obtain ⟨b, h9, s1, s2, s3, s4, s5⟩ := settleGalpy_ok hfc (kw := kw) (o := some f) p1 l1 g1 f1 e2
  refine ⟨{ runOf kw (some (u.getD .amuse)) (some f) T [] b with ofile := none }, ?_, ⟨?_, e4, e5, s1.trans e1, s2.trans e2⟩, s5.trans e6, T, b, rfl⟩
  · unfold getAmuse
    rw [ht]
    simp only [h1, h9, bind, Except.bind, pure, Except.pure, Option.isSome_none, Bool.false_eq_true, if_false]
  · exact e3 b s1 s3 s4

/-- **C132 (particles).**  In `pckms`, `kpckms`, `kpcgyr`, `pcmyr` and in AMUSE's own units a cluster of AMUSE particles has one star per
particle, in the same order, which is where the particle is, moves and weighs as it does, and has its key as id; the label of the
units, and the origin, are those asked for.  It is assumed that AMUSE and clustertools use the same number of pc/Myr in a km/s, that
no file has the default name, and that the centre can be found. -/
theorem C132_particles {g : Galpy} {fc : Cluster → Except Err Cluster} {A : ℝ} {fs : AFS} {u : Option Units} {f : Origin} {ps : List APart}
    {kw : Kw} (hg : g.Positive) (hfc : CentreFinder g fc) (hu : AmuseUnits u) (hf : f.linear) (hp : PartsOk ps) (hA : A = kmsToPcMyr)
    (ht : kw.tphys = none) (hno : ∀ nm, fs.file nm = none) :
    ∃ r, loadAmuse g fc A fs (some ps) none u (some f) none kw = .ok r ∧ HasParticles g u f ps r := by
  obtain ⟨r, h, k, -⟩ := getAmuse_ok (kw := kw) hg hfc hu hf hp hA ht
  refine ⟨r, ?_, k⟩
  unfold loadAmuse amuseFile
  simp only [hno, Option.elim_none, Option.or_none, Option.isSome_none, Bool.false_eq_true, if_false, Option.elim_some]
  exact h

/-- The options in force after loading with `kw` and advancing without arguments: the numbers go up by one. -/
theorem amuse_advKw {kw : Kw} {u : Option Units} {o : Option Origin} {T : Tab} {b : Cluster} {fl : Option (List Line)} {z : ℕ} {w : String}
    (hz : kw.nzfill = some z) (hw : kw.wdir = some w) :
    (advKw {} { runOf kw u o T [] b with ofile := fl }).nsnap = some (kw.nsnap.getD 0 + 1) ∧
      (advKw {} { runOf kw u o T [] b with ofile := fl }).nzfill = some z ∧
      (advKw {} { runOf kw u o T [] b with ofile := fl }).wdir = some w ∧
      (advKw {} { runOf kw u o T [] b with ofile := fl }).snapdir.getD "" = kw.snapdir.getD "" ∧
      (advKw {} { runOf kw u o T [] b with ofile := fl }).snapbase.getD "" = kw.snapbase.getD "" ∧
      (advKw {} { runOf kw u o T [] b with ofile := fl }).snapend.getD ".dat" = kw.snapend.getD ".dat" ∧
      (advKw {} { runOf kw u o T [] b with ofile := fl }).tphys = none := by
  refine ⟨?_, ?_, ?_, ?_, ?_, ?_, rfl⟩
  · simp [advKw, runOf]
  · simp [advKw, runOf, hz]
  · simp [advKw, runOf, hw]
  · simp [advKw, runOf]
  · simp [advKw, runOf]
  · simp [advKw, runOf]

theorem amuseFile_none {fs : AFS} {kw : Kw} {z : ℕ} {w : String} (hz : kw.nzfill = some z) (hw : kw.wdir = some w) :
    amuseFile fs none kw = (fs.file (numbered w (kw.snapdir.getD "") (kw.snapbase.getD "") (kw.snapend.getD ".dat") z (kw.nsnap.getD 0))).or
      (fs.file (numberedTop w (kw.snapbase.getD "") (kw.snapend.getD ".dat") z (kw.nsnap.getD 0))) := by
  unfold amuseFile numbered numberedTop
  rw [hz, hw]
  rfl

/-- Advancing through numbered files, from any cluster that was read from number `n`. -/
theorem advanceAmuseMany_ok {g : Galpy} {fc : Cluster → Except Err Cluster} {fs : AFS} {u : Option Units} {f : Origin} {z : ℕ}
    {w sd base ext : String} {ps : ℕ → List APart} (hg : g.Positive) (hfc : CentreFinder g fc) (hu : AmuseUnits u) (hf : f.linear) (k : ℕ) :
    ∀ (n : ℕ) (kw : Kw) (T : Tab) (b : Cluster), (∀ j, n + 1 ≤ j → j ≤ n + k → fs.file (numbered w sd base ext z j) = some (ps j) ∧ PartsOk (ps j)) →
      kw.nzfill = some z → kw.wdir = some w → kw.snapdir.getD "" = sd → kw.snapbase.getD "" = base → kw.snapend.getD ".dat" = ext →
      kw.nsnap.getD 0 = n →
      ∃ r, advanceAmuseMany g fc kmsToPcMyr fs {} k { runOf kw (some (u.getD .amuse)) (some f) T [] b with ofile := none } = .ok r ∧
        (0 < k → HasParticles g u f (ps (n + k)) r ∧ r.base.tphys = 0) ∧
        ∃ kw' T' b', r = { runOf kw' (some (u.getD .amuse)) (some f) T' [] b' with ofile := none } ∧
          kw'.nzfill = some z ∧ kw'.wdir = some w ∧ kw'.snapdir.getD "" = sd ∧ kw'.snapbase.getD "" = base ∧
          kw'.snapend.getD ".dat" = ext ∧ kw'.nsnap.getD 0 = n + k ∧ (k = 0 → T' = T ∧ b' = b ∧ kw' = kw) := by
  have hu2 : AmuseUnits (some (u.getD .amuse)) := by
    rcases hu with rfl | rfl | rfl | rfl | rfl | rfl <;> simp [AmuseUnits]
  induction k with
  | zero =>
    intro n kw T b _ h1 h2 h3 h4 h5 h6
    exact ⟨_, rfl, fun h => absurd h (lt_irrefl _), kw, T, b, rfl, h1, h2, h3, h4, h5, h6, fun _ => ⟨rfl, rfl, rfl⟩⟩
  | succ k ih =>
    intro n kw T b hfiles h1 h2 h3 h4 h5 h6
    obtain ⟨a1, a2, a3, a4, a5, a6, a7⟩ := amuse_advKw (kw := kw) (u := some (u.getD .amuse)) (o := some f) (T := T) (b := b) (fl := none) h1 h2
    obtain ⟨hfile, hok⟩ := hfiles (n + 1) le_rfl (by omega)
    obtain ⟨r1, q1, q2, q3, T1, b1, q4⟩ := getAmuse_ok (u := some (u.getD .amuse)) (f := f)
      (kw := advKw {} { runOf kw (some (u.getD .amuse)) (some f) T [] b with ofile := none }) hg hfc hu2 hf hok rfl a7
    have step : advanceAmuse g fc kmsToPcMyr fs none {} none { runOf kw (some (u.getD .amuse)) (some f) T [] b with ofile := none } = .ok r1 := by
      unfold advanceAmuse
      rw [amuseFile_none a2 a3, a4, a5, a6, a1, h3, h4, h5, h6]
      simp only [Option.getD_some, hfile, Option.some_or, Option.elim_some, Option.or_none]
      exact q1
    obtain ⟨r, m1, m2, kw', T', b', m3, m4, m5, m6, m7, m8, m9, m10⟩ := ih (n + 1)
      (advKw {} { runOf kw (some (u.getD .amuse)) (some f) T [] b with ofile := none }) T1 b1
      (fun j hj1 hj2 => hfiles j (by omega) (by omega)) a2 a3 (a4.trans h3) (a5.trans h4) (a6.trans h5) (by rw [a1, h6]; rfl)
    refine ⟨r, ?_, ?_, kw', T', b', m3, m4, m5, m6, m7, m8, by rw [m9]; omega, by intro h; omega⟩
    · unfold advanceAmuseMany
      simp only [step, bind, Except.bind]
      rw [q4]
      exact m1
    · intro _
      by_cases hk : 0 < k
      · have := m2 hk
        rw [show n + (k + 1) = n + 1 + k by omega]
        exact this
      · have hk0 : k = 0 := by omega
        obtain ⟨t1, t2, t3⟩ := m10 hk0
        have er : r = r1 := by rw [m3, t1, t2, t3, q4]; rfl
        subst hk0
        rw [er]
        exact ⟨⟨q2.stars, q2.id, q2.ntot, q2.units, q2.origin⟩, q3⟩

/-- **C132 (files).**  With the working directory and the width of the numbers given, loading file number `n` and advancing `k` times
gives the particles of file number `n + k`, whatever the number of advances. -/
theorem C132_files {g : Galpy} {fc : Cluster → Except Err Cluster} {fs : AFS} {u : Option Units} {f : Origin} {z n k : ℕ}
    {w sd base ext : String} {ps : ℕ → List APart} (hg : g.Positive) (hfc : CentreFinder g fc) (hu : AmuseUnits u) (hf : f.linear)
    (hfiles : ∀ j, n ≤ j → j ≤ n + k → fs.file (numbered w sd base ext z j) = some (ps j) ∧ PartsOk (ps j)) :
    ∃ r r', loadAmuse g fc kmsToPcMyr fs none none u (some f) none
        { nsnap := some n, nzfill := some z, wdir := some w, snapdir := some sd, snapbase := some base, snapend := some ext } = .ok r ∧
      advanceAmuseMany g fc kmsToPcMyr fs {} k r = .ok r' ∧ HasParticles g u f (ps (n + k)) r' := by
  obtain ⟨kw, hkw⟩ : ∃ kw : Kw, kw = { nsnap := some n, nzfill := some z, wdir := some w, snapdir := some sd, snapbase := some base, snapend := some ext } :=
    ⟨_, rfl⟩
  obtain ⟨h0, h00⟩ := hfiles n le_rfl (by omega)
  obtain ⟨r, h, q, -, T, b, hr⟩ := getAmuse_ok (kw := kw) hg hfc hu hf h00 rfl (by rw [hkw])
  obtain ⟨r', m1, m2, kw', T', b', m3, -, -, -, -, -, -, m4⟩ := advanceAmuseMany_ok (fs := fs) (ps := ps) (w := w) (sd := sd) (base := base) (ext := ext)
    hg hfc hu hf k n kw T b (fun j h1 h2 => hfiles j (by omega) h2) (by rw [hkw]) (by rw [hkw]) (by rw [hkw]; rfl) (by rw [hkw]; rfl) (by rw [hkw]; rfl)
    (by rw [hkw]; rfl)
  refine ⟨r, r', ?_, by rw [hr]; exact m1, ?_⟩
  · rw [← hkw]
    unfold loadAmuse
    rw [amuseFile_none (z := z) (w := w) (by rw [hkw]) (by rw [hkw])]
    have e : fs.file (numbered w (kw.snapdir.getD "") (kw.snapbase.getD "") (kw.snapend.getD ".dat") z (kw.nsnap.getD 0)) = some (ps n) := by
      rw [hkw]; exact h0
    rw [e]
    simp only [Option.some_or, Option.elim_some]
    exact h
  · by_cases hk : 0 < k
    · exact (m2 hk).1
    · have hk0 : k = 0 := by omega
      obtain ⟨t1, t2, t3⟩ := m4 hk0
      rw [m3, t1, t2, t3, ← hr, hk0]
      exact q

/-- **C132 (named file).**  A file that is named and exists is the one read, whatever other files there are and whatever particles are given. -/
theorem C132_named_file {g : Galpy} {fc : Cluster → Except Err Cluster} {fs : AFS} {u : Option Units} {f : Origin} {nm : String}
    {given : Option (List APart)} {ps : List APart} {kw : Kw} (hg : g.Positive) (hfc : CentreFinder g fc) (hu : AmuseUnits u) (hf : f.linear)
    (hp : PartsOk ps) (ht : kw.tphys = none) (hfile : fs.file nm = some ps) :
    ∃ r, loadAmuse g fc kmsToPcMyr fs given (some nm) u (some f) none kw = .ok r ∧ HasParticles g u f ps r := by
  obtain ⟨r, h, k, -⟩ := getAmuse_ok (kw := kw) hg hfc hu hf hp rfl ht
  refine ⟨r, ?_, k⟩
  unfold loadAmuse amuseFile
  simp only [Option.elim_some, hfile, Option.some_or]
  exact h

/-- **C132 (no such file).**  A file that is named and does not exist is an `OSError`, when loading and when advancing; particles given
are not used instead. -/
theorem C132_no_such_file {g : Galpy} {fc : Cluster → Except Err Cluster} {A : ℝ} {fs : AFS} {u : Option Units} {o : Option Origin} {nm : String}
    {given : Option (List APart)} {kw a : Kw} {ofile : Option (List Line)} {r : Run} (hno : ∀ nm, fs.file nm = none) :
    loadAmuse g fc A fs given (some nm) u o ofile kw = .error .osError ∧ advanceAmuse g fc A fs (some nm) a ofile r = .error .osError := by
  constructor
  · unfold loadAmuse amuseFile
    simp [hno]
  · unfold advanceAmuse amuseFile
    simp [hno]

/-! ### what goes wrong -/

/-- **C133 (violated: units).**  In N-body, galpy, WD or sky units (and for unknown labels) particles cannot be loaded: `NameError`. -/
theorem C133_units_violated {g : Galpy} {fc : Cluster → Except Err Cluster} {A : ℝ} {u : Units} {o : Option Origin} {ps : List APart} {kw : Kw}
    {ofile : Option (List Line)} (hu : ¬AmuseUnits (some u)) (ht : kw.tphys = none) :
    getAmuse g fc A ps (some u) o ofile kw = .error .nameError := by
  unfold getAmuse amuseTab
  rw [ht]
  have h : u ≠ .amuse := by rintro rfl; exact hu (by simp [AmuseUnits])
  have e : convertAmuse A u ps = .error .nameError := by
    unfold convertAmuse
    split
    · exact absurd (by simp [AmuseUnits]) hu
    · exact absurd (by simp [AmuseUnits]) hu
    · exact absurd (by simp [AmuseUnits]) hu
    · exact absurd (by simp [AmuseUnits]) hu
    · rfl
  simp only [Option.elim_some, if_neg h, e, bind, Except.bind, Option.isSome_none, Bool.false_eq_true, if_false, pure, Except.pure]

/-- **C133 (violated: orbit file).**  With an orbit file the call raises `NameError`, in every frame of the cluster. -/
theorem C133_ofile_violated {g : Galpy} {fc : Cluster → Except Err Cluster} {A : ℝ} {u : Option Units} {f : Origin} {ps : List APart} {kw : Kw}
    {L : List Line} (hg : g.Positive) (hfc : CentreFinder g fc) (hu : AmuseUnits u) (hf : f.linear) (hp : PartsOk ps) (hA : A = kmsToPcMyr)
    (ht : kw.tphys = none) : getAmuse g fc A ps u (some f) (some L) kw = .error .nameError := by
  obtain ⟨T, h1, p1, l1, g1, f1, e1, e2, -⟩ := amuseTab_ok kw hg hu hf hp hA
  obtain ⟨c1, k1, k2, -⟩ := hfc T.base p1 l1 g1 f1
  unfold getAmuse settleGalpy
  rw [ht]
  simp only [h1, bind, Except.bind, Option.isSome_none, Bool.false_eq_true, if_false]
  by_cases h2 : (some f : Option Origin) = some .galaxy
  · rw [if_pos h2]; rfl
  · have h3 : (some f : Option Origin) = some .cluster ∨ (some f : Option Origin) = some .centre := by
      cases f <;> simp_all [Origin.linear]
    rw [if_neg h2, if_pos h3]
    obtain ⟨c2, k3⟩ : ∃ c2, analyzeKw kw c1 = .ok c2 := by
      unfold analyzeKw
      split
      · obtain ⟨b, hb, -⟩ := analyze_total (s := kw.sort.getD true) (p := true) k2.good
        exact ⟨b, hb⟩
      · exact ⟨_, rfl⟩
    simp only [k1, k3, Option.isSome_some, if_true]
    rfl

/-- **C133 (violated: a file of the default name).**  If there is a file called `0.dat`, the particles given are ignored: the cluster
is made of those in the file. -/
theorem C133_default_file_violated {g : Galpy} {fc : Cluster → Except Err Cluster} {A : ℝ} {fs : AFS} {u : Option Units} {f : Origin}
    {given stored : List APart} (hg : g.Positive) (hfc : CentreFinder g fc) (hu : AmuseUnits u) (hf : f.linear) (hp : PartsOk stored)
    (hA : A = kmsToPcMyr) (hfile : fs.file "0.dat" = some stored) :
    ∃ r, loadAmuse g fc A fs (some given) none u (some f) none {} = .ok r ∧ HasParticles g u f stored r := by
  obtain ⟨r, h, k, -⟩ := getAmuse_ok (kw := {}) hg hfc hu hf hp hA rfl
  refine ⟨r, ?_, k⟩
  unfold loadAmuse amuseFile
  have e : dirSlash ((none : Option String).getD "") ++ (dirSlash ((none : Option String).getD "") ++ ((none : Option String).getD "" ++
    (zfill ((none : Option ℕ).getD 1) ((none : Option ℕ).getD 0) ++ (none : Option String).getD ".dat"))) = "0.dat" := by decide
  simp only [Option.elim_none]
  rw [e, hfile]
  simp only [Option.some_or, Option.elim_some]
  exact h

/-- **C133 (violated: width of the numbers).**  Without the option `nzfill` the file loaded is `…/n.dat` and the file looked for when
advancing is `…/0000(n+1).dat`: after loading `0.dat` the cluster is not advanced to `1.dat`, it stays the same. -/
theorem C133_numbering_violated {g : Galpy} {fc : Cluster → Except Err Cluster} {A : ℝ} {fs : AFS} {u : Option Units} {f : Origin}
    {p0 p1 : List APart} (hg : g.Positive) (hfc : CentreFinder g fc) (hu : AmuseUnits u) (hf : f.linear) (hp : PartsOk p0)
    (hA : A = kmsToPcMyr) (hfile : ∀ nm, fs.file nm = if nm = "w/0.dat" then some p0 else if nm = "w/1.dat" then some p1 else none) :
    ∃ r, loadAmuse g fc A fs none none u (some f) none { wdir := some "w" } = .ok r ∧ HasParticles g u f p0 r ∧
      advanceAmuse g fc A fs none {} none r = .ok r := by
  obtain ⟨r, h, k, -, T, b, hr⟩ := getAmuse_ok (kw := { wdir := some "w" }) hg hfc hu hf hp hA rfl
  refine ⟨r, ?_, k, ?_⟩
  · unfold loadAmuse amuseFile
    have e : dirSlash ((some "w" : Option String).getD "") ++ (dirSlash ((none : Option String).getD "") ++ ((none : Option String).getD "" ++
      (zfill ((none : Option ℕ).getD 1) ((none : Option ℕ).getD 0) ++ (none : Option String).getD ".dat"))) = "w/0.dat" := by decide
    simp only [Option.elim_none]
    rw [e, hfile, if_pos rfl]
    simp only [Option.some_or, Option.elim_some]
    exact h
  · unfold advanceAmuse
    rw [amuseFile_none (z := 5) (w := "w") (by rw [hr]; rfl) (by rw [hr]; rfl)]
    have e0 : (advKw {} r).snapdir.getD "" = "" ∧ (advKw {} r).snapbase.getD "" = "" ∧ (advKw {} r).snapend.getD ".dat" = ".dat" ∧
        (advKw {} r).nsnap.getD 0 = 1 := by rw [hr]; exact ⟨rfl, rfl, rfl, rfl⟩
    have e1 : numbered "w" ((advKw {} r).snapdir.getD "") ((advKw {} r).snapbase.getD "") ((advKw {} r).snapend.getD ".dat") 5 ((advKw {} r).nsnap.getD 0) =
      "w/00001.dat" := by rw [e0.1, e0.2.1, e0.2.2.1, e0.2.2.2]; decide
    have e2 : numberedTop "w" ((advKw {} r).snapbase.getD "") ((advKw {} r).snapend.getD ".dat") 5 ((advKw {} r).nsnap.getD 0) = "w/00001.dat" := by
      rw [e0.2.1, e0.2.2.1, e0.2.2.2]; decide
    rw [e1, e2, hfile, if_neg (by decide), if_neg (by decide)]
    simp only [Option.or_none, Option.elim_none, Option.isSome_none, Bool.false_eq_true, if_false]
    rw [hr]
    rfl

/-- **C133 (violated: the end).**  When there is no next file the old cluster is returned, with all its stars, however often it is
advanced: the end of the run does not show, unlike for the other kinds of input, which give a cluster without stars. -/
theorem C133_end_violated {g : Galpy} {fc : Cluster → Except Err Cluster} {A : ℝ} {fs : AFS} {r : Run}
    (hno : fs.file (numbered r.wdir r.snapdir r.snapbase r.snapend r.nzfill (r.nsnap + 1)) = none)
    (hno2 : fs.file (numberedTop r.wdir r.snapbase r.snapend r.nzfill (r.nsnap + 1)) = none) (k : ℕ) :
    advanceAmuseMany g fc A fs {} k r = .ok r := by
  induction k with
  | zero => rfl
  | succ k ih =>
    have step : advanceAmuse g fc A fs none {} none r = .ok r := by
      unfold advanceAmuse
      rw [amuseFile_none (z := r.nzfill) (w := r.wdir) rfl rfl]
      have e : (advKw {} r).nsnap.getD 0 = r.nsnap + 1 := by simp [advKw]
      have e1 : (advKw {} r).snapdir.getD "" = r.snapdir := rfl
      have e2 : (advKw {} r).snapbase.getD "" = r.snapbase := rfl
      have e3 : (advKw {} r).snapend.getD ".dat" = r.snapend := rfl
      rw [e, e1, e2, e3, hno, hno2]
      simp only [Option.elim_none, Option.or_none, Option.isSome_none, Bool.false_eq_true, if_false, Option.none_or]
    unfold advanceAmuseMany
    simp only [step, bind, Except.bind]
    exact ih

/-- **C133 (violated: time).**  The age of the cluster stays 0 however many snapshots it is advanced by, and an age cannot be passed
(`TypeError`). -/
theorem C133_time_violated {g : Galpy} {fc : Cluster → Except Err Cluster} {fs : AFS} {u : Option Units} {f : Origin} {z n k : ℕ}
    {w sd base ext : String} {ps : ℕ → List APart} (hg : g.Positive) (hfc : CentreFinder g fc) (hu : AmuseUnits u) (hf : f.linear)
    (hfiles : ∀ j, n ≤ j → j ≤ n + k → fs.file (numbered w sd base ext z j) = some (ps j) ∧ PartsOk (ps j)) :
    (∃ r r', loadAmuse g fc kmsToPcMyr fs none none u (some f) none
        { nsnap := some n, nzfill := some z, wdir := some w, snapdir := some sd, snapbase := some base, snapend := some ext } = .ok r ∧
      advanceAmuseMany g fc kmsToPcMyr fs {} k r = .ok r' ∧ r'.base.tphys = 0) ∧
    ∀ (kw : Kw) (A : ℝ) (l : List APart) (ofile : Option (List Line)), kw.tphys.isSome → getAmuse g fc A l u (some f) ofile kw = .error .typeError := by
  constructor
  · obtain ⟨r, r', h1, h2, -⟩ := C132_files hg hfc hu hf hfiles
    refine ⟨r, r', h1, h2, ?_⟩
    obtain ⟨kw, hkw⟩ : ∃ kw : Kw, kw = { nsnap := some n, nzfill := some z, wdir := some w, snapdir := some sd, snapbase := some base, snapend := some ext } :=
      ⟨_, rfl⟩
    obtain ⟨h0, h00⟩ := hfiles n le_rfl (by omega)
    obtain ⟨s, h, -, q, T, b, hr⟩ := getAmuse_ok (kw := kw) hg hfc hu hf h00 rfl (by rw [hkw])
    have hs : r = s := by
      rw [← hkw] at h1
      unfold loadAmuse at h1
      rw [amuseFile_none (z := z) (w := w) (by rw [hkw]) (by rw [hkw])] at h1
      have e : fs.file (numbered w (kw.snapdir.getD "") (kw.snapbase.getD "") (kw.snapend.getD ".dat") z (kw.nsnap.getD 0)) = some (ps n) := by
        rw [hkw]; exact h0
      rw [e] at h1
      simp only [Option.some_or, Option.elim_some] at h1
      rw [h] at h1
      exact (Except.ok.inj h1).symm
    obtain ⟨r2, m1, m2, kw', T', b', m3, -, -, -, -, -, -, m4⟩ := advanceAmuseMany_ok (fs := fs) (ps := ps) (w := w) (sd := sd) (base := base) (ext := ext)
      hg hfc hu hf k n kw T b (fun j h1 h2 => hfiles j (by omega) h2) (by rw [hkw]) (by rw [hkw]) (by rw [hkw]; rfl) (by rw [hkw]; rfl) (by rw [hkw]; rfl)
      (by rw [hkw]; rfl)
    have h3 : r2 = r' := by
      rw [hs, hr] at h2
      exact Except.ok.inj (m1.symm.trans h2)
    rw [← h3]
    by_cases hk : 0 < k
    · exact (m2 hk).2
    · obtain ⟨t1, t2, t3⟩ := m4 (by omega)
      rw [m3, t1, t2, t3, ← hr]
      exact q
  · intro kw A l ofile ht
    unfold getAmuse
    rw [if_pos ht]
    rfl

/-! ### a concrete case -/

/-- Two particles. -/
def demoParts : List APart := [⟨7, 1, ⟨2, 0, 0, 0, 3, 0⟩⟩, ⟨9, 2, ⟨-1, 1, 0, 1, 0, 0⟩⟩]

example : PartsOk demoParts := by
  refine ⟨by simp [demoParts], ?_⟩
  norm_num [demoParts]

example : ∃ r P, loadAmuse demoG (findCentreDefault demoG) kmsToPcMyr ⟨fun _ => none⟩ (some demoParts) none (some .kpcgyr) (some .cluster) none {} = .ok r ∧
    phys demoG r.base = some P ∧ P.stars = [⟨2, 0, 0, 0, 3, 0⟩, ⟨-1, 1, 0, 1, 0, 0⟩] ∧ P.mass = [1, 2] ∧ r.id = [7, 9] := by
  obtain ⟨r, h, k⟩ := C132_particles (A := kmsToPcMyr) (fs := ⟨fun _ => none⟩) (u := some .kpcgyr) (f := .cluster) (ps := demoParts) (kw := {})
    demoG_positive (findCentreDefault_ok _) (by simp [AmuseUnits]) trivial ⟨by simp [demoParts], by norm_num [demoParts]⟩ rfl rfl (fun _ => rfl)
  obtain ⟨P, h1, h2, h3⟩ := k.stars
  refine ⟨r, P, h, h1, ?_, ?_, ?_⟩
  · rw [h2]; rfl
  · rw [h3]; rfl
  · rw [k.id]; rfl

end

end CT
