/- C100: reading the snapshots of a gyrfalcON simulation one after the other. -/
import Verif.Lemmas.Gyr

namespace CT

noncomputable section

/-- What a cluster remembers of the keyword arguments it was read with. -/
structure GyrKept (kw : Kw) (skip : ℕ) (u : Option Units) (o : Option Origin) (r : Run) : Prop where
  units : r.unitsInit = u
  origin : r.originInit = o
  nsnap : r.nsnap = kw.nsnap.getD 0
  nzfill : r.nzfill = kw.nzfill.getD 5
  wdir : r.wdir = kw.wdir.getD "./"
  snapdir : r.snapdir = kw.snapdir.getD ""
  snapbase : r.snapbase = kw.snapbase.getD ""
  snapend : r.snapend = kw.snapend.getD ".dat"
  skiprows : r.skiprows = skip

/-- The columns read besides mass, position and velocity. -/
structure HasExtra (give : Option String) (s : GSnap) (r : GyrRun) : Prop where
  eps12 : give = some "mxvpqael" → r.eps = some (s.rows.map (fun l => l[10]!))
  eps8 : give = some "mxve" → r.eps = some (s.rows.map (fun l => l[7]!))
  none7 : give ≠ some "mxvpqael" → give ≠ some "mxve" → r.eps = none
  gyr12 : give = some "mxvpqael" → r.gyr = some (s.rows.map (fun l => l[7]!), s.rows.map (fun l => l[8]!), s.rows.map (fun l => l[9]!), s.rows.map (fun l => l[11]!))
  gyr7 : give ≠ some "mxvpqael" → r.gyr = none

theorem map_cut {cols k : ℕ} (h : k < cols) (rows : List (List ℝ)) :
    (rows.map (cut cols)).map (fun l => l[k]!) = rows.map (fun l => l[k]!) := by
  rw [List.map_map]
  exact List.map_congr_left fun r _ => cut_get r h

theorem cols_pos (give : Option String) : 7 ≤ gyrCols give := by
  unfold gyrCols; split <;> [omega; (split <;> omega)]

/-- The end of both readers: rows with enough columns become the stars. -/
theorem gyrStars_ok {g : Galpy} {fc : Cluster → Except Err Cluster} (hg : g.Positive) (hfc : CentreFinder g fc) {k : GKw} {skip : ℕ} {id0 : ℤ}
    {u : Units} {o : Origin} {ofile : Option (List Line)} {adv : Bool} {τ : ℝ} {q : Ph} {s : GSnap} {t : ℝ} {sf : List Toks} {dt : Option ℝ}
    {n : ℤ} {rows : List (List ℝ)} (hn : 0 < n) (hu : u.linear) (ho : o = .galaxy ∨ o = .cluster) (hne : s.rows ≠ [])
    (hrows : ∀ j < gyrCols k.give, rows.map (fun l => l[j]!) = s.rows.map (fun l => l[j]!)) (hm : (0 : ℝ) ≤ (s.rows.map (fun l => l[0]!)).sum)
    (ok : OrbitOk k.kw adv ofile τ q) :
    ∃ r, gyrStars g fc k skip id0 (some u) (some o) ofile adv n t rows sf dt = .ok (r, ofile.map (List.drop (orbitLines k.kw adv))) ∧
      HasSnap id0 s r.run ∧ r.run.base.units = some u ∧ r.run.base.origin = some o ∧ (ofile.isSome → r.run.base.gc = q) ∧
      r.run.base.tphys = (if ofile.isSome ∧ k.kw.otime.getD false then τ else t) ∧ r.sfile = some sf ∧ r.dt = dt ∧
      GyrKept k.kw skip (some u) (some o) r.run ∧ HasExtra k.give s r := by
  have hlen : rows.length = s.rows.length := by
    have := congrArg List.length (hrows 0 (by have := cols_pos k.give; omega))
    simpa using this
  have hne' : rows ≠ [] := by
    intro e
    rw [e] at hlen
    exact hne (List.eq_nil_of_length_eq_zero hlen.symm)
  have hx : ¬((some u : Option Units) = some .radec ∧ (some o : Option Origin) = some .sky) := by
    rintro ⟨e, -⟩
    cases e
    exact hu
  have hol : o.linear := by rcases ho with rfl | rfl <;> trivial
  have hc := cols_pos k.give
  obtain ⟨T, h1, h2, h3, h4, h5, h6, h7, h8, -, -, h9, h10, h11⟩ := gyr_added id0 hne' (some u) (some o) t
  rw [hrows 0 (by omega)] at h3 h11
  have h2' : T.base.st = s.rows.map (fun l => ⟨l[1]!, l[2]!, l[3]!, l[4]!, l[5]!, l[6]!⟩) := by
    rw [h2]
    apply List.ext_getElem
    · simp [hlen]
    · intro i i1 i2
      have i3 : i < rows.length := by simpa using i1
      have i4 : i < s.rows.length := by simpa using i2
      have key : ∀ j < gyrCols k.give, (rows[i])[j]! = (s.rows[i])[j]! := by
        intro j hj
        have := congrArg (fun l : List ℝ => l[i]!) (hrows j hj)
        simp only [getElem!_pos (rows.map (fun l => l[j]!)) i (by simpa using i3),
          getElem!_pos (s.rows.map (fun l => l[j]!)) i (by simpa using i4), List.getElem_map] at this
        exact this
      simp only [List.getElem_map]
      rw [key 1 (by omega), key 2 (by omega), key 3 (by omega), key 4 (by omega), key 5 (by omega), key 6 (by omega)]
  obtain ⟨b, e1, k1, k2, k3, k4, k5, k6, -⟩ := gyrSettle_ok hfc (kw := k.kw) (adv := adv) (f := ofile) (t := τ) (q := q)
    ((hg.pos (some u) (some o) (bunitsOfUnits (some u)) t).of_rest (h7 hx)) ⟨⟨u, h4, hu⟩, o, h5, hol⟩ (h11 hm) h8 h5 ho ok
  unfold gyrStars
  rw [if_pos hn]
  simp only [h1, e1, bind, Except.bind, pure, Except.pure]
  refine ⟨_, rfl, ?_⟩
  have hw : ∀ r0 : GyrRun, (withExtra k.give rows r0).run = r0.run ∧ (withExtra k.give rows r0).sfile = r0.sfile ∧ (withExtra k.give rows r0).dt = r0.dt := by
    intro r0
    unfold withExtra
    split <;> [exact ⟨rfl, rfl, rfl⟩; (split <;> exact ⟨rfl, rfl, rfl⟩)]
  rw [(hw _).1, (hw _).2.1, (hw _).2.2]
  refine ⟨⟨h10.trans hlen, k4.trans h2', k3.trans h3, by rw [← hlen]; exact h9⟩, k1.trans h4, k2.trans h5, k5, by rw [← h6]; exact k6, rfl, rfl,
    ⟨rfl, rfl, rfl, rfl, rfl, rfl, rfl, rfl, rfl⟩, ?_⟩
  refine ⟨?_, ?_, ?_, ?_, ?_⟩
  · intro h
    rw [withExtra, if_pos h]
    have : gyrCols k.give = 12 := by rw [gyrCols, if_pos h]
    rw [← hrows 10 (by omega)]
  · intro h
    have h' : k.give ≠ some "mxvpqael" := by rw [h]; decide
    rw [withExtra, if_neg h', if_pos h]
    have : gyrCols k.give = 8 := by rw [gyrCols, if_neg h', if_pos h]
    rw [← hrows 7 (by omega)]
  · intro h h'
    rw [withExtra, if_neg h, if_neg h']
  · intro h
    rw [withExtra, if_pos h]
    have : gyrCols k.give = 12 := by rw [gyrCols, if_pos h]
    rw [← hrows 7 (by omega), ← hrows 8 (by omega), ← hrows 9 (by omega), ← hrows 11 (by omega)]
  · intro h
    rw [withExtra, if_neg h]
    split <;> rfl

/-- Reading the next snapshot of a file. -/
theorem getGyr_ok {g : Galpy} {fc : Cluster → Except Err Cluster} (hg : g.Positive) (hfc : CentreFinder g fc) {P : Parse} {T : List Toks} {k : GKw} {skip w : ℕ}
    {u : Units} {o : Origin} {ofile : Option (List Line)} {adv : Bool} {τ : ℝ} {q : Ph} {s : GSnap} {S : List GSnap} {f : List Toks}
    (hf : GyrStart P T skip w (s :: S) f) (hsk : k.kw.skiprows.getD 13 = skip) (hw : gyrCols k.give ≤ w) (hu : u.linear)
    (ho : o = .galaxy ∨ o = .cluster) (hm : (0 : ℝ) ≤ (s.rows.map (fun l => l[0]!)).sum) (ok : OrbitOk k.kw adv ofile τ q) :
    ∃ r L, getGyrfalcon g fc P k (some u) (some o) ofile adv f = .ok (r, ofile.map (List.drop (orbitLines k.kw adv))) ∧
      r.sfile = some L ∧ GyrStart P T skip w S L ∧ HasSnap 1 s r.run ∧ r.run.base.units = some u ∧ r.run.base.origin = some o ∧
      (ofile.isSome → r.run.base.gc = q) ∧ r.run.base.tphys = (if ofile.isSome ∧ k.kw.otime.getD false then τ else s.t) ∧ r.dt = none ∧
      GyrKept k.kw skip (some u) (some o) r.run ∧ HasExtra k.give s r := by
  cases hf with
  | @cons _ _ H B L hH hHl hne hB hlen hL =>
    have hn : (0 : ℤ) < (s.rows.length : ℤ) := by
      have := List.length_pos_iff.mpr hne
      omega
    obtain ⟨r, h1, h2, h3, h4, h5, h6, h7, h8, h9, h10⟩ := gyrStars_ok hg hfc (k := k) (skip := skip) (id0 := 1) (u := u) (o := o) (ofile := ofile)
      (adv := adv) (τ := τ) (q := q) (s := s) (t := s.t) (sf := L) (dt := none) (n := s.rows.length) (rows := s.rows.map (cut (gyrCols k.give)))
      hn hu ho hne (fun j hj => map_cut hj _) hm ok
    refine ⟨r, L, ?_, h7, hL, h2, h3, h4, h5, h6, h8, h9, h10⟩
    unfold getGyrfalcon
    rw [hsk, List.append_assoc]
    obtain ⟨d, F, hF, hd, hd'⟩ : ∃ d F, B ++ L = d :: F ∧ d ≠ [] ∧ "#" ∉ d := by
      generalize s.rows = rows at hB hne hlen
      cases hB with
      | nil => exact absurd rfl hne
      | @cons r d rows B h1 h2 =>
        refine ⟨d, B ++ L, rfl, ?_, hash_not_plain h1.plain⟩
        rintro rfl
        have e := h1.vals.length_eq
        have := hlen r (by simp)
        have := cols_pos k.give
        simp only [List.length_nil] at e
        omega
    have hb := gyrBody_rows L hB (cols := gyrCols k.give) (fun r hr => by rw [hlen r hr]; exact hw)
    rw [hF] at hb ⊢
    rw [gyrHead_upto hH hHl _ _ hd hd']
    simp only [bind, Except.bind, Option.elim_some, Int.toNat_natCast]
    have hb' : gyrBody P (gyrCols k.give) s.rows.length (if H.length = skip then none else some d) (if H.length = skip then d :: F else F) =
        .ok (s.rows.map (cut (gyrCols k.give)), L) := by
      by_cases hs : H.length = skip
      · rw [if_pos hs, if_pos hs]
        exact hb
      · rw [if_neg hs, if_neg hs]
        obtain ⟨j, hj⟩ : ∃ j, s.rows.length = j + 1 := ⟨s.rows.length - 1, by have := List.length_pos_iff.mpr hne; omega⟩
        rw [hj, gyrBody_over, ← hj]
        exact hb
    rw [hb']
    exact h1

/-- Reading at the end of the file. -/
theorem getGyr_end {g : Galpy} {fc : Cluster → Except Err Cluster} {P : Parse} {k : GKw} {u : Option Units} {o : Option Origin}
    {ofile : Option (List Line)} {adv : Bool} (hsk : 0 < k.kw.skiprows.getD 13) :
    getGyrfalcon g fc P k u o ofile adv [] = .ok (emptyGyr k, ofile) := by
  unfold getGyrfalcon
  rw [gyrHead_end hsk]
  rfl

theorem gyrFile_congr {fs : GFS} {a b : Kw} (h1 : a.nsnap = b.nsnap) (h2 : a.nzfill = b.nzfill) (h3 : a.wdir = b.wdir) (h4 : a.snapdir = b.snapdir)
    (h5 : a.snapbase = b.snapbase) (h6 : a.snapend = b.snapend) : gyrFile fs none a = gyrFile fs none b := by
  unfold gyrFile
  rw [h1, h2, h3, h4, h5, h6]

/-- What an advance with the arguments `a` takes from the cluster `r`, read as snapshot `n`. -/
structure GyrMem (skip : ℕ) (kw a : Kw) (u : Units) (o : Origin) (n : ℕ) (r : Run) : Prop where
  units : r.unitsInit = some u
  origin : r.originInit = some o
  nsnap : r.nsnap = n
  nzfill : a.nzfill.getD r.nzfill = (a.nzfill.or kw.nzfill).getD 5
  wdir : a.wdir.getD r.wdir = (a.wdir.or kw.wdir).getD "./"
  snapdir : a.snapdir.getD r.snapdir = (a.snapdir.or kw.snapdir).getD ""
  snapbase : a.snapbase.getD r.snapbase = (a.snapbase.or kw.snapbase).getD ""
  snapend : a.snapend.getD r.snapend = (a.snapend.or kw.snapend).getD ".dat"
  skiprows : r.skiprows = skip

/-- The state of a reading history: cluster `r` was read (as snapshot `n`) from a file in which the snapshots `S` follow. -/
structure GyrAt (P : Parse) (T : List Toks) (skip w : ℕ) (kw a : Kw) (u : Units) (o : Origin) (S : List GSnap) (n : ℕ) (r : GyrRun) : Prop
    extends GyrMem skip kw a u o n r.run where
  file : ∃ L, r.sfile = some L ∧ GyrStart P T skip w S L

theorem or_getD' {α : Type} (a b : Option α) (d : α) : a.getD (b.getD d) = (a.or b).getD d := by cases a <;> rfl

theorem getD_fix {α : Type} (a : Option α) (x : α) : a.getD (a.getD x) = a.getD x := by cases a <;> rfl

theorem GyrKept.mem {skip : ℕ} {kw a : Kw} {u : Units} {o : Origin} {r : Run} (h : GyrKept kw skip (some u) (some o) r) :
    GyrMem skip kw a u o (kw.nsnap.getD 0) r :=
  ⟨h.units, h.origin, h.nsnap, by rw [h.nzfill, or_getD'], by rw [h.wdir, or_getD'], by rw [h.snapdir, or_getD'], by rw [h.snapbase, or_getD'],
    by rw [h.snapend, or_getD'], h.skiprows⟩

theorem GyrKept.start {P : Parse} {T : List Toks} {skip w : ℕ} {kw a : Kw} {u : Units} {o : Origin} {S : List GSnap} {r : GyrRun} (h : GyrKept kw skip (some u) (some o) r.run)
    (hf : ∃ L, r.sfile = some L ∧ GyrStart P T skip w S L) : GyrAt P T skip w kw a u o S (kw.nsnap.getD 0) r :=
  ⟨h.mem, hf⟩

/-- The file names tried by an advance. -/
theorem GyrMem.names {skip : ℕ} {kw : Kw} {a : GKw} {u : Units} {o : Origin} {n : ℕ} {r : GyrRun}
    (h : GyrMem skip kw a.kw u o n r.run) (ha : a.kw.nsnap.getD 0 ≤ n) (fs : GFS) :
    gyrFile fs none (advGKw a r).kw = gyrFile fs none (advNames kw a.kw (n + 1)) := by
  refine gyrFile_congr ?_ ?_ ?_ ?_ ?_ ?_
  · show some _ = some _
    rw [h.nsnap, max_eq_right ha]
  · show some _ = some _
    rw [h.nzfill]
  · show some _ = some _
    rw [h.wdir]
  · show some _ = some _
    rw [h.snapdir]
  · show some _ = some _
    rw [h.snapbase]
  · show some _ = some _
    rw [h.snapend]

theorem GyrMem.next {skip : ℕ} {kw : Kw} {a : GKw} {u : Units} {o : Origin} {n : ℕ} {r : GyrRun} {r' : Run}
    (h : GyrMem skip kw a.kw u o n r.run) (ha : a.kw.nsnap.getD 0 ≤ n) (k : GyrKept (advGKw a r).kw skip (some u) (some o) r') :
    GyrMem skip kw a.kw u o (n + 1) r' := by
  refine ⟨k.units, k.origin, ?_, ?_, ?_, ?_, ?_, ?_, k.skiprows⟩
  · rw [k.nsnap]
    show max (a.kw.nsnap.getD 0) r.run.nsnap + 1 = _
    rw [h.nsnap, max_eq_right ha]
  · rw [k.nzfill]
    show a.kw.nzfill.getD (a.kw.nzfill.getD r.run.nzfill) = _
    rw [getD_fix, h.nzfill]
  · rw [k.wdir]
    show a.kw.wdir.getD (a.kw.wdir.getD r.run.wdir) = _
    rw [getD_fix, h.wdir]
  · rw [k.snapdir]
    show a.kw.snapdir.getD (a.kw.snapdir.getD r.run.snapdir) = _
    rw [getD_fix, h.snapdir]
  · rw [k.snapbase]
    show a.kw.snapbase.getD (a.kw.snapbase.getD r.run.snapbase) = _
    rw [getD_fix, h.snapbase]
  · rw [k.snapend]
    show a.kw.snapend.getD (a.kw.snapend.getD r.run.snapend) = _
    rw [getD_fix, h.snapend]

theorem GyrAt.next {P : Parse} {T : List Toks} {skip w : ℕ} {kw : Kw} {a : GKw} {u : Units} {o : Origin} {S S' : List GSnap} {n : ℕ} {r r' : GyrRun}
    (h : GyrAt P T skip w kw a.kw u o S n r) (ha : a.kw.nsnap.getD 0 ≤ n) (k : GyrKept (advGKw a r).kw skip (some u) (some o) r'.run)
    (hf : ∃ L, r'.sfile = some L ∧ GyrStart P T skip w S' L) : GyrAt P T skip w kw a.kw u o S' (n + 1) r' :=
  ⟨h.toGyrMem.next ha k, hf⟩

/-- What the orbit file says at an advance. -/
def OrbitNext (kw : Kw) (f : Option (List Line)) (t : ℝ) (p : Ph) : Prop :=
  ∀ L, f = some L → kw.ocolNames = none ∧ kw.ocolNums = none ∧ kw.ounits = none ∧ OrbitAt L 0 t p

/-- One advance to a snapshot that exists. -/
theorem advanceGyr_ok {g : Galpy} {fc : Cluster → Except Err Cluster} (hg : g.Positive) (hfc : CentreFinder g fc) {P : Parse} {T : List Toks} {fs : GFS}
    {kw : Kw} {a : GKw} {skip w : ℕ} {u : Units} {o : Origin} {τ : ℝ} {q : Ph} {s : GSnap} {S : List GSnap} {n : ℕ} {r : GyrRun}
    (h : GyrAt P T skip w kw a.kw u o (s :: S) n r) (ha : a.kw.nsnap.getD 0 ≤ n) (hs : a.kw.skiprows = none ∨ a.kw.skiprows = some skip)
    (hno : NoNumbered fs kw a.kw) (hn : kw.nsnap.getD 0 ≤ n) (hw : gyrCols (some (a.give.getD "mxv")) ≤ w) (hu : u.linear)
    (ho : o = .galaxy ∨ o = .cluster) (hm : (0 : ℝ) ≤ (s.rows.map (fun l => l[0]!)).sum) (ok : OrbitNext a.kw r.run.ofile τ q) :
    ∃ r', advanceGyr g fc P fs a none r = .ok r' ∧ GyrAt P T skip w kw a.kw u o S (n + 1) r' ∧ HasSnap 1 s r'.run ∧
      r'.run.base.units = some u ∧ r'.run.base.origin = some o ∧ (r.run.ofile.isSome → r'.run.base.gc = q) ∧
      r'.run.base.tphys = (if r.run.ofile.isSome ∧ a.kw.otime.getD false then τ else s.t) ∧
      r'.run.ofile = r.run.ofile.map (List.drop 1) ∧ HasExtra (some (a.give.getD "mxv")) s r' := by
  obtain ⟨L, hL, hf⟩ := h.file
  have hsk : (advGKw a r).kw.skiprows.getD 13 = skip := by
    show a.kw.skiprows.getD r.run.skiprows = skip
    rcases hs with e | e
    · rw [e, Option.getD_none, h.skiprows]
    · rw [e, Option.getD_some]
  have hot : (advGKw a r).kw.otime.getD false = a.kw.otime.getD false := rfl
  have hlines : orbitLines (advGKw a r).kw true = 1 := by simp [orbitLines]
  obtain ⟨r', L', e1, e2, e3, e4, e5, e6, e7, e8, e9, e10, e11⟩ := getGyr_ok hg hfc (k := advGKw a r) (ofile := r.run.ofile) (adv := true)
    (τ := τ) (q := q) hf hsk hw hu ho hm (fun L' hL' => ok L' hL')
  have hne : s.rows.length ≠ 0 := by
    cases hf with
    | cons _ _ hne => simpa using hne
  rw [hlines] at e1
  refine ⟨{ r' with run := { r'.run with ofile := r.run.ofile.map (List.drop 1) } }, ?_, ?_, ⟨e4.ntot, e4.st, e4.m, e4.id⟩, e5, e6, e7, e8, rfl,
    ⟨e11.1, e11.2, e11.3, e11.4, e11.5⟩⟩
  · unfold advanceGyr
    rw [h.toGyrMem.names ha, hno (n + 1) (by omega), Option.none_or, hL, Option.elim_some, Option.none_or, h.units, h.origin, e1]
    simp only [bind, Except.bind]
    rw [if_neg (by rw [e4.ntot]; exact hne)]
  · exact h.next ha (r' := { r' with run := { r'.run with ofile := r.run.ofile.map (List.drop 1) } })
      ⟨e10.1, e10.2, e10.3, e10.4, e10.5, e10.6, e10.7, e10.8, e10.9⟩ ⟨L', e2, e3⟩

/-- An advance after the last snapshot. -/
theorem advanceGyr_end {g : Galpy} {fc : Cluster → Except Err Cluster} {P : Parse} {fs : GFS}
    {kw : Kw} {a : GKw} {skip w : ℕ} {u : Units} {o : Origin} {n : ℕ} {r : GyrRun}
    (h : GyrAt P [] skip w kw a.kw u o [] n r) (ha : a.kw.nsnap.getD 0 ≤ n) (hs : a.kw.skiprows = none ∨ a.kw.skiprows = some skip) (h0 : 0 < skip)
    (hno : NoNumbered fs kw a.kw) (hn : kw.nsnap.getD 0 ≤ n) (hd : fs.dir ((a.kw.wdir.or kw.wdir).getD "./" ++ "cont/") = false) :
    ∃ r', advanceGyr g fc P fs a none r = .ok r' ∧ r'.run.ntot = 0 ∧ r'.run.base.st = [] := by
  obtain ⟨L, hL, hf⟩ := h.file
  cases hf
  have hsk : (advGKw a r).kw.skiprows.getD 13 = skip := by
    show a.kw.skiprows.getD r.run.skiprows = skip
    rcases hs with e | e
    · rw [e, Option.getD_none, h.skiprows]
    · rw [e, Option.getD_some]
  refine ⟨emptyGyr (advGKw a r), ?_, rfl, rfl⟩
  unfold advanceGyr
  rw [h.toGyrMem.names ha, hno (n + 1) (by omega), Option.none_or, hL, Option.elim_some, getGyr_end (by rw [hsk]; exact h0)]
  simp only [bind, Except.bind]
  rw [if_pos (show (emptyGyr (advGKw a r)).run.ntot = 0 from rfl), if_neg]
  show ¬fs.dir (a.kw.wdir.getD r.run.wdir ++ "cont/") = true
  rw [h.wdir, hd]
  simp

end

end CT
