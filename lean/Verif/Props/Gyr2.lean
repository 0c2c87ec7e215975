/- C100: loading a gyrfalcON file and advancing through it. -/
import Verif.Props.Gyr

namespace CT

noncomputable section

/-- Several advances, all to snapshots that exist. -/
theorem advanceGyrMany_ok {g : Galpy} {fc : Cluster → Except Err Cluster} (hg : g.Positive) (hfc : CentreFinder g fc) {P : Parse} {T : List Toks} {fs : GFS}
    {kw : Kw} {a : GKw} {skip w : ℕ} {u : Units} {o : Origin} (hs : a.kw.skiprows = none ∨ a.kw.skiprows = some skip)
    (hno : NoNumbered fs kw a.kw) (hw : gyrCols (some (a.give.getD "mxv")) ≤ w) (hu : u.linear) (ho : o = .galaxy ∨ o = .cluster) :
    ∀ (k : ℕ) (S : List GSnap) (O : Option (List Line)) (τ : ℕ → ℝ) (q : ℕ → Ph) (n : ℕ) (r : GyrRun),
      GyrAt P T skip w kw a.kw u o S n r → r.run.ofile = O → a.kw.nsnap.getD 0 ≤ n → kw.nsnap.getD 0 ≤ n → k ≤ S.length →
      (∀ s ∈ S, (0 : ℝ) ≤ (s.rows.map (fun l => l[0]!)).sum) → (∀ j < k, OrbitNext a.kw (O.map (List.drop j)) (τ j) (q j)) →
      ∃ r', advanceGyrMany g fc P fs a k r = .ok r' ∧ GyrAt P T skip w kw a.kw u o (S.drop k) (n + k) r' ∧ r'.run.ofile = O.map (List.drop k) ∧
        ∀ j s, k = j + 1 → S[j]? = some s → HasSnap 1 s r'.run ∧ r'.run.base.units = some u ∧ r'.run.base.origin = some o ∧
          (O.isSome → r'.run.base.gc = q j) ∧ r'.run.base.tphys = (if O.isSome ∧ a.kw.otime.getD false then τ j else s.t) ∧
          HasExtra (some (a.give.getD "mxv")) s r' := by
  intro k
  induction k with
  | zero =>
    intro S O τ q n r h hO _ _ _ _ _
    refine ⟨r, rfl, h, ?_, fun j s e => absurd e (by omega)⟩
    rw [hO]
    cases O <;> simp
  | succ k ih =>
    intro S O τ q n r h hO ha hn hk hm ho'
    cases S with
    | nil => simp at hk
    | cons s0 S =>
      obtain ⟨r1, e1, e2, e3, e4, e5, e6, e7, e8, e9⟩ := advanceGyr_ok hg hfc (fs := fs) (τ := τ 0) (q := q 0) h ha hs hno hn hw hu ho
        (hm s0 (by simp)) (by
          rw [hO]
          have := ho' 0 (by omega)
          cases O with
          | none => simpa using this
          | some L => simpa using this)
      obtain ⟨r2, f1, f2, f3, f4⟩ := ih S (O.map (List.drop 1)) (fun j => τ (j + 1)) (fun j => q (j + 1)) (n + 1) r1 e2 (by rw [e8, hO])
        (by omega) (by omega) (by simpa using hk) (fun s hs => hm s (List.mem_cons_of_mem _ hs)) (by
          intro j hj
          have := ho' (j + 1) (by omega)
          rw [Option.map_map]
          have e : (List.drop j ∘ List.drop 1 : List Line → List Line) = List.drop (j + 1) := by
            funext l
            simp [List.drop_drop, Nat.add_comm]
          rw [e]
          exact this)
      refine ⟨r2, ?_, ?_, ?_, ?_⟩
      · simp only [advanceGyrMany, bind, e1, Except.bind, f1]
      · rw [show n + (k + 1) = n + 1 + k by omega]
        exact f2
      · rw [f3, Option.map_map]
        congr 1
        funext l
        simp [List.drop_drop, Nat.add_comm]
      · intro j s ej es
        have hj : j = k := by omega
        subst hj
        cases j with
        | zero =>
          simp only [List.getElem?_cons_zero, Option.some.injEq] at es
          subst es
          simp only [advanceGyrMany] at f1
          cases f1
          rw [hO] at e6 e7
          exact ⟨e3, e4, e5, e6, e7, e9⟩
        | succ i =>
          obtain ⟨g1, g2, g3, g4, g5, g6⟩ := f4 i s rfl (by simpa using es)
          refine ⟨g1, g2, g3, fun hh => g4 (by simpa using hh), ?_, g6⟩
          rw [g5]
          simp

/-- What a user expects of a file of snapshots read one after the other: the `k`-th call gives the `k`-th snapshot. -/
structure Delivers (kw : Kw) (u : Units) (o : Origin) (k : ℕ) (s : GSnap) (r : Run) : Prop where
  stars : HasSnap 1 s r
  time : r.base.tphys = s.t
  label : r.nsnap = kw.nsnap.getD 0 + k
  units : r.base.units = some u
  origin : r.base.origin = some o

theorem loadGyr_ok {g : Galpy} {fc : Cluster → Except Err Cluster} (hg : g.Positive) (hfc : CentreFinder g fc) {P : Parse} {T : List Toks} {fs : GFS}
    {filename : Option String} {k : GKw} {skip w : ℕ} {u : Units} {o : Origin} {s : GSnap} {S : List GSnap} {f : List Toks}
    {ofile : Option (List Line)} (hfile : gyrFile fs filename k.kw = some f) (hf : GyrStart P T skip w (s :: S) f)
    (hsk : k.kw.skiprows.getD 13 = skip) (hw : gyrCols k.give ≤ w) (hu : u.linear) (ho : o = .galaxy ∨ o = .cluster)
    (hm : (0 : ℝ) ≤ (s.rows.map (fun l => l[0]!)).sum) (a : Kw) :
    ∃ r, loadGyr g fc P fs filename k (some u) (some o) ofile = .ok r ∧ Delivers k.kw u o 0 s r.run ∧ r.run.ofile = ofile ∧
      HasExtra k.give s r ∧ GyrAt P T skip w k.kw a u o S (k.kw.nsnap.getD 0) r := by
  obtain ⟨r, L, e1, e2, e3, e4, e5, e6, e7, e8, e9, e10, e11⟩ := getGyr_ok hg hfc (k := k) (ofile := none) (adv := false) (τ := 0) (q := default)
    hf hsk hw hu ho hm (fun L hL => by cases hL)
  refine ⟨{ r with run := { r.run with ofile := ofile } }, ?_, ⟨⟨e4.ntot, e4.st, e4.m, e4.id⟩, by simpa using e8, e10.nsnap, e5, e6⟩, rfl,
    ⟨e11.1, e11.2, e11.3, e11.4, e11.5⟩, ?_⟩
  · simp only [loadGyr, hfile, Option.elim_some, e1, bind, Except.bind, pure, Except.pure]
  · exact GyrKept.start (r := { r with run := { r.run with ofile := ofile } })
      ⟨e10.1, e10.2, e10.3, e10.4, e10.5, e10.6, e10.7, e10.8, e10.9⟩ ⟨L, e2, e3⟩

/-- **C100.** A file with the snapshots `s 0, …, s n`, each under a header of at most `skip` lines, is read by `load_cluster` and `k` calls of
`advance_cluster` as snapshot `k`: its masses, positions, velocities and time, the stars numbered from 1, with the label `nsnap + k`, the
columns of `give` if `give` is repeated, for every number of snapshots and every number of stars in each of them; and the call after the
last one returns a cluster without stars.  The units may be any but `radec`, the origin `galaxy` or `cluster`; there is no orbit file. -/
theorem C100_chain {g : Galpy} {fc : Cluster → Except Err Cluster} (hg : g.Positive) (hfc : CentreFinder g fc) {P : Parse} {fs : GFS}
    {filename : Option String} {k0 a : GKw} {skip w : ℕ} {u : Units} {o : Origin} {s0 : GSnap} {S : List GSnap} {f : List Toks}
    (hfile : gyrFile fs filename k0.kw = some f) (hf : IsGyrFile P skip w (s0 :: S) f) (hsk : k0.kw.skiprows.getD 13 = skip)
    (hska : a.kw.skiprows = none ∨ a.kw.skiprows = some skip) (hna : a.kw.nsnap.getD 0 ≤ k0.kw.nsnap.getD 0)
    (hno : NoNumbered fs k0.kw a.kw) (hw : gyrCols k0.give ≤ w) (hwa : gyrCols (some (a.give.getD "mxv")) ≤ w) (hu : u.linear)
    (ho : o = .galaxy ∨ o = .cluster) (hm : ∀ s ∈ s0 :: S, (0 : ℝ) ≤ (s.rows.map (fun l => l[0]!)).sum) :
    ∃ r0, loadGyr g fc P fs filename k0 (some u) (some o) none = .ok r0 ∧ Delivers k0.kw u o 0 s0 r0.run ∧ HasExtra k0.give s0 r0 ∧
      (∀ k s, S[k]? = some s → ∃ r, advanceGyrMany g fc P fs a (k + 1) r0 = .ok r ∧ Delivers k0.kw u o (k + 1) s r.run ∧
        HasExtra (some (a.give.getD "mxv")) s r) ∧
      (0 < skip → fs.dir ((a.kw.wdir.or k0.kw.wdir).getD "./" ++ "cont/") = false →
        ∃ r, advanceGyrMany g fc P fs a (S.length + 1) r0 = .ok r ∧ r.run.ntot = 0 ∧ r.run.base.st = []) := by
  obtain ⟨r0, e1, e2, e3, e4, e5⟩ := loadGyr_ok hg hfc (ofile := none) hfile hf hsk hw hu ho (hm s0 (by simp)) a.kw
  have many := fun k (hk : k ≤ S.length) => advanceGyrMany_ok hg hfc (fs := fs) hska hno hwa hu ho k S none (fun _ => 0) (fun _ => default)
    _ r0 e5 e3 hna (le_refl _) hk (fun s hs => hm s (List.mem_cons_of_mem _ hs)) (fun j _ L hL => by cases hL)
  refine ⟨r0, e1, e2, e4, ?_, ?_⟩
  · intro k s hs
    obtain ⟨hk, -⟩ := List.getElem?_eq_some_iff.mp hs
    obtain ⟨r, f1, f2, f3, f4⟩ := many (k + 1) (by omega)
    obtain ⟨g1, g2, g3, -, g5, g6⟩ := f4 k s rfl hs
    exact ⟨r, f1, ⟨g1, by simpa using g5, f2.nsnap, g2, g3⟩, g6⟩
  · intro h0 hd
    obtain ⟨r, f1, f2, -, -⟩ := many S.length (le_refl _)
    rw [List.drop_length] at f2
    obtain ⟨r', h1, h2, h3⟩ := advanceGyr_end (g := g) (fc := fc) (fs := fs) f2 (by omega) hska h0 hno (by omega) hd
    refine ⟨r', ?_, h2, h3⟩
    have split : ∀ (k : ℕ) (r : GyrRun), advanceGyrMany g fc P fs a (k + 1) r =
        (advanceGyrMany g fc P fs a k r).bind (fun r => advanceGyr g fc P fs a none r) := by
      intro k
      induction k with
      | zero =>
        intro r
        simp only [advanceGyrMany, bind, Except.bind]
        cases advanceGyr g fc P fs a none r <;> rfl
      | succ k ih =>
        intro r
        rw [advanceGyrMany]
        conv_rhs => rw [advanceGyrMany]
        simp only [bind, Except.bind]
        cases advanceGyr g fc P fs a none r with
        | error e => rfl
        | ok x => exact ih x
    rw [split, f1]
    exact h1

end

end CT
