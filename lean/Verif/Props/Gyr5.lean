/- C103: where the other reader goes wrong. -/
import Verif.Props.Gyr4

namespace CT

noncomputable section

open Classical

/-- **C103, violated.** The time after `k` advances is extrapolated from the first two snapshots, whatever time the file gives. -/
theorem C103_times_violated {g : Galpy} {fc : Cluster → Except Err Cluster} (hg : g.Positive) (hfc : CentreFinder g fc) {P : Parse} {fs : GFS}
    {filename : Option String} {k0 a : GKw} {skip w n : ℕ} {u : Units} {o : Origin} {s0 s1 : GSnap} {S : List GSnap} {f : List Toks}
    (hfile : gyrFile fs filename k0.kw = some f) (hf : IsRegularFile P skip w n (s0 :: s1 :: S) f) (hn : 2 ≤ n)
    (hsk : k0.kw.skiprows.getD 13 = skip)
    (hska : a.kw.skiprows = none ∨ a.kw.skiprows = some skip) (h0 : k0.kw.nsnap.getD 0 = 0) (ha : a.kw.nsnap.getD 0 = 0)
    (hadt : a.dt = none) (hno : NoNumbered fs k0.kw a.kw) (hw : gyrCols k0.give ≤ w)
    (hwa : gyrCols (some (a.give.getD "mxv")) ≤ w) (hu : u.linear)
    (ho : o = .galaxy ∨ o = .cluster) (hm : ∀ s ∈ s0 :: s1 :: S, (0 : ℝ) ≤ (s.rows.map (fun l => l[0]!)).sum) :
    ∃ r0, loadNewGyr g fc P fs filename k0 (some u) (some o) none = .ok r0 ∧
      ∀ k s, (s1 :: S)[k]? = some s → ∃ r, advanceNewGyrMany g fc P fs a (k + 1) r0 = .ok r ∧ HasSnap 0 s r.run ∧
        r.run.base.tphys = s0.t + (s1.t - s0.t) * (k + 1 : ℕ) := by
  obtain ⟨r0, e1, e2, e3, e4⟩ := loadNew_ok hg hfc (fs := fs) hfile hf hn hsk hw hu ho (hm s0 (by simp)) a.kw (s1.t - s0.t)
  rw [h0] at e4
  refine ⟨r0, e1, fun k s hs => ?_⟩
  obtain ⟨r, f1, f2, f3, f4, f5, f6, f7⟩ := newMany_ok hg hfc (fs := fs) hf hn rfl hska h0 ha (.inl hadt) hno hwa hu ho
    (fun s hs => hm s (List.mem_cons_of_mem _ hs)) k 0 r0 e4 s (by simpa using hs)
  rw [Nat.zero_add] at f6
  exact ⟨r, f1, f3, f6⟩

/-- **C103, violated.** After the last of at least two snapshots, `advance_cluster` raises `IndexError` where the other reader returns a
cluster without stars. -/
theorem C103_past_end_violated {g : Galpy} {fc : Cluster → Except Err Cluster} (hg : g.Positive) (hfc : CentreFinder g fc) {P : Parse} {fs : GFS}
    {filename : Option String} {k0 a : GKw} {skip w n : ℕ} {u : Units} {o : Origin} {s0 s1 : GSnap} {S : List GSnap} {f : List Toks}
    (hfile : gyrFile fs filename k0.kw = some f) (hf : IsRegularFile P skip w n (s0 :: s1 :: S) f)
    (hend : f.length = (skip + n) * (S.length + 2)) (hn : 2 ≤ n) (hsk : k0.kw.skiprows.getD 13 = skip)
    (hska : a.kw.skiprows = none ∨ a.kw.skiprows = some skip) (h0 : k0.kw.nsnap.getD 0 = 0) (ha : a.kw.nsnap.getD 0 = 0)
    (hadt : a.dt = none) (hno : NoNumbered fs k0.kw a.kw) (hw : gyrCols k0.give ≤ w)
    (hwa : gyrCols (some (a.give.getD "mxv")) ≤ w) (hu : u.linear)
    (ho : o = .galaxy ∨ o = .cluster) (hm : ∀ s ∈ s0 :: s1 :: S, (0 : ℝ) ≤ (s.rows.map (fun l => l[0]!)).sum) :
    ∃ r0 r, loadNewGyr g fc P fs filename k0 (some u) (some o) none = .ok r0 ∧ advanceNewGyrMany g fc P fs a (S.length + 1) r0 = .ok r ∧
      advanceNewGyr g fc P fs a none r = .error .indexError := by
  obtain ⟨r0, e1, e2, e3, e4⟩ := loadNew_ok hg hfc (fs := fs) hfile hf hn hsk hw hu ho (hm s0 (by simp)) a.kw (s1.t - s0.t)
  rw [h0] at e4
  obtain ⟨s, hs⟩ : ∃ s, (s1 :: S)[0 + S.length]? = some s := ⟨_, List.getElem?_eq_getElem (by simp)⟩
  obtain ⟨r, f1, f2, -⟩ := newMany_ok hg hfc (fs := fs) hf hn rfl hska h0 ha (.inl hadt) hno hwa hu ho
    (fun s hs => hm s (List.mem_cons_of_mem _ hs)) S.length 0 r0 e4 s hs
  rw [Nat.zero_add] at f2
  refine ⟨r0, r, e1, f1, ?_⟩
  have hsk' : (advGKw a r).kw.skiprows.getD 13 = skip := by
    show a.kw.skiprows.getD r.run.skiprows = skip
    rcases hska with e | e
    · rw [e, Option.getD_none, f2.skiprows]
    · rw [e, Option.getD_some]
  have hj : (advGKw a r).kw.nsnap.getD 0 = S.length + 2 := by
    show max (a.kw.nsnap.getD 0) r.run.nsnap + 1 = _
    rw [ha, f2.nsnap, Nat.zero_max]
  have hd := hf.step (k := advGKw a r) (dt := s1.t - s0.t) (by
    show (a.dt.or r.dt = none ∧ _) ∨ a.dt.or r.dt = some _
    rw [hadt, Option.none_or]
    rcases f2.step with e | e
    · exact .inl ⟨e, rfl⟩
    · exact .inr e) hsk'
  have hl : loadRows P ((skip + n) * (S.length + 2) + skip) n f = .ok ⟨[], 0⟩ := by
    unfold loadRows
    rw [List.drop_eq_nil_of_le (by omega)]
    simp [allFloats, bind, Except.bind, pure, Except.pure]
  have hc : arrCols ⟨[], 0⟩ (List.range (gyrCols (advGKw a r).give)) = .error .indexError := by
    have := cols_pos (advGKw a r).give
    obtain ⟨m, hm⟩ : ∃ m, gyrCols (advGKw a r).give = m + 1 := ⟨gyrCols (advGKw a r).give - 1, by omega⟩
    rw [hm, List.range_succ_eq_map]
    simp [arrCols, Arr2.col, bind, Except.bind]
  have hget : getNewGyr g fc P (advGKw a r) (some u) (some o) none true f = .error .indexError := by
    unfold getNewGyr
    simp only [hsk', hf.head, hd, bind, Except.bind, Option.elim_some, Int.toNat_natCast, if_true, hj, hl, hc]
  unfold advanceNewGyr
  rw [f2.toGyrMem.names (by omega), hno (S.length + 1 + 1) (by omega), Option.none_or, f2.file, Option.elim_some, f2.ofile, Option.none_or, f2.units,
    f2.origin, hget]
  rfl

/-- A regular file is a file the other reader understands. -/
theorem IsRegularFile.gyr {P : Parse} {skip w n : ℕ} (hn : 0 < n) : ∀ {S : List GSnap} {f : List Toks}, IsRegularFile P skip w n S f →
    f.length = (skip + n) * S.length → IsGyrFile P skip w S f := by
  intro S f h
  induction h with
  | nil L =>
    intro e
    rw [List.length_nil, Nat.mul_zero] at e
    rw [List.eq_nil_of_length_eq_zero e]
    exact .nil
  | @cons s S H B L h1 h2 h3 h4 h5 h6 ih =>
    intro e
    refine .cons (by rw [h3]; exact h1) h2.le (by intro h; rw [h] at h3; simp at h3; omega) h4 h5 (ih ?_)
    have hB := h4.length_eq
    simp only [List.length_append, List.length_cons, Nat.mul_succ] at e
    omega

/-- **C103, violated.** The same star has another number in the two readers: the one numbers from 1, the other from 0. -/
theorem C103_numbers_violated {g : Galpy} {fc : Cluster → Except Err Cluster} (hg : g.Positive) (hfc : CentreFinder g fc) {P : Parse} {fs : GFS}
    {filename : Option String} {k0 : GKw} {skip w n : ℕ} {u : Units} {o : Origin} {s0 : GSnap} {S : List GSnap} {f : List Toks}
    (hfile : gyrFile fs filename k0.kw = some f) (hf : IsRegularFile P skip w n (s0 :: S) f) (hend : f.length = (skip + n) * (S.length + 1))
    (hn : 2 ≤ n) (hsk : k0.kw.skiprows.getD 13 = skip) (hw : gyrCols k0.give ≤ w) (hu : u.linear)
    (ho : o = .galaxy ∨ o = .cluster) (hm : (0 : ℝ) ≤ (s0.rows.map (fun l => l[0]!)).sum) :
    ∃ r r', loadGyr g fc P fs filename k0 (some u) (some o) none = .ok r ∧ loadNewGyr g fc P fs filename k0 (some u) (some o) none = .ok r' ∧
      r'.run.base.st = r.run.base.st ∧ r'.run.base.m = r.run.base.m ∧ ∀ i < n, r.run.id[i]? = some ((i : ℤ) + 1) ∧ r'.run.id[i]? = some (i : ℤ) := by
  obtain ⟨r, e1, e2, -⟩ := loadGyr_ok hg hfc (ofile := none) hfile (hf.gyr (by omega) (by simpa using hend)) hsk hw hu ho hm {}
  obtain ⟨r', f1, f2, -⟩ := loadNew_ok hg hfc (fs := fs) hfile hf hn hsk hw hu ho hm {} 0
  have hl : s0.rows.length = n := by
    obtain ⟨-, -, -, -, -, b⟩ := hf.block (k := 0) rfl
    exact b
  refine ⟨r, r', e1, f1, f2.stars.st.trans e2.stars.st.symm, f2.stars.m.trans e2.stars.m.symm, fun i hi => ?_⟩
  rw [e2.stars.id, f2.stars.id, hl]
  simp [hi, add_comm]

/-- **C103, violated.** Loading snapshot `n` gives the first one, labelled `n`. -/
theorem C103_nsnap_violated {g : Galpy} {fc : Cluster → Except Err Cluster} (hg : g.Positive) (hfc : CentreFinder g fc) {P : Parse} {fs : GFS}
    {filename : String} {k0 : GKw} {skip w n : ℕ} {u : Units} {o : Origin} {s0 : GSnap} {S : List GSnap} {f : List Toks}
    (hfile : fs.file filename = some f) (hf : IsRegularFile P skip w n (s0 :: S) f) (hn : 2 ≤ n) (hsk : k0.kw.skiprows.getD 13 = skip)
    (hw : gyrCols k0.give ≤ w) (hu : u.linear) (ho : o = .galaxy ∨ o = .cluster) (hm : (0 : ℝ) ≤ (s0.rows.map (fun l => l[0]!)).sum) (j : ℕ) :
    ∃ r, loadNewGyr g fc P fs (some filename) { k0 with kw := { k0.kw with nsnap := some j } } (some u) (some o) none = .ok r ∧
      HasSnap 0 s0 r.run ∧ r.run.base.tphys = s0.t ∧ r.run.nsnap = j := by
  obtain ⟨r, e1, e2, -⟩ := loadNew_ok hg hfc (fs := fs) (filename := some filename) (k0 := { k0 with kw := { k0.kw with nsnap := some j } })
    (by simp [gyrFile, hfile]) hf hn hsk hw hu ho hm {} 0
  exact ⟨r, e1, e2.stars, e2.time, by simpa using e2.label⟩

/-- **C103, violated.** A snapshot of one star cannot be loaded. -/
theorem C103_one_star_violated {g : Galpy} {fc : Cluster → Except Err Cluster} {P : Parse} {fs : GFS}
    {filename : Option String} {k0 : GKw} {skip w : ℕ} {u : Option Units} {o : Option Origin} {s0 : GSnap} {S : List GSnap} {f : List Toks}
    (hfile : gyrFile fs filename k0.kw = some f) (hf : IsRegularFile P skip w 1 (s0 :: S) f) (hw : 0 < w)
    (hsk : k0.kw.skiprows.getD 13 = skip) : loadNewGyr g fc P fs filename k0 u o none = .error .indexError := by
  obtain ⟨B, L, b1, b2, b3, b4⟩ := hf.block (k := 0) rfl
  have hne : s0.rows ≠ [] := by intro e; rw [e] at b4; simp at b4
  have hl := loadRows_ok (n := 1) hw (by simpa using b1) b2 b3 b4 hne
  have hc : arrCols ⟨s0.rows, w⟩ (List.range (gyrCols k0.give)) = .error .indexError := by
    have := cols_pos k0.give
    obtain ⟨m, hm⟩ : ∃ m, gyrCols k0.give = m + 1 := ⟨gyrCols k0.give - 1, by omega⟩
    rw [hm, List.range_succ_eq_map]
    simp [arrCols, Arr2.col, bind, Except.bind, b4]
  have hget : getNewGyr g fc P k0 u o none false f = .error .indexError := by
    unfold getNewGyr
    simp only [hsk, hf.head, bind, Except.bind, Option.elim_some, Int.toNat_natCast, Bool.false_eq_true, if_false, hl, hc]
  simp only [loadNewGyr, hfile, Option.elim_some, hget, bind, Except.bind]

/-- **C103, violated.** If the second snapshot has more stars than the first, only as many stars as the first had are read from it. -/
theorem C103_more_stars_violated {g : Galpy} {fc : Cluster → Except Err Cluster} (hg : g.Positive) (hfc : CentreFinder g fc) {P : Parse} {fs : GFS}
    {filename : Option String} {k0 a : GKw} {skip w : ℕ} {u : Units} {o : Origin} {s0 s1 : GSnap} {H0 B0 H1 B1 L f : List Toks}
    (hfile : gyrFile fs filename k0.kw = some f) (hff : f = H0 ++ B0 ++ (H1 ++ B1 ++ L))
    (h1 : IsGyrHeader P s0.rows.length s0.t H0) (h2 : H0.length = skip) (h3 : List.Forall₂ (IsGyrRow P) s0.rows B0)
    (h4 : IsGyrHeader P s1.rows.length s1.t H1) (h5 : H1.length = skip) (h6 : List.Forall₂ (IsGyrRow P) s1.rows B1)
    (h7 : ∀ r ∈ s0.rows ++ s1.rows, r.length = w) (hn : 2 ≤ s0.rows.length) (hlt : s0.rows.length < s1.rows.length)
    (hsk : k0.kw.skiprows.getD 13 = skip)
    (hska : a.kw.skiprows = none ∨ a.kw.skiprows = some skip) (h0 : k0.kw.nsnap.getD 0 = 0) (ha : a.kw.nsnap.getD 0 = 0)
    (hadt : a.dt = none) (hno : NoNumbered fs k0.kw a.kw) (hw : gyrCols k0.give ≤ w)
    (hwa : gyrCols (some (a.give.getD "mxv")) ≤ w) (hu : u.linear)
    (ho : o = .galaxy ∨ o = .cluster) (hm : ∀ r ∈ s0.rows ++ s1.rows, (0 : ℝ) ≤ r[0]!) :
    ∃ r0 r, loadNewGyr g fc P fs filename k0 (some u) (some o) none = .ok r0 ∧ HasSnap 0 s0 r0.run ∧
      advanceNewGyr g fc P fs a none r0 = .ok r ∧ r.run.ntot = s0.rows.length ∧ r.run.ntot < s1.rows.length ∧
      r.run.base.m = (s1.rows.take s0.rows.length).map (fun l => l[0]!) := by
  have hne : s0.rows ≠ [] := by intro e; rw [e] at hn; simp at hn
  have hc := cols_pos (some (a.give.getD "mxv"))
  have pos : ∀ l : List (List ℝ), (∀ r ∈ l, (0 : ℝ) ≤ r[0]!) → (0 : ℝ) ≤ (l.map (fun l => l[0]!)).sum := by
    intro l hl
    refine List.sum_nonneg ?_
    intro x hx
    obtain ⟨r, hr, rfl⟩ := List.mem_map.mp hx
    exact hl r hr
  have hf : IsRegularFile P skip w s0.rows.length [s0] f := by
    rw [hff]
    exact .cons h1 h2 rfl h3 (fun r hr => h7 r (List.mem_append_left _ hr)) (.nil _)
  obtain ⟨r0, e1, e2, e3, e4⟩ := loadNew_ok hg hfc (fs := fs) hfile hf hn hsk hw hu ho
    (pos _ (fun r hr => hm r (List.mem_append_left _ hr))) a.kw (s1.t - s0.t)
  rw [h0] at e4
  have hsk' : (advGKw a r0).kw.skiprows.getD 13 = skip := by
    show a.kw.skiprows.getD r0.run.skiprows = skip
    rcases hska with e | e
    · rw [e, Option.getD_none, e4.skiprows]
    · rw [e, Option.getD_some]
  have hj : (advGKw a r0).kw.nsnap.getD 0 = 1 := by
    show max (a.kw.nsnap.getD 0) r0.run.nsnap + 1 = _
    rw [ha, e4.nsnap, Nat.zero_max]
  have hB0 := h3.length_eq
  have d1 : f.drop skip = B0 ++ (H1 ++ B1 ++ L) := by rw [hff, ← h2, List.append_assoc, List.drop_left]
  have d2 : (f.drop skip).drop s0.rows.length = H1 ++ (B1 ++ L) := by rw [d1, hB0, List.drop_left, List.append_assoc]
  have d3 : f.drop ((skip + s0.rows.length) * 1 + skip) = B1.take s0.rows.length ++ (B1.drop s0.rows.length ++ L) := by
    rw [Nat.mul_one, ← List.drop_drop, ← List.drop_drop, d2, ← h5, List.drop_left, ← List.append_assoc, List.take_append_drop]
  have hd : gyrDt P (advGKw a r0) ⟨s0.rows.length, s0.t⟩ (f.drop skip) = .ok (some (s1.t - s0.t)) := by
    unfold gyrDt
    have e : (advGKw a r0).dt = none ∨ (advGKw a r0).dt = some (s1.t - s0.t) := by
      show a.dt.or r0.dt = none ∨ a.dt.or r0.dt = some (s1.t - s0.t)
      rw [hadt, Option.none_or]
      exact e4.step
    rcases e with e | e
    · rw [e, Option.elim_none, hsk', Int.toNat_natCast, d2, ← h5, gyrTime_header (t := s1.t) (B1 ++ L) H1 none h4.comment h4.time, if_pos h4.hasT]
      simp only [bind, Except.bind, Option.elim_some]
    · rw [e, Option.elim_some]
  have hlen : (s1.rows.take s0.rows.length).length = s0.rows.length := by rw [List.length_take]; omega
  have hne' : s1.rows.take s0.rows.length ≠ [] := by intro e; rw [e] at hlen; simp at hlen; omega
  have hr' : ∀ r ∈ s1.rows.take s0.rows.length, r.length = w := fun r hr => h7 r (List.mem_append_right _ (List.mem_of_mem_take hr))
  have hl := loadRows_ok (P := P) (n := s0.rows.length) (by omega) d3 (List.forall₂_take _ h6) hr' hlen hne'
  obtain ⟨x, hx⟩ := arrCols_ok (a := ⟨s1.rows.take s0.rows.length, w⟩) (by show 2 ≤ (s1.rows.take s0.rows.length).length; omega) (by show 2 ≤ w; omega)
    (List.range (gyrCols (advGKw a r0).give)) (fun j hj => lt_of_lt_of_le (List.mem_range.mp hj) hwa)
  obtain ⟨r, k1, k2, -⟩ := gyrStars_ok hg hfc (k := advGKw a r0) (skip := skip) (id0 := 0) (u := u) (o := o) (ofile := none)
    (adv := true) (τ := 0) (q := default) (s := ⟨s1.t, s1.rows.take s0.rows.length⟩) (t := s0.t + (s1.t - s0.t) * (1 : ℕ)) (sf := f)
    (dt := some (s1.t - s0.t)) (n := (s0.rows.length : ℤ)) (rows := s1.rows.take s0.rows.length)
    (by omega) hu ho hne' (fun j hj => rfl) (pos _ (fun r hr => hm r (List.mem_append_right _ (List.mem_of_mem_take hr)))) (fun L hL => by cases hL)
  have hget : getNewGyr g fc P (advGKw a r0) (some u) (some o) none true f = .ok (r, none) := by
    unfold getNewGyr
    simp only [hsk', hf.head, hd, bind, Except.bind, Option.elim_some, Int.toNat_natCast, if_true, hj, hl, hx]
    exact k1
  have kn : r.run.ntot = s0.rows.length := k2.ntot.trans hlen
  refine ⟨r0, { r with run := { r.run with ofile := none } }, e1, e2.stars, ?_, kn, by show r.run.ntot < _; omega, k2.m⟩
  unfold advanceNewGyr
  rw [e4.toGyrMem.names (by omega), hno 1 (by omega), Option.none_or, e4.file, Option.elim_some, e4.ofile, Option.none_or, e4.units,
    e4.origin, hget]
  simp only [bind, Except.bind]
  rw [if_neg (by rw [kn]; omega)]

/-! ### a concrete file -/

theorem IsRegularFile.first {P : Parse} {skip w n : ℕ} {S : List GSnap} {f : List Toks} (h : IsRegularFile P skip w n S f) (k : ℕ) :
    IsRegularFile P skip w n (S.take k) f := by
  induction h generalizing k with
  | nil L => rw [List.take_nil]; exact .nil L
  | cons h1 h2 h3 h4 h5 h6 ih =>
    cases k with
    | zero => exact .nil _
    | succ k => exact .cons h1 h2 h3 h4 h5 (ih k)

/-- Three snapshots of two stars, written at the times 0, 1 and 3. -/
def regularText : List Toks :=
  [["#", "Ntot:", "2,"], ["#", "time:", "0"], ["1", "0", "0", "3", "0", "0", "0"], ["2", "1", "0", "0", "0", "1", "0"],
   ["#", "Ntot:", "2,"], ["#", "time:", "1"], ["1", "0", "1", "3", "0", "0", "0"], ["2", "1", "0", "1", "0", "1", "0"],
   ["#", "Ntot:", "2,"], ["#", "time:", "3"], ["1", "0", "2", "3", "0", "0", "0"], ["2", "1", "0", "2", "0", "1", "0"]]

def regularSnap (t y : ℝ) : GSnap := ⟨t, [[1, 0, y, 3, 0, 0, 0], [2, 1, 0, y, 0, 1, 0]]⟩

theorem regular_header (n t : String) (N : ℕ) (T : ℝ) (hn : digits.int n = .ok N) (ht : digits.flt t = .ok T)
    (h1 : ¬mentions "Ntot" ["#", "time:", t]) (h2 : ¬mentions "time" ["#", "Ntot:", String.ofList (n.toList ++ [','])]) :
    IsGyrHeader digits N T [["#", "Ntot:", String.ofList (n.toList ++ [','])], ["#", "time:", t]] := by
  refine ⟨by simp, ⟨_, List.mem_cons_self, "Ntot:", by simp, by decide⟩, ⟨["#", "time:", t], by simp, "time:", by simp, by decide⟩, ?_, ?_⟩
  · intro d hd hm
    rcases List.mem_cons.mp hd with rfl | hd
    · exact ⟨"#", "Ntot:", n, ',', [], rfl, hn⟩
    · rcases List.mem_singleton.mp hd with rfl
      exact absurd hm h1
  · intro d hd hm
    rcases List.mem_cons.mp hd with rfl | hd
    · exact absurd hm h2
    · rcases List.mem_singleton.mp hd with rfl
      exact ⟨"#", "time:", t, [], rfl, ht⟩

theorem regularText_file : IsRegularFile digits 2 7 2 [regularSnap 0 0, regularSnap 1 1, regularSnap 3 2] regularText := by
  have h := fun (t : String) (T : ℝ) => regular_header "2" t 2 T (by simp [digits])
  have e : String.ofList ("2".toList ++ [',']) = "2," := by decide
  rw [e] at h
  refine .cons (s := regularSnap 0 0) (H := [["#", "Ntot:", "2,"], ["#", "time:", "0"]])
    (B := [["1", "0", "0", "3", "0", "0", "0"], ["2", "1", "0", "0", "0", "1", "0"]]) (h "0" 0 (by simp [digits]) (by decide) (by decide)) rfl rfl ?_
    (by simp [regularSnap]) <|
    .cons (s := regularSnap 1 1) (H := [["#", "Ntot:", "2,"], ["#", "time:", "1"]])
    (B := [["1", "0", "1", "3", "0", "0", "0"], ["2", "1", "0", "1", "0", "1", "0"]]) (h "1" 1 (by simp [digits]) (by decide) (by decide)) rfl rfl ?_
    (by simp [regularSnap]) <|
    .cons (s := regularSnap 3 2) (H := [["#", "Ntot:", "2,"], ["#", "time:", "3"]])
    (B := [["1", "0", "2", "3", "0", "0", "0"], ["2", "1", "0", "2", "0", "1", "0"]]) (h "3" 3 (by simp [digits]) (by decide) (by decide)) rfl rfl ?_
    (by simp [regularSnap]) (.nil [])
  all_goals exact .cons (digits_row (by simp)) (.cons (digits_row (by simp)) .nil)

def regularFS : GFS := ⟨fun p => if p = "run.dat" then some regularText else none, fun _ => false⟩

theorem regularFS_none : NoNumbered regularFS {} {} := by
  intro n _
  have e1 : dirSlash "./" = "./" := by decide
  have e2 : dirSlash "" = "" := by decide
  have ne : ∀ s : String, "./" ++ s ≠ "run.dat" := by
    intro s e
    have := congrArg String.toList e
    simp at this
  simp [gyrFile, advNames, e1, e2, regularFS, ne]

theorem regular_masses : ∀ s ∈ [regularSnap 0 0, regularSnap 1 1, regularSnap 3 2], (0 : ℝ) ≤ (s.rows.map (fun l => l[0]!)).sum := by
  intro s hs
  simp only [List.mem_cons, List.not_mem_nil, or_false] at hs
  rcases hs with rfl | rfl | rfl <;> norm_num [regularSnap]

/-- The third snapshot, written at time 3, is read with time 2; the next advance fails.  (The hypotheses of C103 are met; those of C102 are met
by the first two snapshots.) -/
example : ∃ r0 r2 r, loadNewGyr demoG (findCentreDefault demoG) digits regularFS (some "run.dat") { kw := { skiprows := some 2 } }
      (some .kpckms) (some .cluster) none = .ok r0 ∧
    advanceNewGyrMany demoG (findCentreDefault demoG) digits regularFS {} 2 r0 = .ok r2 ∧ HasSnap 0 (regularSnap 3 2) r2.run ∧ r2.run.base.tphys = 2 ∧
    advanceNewGyrMany demoG (findCentreDefault demoG) digits regularFS {} 2 r0 = .ok r ∧
    advanceNewGyr demoG (findCentreDefault demoG) digits regularFS {} none r = .error .indexError := by
  obtain ⟨r0, h1, h2⟩ := C103_times_violated demoG_positive (findCentreDefault_ok demoG) (fs := regularFS) (filename := some "run.dat")
    (k0 := { kw := { skiprows := some 2 } }) (a := {}) (u := .kpckms) (o := .cluster) (by simp [gyrFile, regularFS]) regularText_file (le_refl _) rfl
    (.inl rfl) rfl rfl rfl regularFS_none (by decide) (by decide) trivial (.inr rfl) regular_masses
  obtain ⟨r0', r, k1, k2, k3⟩ := C103_past_end_violated demoG_positive (findCentreDefault_ok demoG) (fs := regularFS) (filename := some "run.dat")
    (k0 := { kw := { skiprows := some 2 } }) (a := {}) (u := .kpckms) (o := .cluster) (by simp [gyrFile, regularFS]) regularText_file rfl (le_refl _) rfl
    (.inl rfl) rfl rfl rfl regularFS_none (by decide) (by decide) trivial (.inr rfl) regular_masses
  rw [h1] at k1
  cases k1
  obtain ⟨r2, e1, e2, e3⟩ := h2 1 (regularSnap 3 2) rfl
  exact ⟨r0, r2, r, h1, e1, e2, by rw [e3]; norm_num [regularSnap], k2, k3⟩

/-- C102 for the first two snapshots of the same file. -/
example : ∃ r0 r1, loadNewGyr demoG (findCentreDefault demoG) digits regularFS (some "run.dat") { kw := { skiprows := some 2 } }
      (some .kpckms) (some .cluster) none = .ok r0 ∧ DeliversNew .kpckms .cluster 0 (regularSnap 0 0) r0.run ∧
    advanceNewGyrMany demoG (findCentreDefault demoG) digits regularFS {} 1 r0 = .ok r1 ∧ DeliversNew .kpckms .cluster 1 (regularSnap 1 1) r1.run := by
  have hf : IsRegularFile digits 2 7 2 [regularSnap 0 0, regularSnap 1 1] regularText := regularText_file.first 2
  obtain ⟨r0, h1, h2, -, h3⟩ := C102_regular demoG_positive (findCentreDefault_ok demoG) (fs := regularFS) (filename := some "run.dat") (dt := 1)
    (k0 := { kw := { skiprows := some 2 } }) (a := {}) (u := .kpckms) (o := .cluster) (by simp [gyrFile, regularFS]) hf (le_refl _) (by
      intro k s hs
      match k, hs with
      | 0, hs => cases hs; norm_num [regularSnap]
      | k + 1, hs => simp at hs) rfl
    (.inl rfl) rfl rfl (.inl rfl) regularFS_none (by decide) (by decide) trivial (.inr rfl)
    (fun s hs => regular_masses s (by simp only [List.mem_cons, List.not_mem_nil, or_false] at hs ⊢; tauto))
  obtain ⟨r1, e1, e2, -⟩ := h3 0 (regularSnap 1 1) rfl
  exact ⟨r0, r1, h1, h2, e1, e2⟩

end

end CT
