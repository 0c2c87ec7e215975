/- C102: reading a regular gyrfalcON file with the other reader. -/
import Verif.Props.Gyr3

namespace CT

noncomputable section

open Classical

theorem uncomment_plain {d : Toks} (h : ∀ w ∈ d, '#' ∉ w.toList) : uncomment d = d := by
  unfold uncomment
  induction d with
  | nil => rfl
  | cons w d ih =>
    rw [List.takeWhile_cons_of_pos (by simpa using h w (by simp)), ih (fun x hx => h x (List.mem_cons_of_mem _ hx))]

theorem take_rows {P : Parse} {w : ℕ} (hw : 0 < w) (L : List Toks) {rows : List (List ℝ)} {B : List Toks} (h : List.Forall₂ (IsGyrRow P) rows B) :
    (∀ r ∈ rows, r.length = w) → (((B ++ L).map uncomment).filter (· ≠ [])).take rows.length = B := by
  induction h with
  | nil => intro _; rfl
  | @cons r d rows B h1 h2 ih =>
    intro hr
    have hd : d ≠ [] := by
      rintro rfl
      have e := h1.vals.length_eq
      rw [hr r (by simp)] at e
      simp only [List.length_nil] at e
      omega
    rw [List.cons_append, List.map_cons, uncomment_plain h1.plain, List.filter_cons_of_pos (by simpa using hd), List.length_cons, List.take_succ_cons,
      ih (fun r hr' => hr r (List.mem_cons_of_mem _ hr'))]

theorem allFloats_rows {P : Parse} {rows : List (List ℝ)} {B : List Toks} (h : List.Forall₂ (IsGyrRow P) rows B) : allFloats P B = .ok rows := by
  induction h with
  | nil => rfl
  | @cons r d rows B h1 h2 ih =>
    have e : floats P d (List.range d.length) = .ok r := by
      rw [floats_row h1 _ (fun k hk => by rw [← h1.vals.length_eq]; exact List.mem_range.mp hk), h1.vals.length_eq]
      congr 1
      apply List.ext_getElem
      · simp
      · intro i h1 h2
        simp only [List.getElem_map, List.getElem_range]
        exact getElem!_pos r i h2
    simp only [allFloats, e, ih, bind, Except.bind, pure, Except.pure]

theorem loadRows_ok {P : Parse} {w skip n : ℕ} (hw : 0 < w) {f B L : List Toks} {rows : List (List ℝ)} (hf : f.drop skip = B ++ L)
    (h : List.Forall₂ (IsGyrRow P) rows B) (hr : ∀ r ∈ rows, r.length = w) (hn : rows.length = n) (hne : rows ≠ []) :
    loadRows P skip n f = .ok ⟨rows, w⟩ := by
  have e : (rows.headD []).length = w := by
    cases rows with
    | nil => exact absurd rfl hne
    | cons r rows => exact hr r (by simp)
  unfold loadRows
  rw [hf, ← hn, take_rows hw L h hr, allFloats_rows h]
  simp only [bind, Except.bind, pure, Except.pure]
  rw [if_pos (fun r h => (hr r h).trans e.symm), e]

theorem arrCols_ok {a : Arr2} (h1 : 2 ≤ a.rows.length) (h2 : 2 ≤ a.ncol) : ∀ ks : List ℕ, (∀ k ∈ ks, k < a.ncol) → ∃ x, arrCols a ks = .ok x := by
  intro ks
  induction ks with
  | nil => intro _; exact ⟨_, rfl⟩
  | cons k ks ih =>
    intro hk
    obtain ⟨x, hx⟩ := ih (fun k hk' => hk k (List.mem_cons_of_mem _ hk'))
    refine ⟨a.rows.map (fun r => r[k]!) :: x, ?_⟩
    simp only [arrCols, Arr2.col, if_pos (show 2 ≤ a.rows.length ∧ 2 ≤ a.ncol ∧ k < a.ncol from ⟨h1, h2, hk k (by simp)⟩), hx, bind, Except.bind, pure,
      Except.pure]

/-- The rest of a regular file after some snapshots. -/
theorem IsRegularFile.later {P : Parse} {skip w n : ℕ} : ∀ (k : ℕ) {S : List GSnap} {f : List Toks}, IsRegularFile P skip w n S f →
    IsRegularFile P skip w n (S.drop k) (f.drop ((skip + n) * k)) := by
  intro k
  induction k with
  | zero => intro S f h; simpa using h
  | succ k ih =>
    intro S f h
    cases h with
    | nil => rw [List.drop_nil]; exact .nil _
    | @cons s S H B L h1 h2 h3 h4 h5 h6 =>
      have e : (H ++ B ++ L).drop ((skip + n) * (k + 1)) = L.drop ((skip + n) * k) := by
        have hl : (H ++ B).length = skip + n := by rw [List.length_append, h2, ← h4.length_eq, h3]
        rw [Nat.mul_succ, Nat.add_comm, ← List.drop_drop, ← hl, List.drop_left]
      rw [e, List.drop_succ_cons]
      exact ih h6

/-- The rows of snapshot `k` of a regular file. -/
theorem IsRegularFile.block {P : Parse} {skip w n k : ℕ} {S : List GSnap} {f : List Toks} {s : GSnap} (h : IsRegularFile P skip w n S f)
    (hs : S[k]? = some s) : ∃ B L, f.drop ((skip + n) * k + skip) = B ++ L ∧ List.Forall₂ (IsGyrRow P) s.rows B ∧ (∀ r ∈ s.rows, r.length = w) ∧
      s.rows.length = n := by
  have h' := h.later k
  obtain ⟨hk, e⟩ := List.getElem?_eq_some_iff.mp hs
  rw [List.drop_eq_getElem_cons hk, e] at h'
  rw [← List.drop_drop]
  generalize f.drop ((skip + n) * k) = f' at h'
  cases h' with
  | @cons _ _ H B L h1 h2 h3 h4 h5 h6 =>
    refine ⟨B, L, ?_, h4, h5, h3⟩
    rw [← h2, List.append_assoc, List.drop_left]

/-- The header of the second snapshot. -/
theorem gyrTime_header {P : Parse} {t : ℝ} (rest : List Toks) : ∀ (H : List Toks) (t0 : Option ℝ), (∀ d ∈ H, "#" ∈ d) →
    (∀ d ∈ H, mentions "time" d → ∃ (v w s : String) (more : Toks), d = v :: w :: s :: more ∧ P.flt s = .ok t) →
    gyrTime P H.length t0 (H ++ rest) = .ok (some (if ∃ d ∈ H, mentions "time" d then some t else t0)) := by
  intro H
  induction H with
  | nil => intro t0 _ _; simp [gyrTime]
  | cons d H ih =>
    intro t0 hc ht
    have hd := hc d (by simp)
    have hne : d ≠ [] := by rintro rfl; simp at hd
    rw [List.length_cons, List.cons_append, gyrTime, if_neg (show ¬(d :: (H ++ rest)).headD [] = [] from hne),
      if_neg (show ¬"#" ∉ (d :: (H ++ rest)).headD [] from not_not.mpr hd)]
    by_cases h : mentions "time" d
    · obtain ⟨v, w, s, more, e, hs⟩ := ht d (by simp) h
      have e2 : tokAt d 2 = .ok s := by rw [e]; rfl
      rw [if_pos (show mentions "time" ((d :: (H ++ rest)).headD []) from h)]
      simp only [List.headD_cons, List.tail_cons, e2, hs, bind, Except.bind, pure, Except.pure]
      rw [ih _ (fun x hx => hc x (List.mem_cons_of_mem _ hx)) (fun x hx => ht x (List.mem_cons_of_mem _ hx)), ite_self,
        if_pos ⟨d, by simp, h⟩]
    · rw [if_neg (show ¬mentions "time" ((d :: (H ++ rest)).headD []) from h)]
      simp only [List.tail_cons, bind, Except.bind]
      rw [ih _ (fun x hx => hc x (List.mem_cons_of_mem _ hx)) (fun x hx => ht x (List.mem_cons_of_mem _ hx))]
      have e : (∃ x ∈ d :: H, mentions "time" x) ↔ ∃ x ∈ H, mentions "time" x := by simp [h]
      simp only [e]

/-- Loading from a regular file. -/
theorem getNew_load {g : Galpy} {fc : Cluster → Except Err Cluster} (hg : g.Positive) (hfc : CentreFinder g fc) {P : Parse} {k : GKw} {skip w n : ℕ}
    {u : Units} {o : Origin} {s : GSnap} {S : List GSnap} {f : List Toks} (hf : IsRegularFile P skip w n (s :: S) f)
    (hsk : k.kw.skiprows.getD 13 = skip) (hn : 2 ≤ n) (hw : gyrCols k.give ≤ w) (hu : u.linear) (ho : o = .galaxy ∨ o = .cluster)
    (hm : (0 : ℝ) ≤ (s.rows.map (fun l => l[0]!)).sum) :
    ∃ r, getNewGyr g fc P k (some u) (some o) none false f = .ok (r, none) ∧ r.sfile = some f ∧ HasSnap 0 s r.run ∧ r.run.base.units = some u ∧
      r.run.base.origin = some o ∧ r.run.base.tphys = s.t ∧ r.dt = none ∧ GyrKept k.kw skip (some u) (some o) r.run ∧ HasExtra k.give s r := by
  obtain ⟨B, L, b1, b2, b3, b4⟩ := hf.block (k := 0) rfl
  have hc := cols_pos k.give
  have hne : s.rows ≠ [] := by intro e; rw [e] at b4; simp at b4; omega
  have hl := loadRows_ok (n := n) (by omega) (by simpa using b1) b2 b3 b4 hne
  obtain ⟨x, hx⟩ := arrCols_ok (a := ⟨s.rows, w⟩) (by rw [b4]; exact hn) (by show 2 ≤ w; omega) (List.range (gyrCols k.give))
    (fun j hj => lt_of_lt_of_le (List.mem_range.mp hj) hw)
  obtain ⟨r, h1, h2, h3, h4, h5, h6, h7, h8, h9, h10⟩ := gyrStars_ok hg hfc (k := k) (skip := skip) (id0 := 0) (u := u) (o := o) (ofile := none)
    (adv := false) (τ := 0) (q := default) (s := s) (t := s.t) (sf := f) (dt := none) (n := (n : ℤ)) (rows := s.rows)
    (by omega) hu ho hne (fun j hj => rfl) hm (fun L hL => by cases hL)
  refine ⟨r, ?_, h7, h2, h3, h4, by simpa using h6, h8, h9, h10⟩
  have hh : gyrHead P skip {} f = .ok (some (⟨n, s.t⟩, none, f.drop skip)) := by
    cases hf with
    | @cons _ _ H B L k1 k2 k3 k4 k5 k6 =>
      rw [List.append_assoc, ← k2, gyrHead_header k1, List.drop_left]
  unfold getNewGyr
  simp only [hsk, hh, bind, Except.bind, Option.elim_some, Int.toNat_natCast, Bool.false_eq_true, if_false, hl, hx]
  exact h1

/-- The header of a regular file. -/
theorem IsRegularFile.head {P : Parse} {skip w n : ℕ} {s0 : GSnap} {S : List GSnap} {f : List Toks} (hf : IsRegularFile P skip w n (s0 :: S) f) :
    gyrHead P skip {} f = .ok (some (⟨n, s0.t⟩, none, f.drop skip)) := by
  cases hf with
  | @cons _ _ H B L k1 k2 k3 k4 k5 k6 =>
    rw [List.append_assoc, ← k2, gyrHead_header k1, List.drop_left]

/-- The time step of a regular file. -/
theorem IsRegularFile.step {P : Parse} {k : GKw} {skip w n : ℕ} {s0 s1 : GSnap} {S : List GSnap} {f : List Toks} {dt : ℝ}
    (hf : IsRegularFile P skip w n (s0 :: s1 :: S) f) (hdt : (k.dt = none ∧ dt = s1.t - s0.t) ∨ k.dt = some dt)
    (hsk : k.kw.skiprows.getD 13 = skip) : gyrDt P k ⟨n, s0.t⟩ (f.drop skip) = .ok (some dt) := by
  unfold gyrDt
  rcases hdt with ⟨e1, e2⟩ | e
  · have h' := hf.later 1
    rw [Nat.mul_one, ← List.drop_drop] at h'
    rw [e1, Option.elim_none, hsk, Int.toNat_natCast]
    generalize (f.drop skip).drop n = f' at h' ⊢
    simp only [List.drop_succ_cons, List.drop_zero] at h'
    cases h' with
    | @cons _ _ H B L k1 k2 k3 k4 k5 k6 =>
      rw [List.append_assoc, ← k2, gyrTime_header (t := s1.t) (B ++ L) H none k1.comment k1.time, if_pos k1.hasT]
      simp only [bind, Except.bind, Option.elim_some, e2]
  · rw [e, Option.elim_some]

/-- Advancing to snapshot `j` of a regular file. -/
theorem getNew_advance {g : Galpy} {fc : Cluster → Except Err Cluster} (hg : g.Positive) (hfc : CentreFinder g fc) {P : Parse} {k : GKw} {skip w n : ℕ}
    {u : Units} {o : Origin} {s0 s1 s : GSnap} {S : List GSnap} {f : List Toks} {j : ℕ} {dt : ℝ}
    (hf : IsRegularFile P skip w n (s0 :: s1 :: S) f) (hs : (s0 :: s1 :: S)[j]? = some s) (hj : k.kw.nsnap.getD 0 = j)
    (hdt : (k.dt = none ∧ dt = s1.t - s0.t) ∨ k.dt = some dt)
    (hsk : k.kw.skiprows.getD 13 = skip) (hn : 2 ≤ n) (hw : gyrCols k.give ≤ w) (hu : u.linear) (ho : o = .galaxy ∨ o = .cluster)
    (hm : (0 : ℝ) ≤ (s.rows.map (fun l => l[0]!)).sum) :
    ∃ r, getNewGyr g fc P k (some u) (some o) none true f = .ok (r, none) ∧ r.sfile = some f ∧ HasSnap 0 s r.run ∧ r.run.base.units = some u ∧
      r.run.base.origin = some o ∧ r.run.base.tphys = s0.t + dt * j ∧ r.dt = some dt ∧ GyrKept k.kw skip (some u) (some o) r.run ∧
      HasExtra k.give s r := by
  obtain ⟨B, L, b1, b2, b3, b4⟩ := hf.block hs
  have hc := cols_pos k.give
  have hne : s.rows ≠ [] := by intro e; rw [e] at b4; simp at b4; omega
  have hl := loadRows_ok (n := n) (by omega) b1 b2 b3 b4 hne
  obtain ⟨x, hx⟩ := arrCols_ok (a := ⟨s.rows, w⟩) (by rw [b4]; exact hn) (by show 2 ≤ w; omega) (List.range (gyrCols k.give))
    (fun j hj => lt_of_lt_of_le (List.mem_range.mp hj) hw)
  obtain ⟨r, h1, h2, h3, h4, h5, h6, h7, h8, h9, h10⟩ := gyrStars_ok hg hfc (k := k) (skip := skip) (id0 := 0) (u := u) (o := o) (ofile := none)
    (adv := true) (τ := 0) (q := default) (s := s) (t := s0.t + dt * j) (sf := f) (dt := some dt) (n := (n : ℤ)) (rows := s.rows)
    (by omega) hu ho hne (fun j hj => rfl) hm (fun L hL => by cases hL)
  refine ⟨r, ?_, h7, h2, h3, h4, by simpa using h6, h8, h9, h10⟩
  have hh := hf.head
  have hd := hf.step hdt hsk
  unfold getNewGyr
  simp only [hsk, hh, hd, bind, Except.bind, Option.elim_some, Int.toNat_natCast, if_true, hl, hx, hj]
  exact h1

/-- What the other reader delivers: the stars are numbered from 0. -/
structure DeliversNew (u : Units) (o : Origin) (k : ℕ) (s : GSnap) (r : Run) : Prop where
  stars : HasSnap 0 s r
  time : r.base.tphys = s.t
  label : r.nsnap = k
  units : r.base.units = some u
  origin : r.base.origin = some o

/-- The state of a reading history with the other reader. -/
structure NewAt (skip : ℕ) (kw a : Kw) (u : Units) (o : Origin) (f : List Toks) (dt : ℝ) (n : ℕ) (r : GyrRun) : Prop
    extends GyrMem skip kw a u o n r.run where
  file : r.sfile = some f
  ofile : r.run.ofile = none
  step : r.dt = none ∨ r.dt = some dt

/-- One advance with the other reader. -/
theorem advanceNew_ok {g : Galpy} {fc : Cluster → Except Err Cluster} (hg : g.Positive) (hfc : CentreFinder g fc) {P : Parse} {fs : GFS}
    {kw : Kw} {a : GKw} {skip w n j : ℕ} {u : Units} {o : Origin} {s0 s1 s : GSnap} {S : List GSnap} {f : List Toks} {r : GyrRun} {dt : ℝ}
    (hf : IsRegularFile P skip w n (s0 :: s1 :: S) f) (hs : (s0 :: s1 :: S)[j + 1]? = some s) (hdt : s1.t - s0.t = dt)
    (hadt : a.dt = none ∨ a.dt = some dt) (h : NewAt skip kw a.kw u o f dt j r) (ha : a.kw.nsnap.getD 0 = 0) (hk : kw.nsnap.getD 0 = 0)
    (hska : a.kw.skiprows = none ∨ a.kw.skiprows = some skip) (hno : NoNumbered fs kw a.kw) (hn : 2 ≤ n)
    (hw : gyrCols (some (a.give.getD "mxv")) ≤ w) (hu : u.linear) (ho : o = .galaxy ∨ o = .cluster)
    (hm : (0 : ℝ) ≤ (s.rows.map (fun l => l[0]!)).sum) :
    ∃ r', advanceNewGyr g fc P fs a none r = .ok r' ∧ NewAt skip kw a.kw u o f dt (j + 1) r' ∧ HasSnap 0 s r'.run ∧ r'.run.base.units = some u ∧
      r'.run.base.origin = some o ∧ r'.run.base.tphys = s0.t + dt * (j + 1 : ℕ) ∧ HasExtra (some (a.give.getD "mxv")) s r' := by
  have hsk : (advGKw a r).kw.skiprows.getD 13 = skip := by
    show a.kw.skiprows.getD r.run.skiprows = skip
    rcases hska with e | e
    · rw [e, Option.getD_none, h.skiprows]
    · rw [e, Option.getD_some]
  have hj : (advGKw a r).kw.nsnap.getD 0 = j + 1 := by
    show max (a.kw.nsnap.getD 0) r.run.nsnap + 1 = j + 1
    rw [ha, h.nsnap, Nat.zero_max]
  have hd : ((advGKw a r).dt = none ∧ dt = s1.t - s0.t) ∨ (advGKw a r).dt = some dt := by
    show (a.dt.or r.dt = none ∧ _) ∨ a.dt.or r.dt = some dt
    rcases hadt with e | e
    · rw [e, Option.none_or]
      rcases h.step with e' | e'
      · exact .inl ⟨e', hdt.symm⟩
      · exact .inr e'
    · rw [e]; exact .inr rfl
  obtain ⟨r', e1, e2, e3, e4, e5, e6, e7, e8, e9⟩ := getNew_advance hg hfc (k := advGKw a r) hf hs hj hd hsk hn hw hu ho hm
  have hne : s.rows.length ≠ 0 := by
    obtain ⟨-, -, -, -, -, b4⟩ := hf.block hs
    omega
  refine ⟨{ r' with run := { r'.run with ofile := none } }, ?_, ⟨?_, e2, rfl, .inr e7⟩, ⟨e3.ntot, e3.st, e3.m, e3.id⟩, e4, e5, e6,
    ⟨e9.1, e9.2, e9.3, e9.4, e9.5⟩⟩
  · unfold advanceNewGyr
    rw [h.toGyrMem.names (by omega), hno (j + 1) (by omega), Option.none_or, h.file, Option.elim_some, h.ofile, Option.none_or, h.units, h.origin, e1]
    simp only [bind, Except.bind]
    rw [if_neg (by rw [e3.ntot]; exact hne)]
  · exact h.toGyrMem.next (r' := { r'.run with ofile := none }) (by omega) ⟨e8.1, e8.2, e8.3, e8.4, e8.5, e8.6, e8.7, e8.8, e8.9⟩

/-- Loading with the other reader, whatever the times of the snapshots. -/
theorem loadNew_ok {g : Galpy} {fc : Cluster → Except Err Cluster} (hg : g.Positive) (hfc : CentreFinder g fc) {P : Parse} {fs : GFS}
    {filename : Option String} {k0 : GKw} {skip w n : ℕ} {u : Units} {o : Origin} {s0 : GSnap} {S : List GSnap} {f : List Toks}
    (hfile : gyrFile fs filename k0.kw = some f) (hf : IsRegularFile P skip w n (s0 :: S) f) (hn : 2 ≤ n) (hsk : k0.kw.skiprows.getD 13 = skip)
    (hw : gyrCols k0.give ≤ w) (hu : u.linear) (ho : o = .galaxy ∨ o = .cluster) (hm : (0 : ℝ) ≤ (s0.rows.map (fun l => l[0]!)).sum) (a : Kw) (dt : ℝ) :
    ∃ r0, loadNewGyr g fc P fs filename k0 (some u) (some o) none = .ok r0 ∧ DeliversNew u o (k0.kw.nsnap.getD 0) s0 r0.run ∧
      HasExtra k0.give s0 r0 ∧ NewAt skip k0.kw a u o f dt (k0.kw.nsnap.getD 0) r0 := by
  obtain ⟨r, e1, e2, e3, e4, e5, e6, e7, e8, e9⟩ := getNew_load hg hfc (k := k0) hf hsk hn hw hu ho hm
  refine ⟨{ r with run := { r.run with ofile := none } }, ?_, ⟨⟨e3.ntot, e3.st, e3.m, e3.id⟩, e6, e8.nsnap, e4, e5⟩,
    ⟨e9.1, e9.2, e9.3, e9.4, e9.5⟩, ⟨?_, e2, rfl, .inl e7⟩⟩
  · simp only [loadNewGyr, hfile, Option.elim_some, e1, bind, Except.bind, pure, Except.pure]
  · exact GyrKept.mem (r := { r.run with ofile := none }) ⟨e8.1, e8.2, e8.3, e8.4, e8.5, e8.6, e8.7, e8.8, e8.9⟩

/-- Several advances with the other reader, whatever the times of the snapshots. -/
theorem newMany_ok {g : Galpy} {fc : Cluster → Except Err Cluster} (hg : g.Positive) (hfc : CentreFinder g fc) {P : Parse} {fs : GFS}
    {kw : Kw} {a : GKw} {skip w n : ℕ} {u : Units} {o : Origin} {s0 s1 : GSnap} {S : List GSnap} {f : List Toks} {dt : ℝ}
    (hf : IsRegularFile P skip w n (s0 :: s1 :: S) f) (hn : 2 ≤ n) (hdt : s1.t - s0.t = dt)
    (hska : a.kw.skiprows = none ∨ a.kw.skiprows = some skip) (h0 : kw.nsnap.getD 0 = 0) (ha : a.kw.nsnap.getD 0 = 0)
    (hadt : a.dt = none ∨ a.dt = some dt) (hno : NoNumbered fs kw a.kw) (hwa : gyrCols (some (a.give.getD "mxv")) ≤ w) (hu : u.linear)
    (ho : o = .galaxy ∨ o = .cluster) (hm : ∀ s ∈ s1 :: S, (0 : ℝ) ≤ (s.rows.map (fun l => l[0]!)).sum) :
    ∀ (k j : ℕ) (r0 : GyrRun), NewAt skip kw a.kw u o f dt j r0 → ∀ s, (s1 :: S)[j + k]? = some s →
      ∃ r, advanceNewGyrMany g fc P fs a (k + 1) r0 = .ok r ∧ NewAt skip kw a.kw u o f dt (j + k + 1) r ∧ HasSnap 0 s r.run ∧ r.run.base.units = some u ∧
        r.run.base.origin = some o ∧ r.run.base.tphys = s0.t + dt * (j + k + 1 : ℕ) ∧ HasExtra (some (a.give.getD "mxv")) s r := by
  intro k
  induction k with
  | zero =>
    intro j r0 h s hs
    obtain ⟨r', f1, f2, f3, f4, f5, f6, f7⟩ := advanceNew_ok hg hfc (fs := fs) hf (j := j) (s := s) (by simpa using hs) hdt hadt h ha h0 hska hno hn hwa
      hu ho (hm s (List.mem_of_getElem? hs))
    refine ⟨r', ?_, f2, f3, f4, f5, f6, f7⟩
    simp only [advanceNewGyrMany, f1, bind, Except.bind]
  | succ k ih =>
    intro j r0 h s hs
    obtain ⟨hlt, -⟩ := List.getElem?_eq_some_iff.mp hs
    obtain ⟨sj, hsj⟩ : ∃ sj, (s1 :: S)[j]? = some sj := ⟨_, List.getElem?_eq_getElem (by omega)⟩
    obtain ⟨r', f1, f2, -, -, -, -, -⟩ := advanceNew_ok hg hfc (fs := fs) hf (j := j) (s := sj) (by simpa using hsj) hdt hadt h ha h0 hska hno hn hwa
      hu ho (hm sj (List.mem_of_getElem? hsj))
    obtain ⟨r2, k1, k2⟩ := ih (j + 1) r' f2 s (by rw [← hs]; congr 1; omega)
    refine ⟨r2, ?_, ?_⟩
    · rw [advanceNewGyrMany]
      simp only [f1, bind, Except.bind]
      exact k1
    · rw [show j + (k + 1) + 1 = j + 1 + k + 1 by omega]
      exact k2

/-- **C102.** A file that begins with regular snapshots – headers of `skip` lines, `n ≥ 2` stars in each, equal time steps – is read by
`load_cluster(ctype='new_gyrfalcon')` and `k` calls of `advance_cluster` as snapshot `k`, with its time and the label `k`, for every number
of stars and of snapshots. -/
theorem C102_regular {g : Galpy} {fc : Cluster → Except Err Cluster} (hg : g.Positive) (hfc : CentreFinder g fc) {P : Parse} {fs : GFS}
    {filename : Option String} {k0 a : GKw} {skip w n : ℕ} {u : Units} {o : Origin} {s0 : GSnap} {S : List GSnap} {f : List Toks} {dt : ℝ}
    (hfile : gyrFile fs filename k0.kw = some f) (hf : IsRegularFile P skip w n (s0 :: S) f) (hn : 2 ≤ n)
    (ht : ∀ k s, S[k]? = some s → s.t = s0.t + dt * (k + 1 : ℕ)) (hsk : k0.kw.skiprows.getD 13 = skip)
    (hska : a.kw.skiprows = none ∨ a.kw.skiprows = some skip) (h0 : k0.kw.nsnap.getD 0 = 0) (ha : a.kw.nsnap.getD 0 = 0)
    (hadt : a.dt = none ∨ a.dt = some dt) (hno : NoNumbered fs k0.kw a.kw) (hw : gyrCols k0.give ≤ w)
    (hwa : gyrCols (some (a.give.getD "mxv")) ≤ w) (hu : u.linear)
    (ho : o = .galaxy ∨ o = .cluster) (hm : ∀ s ∈ s0 :: S, (0 : ℝ) ≤ (s.rows.map (fun l => l[0]!)).sum) :
    ∃ r0, loadNewGyr g fc P fs filename k0 (some u) (some o) none = .ok r0 ∧ DeliversNew u o 0 s0 r0.run ∧ HasExtra k0.give s0 r0 ∧
      ∀ k s, S[k]? = some s → ∃ r, advanceNewGyrMany g fc P fs a (k + 1) r0 = .ok r ∧ DeliversNew u o (k + 1) s r.run ∧
        HasExtra (some (a.give.getD "mxv")) s r := by
  obtain ⟨r0, e1, e2, e3, e4⟩ := loadNew_ok hg hfc (fs := fs) hfile hf hn hsk hw hu ho (hm s0 (by simp)) a.kw dt
  rw [h0] at e2 e4
  refine ⟨r0, e1, e2, e3, ?_⟩
  intro k s hs
  cases S with
  | nil => simp at hs
  | cons s1 S =>
    have hdt : s1.t - s0.t = dt := by
      rw [ht 0 s1 rfl]; push_cast; ring
    obtain ⟨r, f1, f2, f3, f4, f5, f6, f7⟩ := newMany_ok hg hfc (fs := fs) hf hn hdt hska h0 ha hadt hno hwa hu ho
      (fun s hs => hm s (List.mem_cons_of_mem _ hs)) k 0 r0 e4 s (by simpa using hs)
    rw [Nat.zero_add] at f2 f6
    exact ⟨r, f1, ⟨f3, by rw [f6, ht k s hs], f2.nsnap, f4, f5⟩, f7⟩

end

end CT
