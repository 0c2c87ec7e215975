/- C104: gyrfalcON files that end in the middle of a snapshot. -/
import Verif.Props.Gyr5

namespace CT

noncomputable section

open Classical

/-- The lines of a snapshot `s` as they are written: header `H`, rows `B`. -/
structure IsBlock (P : Parse) (skip w : ℕ) (s : GSnap) (H B : List Toks) : Prop where
  header : IsGyrHeader P s.rows.length s.t H
  short : H.length ≤ skip
  rows : List.Forall₂ (IsGyrRow P) s.rows B
  width : ∀ r ∈ s.rows, r.length = w

/-- The header loop on a cut header. -/
theorem gyrHead_cut {P : Parse} {skip n : ℕ} {t : ℝ} {H : List Toks} (h : IsGyrHeader P n t H) {j : ℕ} (hj : j < skip) (hl : j ≤ H.length) (h0 : GHead) :
    gyrHead P skip h0 (H.take j) = .ok none := by
  have hlen : (H.take j).length = j := by rw [List.length_take]; omega
  have e := gyrHead_run P [] (H.take j) h0 (fun d hd => h.comment d (List.mem_of_mem_take hd)) (fun d hd => h.num d (List.mem_of_mem_take hd))
    (fun d hd => h.time d (List.mem_of_mem_take hd))
  have e2 := gyrHead_more (j := skip - j) (H.take j) h0 (fun d hd => h.comment d (List.mem_of_mem_take hd)) e
  rw [List.append_nil, hlen, Nat.add_sub_cancel' hj.le] at e2
  rw [e2, gyrHead_end (by omega)]

/-- A row with too few words. -/
theorem floats_short {P : Parse} {r : List ℝ} {d : Toks} (h : IsGyrRow P r d) : ∀ n i, i ≤ r.length → r.length < i + n →
    floats P d (List.range' i n) = .error .indexError := by
  intro n
  induction n with
  | zero => intro i h1 h2; omega
  | succ n ih =>
    intro i h1 h2
    have hl := h.vals.length_eq
    rw [List.range'_succ, floats]
    by_cases hi : i < r.length
    · have e1 : tokAt d i = .ok d[i]! := by unfold tokAt; rw [if_pos (by omega)]
      have e2 : P.flt d[i]! = .ok r[i]! := by
        rw [getElem!_pos d i (by omega), getElem!_pos r i hi]
        exact h.vals.get (by omega) hi
      simp only [e1, e2, ih (i + 1) (by omega) (by omega), bind, Except.bind]
    · have e1 : tokAt d i = .error .indexError := by unfold tokAt; rw [if_neg (by omega)]
      simp only [e1, bind, Except.bind]

/-- What is left of a row: nothing, or its first words. -/
inductive Stump (P : Parse) (cols : ℕ) : List Toks → Prop
  | nil : Stump P cols []
  | cons {r : List ℝ} {d : Toks} (F : List Toks) : IsGyrRow P r d → d ≠ [] → d.length < cols → Stump P cols (d :: F)

theorem Stump.row {P : Parse} {cols : ℕ} (h0 : 0 < cols) {E : List Toks} (h : Stump P cols E) :
    "#" ∉ E.headD [] ∧ floats P (E.headD []) (List.range cols) = .error .indexError := by
  cases h with
  | nil =>
    have : IsGyrRow P [] [] := ⟨by simp, .nil⟩
    exact ⟨by simp, by rw [List.range_eq_range']; exact floats_short this cols 0 (by simp) (by simpa using h0)⟩
  | cons F h1 h2 h3 =>
    have hl := h1.vals.length_eq
    exact ⟨hash_not_plain h1.plain, by rw [List.range_eq_range']; exact floats_short h1 cols 0 (by omega) (by omega)⟩

/-- The loop over the stars when the file ends before. -/
theorem gyrBody_cut {P : Parse} {cols : ℕ} (h0 : 0 < cols) {E : List Toks} (hE : Stump P cols E) {rows : List (List ℝ)} {B : List Toks}
    (h : List.Forall₂ (IsGyrRow P) rows B) :
    (∀ r ∈ rows, cols ≤ r.length) → ∀ n, rows.length < n → gyrBody P cols n none (B ++ E) = .error .indexError := by
  induction h with
  | nil =>
    intro _ n hn
    obtain ⟨m, rfl⟩ : ∃ m, n = m + 1 := ⟨n - 1, by simp at hn; omega⟩
    rw [List.nil_append, gyrBody, Option.getD_none, if_neg (hE.row h0).1, (hE.row h0).2]
    rfl
  | @cons r d rows B h1 h2 ih =>
    intro hc n hn
    obtain ⟨m, rfl⟩ : ∃ m, n = m + 1 := ⟨n - 1, by simp at hn; omega⟩
    have hr := hc r (by simp)
    rw [gyrBody]
    simp only [Option.getD_none, List.cons_append, List.headD_cons, List.tail_cons, Option.isSome_none, Bool.false_eq_true, if_false]
    rw [if_neg (hash_not_plain h1.plain), floats_row h1 _ (fun k hk => lt_of_lt_of_le (List.mem_range.mp hk) hr)]
    simp only [ih (fun r hr => hc r (List.mem_cons_of_mem _ hr)) m (by simp at hn; omega), bind, Except.bind]

/-- Reading a snapshot cut in its rows. -/
theorem getGyr_cut_rows {g : Galpy} {fc : Cluster → Except Err Cluster} {P : Parse} {k : GKw} {skip w : ℕ} {u : Option Units} {o : Option Origin}
    {ofile : Option (List Line)} {adv : Bool} {s : GSnap} {H B E : List Toks} (h : IsBlock P skip w s H B) (hsk : k.kw.skiprows.getD 13 = skip)
    (hw : gyrCols k.give ≤ w) (hE : Stump P (gyrCols k.give) E) {j : ℕ} (hj : j < s.rows.length) (h0 : H.length = skip ∨ 0 < j ∨ E ≠ []) :
    getGyrfalcon g fc P k u o ofile adv (H ++ (B.take j ++ E)) = .error .indexError := by
  have hc := cols_pos k.give
  have hB := h.rows.length_eq
  have hb := gyrBody_cut (P := P) (cols := gyrCols k.give) (by omega) hE (List.forall₂_take j h.rows)
    (fun r hr => by rw [h.width r (List.mem_of_mem_take hr)]; exact hw) s.rows.length (by rw [List.length_take]; omega)
  unfold getGyrfalcon
  rw [hsk]
  by_cases hs : H.length = skip
  · rw [← hs, gyrHead_header h.header]
    simp only [bind, Except.bind, Option.elim_some, Int.toNat_natCast, hb]
  · obtain ⟨d, F, hF, hd, hd'⟩ : ∃ d F, B.take j ++ E = d :: F ∧ d ≠ [] ∧ "#" ∉ d := by
      cases hh : B.take j with
      | nil =>
        have := congrArg List.length hh
        rw [List.length_take, List.length_nil] at this
        cases hE with
        | nil => exact absurd rfl ((h0.resolve_left hs).resolve_left (by omega))
        | cons F h1 h2 h3 => exact ⟨_, F, rfl, h2, hash_not_plain h1.plain⟩
      | cons d F =>
        refine ⟨d, F ++ E, rfl, ?_⟩
        have hm : d ∈ B := List.mem_of_mem_take (by rw [hh]; simp)
        obtain ⟨i, hi, e⟩ := List.mem_iff_getElem.mp hm
        have hrow : IsGyrRow P s.rows[i] B[i] := h.rows.get (by omega) hi
        rw [e] at hrow
        refine ⟨?_, hash_not_plain hrow.plain⟩
        rintro rfl
        have e1 := hrow.vals.length_eq
        rw [h.width _ (List.getElem_mem _)] at e1
        simp only [List.length_nil] at e1
        omega
    rw [hF] at hb ⊢
    rw [gyrHead_upto h.header h.short _ _ hd hd', if_neg hs, if_neg hs]
    simp only [bind, Except.bind, Option.elim_some, Int.toNat_natCast]
    obtain ⟨m, hm⟩ : ∃ m, s.rows.length = m + 1 := ⟨s.rows.length - 1, by omega⟩
    rw [hm, gyrBody_over, ← hm, hb]

/-- Advancing to what is left of a file. -/
theorem advanceGyr_left {g : Galpy} {fc : Cluster → Except Err Cluster} {P : Parse} {T : List Toks} {fs : GFS}
    {kw : Kw} {a : GKw} {skip w : ℕ} {u : Units} {o : Origin} {n : ℕ} {r : GyrRun}
    (h : GyrAt P T skip w kw a.kw u o [] n r) (ha : a.kw.nsnap.getD 0 ≤ n)
    (hno : NoNumbered fs kw a.kw) (hn : kw.nsnap.getD 0 ≤ n) (ho : r.run.ofile = none) :
    advanceGyr g fc P fs a none r = (getGyrfalcon g fc P (advGKw a r) (some u) (some o) none true T).bind (fun x =>
      if x.1.run.ntot = 0 then
        if fs.dir (x.1.run.wdir ++ "cont/") then
          loadGyr g fc P fs none { (advGKw a r) with kw := { (advGKw a r).kw with wdir := some (x.1.run.wdir ++ "cont/") } }
            x.1.run.unitsInit x.1.run.originInit none
        else .ok x.1
      else .ok { x.1 with run := { x.1.run with ofile := x.2 } }) := by
  obtain ⟨L, hL, hf⟩ := h.file
  cases hf
  unfold advanceGyr
  rw [h.toGyrMem.names ha, hno (n + 1) (by omega), Option.none_or, hL, Option.elim_some, h.units, h.origin, ho]
  rfl

theorem GyrAt.skip {P : Parse} {T : List Toks} {skip w : ℕ} {kw : Kw} {a : GKw} {u : Units} {o : Origin} {S : List GSnap} {n : ℕ} {r : GyrRun}
    (h : GyrAt P T skip w kw a.kw u o S n r) (hs : a.kw.skiprows = none ∨ a.kw.skiprows = some skip) : (advGKw a r).kw.skiprows.getD 13 = skip := by
  show a.kw.skiprows.getD r.run.skiprows = skip
  rcases hs with e | e
  · rw [e, Option.getD_none, h.skiprows]
  · rw [e, Option.getD_some]

/-- **C104.** A simulation stopped while it was writing a header: for every cut of the header (and for the whole header, if it is shorter than
`skiprows`), the snapshots before it are read, and the next advance returns a cluster without stars, as at the end of a file. -/
theorem C104_cut_header {g : Galpy} {fc : Cluster → Except Err Cluster} (hg : g.Positive) (hfc : CentreFinder g fc) {P : Parse} {fs : GFS}
    {filename : Option String} {k0 a : GKw} {skip w : ℕ} {u : Units} {o : Origin} {s0 s : GSnap} {S : List GSnap} {f H B : List Toks} {j : ℕ}
    (hs : IsBlock P skip w s H B) (hj : j ≤ H.length) (hjs : j < skip)
    (hfile : gyrFile fs filename k0.kw = some f) (hf : GyrStart P (H.take j) skip w (s0 :: S) f) (hsk : k0.kw.skiprows.getD 13 = skip)
    (hska : a.kw.skiprows = none ∨ a.kw.skiprows = some skip) (hna : a.kw.nsnap.getD 0 ≤ k0.kw.nsnap.getD 0)
    (hno : NoNumbered fs k0.kw a.kw) (hw : gyrCols k0.give ≤ w) (hwa : gyrCols (some (a.give.getD "mxv")) ≤ w) (hu : u.linear)
    (ho : o = .galaxy ∨ o = .cluster) (hm : ∀ s ∈ s0 :: S, (0 : ℝ) ≤ (s.rows.map (fun l => l[0]!)).sum)
    (hd : fs.dir ((a.kw.wdir.or k0.kw.wdir).getD "./" ++ "cont/") = false) :
    ∃ r0 r r', loadGyr g fc P fs filename k0 (some u) (some o) none = .ok r0 ∧ Delivers k0.kw u o 0 s0 r0.run ∧
      advanceGyrMany g fc P fs a S.length r0 = .ok r ∧ (∀ i si, S.length = i + 1 → S[i]? = some si → HasSnap 1 si r.run) ∧
      advanceGyr g fc P fs a none r = .ok r' ∧ r'.run.ntot = 0 ∧ r'.run.base.st = [] := by
  obtain ⟨r0, e1, e2, e3, e4, e5⟩ := loadGyr_ok hg hfc (ofile := none) hfile hf hsk hw hu ho (hm s0 (by simp)) a.kw
  obtain ⟨r, f1, f2, f3, f4⟩ := advanceGyrMany_ok hg hfc (fs := fs) hska hno hwa hu ho S.length S none (fun _ => 0) (fun _ => default)
    _ r0 e5 e3 hna (le_refl _) (le_refl _) (fun s hs => hm s (List.mem_cons_of_mem _ hs)) (fun j _ L hL => by cases hL)
  rw [List.drop_length] at f2
  refine ⟨r0, r, emptyGyr (advGKw a r), e1, e2, f1, fun i si hi hsi => (f4 i si hi hsi).1, ?_, rfl, rfl⟩
  rw [advanceGyr_left f2 (by omega) hno (by omega) (by simpa using f3)]
  unfold getGyrfalcon
  rw [f2.skip hska, gyrHead_cut hs.header hjs hj]
  simp only [bind, Except.bind, Option.elim_none]
  rw [if_pos (show (emptyGyr (advGKw a r)).run.ntot = 0 from rfl), if_neg]
  show ¬fs.dir (a.kw.wdir.getD r.run.wdir ++ "cont/") = true
  rw [f2.wdir, hd]
  simp

/-- **C105, violated.** A simulation stopped while it was writing the stars of a snapshot: for every cut between the rows or in a row (the
words `d.take i`), the snapshots before it are read, but the next advance raises `IndexError` instead of returning a cluster without stars. -/
theorem C105_cut_rows_violated {g : Galpy} {fc : Cluster → Except Err Cluster} (hg : g.Positive) (hfc : CentreFinder g fc) {P : Parse} {fs : GFS}
    {filename : Option String} {k0 a : GKw} {skip w : ℕ} {u : Units} {o : Origin} {s0 s : GSnap} {S : List GSnap} {f H B E : List Toks} {j : ℕ}
    (hs : IsBlock P skip w s H B) (hj : j < s.rows.length) (hE : E = [] ∨ ∃ i, 0 < i ∧ i < gyrCols (some (a.give.getD "mxv")) ∧ E = [(B[j]!).take i])
    (hjs : H.length = skip ∨ 0 < j ∨ E ≠ [])
    (hfile : gyrFile fs filename k0.kw = some f) (hf : GyrStart P (H ++ (B.take j ++ E)) skip w (s0 :: S) f) (hsk : k0.kw.skiprows.getD 13 = skip)
    (hska : a.kw.skiprows = none ∨ a.kw.skiprows = some skip) (hna : a.kw.nsnap.getD 0 ≤ k0.kw.nsnap.getD 0)
    (hno : NoNumbered fs k0.kw a.kw) (hw : gyrCols k0.give ≤ w) (hwa : gyrCols (some (a.give.getD "mxv")) ≤ w) (hu : u.linear)
    (ho : o = .galaxy ∨ o = .cluster) (hm : ∀ s ∈ s0 :: S, (0 : ℝ) ≤ (s.rows.map (fun l => l[0]!)).sum) :
    ∃ r0 r, loadGyr g fc P fs filename k0 (some u) (some o) none = .ok r0 ∧ advanceGyrMany g fc P fs a S.length r0 = .ok r ∧
      advanceGyr g fc P fs a none r = .error .indexError := by
  obtain ⟨r0, e1, e2, e3, e4, e5⟩ := loadGyr_ok hg hfc (ofile := none) hfile hf hsk hw hu ho (hm s0 (by simp)) a.kw
  obtain ⟨r, f1, f2, f3, f4⟩ := advanceGyrMany_ok hg hfc (fs := fs) hska hno hwa hu ho S.length S none (fun _ => 0) (fun _ => default)
    _ r0 e5 e3 hna (le_refl _) (le_refl _) (fun s hs => hm s (List.mem_cons_of_mem _ hs)) (fun j _ L hL => by cases hL)
  rw [List.drop_length] at f2
  refine ⟨r0, r, e1, f1, ?_⟩
  have hE' : Stump P (gyrCols (advGKw a r).give) E := by
    rcases hE with rfl | ⟨i, hi, hi', rfl⟩
    · exact .nil
    · have hB := hs.rows.length_eq
      have hrow : IsGyrRow P s.rows[j] B[j] := hs.rows.get (by omega) (by omega)
      have hl := hrow.vals.length_eq
      rw [hs.width _ (List.getElem_mem _)] at hl
      rw [getElem!_pos B j (by omega)]
      refine .cons (r := s.rows[j].take i) [] ⟨fun w hw => hrow.plain w (List.mem_of_mem_take hw), List.forall₂_take i hrow.vals⟩ ?_ ?_
      · intro e
        have := congrArg List.length e
        rw [List.length_take, List.length_nil] at this
        omega
      · rw [List.length_take]
        exact lt_of_le_of_lt (min_le_left _ _) hi'
  rw [advanceGyr_left f2 (by omega) hno (by omega) (by simpa using f3), getGyr_cut_rows hs (f2.skip hska) hwa hE' hj hjs]
  rfl

/-- **C105, violated.** The other reader takes the first snapshot cut after `j ≥ 2` of its `n` stars for a cluster of `j` stars. -/
theorem C105_cut_silently_violated {g : Galpy} {fc : Cluster → Except Err Cluster} (hg : g.Positive) (hfc : CentreFinder g fc) {P : Parse} {fs : GFS}
    {filename : Option String} {k0 : GKw} {skip w : ℕ} {u : Units} {o : Origin} {s : GSnap} {f H B : List Toks} {j : ℕ}
    (hs : IsBlock P skip w s H B) (hH : H.length = skip) (hj : 2 ≤ j) (hjn : j < s.rows.length)
    (hfile : gyrFile fs filename k0.kw = some f) (hf : f = H ++ B.take j) (hsk : k0.kw.skiprows.getD 13 = skip)
    (hw : gyrCols k0.give ≤ w) (hu : u.linear) (ho : o = .galaxy ∨ o = .cluster) (hm : ∀ r ∈ s.rows, (0 : ℝ) ≤ r[0]!) :
    ∃ r, loadNewGyr g fc P fs filename k0 (some u) (some o) none = .ok r ∧ r.run.ntot = j ∧ HasSnap 0 ⟨s.t, s.rows.take j⟩ r.run ∧
      r.run.base.tphys = s.t := by
  have hc := cols_pos k0.give
  have hlen : (s.rows.take j).length = j := by rw [List.length_take]; omega
  have hne : s.rows.take j ≠ [] := by intro e; rw [e] at hlen; simp at hlen; omega
  have hr : ∀ r ∈ s.rows.take j, r.length = w := fun r hr => hs.width r (List.mem_of_mem_take hr)
  have hrows := List.forall₂_take j hs.rows
  have hdrop : f.drop skip = B.take j := by rw [hf, ← hH, List.drop_left]
  have hl : loadRows P skip s.rows.length f = .ok ⟨s.rows.take j, w⟩ := by
    have e0 := take_rows (by omega : 0 < w) [] hrows hr
    rw [List.append_nil] at e0
    have e1 : (((B.take j).map uncomment).filter (· ≠ [])).take s.rows.length = B.take j := by
      have hle : (((B.take j).map uncomment).filter (· ≠ [])).length ≤ j := by
        refine (List.length_filter_le _ _).trans ?_
        rw [List.length_map, List.length_take]
        omega
      rw [hlen, List.take_of_length_le hle] at e0
      rw [e0, List.take_of_length_le]
      rw [List.length_take]
      omega
    have e : ((s.rows.take j).headD []).length = w := by
      cases hh : s.rows.take j with
      | nil => exact absurd hh hne
      | cons r rows => exact hr r (by rw [hh]; simp)
    unfold loadRows
    rw [hdrop, e1, allFloats_rows hrows]
    simp only [bind, Except.bind, pure, Except.pure]
    rw [if_pos (fun r h => (hr r h).trans e.symm), e]
  obtain ⟨x, hx⟩ := arrCols_ok (a := ⟨s.rows.take j, w⟩) (by show 2 ≤ (s.rows.take j).length; omega) (by show 2 ≤ w; omega)
    (List.range (gyrCols k0.give)) (fun i hi => lt_of_lt_of_le (List.mem_range.mp hi) hw)
  obtain ⟨r, h1, h2, h3, h4, h5, h6, h7, h8, h9, h10⟩ := gyrStars_ok hg hfc (k := k0) (skip := skip) (id0 := 0) (u := u) (o := o) (ofile := none)
    (adv := false) (τ := 0) (q := default) (s := ⟨s.t, s.rows.take j⟩) (t := s.t) (sf := f) (dt := none) (n := (s.rows.length : ℤ)) (rows := s.rows.take j)
    (by omega) hu ho hne (fun j hj => rfl) (by
      refine List.sum_nonneg fun x hx => ?_
      obtain ⟨r, hr, rfl⟩ := List.mem_map.mp hx
      exact hm r (List.mem_of_mem_take hr)) (fun L hL => by cases hL)
  have hh : gyrHead P skip {} f = .ok (some (⟨s.rows.length, s.t⟩, none, f.drop skip)) := by
    rw [hdrop, hf, ← hH, gyrHead_header hs.header]
  have hget : getNewGyr g fc P k0 (some u) (some o) none false f = .ok (r, none) := by
    unfold getNewGyr
    simp only [hsk, hh, bind, Except.bind, Option.elim_some, Int.toNat_natCast, Bool.false_eq_true, if_false, hl, hx]
    exact h1
  refine ⟨{ r with run := { r.run with ofile := none } }, ?_, ?_, ⟨h2.ntot, h2.st, h2.m, h2.id⟩, by simpa using h6⟩
  · simp only [loadNewGyr, hfile, Option.elim_some, hget, bind, Except.bind, pure, Except.pure]
  · exact h2.ntot.trans hlen

/-! ### a concrete file -/

theorem IsGyrFile.andThen {P : Parse} {skip w : ℕ} {S : List GSnap} {f : List Toks} (h : IsGyrFile P skip w S f) (T : List Toks) :
    GyrStart P T skip w S (f ++ T) := by
  induction h with
  | nil => exact .nil
  | cons h1 h2 h3 h4 h5 _ ih => rw [List.append_assoc]; exact .cons h1 h2 h3 h4 h5 ih

theorem regular_block (t : String) (T : ℝ) (ht : digits.flt t = .ok T) (h : ¬mentions "Ntot" ["#", "time:", t]) (skip : ℕ) (hs : 2 ≤ skip) :
    IsBlock digits skip 7 (regularSnap T 1) [["#", "Ntot:", "2,"], ["#", "time:", t]]
      [["1", "0", "1", "3", "0", "0", "0"], ["2", "1", "0", "1", "0", "1", "0"]] := by
  have e : String.ofList ("2".toList ++ [',']) = "2," := by decide
  have h0 := regular_header "2" t 2 T (by simp [digits]) ht h
  rw [e] at h0
  exact ⟨h0 (by decide), hs, .cons (digits_row (by simp)) (.cons (digits_row (by simp)) .nil), by simp [regularSnap]⟩

def stoppedFS (T : List Toks) : GFS := ⟨fun p => if p = "run.dat" then some (regularText ++ T) else none, fun _ => false⟩

theorem stoppedFS_none (T : List Toks) : NoNumbered (stoppedFS T) {} {} := by
  intro n _
  have e1 : dirSlash "./" = "./" := by decide
  have e2 : dirSlash "" = "" := by decide
  have ne : ∀ s : String, "./" ++ s ≠ "run.dat" := by
    intro s e
    have := congrArg String.toList e
    simp at this
  simp [gyrFile, advNames, e1, e2, stoppedFS, ne]

theorem regularText_start (T : List Toks) : GyrStart digits T 2 7 [regularSnap 0 0, regularSnap 1 1, regularSnap 3 2] (regularText ++ T) :=
  (regularText_file.gyr (by omega) rfl).andThen T

/-- Three snapshots, then one line of a header: an empty cluster after the third. -/
example : ∃ r0 r r', loadGyr demoG (findCentreDefault demoG) digits (stoppedFS [["#", "Ntot:", "2,"]]) (some "run.dat") { kw := { skiprows := some 2 } }
      (some .kpckms) (some .cluster) none = .ok r0 ∧
    advanceGyrMany demoG (findCentreDefault demoG) digits (stoppedFS [["#", "Ntot:", "2,"]]) {} 2 r0 = .ok r ∧ HasSnap 1 (regularSnap 3 2) r.run ∧
    advanceGyr demoG (findCentreDefault demoG) digits (stoppedFS [["#", "Ntot:", "2,"]]) {} none r = .ok r' ∧ r'.run.ntot = 0 := by
  obtain ⟨r0, r, r', h1, -, h2, h3, h4, h5, -⟩ := C104_cut_header demoG_positive (findCentreDefault_ok demoG) (fs := stoppedFS [["#", "Ntot:", "2,"]])
    (filename := some "run.dat") (k0 := { kw := { skiprows := some 2 } }) (a := {}) (u := .kpckms) (o := .cluster) (j := 1)
    (regular_block "3" 3 (by simp [digits]) (by decide) 2 (le_refl _)) (by simp) (by simp) (by simp [gyrFile, stoppedFS])
    (regularText_start _) rfl (.inl rfl) (by simp) (stoppedFS_none _) (by decide) (by decide) trivial (.inr rfl) regular_masses rfl
  exact ⟨r0, r, r', h1, h2, h3 1 _ rfl rfl, h4, h5⟩

/-- Three snapshots, then a header, one star and three numbers of the next: `IndexError`. -/
example : ∃ r0 r, loadGyr demoG (findCentreDefault demoG) digits
        (stoppedFS [["#", "Ntot:", "2,"], ["#", "time:", "3"], ["1", "0", "1", "3", "0", "0", "0"], ["2", "1", "0"]]) (some "run.dat")
        { kw := { skiprows := some 2 } } (some .kpckms) (some .cluster) none = .ok r0 ∧
    advanceGyrMany demoG (findCentreDefault demoG) digits
        (stoppedFS [["#", "Ntot:", "2,"], ["#", "time:", "3"], ["1", "0", "1", "3", "0", "0", "0"], ["2", "1", "0"]]) {} 2 r0 = .ok r ∧
    advanceGyr demoG (findCentreDefault demoG) digits
        (stoppedFS [["#", "Ntot:", "2,"], ["#", "time:", "3"], ["1", "0", "1", "3", "0", "0", "0"], ["2", "1", "0"]]) {} none r = .error .indexError :=
  C105_cut_rows_violated demoG_positive (findCentreDefault_ok demoG)
    (fs := stoppedFS [["#", "Ntot:", "2,"], ["#", "time:", "3"], ["1", "0", "1", "3", "0", "0", "0"], ["2", "1", "0"]])
    (filename := some "run.dat") (k0 := { kw := { skiprows := some 2 } }) (a := {}) (u := .kpckms) (o := .cluster) (j := 1) (E := [["2", "1", "0"]])
    (regular_block "3" 3 (by simp [digits]) (by decide) 2 (le_refl _)) (by simp [regularSnap]) (.inr ⟨3, by omega, by decide, rfl⟩) (.inl rfl)
    (by simp [gyrFile, stoppedFS]) (regularText_start _) rfl (.inl rfl) (by simp) (stoppedFS_none _) (by decide) (by decide) trivial (.inr rfl)
    regular_masses

/-- A file with two of the three stars its header announces: the other reader takes it for a cluster of two stars. -/
example : ∃ r, loadNewGyr demoG (findCentreDefault demoG) digits
        ⟨fun p => if p = "run.dat" then some [["#", "Ntot:", "3,"], ["#", "time:", "1"], ["1", "0", "1", "3", "0", "0", "0"],
          ["2", "1", "0", "1", "0", "1", "0"]] else none, fun _ => false⟩ (some "run.dat")
        { kw := { skiprows := some 2 } } (some .kpckms) (some .cluster) none = .ok r ∧ r.run.ntot = 2 ∧ r.run.base.m = [1, 2] := by
  have e : String.ofList ("3".toList ++ [',']) = "3," := by decide
  have h0 := regular_header "3" "1" 3 1 (by simp [digits]) (by simp [digits]) (by decide)
  rw [e] at h0
  have hb : IsBlock digits 2 7 ⟨1, [[1, 0, 1, 3, 0, 0, 0], [2, 1, 0, 1, 0, 1, 0], [3, 0, 0, 0, 0, 0, 0]]⟩ [["#", "Ntot:", "3,"], ["#", "time:", "1"]]
      [["1", "0", "1", "3", "0", "0", "0"], ["2", "1", "0", "1", "0", "1", "0"], ["3", "0", "0", "0", "0", "0", "0"]] :=
    ⟨h0 (by decide), le_refl _, .cons (digits_row (by simp)) (.cons (digits_row (by simp)) (.cons (digits_row (by simp)) .nil)), by simp⟩
  obtain ⟨r, h1, h2, h3, -⟩ := C105_cut_silently_violated demoG_positive (findCentreDefault_ok demoG)
    (fs := ⟨fun p => if p = "run.dat" then some [["#", "Ntot:", "3,"], ["#", "time:", "1"], ["1", "0", "1", "3", "0", "0", "0"],
          ["2", "1", "0", "1", "0", "1", "0"]] else none, fun _ => false⟩) (filename := some "run.dat") (k0 := { kw := { skiprows := some 2 } })
    (u := .kpckms) (o := .cluster) (j := 2) hb rfl (le_refl _) (by simp) (by simp [gyrFile]) rfl rfl (by decide) trivial (.inr rfl) (by simp)
  exact ⟨r, h1, h2, by rw [h3.m]; simp⟩

end

end CT
