/- C101: what reading gyrfalcON files forgets; a concrete file. -/
import Verif.Props.Gyr2
import Verif.Props.IO3

namespace CT

noncomputable section

/-- **C101, violated.** The orbit file given to `load_cluster` is not read: whatever it says, the cluster is the one loaded without it. -/
theorem C101_orbit_at_load_violated (g : Galpy) (fc : Cluster → Except Err Cluster) (P : Parse) (fs : GFS) (filename : Option String) (k : GKw)
    (u : Option Units) (o : Option Origin) (L : List Line) (r : GyrRun) (h : loadGyr g fc P fs filename k u o (some L) = .ok r) :
    ∃ r', loadGyr g fc P fs filename k u o none = .ok r' ∧ r.run.base = r'.run.base := by
  unfold loadGyr at h ⊢
  cases hf : gyrFile fs filename k.kw with
  | none => rw [hf] at h; cases h
  | some f =>
    rw [hf] at h
    simp only [Option.elim_some] at h ⊢
    obtain ⟨x, hx, h⟩ := bind_ok h
    simp only [hx, bind, Except.bind, pure, Except.pure] at h ⊢
    cases h
    exact ⟨_, rfl, rfl⟩

/-- **C101, violated.** After `k + 1` advances the cluster has the place of line `k` of the orbit file, the line that belongs to the
snapshot before: for every file, every orbit file with a line for each snapshot and every `k`. -/
theorem C101_orbit_lags_violated {g : Galpy} {fc : Cluster → Except Err Cluster} (hg : g.Positive) (hfc : CentreFinder g fc) {P : Parse} {fs : GFS}
    {filename : Option String} {k0 a : GKw} {skip w : ℕ} {u : Units} {o : Origin} {s0 : GSnap} {S : List GSnap} {f : List Toks}
    (hfile : gyrFile fs filename k0.kw = some f) (hf : IsGyrFile P skip w (s0 :: S) f) (hsk : k0.kw.skiprows.getD 13 = skip)
    (hska : a.kw.skiprows = none ∨ a.kw.skiprows = some skip) (hna : a.kw.nsnap.getD 0 ≤ k0.kw.nsnap.getD 0)
    (hno : NoNumbered fs k0.kw a.kw) (hw : gyrCols k0.give ≤ w) (hwa : gyrCols (some (a.give.getD "mxv")) ≤ w) (hu : u.linear)
    (ho : o = .galaxy ∨ o = .cluster) (hm : ∀ s ∈ s0 :: S, (0 : ℝ) ≤ (s.rows.map (fun l => l[0]!)).sum)
    (hc : a.kw.ocolNames = none ∧ a.kw.ocolNums = none ∧ a.kw.ounits = none) {L : List Line} {τ : ℕ → ℝ} {q : ℕ → Ph}
    (hL : ∀ j ≤ S.length, OrbitAt L j (τ j) (q j)) :
    ∃ r0, loadGyr g fc P fs filename k0 (some u) (some o) (some L) = .ok r0 ∧
      ∀ k s, S[k]? = some s → ∃ r, advanceGyrMany g fc P fs a (k + 1) r0 = .ok r ∧ HasSnap 1 s r.run ∧ r.run.base.gc = q k ∧
        (a.kw.otime.getD false = true → r.run.base.tphys = τ k) := by
  obtain ⟨r0, e1, e2, e3, e4, e5⟩ := loadGyr_ok hg hfc (ofile := some L) hfile hf hsk hw hu ho (hm s0 (by simp)) a.kw
  refine ⟨r0, e1, ?_⟩
  intro k s hs
  obtain ⟨hk, -⟩ := List.getElem?_eq_some_iff.mp hs
  obtain ⟨r, f1, f2, f3, f4⟩ := advanceGyrMany_ok hg hfc (fs := fs) hska hno hwa hu ho (k + 1) S (some L) τ q _ r0 e5 e3 hna (le_refl _)
    (by omega) (fun s hs => hm s (List.mem_cons_of_mem _ hs)) (by
      intro j hj L' hL'
      simp only [Option.map_some, Option.some.injEq] at hL'
      subst hL'
      obtain ⟨more, hmore⟩ := hL j (by omega)
      exact ⟨hc.1, hc.2.1, hc.2.2, more, by simpa using hmore⟩)
  obtain ⟨g1, g2, g3, g4, g5, g6⟩ := f4 k s rfl hs
  refine ⟨r, f1, g1, g4 rfl, fun ht => ?_⟩
  rw [g5, if_pos ⟨rfl, ht⟩]

/-- **C101, violated.** `load_cluster(…, nsnap=n)` reads the first snapshot of the file, whatever `n`, and labels it `n`. -/
theorem C101_nsnap_violated {g : Galpy} {fc : Cluster → Except Err Cluster} (hg : g.Positive) (hfc : CentreFinder g fc) {P : Parse} {fs : GFS}
    {filename : String} {k0 : GKw} {skip w : ℕ} {u : Units} {o : Origin} {s0 : GSnap} {S : List GSnap} {f : List Toks}
    (hfile : fs.file filename = some f) (hf : IsGyrFile P skip w (s0 :: S) f) (hsk : k0.kw.skiprows.getD 13 = skip)
    (hw : gyrCols k0.give ≤ w) (hu : u.linear) (ho : o = .galaxy ∨ o = .cluster) (hm : (0 : ℝ) ≤ (s0.rows.map (fun l => l[0]!)).sum) (n : ℕ) :
    ∃ r, loadGyr g fc P fs (some filename) { k0 with kw := { k0.kw with nsnap := some n } } (some u) (some o) none = .ok r ∧
      HasSnap 1 s0 r.run ∧ r.run.base.tphys = s0.t ∧ r.run.nsnap = n := by
  obtain ⟨r, e1, e2, -, -, -⟩ := loadGyr_ok hg hfc (fs := fs) (ofile := none) (filename := some filename) (k := { k0 with kw := { k0.kw with nsnap := some n } })
    (by simp [gyrFile, hfile]) hf hsk hw hu ho hm {}
  exact ⟨r, e1, e2.stars, e2.time, by simpa using e2.label⟩

/-- **C101, violated.** A file read with `give='mxve'`: after loading the cluster has its softening lengths, after advancing it has none. -/
theorem C101_give_violated {g : Galpy} {fc : Cluster → Except Err Cluster} (hg : g.Positive) (hfc : CentreFinder g fc) {P : Parse} {fs : GFS}
    {filename : Option String} {k0 a : GKw} {skip w : ℕ} {u : Units} {o : Origin} {s0 : GSnap} {S : List GSnap} {f : List Toks}
    (hfile : gyrFile fs filename k0.kw = some f) (hf : IsGyrFile P skip w (s0 :: S) f) (hsk : k0.kw.skiprows.getD 13 = skip)
    (hska : a.kw.skiprows = none ∨ a.kw.skiprows = some skip) (hna : a.kw.nsnap.getD 0 ≤ k0.kw.nsnap.getD 0)
    (hno : NoNumbered fs k0.kw a.kw) (hgive : k0.give = some "mxve") (ha : a.give = none) (hw : 8 ≤ w) (hu : u.linear)
    (ho : o = .galaxy ∨ o = .cluster) (hm : ∀ s ∈ s0 :: S, (0 : ℝ) ≤ (s.rows.map (fun l => l[0]!)).sum) :
    ∃ r0, loadGyr g fc P fs filename k0 (some u) (some o) none = .ok r0 ∧ r0.eps = some (s0.rows.map (fun l => l[7]!)) ∧
      ∀ k s, S[k]? = some s → ∃ r, advanceGyrMany g fc P fs a (k + 1) r0 = .ok r ∧ HasSnap 1 s r.run ∧ r.eps = none := by
  have c8 : gyrCols k0.give = 8 := by rw [hgive]; decide
  have c7 : gyrCols (some (a.give.getD "mxv")) = 7 := by rw [ha]; decide
  obtain ⟨r0, h1, h2, h3, h4, -⟩ := C100_chain hg hfc hfile hf hsk hska hna hno (by omega) (by omega) hu ho hm
  refine ⟨r0, h1, h3.eps8 hgive, fun k s hs => ?_⟩
  obtain ⟨r, e1, e2, e3⟩ := h4 k s hs
  exact ⟨r, e1, e2.stars, e3.none7 (by rw [ha]; decide) (by rw [ha]; decide)⟩

/-- **C101, violated.** The clusters of a file share one reading position.  Advancing the first cluster `r0` a second time (its file is then
where the first advance `r1` left it) gives the third snapshot, with the label of the second. -/
theorem C101_twice_violated {g : Galpy} {fc : Cluster → Except Err Cluster} (hg : g.Positive) (hfc : CentreFinder g fc) {P : Parse} {fs : GFS}
    {filename : Option String} {k0 a : GKw} {skip w : ℕ} {u : Units} {o : Origin} {s0 s1 s2 : GSnap} {S : List GSnap} {f : List Toks}
    (hfile : gyrFile fs filename k0.kw = some f) (hf : IsGyrFile P skip w (s0 :: s1 :: s2 :: S) f) (hsk : k0.kw.skiprows.getD 13 = skip)
    (hska : a.kw.skiprows = none ∨ a.kw.skiprows = some skip) (hna : a.kw.nsnap.getD 0 ≤ k0.kw.nsnap.getD 0)
    (hno : NoNumbered fs k0.kw a.kw) (hw : gyrCols k0.give ≤ w) (hwa : gyrCols (some (a.give.getD "mxv")) ≤ w) (hu : u.linear)
    (ho : o = .galaxy ∨ o = .cluster) (hm : ∀ s ∈ s0 :: s1 :: s2 :: S, (0 : ℝ) ≤ (s.rows.map (fun l => l[0]!)).sum) :
    ∃ r0 r1 r2, loadGyr g fc P fs filename k0 (some u) (some o) none = .ok r0 ∧ advanceGyr g fc P fs a none r0 = .ok r1 ∧
      advanceGyr g fc P fs a none { r0 with sfile := r1.sfile } = .ok r2 ∧ HasSnap 1 s1 r1.run ∧ HasSnap 1 s2 r2.run ∧
      r1.run.nsnap = k0.kw.nsnap.getD 0 + 1 ∧ r2.run.nsnap = k0.kw.nsnap.getD 0 + 1 := by
  obtain ⟨r0, e1, e2, e3, e4, e5⟩ := loadGyr_ok hg hfc (ofile := none) hfile hf hsk hw hu ho (hm s0 (by simp)) a.kw
  obtain ⟨r1, f1, f2, f3, -⟩ := advanceGyr_ok hg hfc (fs := fs) (τ := 0) (q := default) e5 hna hska hno (le_refl _) hwa hu ho (hm s1 (by simp))
    (by rw [e3]; intro L hL; cases hL)
  have st : GyrAt P [] skip w k0.kw a.kw u o (s2 :: S) (k0.kw.nsnap.getD 0) { r0 with sfile := r1.sfile } := ⟨e5.toGyrMem, f2.file⟩
  obtain ⟨r2, h1, h2, h3, -⟩ := advanceGyr_ok hg hfc (fs := fs) (τ := 0) (q := default) st hna hska hno (le_refl _) hwa hu ho (hm s2 (by simp))
    (by show OrbitNext _ r0.run.ofile _ _; rw [e3]; intro L hL; cases hL)
  exact ⟨r0, r1, r2, e1, f1, h1, f3, h3, f2.nsnap, h2.nsnap⟩

/-! ### a concrete file -/

/-- Numbers written as the digits `0 … 3`. -/
def digits : Parse :=
  { flt := fun s => if s = "0" then .ok 0 else if s = "1" then .ok 1 else if s = "2" then .ok 2 else if s = "3" then .ok 3 else .error .valueError
    int := fun s => if s = "0" then .ok 0 else if s = "1" then .ok 1 else if s = "2" then .ok 2 else if s = "3" then .ok 3 else .error .valueError }

/-- Two snapshots: two stars at time 0 under two comment lines, one star at time 1 under three. -/
def gyrText : List Toks :=
  [["#", "Ntot:", "2,"], ["#", "time:", "0"],
   ["1", "0", "0", "3", "0", "0", "0", "1"], ["2", "1", "0", "0", "0", "1", "0", "1"],
   ["#", "stop"], ["#", "Ntot:", "1,"], ["#", "time:", "1"],
   ["3", "0", "2", "0", "1", "0", "0", "1"]]

def gyrSnap0 : GSnap := ⟨0, [[1, 0, 0, 3, 0, 0, 0, 1], [2, 1, 0, 0, 0, 1, 0, 1]]⟩

def gyrSnap1 : GSnap := ⟨1, [[3, 0, 2, 0, 1, 0, 0, 1]]⟩

theorem digits_row {d : Toks} {r : List ℝ} (h : List.Forall₂ (fun (w : String) (v : ℝ) => (w = "0" ∧ v = 0) ∨ (w = "1" ∧ v = 1) ∨ (w = "2" ∧ v = 2) ∨ (w = "3" ∧ v = 3)) d r) :
    IsGyrRow digits r d := by
  induction h with
  | nil => exact ⟨by simp, .nil⟩
  | @cons w v d r h1 h2 ih =>
    refine ⟨?_, .cons ?_ ih.vals⟩
    · intro x hx
      rcases List.mem_cons.mp hx with rfl | hx
      · rcases h1 with ⟨rfl, -⟩ | ⟨rfl, -⟩ | ⟨rfl, -⟩ | ⟨rfl, -⟩ <;> decide
      · exact ih.plain x hx
    · rcases h1 with ⟨rfl, rfl⟩ | ⟨rfl, rfl⟩ | ⟨rfl, rfl⟩ | ⟨rfl, rfl⟩ <;> simp [digits]

instance (s : String) (d : Toks) : Decidable (mentions s d) := by unfold mentions; infer_instance

theorem gyrText_file : IsGyrFile digits 3 8 [gyrSnap0, gyrSnap1] gyrText := by
  have h0 : IsGyrHeader digits 2 0 [["#", "Ntot:", "2,"], ["#", "time:", "0"]] := by
    have n1 : ¬mentions "Ntot" ["#", "time:", "0"] := by decide
    have n2 : ¬mentions "time" ["#", "Ntot:", "2,"] := by decide
    refine ⟨by simp, ⟨_, by simp, show mentions "Ntot" ["#", "Ntot:", "2,"] by decide⟩, ⟨["#", "time:", "0"], by simp, by decide⟩, ?_, ?_⟩
    · intro d hd hm
      rcases List.mem_cons.mp hd with rfl | hd
      · exact ⟨"#", "Ntot:", "2", ',', [], by decide, by simp [digits]⟩
      · rcases List.mem_singleton.mp hd with rfl
        exact absurd hm n1
    · intro d hd hm
      rcases List.mem_cons.mp hd with rfl | hd
      · exact absurd hm n2
      · rcases List.mem_singleton.mp hd with rfl
        exact ⟨"#", "time:", "0", [], rfl, by simp [digits]⟩
  have h1 : IsGyrHeader digits 1 1 [["#", "stop"], ["#", "Ntot:", "1,"], ["#", "time:", "1"]] := by
    have n1 : ¬mentions "Ntot" ["#", "time:", "1"] := by decide
    have n2 : ¬mentions "time" ["#", "Ntot:", "1,"] := by decide
    have n3 : ¬mentions "Ntot" ["#", "stop"] := by decide
    have n4 : ¬mentions "time" ["#", "stop"] := by decide
    refine ⟨by simp, ⟨_, by simp, show mentions "Ntot" ["#", "Ntot:", "1,"] by decide⟩, ⟨["#", "time:", "1"], by simp, by decide⟩, ?_, ?_⟩
    · intro d hd hm
      simp only [List.mem_cons, List.not_mem_nil, or_false] at hd
      rcases hd with rfl | rfl | rfl
      · exact absurd hm n3
      · exact ⟨"#", "Ntot:", "1", ',', [], by decide, by simp [digits]⟩
      · exact absurd hm n1
    · intro d hd hm
      simp only [List.mem_cons, List.not_mem_nil, or_false] at hd
      rcases hd with rfl | rfl | rfl
      · exact absurd hm n4
      · exact absurd hm n2
      · exact ⟨"#", "time:", "1", [], rfl, by simp [digits]⟩
  refine GyrStart.cons (s := gyrSnap0) (H := [["#", "Ntot:", "2,"], ["#", "time:", "0"]])
    (B := [["1", "0", "0", "3", "0", "0", "0", "1"], ["2", "1", "0", "0", "0", "1", "0", "1"]]) h0 (by simp) (by simp [gyrSnap0]) ?_ (by simp [gyrSnap0])
    (GyrStart.cons (s := gyrSnap1) (H := [["#", "stop"], ["#", "Ntot:", "1,"], ["#", "time:", "1"]])
      (B := [["3", "0", "2", "0", "1", "0", "0", "1"]]) h1 (by simp) (by simp [gyrSnap1]) ?_ (by simp [gyrSnap1]) .nil)
  · exact .cons (digits_row (by simp)) (.cons (digits_row (by simp)) .nil)
  · exact .cons (digits_row (by simp)) .nil

def gyrFS : GFS := ⟨fun p => if p = "run.dat" then some gyrText else none, fun _ => false⟩

theorem gyrFS_none : NoNumbered gyrFS {} {} := by
  intro n _
  have e1 : dirSlash "./" = "./" := by decide
  have e2 : dirSlash "" = "" := by decide
  have ne : ∀ s : String, "./" ++ s ≠ "run.dat" := by
    intro s e
    have := congrArg String.toList e
    simp at this
  simp [gyrFile, advNames, e1, e2, gyrFS, ne]

theorem gyr_masses : ∀ s ∈ [gyrSnap0, gyrSnap1], (0 : ℝ) ≤ (s.rows.map (fun l => l[0]!)).sum := by
  intro s hs
  simp only [List.mem_cons, List.not_mem_nil, or_false] at hs
  rcases hs with rfl | rfl <;> norm_num [gyrSnap0, gyrSnap1]

/-- The hypotheses of C100 and C101 are met by a file with two snapshots of different sizes and headers. -/
example : ∃ r0 r1 r2, loadGyr demoG (findCentreDefault demoG) digits gyrFS (some "run.dat") { kw := { skiprows := some 3 }, give := some "mxve" }
      (some .kpckms) (some .cluster) none = .ok r0 ∧ r0.run.ntot = 2 ∧ r0.run.base.tphys = 0 ∧
    advanceGyrMany demoG (findCentreDefault demoG) digits gyrFS {} 1 r0 = .ok r1 ∧ r1.run.ntot = 1 ∧ r1.run.base.st = [⟨0, 2, 0, 1, 0, 0⟩] ∧
    r1.run.base.tphys = 1 ∧
    advanceGyrMany demoG (findCentreDefault demoG) digits gyrFS {} 2 r0 = .ok r2 ∧ r2.run.ntot = 0 := by
  obtain ⟨r0, h1, h2, -, h3, h4⟩ := C100_chain demoG_positive (findCentreDefault_ok demoG) (fs := gyrFS) (filename := some "run.dat")
    (k0 := { kw := { skiprows := some 3 }, give := some "mxve" }) (a := {}) (u := .kpckms) (o := .cluster) (by simp [gyrFile, gyrFS]) gyrText_file rfl
    (.inl rfl) (by simp) gyrFS_none (by decide) (by decide) trivial (.inr rfl) gyr_masses
  obtain ⟨r1, e1, e2, -⟩ := h3 0 gyrSnap1 rfl
  obtain ⟨r2, f1, f2, -⟩ := h4 (by omega) rfl
  refine ⟨r0, r1, r2, h1, h2.stars.ntot, h2.time, e1, e2.stars.ntot, ?_, e2.time, f1, f2⟩
  rw [e2.stars.st]
  simp [gyrSnap1]

/-- The orbit file of C101: the cluster is at `x = 10 + k` when snapshot `k` is written; after one advance it is put at `x = 10`. -/
example : ∃ r0 r1, loadGyr demoG (findCentreDefault demoG) digits gyrFS (some "run.dat") { kw := { skiprows := some 3 } }
      (some .kpckms) (some .cluster) (some [.row [0, 10, 0, 0, 0, 220, 0], .row [1, 11, 0, 0, 0, 220, 0]]) = .ok r0 ∧
    advanceGyrMany demoG (findCentreDefault demoG) digits gyrFS {} 1 r0 = .ok r1 ∧ HasSnap 1 gyrSnap1 r1.run ∧ r1.run.base.gc = ⟨10, 0, 0, 0, 220, 0⟩ := by
  obtain ⟨r0, h1, h2⟩ := C101_orbit_lags_violated demoG_positive (findCentreDefault_ok demoG) (fs := gyrFS) (filename := some "run.dat")
    (k0 := { kw := { skiprows := some 3 } }) (a := {}) (u := .kpckms) (o := .cluster) (by simp [gyrFile, gyrFS]) gyrText_file rfl
    (.inl rfl) (by simp) gyrFS_none (by decide) (by decide) trivial (.inr rfl) gyr_masses ⟨rfl, rfl, rfl⟩
    (L := [.row [0, 10, 0, 0, 0, 220, 0], .row [1, 11, 0, 0, 0, 220, 0]]) (τ := fun j => j) (q := fun j => ⟨10 + j, 0, 0, 0, 220, 0⟩) (by
      intro j hj
      simp only [List.length_cons, List.length_nil] at hj
      refine ⟨[], ?_⟩
      interval_cases j <;> norm_num)
  obtain ⟨r1, e1, e2, e3, -⟩ := h2 0 gyrSnap1 rfl
  exact ⟨r0, r1, h1, e1, e2, by rw [e3]; norm_num⟩

end

end CT
