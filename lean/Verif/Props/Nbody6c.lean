/- C57: N-body scales of binaries.  C58: stellar-evolution files. -/
import Verif.Spec.Nbody6

namespace CT

noncomputable section

set_option linter.unusedSimpArgs false

/-! ### C57 -/

/-- **C57.**  The scales for binaries set by `add_nbody6` are consistent with the length and mass scales: `rbar_au` is `rbar`
parsecs in astronomical units (one parsec is 648000/π au), `rbar_su` is the same length in solar radii, and
`tbar_days` is the period in days of a Kepler orbit with semi-major axis `rbar` around the mass `zmbar`: with `a` in au,
`P` in years and `M` in solar masses, `P² M = a³`. -/
theorem C57_scales {rbar xc yc zc zmbar vbar tbar nb : ℝ} {t : Tab} (hr : 0 < rbar) (hz : 0 < zmbar) :
    (addNbody6 rbar xc yc zc zmbar vbar tbar nb t).base.rbarAu = rbar * (648000 / Real.pi) ∧
      (addNbody6 rbar xc yc zc zmbar vbar tbar nb t).base.rbarSu * 6.957e10 =
        (addNbody6 rbar xc yc zc zmbar vbar tbar nb t).base.rbarAu * 1.49597870700e13 ∧
      ((addNbody6 rbar xc yc zc zmbar vbar tbar nb t).base.tbarDays / 365.25) ^ 2 * zmbar =
        (addNbody6 rbar xc yc zc zmbar vbar tbar nb t).base.rbarAu ^ 3 := by
  have hpi : Real.pi ≠ 0 := Real.pi_ne_zero
  have e1 : (addNbody6 rbar xc yc zc zmbar vbar tbar nb t).base.rbarAu = rbar * (648000 / Real.pi) := by
    show 1296000 / (2 * Real.pi) * 1.49597870700e13 / 1.49597870700e13 * rbar = _
    field_simp
    ring
  refine ⟨e1, ?_, ?_⟩
  · rw [e1]
    show 1296000 / (2 * Real.pi) * 1.49597870700e13 / 6.957e10 * rbar * 6.957e10 = _
    field_simp
    ring
  · rw [e1]
    show (365.25 * ((rbar * 1296000 / (2 * Real.pi)) ^ (1.5 : ℝ) / Real.sqrt zmbar) / 365.25) ^ 2 * zmbar = _
    have hb : rbar * 1296000 / (2 * Real.pi) = rbar * (648000 / Real.pi) := by field_simp; ring
    have hp : 0 < rbar * (648000 / Real.pi) := by have := Real.pi_pos; positivity
    rw [hb]
    generalize rbar * (648000 / Real.pi) = a at *
    have hs : Real.sqrt zmbar ^ 2 = zmbar := Real.sq_sqrt hz.le
    have ha : (a ^ (1.5 : ℝ)) ^ 2 = a ^ 3 := by
      rw [← Real.rpow_natCast, ← Real.rpow_mul hp.le]
      norm_num
    have : (365.25 * (a ^ (1.5 : ℝ) / Real.sqrt zmbar) / 365.25) ^ 2 * zmbar = (a ^ (1.5 : ℝ)) ^ 2 * (zmbar / Real.sqrt zmbar ^ 2) := by
      field_simp
    rw [this, ha, hs, div_self hz.ne', mul_one]

/-- **C57 (attributes).**  `add_nbody6` stores the scales and the centre, and changes neither stars nor labels. -/
theorem C57_stored {rbar xc yc zc zmbar vbar tbar : ℝ} {nb : ℕ} {t : Tab} :
    let b := (addNbody6 rbar xc yc zc zmbar vbar tbar nb t).base
    b.rbar = rbar ∧ b.zmbar = zmbar ∧ b.vbar = vbar ∧ b.tbar = tbar ∧ b.nb = nb ∧
      b.c = ⟨xc, yc, zc, t.base.c.vx, t.base.c.vy, t.base.c.vz⟩ ∧ b.st = t.base.st ∧ b.m = t.base.m ∧ b.gc = t.base.gc ∧
      b.units = t.base.units ∧ b.origin = t.base.origin := by
  have : (truncZ (nb : ℝ)).toNat = nb := by
    unfold truncZ
    rw [if_pos (Nat.cast_nonneg _)]
    simp
  refine ⟨rfl, rfl, rfl, rfl, ?_, rfl, rfl, rfl, rfl, rfl, rfl⟩
  exact this

/-- An instance: a cluster with scales of 2 pc and 3 solar masses. -/
example : ((addNbody6 2 0 0 0 3 1 1 0 (blankTab (some .nbody) (some .cluster) 0)).base.tbarDays / 365.25) ^ 2 * 3 =
    (2 * (648000 / Real.pi)) ^ 3 := by
  have h := C57_scales (xc := 0) (yc := 0) (zc := 0) (vbar := 1) (tbar := 1) (nb := 0) (t := blankTab (some .nbody) (some .cluster) 0)
    (show (0 : ℝ) < 2 by norm_num) (show (0 : ℝ) < 3 by norm_num)
  rw [h.2.2, h.1]

/-! ### C58 -/

/-- A binary: type, luminosities and radii of its components. -/
structure PairRec where
  kw : ℝ
  l1 : ℝ
  l2 : ℝ
  r1 : ℝ
  r2 : ℝ

/-- A single star. -/
structure SingleRec where
  kw : ℝ
  l : ℝ
  r : ℝ

def pairLines (l : List PairRec) : List BinLine := l.map (fun p => .pair p.kw p.l1 p.l2 p.r1 p.r2) ++ [.stop]
def singleLines (l : List SingleRec) : List SseLine := l.map (fun s => .star s.kw s.l s.r) ++ [.stop]

theorem readSingles_ok (l : List SingleRec) (f : List SseLine) (a : Sse) :
    readSingles l.length (l.map (fun s => .star s.kw s.l s.r) ++ f) a =
      .ok (⟨a.kw ++ l.map SingleRec.kw, a.logl ++ l.map SingleRec.l, a.logr ++ l.map SingleRec.r⟩, f) := by
  induction l generalizing a with
  | nil => simp [readSingles]
  | cons s l ih => simp [readSingles, ih]

/-- What is appended to the luminosities when the binaries of `l` follow those of `pre`. -/
def lumCols (pre : List PairRec) : List PairRec → List ℝ
  | [] => []
  | p :: l => (pre ++ [p]).map (fun q => logSum q.l1 q.l2) ++ lumCols (pre ++ [p]) l

theorem readPairs_ok (pre l : List PairRec) (f : List BinLine) (a : Sse) :
    readPairs l.length (l.map (fun p => .pair p.kw p.l1 p.l2 p.r1 p.r2) ++ f) (pre.map PairRec.l1) (pre.map PairRec.l2) a =
      .ok (⟨a.kw ++ l.map PairRec.kw, a.logl ++ lumCols pre l, a.logr ++ l.map (fun p => max p.r1 p.r2)⟩, f) := by
  induction l generalizing a pre with
  | nil => simp [readPairs, lumCols]
  | cons s l ih =>
    have e1 : pre.map PairRec.l1 ++ [s.l1] = (pre ++ [s]).map PairRec.l1 := by simp
    have e2 : pre.map PairRec.l2 ++ [s.l2] = (pre ++ [s]).map PairRec.l2 := by simp
    have e3 : List.zipWith logSum ((pre ++ [s]).map PairRec.l1) ((pre ++ [s]).map PairRec.l2) =
        (pre ++ [s]).map (fun q => logSum q.l1 q.l2) := by
      induction (pre ++ [s]) with
      | nil => rfl
      | cons a t ih => simp only [List.map_cons, List.zipWith_cons_cons, ih]
    simp only [List.map_cons, List.cons_append, List.length_cons, readPairs, e1, e2, e3, ih, lumCols, List.append_assoc,
      List.cons_append, List.nil_append]

/-- **C58.**  The stellar types and radii read from fort.82 and fort.83 have one entry for every binary (its own type, the
larger radius) followed by one for every single star, in the order of the files; with at most one binary so do the
luminosities (for the binary, the sum). -/
theorem C58_arrays_partial (bs : List PairRec) (ss : List SingleRec) :
    ∃ a, readSe bs.length ss.length (pairLines bs) (singleLines ss) = .ok a ∧
      a.kw = bs.map PairRec.kw ++ ss.map SingleRec.kw ∧
      a.logr = bs.map (fun p => max p.r1 p.r2) ++ ss.map SingleRec.r ∧
      (bs.length ≤ 1 → a.logl = bs.map (fun p => logSum p.l1 p.l2) ++ ss.map SingleRec.l) := by
  have h := readPairs_ok [] bs [.stop] ⟨[], [], []⟩
  simp only [List.map_nil, List.nil_append] at h
  unfold readSe pairLines singleLines
  simp only [h, bind, Except.bind, readSingles_ok, pure, Except.pure]
  refine ⟨_, rfl, rfl, rfl, ?_⟩
  intro hb
  match bs, hb with
  | [], _ => rfl
  | [p], _ => rfl

/-- An instance: one binary and two single stars. -/
example : ∃ a, readSe 1 2 (pairLines [⟨1, 2, 3, 4, 5⟩]) (singleLines [⟨6, 7, 8⟩, ⟨9, 10, 11⟩]) = .ok a ∧
    a.kw = [1, 6, 9] ∧ a.logr = [5, 8, 11] ∧ a.logl = [logSum 2 3, 7, 10] := by
  obtain ⟨a, h, h1, h2, h3⟩ := C58_arrays_partial [⟨1, 2, 3, 4, 5⟩] [⟨6, 7, 8⟩, ⟨9, 10, 11⟩]
  refine ⟨a, h, h1, ?_, h3 (Nat.le_refl _)⟩
  rw [h2]
  simp only [List.map_cons, List.map_nil, List.cons_append, List.nil_append]
  norm_num

theorem lumCols_length (pre l : List PairRec) : (lumCols pre l).length = l.length * pre.length + l.length * (l.length + 1) / 2 := by
  induction l generalizing pre with
  | nil => simp [lumCols]
  | cons p l ih =>
    simp only [lumCols, List.length_append, List.length_map, List.length_cons, List.length_nil, ih]
    have h1 : l.length * (l.length + 1) % 2 = 0 := by
      rcases Nat.even_or_odd l.length with ⟨k, hk⟩ | ⟨k, hk⟩
      · rw [hk, show (k + k) * (k + k + 1) = 2 * (k * (k + k + 1)) by ring]; omega
      · rw [hk, show (2 * k + 1) * (2 * k + 1 + 1) = 2 * ((2 * k + 1) * (k + 1)) by ring]; omega
    have h2 : (l.length + 1) * (l.length + 1 + 1) = l.length * (l.length + 1) + 2 * (l.length + 1) := by ring
    rw [h2]
    have h3 : (l.length * (l.length + 1) + 2 * (l.length + 1)) / 2 = l.length * (l.length + 1) / 2 + (l.length + 1) := by omega
    rw [h3]
    ring

/-- **C58 (violated: luminosities).**  With two or more binaries the array of luminosities has too many entries —
`nb(nb+1)/2` for the binaries instead of `nb` — so the luminosities no longer belong to the stars. -/
theorem C58_luminosities_violated (bs : List PairRec) (ss : List SingleRec) :
    ∃ a, readSe bs.length ss.length (pairLines bs) (singleLines ss) = .ok a ∧
      a.logl.length = bs.length * (bs.length + 1) / 2 + ss.length ∧
      (2 ≤ bs.length → a.kw.length < a.logl.length) := by
  have h := readPairs_ok [] bs [.stop] ⟨[], [], []⟩
  simp only [List.map_nil, List.nil_append] at h
  unfold readSe pairLines singleLines
  simp only [h, bind, Except.bind, readSingles_ok, pure, Except.pure]
  have e : (lumCols [] bs ++ ss.map SingleRec.l).length = bs.length * (bs.length + 1) / 2 + ss.length := by
    simp [lumCols_length]
  refine ⟨_, rfl, e, ?_⟩
  intro hb
  show (bs.map PairRec.kw ++ ss.map SingleRec.kw).length < (lumCols [] bs ++ ss.map SingleRec.l).length
  rw [e]
  simp only [List.length_append, List.length_map]
  have : bs.length * 3 ≤ bs.length * (bs.length + 1) := Nat.mul_le_mul_left _ (by omega)
  omega

end

end CT
