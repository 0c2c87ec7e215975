/- C79 (mass functions): when they exist, too few stars, the method, units; C80: where they fail. -/
import Verif.Props.MassFunction
import Verif.Props.Lagrange

namespace CT

noncomputable section

set_option linter.unusedSimpArgs false

theorem maskSel_nodup {mask : List Bool} {n : ℕ} {S : ℕ → Prop} (h : MaskOf mask n S) {l : List ℝ} (hl : l.length = n)
    (hd : ∀ i j, i < n → j < n → S i → S j → l[i]! = l[j]! → i = j) : (maskSel mask l).Nodup := by
  rw [maskSel_eq mask l (by rw [h.len, hl])]
  refine List.Nodup.map_on ?_ (List.nodup_range.filter _)
  intro i hi j hj e
  simp only [List.mem_filter, List.mem_range, hl] at hi hj
  exact hd i j hi.1 hj.1 ((h.val i hi.1).mp hi.2) ((h.val j hj.1).mp hj.2) e

/-- **C79 (equal-number bins).**  For `nmass ≥ 3` and at least `2·nmass` selected stars of different, positive masses
`mass_function` succeeds with exactly `nmass` bins, each holding the average number of stars up to rounding. -/
theorem C79_equal_numbers {g : Galpy} {c : Cluster} (p : Pos g c) (l : Lin c) (hg : Good c) (f : Fresh c) {a : MassArgs} {e : PStars}
    {indx : Option ℕ} {mem : Mem} (he : e.Ok a.sub c.st.length) (hm : ∀ q, indx = some q → mem[q]!.length = c.st.length)
    (hmc : ∀ w, a.mcorr = some w → w.length = c.st.length) (hpos : ∀ w, a.mcorr = some w → ∀ v ∈ w, 0 < v)
    (hmp : ∀ v ∈ c.m, 0 < v) (hx : a.fix = false) (h3 : 3 ≤ a.nmass)
    (hn : 2 * a.nmass ≤ numOver c.st.length (MassSelected a.sub e indx mem c))
    (hd : ∀ i j, i < c.st.length → j < c.st.length → MassSelected a.sub e indx mem c i → MassSelected a.sub e indx mem c j →
      c.m[i]! = c.m[j]! → i = j) :
    ∃ o c2 mem' P, massFunction g a e indx mem c = .ok (o, c2, mem') ∧ IsMassFunction a e indx mem c P o ∧ P.length = a.nmass ∧
      (∀ k < a.nmass, |o.hist[k]! - (numOver c.st.length (MassSelected a.sub e indx mem c) : ℝ) / a.nmass| < 1) ∧
      c2.data = c.data ∧ Fresh c2 := by
  classical
  have hd2 : ∃ i j, i < c.st.length ∧ j < c.st.length ∧ MassSelected a.sub e indx mem c i ∧ MassSelected a.sub e indx mem c j ∧ c.m[i]! ≠ c.m[j]! := by
    have h1 : 1 < numOver c.st.length (MassSelected a.sub e indx mem c) := by omega
    unfold numOver at h1
    obtain ⟨i, hi, j, hj, hij⟩ := Finset.one_lt_card.mp h1
    simp only [Finset.mem_filter, Finset.mem_range] at hi hj
    exact ⟨i, j, hi.1, hj.1, hi.2, hj.2, fun h => hij (hd i j hi.1 hj.1 hi.2 hj.2 h)⟩
  obtain ⟨k, mem', B, P, c2, hS, hb, hB, d2, f2, g2, hrun⟩ := mass_run p l hg f he hm hmc (by omega) (by omega) hd2
  have hnd := maskSel_nodup hS hg.len hd
  have hlen := hS.length hg.len
  obtain ⟨T, hT, t1, t2⟩ := C47_equal_numbers (maskSel mem'[k]! c.m) a.nmass (by omega) hnd (by rw [hlen]; exact hn)
  have hTl : T.lower.length = a.nmass := by
    have hne : ∃ u ∈ maskSel mem'[k]! c.m, ∃ v ∈ maskSel mem'[k]! c.m, u ≠ v := by
      obtain ⟨i, j, x1, x2, x3, x4, x5⟩ := hd2
      exact ⟨_, (hS.mem hg.len).mpr ⟨i, x1, x3, rfl⟩, _, (hS.mem hg.len).mpr ⟨j, x2, x4, rfl⟩, x5⟩
    obtain ⟨T', -, -, hT', -, -, -, -, t6, -⟩ := C25_equal_number_bins _ a.nmass (by omega) hne
    rw [hT] at hT'; cases hT'
    rw [← t1, t6]; simp
  have hBl : B.lower = T.lower := by
    simp only [profBinned, profBins, MassArgs.prof, hx, hT, bind, Except.bind, pure, Except.pure, Bool.false_eq_true, if_false] at hb
    injection hb with hb
    rw [← hb]
  have hPl : P.length = a.nmass := by rw [← hB.lenl, hBl, hTl]
  obtain ⟨fit, hfit⟩ := mass_defined hg hmc hpos hmp hB (by omega) (fun h => by rw [hx] at h; cases h)
  have hspec := mass_spec hg hmc hpos hB hfit
  refine ⟨outOf a c.m B fit, c2, mem', P, by rw [hrun, hfit]; rfl, hspec, hPl, ?_, d2, f2⟩
  intro j hj
  have hj' : j < P.length := by omega
  rw [hspec.number j hj']
  have := t2 j hj
  rw [hlen] at this
  convert this using 3
  -- the histogram of the bin maker counts the same stars
  have hne : ∃ u ∈ maskSel mem'[k]! c.m, ∃ v ∈ maskSel mem'[k]! c.m, u ≠ v := by
    obtain ⟨i, j, x1, x2, x3, x4, x5⟩ := hd2
    exact ⟨_, (hS.mem hg.len).mpr ⟨i, x1, x3, rfl⟩, _, (hS.mem hg.len).mpr ⟨j, x2, x4, rfl⟩, x5⟩
  obtain ⟨T', -, -, hT', -, -, -, -, t6, -⟩ := C25_equal_number_bins _ a.nmass (by omega) hne
  rw [hT] at hT'; cases hT'
  have hBu : B.upper = T.upper := by
    simp only [profBinned, profBins, MassArgs.prof, hx, hT, bind, Except.bind, pure, Except.pure, Bool.false_eq_true, if_false] at hb
    injection hb with hb
    rw [← hb]
  have hz : P = List.zip T.lower T.upper := by rw [hB.zip, hBl, hBu]
  rw [t6, List.getD_eq_getElem?_getD, List.getElem?_map, List.getElem?_range (by omega)]
  simp only [Option.map_some, Option.getD_some]
  have e1 := hS.filter_sum hg.len (InBin (List.zip T.lower T.upper) j) (fun _ => (1 : ℝ))
  rw [map_one_sum] at e1
  unfold inBin
  rw [numOver_eq, ← hz]
  rw [← hz] at e1
  exact e1.symm

theorem contig_width {lo hi w : ℝ} {P : List (ℝ × ℝ)} (h : Contig lo hi P) (hw : ∀ k < P.length, P[k]!.2 - P[k]!.1 = w) :
    ∀ k < P.length, P[k]! = (lo + k * w, lo + (k + 1) * w) := by
  induction h with
  | @one a b h =>
    intro k hk
    have : k = 0 := by simpa using hk
    subst this
    have := hw 0 (by simp)
    simp at this ⊢
    linarith
  | @cons a b c P h hP ih =>
    have h0 := hw 0 (by simp)
    simp at h0
    have hw' : ∀ k < P.length, P[k]!.2 - P[k]!.1 = w := by
      intro k hk
      have := hw (k + 1) (by simpa using hk)
      simpa using this
    intro k hk
    cases k with
    | zero => simp; linarith
    | succ k =>
      have hk' : k < P.length := by simpa using hk
      have e : ((a, b) :: P)[k + 1]! = P[k]! := by simp
      rw [e, ih hw' k hk']
      push_cast
      ext <;> simp <;> linarith

/-- With `bintype='fix'` the bins divide the range of the selected masses into `nmass` equal parts. -/
theorem fix_bins {c : Cluster} (hg : Good c) {a : MassArgs} {S : ℕ → Prop} {k : ℕ} {mem' : Mem} (hS : MaskOf mem'[k]! c.st.length S)
    (hx : a.fix = true) (h0 : 0 < a.nmass) {B : Binned} {P : List (ℝ × ℝ)} (hb : profBinned a.prof c.m (some k, mem') = .ok B)
    (hB : BinnedOk a.prof c.st.length S (fun i => c.m[i]!) B P) {lo hi : ℝ} (hlh : lo < hi)
    (hlo : ∃ i < c.st.length, S i ∧ c.m[i]! = lo) (hhi : ∃ i < c.st.length, S i ∧ c.m[i]! = hi)
    (hin : ∀ i < c.st.length, S i → lo ≤ c.m[i]! ∧ c.m[i]! ≤ hi) :
    P.length = a.nmass ∧ ∀ j < a.nmass, P[j]! = (lo + j * ((hi - lo) / a.nmass), lo + (j + 1) * ((hi - lo) / a.nmass)) := by
  have m1 : lo ∈ maskSel mem'[k]! c.m := by
    obtain ⟨i, h1, h2, h3⟩ := hlo; exact (hS.mem hg.len).mpr ⟨i, h1, h2, h3⟩
  have m2 : hi ∈ maskSel mem'[k]! c.m := by
    obtain ⟨i, h1, h2, h3⟩ := hhi; exact (hS.mem hg.len).mpr ⟨i, h1, h2, h3⟩
  have m3 : ∀ v ∈ maskSel mem'[k]! c.m, lo ≤ v ∧ v ≤ hi := by
    intro v hv
    obtain ⟨i, h1, h2, rfl⟩ := (hS.mem hg.len).mp hv
    exact hin i h1 h2
  obtain ⟨T, hT, t1, -, -, -, t5⟩ := C26_equal_width_bins (maskSel mem'[k]! c.m) a.nmass true (List.ne_nil_of_mem m1) h0 (by simp)
  obtain ⟨hcon, hw⟩ := t5 lo hi m1 m2 m3 hlh
  simp only [profBinned, profBins, MassArgs.prof, hx, hT, bind, Except.bind, pure, Except.pure, if_true] at hb
  injection hb with hb
  have hz : P = List.zip T.lower T.upper := by rw [hB.zip, ← hb]
  have hl1 : T.lower.length = P.length := by rw [← hB.lenl, ← hb]
  have hl2 : T.upper.length = P.length := by rw [← hB.lenu, ← hb]
  have hPl : P.length = a.nmass := by rw [← hl1, t1]
  rw [← hz] at hcon
  refine ⟨hPl, fun j hj => contig_width hcon (fun i hi' => ?_) j (by omega)⟩
  have h1 : i < T.lower.length := by omega
  have h2 : i < T.upper.length := by omega
  have := hw rfl i (by omega)
  rw [List.getD_eq_getElem?_getD, List.getD_eq_getElem?_getD, List.getElem?_eq_getElem h1, List.getElem?_eq_getElem h2] at this
  rw [getElem!_pos P i hi']
  simp only [hz, List.getElem_zip]
  exact this

/-- **C79 (equal-width bins).**  With `bintype='fix'`, `nmass ≥ 3`, positive masses and at least one selected star in each of the
`nmass` equal parts of the range of the selected masses, `mass_function` succeeds and these parts are the bins. -/
theorem C79_equal_widths {g : Galpy} {c : Cluster} (p : Pos g c) (l : Lin c) (hg : Good c) (f : Fresh c) {a : MassArgs} {e : PStars}
    {indx : Option ℕ} {mem : Mem} (he : e.Ok a.sub c.st.length) (hm : ∀ q, indx = some q → mem[q]!.length = c.st.length)
    (hmc : ∀ w, a.mcorr = some w → w.length = c.st.length) (hpos : ∀ w, a.mcorr = some w → ∀ v ∈ w, 0 < v)
    (hmp : ∀ v ∈ c.m, 0 < v) (hx : a.fix = true) (h3 : 3 ≤ a.nmass) {lo hi : ℝ} (hlh : lo < hi)
    (hlo : ∃ i < c.st.length, MassSelected a.sub e indx mem c i ∧ c.m[i]! = lo)
    (hhi : ∃ i < c.st.length, MassSelected a.sub e indx mem c i ∧ c.m[i]! = hi)
    (hin : ∀ i < c.st.length, MassSelected a.sub e indx mem c i → lo ≤ c.m[i]! ∧ c.m[i]! ≤ hi)
    (hfull : ∀ k < a.nmass, ∃ i < c.st.length, MassSelected a.sub e indx mem c i ∧
      lo + k * ((hi - lo) / a.nmass) ≤ c.m[i]! ∧ c.m[i]! < lo + (k + 1) * ((hi - lo) / a.nmass)) :
    ∃ o c2 mem' P, massFunction g a e indx mem c = .ok (o, c2, mem') ∧ IsMassFunction a e indx mem c P o ∧ P.length = a.nmass ∧
      (∀ k < a.nmass, P[k]! = (lo + k * ((hi - lo) / a.nmass), lo + (k + 1) * ((hi - lo) / a.nmass))) ∧
      c2.data = c.data ∧ Fresh c2 := by
  classical
  have hd2 : ∃ i j, i < c.st.length ∧ j < c.st.length ∧ MassSelected a.sub e indx mem c i ∧ MassSelected a.sub e indx mem c j ∧ c.m[i]! ≠ c.m[j]! := by
    obtain ⟨i, h1, h2, h4⟩ := hlo
    obtain ⟨j, h5, h6, h7⟩ := hhi
    exact ⟨i, j, h1, h5, h2, h6, by rw [h4, h7]; exact hlh.ne⟩
  have hw0 : 0 < (hi - lo) / a.nmass := by
    have : (0 : ℝ) < a.nmass := by exact_mod_cast (by omega : 0 < a.nmass)
    have : 0 < hi - lo := by linarith
    positivity
  have hn : a.nmass ≤ numOver c.st.length (MassSelected a.sub e indx mem c) := by
    choose! q q1 q2 q3 q4 using hfull
    have hinj : Set.InjOn q (Finset.range a.nmass) := by
      have mono : ∀ j k, j < k → k < a.nmass → c.m[q j]! < c.m[q k]! := by
        intro j k hjk hk
        have h1 := q4 j (by omega)
        have h2 := q3 k hk
        have h4 : ((j : ℝ) + 1) * ((hi - lo) / a.nmass) ≤ k * ((hi - lo) / a.nmass) := by
          refine mul_le_mul_of_nonneg_right ?_ hw0.le
          exact_mod_cast hjk
        linarith
      intro j hj k hk e'
      have hj' := Finset.mem_range.mp (Finset.mem_coe.mp hj)
      have hk' := Finset.mem_range.mp (Finset.mem_coe.mp hk)
      rcases lt_trichotomy j k with h | h | h
      · exact absurd (mono j k h hk') (by rw [e']; exact lt_irrefl _)
      · exact h
      · exact absurd (mono k j h hj') (by rw [e']; exact lt_irrefl _)
    have := Finset.card_le_card_of_injOn (s := Finset.range a.nmass)
      (t := (Finset.range c.st.length).filter (MassSelected a.sub e indx mem c)) q
      (fun k hk => Finset.mem_coe.mpr (Finset.mem_filter.mpr ⟨Finset.mem_range.mpr (q1 k (Finset.mem_range.mp (Finset.mem_coe.mp hk))),
        q2 k (Finset.mem_range.mp (Finset.mem_coe.mp hk))⟩)) hinj
    rw [Finset.card_range] at this
    unfold numOver
    convert this
  obtain ⟨k, mem', B, P, c2, hS, hb, hB, d2, f2, g2, hrun⟩ := mass_run p l hg f he hm hmc hn (by omega) hd2
  obtain ⟨hPl, hPk⟩ := fix_bins hg hS hx (by omega) hb hB hlh hlo hhi hin
  have hne : ∀ k < P.length, 0 < numOver c.st.length (InMassBin a.sub e indx mem c P k) := by
    intro j hj
    have hj' : j < a.nmass := by omega
    obtain ⟨i, y1, y2, y3, y4⟩ := hfull j hj'
    unfold numOver
    refine Finset.card_pos.mpr ⟨i, Finset.mem_filter.mpr ⟨Finset.mem_range.mpr y1, y2, _, _, ?_, y3, .inl y4⟩⟩
    rw [List.getElem?_eq_getElem hj, ← getElem!_pos P j hj, hPk j hj']
  obtain ⟨fit, hfit⟩ := mass_defined hg hmc hpos hmp hB (by omega) (fun _ => hne)
  exact ⟨outOf a c.m B fit, c2, mem', P, by rw [hrun, hfit]; rfl, mass_spec hg hmc hpos hB hfit, hPl, hPk, d2, f2⟩

/-- **C79 (power law).**  Where the densities of all bins follow an exact power law `A·m^α`, the slope is `α`, the intercept `log10 A`
and both errors are zero. -/
theorem C79_power_law {a : MassArgs} {e : PStars} {indx : Option ℕ} {mem : Mem} {c : Cluster} {P : List (ℝ × ℝ)} {o : MassOut}
    (h : IsMassFunction a e indx mem c P o) (hx : ∀ v ∈ o.mean, 0 < v) (hd : ∃ u ∈ o.mean, ∃ v ∈ o.mean, u ≠ v) {A α : ℝ} (hA : 0 < A)
    (hy : o.dm = o.mean.map (fun v => A * v ^ α)) :
    o.fit.slope = α ∧ o.fit.icept = Real.logb 10 A ∧ o.fit.eslope = 0 ∧ o.fit.eicept = 0 :=
  h.fit.power_law (h.lens.1.trans h.lens.2.2.symm) hx hd hA hy

/-- **C79 (too few stars).**  With fewer than `nmass` selected stars the answer is `nmass` zeros and `-1000`, and the cluster is left
as it was. -/
theorem C79_too_few {g : Galpy} {c : Cluster} (p : Pos g c) (l : Lin c) (hg : Good c) (f : Fresh c) {a : MassArgs} {e : PStars}
    {indx : Option ℕ} {mem : Mem} (he : e.Ok a.sub c.st.length) (hm : ∀ q, indx = some q → mem[q]!.length = c.st.length)
    (hn : numOver c.st.length (MassSelected a.sub e indx mem c) < a.nmass) :
    ∃ o c2 mem', massFunction g a e indx mem c = .ok (o, c2, mem') ∧ o.mean = List.replicate a.nmass 0 ∧
      o.hist = List.replicate a.nmass 0 ∧ o.dm = List.replicate a.nmass 0 ∧ o.fit = ⟨-1000, -1000, -1000, -1000⟩ ∧
      c2.data = c.data ∧ Fresh c2 := by
  obtain ⟨c1, h1, s1, m1, g1, l1, f1, r1, w1, -, -⟩ := strip_amuse p l hg f
  obtain ⟨k, mem', h2, hS⟩ := mass_selected_mask (e := e) (q := a.sub) (indx := indx) (mem := mem) hg he hm
  obtain ⟨c2, h4, d2, f2, g2, -, -⟩ := return_of_world (sort := false) (cm := none) p l hg g1 l1 r1 w1
  refine ⟨a.tooFew, c2, mem', ?_, rfl, rfl, rfl, rfl, d2, f2⟩
  have hen : enough a.nmass (some k, mem') = false := by
    simp only [enough, Option.elim]
    rw [hS.count]; simpa using hn
  have hv : viewOf c1 e = rowsView c.st c.m e := by rw [fresh_view f1, s1, m1]
  unfold massFunction
  simp only [bind]
  refine ite_bind_of' h1 ?_
  rw [hv, h2]
  simp only [Except.bind, hen, Bool.false_eq_true, if_false, h4, pure, Except.pure]

/-- **C79 (the method).**  `cluster.mass_function(…)` without `mcorr` gives the slope of the function. -/
theorem C79_method {g : Galpy} {c : Cluster} {a : MassArgs} {e : PStars} {indx : Option ℕ} {mem : Mem}
    {o : MassOut} {c2 : Cluster} {mem' : Mem} (h : massFunction g a e indx mem c = .ok (o, c2, mem')) (ho : o.err = none) :
    massFunctionMethod g a e indx mem c = .ok (o.fit.slope, c2, mem') := by
  unfold massFunctionMethod
  rw [h]
  simp only [bind, Except.bind, ho, Option.isSome_none, Bool.false_eq_true, if_false, pure, Except.pure]

/-! ### C80 -/

/-- **C80 (violated: empty bins).**  With `bintype='fix'`, a single bin without a selected star makes the whole mass function fail:
the logarithm of its zero density is not finite. -/
theorem C80_empty_bin_violated {g : Galpy} {c : Cluster} (p : Pos g c) (l : Lin c) (hg : Good c) (f : Fresh c) {a : MassArgs} {e : PStars}
    {indx : Option ℕ} {mem : Mem} (he : e.Ok a.sub c.st.length) (hm : ∀ q, indx = some q → mem[q]!.length = c.st.length)
    (hmc : ∀ w, a.mcorr = some w → w.length = c.st.length)
    (hx : a.fix = true) (hn : a.nmass ≤ numOver c.st.length (MassSelected a.sub e indx mem c)) {lo hi : ℝ} (hlh : lo < hi)
    (hlo : ∃ i < c.st.length, MassSelected a.sub e indx mem c i ∧ c.m[i]! = lo)
    (hhi : ∃ i < c.st.length, MassSelected a.sub e indx mem c i ∧ c.m[i]! = hi)
    (hin : ∀ i < c.st.length, MassSelected a.sub e indx mem c i → lo ≤ c.m[i]! ∧ c.m[i]! ≤ hi) {k : ℕ} (hk : k + 1 < a.nmass)
    (hempty : ∀ i < c.st.length, MassSelected a.sub e indx mem c i →
      ¬ (lo + k * ((hi - lo) / a.nmass) ≤ c.m[i]! ∧ c.m[i]! < lo + (k + 1) * ((hi - lo) / a.nmass))) :
    massFunction g a e indx mem c = .error .linAlgError := by
  classical
  have hd2 : ∃ i j, i < c.st.length ∧ j < c.st.length ∧ MassSelected a.sub e indx mem c i ∧ MassSelected a.sub e indx mem c j ∧ c.m[i]! ≠ c.m[j]! := by
    obtain ⟨i, h1, h2, h4⟩ := hlo
    obtain ⟨j, h5, h6, h7⟩ := hhi
    exact ⟨i, j, h1, h5, h2, h6, by rw [h4, h7]; exact hlh.ne⟩
  obtain ⟨q, mem', B, P, c2, hS, hb, hB, d2, f2, g2, hrun⟩ := mass_run p l hg f he hm hmc hn (by omega) hd2
  obtain ⟨hPl, hPk⟩ := fix_bins hg hS hx (by omega) hb hB hlh hlo hhi hin
  obtain ⟨hdl, hP, hdm, hcorr⟩ := mass_bins hg hmc hB
  have hkP : k < P.length := by omega
  have h0 : sumOver c.st.length (InMassBin a.sub e indx mem c P k) a.weight = 0 := by
    unfold sumOver
    refine Finset.sum_eq_zero fun i hi' => ?_
    obtain ⟨y1, y2, l', h', y3, y4, y5⟩ := Finset.mem_filter.mp hi'
    rw [List.getElem?_eq_getElem hkP, ← getElem!_pos P k hkP, hPk k (by omega)] at y3
    simp only [Option.some.injEq, Prod.mk.injEq] at y3
    refine absurd ⟨by rw [y3.1]; exact y4, ?_⟩ (hempty i (Finset.mem_range.mp y1) y2)
    rcases y5 with y5 | ⟨y5, -⟩
    · rw [y3.2]; exact y5
    · omega
  have hz : (dmOf a c.m B)[k]! = 0 := by
    have := hdm k hkP
    rw [h0] at this
    rcases mul_eq_zero.mp this with h | h
    · exact h
    · linarith [(hP k hkP).1]
  rw [hrun]
  have hkd : k < (dmOf a c.m B).length := by omega
  have : polyfitLog B.mid (dmOf a c.m B) = .error .linAlgError := by
    unfold polyfitLog
    rw [if_neg, if_pos]
    · right
      refine ⟨_, List.getElem_mem hkd, ?_⟩
      rw [← getElem!_pos _ k hkd, hz]
    · intro h
      have := hB.lenm
      rw [h] at this
      simp at this; omega
  rw [this]; rfl

/-- **C80 (violated: few bins).**  With one or two bins there is never a mass function. -/
theorem C80_few_bins_violated {g : Galpy} {c : Cluster} (p : Pos g c) (l : Lin c) (hg : Good c) (f : Fresh c) {a : MassArgs} {e : PStars}
    {indx : Option ℕ} {mem : Mem} (he : e.Ok a.sub c.st.length) (hm : ∀ q, indx = some q → mem[q]!.length = c.st.length)
    (hmc : ∀ w, a.mcorr = some w → w.length = c.st.length) (h0 : 0 < a.nmass) (h2 : a.nmass ≤ 2)
    (hn : a.nmass ≤ numOver c.st.length (MassSelected a.sub e indx mem c))
    (hd : ∃ i j, i < c.st.length ∧ j < c.st.length ∧ MassSelected a.sub e indx mem c i ∧ MassSelected a.sub e indx mem c j ∧ c.m[i]! ≠ c.m[j]!)
    (r : MassOut × Cluster × Mem) : massFunction g a e indx mem c ≠ .ok r := by
  intro h
  obtain ⟨q, mem', B, P, c2, hS, hb, hB, d2, f2, g2, hrun⟩ := mass_run p l hg f he hm hmc hn h0 hd
  rw [hrun] at h
  obtain ⟨fit, hfit, -⟩ := bind_ok h
  obtain ⟨hl, hf, -, -⟩ := polyfitLog_fit hfit
  have h3 := hf.many
  have h4 := hB.nbin rfl
  have h5 := hB.lenm
  have h6 : a.prof.nrad = a.nmass := rfl
  simp only [logPoints, List.length_zip, List.length_map] at h3
  omega

/-- **C80 (violated: completeness correction).**  The method fails whenever `mcorr` is given: it unpacks seven of eight values. -/
theorem C80_method_mcorr_violated {g : Galpy} {c : Cluster} {a : MassArgs} {e : PStars} {indx : Option ℕ} {mem : Mem} {w : List ℝ}
    (hw : a.mcorr = some w) (r : ℝ × Cluster × Mem) : massFunctionMethod g a e indx mem c ≠ .ok r := by
  intro h
  unfold massFunctionMethod at h
  simp only [bind] at h
  obtain ⟨⟨o, c2, mem'⟩, h1, h⟩ := bind_ok h
  have ho : o.err.isSome = true := by
    unfold massFunction at h1
    simp only [bind] at h1
    have fin : ∀ (c1 : Cluster), ((getSubset a.sub (viewOf c1 e) indx mem).bind fun sel =>
        if enough a.nmass sel = true then (massFit a c1.m sel).bind fun out =>
          (returnCluster g (saveCluster c) false none c1).bind fun c2 => pure (out, c2, sel.2)
        else (Except.ok (MassArgs.tooFew a)).bind fun out =>
          (returnCluster g (saveCluster c) false none c1).bind fun c2 => pure (out, c2, sel.2)) = .ok (o, c2, mem') → o.err.isSome = true := by
      intro c1 h
      obtain ⟨sel, -, h⟩ := bind_ok h
      split at h
      · obtain ⟨out, h5, h⟩ := bind_ok h
        obtain ⟨c3, -, h⟩ := bind_ok h
        injection h with h
        cases h
        unfold massFit at h5
        simp only [bind] at h5
        obtain ⟨B, -, h5⟩ := bind_ok h5
        split at h5
        · cases h5
        · simp only [pure, Except.pure, Except.bind] at h5
          split at h5
          · cases h5
          · injection h5 with h5
            rw [← h5]; simp [hw]
      · obtain ⟨out, h5, h⟩ := bind_ok h
        obtain ⟨c3, -, h⟩ := bind_ok h
        injection h with h
        cases h
        injection h5 with h5
        rw [← h5]; simp [MassArgs.tooFew, hw]
    split at h1
    · obtain ⟨c1, -, h1⟩ := bind_ok h1
      exact fin c1 h1
    · obtain ⟨c1, -, h1⟩ := bind_ok h1
      exact fin c1 h1
  simp only [ho, if_true] at h
  cases h

end

end CT
