/- Property theorems C79 (mass functions) and C80 (where they fail). -/
import Verif.Lemmas.Fit
import Verif.Props.Profiles

namespace CT

noncomputable section

set_option linter.unusedSimpArgs false

/-! ### The run -/

theorem fresh_view {c : Cluster} (f : Fresh c) (e : PStars) : viewOf c e = rowsView c.st c.m e := by
  unfold viewOf rowsView
  rw [f.r.eq_map, f.rpro.eq_map, f.v.eq_map, f.vpro.eq_map]
  rfl

theorem mass_selected_mask {c : Cluster} {e : PStars} {q : SubArgs} {indx : Option ℕ} {mem : Mem} (hg : Good c)
    (he : e.Ok q c.st.length) (hm : ∀ p, indx = some p → mem[p]!.length = c.st.length) :
    ∃ k mem', getSubset q (rowsView c.st c.m e) indx mem = .ok (some k, mem') ∧
      MaskOf mem'[k]! c.st.length (MassSelected q e indx mem c) := by
  have hn : 1 ≤ c.st.length := List.length_pos_iff.mpr hg.ne
  have ok := rowsView_ok (q := q) hn rfl hg.len he
  cases indx with
  | none =>
    obtain ⟨k, mem', h1, h2, h3⟩ := C20_subset (mem := mem) ok
    exact ⟨k, mem', h1, h2, fun i hi => (h3 i hi).trans (by simp [MassSelected, InMask])⟩
  | some p =>
    obtain ⟨k, mem', h1, h2, h3⟩ := C20_subset_mask (mem := mem) ok (hm p rfl)
    exact ⟨k, mem', h1, h2, fun i hi => (h3 i hi).trans (by simp [MassSelected, InMask])⟩

/-- The densities of the bins. -/
def dmOf (a : MassArgs) (m : List ℝ) (B : Binned) : List ℝ :=
  List.zipWith (fun h p => h / p)
    ((List.range B.mid.length).map (fun i => ((maskSel (B.at i) (a.mcorr.getD (m.map (fun _ => 1)))).map (fun v => 1 / v)).sum))
    (List.zipWith (fun u l => u - l) B.upper B.lower)

/-- The result for a given fit. -/
def outOf (a : MassArgs) (m : List ℝ) (B : Binned) (f : LineFit) : MassOut :=
  { mean := B.mid, hist := (List.range B.mid.length).map (fun i => ((B.at i).count true : ℝ)), dm := dmOf a m B, fit := f,
    err := a.mcorr.map (fun _ => List.zipWith (· / ·) ((List.range B.mid.length).map (fun i => ((B.at i).count true : ℝ)))
      ((List.range B.mid.length).map
        (fun i => ((maskSel (B.at i) (a.mcorr.getD (m.map (fun _ => 1)))).map (fun v => 1 / v)).sum))) }

/-- The run: what is left is the fit. -/
theorem mass_run {g : Galpy} {c : Cluster} (p : Pos g c) (l : Lin c) (hg : Good c) (f : Fresh c) {a : MassArgs} {e : PStars}
    {indx : Option ℕ} {mem : Mem} (he : e.Ok a.sub c.st.length) (hm : ∀ q, indx = some q → mem[q]!.length = c.st.length)
    (hmc : ∀ w, a.mcorr = some w → w.length = c.st.length)
    (hn : a.nmass ≤ numOver c.st.length (MassSelected a.sub e indx mem c)) (h0 : 0 < a.nmass)
    (hd : ∃ i j, i < c.st.length ∧ j < c.st.length ∧ MassSelected a.sub e indx mem c i ∧ MassSelected a.sub e indx mem c j ∧ c.m[i]! ≠ c.m[j]!) :
    ∃ k mem' B P c2, MaskOf mem'[k]! c.st.length (MassSelected a.sub e indx mem c) ∧
      profBinned a.prof c.m (some k, mem') = .ok B ∧
      BinnedOk a.prof c.st.length (MassSelected a.sub e indx mem c) (fun i => c.m[i]!) B P ∧ c2.data = c.data ∧ Fresh c2 ∧ Good c2 ∧
      massFunction g a e indx mem c = (polyfitLog B.mid (dmOf a c.m B)).bind (fun fit => .ok (outOf a c.m B fit, c2, mem')) := by
  obtain ⟨c1, h1, s1, m1, g1, l1, f1, r1, w1, -, -⟩ := strip_amuse p l hg f
  obtain ⟨k, mem', h2, hS⟩ := mass_selected_mask (e := e) (q := a.sub) (indx := indx) (mem := mem) hg he hm
  have hc : BinsCover a.prof c.st.length (MassSelected a.sub e indx mem c) (fun i => c.m[i]!) := by
    obtain ⟨i, j, x1, x2, x3, x4, x5⟩ := hd
    exact .inl ⟨rfl, h0, i, j, x1, x2, x3, x4, x5⟩
  obtain ⟨B, P, h3, hB⟩ := binned_ok hg.len hS hc
  obtain ⟨c2, h4, d2, f2, g2, -, -⟩ := return_of_world (sort := false) (cm := none) p l hg g1 l1 r1 w1
  refine ⟨k, mem', B, P, c2, hS, h3, hB, d2, f2, g2, ?_⟩
  have hen : enough a.nmass (some k, mem') = true := by
    simp only [enough, Option.elim]
    rw [hS.count]; simpa using hn
  have hlen : (a.mcorr.getD (c.m.map (fun _ => 1))).length = c.m.length := by
    cases h : a.mcorr with
    | none => simp
    | some w => simp [hmc w h, hg.len]
  have hfit : massFit a c.m (some k, mem') = (polyfitLog B.mid (dmOf a c.m B)).bind (fun fit => .ok (outOf a c.m B fit)) := by
    unfold massFit
    simp only [h3, bind, Except.bind, pure, Except.pure, hlen, ne_eq, not_true_eq_false, if_false]
    rfl
  unfold massFunction
  simp only [bind]
  have hv : viewOf c1 e = rowsView c.st c.m e := by rw [fresh_view f1, s1, m1]
  have rest : ∀ c1', c1' = c1 → ((getSubset a.sub (viewOf c1' e) indx mem).bind fun sel =>
      if enough a.nmass sel = true then (massFit a c1'.m sel).bind fun out =>
        (returnCluster g (saveCluster c) false none c1').bind fun c2 => pure (out, c2, sel.2)
      else (Except.ok a.tooFew).bind fun out =>
        (returnCluster g (saveCluster c) false none c1').bind fun c2 => pure (out, c2, sel.2)) =
      (polyfitLog B.mid (dmOf a c.m B)).bind (fun fit => .ok (outOf a c.m B fit, c2, mem')) := by
    rintro c1' rfl
    rw [hv, h2]
    simp only [Except.bind, hen, if_true, m1, hfit, h4, pure, Except.pure]
    cases polyfitLog B.mid (dmOf a c.m B) <;> rfl
  split at h1
  · rename_i hu
    rw [if_pos hu, h1]
    exact rest c1 rfl
  · rename_i hu
    rw [if_neg hu]
    injection h1 with h1
    exact rest c h1

theorem weight_eq {a : MassArgs} {c : Cluster} (hg : Good c) {i : ℕ} (hi : i < c.st.length) :
    (1 / (a.mcorr.getD (c.m.map (fun _ => (1 : ℝ))))[i]!) = a.weight i := by
  unfold MassArgs.weight
  cases a.mcorr with
  | none =>
    have : i < (c.m.map (fun _ => (1 : ℝ))).length := by simpa [hg.len] using hi
    simp only [Option.getD_none, Option.elim]
    rw [getElem!_pos (c.m.map (fun _ => (1 : ℝ))) i this]; simp
  | some w => rfl

theorem zipWith_real_get! {α β γ : Type} [Inhabited α] [Inhabited β] [Inhabited γ] (q : α → β → γ) (x : List α) (y : List β) {k : ℕ}
    (h1 : k < x.length) (h2 : k < y.length) : (List.zipWith q x y)[k]! = q x[k]! y[k]! := by
  rw [getElem!_pos _ k (by simpa using ⟨h1, h2⟩), getElem!_pos x k h1, getElem!_pos y k h2, List.getElem_zipWith]

/-- The numbers of the bins and what they mean. -/
theorem mass_bins {c : Cluster} (hg : Good c) {a : MassArgs} {e : PStars}
    {indx : Option ℕ} {mem : Mem} (hmc : ∀ w, a.mcorr = some w → w.length = c.st.length) {B : Binned} {P : List (ℝ × ℝ)}
    (hB : BinnedOk a.prof c.st.length (MassSelected a.sub e indx mem c) (fun i => c.m[i]!) B P) :
    (dmOf a c.m B).length = P.length ∧
    (∀ k < P.length, P[k]!.1 < P[k]!.2 ∧ B.lower[k]! = P[k]!.1 ∧ B.upper[k]! = P[k]!.2) ∧
    (∀ k < P.length, (dmOf a c.m B)[k]! * (P[k]!.2 - P[k]!.1) = sumOver c.st.length (InMassBin a.sub e indx mem c P k) a.weight) ∧
    ∀ k < P.length, ((maskSel (B.at k) (a.mcorr.getD (c.m.map (fun _ => 1)))).map (fun v => 1 / v)).sum =
      sumOver c.st.length (InMassBin a.sub e indx mem c P k) a.weight := by
  have hlen : (a.mcorr.getD (c.m.map (fun _ => 1))).length = c.st.length := by
    cases h : a.mcorr with
    | none => simp [hg.len]
    | some w => simp [hmc w h]
  have hcorr : ∀ k < P.length, ((maskSel (B.at k) (a.mcorr.getD (c.m.map (fun _ => 1)))).map (fun v => 1 / v)).sum =
      sumOver c.st.length (InMassBin a.sub e indx mem c P k) a.weight := by
    intro k hk
    rw [(hB.atBin k hk).sum hlen]
    exact sumOver_congr (fun _ _ => Iff.rfl) (fun i hi _ => weight_eq hg hi)
  have hP : ∀ k < P.length, P[k]!.1 < P[k]!.2 ∧ B.lower[k]! = P[k]!.1 ∧ B.upper[k]! = P[k]!.2 := by
    intro k hk
    obtain ⟨lo, hi, q, -, -⟩ := hB.contig
    have e : P[k]! = (B.lower[k]!, B.upper[k]!) := by
      have h1 : k < B.lower.length := by rw [hB.lenl]; exact hk
      have h2 : k < B.upper.length := by rw [hB.lenu]; exact hk
      rw [getElem!_pos B.lower k h1, getElem!_pos B.upper k h2, getElem!_pos P k hk]
      simp only [hB.zip, List.getElem_zip]
    refine ⟨?_, by rw [e], by rw [e]⟩
    have : P[k]? = some (P[k]!.1, P[k]!.2) := by rw [List.getElem?_eq_getElem hk, getElem!_pos P k hk]
    exact (q.ends this).2.1
  refine ⟨by simp [dmOf, hB.lenm, hB.lenl, hB.lenu], hP, ?_, hcorr⟩
  intro k hk
  obtain ⟨h1, h2, h3⟩ := hP k hk
  unfold dmOf
  have d1 : k < B.upper.length := by rw [hB.lenu]; exact hk
  have d2 : k < B.lower.length := by rw [hB.lenl]; exact hk
  rw [zipWith_real_get! _ _ _ (by simpa [hB.lenm] using hk) (by simpa using ⟨d1, d2⟩), zipWith_real_get! _ _ _ d1 d2,
    map_get! _ _ (by rw [hB.lenm]; exact hk), h2, h3, hcorr k hk, div_mul_cancel₀ _ (by linarith)]

theorem sum_zip_range {α β : Type} [Inhabited α] [Inhabited β] (q : α → β → ℝ) (x : List α) (y : List β) (h : x.length = y.length) :
    (List.zipWith q x y).sum = ∑ k ∈ Finset.range y.length, q x[k]! y[k]! := by
  rw [← sum_range_list]
  congr 1
  refine List.ext_getElem (by simp [h]) fun k h1 h2 => ?_
  have h3 : k < y.length := by simpa using h2
  rw [List.getElem_zipWith, List.getElem_map, List.getElem_range, getElem!_pos x k (by omega), getElem!_pos y k h3]

theorem mass_spec {c : Cluster} (hg : Good c) {a : MassArgs} {e : PStars}
    {indx : Option ℕ} {mem : Mem} (hmc : ∀ w, a.mcorr = some w → w.length = c.st.length)
    (hpos : ∀ w, a.mcorr = some w → ∀ v ∈ w, 0 < v) {B : Binned} {P : List (ℝ × ℝ)}
    (hB : BinnedOk a.prof c.st.length (MassSelected a.sub e indx mem c) (fun i => c.m[i]!) B P) {fit : LineFit}
    (hf : polyfitLog B.mid (dmOf a c.m B) = .ok fit) : IsMassFunction a e indx mem c P (outOf a c.m B fit) := by
  obtain ⟨hdl, hP, hdm, hcorr⟩ := mass_bins hg hmc hB
  obtain ⟨lo, hi, q1, q2, q3⟩ := hB.contig
  have hcnt : ∀ k < P.length, ((B.at k).count true : ℝ) = numOver c.st.length (InMassBin a.sub e indx mem c P k) :=
    fun k hk => by exact_mod_cast (hB.atBin k hk).count
  have hfit := polyfitLog_fit hf
  have hhl : (outOf a c.m B fit).hist.length = P.length := by simp [outOf, hB.lenm]
  refine ⟨⟨lo, hi, q1, q2, (q3 rfl).1, (q3 rfl).2⟩, hB.nbin rfl, ⟨hB.lenm, hhl, hdl⟩, ?_, ?_, ?_, hdm, ?_, ?_, hfit.2.1, ?_⟩
  · intro hx k hk
    obtain ⟨y1, y2⟩ := hB.midNum rfl hx k hk
    refine ⟨y1, ?_⟩
    unfold meanOver
    rw [eq_div_iff (by exact_mod_cast y1.ne')]
    exact y2
  · exact fun hx k hk => hB.midFix rfl hx k hk
  · intro k hk
    show ((List.range B.mid.length).map (fun i => ((B.at i).count true : ℝ)))[k]! = _
    rw [map_get! _ _ (by rw [hB.lenm]; exact hk), hcnt k hk]
  · show ((List.range B.mid.length).map (fun i => ((B.at i).count true : ℝ))).sum = _
    rw [sum_range_list, hB.lenm, numOver_eq, ← q1.sum_bins q2]
    refine Finset.sum_congr rfl fun k hk => ?_
    rw [hcnt k (Finset.mem_range.mp hk), numOver_eq]; rfl
  · show (List.zipWith (fun (d : ℝ) (p : ℝ × ℝ) => d * (p.2 - p.1)) (dmOf a c.m B) P).sum = _
    rw [sum_zip_range _ _ _ hdl, ← q1.sum_bins q2]
    exact Finset.sum_congr rfl fun k hk => hdm k (Finset.mem_range.mp hk)
  · constructor
    · simp [outOf]
    · intro w hw
      unfold outOf at hw
      simp only [Option.map_eq_some_iff] at hw
      obtain ⟨mc, hmc', rfl⟩ := hw
      refine ⟨by simp [hB.lenm], fun k hk => ?_⟩
      have hk' : k < B.mid.length := by rw [hB.lenm]; exact hk
      rw [zipWith_real_get! _ _ _ (by simpa using hk') (by simpa using hk'), map_get! _ _ hk', map_get! _ _ hk', hcorr k hk, hcnt k hk]
      refine div_mul_cancel₀ _ ?_
      -- the fit exists, so the density of the bin is positive
      have hd0 : 0 < (dmOf a c.m B)[k]! := by
        have h1 : k < (dmOf a c.m B).length := by rw [hdl]; exact hk
        rw [getElem!_pos _ k h1]
        exact hfit.2.2.2 _ (List.getElem_mem h1)
      rw [← hdm k hk]
      exact (mul_pos hd0 (by linarith [(hP k hk).1])).ne'

/-! ### C79 -/

/-- **C79 (mass function).**  Whenever `mass_function` returns for a cluster with at least `nmass` selected stars, not all of
one mass: the bins are contiguous and reach from the smallest to the largest selected mass, at most `nmass` of them; every
bin reports the mean mass (or with `bintype='fix'` its middle), the number of the selected stars in it and their weighted
number per unit mass; numbers and weights add up to those of all selected stars; the slope is that of the only
least-squares line of `log10 dN/dm` against `log10 m`, the errors are its standard errors; the cluster is left as it was. -/
theorem C79_mass_function {g : Galpy} {c : Cluster} (p : Pos g c) (l : Lin c) (hg : Good c) (f : Fresh c) {a : MassArgs} {e : PStars}
    {indx : Option ℕ} {mem : Mem} (he : e.Ok a.sub c.st.length) (hm : ∀ q, indx = some q → mem[q]!.length = c.st.length)
    (hmc : ∀ w, a.mcorr = some w → w.length = c.st.length) (hpos : ∀ w, a.mcorr = some w → ∀ v ∈ w, 0 < v)
    (hn : a.nmass ≤ numOver c.st.length (MassSelected a.sub e indx mem c)) (h0 : 0 < a.nmass)
    (hd : ∃ i j, i < c.st.length ∧ j < c.st.length ∧ MassSelected a.sub e indx mem c i ∧ MassSelected a.sub e indx mem c j ∧ c.m[i]! ≠ c.m[j]!)
    {o : MassOut} {c2 : Cluster} {mem' : Mem} (h : massFunction g a e indx mem c = .ok (o, c2, mem')) :
    ∃ P, IsMassFunction a e indx mem c P o ∧ c2.data = c.data ∧ Fresh c2 := by
  obtain ⟨k, mem'', B, P, c3, hS, h3, hB, d2, f2, g2, hrun⟩ := mass_run p l hg f he hm hmc hn h0 hd
  rw [hrun] at h
  obtain ⟨fit, hfit, h⟩ := bind_ok h
  injection h with h
  cases h
  exact ⟨P, mass_spec hg hmc hpos hB hfit, d2, f2⟩

theorem bins_increase {lo hi : ℝ} {P : List (ℝ × ℝ)} (h : Contig lo hi P) {j k : ℕ} (hjk : j < k) (hk : k < P.length) :
    P[j]!.2 ≤ P[k]!.1 := by
  induction h generalizing j k with
  | one h => simp at hk; omega
  | @cons a b c P h hP ih =>
    cases k with
    | zero => omega
    | succ k =>
      have hk' : k < P.length := by simpa using hk
      have e : ((a, b) :: P)[k + 1]! = P[k]! := by simp
      rw [e]
      cases j with
      | zero =>
        have : P[k]? = some (P[k]!.1, P[k]!.2) := by rw [List.getElem?_eq_getElem hk', getElem!_pos P k hk']
        exact (hP.ends this).1
      | succ j =>
        have e2 : ((a, b) :: P)[j + 1]! = P[j]! := by simp
        rw [e2]
        exact ih (by omega) hk'

/-- A mean lies below a bound of all values. -/
theorem mean_below {n : ℕ} {S : ℕ → Prop} {f : ℕ → ℝ} {x y : ℝ} (hy : ∀ i, S i → f i < y) (hn : 0 < numOver n S)
    (hx : x * numOver n S = sumOver n S f) : x < y := by
  classical
  have hn' : (0 : ℝ) < numOver n S := by exact_mod_cast hn
  have key : sumOver n S f < y * numOver n S := by
    unfold sumOver numOver
    rw [mul_comm, ← nsmul_eq_mul, ← Finset.sum_const]
    refine Finset.sum_lt_sum_of_nonempty ?_ fun i hi => hy i (Finset.mem_filter.mp hi).2
    unfold numOver at hn; exact Finset.card_pos.mp hn
  rw [← hx] at key
  exact lt_of_mul_lt_mul_right key hn'.le

theorem mean_above {n : ℕ} {S : ℕ → Prop} {f : ℕ → ℝ} {x y : ℝ} (hy : ∀ i, S i → y ≤ f i) (hn : 0 < numOver n S)
    (hx : x * numOver n S = sumOver n S f) : y ≤ x := by
  classical
  have hn' : (0 : ℝ) < numOver n S := by exact_mod_cast hn
  have key : y * numOver n S ≤ sumOver n S f := by
    unfold sumOver numOver
    rw [mul_comm, ← nsmul_eq_mul, ← Finset.sum_const]
    exact Finset.sum_le_sum fun i hi => hy i (Finset.mem_filter.mp hi).2
  rw [← hx] at key
  exact le_of_mul_le_mul_right key hn'

/-- **C79 (success).**  With at least three bins, positive masses and a selected star in every bin the fit exists. -/
theorem mass_defined {c : Cluster} (hg : Good c) {a : MassArgs} {e : PStars}
    {indx : Option ℕ} {mem : Mem} (hmc : ∀ w, a.mcorr = some w → w.length = c.st.length)
    (hpos : ∀ w, a.mcorr = some w → ∀ v ∈ w, 0 < v) (hmp : ∀ v ∈ c.m, 0 < v) {B : Binned} {P : List (ℝ × ℝ)}
    (hB : BinnedOk a.prof c.st.length (MassSelected a.sub e indx mem c) (fun i => c.m[i]!) B P) (h3 : 3 ≤ P.length)
    (hne : a.fix = true → ∀ k < P.length, 0 < numOver c.st.length (InMassBin a.sub e indx mem c P k)) :
    ∃ fit, polyfitLog B.mid (dmOf a c.m B) = .ok fit := by
  classical
  obtain ⟨hdl, hP, hdm, hcorr⟩ := mass_bins hg hmc hB
  obtain ⟨lo, hi, q1, q2, q3⟩ := hB.contig
  have hlo : 0 < lo := by
    obtain ⟨⟨i, hi, -, rfl⟩, -⟩ := q3 rfl
    have : i < c.m.length := by rw [hg.len]; exact hi
    show 0 < c.m[i]!
    rw [getElem!_pos c.m i this]
    exact hmp _ (List.getElem_mem this)
  have hends : ∀ k < P.length, lo ≤ P[k]!.1 := by
    intro k hk
    have : P[k]? = some (P[k]!.1, P[k]!.2) := by rw [List.getElem?_eq_getElem hk, getElem!_pos P k hk]
    exact (q1.ends this).1
  have hnum : ∀ k < P.length, 0 < numOver c.st.length (InMassBin a.sub e indx mem c P k) := by
    intro k hk
    cases hx : a.fix
    · exact (hB.midNum rfl hx k hk).1
    · exact hne hx k hk
  have hedge : ∀ k < P.length, ∀ v : ℝ, InBin P k v → P[k]!.1 ≤ v := by
    rintro k hk v ⟨l', h', e', h1, -⟩
    rw [getElem!_pos P k hk, show P[k] = (l', h') from by
      rw [List.getElem?_eq_getElem hk] at e'; injection e']
    exact h1
  have hmid : ∀ k < P.length, P[k]!.1 ≤ B.mid[k]! := by
    intro k hk
    cases hx : a.fix
    · obtain ⟨y1, y2⟩ := hB.midNum rfl hx k hk
      exact mean_above (fun i hi => hedge k hk _ hi.2) y1 y2
    · rw [hB.midFix rfl hx k hk]; linarith [(hP k hk).1]
  have hdist : B.mid[0]! < B.mid[1]! := by
    have a1 : B.mid[0]! < P[0]!.2 := by
      cases hx : a.fix
      · obtain ⟨y1, y2⟩ := hB.midNum rfl hx 0 (by omega)
        refine mean_below (fun i hi => ?_) y1 y2
        obtain ⟨-, l', h', e', -, h2⟩ := hi
        rw [getElem!_pos P 0 (by omega), show P[0] = (l', h') from by
          rw [List.getElem?_eq_getElem (by omega)] at e'; injection e']
        rcases h2 with h2 | ⟨h2, -⟩
        · exact h2
        · omega
      · rw [hB.midFix rfl hx 0 (by omega)]; linarith [(hP 0 (by omega)).1]
    have a2 := bins_increase q1 (j := 0) (k := 1) (by omega) (by omega)
    have a3 := hmid 1 (by omega)
    linarith
  refine polyfitLog_ok (by rw [hB.lenm, hdl]) (by rw [hB.lenm]; omega) ?_ ?_ ?_
  · intro v hv
    obtain ⟨k, hk, rfl⟩ := List.mem_iff_getElem.mp hv
    have hk' : k < P.length := by rw [← hB.lenm]; exact hk
    have := hmid k hk'
    rw [getElem!_pos B.mid k hk] at this
    linarith [hends k hk']
  · intro v hv
    obtain ⟨k, hk, rfl⟩ := List.mem_iff_getElem.mp hv
    have hk' : k < P.length := by rw [← hdl]; exact hk
    have hw : 0 < sumOver c.st.length (InMassBin a.sub e indx mem c P k) a.weight := by
      unfold sumOver
      refine Finset.sum_pos (fun i hi => ?_) ?_
      · have hi' := Finset.mem_range.mp (Finset.mem_filter.mp hi).1
        unfold MassArgs.weight
        cases hx : a.mcorr with
        | none => simp
        | some w =>
          simp only [Option.elim]
          have : i < w.length := by rw [hmc w hx]; exact hi'
          rw [getElem!_pos w i this]
          exact one_div_pos.mpr (hpos w hx _ (List.getElem_mem this))
      · have := hnum k hk'
        unfold numOver at this
        exact Finset.card_pos.mp this
    have := hdm k hk'
    rw [getElem!_pos _ k hk] at this
    have hwid : 0 < P[k]!.2 - P[k]!.1 := by linarith [(hP k hk').1]
    rw [← this] at hw
    exact (mul_pos_iff_of_pos_right hwid).mp hw
  · have l0 : 0 < B.mid.length := by rw [hB.lenm]; omega
    have l1 : 1 < B.mid.length := by rw [hB.lenm]; omega
    refine ⟨B.mid[0], List.getElem_mem _, B.mid[1], List.getElem_mem _, ?_⟩
    rw [getElem!_pos B.mid 0 l0, getElem!_pos B.mid 1 l1] at hdist
    exact hdist.ne

end

end CT
