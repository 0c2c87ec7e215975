/- Property theorems C140 (tapered mass functions) and C141 (where they fail). -/
import Verif.Spec.Tapered
import Verif.Props.NumberDensity
import Verif.Props.MassFunction3

namespace CT

noncomputable section

set_option linter.unusedSimpArgs false

/-! ### The call of the fit -/

theorem pow10log_pos {v : ℝ} (h : 0 < v) : pow10log v = .ok v := by
  unfold pow10log log10
  rw [if_pos h, Real.rpow_logb (by norm_num) (by norm_num) h]

theorem mapM_pow10log {l : List ℝ} (h : ∀ v ∈ l, 0 < v) : l.mapM pow10log = .ok l := by
  induction l with
  | nil => rfl
  | cons a l ih =>
    rw [List.mapM_cons, pow10log_pos (h a (by simp)), ih (fun v hv => h v (List.mem_cons_of_mem _ hv))]
    rfl

/-- With positive points and values that are not all equal, the fit gets exactly these points and the range of the values. -/
theorem callFit_ok (cf : TplCurve) {all mean dm : List ℝ} (hd : ∃ u ∈ all, ∃ v ∈ all, u ≠ v) (h1 : ∀ v ∈ mean, 0 < v)
    (h2 : ∀ v ∈ dm, 0 < v) : callFit cf all mean dm = cf (minOf all) (maxOf all) mean dm := by
  obtain ⟨u, hu, v, hv, huv⟩ := hd
  have hne : all ≠ [] := List.ne_nil_of_mem hu
  have mn := minOf_spec hne
  have mx := maxOf_spec hne
  have hlt : ¬ maxOf all ≤ minOf all := by
    rw [not_le]
    rcases lt_or_gt_of_ne huv with h | h
    · exact (mn.2 u hu).trans_lt (h.trans_le (mx.2 v hv))
    · exact (mn.2 v hv).trans_lt (h.trans_le (mx.2 u hu))
  unfold callFit
  simp only [bind, mapM_pow10log h1, mapM_pow10log h2, Except.bind, if_neg hlt, pure, Except.pure]

theorem range_ok {all : List ℝ} (h : all ≠ []) : IsRange all (minOf all) (maxOf all) :=
  ⟨(minOf_spec h).1, (maxOf_spec h).1, fun v hv => ⟨(minOf_spec h).2 v hv, (maxOf_spec h).2 v hv⟩⟩

theorem ite_bind_gen {α β : Type} {q : Prop} [Decidable q] {x y : Except Err α} {v : α} (h : (if q then x else y) = .ok v)
    {k : α → Except Err β} {r : Except Err β} (hk : k v = r) : (if q then x.bind k else y.bind k) = r := by
  by_cases hq : q
  · rw [if_pos hq] at h ⊢; rw [h]; exact hk
  · rw [if_neg hq] at h ⊢; rw [h]; exact hk

/-! ### The histogram -/

/-- Means and densities of the bins are positive. -/
theorem mass_positive {c : Cluster} (hg : Good c) {a : MassArgs} {e : PStars}
    {indx : Option ℕ} {mem : Mem} (hmc : ∀ w, a.mcorr = some w → w.length = c.st.length)
    (hpos : ∀ w, a.mcorr = some w → ∀ v ∈ w, 0 < v) (hmp : ∀ v ∈ c.m, 0 < v) (hx : a.fix = false) {B : Binned} {P : List (ℝ × ℝ)}
    (hB : BinnedOk a.prof c.st.length (MassSelected a.sub e indx mem c) (fun i => c.m[i]!) B P) :
    (∀ v ∈ B.mid, 0 < v) ∧ ∀ v ∈ dmOf a c.m B, 0 < v := by
  classical
  obtain ⟨hdl, hP, hdm, hcorr⟩ := mass_bins hg hmc hB
  obtain ⟨lo, hi, q1, q2, q3⟩ := hB.contig
  have hlo : 0 < lo := by
    obtain ⟨⟨i, hi, -, rfl⟩, -⟩ := q3 rfl
    have : i < c.m.length := by rw [hg.len]; exact hi
    show 0 < c.m[i]!
    rw [getElem!_pos c.m i this]
    exact hmp _ (List.getElem_mem this)
  have hends : ∀ k < P.length, lo ≤ P[k]!.1 := by
    intro k hk
    have : P[k]? = some (P[k]!.1, P[k]!.2) := by rw [List.getElem?_eq_getElem hk, getElem!_pos P k hk]
    exact (q1.ends this).1
  constructor
  · intro v hv
    obtain ⟨k, hk, rfl⟩ := List.mem_iff_getElem.mp hv
    have hk' : k < P.length := by rw [← hB.lenm]; exact hk
    obtain ⟨y1, y2⟩ := hB.midNum rfl hx k hk'
    have hm : P[k]!.1 ≤ B.mid[k]! := by
      refine mean_above (fun i hi => ?_) y1 y2
      obtain ⟨-, l', h', e', h1, -⟩ := hi
      rw [getElem!_pos P k hk', show P[k] = (l', h') from by
        rw [List.getElem?_eq_getElem hk'] at e'; injection e']
      exact h1
    rw [getElem!_pos B.mid k hk] at hm
    linarith [hends k hk']
  · intro v hv
    obtain ⟨k, hk, rfl⟩ := List.mem_iff_getElem.mp hv
    have hk' : k < P.length := by rw [← hdl]; exact hk
    have hw : 0 < sumOver c.st.length (InMassBin a.sub e indx mem c P k) a.weight := by
      unfold sumOver
      refine Finset.sum_pos (fun i hi => ?_) ?_
      · have hi' := Finset.mem_range.mp (Finset.mem_filter.mp hi).1
        unfold MassArgs.weight
        cases hx : a.mcorr with
        | none => simp
        | some w =>
          simp only [Option.elim]
          have : i < w.length := by rw [hmc w hx]; exact hi'
          rw [getElem!_pos w i this]
          exact one_div_pos.mpr (hpos w hx _ (List.getElem_mem this))
      · have := (hB.midNum rfl hx k hk').1
        unfold numOver at this
        exact Finset.card_pos.mp this
    have := hdm k hk'
    rw [getElem!_pos _ k hk] at this
    have hwid : 0 < P[k]!.2 - P[k]!.1 := by linarith [(hP k hk').1]
    rw [← this] at hw
    exact (mul_pos_iff_of_pos_right hwid).mp hw

/-- The result for a given fit. -/
def tapOf (a : MassArgs) (m : List ℝ) (B : Binned) (f : TplFit) : TapOut :=
  { mean := B.mid, hist := (List.range B.mid.length).map (fun i => ((B.at i).count true : ℝ)), dm := dmOf a m B, fit := f }

theorem tap_spec {c : Cluster} (hg : Good c) {a : MassArgs} {e : PStars}
    {indx : Option ℕ} {mem : Mem} (hmc : ∀ w, a.mcorr = some w → w.length = c.st.length) (hx : a.fix = false)
    {B : Binned} {P : List (ℝ × ℝ)}
    (hB : BinnedOk a.prof c.st.length (MassSelected a.sub e indx mem c) (fun i => c.m[i]!) B P) (fit : TplFit) :
    IsMassHistogram a e indx mem c P (tapOf a c.m B fit) := by
  obtain ⟨hdl, hP, hdm, hcorr⟩ := mass_bins hg hmc hB
  obtain ⟨lo, hi, q1, q2, q3⟩ := hB.contig
  have hcnt : ∀ k < P.length, ((B.at k).count true : ℝ) = numOver c.st.length (InMassBin a.sub e indx mem c P k) :=
    fun k hk => by exact_mod_cast (hB.atBin k hk).count
  have hhl : (tapOf a c.m B fit).hist.length = P.length := by simp [tapOf, hB.lenm]
  refine ⟨⟨lo, hi, q1, q2, (q3 rfl).1, (q3 rfl).2⟩, hB.nbin rfl, ⟨hB.lenm, hhl, hdl⟩, ?_, ?_, hdm, ?_⟩
  · intro k hk
    obtain ⟨y1, y2⟩ := hB.midNum rfl hx k hk
    refine ⟨y1, ?_⟩
    unfold meanOver
    rw [eq_div_iff (by exact_mod_cast y1.ne')]
    exact y2
  · intro k hk
    show ((List.range B.mid.length).map (fun i => ((B.at i).count true : ℝ)))[k]! = _
    rw [map_get! _ _ (by rw [hB.lenm]; exact hk), hcnt k hk]
  · show ((List.range B.mid.length).map (fun i => ((B.at i).count true : ℝ))).sum = _
    rw [sum_range_list, hB.lenm, numOver_eq, ← q1.sum_bins q2]
    refine Finset.sum_congr rfl fun k hk => ?_
    rw [hcnt k (Finset.mem_range.mp hk), numOver_eq]; rfl

/-! ### C140 -/

/-- **C140 (tapered mass function).**  For a cluster of positive masses with at least `nmass` selected stars, not all of one mass,
`tapered_mass_function` makes contiguous bins from the smallest to the largest selected mass, reports the mean mass, the number and
the weighted number per unit mass of the selected stars of every bin, and hands exactly these means and densities to `curve_fit`
with the smallest and the largest mass of the cluster as bounds of `mc`.  The result is what `curve_fit` found (or its error), and
the cluster is left as it was. -/
theorem C140_mass_function {g : Galpy} {c : Cluster} (p : Pos g c) (l : Lin c) (hg : Good c) (f : Fresh c) {a : MassArgs} {e : PStars}
    {indx : Option ℕ} {mem : Mem} (he : e.Ok a.sub c.st.length) (hm : ∀ q, indx = some q → mem[q]!.length = c.st.length)
    (hmc : ∀ w, a.mcorr = some w → w.length = c.st.length) (hpos : ∀ w, a.mcorr = some w → ∀ v ∈ w, 0 < v) (hmp : ∀ v ∈ c.m, 0 < v)
    (hn : a.nmass ≤ numOver c.st.length (MassSelected a.sub e indx mem c)) (h0 : 0 < a.nmass)
    (hd : ∃ i j, i < c.st.length ∧ j < c.st.length ∧ MassSelected a.sub e indx mem c i ∧ MassSelected a.sub e indx mem c j ∧ c.m[i]! ≠ c.m[j]!)
    (cf : TplCurve) :
    ∃ P lo hi mean hist dm c2 mem', IsRange c.m lo hi ∧ c2.data = c.data ∧ Fresh c2 ∧
      (∀ fit, IsMassHistogram a e indx mem c P ⟨mean, hist, dm, fit⟩) ∧
      (∀ fit, cf lo hi mean dm = .ok fit →
        taperedMassFunction g cf a e indx mem c = .ok (.eleven ⟨mean, hist, dm, fit⟩, c2, mem')) ∧
      ∀ err, cf lo hi mean dm = .error err → taperedMassFunction g cf a e indx mem c = .error err := by
  obtain ⟨b, hb⟩ : ∃ b : MassArgs, b = { a with fix := false } := ⟨_, rfl⟩
  have hbs : b.sub = a.sub := by rw [hb]
  have hbm : b.mcorr = a.mcorr := by rw [hb]
  have hbn : b.nmass = a.nmass := by rw [hb]
  have hbx : b.fix = false := by rw [hb]
  obtain ⟨c1, h1, s1, m1, g1, l1, f1, r1, w1, -, -⟩ := strip_amuse p l hg f
  obtain ⟨k, mem', h2, hS⟩ := mass_selected_mask (e := e) (q := a.sub) (indx := indx) (mem := mem) hg he hm
  have hc : BinsCover b.prof c.st.length (MassSelected a.sub e indx mem c) (fun i => c.m[i]!) := by
    obtain ⟨i, j, x1, x2, x3, x4, x5⟩ := hd
    exact .inl ⟨rfl, by show 0 < b.nmass; rw [hbn]; exact h0, i, j, x1, x2, x3, x4, x5⟩
  obtain ⟨B, P, h3, hB⟩ := binned_ok hg.len hS hc
  obtain ⟨c2, h4, d2, f2, g2, -, -⟩ := return_of_world (sort := false) (cm := none) p l hg g1 l1 r1 w1
  have hen : enough a.nmass (some k, mem') = true := by
    simp only [enough, Option.elim]
    rw [hS.count]; simpa using hn
  have hlen : (b.mcorr.getD (c.m.map (fun _ => 1))).length = c.m.length := by
    cases h : b.mcorr with
    | none => simp
    | some w => simp [hmc w (hbm ▸ h), hg.len]
  have hne : ∃ u ∈ c.m, ∃ v ∈ c.m, u ≠ v := by
    obtain ⟨i, j, x1, x2, -, -, x5⟩ := hd
    have y1 : i < c.m.length := by rw [hg.len]; exact x1
    have y2 : j < c.m.length := by rw [hg.len]; exact x2
    rw [getElem!_pos c.m i y1, getElem!_pos c.m j y2] at x5
    exact ⟨_, List.getElem_mem y1, _, List.getElem_mem y2, x5⟩
  rw [← hbs] at hB
  obtain ⟨z1, z2⟩ := mass_positive hg (fun w hw => hmc w (hbm ▸ hw)) (fun w hw => hpos w (hbm ▸ hw)) hmp hbx hB
  have hfit : tapFit cf b c.m (some k, mem') =
      (cf (minOf c.m) (maxOf c.m) B.mid (dmOf b c.m B)).bind (fun fit => .ok (tapOf b c.m B fit)) := by
    rw [← callFit_ok cf hne z1 z2]
    unfold tapFit
    simp only [h3, bind, Except.bind, pure, Except.pure, hlen, ne_eq, not_true_eq_false, if_false]
    rfl
  have hv : viewOf c1 e = rowsView c.st c.m e := by rw [fresh_view f1, s1, m1]
  have run : taperedMassFunction g cf a e indx mem c =
      (cf (minOf c.m) (maxOf c.m) B.mid (dmOf b c.m B)).bind (fun fit => .ok (.eleven (tapOf b c.m B fit), c2, mem')) := by
    unfold taperedMassFunction
    simp only [bind]
    refine ite_bind_gen h1 ?_
    rw [hv, h2]
    simp only [Except.bind, hen, if_true, m1, ← hb, hfit, h4, pure, Except.pure]
    cases cf (minOf c.m) (maxOf c.m) B.mid (dmOf b c.m B) <;> rfl
  refine ⟨P, minOf c.m, maxOf c.m, B.mid, (List.range B.mid.length).map (fun i => ((B.at i).count true : ℝ)), dmOf b c.m B, c2, mem',
    range_ok (by obtain ⟨u, hu, -⟩ := hne; exact List.ne_nil_of_mem hu), d2, f2, fun fit => ?_, fun fit hf => ?_, fun err hf => ?_⟩
  · have := tap_spec hg (fun w hw => hmc w (hbm ▸ hw)) hbx hB fit
    rw [hb] at this
    subst hb
    exact ⟨this.contig, this.few, this.lens, this.mean, this.number, this.density, this.total⟩
  · rw [run, hf]; rfl
  · rw [run, hf]; rfl

/-- **C140 (the characteristic mass).**  Whenever `tapered_mass_function` returns eleven values, the amplitude is not negative and the
characteristic mass lies between the smallest and the largest mass of the cluster. -/
theorem C140_bounds {g : Galpy} {c : Cluster} (p : Pos g c) (l : Lin c) (hg : Good c) (f : Fresh c) {a : MassArgs} {e : PStars}
    {indx : Option ℕ} {mem : Mem} (he : e.Ok a.sub c.st.length) (hm : ∀ q, indx = some q → mem[q]!.length = c.st.length)
    (hmc : ∀ w, a.mcorr = some w → w.length = c.st.length) (hpos : ∀ w, a.mcorr = some w → ∀ v ∈ w, 0 < v) (hmp : ∀ v ∈ c.m, 0 < v)
    (hn : a.nmass ≤ numOver c.st.length (MassSelected a.sub e indx mem c)) (h0 : 0 < a.nmass)
    (hd : ∃ i j, i < c.st.length ∧ j < c.st.length ∧ MassSelected a.sub e indx mem c i ∧ MassSelected a.sub e indx mem c j ∧ c.m[i]! ≠ c.m[j]!)
    {cf : TplCurve} (hcf : cf.Bounded) {r : TapResult} {c2 : Cluster} {mem' : Mem}
    (h : taperedMassFunction g cf a e indx mem c = .ok (r, c2, mem')) :
    ∃ o P, r.unpack = .ok o ∧ IsMassHistogram a e indx mem c P o ∧ 0 ≤ o.fit.A ∧ (∃ u ∈ c.m, u ≤ o.fit.mc) ∧
      (∃ v ∈ c.m, o.fit.mc ≤ v) ∧ c2.data = c.data ∧ Fresh c2 := by
  obtain ⟨P, lo, hi, mean, hist, dm, c3, mem3, hr, d3, f3, hh, hok, herr⟩ := C140_mass_function p l hg f he hm hmc hpos hmp hn h0 hd cf
  cases hf : cf lo hi mean dm with
  | error err => rw [herr err hf] at h; cases h
  | ok fit =>
    rw [hok fit hf] at h
    injection h with h
    cases h
    obtain ⟨b1, b2, b3⟩ := hcf _ _ _ _ _ hf
    exact ⟨_, P, rfl, hh fit, b1, ⟨lo, hr.1, b2⟩, ⟨hi, hr.2.1, b3⟩, d3, f3⟩

/-- **C140 (values).**  `tapered_dx_function` of positive values that are not all equal reports means, numbers and densities of the bins
that hold a value, and hands exactly these to `curve_fit` with the smallest and the largest value as bounds. -/
theorem C140_values (cf : TplCurve) (num : Bool) (x : List ℝ) (nx : ℕ) (hb : 0 < nx) (hp : ∀ v ∈ x, 0 < v)
    (hd : ∃ u ∈ x, ∃ v ∈ x, u ≠ v) :
    ∃ P lo hi mean hist dx, IsRange x lo hi ∧ Contig lo hi P ∧ P.length ≤ nx ∧ IsDensityHistogram x P mean hist dx ∧
      (mean = (fullBins P x).map (fun k => if num then (inBin P x k).sum / (inBin P x k).length else (P[k]!.1 + P[k]!.2) / 2)) ∧
      taperedDx cf num none x nx = (cf lo hi mean dx).bind (fun fit => .ok ⟨mean, hist, dx, fit⟩) := by
  classical
  have hne : x ≠ [] := by obtain ⟨u, hu, -⟩ := hd; exact List.ne_nil_of_mem hu
  have core : ∀ (T : BinTable) (P : List (ℝ × ℝ)) (mid : ℕ → ℝ), Contig (minOf x) (maxOf x) P → P.length ≤ nx →
      T.lower.length = T.upper.length → P = List.zip T.lower T.upper →
      T.hist = (List.range P.length).map (fun k => ((inBin P x k).length : ℝ)) → T.mid = (List.range P.length).map mid →
      (∀ k ∈ fullBins P x, P[k]!.1 ≤ mid k) → xBins num none x nx = .ok T →
      ∃ hist dx, IsDensityHistogram x P ((fullBins P x).map mid) hist dx ∧
        taperedDx cf num none x nx = (cf (minOf x) (maxOf x) ((fullBins P x).map mid) dx).bind
          (fun fit => .ok ⟨(fullBins P x).map mid, hist, dx, fit⟩) := by
    intro T P mid hP hlen hl hz hh hm hin hT
    obtain ⟨h1, h2⟩ := dx_core hP hl hz hh
    have e1 : whereDense (densityOf T) (densityOf T) = (fullBins P x).map (fun k => ((inBin P x k).length : ℝ) / (P[k]!.2 - P[k]!.1)) := by
      conv_lhs => rw [show whereDense (densityOf T) (densityOf T) = whereDense (densityOf T)
        ((List.range P.length).map (fun k => ((inBin P x k).length : ℝ) / (P[k]!.2 - P[k]!.1))) by rw [← h1]]
      exact h2 _
    have e2 : whereDense (densityOf T) T.mid = (fullBins P x).map mid := by rw [hm]; exact h2 _
    have e3 : whereDense (densityOf T) T.hist = (fullBins P x).map (fun k => ((inBin P x k).length : ℝ)) := by rw [hh]; exact h2 _
    have hw : ∀ k < P.length, minOf x ≤ P[k]!.1 ∧ P[k]!.1 < P[k]!.2 := by
      intro k hk
      have := hP.ends (i := k) (lo := P[k]!.1) (hi := P[k]!.2) (by rw [List.getElem?_eq_getElem hk, getElem!_pos P k hk])
      exact ⟨this.1, this.2.1⟩
    have hlt : ∀ k ∈ fullBins P x, k < P.length ∧ inBin P x k ≠ [] := by
      intro k hk
      unfold fullBins at hk
      rw [List.mem_filter, List.mem_range] at hk
      exact ⟨hk.1, by simpa using hk.2⟩
    have hmin := hp _ (minOf_spec hne).1
    refine ⟨_, _, ⟨rfl, rfl, by simp, full_total hP (fun v hv => ⟨(minOf_spec hne).2 v hv, (maxOf_spec hne).2 v hv⟩)⟩, ?_⟩
    rw [← callFit_ok cf hd (mean := (fullBins P x).map mid)
      (dm := (fullBins P x).map (fun k => ((inBin P x k).length : ℝ) / (P[k]!.2 - P[k]!.1)))]
    · unfold taperedDx
      simp only [bind, hT, Except.bind, e1, e2, e3]
      rfl
    · intro v hv
      obtain ⟨k, hk, rfl⟩ := List.mem_map.mp hv
      have := hin k hk
      have := (hw k (hlt k hk).1).1
      linarith
    · intro v hv
      obtain ⟨k, hk, rfl⟩ := List.mem_map.mp hv
      have a1 := (hw k (hlt k hk).1).2
      have a2 : 0 < (inBin P x k).length := List.length_pos_iff.mpr (hlt k hk).2
      have a3 : (0 : ℝ) < (inBin P x k).length := by exact_mod_cast a2
      exact div_pos a3 (by linarith)
  have hrange := range_ok hne
  cases num
  · obtain ⟨u, hu, v, hv, huv⟩ := hd
    have mn := minOf_spec hne
    have mx := maxOf_spec hne
    have hlt : minOf x < maxOf x := by
      rcases lt_or_gt_of_ne huv with h | h
      · exact (mn.2 u hu).trans_lt (h.trans_le (mx.2 v hv))
      · exact (mn.2 v hv).trans_lt (h.trans_le (mx.2 u hu))
    obtain ⟨T, hT, t1, t2, t3, t4, t5⟩ := fix_table hb hlt mn.1 mx.1 (fun v hv => ⟨mn.2 v hv, mx.2 v hv⟩)
    have hle : (List.zip T.lower T.upper).length ≤ nx := by rw [t3]; simp
    obtain ⟨hist, dx, r1, r2⟩ := core T _ _ t1 hle t2 rfl t4 t5 (fun k hk => by
      unfold fullBins at hk
      rw [List.mem_filter, List.mem_range] at hk
      have := (t1.ends (i := k) (by rw [List.getElem?_eq_getElem hk.1])).2.1
      rw [getElem!_pos _ k hk.1]
      linarith) (by unfold xBins; simpa using hT)
    exact ⟨_, _, _, _, hist, dx, hrange, t1, hle, r1, rfl, r2⟩
  · obtain ⟨T, lo, hi, hT, t1, t2, t3, t4, t5, t6, t7⟩ := num_table hb hd
    have hmin : minOf x = lo := le_antisymm ((minOf_spec hne).2 _ t1.1) ((t1.2.2 _ (minOf_spec hne).1).1)
    have hmax : maxOf x = hi := le_antisymm ((t1.2.2 _ (maxOf_spec hne).1).2) ((maxOf_spec hne).2 _ t1.2.1)
    rw [← hmin, ← hmax] at t2
    obtain ⟨hist, dx, r1, r2⟩ := core T _ _ t2 t4 t3 rfl t5 t6 (fun k hk => by
      unfold fullBins at hk
      rw [List.mem_filter, List.mem_range] at hk
      exact (mean_inBin hk.1 (t7 k hk.1)).1) (by unfold xBins; simpa using hT)
    exact ⟨_, _, _, _, hist, dx, hrange, t2, t4, r1, rfl, r2⟩

/-! ### C141 -/

/-- **C141 (violated: too few stars).**  With fewer than `nmass` selected stars the function returns seven values, so a caller that
unpacks the eleven values of a successful call gets a `ValueError`. -/
theorem C141_too_few_violated {g : Galpy} {c : Cluster} (p : Pos g c) (l : Lin c) (hg : Good c) (f : Fresh c) {a : MassArgs} {e : PStars}
    {indx : Option ℕ} {mem : Mem} (he : e.Ok a.sub c.st.length) (hm : ∀ q, indx = some q → mem[q]!.length = c.st.length)
    (hn : numOver c.st.length (MassSelected a.sub e indx mem c) < a.nmass) (cf : TplCurve) :
    ∃ r c2 mem', taperedMassFunction g cf a e indx mem c = .ok (r, c2, mem') ∧ r.unpack = .error .valueError ∧
      c2.data = c.data ∧ Fresh c2 := by
  obtain ⟨c1, h1, s1, m1, g1, l1, f1, r1, w1, -, -⟩ := strip_amuse p l hg f
  obtain ⟨k, mem', h2, hS⟩ := mass_selected_mask (e := e) (q := a.sub) (indx := indx) (mem := mem) hg he hm
  obtain ⟨c2, h4, d2, f2, g2, -, -⟩ := return_of_world (sort := false) (cm := none) p l hg g1 l1 r1 w1
  refine ⟨tapFew a.nmass, c2, mem', ?_, rfl, d2, f2⟩
  have hen : enough a.nmass (some k, mem') = false := by
    simp only [enough, Option.elim]
    rw [hS.count]; simpa using hn
  have hv : viewOf c1 e = rowsView c.st c.m e := by rw [fresh_view f1, s1, m1]
  unfold taperedMassFunction
  simp only [bind]
  refine ite_bind_of' h1 ?_
  rw [hv, h2]
  simp only [Except.bind, hen, Bool.false_eq_true, if_false, h4, pure, Except.pure]

/-- **C141 (violated: the range of the fit).**  The bounds of the characteristic mass are those of all stars, not of the selected ones:
a star heavier than all selected stars lets the fit put the characteristic mass above every selected mass. -/
theorem C141_range_violated {g : Galpy} {c : Cluster} (p : Pos g c) (l : Lin c) (hg : Good c) (f : Fresh c) {a : MassArgs} {e : PStars}
    {indx : Option ℕ} {mem : Mem} (he : e.Ok a.sub c.st.length) (hm : ∀ q, indx = some q → mem[q]!.length = c.st.length)
    (hmc : ∀ w, a.mcorr = some w → w.length = c.st.length) (hpos : ∀ w, a.mcorr = some w → ∀ v ∈ w, 0 < v) (hmp : ∀ v ∈ c.m, 0 < v)
    (hn : a.nmass ≤ numOver c.st.length (MassSelected a.sub e indx mem c)) (h0 : 0 < a.nmass)
    (hd : ∃ i j, i < c.st.length ∧ j < c.st.length ∧ MassSelected a.sub e indx mem c i ∧ MassSelected a.sub e indx mem c j ∧ c.m[i]! ≠ c.m[j]!)
    (heavy : ∃ j < c.st.length, ∀ i < c.st.length, MassSelected a.sub e indx mem c i → c.m[i]! < c.m[j]!) :
    ∃ cf : TplCurve, cf.Bounded ∧ ∃ o c2 mem', taperedMassFunction g cf a e indx mem c = .ok (.eleven o, c2, mem') ∧
      ∀ i < c.st.length, MassSelected a.sub e indx mem c i → c.m[i]! < o.fit.mc := by
  classical
  let cf : TplCurve := fun lo hi _ _ => if lo ≤ hi then .ok ⟨0, 0, hi, 0, 0, 0, 0, 0⟩ else .error .valueError
  have hcf : cf.Bounded := by
    intro lo hi xs ys f hf
    simp only [cf] at hf
    split at hf
    · rename_i h
      injection hf with hf
      subst hf
      exact ⟨le_refl _, h, le_refl _⟩
    · cases hf
  obtain ⟨P, lo, hi, mean, hist, dm, c2, mem', hr, -, -, -, hok, -⟩ := C140_mass_function p l hg f he hm hmc hpos hmp hn h0 hd cf
  have hle : lo ≤ hi := (hr.2.2 lo hr.1).2
  refine ⟨cf, hcf, _, c2, mem', hok ⟨0, 0, hi, 0, 0, 0, 0, 0⟩ (by simp only [cf, if_pos hle]), fun i hi' hs => ?_⟩
  obtain ⟨j, hj, hj2⟩ := heavy
  have y2 : j < c.m.length := by rw [hg.len]; exact hj
  have := (hr.2.2 _ (List.getElem_mem y2)).2
  have h3 := hj2 i hi' hs
  rw [getElem!_pos c.m j y2] at h3
  exact h3.trans_le this

/-! ### Examples -/

/-- A fit that stays within its bounds. -/
def demoTapFit : TplCurve := fun lo hi _ _ => if lo ≤ hi then .ok ⟨1, -2, lo, 1, 0, 0, 0, 0⟩ else .error .valueError

theorem demoFit_bounded : demoTapFit.Bounded := by
  intro lo hi xs ys f hf
  unfold demoTapFit at hf
  split at hf
  · rename_i h
    injection hf with hf
    subst hf
    exact ⟨zero_le_one, le_refl _, h⟩
  · cases hf

theorem demoMass_positive {c0 : Cluster} (hm : c0.m = [1, 2, 3, 4, 5, 6]) : ∀ v ∈ c0.m, 0 < v := by
  intro v hv
  rw [hm] at hv
  simp only [List.mem_cons, List.not_mem_nil, or_false] at hv
  rcases hv with h | h | h | h | h | h <;> rw [h] <;> norm_num

/-- C140: three bins of six stars; the fit succeeds, and the numbers of the bins add up to six. -/
example : ∃ c0 o c2 mem' P, taperedMassFunction demoG demoTapFit { sub := {}, nmass := 3 } demoStars none [] c0 = .ok (.eleven o, c2, mem') ∧
    IsMassHistogram { sub := {}, nmass := 3 } demoStars none [] c0 P o ∧ o.hist.sum = 6 ∧ o.fit.mc ∈ c0.m := by
  obtain ⟨c0, w, h0, p, l, hg, f, hm, hw, hu, hn, hs⟩ := demoMass_ok
  have he : demoStars.Ok {} c0.st.length := ⟨by rw [hn]; rfl, .inl rfl, .inl ⟨rfl, rfl⟩⟩
  obtain ⟨P, lo, hi, mean, hist, dm, c2, mem', hr, -, -, hh, hok, -⟩ := C140_mass_function (a := { sub := {}, nmass := 3 }) (indx := none)
    (mem := []) p l hg f he (by intro q hq; cases hq) (by intro w hw; cases hw) (by intro w hw; cases hw) (demoMass_positive hm)
    (by rw [demo_num hn hs]; norm_num) (by norm_num)
    ⟨0, 1, by rw [hn]; norm_num, by rw [hn]; norm_num, hs 0 (by norm_num), hs 1 (by norm_num), by rw [hm]; norm_num⟩ demoTapFit
  have hle : lo ≤ hi := (hr.2.2 lo hr.1).2
  exact ⟨c0, _, c2, mem', P, hok ⟨1, -2, lo, 1, 0, 0, 0, 0⟩ (by unfold demoTapFit; rw [if_pos hle]), hh _,
    by rw [(hh ⟨1, -2, lo, 1, 0, 0, 0, 0⟩).total, demo_num hn hs]; norm_num, hr.1⟩

/-- C140: values. -/
example : ∃ o, taperedDx demoTapFit true none [1, 2, 3, 4, 5, 6] 3 = .ok o ∧ o.hist.sum = 6 := by
  obtain ⟨P, lo, hi, mean, hist, dx, hr, -, -, hh, -, hrun⟩ := C140_values demoTapFit true [1, 2, 3, 4, 5, 6] 3 (by norm_num)
    (by
      intro v hv
      simp only [List.mem_cons, List.not_mem_nil, or_false] at hv
      rcases hv with h | h | h | h | h | h <;> rw [h] <;> norm_num) ⟨1, by simp, 2, by simp, by norm_num⟩
  have hle : lo ≤ hi := (hr.2.2 lo hr.1).2
  refine ⟨⟨mean, hist, dx, ⟨1, -2, lo, 1, 0, 0, 0, 0⟩⟩, ?_, ?_⟩
  · rw [hrun]; unfold demoTapFit; rw [if_pos hle]; rfl
  · show hist.sum = 6
    rw [hh.total]; norm_num

/-- C141: seven bins asked of six stars. -/
example : ∃ c0 r c2 mem', taperedMassFunction demoG demoTapFit { sub := {}, nmass := 7 } demoStars none [] c0 = .ok (r, c2, mem') ∧
    r.unpack = .error .valueError := by
  obtain ⟨c0, w, h0, p, l, hg, f, hm, hw, hu, hn, hs⟩ := demoMass_ok
  have he : demoStars.Ok {} c0.st.length := ⟨by rw [hn]; rfl, .inl rfl, .inl ⟨rfl, rfl⟩⟩
  obtain ⟨r, c2, mem', a1, a2, -⟩ := C141_too_few_violated (a := { sub := {}, nmass := 7 }) (indx := none) (mem := []) p l hg f he
    (by intro q hq; cases hq) (by rw [demo_num hn hs]; norm_num) demoTapFit
  exact ⟨c0, r, c2, mem', a1, a2⟩

/-- C141: the three lightest of the stars of masses 1 to 6. -/
example : ∃ (cf : TplCurve) (c0 : Cluster) (o : TapOut) (c2 : Cluster) (mem' : Mem), cf.Bounded ∧
    taperedMassFunction demoG cf { sub := {}, nmass := 3 } demoStars (some 0) [[true, true, true, false, false, false]] c0 =
      .ok (.eleven o, c2, mem') ∧
    ∀ i < 6, MassSelected {} demoStars (some 0) [[true, true, true, false, false, false]] c0 i → c0.m[i]! < o.fit.mc := by
  classical
  obtain ⟨c0, w, h0, p, l, hg, f, hm, hw, hu, hn, hs⟩ := demoMass_ok
  have he : demoStars.Ok {} c0.st.length := ⟨by rw [hn]; rfl, .inl rfl, .inl ⟨rfl, rfl⟩⟩
  have hsel : ∀ i < 6, MassSelected {} demoStars (some 0) [[true, true, true, false, false, false]] c0 i ↔ i = 0 ∨ i = 1 ∨ i = 2 := by
    intro i hi
    have hp := (hs i hi).2
    constructor
    · intro h
      have := h.1 0 rfl
      interval_cases i <;> simp at this ⊢
    · intro h
      refine ⟨fun q hq => ?_, hp⟩
      cases hq
      rcases h with rfl | rfl | rfl <;> rfl
  have hnum : numOver c0.st.length (MassSelected {} demoStars (some 0) [[true, true, true, false, false, false]] c0) = 3 := by
    have := sumOver_congr (n := 6) (f := fun _ => 1) (g := fun _ => 1) hsel (fun _ _ _ => rfl)
    rw [← numOver_eq, sumOver_ite] at this
    rw [hn]
    have e : (∑ i ∈ Finset.range 6, if i = 0 ∨ i = 1 ∨ i = 2 then (1 : ℝ) else 0) = 3 := by
      simp only [Finset.sum_range_succ, Finset.sum_range_zero]; norm_num
    rw [e] at this
    exact_mod_cast this
  obtain ⟨cf, hcf, o, c2, mem', a1, a2⟩ := C141_range_violated (a := { sub := {}, nmass := 3 }) (indx := some 0)
    (mem := [[true, true, true, false, false, false]]) p l hg f he (by intro q hq; cases hq; rw [hn]; rfl) (by intro w hw; cases hw)
    (by intro w hw; cases hw) (demoMass_positive hm) (by rw [hnum]) (by norm_num)
    ⟨0, 1, by rw [hn]; norm_num, by rw [hn]; norm_num, (hsel 0 (by norm_num)).mpr (by simp), (hsel 1 (by norm_num)).mpr (by simp),
      by rw [hm]; norm_num⟩
    ⟨5, by rw [hn]; norm_num, fun i hi hi2 => by
      rw [hn] at hi
      rcases (hsel i hi).mp hi2 with rfl | rfl | rfl <;> rw [hm] <;> norm_num⟩
  exact ⟨cf, c0, o, c2, mem', hcf, a1, fun i hi => a2 i (by rw [hn]; exact hi)⟩

end

end CT
