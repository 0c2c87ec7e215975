/- Property theorems C96 (profiles of the slope of the mass function). -/
import Verif.Props.SlopeProf

namespace CT

noncomputable section

set_option linter.unusedSimpArgs false

/-! ### The run -/

theorem started_radii {g : Galpy} {c c1 : Cluster} (s : Started g c c1) (pr : Bool) :
    (if pr then c1.d.rpro else c1.d.r) = (centred c).map (dist0 pr) := by
  cases pr
  · rw [if_neg (by simp), s.fresh.r.eq_map, s.st]; rfl
  · rw [if_pos rfl, s.fresh.rpro.eq_map, s.st]; rfl

theorem meanRadii_spec {a : ProfArgs} {e : PStars} {indx : Option ℕ} {mem : Mem} {c : Cluster} {B : Binned} {P : List (ℝ × ℝ)}
    (hB : BinnedOk a c.st.length (Chosen a.sub e indx mem c) (radiusOf a.sub c) B P) :
    MeanRadii a e indx mem c P (meanRadii a ((centred c).map (dist0 a.sub.projected)) B) := by
  have hl : ((centred c).map (dist0 a.sub.projected)).length = c.st.length := by rw [List.length_map, centred_length]
  unfold meanRadii
  cases hb : a.bins with
  | none =>
    simp only [Option.isSome_none, Bool.false_eq_true, if_false]
    refine ⟨hB.lenm, ?_, ?_⟩
    · intro hx k hk hn
      have hx : a.fix = false := by
        rcases hx with hx | hx
        · simp [hb] at hx
        · exact hx
      obtain ⟨y1, y2⟩ := hB.midNum hb hx k hk
      have : (0 : ℝ) < numOver c.st.length (InProfBin a e indx mem c P k) := by exact_mod_cast hn
      unfold meanOver
      rw [eq_div_iff this.ne']; exact y2
    · intro _ hx k hk; exact hB.midFix hb hx k hk
  | some b =>
    simp only [Option.isSome_some, if_true]
    refine ⟨by simp [hB.lenl], ?_, by intro h; rw [hb] at h; cases h⟩
    intro _ k hk _
    rw [hB.lenl, map_get! _ _ hk, mean_mask' (hB.atBin k hk) hl]
    exact meanOver_congr fun i hi => rows_get hi

theorem alpha_selected {a : AlphaArgs} {e : PStars} {q : ℕ} {mem : Mem} {x : Cluster} {i : ℕ} :
    MassSelected a.inner.sub e (some q) mem x i ↔ (mem[q]!)[i]! = true ∧ (e.kw ≠ [] → 0 ≤ e.kw[i]! ∧ e.kw[i]! ≤ 1) := by
  constructor
  · intro h; exact ⟨h.1 q rfl, h.2.kw⟩
  · intro h
    refine ⟨fun p hp => by cases hp; exact h.1, ?_⟩
    exact ⟨⟨(fun b hb => by cases hb), (fun b hb => by cases hb)⟩, ⟨(fun b hb => by cases hb), (fun b hb => by cases hb)⟩,
      ⟨(fun b hb => by cases hb), (fun b hb => by cases hb)⟩, ⟨(fun b hb => by cases hb), (fun b hb => by cases hb)⟩,
      (fun p hp => by cases hp), h.2⟩

theorem IsMassFunction.congr {a : MassArgs} {e : PStars} {indx indx' : Option ℕ} {mem mem' : Mem} {c c' : Cluster} {P : List (ℝ × ℝ)}
    {o : MassOut} (h : IsMassFunction a e indx mem c P o) (hl : c'.st.length = c.st.length) (hm : c'.m = c.m)
    (hs : MassSelected a.sub e indx' mem' c' = MassSelected a.sub e indx mem c) : IsMassFunction a e indx' mem' c' P o := by
  have hb : ∀ k, InMassBin a.sub e indx' mem' c' P k = InMassBin a.sub e indx mem c P k := by
    intro k; funext i; unfold InMassBin; rw [hs, hm]
  obtain ⟨h1, h2, h3, h4, h5, h6, h7, h8, h9, h10, h11⟩ := h
  refine ⟨?_, h2, h3, ?_, h5, ?_, ?_, ?_, ?_, h10, ?_⟩
  · rw [hl, hm, hs]; exact h1
  · simp only [hl, hm, hb]; exact h4
  · simp only [hl, hb]; exact h6
  · simp only [hl, hb]; exact h7
  · rw [hl, hs]; exact h8
  · rw [hl, hs]; exact h9
  · simp only [hl, hb]; exact h11

/-- The parts of a run of `alpha_prof`. -/
theorem alpha_core {g : Galpy} {c : Cluster} (p : Pos g c) (l : Lin c) (hg : Good c) (f : Fresh c) {a : AlphaArgs} {e : PStars}
    {indx : Option ℕ} {mem : Mem} (he : e.Ok a.prof.sub c.st.length) (hm : ∀ q, indx = some q → mem[q]!.length = c.st.length)
    (hc : BinsCover a.prof c.st.length (Chosen a.prof.sub e indx mem c) (radiusOf a.prof.sub c))
    {o : SlopeOut} {after : After} (h : alphaProf g a e indx mem c = .ok (o, after)) :
    ∃ c1 B P mid t m0, profStart g a.prof.normalize a.prof.normalize c = .ok c1 ∧ Started g c c1 ∧
      BinnedOk a.prof c.st.length (Chosen a.prof.sub e indx mem c) (radiusOf a.prof.sub c) B P ∧
      mid = meanRadii a.prof ((centred c).map (dist0 a.prof.sub.projected)) B ∧ MeanRadii a.prof e indx mem c P mid ∧
      velRadii a.prof c1 mid = .ok o.r ∧
      alphaBins g a.inner e B (List.range P.length) c1 m0 = .ok t ∧ o.slope = t.1.map Prod.fst ∧ o.err = t.1.map Prod.snd ∧
      o.fit = (if 3 < P.length then orNoFit (fitLn mid (rmOf a.prof.sub.projected t.2.1) (t.1.map Prod.fst)) else noFit) ∧
      after.cluster.data = c.data ∧ Fresh after.cluster := by
  obtain ⟨c1, k, mem', B, P, -, h1, s1, h2, h3, hB, -⟩ := prof_parts a.prof.normalize a.prof.normalize p l hg f he hm hc
  have hmid := meanRadii_spec hB
  rw [started_radii s1] at h3
  unfold alphaProf at h
  simp only [bind, h1, Except.bind, h2, started_radii s1, h3] at h
  obtain ⟨rn, h4, h⟩ := bind_ok h
  obtain ⟨t, h5, h⟩ := bind_ok h
  obtain ⟨c2, h6, h⟩ := bind_ok h
  obtain ⟨rn', h7, h⟩ := bind_ok h
  simp only [pure, Except.pure, Except.ok.injEq, Prod.mk.injEq] at h
  have p1 := p.of_rest s1.rest
  obtain ⟨kt, -⟩ := alphaBins_run p1 s1.lin _ ⟨rfl, s1.fresh, s1.good, rfl⟩ h5
  obtain ⟨c3, h8, d2, f2, g2, -, -⟩ := return_of_world (sort := false) (cm := none) p l hg kt.good (kt.lin s1.lin) (kt.rest.trans s1.rest)
    ((world_of_data kt.data kt.rest).trans s1.world)
  rw [h6] at h8; cases h8
  have hu : c2.units = c.units := congrArg Data.units d2
  have hu' : t.2.1.units = c1.units := congrArg Data.units kt.data
  have hconv := conv_id s1 hu (f := fun u v x => .ok (convertLength g c2 u v x)) (by simp [convertLength])
    (by simp [convertLength, Units.isPc, Units.isKpc]) rn
  have hconv' : convUnits (fun u v x => .ok (convertLength g c2 u v x)) t.2.1 c2 rn = .ok rn := by
    rw [← hconv]; unfold convUnits; rw [hu']
  rw [hconv'] at h7; cases h7
  obtain ⟨ho, ha⟩ := h
  subst ho; subst ha
  rw [hmid.len] at h5
  exact ⟨c1, B, P, _, t, mem', h1, s1, hB, rfl, hmid, h4, h5, rfl, rfl, by rw [hmid.len], d2, f2⟩

/-- The mass function of one radial bin. -/
theorem alpha_bin {g : Galpy} {c c1 : Cluster} (p : Pos g c) (s1 : Started g c c1) (hg : Good c) {a : AlphaArgs} {e : PStars}
    {indx : Option ℕ} {mem : Mem} (he : e.Ok a.prof.sub c.st.length) {B : Binned} {P : List (ℝ × ℝ)}
    (hB : BinnedOk a.prof c.st.length (Chosen a.prof.sub e indx mem c) (radiusOf a.prof.sub c) B P) {k : ℕ} (hk : k < P.length)
    {d : Cluster} (kd : LeftAs c1 d) (m0 : Mem) :
    Pos g d ∧ Lin d ∧ d.st.length = c.st.length ∧ d.m = c.m ∧ e.Ok a.inner.sub d.st.length ∧
      (m0 ++ [B.at k])[m0.length]!.length = d.st.length ∧
      numOver d.st.length (MassSelected a.inner.sub e (some m0.length) (m0 ++ [B.at k]) d) = numOver c.st.length (AlphaStar a e indx mem c P k) ∧
      (∀ i < c.st.length, MassSelected a.inner.sub e (some m0.length) (m0 ++ [B.at k]) d i ↔ AlphaStar a e indx mem c P k i) ∧
      MassSelected a.inner.sub e (some 0) [B.at k] c = MassSelected a.inner.sub e (some m0.length) (m0 ++ [B.at k]) d := by
  have hl : d.st.length = c.st.length := by
    rw [show d.st = c1.st from congrArg Data.st kd.data, s1.st, centred_length]
  have hget : (m0 ++ [B.at k])[m0.length]! = B.at k := by simp
  have hsel : ∀ i < c.st.length, MassSelected a.inner.sub e (some m0.length) (m0 ++ [B.at k]) d i ↔ AlphaStar a e indx mem c P k i := by
    intro i hi
    rw [alpha_selected, hget, (hB.atBin k hk).val i hi]
    rfl
  refine ⟨p.of_rest (kd.rest.trans s1.rest), kd.lin s1.lin, hl, (congrArg Data.m kd.data).trans s1.m, ?_, ?_, ?_, hsel, ?_⟩
  · rw [hl]; exact ⟨he.npop, he.kw, .inl ⟨rfl, rfl⟩⟩
  · rw [hget, hl]; exact (hB.atBin k hk).len
  · have := sumOver_congr (n := c.st.length) (f := fun _ => 1) (g := fun _ => 1) hsel (fun _ _ _ => rfl)
    rw [← numOver_eq, ← numOver_eq] at this
    rw [hl]
    exact_mod_cast this
  · funext i
    rw [eq_iff_iff, alpha_selected, alpha_selected, hget]; rfl

/-! ### The gradient -/

theorem polyfit1_ok {x y : List ℝ} (hl : x.length = y.length) (h2 : 2 < x.length) (hd : ∃ u ∈ x, ∃ v ∈ x, u ≠ v) :
    ∃ f, polyfit1 x y = .ok f := by
  unfold polyfit1
  have hne : x ≠ [] := by rintro rfl; simp at h2
  rw [if_neg hne, if_neg (by simpa using hl), if_neg, if_neg (by omega)]
  · exact ⟨_, rfl⟩
  · intro h0
    obtain ⟨u, hu, v, hv, huv⟩ := hd
    have hz : ∀ w ∈ x.map (fun v => (v - mean x) ^ 2), w = 0 :=
      zero_of_sum (fun w hw => by obtain ⟨z, -, rfl⟩ := List.mem_map.mp hw; positivity) h0
    have a1 : ∀ w ∈ x, w = mean x := by
      intro w hw
      have := hz _ (List.mem_map_of_mem hw)
      have := pow_eq_zero_iff (by norm_num) |>.mp this
      linarith
    exact huv ((a1 u hu).trans (a1 v hv).symm)

theorem fitLn_ok {mid y : List ℝ} {rm : ℝ} (hl : mid.length = y.length) (h2 : 2 < mid.length) (hp : ∀ v ∈ mid, 0 < v) (hr : 0 < rm)
    (hd : ∃ u ∈ mid, ∃ v ∈ mid, u ≠ v) : ∃ f, fitLn mid (some rm) y = .ok f ∧ IsLineFit (lnPoints rm mid y) f := by
  unfold fitLn
  simp only [Option.elim]
  rw [if_neg]
  · obtain ⟨u, hu, v, hv, huv⟩ := hd
    obtain ⟨f, hf⟩ := polyfit1_ok (x := mid.map (fun v => Real.log (v / rm))) (y := y) (by simpa using hl) (by simpa using h2)
      ⟨_, List.mem_map_of_mem hu, _, List.mem_map_of_mem hv, fun e => huv (by
        have e2 := Real.log_injOn_pos (Set.mem_Ioi.mpr (div_pos (hp u hu) hr)) (Set.mem_Ioi.mpr (div_pos (hp v hv) hr)) e
        field_simp at e2; exact e2)⟩
    exact ⟨f, hf, (polyfit1_fit hf).2⟩
  · rintro ⟨v, hv, hle⟩
    exact absurd (div_pos (hp v hv) hr) (not_lt.mpr hle)

/-- Mean radii of bins that hold stars, none of them at the centre: positive, increasing from the first to the second. -/
theorem meanRadii_good {a : ProfArgs} {e : PStars} {indx : Option ℕ} {mem : Mem} {c : Cluster} {P : List (ℝ × ℝ)} {mid : List ℝ}
    (hR : ReportedBins a e indx mem c P) (hM : MeanRadii a e indx mem c P mid) (h2 : 2 ≤ P.length)
    (hne : ∀ k < P.length, ∃ i < c.st.length, InProfBin a e indx mem c P k i) (hpos : ∀ i < c.st.length, 0 < radiusOf a.sub c i) :
    (∀ v ∈ mid, 0 < v) ∧ ∃ u ∈ mid, ∃ v ∈ mid, u ≠ v := by
  classical
  obtain ⟨lo, hi, q1, q2, q3⟩ := hR.contig
  have hnum : ∀ k < P.length, 0 < numOver c.st.length (InProfBin a e indx mem c P k) := by
    intro k hk
    obtain ⟨i, hi, h⟩ := hne k hk
    unfold numOver
    exact Finset.card_pos.mpr ⟨i, by simp [hi, h]⟩
  have hwid : ∀ k < P.length, P[k]!.1 < P[k]!.2 := by
    intro k hk
    have : P[k]? = some (P[k]!.1, P[k]!.2) := by rw [List.getElem?_eq_getElem hk, getElem!_pos P k hk]
    exact (q1.ends this).2.1
  have hmean : ∀ k < P.length, (a.bins.isSome ∨ a.fix = false) →
      mid[k]! * numOver c.st.length (InProfBin a e indx mem c P k) = sumOver c.st.length (InProfBin a e indx mem c P k) (radiusOf a.sub c) := by
    intro k hk hx
    rw [hM.mean hx k hk (hnum k hk)]
    have : (0 : ℝ) < numOver c.st.length (InProfBin a e indx mem c P k) := by exact_mod_cast hnum k hk
    unfold meanOver
    field_simp
  have hedge : ∀ k < P.length, ∀ v : ℝ, InBin P k v → P[k]!.1 ≤ v ∧ (k + 1 < P.length → v < P[k]!.2) := by
    rintro k hk v ⟨l', h', e', h1, h2⟩
    have e1 : P[k]! = (l', h') := by
      rw [getElem!_pos P k hk]
      rw [List.getElem?_eq_getElem hk] at e'; injection e'
    rw [e1]
    refine ⟨h1, fun hlt => ?_⟩
    rcases h2 with h2 | ⟨h2, -⟩
    · exact h2
    · omega
  have hcase : (a.bins.isSome ∨ a.fix = false) ∨ (a.bins = none ∧ a.fix = true) := by
    cases hb : a.bins <;> cases hx : a.fix <;> simp
  have hp : ∀ k < P.length, 0 < mid[k]! := by
    intro k hk
    rcases hcase with hx | ⟨hb, hx⟩
    · have e1 := hmean k hk hx
      have hn : (0 : ℝ) < numOver c.st.length (InProfBin a e indx mem c P k) := by exact_mod_cast hnum k hk
      have : 0 < sumOver c.st.length (InProfBin a e indx mem c P k) (radiusOf a.sub c) := by
        unfold sumOver
        obtain ⟨i, hi, h⟩ := hne k hk
        exact Finset.sum_pos (fun j hj => hpos j (Finset.mem_range.mp (Finset.mem_filter.mp hj).1)) ⟨i, by simp [hi, h]⟩
      rw [← e1] at this
      exact (pos_iff_pos_of_mul_pos this).mpr hn
    · rw [hM.fix hb hx k hk]
      obtain ⟨⟨i, i1, i2, i3⟩, -⟩ := q3 hb
      have : P[k]? = some (P[k]!.1, P[k]!.2) := by rw [List.getElem?_eq_getElem hk, getElem!_pos P k hk]
      have h1 := (q1.ends this).1
      have h2 := hwid k hk
      have h3 := hpos i i1
      rw [i3] at h3
      linarith
  have h01 : mid[0]! < mid[1]! := by
    have a2 := bins_increase q1 (j := 0) (k := 1) (by omega) (by omega)
    rcases hcase with hx | ⟨hb, hx⟩
    · have a1 : mid[0]! < P[0]!.2 := mean_below (fun i hi => (hedge 0 (by omega) _ hi.2).2 (by omega)) (hnum 0 (by omega)) (hmean 0 (by omega) hx)
      have a3 : P[1]!.1 ≤ mid[1]! := mean_above (fun i hi => (hedge 1 (by omega) _ hi.2).1) (hnum 1 (by omega)) (hmean 1 (by omega) hx)
      linarith
    · rw [hM.fix hb hx 0 (by omega), hM.fix hb hx 1 (by omega)]
      have := hwid 0 (by omega)
      have := hwid 1 (by omega)
      linarith
  have hml := hM.len
  constructor
  · intro v hv
    obtain ⟨k, hk, rfl⟩ := List.mem_iff_getElem.mp hv
    have := hp k (by omega)
    rwa [getElem!_pos mid k hk] at this
  · rw [getElem!_pos mid 0 (by omega), getElem!_pos mid 1 (by omega)] at h01
    exact ⟨_, List.getElem_mem _, _, List.getElem_mem _, h01.ne⟩

/-- **C96.**  Whatever `alpha_prof` returns, for bins that cover the chosen radii: the bins are those of all profiles, the radii are the mean
radii of their stars; entry `k` is the slope (with its error) of the mass function of the pre- and main-sequence stars in radial bin `k` if
there are at least `nmass` of them, not all of one mass, and the slope is above `-100`.  With up to three bins there is no gradient (`-100`); with
more, if every bin holds a star and none is at the centre, it is the least-squares line of the entries against `ln(r/rm)`; `rm`, and what
normalised radii are divided by, is the half-mass radius about the centre (in space, for a current stored order).  The cluster is left as it
was. -/
theorem C96_alpha_prof {g : Galpy} {c : Cluster} (p : Pos g c) (l : Lin c) (hg : Good c) (f : Fresh c) {a : AlphaArgs} {e : PStars}
    {indx : Option ℕ} {mem : Mem} (he : e.Ok a.prof.sub c.st.length) (hm : ∀ q, indx = some q → mem[q]!.length = c.st.length)
    (hmc : ∀ w, a.mcorr = some w → w.length = c.st.length) (hpos : ∀ w, a.mcorr = some w → ∀ v ∈ w, 0 < v) (h0 : 0 < a.nmass)
    (hc : BinsCover a.prof c.st.length (Chosen a.prof.sub e indx mem c) (radiusOf a.prof.sub c))
    {o : SlopeOut} {after : After} (h : alphaProf g a e indx mem c = .ok (o, after)) :
    ∃ P mid, ReportedBins a.prof e indx mem c P ∧ MeanRadii a.prof e indx mem c P mid ∧ (a.prof.normalize = false → o.r = mid) ∧
      o.slope.length = P.length ∧ o.err.length = P.length ∧
      (∀ k < P.length, a.nmass ≤ numOver c.st.length (AlphaStar a e indx mem c P k) →
        (∃ i j, i < c.st.length ∧ j < c.st.length ∧ AlphaStar a e indx mem c P k i ∧ AlphaStar a e indx mem c P k j ∧ c.m[i]! ≠ c.m[j]!) →
        ∃ Q M, BinMassFunction a e indx mem c P k Q M ∧ (-100 < M.fit.slope → o.slope[k]! = M.fit.slope ∧ o.err[k]! = M.fit.eslope)) ∧
      (P.length ≤ 3 → o.fit = ⟨-100, 0, 0, 0⟩) ∧
      (3 < P.length → (∀ k < P.length, ∃ i < c.st.length, InProfBin a.prof e indx mem c P k i) →
        (∀ i < c.st.length, 0 < radiusOf a.prof.sub c i) → ∃ rm, 0 < rm ∧ IsLineFit (lnPoints rm mid o.slope) o.fit ∧
        (a.prof.sub.projected = false → OrderCurrent c → (∀ x ∈ c.m, 0 ≤ x) → IsMassRadius 0.5 c.m ((centred c).map (dist0 false)) rm)) ∧
      (a.prof.normalize = true → a.prof.sub.projected = false → OrderCurrent c → (∀ x ∈ c.m, 0 ≤ x) → (c.origin ≠ some .galaxy → RmCurrent c) →
        ∃ rm, IsMassRadius 0.5 c.m ((centred c).map (dist0 false)) rm ∧ o.r = mid.map (· / rm)) ∧
      after.cluster.data = c.data ∧ Fresh after.cluster := by
  obtain ⟨c1, B, P, mid, t, m0, hstart, s1, hB, -, hmid, hr, ht, es, ee, ef, d2, f2⟩ := alpha_core p l hg f he hm hc h
  obtain ⟨kt, tl, tj, tord, trm⟩ := alphaBins_run (p.of_rest s1.rest) s1.lin _ ⟨rfl, s1.fresh, s1.good, rfl⟩ ht
  rw [List.length_range] at tl tj
  refine ⟨P, mid, hB.reported, hmid, ?_, by rw [es, List.length_map, tl], by rw [ee, List.length_map, tl], ?_, ?_, ?_, ?_, d2, f2⟩
  · intro hn
    unfold velRadii at hr
    rw [if_neg (by simp [hn])] at hr
    injection hr with hr; exact hr.symm
  · intro k hk hn hd
    obtain ⟨d, m', M, c', m'', kd, hM, hv⟩ := tj k hk
    rw [getElem!_pos _ k (by simpa using hk), List.getElem_range] at hM
    obtain ⟨pd, ld, hl, hdm, he', hm', hnum, hsel, hs⟩ := alpha_bin p s1 hg (a := a) he hB hk kd m'
    obtain ⟨i, j, x1, x2, x3, x4, x5⟩ := hd
    obtain ⟨Q, hQ, -, -⟩ := C79_mass_function pd ld kd.good kd.fresh he' (fun q hq => by cases hq; exact hm')
      (fun w hw => by rw [hl]; exact hmc w hw) hpos (by rw [hnum]; exact hn) h0
      ⟨i, j, by rw [hl]; exact x1, by rw [hl]; exact x2, (hsel i x1).mpr x3, (hsel j x2).mpr x4, by rw [hdm]; exact x5⟩ hM
    refine ⟨Q, M, ⟨B.at k, (hB.atBin k hk).len, (hB.atBin k hk).val, hQ.congr hl.symm hdm.symm hs⟩, fun hgt => ?_⟩
    have hkt : k < t.1.length := by rw [tl]; exact hk
    have e1 : keepSlope M.fit = (M.fit.slope, M.fit.eslope) := by unfold keepSlope; rw [if_pos hgt]
    rw [e1] at hv
    rw [getElem!_pos t.1 k hkt] at hv
    rw [es, ee, getElem!_pos _ k (by simpa using hkt), getElem!_pos _ k (by simpa using hkt), List.getElem_map, List.getElem_map, hv]
    exact ⟨rfl, rfl⟩
  · intro h3
    rw [ef, if_neg (by omega)]; rfl
  · intro h3 hne hpos
    obtain ⟨g1, g2⟩ := meanRadii_good hB.reported hmid (by omega) hne hpos
    have hne' : List.range P.length ≠ [] := by rw [ne_eq, List.range_eq_nil]; omega
    obtain ⟨x, y, ex, ey, mx, my⟩ := trm hne'
    have hst : ∀ (q : Bool) z, z ∈ c1.st.map (dist0 q) → a.prof.sub.projected = q → 0 < z := by
      intro q z hz hq
      rw [s1.st] at hz
      obtain ⟨i, hi, rfl⟩ := List.mem_iff_getElem.mp hz
      have hi' : i < c.st.length := by rw [List.length_map, centred_length] at hi; exact hi
      have := hpos i hi'
      unfold radiusOf at this
      rw [hq, ← rows_get (f := dist0 q) hi', getElem!_pos _ i hi] at this
      exact this
    have fin : ∀ rm, 0 < rm → rmOf a.prof.sub.projected t.2.1 = some rm → IsLineFit (lnPoints rm mid o.slope) o.fit := by
      intro rm hrm erm
      obtain ⟨fit, hf, hfit⟩ := fitLn_ok (y := t.1.map Prod.fst) (by rw [List.length_map, tl, hmid.len]) (by rw [hmid.len]; omega) g1 hrm g2
      rw [ef, if_pos h3, erm, hf, es]
      exact hfit
    cases hpr : a.prof.sub.projected
    · have hx : 0 < x := hst false x (by rw [dist0_eq]; exact mx) hpr
      refine ⟨x, hx, fin x hx (by rw [hpr]; exact ex), ?_⟩
      intro _ ho hmass
      have oc := profStart_order l hg f hmass ho hstart
      obtain ⟨rm, r1, r2⟩ := (tord oc (by rw [s1.m]; exact hmass)).2 hne'
      rw [ex] at r1; cases r1
      rw [show t.2.1.m = c1.m from congrArg Data.m kt.data, show t.2.1.st = c1.st from congrArg Data.st kt.data, s1.m, s1.st] at r2
      rw [dist0_eq]; exact r2
    · have e1 : dist0 true = Ph.rpro := by funext q; simp [dist0, Ph.rpro]
      have hy : 0 < y := hst true y (by rw [e1]; exact my) hpr
      exact ⟨y, hy, fin y hy (by rw [hpr]; exact ey), fun h => by cases h⟩
  · intro hn hpr ho hmass hrm
    obtain ⟨-, rm, r1, r2⟩ := profStart_current l hg f hmass ho hrm (by rw [hn] at hstart; exact hstart)
    rw [s1.m, s1.st] at r2
    refine ⟨rm, by rw [dist0_eq]; exact r2, ?_⟩
    unfold velRadii at hr
    rw [if_pos hn, hpr] at hr
    simp only [Bool.false_eq_true, if_false] at hr
    rw [divRm_some r1] at hr
    injection hr with hr; exact hr.symm

end

end CT
