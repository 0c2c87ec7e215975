/- Property theorems C96 (success) and C97 (violations) of `alpha_prof`. -/
import Verif.Props.SlopeProf2
import Verif.Props.MassFunction3
import Verif.Props.Eta2

namespace CT

noncomputable section

set_option linter.unusedSimpArgs false

/-- The loop succeeds if every mass function does. -/
theorem alphaBins_total {g : Galpy} {c1 : Cluster} (p : Pos g c1) (l : Lin c1) {q : MassArgs} {e : PStars} {B : Binned} :
    ∀ (is : List ℕ) {d : Cluster} {mem : Mem}, LeftAs c1 d →
      (∀ i ∈ is, ∀ (d : Cluster) (m : Mem), LeftAs c1 d → ∃ r, massFunction g q e (some m.length) (m ++ [B.at i]) d = .ok r) →
      ∃ t, alphaBins g q e B is d mem = .ok t
  | [], d, mem, _, _ => ⟨_, rfl⟩
  | i :: is, d, mem, hk, h => by
    obtain ⟨⟨M, d1, m1⟩, h1⟩ := h i (by simp) d mem hk
    obtain ⟨k1, -⟩ := mass_after (p.of_rest hk.rest) (hk.lin l) hk.good hk.fresh h1
    obtain ⟨t, ht⟩ := alphaBins_total p l is (mem := m1) (hk.trans k1) (fun j hj => h j (by simp [hj]))
    simp only [alphaBins, bind, h1, Except.bind, ht, pure, Except.pure]
    exact ⟨_, rfl⟩

/-- **C96 (success).**  For stars of different, positive masses, `nmass ≥ 3`, and bins that each hold either fewer than `nmass` or at least
`2·nmass` pre- and main-sequence stars, `alpha_prof` (with mass bins of equal numbers) always returns. -/
theorem C96_defined {g : Galpy} {c : Cluster} (p : Pos g c) (l : Lin c) (hg : Good c) (f : Fresh c) {a : AlphaArgs} {e : PStars}
    {indx : Option ℕ} {mem : Mem} (he : e.Ok a.prof.sub c.st.length) (hm : ∀ q, indx = some q → mem[q]!.length = c.st.length)
    (hmc : ∀ w, a.mcorr = some w → w.length = c.st.length) (hpos : ∀ w, a.mcorr = some w → ∀ v ∈ w, 0 < v) (h3 : 3 ≤ a.nmass)
    (hx : a.mfix = false) (hx' : a.prof.bins = none ∨ a.prof.fix = false) (hrm : HasRm c ∨ a.prof.normalize = false)
    (hc : BinsCover a.prof c.st.length (Chosen a.prof.sub e indx mem c) (radiusOf a.prof.sub c)) (hmp : ∀ v ∈ c.m, 0 < v)
    (hd : ∀ i j, i < c.st.length → j < c.st.length → c.m[i]! = c.m[j]! → i = j)
    (hn : ∀ P, ReportedBins a.prof e indx mem c P → ∀ k < P.length, numOver c.st.length (AlphaStar a e indx mem c P k) < a.nmass ∨
      2 * a.nmass ≤ numOver c.st.length (AlphaStar a e indx mem c P k)) :
    ∃ o after, alphaProf g a e indx mem c = .ok (o, after) := by
  obtain ⟨c1, k, mem', B, P, -, h1, s1, h2, h3', hB, -⟩ := prof_parts a.prof.normalize a.prof.normalize p l hg f he hm hc
  have hmid := meanRadii_spec hB
  rw [started_radii s1] at h3'
  have p1 := p.of_rest s1.rest
  have k0 : LeftAs c1 c1 := ⟨rfl, s1.fresh, s1.good, rfl⟩
  have hfix : a.inner.fix = false := by
    unfold AlphaArgs.inner
    rcases hx' with h | h <;> simp [h, hx]
  obtain ⟨t, ht⟩ := alphaBins_total p1 s1.lin (q := a.inner) (e := e) (B := B) (List.range (meanRadii a.prof ((centred c).map (dist0 a.prof.sub.projected)) B).length)
    (mem := mem') k0 (by
      intro j hj d m kd
      rw [hmid.len, List.mem_range] at hj
      obtain ⟨pd, ld, hl, hdm, he', hm', hnum, hsel, hs⟩ := alpha_bin p s1 hg (a := a) he hB hj kd m
      rcases hn P hB.reported j hj with h | h
      · obtain ⟨o, c2, m2, h, -⟩ := C79_too_few pd ld kd.good kd.fresh (a := a.inner) (indx := some m.length) (mem := m ++ [B.at j]) he' (fun q hq => by cases hq; exact hm') (by rw [hnum]; exact h)
        exact ⟨_, h⟩
      · obtain ⟨o, c2, m2, Q, h, -⟩ := C79_equal_numbers pd ld kd.good kd.fresh (a := a.inner) (indx := some m.length) (mem := m ++ [B.at j]) he' (fun q hq => by cases hq; exact hm')
          (fun w hw => by rw [hl]; exact hmc w hw) hpos (by rw [hdm]; exact hmp) hfix h3 (by rw [hnum]; exact h)
          (fun i j hi hj _ _ e => hd i j (by rw [← hl]; exact hi) (by rw [← hl]; exact hj) (by rw [← hdm]; exact e))
        exact ⟨_, h⟩)
  obtain ⟨kt, -⟩ := alphaBins_run p1 s1.lin _ k0 ht
  obtain ⟨c2, h6, d2, -, -, -, -⟩ := return_of_world (sort := false) (cm := none) p l hg kt.good (kt.lin s1.lin) (kt.rest.trans s1.rest)
    ((world_of_data kt.data kt.rest).trans s1.world)
  have hrm1 : HasRm c1 ∨ a.prof.normalize = false := hrm.imp_left fun h => profStart_hasRm l h h1
  obtain ⟨s, h4⟩ := velRadii_spec hrm1 (meanRadii a.prof ((centred c).map (dist0 a.prof.sub.projected)) B)
  generalize (if a.prof.normalize then (meanRadii a.prof ((centred c).map (dist0 a.prof.sub.projected)) B).map (· / s)
    else meanRadii a.prof ((centred c).map (dist0 a.prof.sub.projected)) B) = rn at h4
  have hu : c2.units = c.units := congrArg Data.units d2
  have hu' : t.2.1.units = c1.units := congrArg Data.units kt.data
  have hconv := conv_id s1 hu (f := fun u v x => .ok (convertLength g c2 u v x)) (by simp [convertLength])
    (by simp [convertLength, Units.isPc, Units.isKpc]) rn
  have hconv' : convUnits (fun u v x => .ok (convertLength g c2 u v x)) t.2.1 c2 rn = .ok rn := by
    rw [← hconv]; unfold convUnits; rw [hu']
  unfold alphaProf
  simp only [bind, h1, Except.bind, h2, started_radii s1, h3', h4, ht, h6, hconv', pure, Except.pure]
  exact ⟨_, _, rfl⟩

/-! ### C97 -/

/-- Entries without a mass function. -/
theorem alpha_few {g : Galpy} {c : Cluster} (p : Pos g c) (l : Lin c) (hg : Good c) (f : Fresh c) {a : AlphaArgs} {e : PStars}
    {indx : Option ℕ} {mem : Mem} (he : e.Ok a.prof.sub c.st.length) (hm : ∀ q, indx = some q → mem[q]!.length = c.st.length)
    {o : SlopeOut} {c1 : Cluster} (s1 : Started g c c1) {B : Binned} {P : List (ℝ × ℝ)}
    (hB : BinnedOk a.prof c.st.length (Chosen a.prof.sub e indx mem c) (radiusOf a.prof.sub c) B P) {t : List (ℝ × ℝ) × Cluster × Mem} {m0 : Mem}
    (ht : alphaBins g a.inner e B (List.range P.length) c1 m0 = .ok t) (es : o.slope = t.1.map Prod.fst) (ee : o.err = t.1.map Prod.snd) :
    ∀ k < P.length, numOver c.st.length (AlphaStar a e indx mem c P k) < a.nmass → o.slope[k]! = 0 ∧ o.err[k]! = 0 := by
  obtain ⟨kt, tl, tj, -⟩ := alphaBins_run (p.of_rest s1.rest) s1.lin _ ⟨rfl, s1.fresh, s1.good, rfl⟩ ht
  rw [List.length_range] at tl tj
  intro k hk hn
  obtain ⟨d, m', M, c', m'', kd, hM, hv⟩ := tj k hk
  rw [getElem!_pos _ k (by simpa using hk), List.getElem_range] at hM
  obtain ⟨pd, ld, hl, hdm, he', hm', hnum, hsel, hs⟩ := alpha_bin p s1 hg (a := a) he hB hk kd m'
  obtain ⟨M', c2, m2, hM', -, -, -, hf, -⟩ := C79_too_few pd ld kd.good kd.fresh (a := a.inner) (indx := some m'.length)
    (mem := m' ++ [B.at k]) he' (fun q hq => by cases hq; exact hm')
    (by rw [hnum]; exact hn)
  rw [hM] at hM'
  cases hM'
  have hkt : k < t.1.length := by rw [tl]; exact hk
  have e1 : keepSlope M.fit = (0, 0) := by unfold keepSlope; rw [hf, if_neg (by norm_num)]
  rw [e1, getElem!_pos t.1 k hkt] at hv
  rw [es, ee, getElem!_pos _ k (by simpa using hkt), getElem!_pos _ k (by simpa using hkt), List.getElem_map, List.getElem_map, hv]
  exact ⟨rfl, rfl⟩

/-- **C97 (violated: too few stars).**  A radial bin with fewer than `nmass` pre- and main-sequence stars has slope `0` with error `0`, a
flat mass function, instead of a sign that there is none; it is a point of the fit like all others. -/
theorem C97_too_few_violated {g : Galpy} {c : Cluster} (p : Pos g c) (l : Lin c) (hg : Good c) (f : Fresh c) {a : AlphaArgs} {e : PStars}
    {indx : Option ℕ} {mem : Mem} (he : e.Ok a.prof.sub c.st.length) (hm : ∀ q, indx = some q → mem[q]!.length = c.st.length)
    (hc : BinsCover a.prof c.st.length (Chosen a.prof.sub e indx mem c) (radiusOf a.prof.sub c))
    {o : SlopeOut} {after : After} (h : alphaProf g a e indx mem c = .ok (o, after)) :
    ∃ P, ReportedBins a.prof e indx mem c P ∧ o.slope.length = P.length ∧
      ∀ k < P.length, numOver c.st.length (AlphaStar a e indx mem c P k) < a.nmass → o.slope[k]! = 0 ∧ o.err[k]! = 0 := by
  obtain ⟨c1, B, P, mid, t, m0, hstart, s1, hB, -, hmid, hr, ht, es, ee, ef, d2, f2⟩ := alpha_core p l hg f he hm hc h
  obtain ⟨kt, tl, -⟩ := alphaBins_run (p.of_rest s1.rest) s1.lin _ ⟨rfl, s1.fresh, s1.good, rfl⟩ ht
  exact ⟨P, hB.reported, by rw [es, List.length_map, tl, List.length_range], alpha_few p l hg f he hm s1 hB ht es ee⟩

/-- The least-squares line through points on the axis. -/
theorem IsLineFit.zero {x : List ℝ} {n : ℕ} {f : LineFit} (hd : ∃ u ∈ x, ∃ v ∈ x, u ≠ v) (hl : x.length = n)
    (h : IsLineFit (List.zip x (List.replicate n 0)) f) : f = ⟨0, 0, 0, 0⟩ := by
  set Q := List.zip x (List.replicate n (0 : ℝ)) with hQ
  have hy : ∀ q ∈ Q, q.2 = 0 := by
    intro q hq
    have := (List.of_mem_zip hq).2
    exact (List.mem_replicate.mp this).2
  have h0 : sqDist Q 0 0 = 0 := by
    unfold sqDist
    have : ∀ v ∈ Q.map (fun p => (p.2 - (0 * p.1 + 0)) ^ 2), v = 0 := by
      intro v hv
      obtain ⟨q, hq, rfl⟩ := List.mem_map.mp hv
      rw [hy q hq]; norm_num
    exact List.sum_eq_zero this
  obtain ⟨s1, s2⟩ := h.only 0 0 (fun a b => by rw [h0]; exact sqDist_nonneg _ _ _)
  have hs : sqDist Q f.slope f.icept = 0 := by rw [← s1, ← s2]; exact h0
  have hm := h.many
  have hn : (2 : ℝ) < Q.length := by exact_mod_cast hm
  have hD : ((Q.length : ℝ) - 2) * (Q.length * (Q.map (fun p => p.1 ^ 2)).sum - (Q.map Prod.fst).sum ^ 2) ≠ 0 := by
    refine mul_ne_zero (by linarith) ?_
    intro e
    have e1 : (Q.map (fun p => (p.1 - pX Q / Q.length) ^ 2)).sum = 0 := by
      rw [sum_sq_shift]
      change (Q.length : ℝ) * pXX Q - pX Q ^ 2 = 0 at e
      field_simp
      linear_combination e
    have hz2 := zero_of_sum (fun w hw => by
          obtain ⟨z, -, rfl⟩ := List.mem_map.mp hw; positivity) e1
    have a1 : ∀ p ∈ Q, p.1 = pX Q / Q.length := by
      intro p hp
      have := hz2 _ (List.mem_map_of_mem hp)
      have := pow_eq_zero_iff (by norm_num) |>.mp this
      linarith
    have hfst : Q.map Prod.fst = x := List.map_fst_zip (by simp [hl])
    obtain ⟨u, hu, v, hv, huv⟩ := hd
    rw [← hfst] at hu hv
    obtain ⟨q, hq, rfl⟩ := List.mem_map.mp hu
    obtain ⟨q', hq', rfl⟩ := List.mem_map.mp hv
    exact huv ((a1 q hq).trans (a1 q' hq').symm)
  have e1 := h.eslope
  have e2 := h.eicept
  rw [hs, mul_zero] at e1 e2
  have z1 : f.eslope = 0 := by
    rcases mul_eq_zero.mp e1 with h | h
    · exact pow_eq_zero_iff (by norm_num) |>.mp h
    · exact absurd h hD
  have z2 : f.eicept = 0 := by
    rcases mul_eq_zero.mp e2 with h | h
    · exact pow_eq_zero_iff (by norm_num) |>.mp h
    · exact absurd h hD
  obtain ⟨a1, a2, a3, a4⟩ := f
  simp only at s1 s2 z1 z2
  subst z1; subst z2; rw [← s1, ← s2]

/-- **C97 (violated: no mass function at all).**  If every radial bin holds fewer than `nmass` pre- and main-sequence stars (bins not empty, no star
at the centre, more than three bins), the gradient is `0` with error `0`, not `-100`. -/
theorem C97_no_gradient_violated {g : Galpy} {c : Cluster} (p : Pos g c) (l : Lin c) (hg : Good c) (f : Fresh c) {a : AlphaArgs} {e : PStars}
    {indx : Option ℕ} {mem : Mem} (he : e.Ok a.prof.sub c.st.length) (hm : ∀ q, indx = some q → mem[q]!.length = c.st.length)
    (hc : BinsCover a.prof c.st.length (Chosen a.prof.sub e indx mem c) (radiusOf a.prof.sub c))
    (hpos : ∀ i < c.st.length, 0 < radiusOf a.prof.sub c i)
    (hn : ∀ P, ReportedBins a.prof e indx mem c P → 3 < P.length ∧ ∀ k < P.length, (∃ i < c.st.length, InProfBin a.prof e indx mem c P k i) ∧
      numOver c.st.length (AlphaStar a e indx mem c P k) < a.nmass)
    {o : SlopeOut} {after : After} (h : alphaProf g a e indx mem c = .ok (o, after)) :
    (∀ v ∈ o.slope, v = 0) ∧ o.fit = ⟨0, 0, 0, 0⟩ := by
  obtain ⟨c1, B, P, mid, t, m0, hstart, s1, hB, -, hmid, hr, ht, es, ee, ef, d2, f2⟩ := alpha_core p l hg f he hm hc h
  obtain ⟨kt, tl, -, -, trm⟩ := alphaBins_run (p.of_rest s1.rest) s1.lin _ ⟨rfl, s1.fresh, s1.good, rfl⟩ ht
  rw [List.length_range] at tl
  obtain ⟨h3, hk⟩ := hn P hB.reported
  have hsl : o.slope.length = P.length := by rw [es, List.length_map, tl]
  have hz := alpha_few p l hg f he hm s1 hB ht es ee
  have hrep : o.slope = List.replicate P.length 0 := by
    rw [List.eq_replicate_iff]
    refine ⟨hsl, fun v hv => ?_⟩
    obtain ⟨k, hk', rfl⟩ := List.mem_iff_getElem.mp hv
    have hk'' : k < P.length := by rw [← hsl]; exact hk'
    have := (hz k hk'' (hk k hk'').2).1
    rwa [getElem!_pos o.slope k hk'] at this
  refine ⟨fun v hv => by rw [hrep] at hv; exact (List.mem_replicate.mp hv).2, ?_⟩
  obtain ⟨g1, u, hu, v, hv, huv⟩ := meanRadii_good hB.reported hmid (by omega) (fun k hk' => (hk k hk').1) hpos
  have hne' : List.range P.length ≠ [] := by rw [ne_eq, List.range_eq_nil]; omega
  obtain ⟨x, y, ex, ey, mx, my⟩ := trm hne'
  have fin : ∀ rm, 0 < rm → rmOf a.prof.sub.projected t.2.1 = some rm → o.fit = ⟨0, 0, 0, 0⟩ := by
    intro rm hrm erm
    obtain ⟨fit, hf, hfit⟩ := fitLn_ok (y := t.1.map Prod.fst) (by rw [List.length_map, tl, hmid.len]) (by rw [hmid.len]; omega) g1 hrm ⟨u, hu, v, hv, huv⟩
    rw [ef, if_pos h3, erm, hf]
    show fit = _
    rw [← es, hrep] at hfit
    refine IsLineFit.zero ⟨_, List.mem_map_of_mem hu, _, List.mem_map_of_mem hv, fun e => huv ?_⟩ (by simp [hmid.len]) hfit
    have e2 := Real.log_injOn_pos (Set.mem_Ioi.mpr (div_pos (g1 u hu) hrm)) (Set.mem_Ioi.mpr (div_pos (g1 v hv) hrm)) e
    field_simp at e2; exact e2
  have hst : ∀ (q : Bool) z, z ∈ c1.st.map (dist0 q) → a.prof.sub.projected = q → 0 < z := by
    intro q z hz hq
    rw [s1.st] at hz
    obtain ⟨i, hi, rfl⟩ := List.mem_iff_getElem.mp hz
    have hi' : i < c.st.length := by rw [List.length_map, centred_length] at hi; exact hi
    have := hpos i hi'
    unfold radiusOf at this
    rw [hq, ← rows_get (f := dist0 q) hi', getElem!_pos _ i hi] at this
    exact this
  cases hpr : a.prof.sub.projected
  · exact fin x (hst false x (by rw [dist0_eq]; exact mx) hpr) (by rw [hpr]; exact ex)
  · have e1 : dist0 true = Ph.rpro := by funext q; simp [dist0, Ph.rpro]
    exact fin y (hst true y (by rw [e1]; exact my) hpr) (by rw [hpr]; exact ey)

/-- **C97 (violated: stellar types).**  The mass functions are made with `kwmax=1` whatever the caller says: a profile of evolved stars (`kwmin ≥ 2`)
has slope `0` in every bin, however many there are. -/
theorem C97_types_violated {g : Galpy} {c : Cluster} (p : Pos g c) (l : Lin c) (hg : Good c) (f : Fresh c) {a : AlphaArgs} {e : PStars}
    {indx : Option ℕ} {mem : Mem} (he : e.Ok a.prof.sub c.st.length) (hm : ∀ q, indx = some q → mem[q]!.length = c.st.length) (h0 : 0 < a.nmass)
    (hc : BinsCover a.prof c.st.length (Chosen a.prof.sub e indx mem c) (radiusOf a.prof.sub c)) (hkw : e.kw ≠ []) (h2 : 2 ≤ a.prof.sub.kwmin)
    {o : SlopeOut} {after : After} (h : alphaProf g a e indx mem c = .ok (o, after)) :
    (∀ v ∈ o.slope, v = 0) ∧ ∀ v ∈ o.err, v = 0 := by
  obtain ⟨c1, B, P, mid, t, m0, hstart, s1, hB, -, hmid, hr, ht, es, ee, ef, d2, f2⟩ := alpha_core p l hg f he hm hc h
  obtain ⟨kt, tl, -⟩ := alphaBins_run (p.of_rest s1.rest) s1.lin _ ⟨rfl, s1.fresh, s1.good, rfl⟩ ht
  rw [List.length_range] at tl
  have hz := alpha_few p l hg f he hm s1 hB ht es ee
  have hnone : ∀ k < P.length, numOver c.st.length (AlphaStar a e indx mem c P k) < a.nmass := by
    intro k hk
    have : numOver c.st.length (AlphaStar a e indx mem c P k) = 0 := by
      classical
      unfold numOver
      rw [Finset.card_eq_zero, Finset.filter_eq_empty_iff]
      intro i _ hs
      have h3 : a.prof.sub.kwmin ≤ e.kw[i]! := (hs.1.1.2.kw hkw).1
      have h4 := (hs.2 hkw).2
      omega
    omega
  constructor
  · intro v hv
    obtain ⟨k, hk, rfl⟩ := List.mem_iff_getElem.mp hv
    have hk' : k < P.length := by rw [es, List.length_map, tl] at hk; exact hk
    have := (hz k hk' (hnone k hk')).1
    rwa [getElem!_pos o.slope k hk] at this
  · intro v hv
    obtain ⟨k, hk, rfl⟩ := List.mem_iff_getElem.mp hv
    have hk' : k < P.length := by rw [ee, List.length_map, tl] at hk; exact hk
    have := (hz k hk' (hnone k hk')).2
    rwa [getElem!_pos o.err k hk] at this

/-- `mass_function` of stars of one mass. -/
theorem mass_equal {g : Galpy} {c : Cluster} (p : Pos g c) (l : Lin c) (hg : Good c) (f : Fresh c) {a : MassArgs}
    {e : PStars} {indx : Option ℕ} {mem : Mem} (he : e.Ok a.sub c.st.length)
    (hm : ∀ q, indx = some q → mem[q]!.length = c.st.length) (hx : a.fix = false)
    (h0 : 0 < a.nmass) (hn : a.nmass ≤ numOver c.st.length (MassSelected a.sub e indx mem c)) {μ : ℝ}
    (hd : ∀ i < c.st.length, MassSelected a.sub e indx mem c i → c.m[i]! = μ) :
    massFunction g a e indx mem c = .error .valueError := by
  obtain ⟨c1, h1, s1, m1, g1, l1, f1, r1, w1, -, -⟩ := strip_amuse p l hg f
  obtain ⟨k, mem', h2, hS⟩ := mass_selected_mask (e := e) (q := a.sub) (indx := indx) (mem := mem) hg he hm
  have hen : enough a.nmass (some k, mem') = true := by
    simp only [enough, Option.elim]
    rw [hS.count]; simpa using hn
  have hrep : maskSel mem'[k]! c.m = List.replicate (numOver c.st.length (MassSelected a.sub e indx mem c)) μ := by
    rw [List.eq_replicate_iff]
    refine ⟨hS.length hg.len, fun v hv => ?_⟩
    obtain ⟨i, q1, q2, rfl⟩ := (hS.mem hg.len).mp hv
    exact hd i q1 q2
  have hb : profBinned a.prof c.m (some k, mem') = .error .valueError := by
    simp only [profBinned, profBins, MassArgs.prof, hx, bind, Bool.false_eq_true, if_false]
    rw [hrep, C25_constant_input_violated _ _ _ (by omega) h0]
    rfl
  have hfit : massFit a c.m (some k, mem') = .error .valueError := by
    unfold massFit
    simp only [bind, hb]
    rfl
  have hv : viewOf c1 e = rowsView c.st c.m e := by rw [fresh_view f1, s1, m1]
  unfold massFunction
  simp only [bind]
  have rest : ∀ c1', c1' = c1 → ((getSubset a.sub (viewOf c1' e) indx mem).bind fun sel =>
      if enough a.nmass sel = true then (massFit a c1'.m sel).bind fun out =>
        (returnCluster g (saveCluster c) false none c1').bind fun c2 => pure (out, c2, sel.2)
      else (Except.ok a.tooFew).bind fun out =>
        (returnCluster g (saveCluster c) false none c1').bind fun c2 => pure (out, c2, sel.2)) = .error .valueError := by
    rintro c1' rfl
    rw [hv, h2]
    simp only [Except.bind, hen, if_true, m1, hfit]
  split at h1
  · rename_i hu
    rw [if_pos hu, h1]
    exact rest c1 rfl
  · rename_i hu
    rw [if_neg hu]
    injection h1 with h1
    exact rest c h1

/-- **C97 (violated: stars of one mass).**  One radial bin with at least `nmass` pre- and main-sequence stars of one mass makes the whole profile fail
(for equal-number mass bins): whatever a call returns, no bin is of this kind. -/
theorem C97_one_mass_violated {g : Galpy} {c : Cluster} (p : Pos g c) (l : Lin c) (hg : Good c) (f : Fresh c) {a : AlphaArgs} {e : PStars}
    {indx : Option ℕ} {mem : Mem} (he : e.Ok a.prof.sub c.st.length) (hm : ∀ q, indx = some q → mem[q]!.length = c.st.length) (h0 : 0 < a.nmass)
    (hx : a.mfix = false) (hx' : a.prof.bins = none ∨ a.prof.fix = false)
    (hc : BinsCover a.prof c.st.length (Chosen a.prof.sub e indx mem c) (radiusOf a.prof.sub c)) {μ : ℝ}
    (hbad : ∀ P, ReportedBins a.prof e indx mem c P → ∃ k < P.length, a.nmass ≤ numOver c.st.length (AlphaStar a e indx mem c P k) ∧
      ∀ i < c.st.length, AlphaStar a e indx mem c P k i → c.m[i]! = μ) (r : SlopeOut × After) :
    alphaProf g a e indx mem c ≠ .ok r := by
  intro h
  obtain ⟨o, after⟩ := r
  obtain ⟨c1, B, P, mid, t, m0, hstart, s1, hB, -, hmid, hr, ht, es, ee, ef, d2, f2⟩ := alpha_core p l hg f he hm hc h
  obtain ⟨kt, tl, tj, -⟩ := alphaBins_run (p.of_rest s1.rest) s1.lin _ ⟨rfl, s1.fresh, s1.good, rfl⟩ ht
  rw [List.length_range] at tj
  obtain ⟨k, hk, hn, hμ⟩ := hbad P hB.reported
  obtain ⟨d, m', M, c', m'', kd, hM, hv⟩ := tj k hk
  rw [getElem!_pos _ k (by simpa using hk), List.getElem_range] at hM
  obtain ⟨pd, ld, hl, hdm, he', hm', hnum, hsel, hs⟩ := alpha_bin p s1 hg (a := a) he hB hk kd m'
  have hfix : a.inner.fix = false := by
    unfold AlphaArgs.inner
    rcases hx' with h | h <;> simp [h, hx]
  rw [mass_equal pd ld kd.good kd.fresh he' (fun q hq => by cases hq; exact hm') hfix h0 (by rw [hnum]; exact hn) (μ := μ)
    (fun i hi hs => by rw [hdm]; exact hμ i (by rw [← hl]; exact hi) ((hsel i (by rw [← hl]; exact hi)).mp hs))] at hM
  cases hM

end

end CT
