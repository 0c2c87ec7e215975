/- Concrete cases for C96-C99. -/
import Verif.Props.SlopeProf5
import Verif.Props.Eta4

namespace CT

noncomputable section

set_option linter.unusedSimpArgs false

theorem centred_own {c : Cluster} (h : c.origin = some .cluster) : centred c = c.st := by
  unfold centred; rw [h, if_neg (by simp)]

theorem radius_own {c : Cluster} (h : c.origin = some .cluster) (q : SubArgs) (hq : q.projected = false) (i : ℕ) :
    radiusOf q c i = dist0 false c.st[i]! := by
  unfold radiusOf; rw [centred_own h, hq]

/-- Nine stars at radii 1 to 9 with masses 1 to 9. -/
def nineStars : List Ph := (List.range 9).map (fun i : ℕ => ⟨(i : ℝ) + 1, 0, 0, i + 1, 0, 0⟩)

def nineMasses : List ℝ := (List.range 9).map (fun i : ℕ => (i : ℝ) + 1)

theorem nine_at {i : ℕ} (hi : i < 9) : nineStars[i]! = ⟨i + 1, 0, 0, i + 1, 0, 0⟩ ∧ nineMasses[i]! = i + 1 := by
  unfold nineStars nineMasses
  rw [map_get! _ _ hi, map_get! _ _ hi]
  exact ⟨rfl, rfl⟩

theorem nine_dist {i : ℕ} (hi : i < 9) : dist0 false nineStars[i]! = i + 1 ∧ speed0 false nineStars[i]! = i + 1 := by
  rw [(nine_at hi).1]
  have h : (0 : ℝ) ≤ (i : ℝ) + 1 := by positivity
  constructor
  · simp [dist0, Real.sqrt_sq h]
  · simp [speed0, Real.sqrt_sq h]

theorem nine_demo : ∃ c0 : Cluster, Pos demoG c0 ∧ Lin c0 ∧ Good c0 ∧ Fresh c0 ∧ c0.m = nineMasses ∧ c0.st = nineStars ∧ c0.st.length = 9 ∧
    c0.origin = some .cluster ∧ ∀ q : SubArgs, q.projected = false → ∀ i < 9, radiusOf q c0 i = i + 1 := by
  obtain ⟨c0, w, h0, p, l, hg, f, hm, hs, hw, -, hu, ho⟩ := demoOf_ok .cluster trivial (m := nineMasses) (st := nineStars)
    (by simp [nineStars]) (by simp [nineStars, nineMasses]) (by
      refine List.sum_nonneg fun x hx => ?_
      obtain ⟨i, -, rfl⟩ := List.mem_map.mp hx
      positivity)
  refine ⟨c0, p, l, hg, f, hm, hs, by rw [hs]; simp [nineStars], ho, ?_⟩
  intro q hq i hi
  rw [radius_own ho q hq, hs]; exact (nine_dist hi).1

/-- Stars with nothing but positions. -/
def plainNine : PStars := ⟨List.replicate 9 1, [], List.replicate 9 0⟩

/-- Without limits every star is chosen. -/
theorem all_chosen {q : SubArgs} {e : PStars} {indx : Option ℕ} {mem : Mem} {c : Cluster} {i : ℕ} (hr : q.rmin = none ∧ q.rmax = none)
    (hm : q.mmin = none ∧ q.mmax = none) (hv : q.vmin = none ∧ q.vmax = none) (he : q.emin = none ∧ q.emax = none) (hp : q.npop = none)
    (hk : e.kw = []) (hi : InMask indx mem i) : Chosen q e indx mem c i := by
  refine ⟨hi, ?_, ?_, ?_, ?_, ?_, ?_⟩
  · rw [hr.1, hr.2]; exact ⟨(fun b hb => by cases hb), (fun b hb => by cases hb)⟩
  · rw [hm.1, hm.2]; exact ⟨(fun b hb => by cases hb), (fun b hb => by cases hb)⟩
  · rw [hv.1, hv.2]; exact ⟨(fun b hb => by cases hb), (fun b hb => by cases hb)⟩
  · rw [he.1, he.2]; exact ⟨(fun b hb => by cases hb), (fun b hb => by cases hb)⟩
  · intro p h; rw [hp] at h; cases h
  · intro h; exact absurd hk h

/-- Four radial bins, with six, one, one and one of the nine stars. -/
def fourBins : List ℝ × List ℝ × List ℝ := ([0, 6.5, 7.5, 8.5], [3, 7, 8, 9], [6.5, 7.5, 8.5, 9.5])

theorem fourBins_contig : Contig 0 9.5 (List.zip fourBins.1 fourBins.2.2) := by
  simp only [fourBins, List.zip_cons_cons, List.zip_nil_right]
  exact .cons (by norm_num) (.cons (by norm_num) (.cons (by norm_num) (.one (by norm_num))))

theorem nine_cover {a : ProfArgs} {S : ℕ → Prop} {r : ℕ → ℝ} (hb : a.bins = some fourBins) (hr : ∀ i < 9, r i = i + 1) : BinsCover a 9 S r := by
  refine .inr ⟨fourBins, 0, 9.5, hb, rfl, rfl, fourBins_contig, ?_⟩
  intro i hi _
  rw [hr i hi]
  have : (i : ℝ) ≤ 8 := by exact_mod_cast (by omega : i ≤ 8)
  constructor
  · positivity
  · linarith

theorem four_inBin {k i : ℕ} (hi : i < 9) : InBin (List.zip fourBins.1 fourBins.2.2) k ((i : ℝ) + 1) ↔
    (k = 0 ∧ i < 6) ∨ (k = 1 ∧ i = 6) ∨ (k = 2 ∧ i = 7) ∨ (k = 3 ∧ i = 8) := by
  have hex : ∀ j, ((j = 0 ∧ i < 6) ∨ (j = 1 ∧ i = 6) ∨ (j = 2 ∧ i = 7) ∨ (j = 3 ∧ i = 8)) → InBin (List.zip fourBins.1 fourBins.2.2) j ((i : ℝ) + 1) := by
    intro j hj
    rcases hj with ⟨rfl, h⟩ | ⟨rfl, rfl⟩ | ⟨rfl, rfl⟩ | ⟨rfl, rfl⟩
    · have : (i : ℝ) ≤ 5 := by exact_mod_cast (by omega : i ≤ 5)
      refine ⟨0, 6.5, rfl, by positivity, .inl (by linarith)⟩
    · refine ⟨6.5, 7.5, rfl, by norm_num, .inl (by norm_num)⟩
    · refine ⟨7.5, 8.5, rfl, by norm_num, .inl (by norm_num)⟩
    · refine ⟨8.5, 9.5, rfl, by norm_num, .inl (by norm_num)⟩
  refine ⟨fun h => ?_, hex k⟩
  obtain ⟨j, hj⟩ : ∃ j, (j = 0 ∧ i < 6) ∨ (j = 1 ∧ i = 6) ∨ (j = 2 ∧ i = 7) ∨ (j = 3 ∧ i = 8) := by
    interval_cases i <;> simp
  have := fourBins_contig.inBin_unique h (hex j hj)
  rw [this]; exact hj

theorem nine_masses : (∀ v ∈ nineMasses, 0 < v) ∧ ∀ i j, i < 9 → j < 9 → nineMasses[i]! = nineMasses[j]! → i = j := by
  constructor
  · intro v hv
    obtain ⟨i, -, rfl⟩ := List.mem_map.mp hv
    positivity
  · intro i j hi hj h
    rw [(nine_at hi).2, (nine_at hj).2] at h
    have : (i : ℝ) = j := by linarith
    exact_mod_cast this

/-- Arguments of a profile in the four bins. -/
def nineArgs (n : ℕ) : AlphaArgs := { prof := { sub := { kwmax := 1 }, bins := some fourBins }, nmass := n }

/-- The stars of one of the four bins. -/
theorem nine_alpha {c0 : Cluster} (hr : ∀ q : SubArgs, q.projected = false → ∀ i < 9, radiusOf q c0 i = i + 1) {n : ℕ} {mem : Mem} {k i : ℕ}
    (hi : i < 9) : AlphaStar (nineArgs n) plainNine none mem c0 (List.zip fourBins.1 fourBins.2.2) k i ↔
      (k = 0 ∧ i < 6) ∨ (k = 1 ∧ i = 6) ∨ (k = 2 ∧ i = 7) ∨ (k = 3 ∧ i = 8) := by
  rw [← four_inBin hi, ← hr (nineArgs n).prof.sub rfl i hi]
  constructor
  · rintro ⟨⟨-, h⟩, -⟩; exact h
  · intro h
    exact ⟨⟨all_chosen ⟨rfl, rfl⟩ ⟨rfl, rfl⟩ ⟨rfl, rfl⟩ ⟨rfl, rfl⟩ rfl rfl (fun p hp => by cases hp), h⟩, fun h => absurd rfl h⟩

theorem nine_count {c0 : Cluster} (hl : c0.st.length = 9) (hr : ∀ q : SubArgs, q.projected = false → ∀ i < 9, radiusOf q c0 i = i + 1) {n : ℕ} {mem : Mem}
    {k : ℕ} (hk : k < 4) : numOver c0.st.length (AlphaStar (nineArgs n) plainNine none mem c0 (List.zip fourBins.1 fourBins.2.2) k) =
      if k = 0 then 6 else 1 := by
  classical
  rw [hl, numOver_congr (fun i hi => nine_alpha hr hi)]
  by_cases h0 : k = 0
  · rw [if_pos h0, numOver_congr (T := fun i => i < 6) (fun i hi => by omega)]
    have : ∀ inst : DecidablePred (fun i => i < 6), @Finset.filter ℕ (fun i => i < 6) inst (Finset.range 9) = Finset.range 6 := by
      intro inst; ext i; simp only [Finset.mem_filter, Finset.mem_range]; omega
    unfold numOver
    rw [this, Finset.card_range]
  · rw [if_neg h0, numOver_congr (T := fun i => i = k + 5) (fun i hi => by omega)]
    have : ∀ inst : DecidablePred (fun i => i = k + 5), @Finset.filter ℕ (fun i => i = k + 5) inst (Finset.range 9) = {k + 5} := by
      intro inst; ext i; simp only [Finset.mem_filter, Finset.mem_range, Finset.mem_singleton]; omega
    unfold numOver
    rw [this, Finset.card_singleton]

/-- C96 and C97: nine stars in four bins: the first entry is a mass function of six stars, the others are zero, and there is a gradient. -/
example : ∃ (c0 : Cluster) (o : SlopeOut) (after : After), alphaProf demoG (nineArgs 3) plainNine none [] c0 = .ok (o, after) ∧
    (∃ Q M, BinMassFunction (nineArgs 3) plainNine none [] c0 (List.zip fourBins.1 fourBins.2.2) 0 Q M ∧
      (-100 < M.fit.slope → o.slope[0]! = M.fit.slope)) ∧
    o.slope[1]! = 0 ∧ o.slope[2]! = 0 ∧ o.slope[3]! = 0 ∧ ∃ rm mid, 0 < rm ∧ IsLineFit (lnPoints rm mid o.slope) o.fit := by
  obtain ⟨c0, p, l, hg, f, hm, hs, hl, ho, hr⟩ := nine_demo
  have he : plainNine.Ok (nineArgs 3).prof.sub c0.st.length := ⟨by rw [hl]; rfl, .inl rfl, .inl ⟨rfl, rfl⟩⟩
  have hc : BinsCover (nineArgs 3).prof c0.st.length (Chosen (nineArgs 3).prof.sub plainNine none [] c0) (radiusOf (nineArgs 3).prof.sub c0) := by
    rw [hl]; exact nine_cover rfl (hr _ rfl)
  obtain ⟨o, after, h⟩ := C96_defined p l hg f (a := nineArgs 3) (indx := none) (mem := []) he (fun q hq => by cases hq) (fun w hw => by cases hw)
    (fun w hw => by cases hw) (le_refl 3) rfl (.inr rfl) (.inr rfl) hc (by rw [hm]; exact nine_masses.1) (by rw [hl, hm]; exact nine_masses.2)
    (by
      intro P hP k hk
      rw [hP.given fourBins rfl] at hk ⊢
      rw [nine_count hl hr hk]
      show (if k = 0 then 6 else 1) < 3 ∨ 2 * 3 ≤ _
      split <;> simp)
  obtain ⟨P, mid, hP, -, -, -, -, x, -, y, -⟩ := C96_alpha_prof p l hg f (a := nineArgs 3) (indx := none) (mem := []) he (fun q hq => by cases hq)
    (fun w hw => by cases hw) (fun w hw => by cases hw) (by decide) hc h
  obtain ⟨P', hP', -, z⟩ := C97_too_few_violated p l hg f (a := nineArgs 3) (indx := none) (mem := []) he (fun q hq => by cases hq) hc h
  rw [hP.given fourBins rfl] at x y
  rw [hP'.given fourBins rfl] at z
  refine ⟨c0, o, after, h, ?_, ?_, ?_, ?_, ?_⟩
  · obtain ⟨Q, M, u, v⟩ := x 0 (by decide) (by rw [nine_count hl hr (by norm_num)]; decide)
      ⟨0, 1, by rw [hl]; norm_num, by rw [hl]; norm_num, (nine_alpha hr (by norm_num)).mpr (by simp), (nine_alpha hr (by norm_num)).mpr (by simp), by
        rw [hm, (nine_at (by norm_num)).2, (nine_at (by norm_num)).2]; norm_num⟩
    exact ⟨Q, M, u, fun h => (v h).1⟩
  · exact (z 1 (by decide) (by rw [nine_count hl hr (by norm_num)]; decide)).1
  · exact (z 2 (by decide) (by rw [nine_count hl hr (by norm_num)]; decide)).1
  · exact (z 3 (by decide) (by rw [nine_count hl hr (by norm_num)]; decide)).1
  · obtain ⟨rm, r1, r2, -⟩ := y (by decide) (by
        intro k hk
        have hk' : k < 4 := hk
        refine ⟨if k = 0 then 0 else k + 5, by rw [hl]; split <;> omega, ?_⟩
        refine ((nine_alpha hr (n := 3) (mem := []) (by split <;> omega)).mpr ?_).1
        interval_cases k <;> simp) (by
        intro i hi
        rw [hl] at hi
        rw [hr _ rfl i hi]; positivity)
    exact ⟨rm, mid, r1, r2⟩

/-- C97: with `nmass = 7` no bin has enough stars, and the gradient is zero. -/
example : ∃ (c0 : Cluster) (o : SlopeOut) (after : After), alphaProf demoG (nineArgs 7) plainNine none [] c0 = .ok (o, after) ∧
    o.fit = ⟨0, 0, 0, 0⟩ := by
  obtain ⟨c0, p, l, hg, f, hm, hs, hl, ho, hr⟩ := nine_demo
  have he : plainNine.Ok (nineArgs 7).prof.sub c0.st.length := ⟨by rw [hl]; rfl, .inl rfl, .inl ⟨rfl, rfl⟩⟩
  have hc : BinsCover (nineArgs 7).prof c0.st.length (Chosen (nineArgs 7).prof.sub plainNine none [] c0) (radiusOf (nineArgs 7).prof.sub c0) := by
    rw [hl]; exact nine_cover rfl (hr _ rfl)
  have hfew : ∀ P, ReportedBins (nineArgs 7).prof plainNine none [] c0 P → ∀ k < P.length,
      numOver c0.st.length (AlphaStar (nineArgs 7) plainNine none [] c0 P k) < (nineArgs 7).nmass := by
    intro P hP k hk
    rw [hP.given fourBins rfl] at hk ⊢
    rw [nine_count hl hr hk]
    show (if k = 0 then 6 else 1) < 7
    split <;> simp
  obtain ⟨o, after, h⟩ := C96_defined p l hg f (a := nineArgs 7) (indx := none) (mem := []) he (fun q hq => by cases hq) (fun w hw => by cases hw)
    (fun w hw => by cases hw) (by decide) rfl (.inr rfl) (.inr rfl) hc (by rw [hm]; exact nine_masses.1) (by rw [hl, hm]; exact nine_masses.2)
    (fun P hP k hk => .inl (hfew P hP k hk))
  refine ⟨c0, o, after, h, (C97_no_gradient_violated p l hg f (a := nineArgs 7) (indx := none) (mem := []) he (fun q hq => by cases hq) hc (by
    intro i hi
    rw [hl] at hi
    rw [hr _ rfl i hi]; positivity) ?_ h).2⟩
  intro P hP
  refine ⟨by rw [hP.given fourBins rfl]; decide, fun k hk => ⟨?_, hfew P hP k hk⟩⟩
  rw [hP.given fourBins rfl] at hk ⊢
  have hk' : k < 4 := hk
  refine ⟨if k = 0 then 0 else k + 5, by rw [hl]; split <;> omega, ?_⟩
  refine ((nine_alpha hr (n := 7) (mem := []) (by split <;> omega)).mpr ?_).1
  interval_cases k <;> simp

/-- C97: nine white dwarfs. -/
example : ∃ (c0 : Cluster) (o : SlopeOut) (after : After),
    alphaProf demoG { prof := { sub := { kwmin := 10, kwmax := 12 }, bins := some fourBins }, nmass := 3 } { plainNine with kw := List.replicate 9 11 } none [] c0 =
      .ok (o, after) ∧ ∀ v ∈ o.slope, v = 0 := by
  obtain ⟨c0, p, l, hg, f, hm, hs, hl, ho, hr⟩ := nine_demo
  obtain ⟨a, ha⟩ : ∃ a : AlphaArgs, a = { prof := { sub := { kwmin := 10, kwmax := 12 }, bins := some fourBins }, nmass := 3 } := ⟨_, rfl⟩
  obtain ⟨e, hee⟩ : ∃ e : PStars, e = { plainNine with kw := List.replicate 9 11 } := ⟨_, rfl⟩
  rw [← ha, ← hee]
  have he : e.Ok a.prof.sub c0.st.length := ⟨by rw [hl, hee]; rfl, .inr (by rw [hl, hee]; rfl), .inl (by rw [ha]; exact ⟨rfl, rfl⟩)⟩
  have hc : BinsCover a.prof c0.st.length (Chosen a.prof.sub e none [] c0) (radiusOf a.prof.sub c0) := by
    rw [hl]; exact nine_cover (by rw [ha]) (hr _ (by rw [ha]))
  have hkw : e.kw ≠ [] := by rw [hee]; simp
  obtain ⟨o, after, h⟩ := C96_defined p l hg f (a := a) (indx := none) (mem := []) he (fun q hq => by cases hq) (fun w hw => by rw [ha] at hw; cases hw)
    (fun w hw => by rw [ha] at hw; cases hw) (by rw [ha]) (by rw [ha]) (.inr (by rw [ha])) (.inr (by rw [ha])) hc (by rw [hm]; exact nine_masses.1)
    (by rw [hl, hm]; exact nine_masses.2) (by
      classical
      intro P hP k hk
      left
      have : numOver c0.st.length (AlphaStar a e none [] c0 P k) = 0 := by
        unfold numOver
        rw [Finset.card_eq_zero, Finset.filter_eq_empty_iff]
        intro i _ hs
        have h3 : a.prof.sub.kwmin ≤ e.kw[i]! := (hs.1.1.2.kw hkw).1
        have h4 := (hs.2 hkw).2
        rw [ha] at h3
        simp only at h3
        omega
      rw [this, ha]; decide)
  exact ⟨c0, o, after, h, (C97_types_violated p l hg f (a := a) (e := e) (indx := none) (mem := []) he (fun q hq => by cases hq) (by rw [ha]; decide) hc hkw (by rw [ha]; decide) h).1⟩

/-- C97: the same with nine stars of one mass. -/
example : ∃ (c0 : Cluster), ∀ r, alphaProf demoG (nineArgs 3) plainNine none [] c0 ≠ .ok r := by
  obtain ⟨c0, w, h0, p, l, hg, f, hm, hs, hw, -, hu, ho⟩ := demoOf_ok .cluster trivial (m := List.replicate 9 2) (st := nineStars)
    (by simp [nineStars]) (by simp [nineStars]) (by norm_num)
  have hl : c0.st.length = 9 := by rw [hs]; simp [nineStars]
  have hr : ∀ q : SubArgs, q.projected = false → ∀ i < 9, radiusOf q c0 i = i + 1 := by
    intro q hq i hi
    rw [radius_own ho q hq, hs]; exact (nine_dist hi).1
  have he : plainNine.Ok (nineArgs 3).prof.sub c0.st.length := ⟨by rw [hl]; rfl, .inl rfl, .inl ⟨rfl, rfl⟩⟩
  have hc : BinsCover (nineArgs 3).prof c0.st.length (Chosen (nineArgs 3).prof.sub plainNine none [] c0) (radiusOf (nineArgs 3).prof.sub c0) := by
    rw [hl]; exact nine_cover rfl (hr _ rfl)
  refine ⟨c0, C97_one_mass_violated p l hg f (a := nineArgs 3) (indx := none) (mem := []) (μ := 2) he (fun q hq => by cases hq) (by decide) rfl (.inr rfl) hc ?_⟩
  intro P hP
  rw [hP.given fourBins rfl]
  refine ⟨0, by decide, by rw [nine_count hl hr (by norm_num)]; decide, ?_⟩
  intro i hi _
  rw [hl] at hi
  rw [hm, getElem!_pos _ i (by rw [List.length_replicate]; exact hi), List.getElem_replicate]

/-! ### C98, C99 -/

theorem nine_speeds {c0 : Cluster} (hs : c0.st = nineStars) (ho : c0.origin = some .cluster) (i j : ℕ) (hi : i < 9) (hj : j < 9)
    (h : speed0 false (centred c0)[i]! = speed0 false (centred c0)[j]!) : i = j := by
  rw [centred_own ho, hs, (nine_dist hi).2, (nine_dist hj).2] at h
  have : (i : ℝ) = j := by linarith
  exact_mod_cast this

/-- C98 and C99: nine stars in four equal-number bins; neighbouring bins share a star. -/
example : ∃ (c0 : Cluster) (o : SlopeOut) (after : After) (P : List (ℝ × ℝ)),
    etaProf demoG { prof := { nrad := 4 }, nmass := 3 } none plainNine none [] c0 = .ok (o, after) ∧
    ReportedBins { nrad := 4 } plainNine none [] c0 P ∧ o.slope.length = P.length ∧
    ∀ k, k + 1 < P.length → ∃ i < c0.st.length, BetweenEdges { nrad := 4 } plainNine none [] c0 P k i ∧ BetweenEdges { nrad := 4 } plainNine none [] c0 P (k + 1) i := by
  obtain ⟨c0, p, l, hg, f, hm, hs, hl, ho, hr⟩ := nine_demo
  have he : plainNine.Ok {} c0.st.length := ⟨by rw [hl]; rfl, .inl rfl, .inl ⟨rfl, rfl⟩⟩
  have hall : ∀ i, Chosen {} plainNine none [] c0 i := fun i => all_chosen ⟨rfl, rfl⟩ ⟨rfl, rfl⟩ ⟨rfl, rfl⟩ ⟨rfl, rfl⟩ rfl rfl (fun p hp => by cases hp)
  have hc : BinsCover { nrad := 4 } c0.st.length (Chosen {} plainNine none [] c0) (radiusOf {} c0) :=
    .inl ⟨rfl, by decide, 0, 1, by rw [hl]; decide, by rw [hl]; decide, hall 0, hall 1, by
      rw [hr {} rfl 0 (by decide), hr {} rfl 1 (by decide)]; norm_num⟩
  obtain ⟨o, after, h⟩ := C98_defined p l hg f (a := { prof := { nrad := 4 }, nmass := 3 }) (e := plainNine) (mem := []) he (le_refl 3) rfl
    (.inl ⟨rfl, rfl, by
      intro i hi
      rw [hl] at hi
      show 0 < radiusOf {} c0 i
      rw [hr {} rfl i hi]; positivity⟩) (.inr rfl) hc (by rw [hm]; exact nine_masses.1) (by rw [hl, hm]; exact nine_masses.2)
    (by rw [hl]; exact nine_speeds hs ho)
  obtain ⟨P, x1, x2, -, x4⟩ := C99_counted_twice_violated p l hg f (a := { prof := { nrad := 4 }, nmass := 3 }) he (by decide) rfl ⟨rfl, rfl⟩ rfl rfl rfl hc h
  exact ⟨c0, o, after, P, h, x1, x2, x4⟩

/-- C98 and C99: nine stars in one given bin; any mask and limit on radius gives the same. -/
example : ∃ (c0 : Cluster) (o : SlopeOut) (after : After) (Q : List (ℝ × ℝ)) (M : EtaOut),
    etaProf demoG { prof := { bins := some ([0], [5], [10]) }, nmass := 3 } none plainNine none [] c0 = .ok (o, after) ∧
    EtaOf { prof := { bins := some ([0], [5], [10]) }, nmass := 3 } plainNine c0 (BetweenEdges { bins := some ([0], [5], [10]) } plainNine none [] c0 [(0, 10)] 0) Q M ∧
    (-100 < M.fit.slope → o.slope[0]! = M.fit.slope) ∧
    ∃ after', etaProf demoG { prof := { sub := { rmax := some 3 }, bins := some ([0], [5], [10]) }, nmass := 3 } none plainNine (some 0)
      [List.replicate 9 false] c0 = .ok (o, after') := by
  classical
  obtain ⟨c0, p, l, hg, f, hm, hs, hl, ho, hr⟩ := nine_demo
  have he : plainNine.Ok {} c0.st.length := ⟨by rw [hl]; rfl, .inl rfl, .inl ⟨rfl, rfl⟩⟩
  have hall : ∀ i, Chosen {} plainNine none [] c0 i := fun i => all_chosen ⟨rfl, rfl⟩ ⟨rfl, rfl⟩ ⟨rfl, rfl⟩ ⟨rfl, rfl⟩ rfl rfl (fun p hp => by cases hp)
  have hin : ∀ i < 9, (0 : ℝ) ≤ radiusOf {} c0 i ∧ radiusOf {} c0 i ≤ 10 := by
    intro i hi
    rw [hr {} rfl i hi]
    have : (i : ℝ) ≤ 8 := by exact_mod_cast (by omega : i ≤ 8)
    exact ⟨by positivity, by linarith⟩
  have hc : BinsCover { bins := some ([0], [5], [10]) } c0.st.length (Chosen {} plainNine none [] c0) (radiusOf {} c0) :=
    .inr ⟨_, 0, 10, rfl, rfl, rfl, .one (by norm_num), fun i hi _ => hin i (by rw [← hl]; exact hi)⟩
  have hsh : ∀ i < 9, BetweenEdges { bins := some ([0], [5], [10]) } plainNine none [] c0 [(0, 10)] 0 i := fun i hi => ⟨hall i, hin i hi⟩
  obtain ⟨o, after, h⟩ := C98_defined p l hg f (a := { prof := { bins := some ([0], [5], [10]) }, nmass := 3 }) (e := plainNine) (mem := []) he (le_refl 3) rfl
    (.inr ⟨_, rfl, by decide⟩) (.inr rfl) hc (by rw [hm]; exact nine_masses.1) (by rw [hl, hm]; exact nine_masses.2)
    (by rw [hl]; exact nine_speeds hs ho)
  obtain ⟨P, mid, x1, -, -, -, x5, -⟩ := C98_eta_prof p l hg f (a := { prof := { bins := some ([0], [5], [10]) }, nmass := 3 }) he (by decide) rfl ⟨rfl, rfl⟩ rfl
    (.inr ⟨rfl, rfl⟩) hc h
  have hP : P = [(0, 10)] := x1.given _ rfl
  subst hP
  obtain ⟨Q, M, y1, -, y3⟩ := x5 0 (by decide) (by
      have : numOver c0.st.length (BetweenEdges { bins := some ([0], [5], [10]) } plainNine none [] c0 [(0, 10)] 0) = 9 := by
        unfold numOver
        rw [hl, Finset.filter_true_of_mem fun i hi => hsh i (Finset.mem_range.mp hi), Finset.card_range]
      show 6 ≤ _
      rw [this]; norm_num)
    ⟨0, 1, by rw [hl]; decide, by rw [hl]; decide, hsh 0 (by decide), hsh 1 (by decide), by
      rw [hm, (nine_at (by norm_num)).2, (nine_at (by norm_num)).2]; norm_num⟩
  obtain ⟨after', h'⟩ := C99_given_bins_violated p l hg f (a := { prof := { bins := some ([0], [5], [10]) }, nmass := 3 }) (indx := none) (mem := [])
    (indx' := some 0) (mem' := [List.replicate 9 false]) (r0 := none) (r1 := some 3) (e0 := none) (e1 := none) (np := none) rfl
    (fun q hq => by cases hq) (fun q hq => by cases hq; rw [hl]; rfl) ⟨by rw [hl]; rfl, .inl rfl, by rw [hl]; rfl⟩ h
  exact ⟨c0, o, after, Q, M, h, y1, y3, after', h'⟩

/-- C99: a run with too few stars. -/
example : ∃ (c0 : Cluster) (o : SlopeOut) (after : After),
    etaProf demoG { prof := { bins := some ([0], [5], [10]) } } none plainNine none [] c0 = .ok (o, after) ∧ o.slope[0]! = 0 := by
  classical
  obtain ⟨c0, p, l, hg, f, hm, hs, hl, ho, hr⟩ := nine_demo
  have he : plainNine.Ok {} c0.st.length := ⟨by rw [hl]; rfl, .inl rfl, .inl ⟨rfl, rfl⟩⟩
  have hin : ∀ i < 9, (0 : ℝ) ≤ radiusOf {} c0 i ∧ radiusOf {} c0 i ≤ 10 := by
    intro i hi
    rw [hr {} rfl i hi]
    have : (i : ℝ) ≤ 8 := by exact_mod_cast (by omega : i ≤ 8)
    exact ⟨by positivity, by linarith⟩
  have hc : BinsCover { bins := some ([0], [5], [10]) } c0.st.length (Chosen {} plainNine none [] c0) (radiusOf {} c0) :=
    .inr ⟨_, 0, 10, rfl, rfl, rfl, .one (by norm_num), fun i hi _ => hin i (by rw [← hl]; exact hi)⟩
  obtain ⟨o, after, h⟩ := C98_defined p l hg f (a := { prof := { bins := some ([0], [5], [10]) } }) (e := plainNine) (mem := []) he (by decide) rfl
    (.inr ⟨_, rfl, by decide⟩) (.inr rfl) hc (by rw [hm]; exact nine_masses.1) (by rw [hl, hm]; exact nine_masses.2)
    (by rw [hl]; exact nine_speeds hs ho)
  obtain ⟨P, x1, -, x3⟩ := C99_too_few_violated p l hg f (a := { prof := { bins := some ([0], [5], [10]) } }) he rfl ⟨rfl, rfl⟩ rfl (.inr ⟨rfl, rfl⟩) hc h
  have hP : P = [(0, 10)] := x1.given _ rfl
  subst hP
  refine ⟨c0, o, after, h, x3 0 (by decide) ?_⟩
  refine lt_of_le_of_lt (?_ : _ ≤ 9) (by decide)
  unfold numOver
  rw [hl]
  exact le_trans (Finset.card_filter_le _ _) (by simp)

/-- C99: nine stars of one mass in one bin. -/
example : ∃ (c0 : Cluster), ∀ r, etaProf demoG { prof := { bins := some ([0], [5], [10]) }, nmass := 3 } none plainNine none [] c0 ≠ .ok r := by
  classical
  obtain ⟨c0, w, h0, p, l, hg, f, hm, hs, hw, -, hu, ho⟩ := demoOf_ok .cluster trivial (m := List.replicate 9 2) (st := nineStars)
    (by simp [nineStars]) (by simp [nineStars]) (by norm_num)
  have hl : c0.st.length = 9 := by rw [hs]; simp [nineStars]
  have he : plainNine.Ok {} c0.st.length := ⟨by rw [hl]; rfl, .inl rfl, .inl ⟨rfl, rfl⟩⟩
  have hin : ∀ i < 9, (0 : ℝ) ≤ radiusOf {} c0 i ∧ radiusOf {} c0 i ≤ 10 := by
    intro i hi
    rw [radius_own ho {} rfl, hs, (nine_dist hi).1]
    have : (i : ℝ) ≤ 8 := by exact_mod_cast (by omega : i ≤ 8)
    exact ⟨by positivity, by linarith⟩
  have hall : ∀ i, Chosen {} plainNine none [] c0 i := fun i => all_chosen ⟨rfl, rfl⟩ ⟨rfl, rfl⟩ ⟨rfl, rfl⟩ ⟨rfl, rfl⟩ rfl rfl (fun p hp => by cases hp)
  have hc : BinsCover { bins := some ([0], [5], [10]) } c0.st.length (Chosen {} plainNine none [] c0) (radiusOf {} c0) :=
    .inr ⟨_, 0, 10, rfl, rfl, rfl, .one (by norm_num), fun i hi _ => hin i (by rw [← hl]; exact hi)⟩
  refine ⟨c0, C99_one_mass_violated p l hg f (a := { prof := { bins := some ([0], [5], [10]) }, nmass := 3 }) (μ := 2) he (by decide) rfl ⟨rfl, rfl⟩ rfl
    (.inr ⟨rfl, rfl⟩) hc ?_⟩
  intro P hP
  have hP' : P = [(0, 10)] := hP.given _ rfl
  subst hP'
  refine ⟨0, by decide, ?_, ?_⟩
  · have : numOver c0.st.length (BetweenEdges { bins := some ([0], [5], [10]) } plainNine none [] c0 [(0, 10)] 0) = 9 := by
      unfold numOver
      rw [hl, Finset.filter_true_of_mem fun i hi => ⟨hall i, hin i (Finset.mem_range.mp hi)⟩, Finset.card_range]
    show 6 ≤ _
    rw [this]; norm_num
  · intro i hi _
    rw [hl] at hi
    rw [hm, getElem!_pos _ i (by rw [List.length_replicate]; exact hi), List.getElem_replicate]

end

end CT
