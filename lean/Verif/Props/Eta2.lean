/- C91: when the relation of dispersion and mass exists, too few stars, units; C92: where it fails. -/
import Verif.Props.Eta
import Verif.Props.Tidal

namespace CT

noncomputable section

set_option linter.unusedSimpArgs false

/-- A fit exists whatever the positive ordinates. -/
theorem polyfitLog_other {x y z : List ℝ} {f : LineFit} (h : polyfitLog x y = .ok f) (hl : z.length = y.length) (hz : ∀ v ∈ z, 0 < v) :
    ∃ f', polyfitLog x z = .ok f' := by
  obtain ⟨-, -, hx, -⟩ := polyfitLog_fit h
  unfold polyfitLog at h ⊢
  split_ifs at h with h1 h2
  rw [if_neg h1, if_neg (by push Not; exact ⟨hx, hz⟩)]
  unfold polyfit1 at h ⊢
  split_ifs at h with h3 h4 h5 h6
  rw [if_neg h3, if_neg (by simpa [hl] using h4), if_neg h5, if_neg h6]
  exact ⟨_, rfl⟩

/-- The dispersion of values that are not all the same. -/
theorem stdOver_pos {n : ℕ} {S : ℕ → Prop} {f : ℕ → ℝ} (h : ∃ i j, i < n ∧ j < n ∧ S i ∧ S j ∧ f i ≠ f j) : 0 < stdOver n S f := by
  classical
  obtain ⟨i, j, hi, hj, si, sj, hij⟩ := h
  unfold stdOver
  refine Real.sqrt_pos.mpr ?_
  have hn : 0 < numOver n S := by
    unfold numOver
    exact Finset.card_pos.mpr ⟨i, Finset.mem_filter.mpr ⟨Finset.mem_range.mpr hi, si⟩⟩
  have hn' : (0 : ℝ) < numOver n S := by exact_mod_cast hn
  have h0 : ∃ k, k < n ∧ S k ∧ f k ≠ meanOver n S f := by
    by_contra hc
    push Not at hc
    exact hij ((hc i hi si).trans (hc j hj sj).symm)
  obtain ⟨k, hk, sk, hne⟩ := h0
  show 0 < sumOver n S (fun i => (f i - meanOver n S f) ^ 2) / numOver n S
  refine div_pos ?_ hn'
  unfold sumOver
  refine Finset.sum_pos' (fun _ _ => sq_nonneg _) ⟨k, Finset.mem_filter.mpr ⟨Finset.mem_range.mpr hk, sk⟩, ?_⟩
  exact lt_of_le_of_ne (sq_nonneg _) (pow_ne_zero 2 (sub_ne_zero.mpr hne)).symm

theorem stdOver_const {n : ℕ} {S : ℕ → Prop} {f : ℕ → ℝ} {x : ℝ} (h : ∀ i < n, S i → f i = x) (hn : 0 < numOver n S) : stdOver n S f = 0 := by
  have hn' : (numOver n S : ℝ) ≠ 0 := by exact_mod_cast hn.ne'
  have hm : meanOver n S f = x := by
    unfold meanOver
    rw [sumOver_congr (T := S) (g := fun _ => x * 1) (fun _ _ => Iff.rfl) (fun i hi hs => by rw [h i hi hs, mul_one])]
    unfold sumOver
    rw [← Finset.mul_sum]
    have := numOver_eq n S
    unfold sumOver at this
    rw [← this]; field_simp
  unfold stdOver
  rw [hm]
  have : meanOver n S (fun i => (f i - x) ^ 2) = 0 := by
    unfold meanOver
    rw [sumOver_congr (T := S) (g := fun _ => (0 : ℝ)) (fun _ _ => Iff.rfl) (fun i hi hs => by rw [h i hi hs]; ring)]
    unfold sumOver
    simp
  rw [this, Real.sqrt_zero]

/-- **C91 (it exists).**  For `nmass ≥ 3` and at least `2·nmass` selected stars of different positive masses and different speeds
`eta_function` succeeds: `nmass` bins, each holding the average number of stars up to rounding. -/
theorem C91_equal_numbers {g : Galpy} {c : Cluster} (p : Pos g c) (l : Lin c) (hg : Good c) (f : Fresh c) {a : EtaArgs} {e : PStars}
    {indx : Option ℕ} {mem : Mem} (he : e.Ok a.sub c.st.length) (hm : ∀ q, indx = some q → mem[q]!.length = c.st.length)
    (hmp : ∀ v ∈ c.m, 0 < v) (h3 : 3 ≤ a.nmass)
    (hn : 2 * a.nmass ≤ numOver c.st.length (MassSelected a.sub e indx mem c))
    (hd : ∀ i j, i < c.st.length → j < c.st.length → MassSelected a.sub e indx mem c i → MassSelected a.sub e indx mem c j →
      c.m[i]! = c.m[j]! → i = j)
    (hv : ∀ i j, i < c.st.length → j < c.st.length → MassSelected a.sub e indx mem c i → MassSelected a.sub e indx mem c j →
      speed0 a.sub.projected c.st[i]! = speed0 a.sub.projected c.st[j]! → i = j) :
    ∃ o c2 mem' P, etaFunction g a none e indx mem c = .ok (o, c2, mem') ∧ IsEtaFunction a e indx mem c P o ∧
      IsLineFit (logPoints o.mean o.sig) o.fit ∧
      (∀ k < a.nmass, |(numOver c.st.length (InMassBin a.sub e indx mem c P k) : ℝ) -
        (numOver c.st.length (MassSelected a.sub e indx mem c) : ℝ) / a.nmass| < 1) ∧ (∀ k < a.nmass, 0 < o.sig[k]!) ∧
      c2.data = c.data ∧ Fresh c2 := by
  classical
  have hd2 : ∃ i j, i < c.st.length ∧ j < c.st.length ∧ MassSelected a.sub e indx mem c i ∧ MassSelected a.sub e indx mem c j ∧ c.m[i]! ≠ c.m[j]! := by
    have h1 : 1 < numOver c.st.length (MassSelected a.sub e indx mem c) := by omega
    unfold numOver at h1
    obtain ⟨i, hi, j, hj, hij⟩ := Finset.one_lt_card.mp h1
    simp only [Finset.mem_filter, Finset.mem_range] at hi hj
    exact ⟨i, j, hi.1, hj.1, hi.2, hj.2, fun h => hij (hd i j hi.1 hj.1 hi.2 hj.2 h)⟩
  obtain ⟨k, mem', B, P, c2, lo, hi, hS, hb, hB, d2, f2, g2, -, -, -, hrun⟩ := eta_run (q := none) p l hg f he hm hn (by omega) hd2
  obtain ⟨hPl, hnum⟩ := eta_all_bins hg hS (by omega) hn hd hb hB
  have hml : B.mid.length = a.nmass := by rw [hB.lenm, hPl]
  have hN : ∀ k < a.nmass, 1 < numOver c.st.length (InMassBin a.sub e indx mem c P k) := by
    intro j hj
    have h1 := hnum j hj
    have h2 : (2 : ℝ) ≤ (numOver c.st.length (MassSelected a.sub e indx mem c) : ℝ) / a.nmass := by
      rw [le_div_iff₀ (by exact_mod_cast (by omega : 0 < a.nmass))]
      exact_mod_cast hn
    have h4 := (abs_lt.mp h1).1
    have : (1 : ℝ) < numOver c.st.length (InMassBin a.sub e indx mem c P j) := by
      show (1 : ℝ) < (numOver c.st.length (fun i => MassSelected a.sub e indx mem c i ∧ InBin P j c.m[i]!) : ℝ)
      linarith
    exact_mod_cast this
  have hspec := fun fit => eta_spec hB hml fit
  have hpos : ∀ k < a.nmass, 0 < (sigOf a c B)[k]! := by
    intro j hj
    rw [(hspec ⟨0, 0, 0, 0⟩).sig j hj]
    refine stdOver_pos ?_
    have h1 := hN j hj
    unfold numOver at h1
    obtain ⟨i, hi, i', hi', hne⟩ := Finset.one_lt_card.mp h1
    simp only [Finset.mem_filter, Finset.mem_range] at hi hi'
    exact ⟨i, i', hi.1, hi'.1, hi.2, hi'.2, fun h => hne (hv i i' hi.1 hi'.1 hi.2.1 hi'.2.1 h)⟩
  obtain ⟨fit0, hfit0⟩ := mass_defined (a := a.mass) hg (by intro w hw; cases hw) (by intro w hw; cases hw) hmp hB (by omega) (by intro h; cases h)
  have hsl : (sigOf a c B).length = a.nmass := by simp [sigOf]
  obtain ⟨fit, hfit⟩ := polyfitLog_other hfit0 (z := sigOf a c B) (by rw [hsl, ← (polyfitLog_fit hfit0).1, hml]) (by
    intro v hv
    obtain ⟨j, hj, rfl⟩ := List.mem_iff_getElem.mp hv
    rw [← getElem!_pos (sigOf a c B) j hj]
    exact hpos j (by omega))
  refine ⟨⟨B.mid, sigOf a c B, fit⟩, c2, mem', P, ?_, hspec fit, (polyfitLog_fit hfit).2.1, hnum, hpos, d2, f2⟩
  rw [hrun, if_neg (by simpa using hml)]
  simp only [Option.elim, hfit, Except.bind]

/-- **C91 (power law).**  If the dispersions follow `A·m^η`, the slope is `η` and its error zero. -/
theorem C91_power_law {a : EtaArgs} {e : PStars} {indx : Option ℕ} {mem : Mem} {c : Cluster} {P : List (ℝ × ℝ)} {o : EtaOut}
    (h : IsEtaFunction a e indx mem c P o) (hf : IsLineFit (logPoints o.mean o.sig) o.fit)
    (hx : ∀ v ∈ o.mean, 0 < v) (hd : ∃ u ∈ o.mean, ∃ v ∈ o.mean, u ≠ v) {A η : ℝ} (hA : 0 < A)
    (hy : o.sig = o.mean.map (fun v => A * v ^ η)) :
    o.fit.slope = η ∧ o.fit.icept = Real.logb 10 A ∧ o.fit.eslope = 0 ∧ o.fit.eicept = 0 :=
  hf.power_law (h.lens.1.trans h.lens.2.symm) hx hd hA hy

/-- The run with too few stars. -/
theorem eta_few {g : Galpy} {c : Cluster} (p : Pos g c) (l : Lin c) (hg : Good c) (f : Fresh c) {a : EtaArgs} {q : Option CurveFit} {e : PStars}
    {indx : Option ℕ} {mem : Mem} (he : e.Ok a.sub c.st.length) (hm : ∀ q, indx = some q → mem[q]!.length = c.st.length)
    (hn : numOver c.st.length (MassSelected a.sub e indx mem c) < 2 * a.nmass) :
    ∃ c2 mem', etaFunction g a q e indx mem c = .ok (a.tooFew, c2, mem') ∧ c2.data = c.data ∧ Fresh c2 ∧ Good c2 ∧ c2.rest = c.rest := by
  obtain ⟨c1, h1, s1, m1, g1, l1, f1, r1, w1, -, -⟩ := strip_amuse p l hg f
  obtain ⟨k, mem', h2, hS⟩ := mass_selected_mask (e := e) (q := a.sub) (indx := indx) (mem := mem) hg he hm
  obtain ⟨c2, h4, d2, f2, g2, -, r2⟩ := return_of_world (sort := false) (cm := none) p l hg g1 l1 r1 w1
  refine ⟨c2, mem', ?_, d2, f2, g2, r2⟩
  have hen : enough (2 * a.nmass) (some k, mem') = false := by
    simp only [enough, Option.elim]
    rw [hS.count]; simpa using hn
  have hv : viewOf c1 e = rowsView c.st c.m e := by rw [fresh_view f1, s1, m1]
  unfold etaFunction
  simp only [bind]
  refine ite_bind_of' h1 ?_
  rw [hv, h2]
  simp only [Except.bind, hen, Bool.false_eq_true, if_false, h4, pure, Except.pure]

/-- **C91 (too few stars).**  With fewer than `2·nmass` selected stars the answer is `nmass` zeros twice and `-1000` four times, and the
cluster is left as it was. -/
theorem C91_too_few {g : Galpy} {c : Cluster} (p : Pos g c) (l : Lin c) (hg : Good c) (f : Fresh c) {a : EtaArgs} {q : Option CurveFit}
    {e : PStars} {indx : Option ℕ} {mem : Mem} (he : e.Ok a.sub c.st.length) (hm : ∀ q, indx = some q → mem[q]!.length = c.st.length)
    (hn : numOver c.st.length (MassSelected a.sub e indx mem c) < 2 * a.nmass) :
    ∃ o c2 mem', etaFunction g a q e indx mem c = .ok (o, c2, mem') ∧ o.mean = List.replicate a.nmass 0 ∧
      o.sig = List.replicate a.nmass 0 ∧ o.fit = ⟨-1000, -1000, -1000, -1000⟩ ∧ c2.data = c.data ∧ Fresh c2 := by
  obtain ⟨c2, mem', h, d2, f2, -, -⟩ := eta_few (q := q) p l hg f he hm hn
  exact ⟨_, c2, mem', h, rfl, rfl, rfl, d2, f2⟩

theorem speed0_scale {s : Scale} (h : 0 < s.vel) (pr : Bool) (p : Ph) : speed0 pr (s.ph p) = s.vel * speed0 pr p := by
  have e : ∀ x, Real.sqrt (s.vel ^ 2 * x) = s.vel * Real.sqrt x := by
    intro x
    rw [Real.sqrt_mul (sq_nonneg _), Real.sqrt_sq h.le]
  cases pr
  · simp only [speed0, Scale.ph, Bool.false_eq_true, if_false]
    rw [← e]; congr 1; ring
  · simp only [speed0, Scale.ph, if_true]
    rw [← e]; congr 1; ring

theorem npStd_scale {t : ℝ} (ht : 0 < t) (x : List ℝ) : npStd (x.map (t * ·)) = t * npStd x := by
  unfold npStd
  have hm : mean (x.map (t * ·)) = t * mean x := by
    unfold mean
    rw [List.sum_map_mul_left, List.map_id', List.length_map]; ring
  rw [hm, List.map_map]
  have : ((fun v => (v - t * mean x) ^ 2) ∘ fun x => t * x) = fun v => t ^ 2 * (v - mean x) ^ 2 := by funext v; simp only [Function.comp]; ring
  rw [this]
  have : mean (x.map (fun v => t ^ 2 * (v - mean x) ^ 2)) = t ^ 2 * mean (x.map (fun v => (v - mean x) ^ 2)) := by
    unfold mean
    rw [List.sum_map_mul_left, List.length_map, List.length_map]; ring
  rw [this, Real.sqrt_mul (sq_nonneg _), Real.sqrt_sq ht.le]

/-- **C91 (units).**  The slope and its error do not depend on the units in which the cluster is given, mean masses and dispersions
only as masses and velocities do. -/
theorem C91_units {g : Galpy} {c c' : Cluster} (p : Pos g c) (l : Lin c) (hg : Good c) (f : Fresh c) (p' : Pos g c') (l' : Lin c')
    (hg' : Good c') (f' : Fresh c') (hphys : phys g c' = phys g c) {u u' : Units} {s s' : Scale}
    (hu : c.units = some u) (hs : unitScale g c u = some s) (hu' : c'.units = some u') (hs' : unitScale g c' u' = some s')
    {a a' : EtaArgs} {e e' : PStars} {indx indx' : Option ℕ} {mem mem' : Mem}
    (he : e.Ok a.sub c.st.length) (hm : ∀ q, indx = some q → mem[q]!.length = c.st.length)
    (he' : e'.Ok a'.sub c'.st.length) (hm' : ∀ q, indx' = some q → mem'[q]!.length = c'.st.length)
    (hn1 : a'.nmass = a.nmass) (hpr : a'.sub.projected = a.sub.projected)
    (hn : 2 * a.nmass ≤ numOver c.st.length (MassSelected a.sub e indx mem c)) (h0 : 0 < a.nmass)
    (hd : ∃ i j, i < c.st.length ∧ j < c.st.length ∧ MassSelected a.sub e indx mem c i ∧ MassSelected a.sub e indx mem c j ∧ c.m[i]! ≠ c.m[j]!)
    (hsel : ∀ i < c.st.length, MassSelected a.sub e indx mem c i ↔ MassSelected a'.sub e' indx' mem' c' i)
    {o : EtaOut} {c2 : Cluster} {m2 : Mem} (h : etaFunction g a none e indx mem c = .ok (o, c2, m2)) :
    ∃ o' c2' m2', etaFunction g a' none e' indx' mem' c' = .ok (o', c2', m2') ∧ o'.fit.slope = o.fit.slope ∧
      o'.fit.eslope = o.fit.eslope ∧ o'.mean.map (· * s'.mass) = o.mean.map (· * s.mass) ∧
      o'.sig.map (· * s'.vel) = o.sig.map (· * s.vel) := by
  obtain ⟨em, est, -, -⟩ := phys_fields hu hs hu' hs' hphys
  have hlen : c'.st.length = c.st.length := by have := congrArg List.length est; simpa using this
  have hs0 := (unitScale_pos p hs).2.2.1
  have hs0' := (unitScale_pos p' hs').2.2.1
  have hv0 := (unitScale_pos p hs).2.1
  have hv0' := (unitScale_pos p' hs').2.1
  obtain ⟨t, ht⟩ : ∃ t, t = s.mass / s'.mass := ⟨_, rfl⟩
  have ht0 : 0 < t := by rw [ht]; positivity
  obtain ⟨z, hz⟩ : ∃ z, z = s.vel / s'.vel := ⟨_, rfl⟩
  have hz0 : 0 < z := by rw [hz]; positivity
  have hmass : c'.m = c.m.map (t * ·) := by
    have := congrArg (List.map (· / s'.mass)) em
    rw [List.map_map, List.map_map] at this
    have id1 : (fun x : ℝ => x / s'.mass) ∘ (fun x => x * s'.mass) = id := by
      funext x; simp only [Function.comp, id]; field_simp
    rw [id1, List.map_id] at this
    rw [this]
    refine List.map_congr_left fun x _ => ?_
    simp only [Function.comp, ht]; field_simp
  have hspeed : c'.st.map (speed0 a'.sub.projected) = (c.st.map (speed0 a.sub.projected)).map (z * ·) := by
    rw [hpr]
    have := congrArg (List.map (fun q => speed0 a.sub.projected q / s'.vel)) est
    rw [List.map_map, List.map_map] at this
    have e1 : (fun q => speed0 a.sub.projected q / s'.vel) ∘ s'.ph = speed0 a.sub.projected := by
      funext q; simp only [Function.comp]; rw [speed0_scale hv0']; field_simp
    rw [e1] at this
    rw [this, List.map_map]
    refine List.map_congr_left fun q _ => ?_
    simp only [Function.comp, hz]; rw [speed0_scale hv0]; field_simp
  have hget : ∀ i < c.st.length, c'.m[i]! = t * c.m[i]! := by
    intro i hi
    have h1 : i < c.m.length := by rw [hg.len]; exact hi
    rw [hmass, getElem!_pos _ i (by simpa using h1), getElem!_pos c.m i h1, List.getElem_map]
  obtain ⟨k, x, B, P, y, lo, hi, hS, hb, hB, -, -, -, -, -, -, hrun⟩ := eta_run (q := none) p l hg f he hm hn h0 hd
  have hnum : numOver c'.st.length (MassSelected a'.sub e' indx' mem' c') = numOver c.st.length (MassSelected a.sub e indx mem c) := by
    have := sumOver_congr (n := c.st.length) (f := fun _ => 1) (g := fun _ => 1) hsel (fun _ _ _ => rfl)
    rw [← numOver_eq, ← numOver_eq] at this
    rw [hlen]; exact_mod_cast this.symm
  have hd' : ∃ i j, i < c'.st.length ∧ j < c'.st.length ∧ MassSelected a'.sub e' indx' mem' c' i ∧ MassSelected a'.sub e' indx' mem' c' j ∧
      c'.m[i]! ≠ c'.m[j]! := by
    obtain ⟨i, j, x1, x2, x3, x4, x5⟩ := hd
    refine ⟨i, j, by omega, by omega, (hsel i x1).mp x3, (hsel j x2).mp x4, ?_⟩
    rw [hget i x1, hget j x2]
    exact fun h => x5 (mul_left_cancel₀ ht0.ne' h)
  obtain ⟨k', x', B', P', y', lo', hi', hS', hb', hB', -, -, -, -, -, -, hrun'⟩ := eta_run (q := none) (a := a') p' l' hg' f' he' hm'
    (by rw [hn1, hnum]; exact hn) (by rw [hn1]; exact h0) hd'
  rw [hlen] at hS'
  obtain ⟨B'', hb'', e1, e2, e3, e4, e5⟩ := profBinned_scale (a := a.mass) (a' := a'.mass) ht0 hn1 rfl
    ((hS'.congr fun i hi => (hsel i hi).symm).unique hS) hb
  rw [hmass, hb''] at hb'
  injection hb' with hb'
  subst hb'
  rw [hrun] at h
  split at h
  · cases h
  rename_i hl
  obtain ⟨fit, hfit, h⟩ := bind_ok h
  injection h with h
  cases h
  have hat : ∀ i, B''.at i = B.at i := by intro i; unfold Binned.at; rw [e1, e2]
  have hml : B''.mid.length = B.mid.length := by rw [e4, List.length_map]
  have hsig : sigOf a' c' B'' = (sigOf a c B).map (z * ·) := by
    unfold sigOf
    rw [hspeed, hn1, List.map_map (f := fun i => npStd _)]
    refine List.map_congr_left fun i _ => ?_
    rw [hat, maskSel_mapped, npStd_scale hz0]
    rfl
  obtain ⟨fit', hf', q1, q2, -⟩ := polyfitLog_scale hfit ht0 hz0
  rw [← e4, ← hsig] at hf'
  refine ⟨⟨B''.mid, sigOf a' c' B'', fit'⟩, y', x', ?_, q1, q2, ?_, ?_⟩
  · rw [hrun', if_neg (by rw [hml, hn1]; exact hl)]
    simp only [Option.elim, hf', Except.bind]
  · simp only [e4, List.map_map]
    refine List.map_congr_left fun v _ => ?_
    simp only [Function.comp, ht]; field_simp
  · simp only [hsig, List.map_map]
    refine List.map_congr_left fun v _ => ?_
    simp only [Function.comp, hz]; field_simp

/-! ### C92 -/

/-- **C92 (violated: equal masses).**  Stars of one mass: `ValueError`, however many there are. -/
theorem C92_equal_masses_violated {g : Galpy} {c : Cluster} (p : Pos g c) (l : Lin c) (hg : Good c) (f : Fresh c) {a : EtaArgs}
    {q : Option CurveFit} {e : PStars} {indx : Option ℕ} {mem : Mem} (he : e.Ok a.sub c.st.length)
    (hm : ∀ q, indx = some q → mem[q]!.length = c.st.length)
    (h0 : 0 < a.nmass) (hn : 2 * a.nmass ≤ numOver c.st.length (MassSelected a.sub e indx mem c)) {μ : ℝ}
    (hd : ∀ i < c.st.length, MassSelected a.sub e indx mem c i → c.m[i]! = μ) :
    etaFunction g a q e indx mem c = .error .valueError := by
  obtain ⟨c1, h1, s1, m1, g1, l1, f1, r1, w1, -, -⟩ := strip_amuse p l hg f
  obtain ⟨k, mem', h2, hS⟩ := mass_selected_mask (e := e) (q := a.sub) (indx := indx) (mem := mem) hg he hm
  have hen : enough (2 * a.nmass) (some k, mem') = true := by
    simp only [enough, Option.elim]
    rw [hS.count]; simpa using hn
  have hrep : maskSel mem'[k]! c.m = List.replicate (numOver c.st.length (MassSelected a.sub e indx mem c)) μ := by
    rw [List.eq_replicate_iff]
    refine ⟨hS.length hg.len, fun v hv => ?_⟩
    obtain ⟨i, q1, q2, rfl⟩ := (hS.mem hg.len).mp hv
    exact hd i q1 q2
  have hb : profBinned a.mass.prof c.m (some k, mem') = .error .valueError := by
    simp only [profBinned, profBins, MassArgs.prof, EtaArgs.mass, bind, Bool.false_eq_true, if_false]
    rw [hrep, C25_constant_input_violated _ _ _ (by omega) h0]
    rfl
  have hfit : ∀ v, etaFit a q c.m v (some k, mem') = .error .valueError := by
    intro v
    unfold etaFit
    simp only [bind, hb]
    rfl
  have hv : viewOf c1 e = rowsView c.st c.m e := by rw [fresh_view f1, s1, m1]
  unfold etaFunction
  simp only [bind]
  have rest : ∀ c1', c1' = c1 → ((getSubset a.sub (viewOf c1' e) indx mem).bind fun sel =>
      if enough (2 * a.nmass) sel = true then (etaFit a q c1'.m (if a.sub.projected then c1'.d.vpro else c1'.d.v) sel).bind fun out =>
        (returnCluster g (saveCluster c) false none c1').bind fun c2 => pure (out, c2, sel.2)
      else (Except.ok a.tooFew).bind fun out =>
        (returnCluster g (saveCluster c) false none c1').bind fun c2 => pure (out, c2, sel.2)) = .error .valueError := by
    rintro c1' rfl
    rw [hv, h2]
    simp only [Except.bind, hen, if_true, m1, hfit]
  split at h1
  · rename_i hu
    rw [if_pos hu, h1]
    exact rest c1 rfl
  · rename_i hu
    rw [if_neg hu]
    injection h1 with h1
    exact rest c h1

/-- **C92 (violated: few bins).**  With one or two bins `eta_function` never returns. -/
theorem C92_few_bins_violated {g : Galpy} {c : Cluster} (p : Pos g c) (l : Lin c) (hg : Good c) (f : Fresh c) {a : EtaArgs} {e : PStars}
    {indx : Option ℕ} {mem : Mem} (he : e.Ok a.sub c.st.length) (hm : ∀ q, indx = some q → mem[q]!.length = c.st.length)
    (h0 : 0 < a.nmass) (h2 : a.nmass ≤ 2) (hn : 2 * a.nmass ≤ numOver c.st.length (MassSelected a.sub e indx mem c))
    (hd : ∃ i j, i < c.st.length ∧ j < c.st.length ∧ MassSelected a.sub e indx mem c i ∧ MassSelected a.sub e indx mem c j ∧ c.m[i]! ≠ c.m[j]!)
    (r : EtaOut × Cluster × Mem) : etaFunction g a none e indx mem c ≠ .ok r := by
  intro h
  obtain ⟨o, c2, mem'⟩ := r
  obtain ⟨P, h1, h3, -⟩ := C91_eta_function p l hg f he hm hn h0 hd h
  have := h3.many
  simp only [logPoints, List.length_zip, List.length_map, h1.lens.1, h1.lens.2] at this
  omega

/-- **C92 (violated: few masses).**  Fewer different masses than bins: the bins cannot be told apart and `eta_function` fails with
`TypeError`, however many stars there are (a mass function of the same stars exists). -/
theorem C92_repeated_masses_violated {g : Galpy} {c : Cluster} (p : Pos g c) (l : Lin c) (hg : Good c) (f : Fresh c) {a : EtaArgs}
    {e : PStars} {indx : Option ℕ} {mem : Mem} (he : e.Ok a.sub c.st.length) (hm : ∀ q, indx = some q → mem[q]!.length = c.st.length)
    (h0 : 0 < a.nmass) (hn : 2 * a.nmass ≤ numOver c.st.length (MassSelected a.sub e indx mem c))
    (hd : ∃ i j, i < c.st.length ∧ j < c.st.length ∧ MassSelected a.sub e indx mem c i ∧ MassSelected a.sub e indx mem c j ∧ c.m[i]! ≠ c.m[j]!)
    {M : Finset ℝ} (hM : ∀ i < c.st.length, MassSelected a.sub e indx mem c i → c.m[i]! ∈ M) (hc : M.card < a.nmass) :
    etaFunction g a none e indx mem c = .error .typeError := by
  classical
  obtain ⟨k, mem', B, P, c2, lo, hi, hS, hb, hB, d2, f2, g2, -, -, -, hrun⟩ := eta_run (q := none) p l hg f he hm hn h0 hd
  rw [hrun, if_pos]
  · rfl
  intro hl
  have hPl : P.length = a.nmass := by rw [← hB.lenm, hl]
  obtain ⟨lo', hi', q1, q2, q3⟩ := hB.contig
  -- every bin holds a star, stars of different bins have different masses
  have hex : ∀ j < a.nmass, ∃ i < c.st.length, InMassBin a.sub e indx mem c P j i := by
    intro j hj
    obtain ⟨y1, -⟩ := hB.midNum rfl rfl j (by omega)
    unfold numOver at y1
    obtain ⟨i, hi⟩ := Finset.card_pos.mp y1
    simp only [Finset.mem_filter, Finset.mem_range] at hi
    exact ⟨i, hi.1, hi.2⟩
  choose! r r1 r2 using hex
  have hedge : ∀ j < P.length, ∀ v : ℝ, InBin P j v → P[j]!.1 ≤ v ∧ (j + 1 < P.length → v < P[j]!.2) := by
    rintro j hj v ⟨l', h', e', h1, h2⟩
    rw [getElem!_pos P j hj, show P[j] = (l', h') from by rw [List.getElem?_eq_getElem hj] at e'; injection e']
    refine ⟨h1, fun hlt => ?_⟩
    rcases h2 with h2 | ⟨h2, -⟩
    · exact h2
    · omega
  have mono : ∀ i j, i < j → j < a.nmass → c.m[r i]! < c.m[r j]! := by
    intro i j hij hj
    have h1 := (hedge i (by omega) _ (r2 i (by omega)).2).2 (by omega)
    have h2 := (hedge j (by omega) _ (r2 j hj).2).1
    have h4 := bins_increase q1 hij (by omega)
    linarith
  have hinj : Set.InjOn (fun j => c.m[r j]!) (Finset.range a.nmass) := by
    intro i hi' j hj' heq
    have hi2 := Finset.mem_range.mp (Finset.mem_coe.mp hi')
    have hj2 := Finset.mem_range.mp (Finset.mem_coe.mp hj')
    have heq' : c.m[r i]! = c.m[r j]! := heq
    rcases lt_trichotomy i j with h | h | h
    · exact absurd (mono i j h hj2) (by rw [heq']; exact lt_irrefl _)
    · exact h
    · exact absurd (mono j i h hi2) (by rw [heq']; exact lt_irrefl _)
  have := Finset.card_le_card_of_injOn (s := Finset.range a.nmass) (t := M) (fun j => c.m[r j]!)
    (fun j hj => Finset.mem_coe.mpr (hM _ (r1 j (Finset.mem_range.mp (Finset.mem_coe.mp hj))) (r2 j (Finset.mem_range.mp (Finset.mem_coe.mp hj))).1)) hinj
  rw [Finset.card_range] at this
  omega

/-- **C92 (violated: dispersion of speeds).**  The dispersion is that of the absolute values of the velocities: if all selected stars have
the same speed, in whatever directions, there is no relation (the logarithms are not finite). -/
theorem C92_same_speed_violated {g : Galpy} {c : Cluster} (p : Pos g c) (l : Lin c) (hg : Good c) (f : Fresh c) {a : EtaArgs}
    {e : PStars} {indx : Option ℕ} {mem : Mem} (he : e.Ok a.sub c.st.length) (hm : ∀ q, indx = some q → mem[q]!.length = c.st.length)
    (h0 : 0 < a.nmass) (hn : 2 * a.nmass ≤ numOver c.st.length (MassSelected a.sub e indx mem c))
    (hd : ∃ i j, i < c.st.length ∧ j < c.st.length ∧ MassSelected a.sub e indx mem c i ∧ MassSelected a.sub e indx mem c j ∧ c.m[i]! ≠ c.m[j]!)
    {V : ℝ} (hV : ∀ i < c.st.length, MassSelected a.sub e indx mem c i → speed0 a.sub.projected c.st[i]! = V)
    (r : EtaOut × Cluster × Mem) : etaFunction g a none e indx mem c ≠ .ok r := by
  intro h
  obtain ⟨o, c2, mem'⟩ := r
  obtain ⟨k, mem', B, P, c2, lo, hi, hS, hb, hB, d2, f2, g2, -, -, -, hrun⟩ := eta_run (q := none) p l hg f he hm hn h0 hd
  rw [hrun] at h
  split at h
  · cases h
  rename_i hl
  have hl' := not_not.mp hl
  obtain ⟨fit, hfit, -⟩ := bind_ok h
  have hspec := eta_spec hB hl' fit
  have h1 := (polyfitLog_fit hfit).2.2.2
  have hsl : 0 < (sigOf a c B).length := by simpa [sigOf] using h0
  have h2 := h1 _ (List.getElem_mem hsl)
  rw [← getElem!_pos (sigOf a c B) 0 hsl] at h2
  have h3 := hspec.sig 0 h0
  rw [stdOver_const (x := V) (fun i hi hS => hV i hi hS.1) (hspec.mean 0 h0).1] at h3
  exact absurd h3 h2.ne'

end

end CT
