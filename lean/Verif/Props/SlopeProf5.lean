/- Property theorems C98 (success) and C99 (violations) of `eta_prof` and `meq_prof`. -/
import Verif.Props.SlopeProf4

namespace CT

noncomputable section

set_option linter.unusedSimpArgs false

/-- **C98 (equipartition mass).**  The same of `meq_prof`: entry `k` is the equipartition mass fitted by scipy to the dispersions of the chosen
stars between the edges of bin `k`. -/
theorem C98_meq_prof {g : Galpy} {c : Cluster} (p : Pos g c) (l : Lin c) (hg : Good c) (f : Fresh c) {a : EtaProfArgs} {q : CurveFit}
    {e : PStars} {mem : Mem} (he : e.Ok a.prof.sub c.st.length) (h0 : 0 < a.nmass) (hpr : a.prof.sub.projected = false)
    (h1 : a.prof.sub.emin = none ∧ a.prof.sub.emax = none) (h2 : a.prof.sub.npop = none)
    (h3 : a.prof.bins = none ∨ (a.prof.sub.rmin = none ∧ a.prof.sub.rmax = none))
    (hc : BinsCover a.prof c.st.length (Chosen a.prof.sub e none mem c) (radiusOf a.prof.sub c))
    {o : SlopeOut} {after : After} (h : meqProf g a q e none mem c = .ok (o, after)) :
    ∃ P, ReportedBins a.prof e none mem c P ∧ o.slope.length = P.length ∧
      (∀ k < P.length, 2 * a.nmass ≤ numOver c.st.length (BetweenEdges a.prof e none mem c P k) →
        (∃ i j, i < c.st.length ∧ j < c.st.length ∧ BetweenEdges a.prof e none mem c P k i ∧ BetweenEdges a.prof e none mem c P k j ∧ c.m[i]! ≠ c.m[j]!) →
        ∃ Q M lo hi, EtaOf a e c (BetweenEdges a.prof e none mem c P k) Q M ∧ IsLeast {v | v ∈ c.m} lo ∧ IsGreatest {v | v ∈ c.m} hi ∧
          q M.mean M.sig lo hi = .ok M.fit ∧ (-100 < M.fit.slope → o.slope[k]! = M.fit.slope)) ∧
      after.cluster.data = c.data := by
  obtain ⟨P, mid, x1, -, -, x4, x5, -, -, -, x9, -⟩ := C98_eta_prof p l hg f he h0 hpr h1 h2 h3 hc h
  refine ⟨P, x1, x4, ?_, x9⟩
  intro k hk hn hd
  obtain ⟨Q, M, y1, y2, y3⟩ := x5 k hk hn hd
  obtain ⟨lo, hi, z1, z2, z3⟩ := y2.2 q rfl
  exact ⟨Q, M, lo, hi, y1, z1, z2, z3, y3⟩

/-- The loop succeeds if every call of `eta_function` does. -/
theorem etaBins_total {g : Galpy} {c1 : Cluster} (p : Pos g c1) (l : Lin c1) {a : EtaProfArgs} {q : Option CurveFit} {e : PStars} :
    ∀ (bs : List (ℝ × ℝ)) {d : Cluster} {mem : Mem}, LeftAs c1 d →
      (∀ b ∈ bs, ∀ (d : Cluster) (m : Mem), LeftAs c1 d → ∃ r, etaFunction g (a.inner b.1 b.2) q e none m d = .ok r) →
      ∃ t, etaBins g a q e bs d mem = .ok t
  | [], d, mem, _, _ => ⟨_, rfl⟩
  | b :: bs, d, mem, hk, h => by
    obtain ⟨⟨M, d1, m1⟩, h1⟩ := h b (by simp) d mem hk
    obtain ⟨k1, -⟩ := eta_after (p.of_rest hk.rest) (hk.lin l) hk.good hk.fresh h1
    obtain ⟨t, ht⟩ := etaBins_total p l bs (mem := m1) (hk.trans k1) (fun j hj => h j (by simp [hj]))
    simp only [etaBins, bind, h1, Except.bind, ht, pure, Except.pure]
    exact ⟨_, rfl⟩

/-- **C98 (success).**  For stars of different positive masses and different speeds and `nmass ≥ 3`, `eta_prof` in space without a mask always
returns: with its own equal-number bins if no star is at the centre, with given bins if there are up to three. -/
theorem C98_defined {g : Galpy} {c : Cluster} (p : Pos g c) (l : Lin c) (hg : Good c) (f : Fresh c) {a : EtaProfArgs}
    {e : PStars} {mem : Mem} (he : e.Ok a.prof.sub c.st.length) (h3 : 3 ≤ a.nmass) (hpr : a.prof.sub.projected = false)
    (hb : (a.prof.bins = none ∧ a.prof.fix = false ∧ ∀ i < c.st.length, 0 < radiusOf a.prof.sub c i) ∨
      ∃ b, a.prof.bins = some b ∧ b.2.1.length ≤ 3) (hrm : HasRm c ∨ a.prof.normalize = false)
    (hc : BinsCover a.prof c.st.length (Chosen a.prof.sub e none mem c) (radiusOf a.prof.sub c)) (hmp : ∀ v ∈ c.m, 0 < v)
    (hd : ∀ i j, i < c.st.length → j < c.st.length → c.m[i]! = c.m[j]! → i = j)
    (hv : ∀ i j, i < c.st.length → j < c.st.length → speed0 false (centred c)[i]! = speed0 false (centred c)[j]! → i = j) :
    ∃ o after, etaProf g a none e none mem c = .ok (o, after) := by
  classical
  have e3 : radiusOf a.prof.sub c = centreDist c := by funext i; unfold radiusOf; rw [hpr]
  obtain ⟨c1, k, mem', B, P, h1, s1, h2, h4, hB⟩ := eta_parts p l hg f he (indx := none) (mem := mem) (fun q hq => by cases hq) (by rw [← e3]; exact hc)
  rw [← e3] at hB
  have p1 := p.of_rest s1.rest
  have k0 : LeftAs c1 c1 := ⟨rfl, s1.fresh, s1.good, rfl⟩
  obtain ⟨t, ht⟩ := etaBins_total p1 s1.lin (a := a) (q := none) (e := e) P (mem := mem') k0 (by
    intro b hb d m kd
    obtain ⟨pd, ld, hst, hl, hdm, he', hsel, hnum⟩ := eta_bin p s1 he b kd m
    by_cases hn : numOver d.st.length (MassSelected (a.inner b.1 b.2).sub e none m d) < 2 * a.nmass
    · obtain ⟨o, c2, m2, h, -⟩ := C91_too_few pd ld kd.good kd.fresh (q := none) (a := a.inner b.1 b.2) (indx := none) (mem := m) he' (fun q hq => by cases hq) hn
      exact ⟨_, h⟩
    · obtain ⟨o, c2, m2, Q, h, -⟩ := C91_equal_numbers pd ld kd.good kd.fresh (a := a.inner b.1 b.2) (indx := none) (mem := m) he' (fun q hq => by cases hq)
        (by rw [hdm]; exact hmp) h3 (not_lt.mp hn)
        (fun i j hi hj _ _ e => hd i j (by rw [← hl]; exact hi) (by rw [← hl]; exact hj) (by rw [← hdm]; exact e))
        (fun i j hi hj _ _ e => hv i j (by rw [← hl]; exact hi) (by rw [← hl]; exact hj) (by
          rw [← hst]
          have hp' : (a.inner b.1 b.2).sub.projected = false := hpr
          rw [hp'] at e; exact e))
      exact ⟨_, h⟩)
  obtain ⟨kt, tl, -, -, trm⟩ := etaBins_run p1 s1.lin _ k0 ht
  obtain ⟨c2, h6, d2, -, -, -, -⟩ := return_of_world (sort := false) (cm := none) p l hg kt.good (kt.lin s1.lin) (kt.rest.trans s1.rest)
    ((world_of_data kt.data kt.rest).trans s1.world)
  have hrm1 : HasRm c1 ∨ a.prof.normalize = false := hrm.imp_left fun h => profStart_hasRm l h h1
  obtain ⟨s, h5⟩ := velRadii_spec hrm1 B.mid
  generalize (if a.prof.normalize then B.mid.map (· / s) else B.mid) = rn at h5
  have hu : c2.units = c.units := congrArg Data.units d2
  have hu' : t.2.1.units = c1.units := congrArg Data.units kt.data
  have hconv := conv_id s1 hu (f := fun u v x => .ok (convertLength g c2 u v x)) (by simp [convertLength])
    (by simp [convertLength, Units.isPc, Units.isKpc]) rn
  have hconv' : convUnits (fun u v x => .ok (convertLength g c2 u v x)) t.2.1 c2 rn = .ok rn := by
    rw [← hconv]; unfold convUnits; rw [hu']
  have hfit : 3 < B.mid.length → ∃ fit, fitLn B.mid (rmOf a.prof.sub.projected t.2.1) t.1 = .ok fit := by
    intro hlen
    obtain ⟨hx, hx', hpos⟩ := hb.resolve_right (by
      rintro ⟨b, b1, b2⟩
      rw [(hB.given b b1).2.1] at hlen
      omega)
    have hP : 3 < P.length := by rw [← hB.lenm]; exact hlen
    obtain ⟨x, y, ex, -, mx, -⟩ := trm (by rintro rfl; simp at hP)
    have hmid := meanRadii_spec hB
    have e4 : meanRadii a.prof ((centred c).map (dist0 a.prof.sub.projected)) B = B.mid := by unfold meanRadii; rw [hx]; rfl
    rw [e4] at hmid
    obtain ⟨g1, g2⟩ := meanRadii_good hB.reported hmid (by omega) (by
      intro k hk
      have := (hB.midNum hx hx' k hk).1
      unfold numOver at this
      obtain ⟨i, hi⟩ := Finset.card_pos.mp this
      simp only [Finset.mem_filter, Finset.mem_range] at hi
      exact ⟨i, hi.1, hi.2⟩) hpos
    have hx : 0 < x := by
      rw [← dist0_eq, s1.st] at mx
      obtain ⟨i, hi, rfl⟩ := List.mem_iff_getElem.mp mx
      have hi' : i < c.st.length := by rw [List.length_map, centred_length] at hi; exact hi
      have := hpos i hi'
      rw [e3] at this
      unfold centreDist at this
      rw [← rows_get (f := dist0 false) hi', getElem!_pos _ i hi] at this
      exact this
    obtain ⟨fit, hf, -⟩ := fitLn_ok (y := t.1) (rm := x) (by rw [tl, hB.lenm]) (by omega) g1 hx g2
    refine ⟨fit, ?_⟩
    rw [show rmOf a.prof.sub.projected t.2.1 = some x by rw [hpr]; exact ex]
    exact hf
  rw [hB.zip] at ht
  unfold etaProf
  simp only [bind, h1, Except.bind, h2, h4, h5, ht, h6, hconv']
  by_cases hlen : 3 < B.mid.length
  · obtain ⟨fit, hf⟩ := hfit hlen
    rw [if_pos hlen, hf]
    dsimp only
    split <;> exact ⟨_, _, rfl⟩
  · rw [if_neg hlen]
    split <;> exact ⟨_, _, rfl⟩

/-! ### C99 -/

/-- **C99 (violated: selection).**  Whatever `eta_prof` or `meq_prof` returns: a mask, and limits on energy and population, only decide which stars
the bins are made of.  Entry `k` is made of all stars between the edges of bin `k` with a mass, speed and type within the limits, also those
outside the mask, of another population or energy.  For a projected profile the edges are distances in space, the stars are taken by projected
distance. -/
theorem C99_selection_violated {g : Galpy} {c : Cluster} (p : Pos g c) (l : Lin c) (hg : Good c) (f : Fresh c) {a : EtaProfArgs}
    {q : Option CurveFit} {e : PStars} {indx : Option ℕ} {mem : Mem} (he : e.Ok a.prof.sub c.st.length)
    (hm : ∀ q, indx = some q → mem[q]!.length = c.st.length) (h0 : 0 < a.nmass)
    (hc : BinsCover a.prof c.st.length (Chosen a.prof.sub e indx mem c) (fun i => dist0 false (centred c)[i]!))
    {o : SlopeOut} {after : After} (h : etaProf g a q e indx mem c = .ok (o, after)) :
    ∃ P lo hi, Contig lo hi P ∧
      (a.prof.bins = none → (∃ i < c.st.length, Chosen a.prof.sub e indx mem c i ∧ dist0 false (centred c)[i]! = lo) ∧
        ∃ i < c.st.length, Chosen a.prof.sub e indx mem c i ∧ dist0 false (centred c)[i]! = hi) ∧
      (∀ i < c.st.length, Chosen a.prof.sub e indx mem c i → lo ≤ dist0 false (centred c)[i]! ∧ dist0 false (centred c)[i]! ≤ hi) ∧
      (∀ b, a.prof.bins = some b → P = List.zip b.1 b.2.2) ∧
      o.slope.length = P.length ∧ ∀ k < P.length, 2 * a.nmass ≤ numOver c.st.length (ShellStar a e c P[k]!) →
        (∃ i j, i < c.st.length ∧ j < c.st.length ∧ ShellStar a e c P[k]! i ∧ ShellStar a e c P[k]! j ∧ c.m[i]! ≠ c.m[j]!) →
        ∃ Q M, EtaOf a e c (ShellStar a e c P[k]!) Q M ∧ FitOf q c M ∧ (-100 < M.fit.slope → o.slope[k]! = M.fit.slope) := by
  obtain ⟨c1, B, P, t, m0, hstart, s1, hB, hr, ht, es, ef, ef', d2, f2⟩ := eta_core p l hg f he hm hc h
  obtain ⟨kt, tl, tj, -, -⟩ := etaBins_run (p.of_rest s1.rest) s1.lin _ ⟨rfl, s1.fresh, s1.good, rfl⟩ ht
  obtain ⟨lo, hi, q1, q2, q3⟩ := hB.contig
  refine ⟨P, lo, hi, q1, q3, q2, fun b hb => (by obtain ⟨h1, -, h3⟩ := hB.given b hb; rw [hB.zip, h1, h3]), by rw [es, tl], ?_⟩
  intro k hk hn hd
  obtain ⟨d, m', M, c', m'', kd, hM, hv⟩ := tj k hk
  obtain ⟨Q, hQ, hF⟩ := eta_entry p s1 he h0 kd (fun _ _ => Iff.rfl) hn hd hM
  refine ⟨Q, M, hQ, hF, fun hgt => ?_⟩
  rw [es, hv, keepSlope, if_pos hgt]

/-- **C99 (violated: too few stars).**  A bin with fewer than `2·nmass` stars has the entry `0`, instead of a sign that nothing was
fitted. -/
theorem C99_too_few_violated {g : Galpy} {c : Cluster} (p : Pos g c) (l : Lin c) (hg : Good c) (f : Fresh c) {a : EtaProfArgs}
    {q : Option CurveFit} {e : PStars} {mem : Mem} (he : e.Ok a.prof.sub c.st.length) (hpr : a.prof.sub.projected = false)
    (h1 : a.prof.sub.emin = none ∧ a.prof.sub.emax = none) (h2 : a.prof.sub.npop = none)
    (h3 : a.prof.bins = none ∨ (a.prof.sub.rmin = none ∧ a.prof.sub.rmax = none))
    (hc : BinsCover a.prof c.st.length (Chosen a.prof.sub e none mem c) (radiusOf a.prof.sub c))
    {o : SlopeOut} {after : After} (h : etaProf g a q e none mem c = .ok (o, after)) :
    ∃ P, ReportedBins a.prof e none mem c P ∧ o.slope.length = P.length ∧
      ∀ k < P.length, numOver c.st.length (BetweenEdges a.prof e none mem c P k) < 2 * a.nmass → o.slope[k]! = 0 := by
  have e3 : radiusOf a.prof.sub c = centreDist c := by funext i; unfold radiusOf; rw [hpr]
  obtain ⟨c1, B, P, t, m0, hstart, s1, hB, hr, ht, es, ef, ef', d2, f2⟩ := eta_core p l hg f he (fun q hq => by cases hq) (by rw [← e3]; exact hc) h
  rw [← e3] at hB
  obtain ⟨kt, tl, tj, -, -⟩ := etaBins_run (p.of_rest s1.rest) s1.lin _ ⟨rfl, s1.fresh, s1.good, rfl⟩ ht
  refine ⟨P, hB.reported, by rw [es, tl], ?_⟩
  intro k hk hn
  obtain ⟨d, m', M, c', m'', kd, hM, hv⟩ := tj k hk
  obtain ⟨pd, ld, hst, hl, hdm, he', hsel, hnum⟩ := eta_bin p s1 he P[k]! kd m'
  obtain ⟨M', c2, m2, hM', -, -, hf, -⟩ := C91_too_few pd ld kd.good kd.fresh (q := q) (a := a.inner P[k]!.1 P[k]!.2) (indx := none) (mem := m') he'
    (fun q hq => by cases hq) (by rw [hnum, numOver_congr (shell_iff h1 h2 h3 hB hk)]; exact hn)
  rw [hM] at hM'
  cases hM'
  rw [es, hv, keepSlope, hf, if_neg (by norm_num)]

/-- **C99 (violated: stars of one mass).**  One bin with at least `2·nmass` stars between its edges, all of one mass, makes the whole profile
fail. -/
theorem C99_one_mass_violated {g : Galpy} {c : Cluster} (p : Pos g c) (l : Lin c) (hg : Good c) (f : Fresh c) {a : EtaProfArgs}
    {q : Option CurveFit} {e : PStars} {mem : Mem} (he : e.Ok a.prof.sub c.st.length) (h0 : 0 < a.nmass) (hpr : a.prof.sub.projected = false)
    (h1 : a.prof.sub.emin = none ∧ a.prof.sub.emax = none) (h2 : a.prof.sub.npop = none)
    (h3 : a.prof.bins = none ∨ (a.prof.sub.rmin = none ∧ a.prof.sub.rmax = none))
    (hc : BinsCover a.prof c.st.length (Chosen a.prof.sub e none mem c) (radiusOf a.prof.sub c)) {μ : ℝ}
    (hbad : ∀ P, ReportedBins a.prof e none mem c P → ∃ k < P.length, 2 * a.nmass ≤ numOver c.st.length (BetweenEdges a.prof e none mem c P k) ∧
      ∀ i < c.st.length, BetweenEdges a.prof e none mem c P k i → c.m[i]! = μ) (r : SlopeOut × After) :
    etaProf g a q e none mem c ≠ .ok r := by
  intro h
  obtain ⟨o, after⟩ := r
  have e3 : radiusOf a.prof.sub c = centreDist c := by funext i; unfold radiusOf; rw [hpr]
  obtain ⟨c1, B, P, t, m0, hstart, s1, hB, hr, ht, es, ef, ef', d2, f2⟩ := eta_core p l hg f he (fun q hq => by cases hq) (by rw [← e3]; exact hc) h
  rw [← e3] at hB
  obtain ⟨kt, tl, tj, -, -⟩ := etaBins_run (p.of_rest s1.rest) s1.lin _ ⟨rfl, s1.fresh, s1.good, rfl⟩ ht
  obtain ⟨k, hk, hn, hμ⟩ := hbad P hB.reported
  obtain ⟨d, m', M, c', m'', kd, hM, hv⟩ := tj k hk
  obtain ⟨pd, ld, hst, hl, hdm, he', hsel, hnum⟩ := eta_bin p s1 he P[k]! kd m'
  have hiff := shell_iff h1 h2 h3 hB hk
  rw [C92_equal_masses_violated pd ld kd.good kd.fresh (q := q) (a := a.inner P[k]!.1 P[k]!.2) (indx := none) (mem := m') he' (fun q hq => by cases hq) h0
    (by rw [hnum, numOver_congr hiff]; exact hn) (μ := μ)
    (fun i hi hs => by
      rw [hl] at hi
      rw [hdm]; exact hμ i hi ((hiff i hi).mp ((hsel i hi).mp hs)))] at hM
  cases hM

theorem Contig.joined {lo hi : ℝ} {P : List (ℝ × ℝ)} (h : Contig lo hi P) : ∀ {k : ℕ}, k + 1 < P.length → P[k]!.2 = P[k + 1]!.1 := by
  induction h with
  | one h => intro k hk; simp at hk
  | @cons a b c P h hP ih =>
    intro k hk
    cases k with
    | zero =>
      cases hP <;> simp
    | succ k =>
      have := ih (k := k) (by simpa using hk)
      simpa using this

/-- The edge between two neighbouring equal-number bins is the radius of a chosen star. -/
theorem shared_star {a : ProfArgs} {e : PStars} {mem : Mem} {c : Cluster} {P : List (ℝ × ℝ)} (hx : a.bins = none)
    (hx' : a.fix = false) (hP : ReportedBins a e none mem c P) {k : ℕ} (hk : k + 1 < P.length) :
    ∃ i < c.st.length, BetweenEdges a e none mem c P k i ∧ BetweenEdges a e none mem c P (k + 1) i := by
  classical
  obtain ⟨lo, hi, q1, -, -⟩ := hP.contig
  obtain ⟨X, -, hX, hPX⟩ := hP.ranks hx hx'
  have hj := q1.joined hk
  have i1 := q1.inside (k := k) (by omega)
  have i2 := q1.inside hk
  have hmem : P[k + 1]! ∈ P := by rw [getElem!_pos P (k + 1) hk]; exact List.getElem_mem _
  have hX1 : P[k + 1]!.1 ∈ X := by
    generalize P[k + 1]! = pk at hmem ⊢
    rw [hPX] at hmem
    unfold rankBins at hmem
    obtain ⟨j, hj, he⟩ := List.mem_map.mp (List.mem_of_mem_filter hmem)
    rw [List.mem_range] at hj
    rw [← he]
    have hne : X ≠ [] := by
      rintro rfl
      have : P = [] := by rw [hPX]; simp [rankBins]
      rw [this] at hk; simp at hk
    have hlen : j * X.length / a.nrad < X.length := by
      rw [Nat.div_lt_iff_lt_mul (by omega)]
      have := List.length_pos_iff.mpr hne
      rw [mul_comm]
      exact Nat.mul_lt_mul_of_pos_left hj this
    dsimp only
    rw [getElem!_pos X _ hlen]
    exact List.getElem_mem _
  have := hX.mem_iff.mp hX1
  unfold valuesOf at this
  obtain ⟨i, hi, he⟩ := List.mem_map.mp this
  rw [List.mem_filter, List.mem_range] at hi
  have hc : Chosen a.sub e none mem c i := by simpa using hi.2
  refine ⟨i, hi.1, ⟨hc, ?_, ?_⟩, ⟨hc, ?_, ?_⟩⟩
  · rw [he]; linarith
  · rw [he, ← hj]
  · rw [he]
  · rw [he]; linarith

/-- **C99 (violated: stars counted twice).**  The edge between two neighbouring equal-number bins is the radius of a chosen star, and the entries of
both bins are made with this star. -/
theorem C99_counted_twice_violated {g : Galpy} {c : Cluster} (p : Pos g c) (l : Lin c) (hg : Good c) (f : Fresh c) {a : EtaProfArgs}
    {q : Option CurveFit} {e : PStars} {mem : Mem} (he : e.Ok a.prof.sub c.st.length) (h0 : 0 < a.nmass) (hpr : a.prof.sub.projected = false)
    (h1 : a.prof.sub.emin = none ∧ a.prof.sub.emax = none) (h2 : a.prof.sub.npop = none) (hx : a.prof.bins = none) (hx' : a.prof.fix = false)
    (hc : BinsCover a.prof c.st.length (Chosen a.prof.sub e none mem c) (radiusOf a.prof.sub c))
    {o : SlopeOut} {after : After} (h : etaProf g a q e none mem c = .ok (o, after)) :
    ∃ P, ReportedBins a.prof e none mem c P ∧ o.slope.length = P.length ∧
      (∀ k < P.length, 2 * a.nmass ≤ numOver c.st.length (BetweenEdges a.prof e none mem c P k) →
        (∃ i j, i < c.st.length ∧ j < c.st.length ∧ BetweenEdges a.prof e none mem c P k i ∧ BetweenEdges a.prof e none mem c P k j ∧ c.m[i]! ≠ c.m[j]!) →
        ∃ Q M, EtaOf a e c (BetweenEdges a.prof e none mem c P k) Q M ∧ FitOf q c M ∧ (-100 < M.fit.slope → o.slope[k]! = M.fit.slope)) ∧
      ∀ k, k + 1 < P.length → ∃ i < c.st.length, BetweenEdges a.prof e none mem c P k i ∧ BetweenEdges a.prof e none mem c P (k + 1) i := by
  obtain ⟨P, mid, x1, -, -, x4, x5, -⟩ := C98_eta_prof p l hg f he h0 hpr h1 h2 (.inl hx) hc h
  exact ⟨P, x1, x4, x5, fun k hk => shared_star hx hx' x1 hk⟩

/-! ### Given bins -/

/-- Without a mask, `eta_function` does not depend on the arrays in memory. -/
theorem eta_mem {g : Galpy} {c : Cluster} (p : Pos g c) (l : Lin c) (hg : Good c) (f : Fresh c) {a : EtaArgs} {q : Option CurveFit} {e : PStars}
    {mem : Mem} (he : e.Ok a.sub c.st.length) {o : EtaOut} {c2 : Cluster} {m2 : Mem} (h : etaFunction g a q e none mem c = .ok (o, c2, m2))
    (mem' : Mem) : ∃ m2', etaFunction g a q e none mem' c = .ok (o, c2, m2') := by
  obtain ⟨c1, h1, s1, m1, g1, l1, f1, r1, w1, -, -⟩ := strip_amuse p l hg f
  obtain ⟨k, n, h2, hS⟩ := mass_selected_mask (e := e) (q := a.sub) (indx := none) (mem := mem) hg he (fun q hq => by cases hq)
  obtain ⟨k', n', h2', hS'⟩ := mass_selected_mask (e := e) (q := a.sub) (indx := none) (mem := mem') hg he (fun q hq => by cases hq)
  rw [massSelected_none (mem := mem') (mem' := mem)] at hS'
  have hmask : n'[k']! = n[k]! := hS'.unique hS
  have hen : enough (2 * a.nmass) (some k', n') = enough (2 * a.nmass) (some k, n) := by
    simp only [enough, Option.elim, hmask]
  have hfit : ∀ m v, etaFit a q m v (some k', n') = etaFit a q m v (some k, n) := by
    intro m v
    unfold etaFit
    rw [show profBinned a.mass.prof m (some k', n') = profBinned a.mass.prof m (some k, n) by simp only [profBinned, hmask]]
  have hv : viewOf c1 e = rowsView c.st c.m e := by rw [fresh_view f1, s1, m1]
  unfold etaFunction at h ⊢
  simp only [bind] at h ⊢
  have rest : ∀ c1', c1' = c1 → ((getSubset a.sub (viewOf c1' e) none mem).bind fun sel =>
      if enough (2 * a.nmass) sel = true then (etaFit a q c1'.m (if a.sub.projected then c1'.d.vpro else c1'.d.v) sel).bind fun out =>
        (returnCluster g (saveCluster c) false none c1').bind fun c2 => pure (out, c2, sel.2)
      else (Except.ok a.tooFew).bind fun out =>
        (returnCluster g (saveCluster c) false none c1').bind fun c2 => pure (out, c2, sel.2)) = .ok (o, c2, m2) →
      ∃ m2', ((getSubset a.sub (viewOf c1' e) none mem').bind fun sel =>
      if enough (2 * a.nmass) sel = true then (etaFit a q c1'.m (if a.sub.projected then c1'.d.vpro else c1'.d.v) sel).bind fun out =>
        (returnCluster g (saveCluster c) false none c1').bind fun c2 => pure (out, c2, sel.2)
      else (Except.ok a.tooFew).bind fun out =>
        (returnCluster g (saveCluster c) false none c1').bind fun c2 => pure (out, c2, sel.2)) = .ok (o, c2, m2') := by
    rintro c1' rfl h
    rw [hv, h2] at h
    rw [hv, h2']
    simp only [Except.bind] at h ⊢
    refine ⟨n', ?_⟩
    rw [hen]
    by_cases hc : enough (2 * a.nmass) (some k, n) = true
    · rw [if_pos hc] at h ⊢
      rw [hfit]
      obtain ⟨out, h3, h⟩ := bind_ok h
      obtain ⟨c3, h4, h⟩ := bind_ok h
      simp only [pure, Except.pure, Except.ok.injEq, Prod.mk.injEq] at h
      rw [h3, h4]
      simp only [pure, Except.pure]
      rw [h.1, h.2.1]
    · rw [if_neg hc] at h ⊢
      obtain ⟨c3, h4, h⟩ := bind_ok h
      simp only [pure, Except.pure, Except.ok.injEq, Prod.mk.injEq] at h
      rw [h4]
      simp only [pure, Except.pure]
      rw [h.1, h.2.1]
  split at h1
  · rename_i hu
    rw [if_pos hu, h1] at h ⊢
    exact rest c1 rfl h
  · rename_i hu
    rw [if_neg hu] at h ⊢
    injection h1 with h1
    exact rest c h1 h

theorem etaBins_mem {g : Galpy} {c1 : Cluster} (p : Pos g c1) (l : Lin c1) {a a' : EtaProfArgs} {q : Option CurveFit} {e : PStars}
    (hi : ∀ x y, a'.inner x y = a.inner x y) (he : ∀ x y, e.Ok (a.inner x y).sub c1.st.length) :
    ∀ (bs : List (ℝ × ℝ)) {d : Cluster} {mem : Mem} {t : List ℝ × Cluster × Mem}, LeftAs c1 d → etaBins g a q e bs d mem = .ok t →
      ∀ mem', ∃ m, etaBins g a' q e bs d mem' = .ok (t.1, t.2.1, m)
  | [], d, mem, t, hk, h, mem' => by
    simp only [etaBins, Except.ok.injEq] at h
    subst h
    exact ⟨mem', rfl⟩
  | b :: bs, d, mem, t, hk, h, mem' => by
    simp only [etaBins, bind] at h
    obtain ⟨⟨M, d1, m1⟩, h1, h⟩ := bind_ok h
    obtain ⟨⟨s, d2, m2⟩, h2, h⟩ := bind_ok h
    simp only [pure, Except.pure, Except.ok.injEq] at h
    subst h
    obtain ⟨k1, cx, hr⟩ := eta_after (p.of_rest hk.rest) (hk.lin l) hk.good hk.fresh h1
    obtain ⟨m1', h1'⟩ := eta_mem (p.of_rest hk.rest) (hk.lin l) hk.good hk.fresh
      (by rw [show d.st = c1.st from congrArg Data.st hk.data]; exact he _ _) h1 mem'
    obtain ⟨m, h2'⟩ := etaBins_mem p l hi he bs (hk.trans k1) h2 m1'
    refine ⟨m, ?_⟩
    simp only [etaBins, bind, hi, h1', Except.bind, h2', pure, Except.pure]

/-- **C99 (violated: given bins).**  With bins given by the caller, a mask and limits on radius, energy and population change nothing: whatever the
profile is for one mask and one set of these limits, it is the same for every other. -/
theorem C99_given_bins_violated {g : Galpy} {c : Cluster} (p : Pos g c) (l : Lin c) (hg : Good c) (f : Fresh c) {a : EtaProfArgs}
    {q : Option CurveFit} {e : PStars} {indx indx' : Option ℕ} {mem mem' : Mem} {b : List ℝ × List ℝ × List ℝ} (hb : a.prof.bins = some b)
    {r0 r1 e0 e1 : Option ℝ} {np : Option ℤ} (hm : ∀ q, indx = some q → mem[q]!.length = c.st.length)
    (hm' : ∀ q, indx' = some q → mem'[q]!.length = c.st.length) (he : e.npop.length = c.st.length ∧ (e.kw = [] ∨ e.kw.length = c.st.length) ∧
      e.etot.length = c.st.length)
    {o : SlopeOut} {after : After} (h : etaProf g a q e indx mem c = .ok (o, after)) :
    ∃ after', etaProf g { a with prof := { a.prof with sub := { a.prof.sub with rmin := r0, rmax := r1, emin := e0, emax := e1, npop := np } } }
      q e indx' mem' c = .ok (o, after') := by
  obtain ⟨c1, h1, s1⟩ := profStart_spec (g := g) a.prof.normalize a.prof.normalize p l hg f
  obtain ⟨k, n, h2, hS⟩ := chosen_mask (e := e) (q := a.prof.sub) (indx := indx) (mem := mem) s1 hg ⟨he.1, he.2.1, .inr he.2.2⟩ hm
  obtain ⟨k', n', h2', hS'⟩ := chosen_mask (e := e) (q := { a.prof.sub with rmin := r0, rmax := r1, emin := e0, emax := e1, npop := np })
    (indx := indx') (mem := mem') s1 hg ⟨he.1, he.2.1, .inr he.2.2⟩ hm'
  obtain ⟨x, hx⟩ : ∃ x, x = ({ a with prof := { a.prof with sub := { a.prof.sub with rmin := r0, rmax := r1, emin := e0, emax := e1, npop := np } } } : EtaProfArgs) := ⟨_, rfl⟩
  have xs : x.prof.sub = { a.prof.sub with rmin := r0, rmax := r1, emin := e0, emax := e1, npop := np } := by rw [hx]
  have xp : x.prof.sub.projected = a.prof.sub.projected := by rw [hx]
  have xn : x.prof.normalize = a.prof.normalize := by rw [hx]
  have xb : x.prof.bins = some b := by rw [hx]; exact hb
  have xi : ∀ u v, x.inner u v = a.inner u v := by intro u v; rw [hx]; rfl
  rw [← hx]
  rw [← xs] at h2'
  have hv : ∀ mid, velRadii x.prof c1 mid = velRadii a.prof c1 mid := by
    intro mid; unfold velRadii; rw [xn, xp]
  obtain ⟨B, hB⟩ : ∃ B : Binned, B = { mask := n[k]!, lower := b.1, mid := b.2.1, upper := b.2.2, idx := binIndex c1.d.r b.1 b.2.2 } := ⟨_, rfl⟩
  obtain ⟨B', hB'⟩ : ∃ B : Binned, B = { mask := n'[k']!, lower := b.1, mid := b.2.1, upper := b.2.2, idx := binIndex c1.d.r b.1 b.2.2 } := ⟨_, rfl⟩
  have h3 : profBinned a.prof c1.d.r (some k, n) = .ok B := by
    rw [hB]; simp only [profBinned, profBins, hb, bind, Except.bind, pure, Except.pure]
  have h3' : profBinned x.prof c1.d.r (some k', n') = .ok B' := by
    rw [hB']; simp only [profBinned, profBins, xb, bind, Except.bind, pure, Except.pure]
  have e1 : B'.mid = B.mid := by rw [hB, hB']
  have e2 : List.zip B'.lower B'.upper = List.zip B.lower B.upper := by rw [hB, hB']
  unfold etaProf at h ⊢
  rw [xn]
  simp only [bind, h1, Except.bind, h2, h3, h2', h3', e1, e2, hv, xp] at h ⊢
  obtain ⟨rn, h4, h⟩ := bind_ok h
  obtain ⟨t, h5, h⟩ := bind_ok h
  have hl1 : c1.st.length = c.st.length := by rw [s1.st, centred_length]
  obtain ⟨m, h5'⟩ := etaBins_mem (p.of_rest s1.rest) s1.lin xi (fun u v => ⟨by rw [hl1]; exact he.1, by rw [hl1]; exact he.2.1, .inl ⟨rfl, rfl⟩⟩) _
    ⟨rfl, s1.fresh, s1.good, rfl⟩ h5 n'
  simp only [h4, h5']
  by_cases hlen : 3 < B.mid.length
  · rw [if_pos hlen] at h ⊢
    obtain ⟨fit, hf, h⟩ := bind_ok h
    obtain ⟨c2, h6, h⟩ := bind_ok h
    simp only [hf, h6]
    by_cases hn : a.prof.normalize = true
    · rw [if_pos hn] at h ⊢
      simp only [pure, Except.pure, Except.ok.injEq, Prod.mk.injEq] at h ⊢
      exact ⟨_, h.1, rfl⟩
    · rw [if_neg hn] at h ⊢
      obtain ⟨rn', h7, h⟩ := bind_ok h
      simp only [h7, pure, Except.pure, Except.ok.injEq, Prod.mk.injEq] at h ⊢
      exact ⟨_, h.1, rfl⟩
  · rw [if_neg hlen] at h ⊢
    obtain ⟨c2, h6, h⟩ := bind_ok h
    simp only [h6]
    by_cases hn : a.prof.normalize = true
    · rw [if_pos hn] at h ⊢
      simp only [pure, Except.pure, Except.ok.injEq, Prod.mk.injEq] at h ⊢
      exact ⟨_, h.1, rfl⟩
    · rw [if_neg hn] at h ⊢
      obtain ⟨rn', h7, h⟩ := bind_ok h
      simp only [h7, pure, Except.pure, Except.ok.injEq, Prod.mk.injEq] at h ⊢
      exact ⟨_, h.1, rfl⟩

end

end CT
