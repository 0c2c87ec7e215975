/- Radii read off a density profile: the profile, and the two ways of reading it. -/
import Verif.Spec.DensityRadius
import Verif.Props.Profiles
import Verif.Props.Relax

namespace CT

noncomputable section

set_option linter.unusedSimpArgs false

/-! ### bins -/

/-- Each bin begins where the previous one ends. -/
theorem Contig.next {lo hi : ℝ} {P : List (ℝ × ℝ)} (h : Contig lo hi P) : ∀ {k : ℕ}, k + 1 < P.length → P[k]!.2 = P[k + 1]!.1 := by
  induction h with
  | one h => intro k hk; simp at hk
  | @cons a b c P h hP ih =>
    intro k hk
    have hk' : k < P.length := by simpa using hk
    cases k with
    | zero =>
      have e0 : P[0]? = some (P[0].1, P[0].2) := by rw [List.getElem?_eq_getElem hk']
      have := (hP.ends e0).2.2.2.2.2 rfl
      show b = ((a, b) :: P)[0 + 1]!.1
      rw [getElem!_pos _ (0 + 1) (by simpa using hk')]
      simpa using this.symm
    | succ k =>
      have := ih (k := k) (by simpa using hk)
      rw [getElem!_pos P k (by omega), getElem!_pos P (k + 1) hk'] at this
      rw [getElem!_pos _ (k + 1) (by simp; omega), getElem!_pos _ (k + 1 + 1) (by simpa using hk)]
      simpa using this

theorem Contig.scale {lo hi L : ℝ} {P : List (ℝ × ℝ)} (h : Contig lo hi P) (hL : 0 < L) :
    Contig (lo * L) (hi * L) (P.map (fun q => (q.1 * L, q.2 * L))) := by
  induction h with
  | one h => exact .one (mul_lt_mul_of_pos_right h hL)
  | cons h _ ih => exact .cons (mul_lt_mul_of_pos_right h hL) ih

theorem InBin.scale {L : ℝ} {P : List (ℝ × ℝ)} {k : ℕ} {v : ℝ} (hL : 0 < L) :
    InBin (P.map (fun q => (q.1 * L, q.2 * L))) k (v * L) ↔ InBin P k v := by
  unfold InBin
  simp only [List.getElem?_map, List.length_map]
  constructor
  · rintro ⟨lo, hi, h1, h2, h3⟩
    cases hq : P[k]? with
    | none => rw [hq] at h1; cases h1
    | some q =>
      rw [hq] at h1
      simp only [Option.map_some, Option.some.injEq, Prod.mk.injEq] at h1
      obtain ⟨rfl, rfl⟩ := h1
      refine ⟨q.1, q.2, rfl, le_of_mul_le_mul_right h2 hL, h3.imp (fun h => lt_of_mul_lt_mul_right h hL.le) ?_⟩
      exact fun h => ⟨h.1, mul_right_cancel₀ hL.ne' h.2⟩
  · rintro ⟨lo, hi, h1, h2, h3⟩
    refine ⟨lo * L, hi * L, by rw [h1]; rfl, mul_le_mul_of_nonneg_right h2 hL.le, h3.imp (fun h => mul_lt_mul_of_pos_right h hL) ?_⟩
    exact fun h => ⟨h.1, by rw [h.2]⟩

theorem map_scale_get {α : Type} [Inhabited α] (l : List α) (q : α → α) {k : ℕ} (hk : k < l.length) : (l.map q)[k]! = q l[k]! := by
  rw [getElem!_pos _ k (by simpa using hk), getElem!_pos l k hk, List.getElem_map]

/-- The radii of a profile increase. -/
theorem ShellProfile.increasing {w : World} {pr : Bool} {fr : Origin} {e : PStars} {nrad : ℕ} {P : List (ℝ × ℝ)} {rs ds : List ℝ}
    (h : ShellProfile w pr fr e nrad P rs ds) {i j : ℕ} (hij : i < j) (hj : j < P.length) : rs[i]! < rs[j]! := by
  classical
  obtain ⟨lo, hi, q1, q2, -⟩ := h.contig
  -- every mean lies in its bin
  have low : ∀ k < P.length, P[k]!.1 ≤ rs[k]! := by
    intro k hk
    obtain ⟨m1, m2⟩ := h.mid k hk
    have hp : (0 : ℝ) < numOver w.stars.length (InShell w pr fr e P k) := by exact_mod_cast m1
    refine le_of_mul_le_mul_right ?_ hp
    rw [m2, numOver_eq, sumOver_ite, sumOver_ite, Finset.mul_sum]
    refine Finset.sum_le_sum fun i _ => ?_
    split
    · rename_i hi
      obtain ⟨-, lo, hi, e1, e2, -⟩ := hi
      rw [getElem!_pos P k hk]
      rw [List.getElem?_eq_getElem hk, Option.some.injEq] at e1
      rw [e1, mul_one]; exact e2
    · rw [mul_zero]
  have upp : ∀ k, k + 1 < P.length → rs[k]! < P[k]!.2 := by
    intro k hk1
    have hk : k < P.length := by omega
    obtain ⟨m1, m2⟩ := h.mid k hk
    have hp : (0 : ℝ) < numOver w.stars.length (InShell w pr fr e P k) := by exact_mod_cast m1
    refine lt_of_mul_lt_mul_right ?_ hp.le
    have key : ∀ i, InShell w pr fr e P k i → w.rad pr fr i < P[k]!.2 := by
      rintro i ⟨-, lo, hi, e1, -, e2⟩
      rw [getElem!_pos P k hk]
      rw [List.getElem?_eq_getElem hk, Option.some.injEq] at e1
      rw [e1]
      rcases e2 with e2 | e2
      · exact e2
      · omega
    have hne : ∃ i, i < w.stars.length ∧ InShell w pr fr e P k i := by
      unfold numOver at m1
      obtain ⟨i, hi⟩ := Finset.card_pos.mp m1
      simp only [Finset.mem_filter, Finset.mem_range] at hi
      exact ⟨i, hi.1, hi.2⟩
    obtain ⟨i, i1, i2⟩ := hne
    rw [m2, numOver_eq, sumOver_ite, sumOver_ite, Finset.mul_sum]
    refine Finset.sum_lt_sum (fun j _ => ?_) ⟨i, Finset.mem_range.mpr i1, ?_⟩
    · split
      · rename_i hj; rw [mul_one]; exact (key j hj).le
      · rw [mul_zero]
    · rw [if_pos i2, if_pos i2, mul_one]; exact key i i2
  have step : ∀ k, k + 1 < P.length → rs[k]! < rs[k + 1]! := fun k hk =>
    (upp k hk).trans_le ((q1.next hk).trans_le (low (k + 1) hk))
  induction j with
  | zero => omega
  | succ j ih =>
    by_cases h1 : i = j
    · rw [h1]; exact step j hj
    · exact (ih (by omega) (by omega)).trans (step j hj)

/-- A density profile is determined by the stars. -/
theorem ShellProfile.unique {w : World} {pr : Bool} {fr : Origin} {e : PStars} {nrad : ℕ} {P P' : List (ℝ × ℝ)} {rs ds rs' ds' : List ℝ}
    (h : ShellProfile w pr fr e nrad P rs ds) (h' : ShellProfile w pr fr e nrad P' rs' ds') : P = P' ∧ rs = rs' ∧ ds = ds' := by
  obtain ⟨X, z1, z2, rfl⟩ := h.ranks
  obtain ⟨X', z1', z2', rfl⟩ := h'.ranks
  obtain rfl : X = X' := (z2.trans z2'.symm).eq_of_pairwise (fun a b _ _ h1 h2 => le_antisymm h1 h2) z1 z1'
  refine ⟨rfl, List.ext_getElem (by rw [h.lenr, h'.lenr]) fun k k1 k2 => ?_, List.ext_getElem (by rw [h.lend, h'.lend]) fun k k1 k2 => ?_⟩
  · rw [h.lenr] at k1
    obtain ⟨m1, m2⟩ := h.mid k k1
    obtain ⟨-, m3⟩ := h'.mid k k1
    rw [← m3] at m2
    have := mul_right_cancel₀ (by exact_mod_cast m1.ne') m2
    rwa [getElem!_pos rs k (by rw [h.lenr]; exact k1), getElem!_pos rs' k k2] at this
  · rw [h.lend] at k1
    obtain ⟨m1, m2⟩ := h.dens k k1
    obtain ⟨-, m3⟩ := h'.dens k k1
    rw [← m3] at m2
    have := mul_right_cancel₀ m1.ne' m2
    rwa [getElem!_pos ds k (by rw [h.lend]; exact k1), getElem!_pos ds' k k2] at this

/-! ### the profile -/

theorem chosen_typed (pr : Bool) (e : PStars) (c : Cluster) (i : ℕ) : Chosen { projected := pr } e none [] c i ↔ Typed e i := by
  constructor
  · exact fun h => h.2.kw
  · intro h
    exact ⟨fun q hq => (by cases hq), by simp [Within], by simp [Within], by simp [Within], by simp [Within], by simp, h⟩

theorem rad_eq {g : Galpy} {c : Cluster} {w : World} {u : Units} {s : Scale} {fr : Origin} (pr : Bool) (p : Pos g c)
    (hw : world g c = some w) (hu : c.units = some u) (hs : unitScale g c u = some s) (ho : c.origin = some fr)
    (hfr : fr = .cluster ∨ fr = .centre) {i : ℕ} (hi : i < c.st.length) :
    w.rad pr fr i = radiusOf { projected := pr } c i * s.len := by
  have hL := (unitScale_pos p hs).1
  have hfl : fr.linear := by rcases hfr with rfl | rfl <;> trivial
  have hc : centred c = c.st := by
    unfold centred; rw [if_neg]; rw [ho]; rcases hfr with rfl | rfl <;> simp
  unfold World.rad radiusOf
  rw [hc]
  cases pr
  · simp only [Bool.false_eq_true, if_false]
    rw [World.radius_eq hw hu ho hfl hs hL i hi, List.getD_eq_getElem?_getD, List.getElem?_eq_getElem (by simpa using hi),
      Option.getD_some, List.getElem_map, getElem!_pos c.st i hi]; rfl
  · simp only [if_true]
    rw [World.radiusPro_eq hw hu ho hfl hs hL i hi, List.getElem_map, getElem!_pos c.st i hi]; rfl

theorem shellSize_scale (pr : Bool) (a b L : ℝ) : shellSize pr (a * L) (b * L) = shellSize pr a b * L ^ (if pr then 2 else 3) := by
  cases pr <;> simp [shellSize] <;> ring

theorem rankBins_scale {L : ℝ} (hL : 0 < L) (X : List ℝ) (k : ℕ) :
    rankBins (X.map (· * L)) k = (rankBins X k).map (fun q => (q.1 * L, q.2 * L)) := by
  classical
  unfold rankBins
  have hz : ∀ j : ℕ, (X.map (· * L))[j]! = X[j]! * L := by
    intro j
    by_cases hj : j < X.length
    · rw [getElem!_pos _ j (by simpa using hj), getElem!_pos X j hj, List.getElem_map]
    · rw [getElem!_neg _ j (by simpa using hj), getElem!_neg X j hj]
      show (0 : ℝ) = 0 * L
      rw [zero_mul]
  simp only [List.length_map, hz, List.filter_map, List.map_map]
  have : ∀ (q : ℕ → ℝ × ℝ), (List.range k).filter ((fun p : ℝ × ℝ => decide (p.1 ≠ p.2)) ∘ (fun i => ((q i).1 * L, (q i).2 * L))) =
      (List.range k).filter ((fun p : ℝ × ℝ => decide (p.1 ≠ p.2)) ∘ q) := by
    intro q
    refine List.filter_congr fun i _ => ?_
    simp only [Function.comp, decide_eq_decide]
    exact not_congr ⟨fun h => mul_right_cancel₀ hL.ne' h, fun h => by rw [h]⟩
  have e1 : (fun i => (X[i * X.length / k]! * L, if i + 1 < k then X[(i + 1) * X.length / k]! * L else X[X.length - 1]! * L)) =
      (fun i => (((fun i => (X[i * X.length / k]!, if i + 1 < k then X[(i + 1) * X.length / k]! else X[X.length - 1]!)) i : ℝ × ℝ).1 * L,
        ((fun i => (X[i * X.length / k]!, if i + 1 < k then X[(i + 1) * X.length / k]! else X[X.length - 1]!)) i : ℝ × ℝ).2 * L)) := by
    funext i
    dsimp only
    split <;> rfl
  rw [e1, this]
  rfl

theorem EqualNumberBins.scale {n : ℕ} {S T : ℕ → Prop} {f h : ℕ → ℝ} {k : ℕ} {P : List (ℝ × ℝ)} {L : ℝ} (hL : 0 < L)
    (hb : EqualNumberBins n S f k P) (hS : ∀ i < n, S i ↔ T i) (hf : ∀ i < n, h i = f i * L) :
    EqualNumberBins n T h k (P.map (fun q => (q.1 * L, q.2 * L))) := by
  classical
  obtain ⟨X, z1, z2, rfl⟩ := hb
  refine ⟨X.map (· * L), ?_, ?_, (rankBins_scale hL X k).symm⟩
  · rw [List.pairwise_map]
    exact z1.imp fun h => mul_le_mul_of_nonneg_right h hL.le
  · have : valuesOf n T h = (valuesOf n S f).map (· * L) := by
      unfold valuesOf
      rw [List.map_map, List.filter_congr (q := fun i => decide (T i)) (p := fun i => decide (S i))
        (fun i hi => by simp only [decide_eq_decide]; exact hS i (List.mem_range.mp hi))]
      refine List.map_congr_left fun i hi => ?_
      exact hf i (List.mem_range.mp (List.mem_of_mem_filter hi))
    rw [this]
    exact z2.map _

/-- The profile of a cluster given from its position or centre, in pc and solar masses. -/
theorem raw_profile {g : Galpy} {c : Cluster} {w : World} {u : Units} {s : Scale} {fr : Origin} {pr : Bool} {e : PStars} {nrad : ℕ}
    (p : Pos g c) (l : Lin c) (hg : Good c) (f : Fresh c)
    (hw : world g c = some w) (hu : c.units = some u) (hs : unitScale g c u = some s) (ho : c.origin = some fr)
    (hfr : fr = .cluster ∨ fr = .centre) (he : StarLists e c.st.length) (hn : 0 < nrad) (ht : TwoRadii w pr fr e) :
    ∃ rs ds ns af P, rhoProfRaw g { sub := { projected := pr }, nrad := nrad } e none [] c = .ok ((rs, ds, ns), af) ∧
      af.cluster.data = c.data ∧ Fresh af.cluster ∧ Good af.cluster ∧ af.cluster.rest = c.rest ∧
      ShellProfile w pr fr e nrad P (rs.map (· * s.len)) (ds.map (· * (s.mass / s.len ^ (if pr then 2 else 3)))) := by
  obtain ⟨hL, -, hM, -⟩ := unitScale_pos p hs
  have hwl := world_length hw
  have hrad : ∀ i < c.st.length, w.rad pr fr i = radiusOf { projected := pr } c i * s.len := fun i hi => rad_eq pr p hw hu hs ho hfr hi
  have hmass : ∀ j < c.st.length, w.mass[j]! = c.m[j]! * s.mass := by
    intro j hj
    have hj' : j < c.m.length := by rw [hg.len]; exact hj
    rw [world_mass hw hu hs, getElem!_pos _ j (by simpa using hj'), getElem!_pos c.m j hj', List.getElem_map]
  obtain ⟨i0, j0, t1, t2, t3, t4, t5⟩ := ht
  rw [hwl] at t1 t2
  have hc : BinsCover { sub := { projected := pr }, nrad := nrad } c.st.length (Chosen { projected := pr } e none [] c)
      (radiusOf { projected := pr } c) := by
    refine .inl ⟨rfl, hn, i0, j0, t1, t2, (chosen_typed pr e c i0).mpr t3, (chosen_typed pr e c j0).mpr t4, fun h => t5 ?_⟩
    rw [hrad i0 t1, hrad j0 t2, h]
  obtain ⟨c1, k, mem', B, P, c2, h1, s1, h2, h3, hB, h4, d2, f2, g2, r2⟩ :=
    prof_parts (a := { sub := { projected := pr }, nrad := nrad }) false false p l hg f
      (e := e) (indx := none) (mem := []) ⟨he.npop, he.kw, .inl ⟨rfl, rfl⟩⟩ (fun q hq => by cases hq) hc
  have hml : c1.m.length = c.st.length := by rw [s1.m]; exact hg.len
  obtain ⟨lo, hi, q1, q2, q3⟩ := hB.contig
  have hlow : ∀ k < P.length, 0 ≤ P[k]!.1 ∧ P[k]!.1 < P[k]!.2 := by
    intro k hk
    have e0 : P[k]? = some (P[k].1, P[k].2) := by rw [List.getElem?_eq_getElem hk]
    obtain ⟨a1, a2, a3, a4, a5⟩ := q1.ends e0
    rw [getElem!_pos P k hk]
    refine ⟨?_, a2⟩
    obtain ⟨⟨i, -, -, y⟩, -⟩ := q3 rfl
    have : 0 ≤ lo := by rw [← y]; exact dist0_nonneg _ _
    exact this.trans a1
  have edge : ∀ k < P.length, B.lower[k]! = P[k]!.1 ∧ B.upper[k]! = P[k]!.2 := by
    intro k hk
    rw [getElem!_pos P k hk, getElem!_pos B.lower k (by rw [hB.lenl]; exact hk), getElem!_pos B.upper k (by rw [hB.lenu]; exact hk)]
    have hz := hB.zip
    simp only [hz, List.getElem_zip, and_self]
  have eq_in : ∀ k i, i < c.st.length → (InShell w pr fr e (P.map (fun q => (q.1 * s.len, q.2 * s.len))) k i ↔
      Chosen { projected := pr } e none [] c i ∧ InBin P k (radiusOf { projected := pr } c i)) := by
    intro k i hi
    unfold InShell
    rw [hrad i hi, InBin.scale hL, chosen_typed]
  refine ⟨B.mid, (List.range B.mid.length).map (fun i =>
    ((maskSel (B.at i) c1.m).map (· / shell pr B.lower[i]! B.upper[i]!)).sum),
    (List.range B.mid.length).map (fun i => (B.at i).count true), ⟨c2, mem', none⟩,
    P.map (fun q => (q.1 * s.len, q.2 * s.len)), ?_, d2, f2, g2, r2, ?_⟩
  · simp only [rhoProfRaw, bind, Except.bind, pure, Except.pure, h1, h2, h3, h4, Bool.false_eq_true, if_false, Option.map_none]
  · refine ⟨⟨lo * s.len, hi * s.len, q1.scale hL, ?_, ?_, ?_⟩,
      by rw [hwl]; exact (hB.ranks rfl rfl).scale hL (fun i _ => chosen_typed pr e c i) hrad, by simpa using hB.nbin rfl, by simp [hB.lenm], by simp [hB.lenm], ?_, ?_⟩
    · intro i hi ht
      rw [hwl] at hi
      rw [hrad i hi]
      obtain ⟨b1, b2⟩ := q2 i hi ((chosen_typed pr e c i).mpr ht)
      exact ⟨mul_le_mul_of_nonneg_right b1 hL.le, mul_le_mul_of_nonneg_right b2 hL.le⟩
    · obtain ⟨⟨i, y1, y2, y3⟩, -⟩ := q3 rfl
      exact ⟨i, by rw [hwl]; exact y1, (chosen_typed pr e c i).mp y2, by rw [hrad i y1]; exact congrArg (· * s.len) y3⟩
    · obtain ⟨-, ⟨i, y1, y2, y3⟩⟩ := q3 rfl
      exact ⟨i, by rw [hwl]; exact y1, (chosen_typed pr e c i).mp y2, by rw [hrad i y1]; exact congrArg (· * s.len) y3⟩
    · intro k hk
      rw [List.length_map] at hk
      rw [hwl]
      obtain ⟨b1, b2⟩ := hB.midNum rfl rfl k hk
      have en : numOver c.st.length (InShell w pr fr e (P.map (fun q => (q.1 * s.len, q.2 * s.len))) k) =
          numOver c.st.length (fun i => Chosen { projected := pr } e none [] c i ∧ InBin P k (radiusOf { projected := pr } c i)) := by
        have := sumOver_congr (n := c.st.length) (f := fun _ => 1) (g := fun _ => 1) (eq_in k) (fun _ _ _ => rfl)
        rw [← numOver_eq, ← numOver_eq] at this
        exact_mod_cast this
      have es : sumOver c.st.length (InShell w pr fr e (P.map (fun q => (q.1 * s.len, q.2 * s.len))) k) (w.rad pr fr) =
          sumOver c.st.length (fun i => Chosen { projected := pr } e none [] c i ∧ InBin P k (radiusOf { projected := pr } c i))
            (radiusOf { projected := pr } c) * s.len := by
        classical
        rw [sumOver_congr (eq_in k) (g := fun i => radiusOf { projected := pr } c i * s.len) (fun i hi _ => hrad i hi)]
        unfold sumOver; rw [Finset.sum_mul]
      refine ⟨by rw [en]; exact b1, ?_⟩
      rw [en, es, map_scale_get _ _ (by rw [hB.lenm]; exact hk), mul_right_comm]
      exact congrArg (· * s.len) b2
    · intro k hk
      rw [List.length_map] at hk
      rw [hwl]
      have sp := shellSize_pos (projected := pr) (hlow k hk).1 (hlow k hk).2
      rw [map_scale_get P _ hk]
      dsimp only
      rw [shellSize_scale]
      refine ⟨by positivity, ?_⟩
      have es : sumOver c.st.length (InShell w pr fr e (P.map (fun q => (q.1 * s.len, q.2 * s.len))) k) (fun i => w.mass[i]!) =
          sumOver c.st.length (fun i => Chosen { projected := pr } e none [] c i ∧ InBin P k (radiusOf { projected := pr } c i))
            (fun i => c.m[i]!) * s.mass := by
        classical
        rw [sumOver_congr (eq_in k) (g := fun i => c.m[i]! * s.mass) (fun i hi _ => hmass i hi)]
        unfold sumOver; rw [Finset.sum_mul]
      have em : (maskSel (B.at k) c1.m).sum = sumOver c.st.length (fun i => Chosen { projected := pr } e none [] c i ∧
          InBin P k (radiusOf { projected := pr } c i)) (fun i => c.m[i]!) := by
        rw [(hB.atBin k hk).sum' hml, s1.m]
      rw [es, ← em, map_scale_get _ _ (by simp [hB.lenm, hk]), map_get! _ _ (by rw [hB.lenm]; exact hk), (edge k hk).1, (edge k hk).2,
        shell_eq, sum_map_div]
      field_simp

end

end CT
