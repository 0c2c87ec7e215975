/- Property theorem C55 (circular velocity profile). -/
import Verif.Lemmas.Vcirc
import Verif.Props.Profiles3
import Verif.Props.Grav

namespace CT

noncomputable section

set_option linter.unusedSimpArgs false

theorem getGrav_nonneg (u : Option Units) : 0 ≤ getGrav u := by
  unfold getGrav; split <;> norm_num

theorem circVel_sqrt {G M ρ : ℝ} (hG : 0 ≤ G) (hM : 0 ≤ M) (hρ : 0 < ρ) : IsCircVel G M ρ (Real.sqrt (G * M / ρ)) := by
  refine ⟨Real.sqrt_nonneg _, ?_⟩
  rw [Real.sq_sqrt (by positivity)]
  field_simp

theorem circVel_unique {G M ρ v w : ℝ} (hρ : 0 < ρ) (h1 : IsCircVel G M ρ v) (h2 : IsCircVel G M ρ w) : v = w := by
  have : v ^ 2 = w ^ 2 := by
    have := h1.2.trans h2.2.symm
    exact mul_right_cancel₀ hρ.ne' this
  exact (sq_eq_sq₀ h1.1 h2.1).mp this

theorem sumOver_nonneg {n : ℕ} {S : ℕ → Prop} {f : ℕ → ℝ} (h : ∀ i < n, 0 ≤ f i) : 0 ≤ sumOver n S f := by
  classical
  exact Finset.sum_nonneg fun i hi => h i (Finset.mem_range.mp (Finset.mem_filter.mp hi).1)

/-- The radii after the first lines. -/
theorem Started.radius {g : Galpy} {c c1 : Cluster} (s : Started g c c1) (q : SubArgs) :
    (if q.projected then c1.d.rpro else c1.d.r).length = c.st.length ∧
    ∀ i < c.st.length, (if q.projected then c1.d.rpro else c1.d.r)[i]! = radiusOf q c i := by
  constructor
  · split
    · rw [s.fresh.rpro.length, s.st, centred_length]
    · rw [s.fresh.r.length, s.st, centred_length]
  · intro i hi
    have hi' : i < (centred c).length := by rw [centred_length]; exact hi
    unfold radiusOf
    rw [getElem!_pos (centred c) i hi']
    cases q.projected
    · rw [if_neg (by simp), s.fresh.r.eq_map, s.st, getElem!_pos _ i (by simpa using hi'), List.getElem_map]; rfl
    · rw [if_pos rfl, s.fresh.rpro.eq_map, s.st, getElem!_pos _ i (by simpa using hi'), List.getElem_map]; rfl

/-- A selection in star order fits the sorted arrays if it is everything, or if the stars are already in order. -/
theorem aligned {n : ℕ} {r : ℕ → ℝ} {rs : List ℝ} {o : List ℕ} {S : ℕ → Prop} (hl : rs.length = n) (hr : ∀ i < n, rs[i]! = r i)
    (ho : SortedBy rs o) (h : (∀ i < n, S i) ∨ ∀ i j, i < j → j < n → r i < r j) : ∀ k < n, S k ↔ S o[k]! := by
  obtain ⟨hp, hso⟩ := ho
  rw [hl] at hp
  have hol : o.length = n := by rw [hp.length_eq, List.length_range]
  have hom : ∀ i, i ∈ o ↔ i < n := fun i => by rw [hp.mem_iff, List.mem_range]
  intro k hk
  have hok : o[k]! < n := (hom _).mp (by rw [getElem!_pos o k (by omega)]; exact List.getElem_mem _)
  rcases h with h | h
  · exact ⟨fun _ => h _ hok, fun _ => h _ hk⟩
  · have hlt : o.Pairwise (· ≤ ·) := by
      refine List.Pairwise.imp_of_mem ?_ hso
      intro i j hi hj hle
      have e : ∀ i ∈ o, rs.getD i 0 = r i := by
        intro i hi
        have : i < rs.length := by rw [hl]; exact (hom i).mp hi
        rw [← hr i ((hom i).mp hi), getElem!_pos rs i this, List.getD_eq_getElem?_getD, List.getElem?_eq_getElem this]; rfl
      rw [e i hi, e j hj] at hle
      by_contra hc
      exact absurd hle (not_le.mpr (h j i (by omega) ((hom i).mp hi)))
    have : o = List.range n := by
      refine hp.eq_of_pairwise (le := (· ≤ ·)) (fun a b _ _ h1 h2 => le_antisymm h1 h2) hlt ?_
      exact List.pairwise_le_range
    rw [this, getElem!_pos _ k (by simpa using hk), List.getElem_range]

/-- The run of `vcirc_prof` once the stars are at the centre and sorted. -/
theorem vcirc_run {g : Galpy} {c c1 : Cluster} (p : Pos g c) (l : Lin c) (hg : Good c) (s1' : Fresh c) (s1 : Started g c c1)
    (hmass : ∀ x ∈ c.m, 0 ≤ x) {a : ProfArgs} {all : Bool} {e : PStars} {indx : Option ℕ} {mem : Mem}
    (he : e.Ok a.sub c.st.length) (hm : ∀ q, indx = some q → mem[q]!.length = c.st.length)
    (h1 : profStart g a.normalize true c = .ok c1) {o : List ℕ}
    (ho : (if a.sub.projected then c1.rproorder else c1.rorder) = some o)
    (hso : SortedBy (if a.sub.projected then c1.d.rpro else c1.d.r) o)
    (hal : (∀ i < c.st.length, Chosen a.sub e indx mem c i) ∨
      ∀ i j, i < j → j < c.st.length → radiusOf a.sub c i < radiusOf a.sub c j)
    (hne : ∃ i < c.st.length, Chosen a.sub e indx mem c i)
    (hpos : ∀ i < c.st.length, Chosen a.sub e indx mem c i → 0 < radiusOf a.sub c i)
    (hd : ∀ i < c.st.length, ∀ j < c.st.length, Chosen a.sub e indx mem c i → Chosen a.sub e indx mem c j →
      radiusOf a.sub c i = radiusOf a.sub c j → i = j)
    {s : ℝ} (hs1 : a.normalize = false → s = 1)
    (hs2 : a.normalize = true → (if a.sub.projected then c1.d.rmpro else c1.d.rm) = some s)
    (hb : (a.bins = none ∧ all = true) ∨ (∃ b, a.bins = some b) ∨
      (a.sub.projected = false ∧ BinsCover a c.st.length (Chosen a.sub e indx mem c) (radiusOf a.sub c))) :
    ∃ mid stars rs vs rvmax vmax after,
      vcircProf g a all e indx mem c = .ok ((rs, vs, rvmax, vmax), after) ∧ after.cluster.data = c.data ∧
      VcircOk (getGrav c.units) a.sub e indx mem c mid s stars rs vs rvmax vmax ∧
      ((a.bins = none ∧ all = true ∧ mid = none) ∨ (∃ b, a.bins = some b ∧ mid = some b.2.1) ∨
        (a.bins = none ∧ all = false ∧ ∃ P x, mid = some x ∧ BinRadii a e indx mem c P x)) := by
  classical
  obtain ⟨hrl, hrad⟩ := s1.radius a.sub
  obtain ⟨k, mem', h2, hS⟩ := chosen_mask (e := e) (q := a.sub) s1 hg he hm
  have hml : c1.m.length = c.st.length := by rw [s1.m]; exact hg.len
  have hal' := aligned hrl hrad hso hal
  obtain ⟨q, q1, q2, q3, q4, q5⟩ := vcirc_core (S := Chosen a.sub e indx mem c) (w := mem'[k]!) hso hrl hml hS.len
    (fun i hi => (hS.val i hi).trans (hal' i hi))
    (fun i hi j hj si sj hij => hd i hi j hj si sj (by rw [← hrad i hi, ← hrad j hj]; exact hij))
  have hqr : q.map (fun i => (if a.sub.projected then c1.d.rpro else c1.d.r)[i]!) = q.map (radiusOf a.sub c) :=
    List.map_congr_left fun i hi => hrad i ((q3 i).mp hi).1
  rw [hqr] at q1
  -- the velocities
  have hG : getGrav c1.units = getGrav c.units := by
    rw [s1.units]; split
    · rename_i hu; rw [hu]; rfl
    · rfl
  have hmw : ∀ j < q.length, (cumsum (q.map (fun i => c1.m[i]!)))[j]! = massWithin a.sub e indx mem c (radiusOf a.sub c q[j]!) := by
    intro j hj
    have hqj := (q3 q[j]!).mp (by rw [getElem!_pos q j hj]; exact List.getElem_mem _)
    rw [q5 j hj, hrad _ hqj.1]
    unfold massWithin
    rw [s1.m]
    refine sumOver_congr (fun i hi => ?_) (fun _ _ _ => rfl)
    rw [hrad i hi]
  set vc := List.zipWith (fun M ρ => Real.sqrt (getGrav c1.units * M / ρ)) (cumsum (q.map (fun i => c1.m[i]!)))
    (q.map (radiusOf a.sub c)) with hvc
  have hvl : vc.length = q.length := by rw [hvc, List.length_zipWith, cumsum_length]; simp
  have hmass' : ∀ i < c.st.length, 0 ≤ c.m[i]! := by
    intro i hi
    have : i < c.m.length := by rw [hg.len]; exact hi
    rw [getElem!_pos c.m i this]
    exact hmass _ (List.getElem_mem _)
  have hvel : ∀ j < q.length, IsCircVel (getGrav c.units) (massWithin a.sub e indx mem c (radiusOf a.sub c q[j]!))
      (radiusOf a.sub c q[j]!) vc[j]! := by
    intro j hj
    have hqj := (q3 q[j]!).mp (by rw [getElem!_pos q j hj]; exact List.getElem_mem _)
    have e1 : vc[j]! = Real.sqrt (getGrav c.units * massWithin a.sub e indx mem c (radiusOf a.sub c q[j]!) / radiusOf a.sub c q[j]!) := by
      rw [← hmw j hj, getElem!_pos vc j (by omega)]
      have hc : j < (cumsum (q.map (fun i => c1.m[i]!))).length := by rw [cumsum_length]; simpa using hj
      rw [getElem!_pos _ j hc, getElem!_pos q j hj]
      simp only [hvc, List.getElem_zipWith, List.getElem_map, hG]
    rw [e1]
    exact circVel_sqrt (getGrav_nonneg _) (sumOver_nonneg hmass') (hpos _ hqj.1 hqj.2)
  have hqne : q ≠ [] := by
    obtain ⟨i, hi, si⟩ := hne
    exact List.ne_nil_of_mem ((q3 i).mpr ⟨hi, si⟩)
  have hvne : vc ≠ [] := by
    intro h; rw [h] at hvl; exact hqne (List.length_eq_zero_iff.mp hvl.symm)
  obtain ⟨j, hj1, hj2, hj3⟩ := argmaxE_spec hvne
  -- the entries
  have hnear : ∀ mid : List ℝ, ∃ args, mid.mapM (fun ρ => argminE ((q.map (radiusOf a.sub c)).map (fun y => |y - ρ|))) = .ok args ∧
      args.length = mid.length ∧ (∀ x ∈ args, x < q.length) ∧ ∀ t < mid.length, NearestStar a.sub e indx mem c mid[t]! q[args[t]!]! := by
    intro mid
    have hx : ∀ ρ, ∃ j, argminE ((q.map (radiusOf a.sub c)).map (fun y => |y - ρ|)) = .ok j ∧ j < q.length ∧
        NearestStar a.sub e indx mem c ρ q[j]! := by
      intro ρ
      obtain ⟨j, y1, y2, y3⟩ := argminE_spec (l := (q.map (radiusOf a.sub c)).map (fun y => |y - ρ|)) (by simpa using hqne)
      have y2' : j < q.length := by simpa using y2
      refine ⟨j, y1, y2', fun i hi si => ?_⟩
      have := y3 (|radiusOf a.sub c i - ρ|) (by
        rw [List.map_map, List.mem_map]; exact ⟨i, (q3 i).mpr ⟨hi, si⟩, rfl⟩)
      rw [getElem!_pos _ j y2] at this
      rw [getElem!_pos q j y2']
      simpa using this
    choose F hF1 hF2 hF3 using hx
    refine ⟨mid.map F, mapM_ok mid _ F (fun x _ => hF1 x), by simp, ?_, ?_⟩
    · intro x hx
      obtain ⟨ρ, -, rfl⟩ := List.mem_map.mp hx
      exact hF2 ρ
    · intro t ht
      rw [getElem!_pos mid t ht, getElem!_pos (mid.map F) t (by simpa using ht), List.getElem_map]
      exact hF3 _
  obtain ⟨mid, args, hargs, hlt, hmid, hmcase⟩ : ∃ (mid : Option (List ℝ)) (args : List ℕ),
      vcircArgs a all (q.map (radiusOf a.sub c)) (maskSel mem'[k]! c1.d.r) = .ok args ∧ (∀ x ∈ args, x < q.length) ∧
      ((mid = none ∧ args = List.range q.length) ∨ ∃ x, mid = some x ∧ args.length = x.length ∧
        ∀ t < x.length, NearestStar a.sub e indx mem c x[t]! q[args[t]!]!) ∧
      ((a.bins = none ∧ all = true ∧ mid = none) ∨ (∃ b, a.bins = some b ∧ mid = some b.2.1) ∨
        (a.bins = none ∧ all = false ∧ ∃ P x, mid = some x ∧ BinRadii a e indx mem c P x)) := by
    by_cases hab : a.bins = none ∧ all = true
    · refine ⟨none, List.range q.length, ?_, by simp, .inl ⟨rfl, rfl⟩, .inl ⟨hab.1, hab.2, rfl⟩⟩
      unfold vcircArgs; rw [if_pos hab, List.length_map]
    · cases hbs : a.bins with
      | some b =>
        obtain ⟨args, z1, z2, z3, z4⟩ := hnear b.2.1
        refine ⟨some b.2.1, args, ?_, z3, .inr ⟨_, rfl, z2, z4⟩, .inr (.inl ⟨b, rfl, rfl⟩)⟩
        unfold vcircArgs; rw [if_neg hab]
        simp only [profBins, hbs, bind, Except.bind]
        exact z1
      | none =>
        have hall : all = false := by
          cases all
          · rfl
          · exact absurd ⟨hbs, rfl⟩ hab
        rcases hb with hb | ⟨b, hb⟩ | ⟨hpr, hb⟩
        · exact absurd hb hab
        · rw [hbs] at hb; cases hb
        · obtain ⟨c1', k', m', B, P, c2, t1, -, t2, t3, t4, -⟩ := prof_parts a.normalize true p l hg s1' he hm hb
          rw [h1] at t1; cases t1
          rw [h2] at t2; cases t2
          unfold profBinned at t3
          simp only [bind, hpr, Bool.false_eq_true, if_false] at t3
          obtain ⟨b, u1, u2⟩ := bind_ok t3
          simp only [pure, Except.pure, Except.ok.injEq] at u2
          obtain ⟨args, z1, z2, z3, z4⟩ := hnear b.2.1
          refine ⟨some b.2.1, args, ?_, z3, .inr ⟨_, rfl, z2, z4⟩, .inr (.inr ⟨rfl, hall, P, _, rfl, ?_⟩)⟩
          · unfold vcircArgs; rw [if_neg hab]
            simp only [bind, u1, Except.bind]
            exact z1
          · have := t4.radii
            rw [← u2] at this
            exact this
  -- the end
  obtain ⟨c2, h4, d2, -⟩ := return_of_world (sort := false) (cm := none) p l hg s1.good s1.lin s1.rest s1.world
  have hu : c2.units = c.units := congrArg Data.units d2
  have hcl := fun x => conv_id s1 hu (f := fun u t v => .ok (convertLength g c2 u t v)) (by simp [convertLength])
    (by simp [convertLength, Units.isPc, Units.isKpc]) x
  have hcv := fun x => conv_id s1 hu (f := fun u t v => .ok (convertVelocity g c2 u t v)) (by simp [convertVelocity])
    (by simp [convertVelocity, Units.isPc, Units.isKpc]) x
  have hst : ∀ x ∈ args.map (fun i => q[i]!), x < c.st.length ∧ Chosen a.sub e indx mem c x := by
    intro x hx
    obtain ⟨i, hi, rfl⟩ := List.mem_map.mp hx
    refine (q3 _).mp ?_
    rw [getElem!_pos q i (hlt i hi)]; exact List.getElem_mem _
  have hrs : args.map (fun i => (q.map (radiusOf a.sub c))[i]!) = (args.map (fun i => q[i]!)).map (radiusOf a.sub c) := by
    rw [List.map_map]
    refine List.map_congr_left fun i hi => ?_
    have := hlt i hi
    simp only [Function.comp]
    rw [getElem!_pos _ i (by simpa using this), List.getElem_map, getElem!_pos q i this]
  have hj2' : j < q.length := by omega
  refine ⟨mid, args.map (fun i => q[i]!), (args.map (fun i => q[i]!)).map (fun i => radiusOf a.sub c i / s), args.map (fun i => vc[i]!),
    (q.map (radiusOf a.sub c))[j]!, maxOf vc, ⟨c2, mem', a.bins.map (fun b => b.2.1)⟩, ?_, d2, ?_, hmcase⟩
  · unfold vcircProf
    simp only [bind, Except.bind, pure, Except.pure, h1, h2, ho, takeOrder, q1, q2, hj1, hargs, h4, ← hvc, hcl, hcv]
    cases hn : a.normalize
    · simp only [Bool.false_eq_true, if_false, hcl, List.headD_cons, Except.ok.injEq, Prod.mk.injEq, and_true, true_and]
      rw [hrs, hs1 hn]; simp
    · simp only [if_true, divRm_some (hs2 hn), List.headD_cons, Except.ok.injEq, Prod.mk.injEq, and_true, true_and]
      rw [hrs, List.map_map]; rfl
  · refine ⟨hst, rfl, by simp, ?_, ?_, ?_, ?_, ?_⟩
    · intro t ht
      have ht' : t < args.length := by simpa using ht
      have hat := hlt args[t] (List.getElem_mem _)
      have := hvel args[t] hat
      rw [getElem!_pos (args.map (fun i => q[i]!)) t ht, getElem!_pos (args.map (fun i => vc[i]!)) t (by simpa using ht'),
        List.getElem_map, List.getElem_map]
      exact this
    · intro h0
      rcases hmid with ⟨-, hm2⟩ | ⟨x, hx, -⟩
      · have hid : args.map (fun i => q[i]!) = q := by
          rw [hm2]
          apply List.ext_getElem
          · simp
          · intro i y1 y2
            simp only [List.getElem_map, List.getElem_range]
            rw [getElem!_pos q i y2]
        rw [hid]
        refine ⟨fun i hi si => (q3 i).mpr ⟨hi, si⟩, ?_⟩
        refine List.Pairwise.imp_of_mem ?_ q4
        intro i j hi hj h
        rw [hrad i ((q3 i).mp hi).1, hrad j ((q3 j).mp hj).1] at h
        exact h
      · rw [h0] at hx; cases hx
    · intro x hx
      rcases hmid with ⟨hm1, -⟩ | ⟨y, hy, z1, z2⟩
      · rw [hx] at hm1; cases hm1
      · rw [hx] at hy; cases hy
        refine ⟨by simpa using z1, fun t ht => ?_⟩
        have := z2 t ht
        have hta : t < args.length := by omega
        rw [getElem!_pos (args.map (fun i => q[i]!)) t (by simpa using hta), List.getElem_map]
        rw [getElem!_pos args t hta] at this
        exact this
    · have hqj := (q3 q[j]!).mp (by rw [getElem!_pos q j hj2']; exact List.getElem_mem _)
      refine ⟨q[j]!, hqj.1, hqj.2, ?_, ?_⟩
      · rw [getElem!_pos _ j (by simpa using hj2'), List.getElem_map, getElem!_pos q j hj2']
      · rw [← hj3]; exact hvel j hj2'
    · intro i hi si v hv
      obtain ⟨t, ht, et⟩ := List.getElem_of_mem ((q3 i).mpr ⟨hi, si⟩)
      have et' : q[t]! = i := by rw [getElem!_pos q t ht, et]
      have h5 := hvel t ht
      rw [et'] at h5
      rw [circVel_unique (hpos i hi si) hv h5]
      refine (maxOf_spec hvne).2 _ ?_
      rw [getElem!_pos vc t (by omega)]; exact List.getElem_mem _

/-! ### The orders used -/

theorem sortstars_has_order (r rp : List ℝ) (c : Cluster) :
    (∃ o, (sortstars true r rp c).rorder = some o) ∧ (sortstars true r rp c).rorderOrigin = c.origin := by
  have key : ∀ o, c.rorder = some o → ¬ (c.rorderOrigin ≠ c.origin ∨ r.length ≠ o.length) → c.rorderOrigin = c.origin := by
    intro o _ h
    by_contra h'
    exact h (.inl h')
  unfold sortstars
  dsimp only
  cases hro : c.rorder with
  | none =>
    dsimp only
    repeat' split
    all_goals exact ⟨⟨_, rfl⟩, rfl⟩
  | some o =>
    dsimp only
    by_cases hc : c.rorderOrigin ≠ c.origin ∨ r.length ≠ o.length
    · simp only [if_pos hc]
      repeat' split
      all_goals exact ⟨⟨_, rfl⟩, rfl⟩
    · simp only [if_neg hc]
      repeat' split
      all_goals exact ⟨⟨_, hro⟩, key o hro hc⟩

theorem profStart_has_order {g : Galpy} {c c1 : Cluster} (l : Lin c) (h : profStart g true true c = .ok c1) :
    (∃ o, c1.rorder = some o) ∧ c1.rorderOrigin = c1.origin := by
  have fin : ∀ (x : Cluster), x.origin = c.origin → x.units ≠ some .radec →
      (if c.origin ≠ some .cluster ∧ c.origin ≠ some .centre then toCentre true none x
        else if true then .ok (sortstars true x.d.r x.d.rpro x) else .ok x) = .ok c1 →
      (∃ o, c1.rorder = some o) ∧ c1.rorderOrigin = c1.origin := by
    intro x xo xu h
    obtain ⟨-, o, ho', hl⟩ := l
    split at h
    · have hgal : x.origin = some .galaxy := by
        rw [xo, ho']; cases o <;> simp_all [Origin.linear]
      obtain ⟨ca, -, a2⟩ := toCentre_galaxy hgal xu h
      obtain ⟨o', y1, y2, -⟩ := analyze_rorder_sorted a2
      obtain ⟨-, -, -, k4, -⟩ := analyze_same a2
      exact ⟨⟨o', y1⟩, by rw [y2, k4]⟩
    · rw [if_pos rfl] at h
      injection h with h
      rw [← h]
      obtain ⟨-, k2, -⟩ := core_fields (sortstars_core true x.d.r x.d.rpro x)
      rw [k2]
      exact sortstars_has_order _ _ _
  unfold profStart at h
  simp only [bind, Except.bind] at h
  obtain ⟨⟨u, hu, hul⟩, -⟩ := id l
  by_cases ha : c.units = some .amuse
  · rw [if_pos ha] at h
    split at h
    · cases h
    · rename_i h1
      have k := toPckms_amuse ha h1
      exact fin _ k.2.2.2.1 (by rw [k.2.2.1]; simp) h
  · rw [if_neg ha] at h
    exact fin c rfl (by rw [hu]; rintro e; cases e; exact hul) h

/-- Clusters given from their position or centre are sorted whatever `normalize` is. -/
theorem profStart_stay {g : Galpy} {c : Cluster} (s : Bool) (h : c.origin ≠ some .galaxy) (l : Lin c) :
    profStart g s true c = profStart g true true c := by
  have hno : ¬ (c.origin ≠ some .cluster ∧ c.origin ≠ some .centre) := by
    obtain ⟨-, o, ho, hol⟩ := l
    rw [ho] at h ⊢
    cases o <;> simp [Origin.linear] at hol h ⊢
  unfold profStart
  simp only [if_neg hno]

/-- **C55 (unprojected).**  If the radii of the chosen stars are positive and distinct, the selection is all stars or the stars are
stored in order of radius, and the cluster is given from its position or centre or `normalize` is set, `vcirc_prof` gives the
circular velocities of the chosen mass at the radii of the chosen stars (all of them, or those nearest to the bin radii), their
maximum and its place; the radii divided by the half-mass radius if `normalize` is set. -/
theorem C55_vcirc_partial {g : Galpy} {c : Cluster} (p : Pos g c) (l : Lin c) (hg : Good c) (f : Fresh c)
    (hmass : ∀ x ∈ c.m, 0 ≤ x) (hoc : OrderCurrent c) (hrc : RmCurrent c) {a : ProfArgs} {all : Bool} {e : PStars} {indx : Option ℕ}
    {mem : Mem} (he : e.Ok a.sub c.st.length) (hm : ∀ q, indx = some q → mem[q]!.length = c.st.length)
    (hpr : a.sub.projected = false) (hor : c.origin ≠ some .galaxy ∨ a.normalize = true)
    (hal : (∀ i < c.st.length, Chosen a.sub e indx mem c i) ∨
      ∀ i j, i < j → j < c.st.length → radiusOf a.sub c i < radiusOf a.sub c j)
    (hne : ∃ i < c.st.length, Chosen a.sub e indx mem c i)
    (hpos : ∀ i < c.st.length, Chosen a.sub e indx mem c i → 0 < radiusOf a.sub c i)
    (hd : ∀ i < c.st.length, ∀ j < c.st.length, Chosen a.sub e indx mem c i → Chosen a.sub e indx mem c j →
      radiusOf a.sub c i = radiusOf a.sub c j → i = j)
    (hb : (a.bins = none ∧ all = true) ∨ BinsCover a c.st.length (Chosen a.sub e indx mem c) (radiusOf a.sub c)) :
    ∃ mid s stars rs vs rvmax vmax after,
      vcircProf g a all e indx mem c = .ok ((rs, vs, rvmax, vmax), after) ∧ after.cluster.data = c.data ∧
      VcircOk (getGrav c.units) a.sub e indx mem c mid s stars rs vs rvmax vmax ∧
      (a.normalize = false → s = 1) ∧
      (a.normalize = true → IsMassRadius 0.5 c.m ((List.range c.st.length).map (radiusOf a.sub c)) s) ∧
      ((a.bins = none ∧ all = true ∧ mid = none) ∨ (∃ b, a.bins = some b ∧ mid = some b.2.1) ∨
        (a.bins = none ∧ all = false ∧ ∃ P x, mid = some x ∧ BinRadii a e indx mem c P x)) := by
  obtain ⟨c1, h1, s1⟩ := profStart_spec (g := g) a.normalize true p l hg f
  have h1' : profStart g true true c = .ok c1 := by
    rcases hor with h | h
    · rw [← profStart_stay a.normalize h l]; exact h1
    · rw [h] at h1; exact h1
  obtain ⟨o1, rm, hrm, hrad⟩ := profStart_current l hg f hmass hoc (fun _ => hrc) h1'
  obtain ⟨⟨o, ho⟩, hoo⟩ := profStart_has_order l h1'
  have hso := o1 o ho hoo
  have hr : c1.d.r = c1.st.map Ph.r := by rw [s1.fresh.r.eq_map]; rfl
  rw [← hr] at hso
  have hrl : c1.st.map Ph.r = (List.range c.st.length).map (radiusOf a.sub c) := by
    rw [s1.st]
    unfold radiusOf
    rw [hpr]
    apply List.ext_getElem
    · simp [centred_length]
    · intro i h1 h2
      have : i < (centred c).length := by simpa using h1
      simp only [List.getElem_map, List.getElem_range, getElem!_pos (centred c) i this]
      rfl
  rw [hrl, s1.m] at hrad
  obtain ⟨mid, stars, rs, vs, rv, vm, after, x1, x2, x3, x4⟩ := vcirc_run (a := a) (all := all) (s := if a.normalize then rm else 1)
    p l hg f s1 hmass he hm h1 (o := o) (by rw [hpr]; exact ho) (by rw [hpr]; exact hso) hal hne hpos hd
    (fun h => by rw [h]; rfl) (fun h => by rw [h, hpr]; exact hrm)
    (by
      rcases hb with h | h
      · exact .inl h
      · exact .inr (.inr ⟨hpr, h⟩))
  exact ⟨mid, _, stars, rs, vs, rv, vm, after, x1, x2, x3, fun h => by rw [h]; rfl, fun h => by rw [h]; exact hrad, x4⟩

/-- **C55 (projected).**  In projection, with no bins or the caller's bins and `normalize=False`, the same for clusters given from
their position or centre whose stored projected order (if any) is current. -/
theorem C55_projected_partial {g : Galpy} {c : Cluster} (p : Pos g c) (l : Lin c) (hg : Good c) (f : Fresh c)
    (hmass : ∀ x ∈ c.m, 0 ≤ x) (hpo : ∀ o, c.rproorder = some o → SortedBy (c.st.map Ph.rpro) o) (hu : c.units ≠ some .amuse)
    {a : ProfArgs} {all : Bool} {e : PStars} {indx : Option ℕ}
    {mem : Mem} (he : e.Ok a.sub c.st.length) (hm : ∀ q, indx = some q → mem[q]!.length = c.st.length)
    (hpr : a.sub.projected = true) (hor : c.origin ≠ some .galaxy) (hn : a.normalize = false)
    (hal : (∀ i < c.st.length, Chosen a.sub e indx mem c i) ∨
      ∀ i j, i < j → j < c.st.length → radiusOf a.sub c i < radiusOf a.sub c j)
    (hne : ∃ i < c.st.length, Chosen a.sub e indx mem c i)
    (hpos : ∀ i < c.st.length, Chosen a.sub e indx mem c i → 0 < radiusOf a.sub c i)
    (hd : ∀ i < c.st.length, ∀ j < c.st.length, Chosen a.sub e indx mem c i → Chosen a.sub e indx mem c j →
      radiusOf a.sub c i = radiusOf a.sub c j → i = j)
    (hb : (a.bins = none ∧ all = true) ∨ ∃ b, a.bins = some b) :
    ∃ mid stars rs vs rvmax vmax after,
      vcircProf g a all e indx mem c = .ok ((rs, vs, rvmax, vmax), after) ∧ after.cluster.data = c.data ∧
      VcircOk (getGrav c.units) a.sub e indx mem c mid 1 stars rs vs rvmax vmax ∧
      ((a.bins = none ∧ all = true ∧ mid = none) ∨ ∃ b, a.bins = some b ∧ mid = some b.2.1) := by
  obtain ⟨c1, h1, s1⟩ := profStart_spec (g := g) a.normalize true p l hg f
  have hno : ¬ (c.origin ≠ some .cluster ∧ c.origin ≠ some .centre) := by
    obtain ⟨-, o, ho, hol⟩ := l
    rw [ho] at hor ⊢
    cases o <;> simp [Origin.linear] at hol hor ⊢
  have hc1 : c1 = sortstars true c.d.r c.d.rpro c := by
    unfold profStart at h1
    simp only [bind, Except.bind, if_neg hu, if_neg hno, if_true, Except.ok.injEq] at h1
    exact h1.symm
  have hdd : c1.d = c.d := by
    rw [hc1]; unfold sortstars; dsimp only; repeat' split
    all_goals rfl
  have hcp : c.d.rpro = c.st.map Ph.rpro := by rw [f.rpro.eq_map]; rfl
  obtain ⟨o, ho, hso⟩ : ∃ o, c1.rproorder = some o ∧ SortedBy c.d.rpro o := by
    have : c1.rproorder = some (argsort c.d.rpro) ∨ (c1.rproorder = c.rproorder ∧ c.rproorder ≠ none) := by
      rw [hc1]
      unfold sortstars; dsimp only; repeat' split
      all_goals simp_all
    rcases this with h | ⟨h, h'⟩
    · exact ⟨_, h, SortedBy.argsort _⟩
    · obtain ⟨o, ho⟩ := Option.ne_none_iff_exists'.mp h'
      exact ⟨o, h.trans ho, by rw [hcp]; exact hpo o ho⟩
  rw [← hdd] at hso
  obtain ⟨mid, stars, rs, vs, rv, vm, after, x1, x2, x3, x4⟩ := vcirc_run (a := a) (all := all) (s := 1)
    p l hg f s1 hmass he hm h1 (o := o) (by rw [hpr]; exact ho) (by rw [hpr]; exact hso) hal hne hpos hd
    (fun _ => rfl) (fun h => by rw [hn] at h; cases h)
    (by
      rcases hb with h | h
      · exact .inl h
      · exact .inr (.inl h))
  refine ⟨mid, stars, rs, vs, rv, vm, after, x1, x2, x3, ?_⟩
  rcases x4 with h | h | ⟨h1, h2, -⟩
  · exact .inl h
  · exact .inr h
  · rcases hb with h | ⟨b, h⟩
    · rw [h.2] at h2; cases h2
    · rw [h] at h1; cases h1

/-! ### Where it fails -/

/-- With `nrad=None`, without bins and normalisation, the result in terms of order and mask. -/
theorem vcirc_exact {g : Galpy} {c c1 : Cluster} (p : Pos g c) (l : Lin c) (hg : Good c) (s1 : Started g c c1)
    {a : ProfArgs} {e : PStars} {indx : Option ℕ} {mem mem' : Mem} {k : ℕ} (hb : a.bins = none) (hn : a.normalize = false)
    (hpr : a.sub.projected = false) (h1 : profStart g a.normalize true c = .ok c1) {o : List ℕ} (ho : c1.rorder = some o)
    (h2 : getSubset a.sub (viewOf c1 e) indx mem = .ok (some k, mem')) {R M vc : List ℝ}
    (hR : maskSel mem'[k]! (o.map (fun i => c1.d.r.getD i 0)) = R) (hM : maskSel mem'[k]! (o.map (fun i => c1.m.getD i 0)) = M)
    (hv : List.zipWith (fun M ρ => Real.sqrt (getGrav c.units * M / ρ)) (cumsum M) R = vc) (hl : vc.length = R.length)
    (hne : vc ≠ []) : ∃ rv vm after, vcircProf g a true e indx mem c = .ok ((R, vc, rv, vm), after) := by
  have hG : getGrav c1.units = getGrav c.units := by
    rw [s1.units]; split
    · rename_i hu; rw [hu]; rfl
    · rfl
  rw [← hG] at hv
  obtain ⟨j, hj1, hj2, hj3⟩ := argmaxE_spec hne
  obtain ⟨c2, h4, d2, -⟩ := return_of_world (sort := false) (cm := none) p l hg s1.good s1.lin s1.rest s1.world
  have hu : c2.units = c.units := congrArg Data.units d2
  have hcl := fun x => conv_id s1 hu (f := fun u t v => .ok (convertLength g c2 u t v)) (by simp [convertLength])
    (by simp [convertLength, Units.isPc, Units.isKpc]) x
  have hcv := fun x => conv_id s1 hu (f := fun u t v => .ok (convertVelocity g c2 u t v)) (by simp [convertVelocity])
    (by simp [convertVelocity, Units.isPc, Units.isKpc]) x
  have hid : ∀ x : List ℝ, (List.range x.length).map (fun i => x[i]!) = x := by
    intro x
    apply List.ext_getElem
    · simp
    · intro i y1 y2
      simp only [List.getElem_map, List.getElem_range]
      rw [getElem!_pos x i y2]
  have hargs : ∀ x, vcircArgs a true R x = .ok (List.range R.length) := by
    intro x; unfold vcircArgs; rw [if_pos ⟨hb, rfl⟩]
  refine ⟨R[j]!, maxOf vc, ⟨c2, mem', a.bins.map (fun b => b.2.1)⟩, ?_⟩
  rw [hn] at h1
  unfold vcircProf
  simp only [bind, Except.bind, pure, Except.pure, h1, h2, ho, takeOrder, hR, hM, hv, hj1, hargs, h4, hcl, hcv, hn, hpr, Bool.false_eq_true,
    if_false, List.headD_cons, hid]
  rw [← hl, hid]

theorem two_order {r : List ℝ} {o : List ℕ} (hl : r.length = 2) (ho : SortedBy r o) (h : r.getD 1 0 < r.getD 0 0) : o = [1, 0] := by
  obtain ⟨hp, hs⟩ := ho
  rw [hl] at hp
  have hlen : o.length = 2 := by rw [hp.length_eq, List.length_range]
  match o, hlen, hp, hs with
  | [x, y], _, hp, hs =>
    have hx : x = 0 ∨ x = 1 := by
      have := (hp.mem_iff (a := x)).mp (by simp); simp at this; omega
    have hy : y = 0 ∨ y = 1 := by
      have := (hp.mem_iff (a := y)).mp (by simp); simp at this; omega
    have hne : x ≠ y := by
      have := hp.nodup_iff.mpr List.nodup_range
      simp at this; exact this
    rcases hx with rfl | rfl <;> rcases hy with rfl | rfl
    · exact absurd rfl hne
    · simp only [List.pairwise_cons, List.mem_cons, List.not_mem_nil, or_false, forall_eq] at hs
      exact absurd hs.1 (not_le.mpr h)
    · rfl
    · exact absurd rfl hne

/-- **C55 fails for filters**: of a star of mass 3 at radius 5 and one of mass 1 at radius 1 the filter `mmin=2` chooses the
first; `vcirc_prof` reports the second. -/
theorem C55_filter_violated : ∃ c a e rs vs rv vm after, Pos demoG c ∧ Lin c ∧ Good c ∧ Fresh c ∧ OrderCurrent c ∧
    c.m = [3, 1] ∧ c.st = demoTwo.st ∧ c.origin = some .cluster ∧ a.sub = { mmin := some 2 } ∧
    (∀ i < c.st.length, Chosen a.sub e none [] c i ↔ i = 0) ∧ radiusOf a.sub c 0 = 5 ∧
    vcircProf demoG a true e none [] c = .ok ((rs, vs, rv, vm), after) ∧ rs = [1] := by
  have g0 : Good demoTwo := ⟨by simp [demoTwo, demo], by simp [demoTwo, demo], by norm_num [demoTwo], by simp [demoTwo], by simp [demoTwo]⟩
  obtain ⟨c, h, hg⟩ := analyze_total (s := true) (p := true) g0
  obtain ⟨k1, k2, -, k4, k5, kc, kg, -, -, -, -, kr⟩ := core_fields (analyze_core h)
  have p0 : Pos demoG demoTwo := ⟨demo_pos.rbar, demo_pos.vbar, demo_pos.zmbar, demo_pos.tbar, demo_pos.ro, demo_pos.vo,
    demo_pos.time, demo_pos.mass, demo_pos.vel⟩
  have p := p0.of_rest kr
  have hcen : centred c = [⟨3, 0, 4, 1, 0, 0⟩, ⟨0, 1, 0, 0, -2, 5⟩] := by
    unfold centred
    rw [k2, if_neg (by simp [demoTwo, demo]), k5]; rfl
  have hmass : ∀ x ∈ demoTwo.m, (0 : ℝ) ≤ x := by intro x hx; simp [demoTwo] at hx; rcases hx with rfl | rfl <;> norm_num
  have hoc := analyze_current g0.len hmass (by intro o ho; simp [demoTwo] at ho) h
  have l0 : Lin c := ⟨by rw [k1]; exact ⟨_, rfl, trivial⟩, by rw [k2]; exact ⟨_, rfl, trivial⟩⟩
  have f := analyze_fresh h
  have hmm : c.m = [3, 1] := k4
  have hor : c.origin = some .cluster := k2
  have hlen : c.st.length = 2 := by rw [k5]; rfl
  obtain ⟨c1, h1, s1⟩ := profStart_spec (g := demoG) false true p l0 hg f
  have h1' : profStart demoG true true c = .ok c1 := by
    rw [← profStart_stay false (by rw [hor]; simp) l0]; exact h1
  obtain ⟨o1, -⟩ := profStart_current l0 hg f (by rw [k4]; exact hmass) hoc.1 (fun _ => hoc.2) h1'
  obtain ⟨⟨o, ho⟩, hoo⟩ := profStart_has_order l0 h1'
  have hso := o1 o ho hoo
  have hr : c1.d.r = [5, 1] := by
    rw [s1.fresh.r.eq_map, s1.st, hcen]
    simp only [List.map_cons, List.map_nil]
    rw [show (3 : ℝ) ^ 2 + 0 ^ 2 + 4 ^ 2 = 5 ^ 2 by norm_num, show (0 : ℝ) ^ 2 + 1 ^ 2 + 0 ^ 2 = 1 ^ 2 by norm_num,
      Real.sqrt_sq (by norm_num), Real.sqrt_sq (by norm_num)]
  have hr' : c1.st.map Ph.r = [5, 1] := by rw [← hr, s1.fresh.r.eq_map]; rfl
  rw [hr'] at hso
  have ho' : o = [1, 0] := two_order rfl hso (by norm_num)
  have he : PStars.Ok ⟨[1, 1], [], []⟩ { mmin := some 2 } c.st.length := by rw [hlen]; exact ⟨rfl, .inl rfl, .inl ⟨rfl, rfl⟩⟩
  obtain ⟨k, mem', h2, hS⟩ := chosen_mask (indx := none) (mem := []) s1 hg he (by simp)
  have hch : ∀ i < c.st.length, Chosen { mmin := some 2 } ⟨[1, 1], [], []⟩ none [] c i ↔ i = 0 := by
    intro i hi
    rw [hlen] at hi
    unfold Chosen
    rw [hmm, hcen]
    interval_cases i
    · refine ⟨fun _ => rfl, fun _ => ⟨by simp [InMask], ?_⟩⟩
      refine ⟨?_, ?_, ?_, ?_, ?_, ?_⟩ <;> simp [Within, rowsView]
      norm_num
    · refine ⟨fun ⟨_, h⟩ => ?_, fun h => by cases h⟩
      have := h.m
      simp [Within, rowsView] at this
  have hw : mem'[k]! = [true, false] := by
    have hl := hS.len
    rw [hlen] at hl
    have v0 := (hS.val 0 (by omega)).trans (hch 0 (by omega))
    have v1 := (hS.val 1 (by omega)).trans (hch 1 (by omega))
    generalize mem'[k]! = w at *
    match w, hl with
    | [x, y], _ => simp at v0 v1; rw [v0, v1]
  obtain ⟨rv, vm, after, hx⟩ := vcirc_exact (a := { sub := { mmin := some 2 } }) (R := [1]) (M := [1])
    (vc := [Real.sqrt (getGrav c.units * 1 / 1)]) p l0 hg s1 rfl rfl rfl h1 ho h2
    (by rw [hw, ho', hr]; simp [maskSel]) (by rw [hw, ho', s1.m, hmm]; simp [maskSel]) (by simp [cumsum, cumsumFrom]) rfl (by simp)
  refine ⟨c, { sub := { mmin := some 2 } }, ⟨[1, 1], [], []⟩, _, _, rv, vm, after, p, l0, hg, f, hoc.1, hmm, k5, hor, rfl, hch, ?_, hx, rfl⟩
  unfold radiusOf
  rw [hcen]
  simp only [dist0, List.getElem!_cons_zero]
  rw [if_neg (by simp), show (3 : ℝ) ^ 2 + 0 ^ 2 + 4 ^ 2 = 5 ^ 2 by norm_num, Real.sqrt_sq (by norm_num)]

/-- Two stars given from the galactic centre, the second nearer to the cluster centre, the first nearer to the cluster position. -/
def demoShift : Cluster :=
  { demo with
    origin := some .galaxy, m := [1, 3], c := ⟨4, 0, 0, 0, 0, 0⟩, gc := ⟨10, 0, 0, 0, 0, 0⟩,
    st := [⟨11, 0, 0, 0, 0, 0⟩, ⟨15, 0, 0, 0, 0, 0⟩], rorder := none, rproorder := none }

/-- **C55 fails for clusters given from the galactic centre** (`normalize=False`): the stars are taken in the order of their
distance from the cluster position, not from the centre, so the velocity reported for the outer star counts its own mass only. -/
theorem C55_galaxy_violated : ∃ c a e rs vs rv vm after, Pos demoG c ∧ Lin c ∧ Good c ∧ Fresh c ∧ OrderCurrent c ∧ RmCurrent c ∧
    c.m = [1, 3] ∧ c.st = demoShift.st ∧ c.origin = some .galaxy ∧ a.sub = {} ∧
    (∀ i < c.st.length, Chosen a.sub e none [] c i) ∧ massWithin a.sub e none [] c 3 = 4 ∧
    vcircProf demoG a true e none [] c = .ok ((rs, vs, rv, vm), after) ∧ rs = [3, 1] ∧
    IsCircVel (getGrav c.units) 1 3 vs[0]! := by
  classical
  have g0 : Good demoShift := ⟨by simp [demoShift], by simp [demoShift], by norm_num [demoShift], by simp [demoShift], by simp [demoShift]⟩
  obtain ⟨c, h, hg⟩ := analyze_total (s := true) (p := true) g0
  obtain ⟨k1, k2, -, k4, k5, kc, kg, -, -, -, -, kr⟩ := core_fields (analyze_core h)
  have p0 : Pos demoG demoShift := ⟨demo_pos.rbar, demo_pos.vbar, demo_pos.zmbar, demo_pos.tbar, demo_pos.ro, demo_pos.vo,
    demo_pos.time, demo_pos.mass, demo_pos.vel⟩
  have p := p0.of_rest kr
  have hcen : centred c = [⟨-3, 0, 0, 0, 0, 0⟩, ⟨1, 0, 0, 0, 0, 0⟩] := by
    unfold centred
    rw [k2, if_pos (by rfl), k5, kc, kg]
    norm_num [demoShift]
  have hmass : ∀ x ∈ demoShift.m, (0 : ℝ) ≤ x := by intro x hx; simp [demoShift] at hx; rcases hx with rfl | rfl <;> norm_num
  have hoc := analyze_current g0.len hmass (by intro o ho; simp [demoShift] at ho) h
  have l0 : Lin c := ⟨by rw [k1]; exact ⟨_, rfl, trivial⟩, by rw [k2]; exact ⟨_, rfl, trivial⟩⟩
  have f := analyze_fresh h
  have hmm : c.m = [1, 3] := k4
  have hor : c.origin = some .galaxy := k2
  have hun : c.units = some .pckms := k1
  have hlen : c.st.length = 2 := by rw [k5]; rfl
  obtain ⟨c1, h1, s1⟩ := profStart_spec (g := demoG) false true p l0 hg f
  -- the order
  have hc0 : c.rorderOrigin = some .galaxy := by
    obtain ⟨o', -, y2, -⟩ := analyze_rorder_sorted h
    exact y2
  have hord : c1.rorder = some [0, 1] := by
    have h1' := h1
    unfold profStart at h1'
    simp only [bind, Except.bind, hun, hor, reduceCtorEq, Option.some.injEq, if_false, ne_eq, not_false_eq_true, and_self, if_true] at h1'
    obtain ⟨ca, a1, a2⟩ := toCentre_galaxy hor (by rw [hun]; simp) h1'
    have hs : setMethod none c = c := rfl
    unfold toCluster at a1
    rw [hor] at a1
    simp only [bind, hs] at a1
    rw [if_pos (by simp), if_neg (by rw [hun]; simp), if_neg (by simp), if_pos trivial] at a1
    simp only [Except.bind] at a1
    obtain ⟨o', y1, y2, y3⟩ := analyze_rorder_sorted a1
    have hoo : o' = argsort [1, 5] := by
      rcases y3 with y3 | ⟨-, y4⟩
      · rw [y3]
        congr 1
        show (c.st.map (·.sub c.gc)).map Ph.r = _
        rw [k5, kg]
        have e1 : (11 : ℝ) - 10 = 1 := by norm_num
        have e2 : (15 : ℝ) - 10 = 5 := by norm_num
        simp [demoShift, Ph.sub, Ph.r, Real.sqrt_sq_eq_abs, e1, e2]
      · have y4' : c.rorderOrigin = some .cluster := y4
        rw [hc0] at y4'; cases y4'
    have hso := SortedBy.argsort [(1 : ℝ), 5]
    rw [← hoo] at hso
    have ho' : o' = [0, 1] := by
      obtain ⟨hp, hs⟩ := hso
      have hlen : o'.length = 2 := by rw [hp.length_eq, List.length_range]; rfl
      match o', hlen, hp, hs with
      | [x, y], _, hp, hs =>
        have hx : x = 0 ∨ x = 1 := by
          have := (hp.mem_iff (a := x)).mp (by simp); simp at this; omega
        have hy : y = 0 ∨ y = 1 := by
          have := (hp.mem_iff (a := y)).mp (by simp); simp at this; omega
        have hne : x ≠ y := by
          have := hp.nodup_iff.mpr List.nodup_range
          simp at this; exact this
        rcases hx with rfl | rfl <;> rcases hy with rfl | rfl
        · exact absurd rfl hne
        · rfl
        · simp only [List.pairwise_cons, List.mem_cons, List.not_mem_nil, or_false, forall_eq] at hs
          have := hs.1
          norm_num at this
        · exact absurd rfl hne
    rcases analyze_rorder a2 with ⟨z1, -⟩ | ⟨z1, -⟩
    · rw [z1]
      show ca.rorder = _
      rw [y1, ho']
    · cases z1
  have hr : c1.d.r = [3, 1] := by
    rw [s1.fresh.r.eq_map, s1.st, hcen]
    simp [Real.sqrt_sq_eq_abs]
  have he : PStars.Ok ⟨[1, 1], [], []⟩ {} c.st.length := by rw [hlen]; exact ⟨rfl, .inl rfl, .inl ⟨rfl, rfl⟩⟩
  obtain ⟨k, mem', h2, hS⟩ := chosen_mask (indx := none) (mem := []) s1 hg he (by simp)
  have hch : ∀ i < c.st.length, Chosen {} ⟨[1, 1], [], []⟩ none [] c i := by
    intro i hi
    refine ⟨by simp [InMask], ?_⟩
    refine ⟨?_, ?_, ?_, ?_, ?_, ?_⟩ <;> simp [Within, rowsView]
  have hw : mem'[k]! = [true, true] := by
    have hl := hS.len
    rw [hlen] at hl
    have v0 := (hS.val 0 (by omega)).mpr (hch 0 (by omega))
    have v1 := (hS.val 1 (by omega)).mpr (hch 1 (by omega))
    generalize mem'[k]! = w at *
    match w, hl with
    | [x, y], _ => simp at v0 v1; rw [v0, v1]
  obtain ⟨rv, vm, after, hx⟩ := vcirc_exact (a := {}) (R := [3, 1]) (M := [1, 3])
    (vc := [Real.sqrt (getGrav c.units * 1 / 3), Real.sqrt (getGrav c.units * 4 / 1)]) p l0 hg s1 rfl rfl rfl h1 hord h2
    (by rw [hw, hr]; simp [maskSel]) (by rw [hw, s1.m, hmm]; simp [maskSel]) (by norm_num [cumsum, cumsumFrom]) rfl (by simp)
  refine ⟨c, {}, ⟨[1, 1], [], []⟩, _, _, rv, vm, after, p, l0, hg, f, hoc.1, hoc.2, hmm, k5, hor, rfl, hch, ?_, hx, rfl, ?_⟩
  · unfold massWithin
    rw [hlen, sumOver_ite]
    have r0 : radiusOf {} c 0 = 3 := by
      unfold radiusOf; rw [hcen]; simp [dist0, Real.sqrt_sq_eq_abs]
    have r1 : radiusOf {} c 1 = 1 := by
      unfold radiusOf; rw [hcen]; simp [dist0, Real.sqrt_sq_eq_abs]
    rw [Finset.sum_range_succ, Finset.sum_range_one, if_pos ⟨hch 0 (by omega), by rw [r0]⟩,
      if_pos ⟨hch 1 (by omega), by rw [r1]; norm_num⟩, hmm]
    norm_num
  · exact circVel_sqrt (getGrav_nonneg _) (by norm_num) (by norm_num)

/-- The hypotheses of `C55_vcirc_partial` hold of a cluster with two stars stored in the wrong order, all chosen. -/
example : ∃ c a e, Pos demoG c ∧ Lin c ∧ Good c ∧ Fresh c ∧ OrderCurrent c ∧ RmCurrent c ∧ c.origin = some .galaxy ∧ a.normalize = true ∧
    PStars.Ok e a.sub c.st.length ∧ (∀ i < c.st.length, Chosen a.sub e none [] c i) ∧
    (∀ i < c.st.length, 0 < radiusOf a.sub c i) ∧ radiusOf a.sub c 1 < radiusOf a.sub c 0 ∧
    BinsCover a c.st.length (Chosen a.sub e none [] c) (radiusOf a.sub c) := by
  have g0 : Good demoShift := ⟨by simp [demoShift], by simp [demoShift], by norm_num [demoShift], by simp [demoShift], by simp [demoShift]⟩
  obtain ⟨c, h, hg⟩ := analyze_total (s := true) (p := true) g0
  obtain ⟨k1, k2, -, k4, k5, kc, kg, -, -, -, -, kr⟩ := core_fields (analyze_core h)
  have p0 : Pos demoG demoShift := ⟨demo_pos.rbar, demo_pos.vbar, demo_pos.zmbar, demo_pos.tbar, demo_pos.ro, demo_pos.vo,
    demo_pos.time, demo_pos.mass, demo_pos.vel⟩
  have hcen : centred c = [⟨-3, 0, 0, 0, 0, 0⟩, ⟨1, 0, 0, 0, 0, 0⟩] := by
    unfold centred
    rw [k2, if_pos (by rfl), k5, kc, kg]
    norm_num [demoShift]
  have hmass : ∀ x ∈ demoShift.m, (0 : ℝ) ≤ x := by intro x hx; simp [demoShift] at hx; rcases hx with rfl | rfl <;> norm_num
  have hoc := analyze_current g0.len hmass (by intro o ho; simp [demoShift] at ho) h
  have hlen : c.st.length = 2 := by rw [k5]; rfl
  have hch : ∀ i < c.st.length, Chosen {} ⟨[1, 1], [], []⟩ none [] c i := by
    intro i hi
    refine ⟨by simp [InMask], ?_⟩
    refine ⟨?_, ?_, ?_, ?_, ?_, ?_⟩ <;> simp [Within, rowsView]
  have r0 : radiusOf {} c 0 = 3 := by
    unfold radiusOf; rw [hcen]; simp [dist0, Real.sqrt_sq_eq_abs]
  have r1 : radiusOf {} c 1 = 1 := by
    unfold radiusOf; rw [hcen]; simp [dist0, Real.sqrt_sq_eq_abs]
  refine ⟨c, { normalize := true }, ⟨[1, 1], [], []⟩, p0.of_rest kr, ⟨by rw [k1]; exact ⟨_, rfl, trivial⟩, by rw [k2]; exact ⟨_, rfl, trivial⟩⟩,
    hg, analyze_fresh h, hoc.1, hoc.2, k2, rfl, by rw [hlen]; exact ⟨rfl, .inl rfl, .inl ⟨rfl, rfl⟩⟩, hch, ?_, ?_, ?_⟩
  · intro i hi
    rw [hlen] at hi
    interval_cases i
    · show (0 : ℝ) < radiusOf {} c 0; rw [r0]; norm_num
    · show (0 : ℝ) < radiusOf {} c 1; rw [r1]; norm_num
  · show radiusOf {} c 1 < radiusOf {} c 0; rw [r0, r1]; norm_num
  · refine .inl ⟨rfl, by norm_num, 0, 1, by omega, by omega, hch 0 (by omega), hch 1 (by omega), ?_⟩
    show radiusOf {} c 0 ≠ radiusOf {} c 1
    rw [r0, r1]; norm_num

end

end CT
