/- C60: the path of the tidal tails. -/
import Verif.Props.PathMatch
import Verif.Lemmas.Tails

namespace CT

noncomputable section

set_option linter.unusedSimpArgs false

theorem match_keeps {g : Galpy} {flow : ℝ → Ph → Ph} {a : MatchArgs} {c c' : Cluster} {u : Units} {s : Scale} {out : List Matched}
    (p : Pos g c) (l : Lin c) (hg : Good c) (hu : c.units = some u) (hs : unitScale g c u = some s) {path : List PathPt}
    (hp : a.path = some path) (h : orbitalPathMatch g flow a c = .ok (out, c')) : Good c' ∧ c'.rest = c.rest := by
  obtain ⟨c1, c2, h1, h2, ik⟩ := in_kpc (sort := false) p l hg hu hs
  obtain ⟨c4, h4, -, -, g4, -, r4⟩ := return_of_world (sort := false) (cm := none) p l hg ik.good ik.lin ik.rest ik.world
  have hm : matchPath g flow a c2 = .ok (path, c2) := by unfold matchPath; rw [hp]; rfl
  unfold orbitalPathMatch at h
  simp only [h1, h2, bind, Except.bind, hm] at h
  obtain ⟨o, -, h⟩ := bind_ok h
  simp only [h4, pure, Except.pure, Except.ok.injEq, Prod.mk.injEq] at h
  rw [← h.2]
  exact ⟨g4, r4⟩

theorem lin_of_data {c c' : Cluster} (hd : c'.data = c.data) (l : Lin c) : Lin c' := by
  have e1 : c'.units = c.units := congrArg Data.units hd
  have e2 : c'.origin = c.origin := congrArg Data.origin hd
  obtain ⟨x1, x2⟩ := l
  exact ⟨by rw [e1]; exact x1, by rw [e2]; exact x2⟩

theorem velocity_kept {g : Galpy} {c : Cluster} {u : Units} {s : Scale} (nz : NZ g c) (hs : unitScale g c u = some s)
    (hv : VelOk .kpckms u) (hw : u ≠ .WDunits) (x : ℝ) : convertVelocity g c .kpckms u x * s.vel = x := by
  by_cases hx : x = 0
  · subst hx
    cases u <;> simp [convertVelocity, Units.isPc, Units.isKpc]
  · have := (C38_velocity_partial nz (su := kpcScale) rfl hs (by simp) hw hx).mpr hv
    simpa [kpcScale] using this

theorem sumOver_mul (n : ℕ) (S : ℕ → Prop) (f : ℕ → ℝ) (q : ℝ) : sumOver n S f * q = sumOver n S (fun i => f i * q) := by
  unfold sumOver
  rw [Finset.sum_mul]

/-- `tail_path` with bins that cover the times of the path. -/
theorem tail_run {g : Galpy} {flow : ℝ → Ph → Ph} (hf : IsFlow flow) {a : TailArgs} {c : Cluster} {u : Units} {s : Scale}
    (p : Pos g c) (l : Lin c) (hg : Good c) (hu : c.units = some u) (hs : unitScale g c u = some s) {T : ℝ}
    (hT : a.tfinal = some T) (hn : 2 ≤ a.no) (hd : a.doFull = false) (hsel : a.dmax = none ∨ a.toPath = false ∧ a.projected = false)
    {Q : List ℝ → List (ℝ × ℝ) → List ℝ → Prop}
    (hbins : ∀ times : List ℝ, times.length = a.no → (∀ k < a.no, times[k]! = -T + k * (2 * T / (a.no - 1))) →
      ∃ Tb B lo hi, tailBins a times = .ok Tb ∧ Contig lo hi B ∧ (∀ t ∈ times, lo ≤ t ∧ t ≤ hi) ∧ Tb.upper = B.map Prod.snd ∧
        Tb.mid.length = B.length ∧ Q times B Tb.mid) :
    ∃ (path : List PathPt) (near : ℕ → ℕ) (B : List (ℝ × ℝ)) (mid : List ℝ) (ks : List ℕ) (rows : List PathPt) (c' : Cluster),
      tailPath g flow a c = .ok (rows, c') ∧ c'.data = c.data ∧ Fresh c' ∧ (Good c' ∧ c'.rest = c.rest) ∧ IsOrbit g flow (orbitStart s a.fromCentre c) T a.no path ∧
      (∀ i < c.st.length, Nearest a.projected (fun j => kpcScale.ph (path[j]!).p) a.no (galStar s c i) (near i)) ∧
      Q (path.map PathPt.t) B mid ∧ ks.Pairwise (· < ·) ∧
      (∀ k, k ∈ ks ↔ k < B.length ∧ 0 < numOver c.st.length (InTailBin path near (a.dmax.map (· * s.len))
        (fun i => between a.projected (kpcScale.ph (path[near i]!).p) (galStar s c i)) B k)) ∧
      List.Forall₂ (fun k row => row.t * s.time = mid[k]! * 1000 ∧
        IsMeanRow s c (InTailBin path near (a.dmax.map (· * s.len))
          (fun i => between a.projected (kpcScale.ph (path[near i]!).p) (galStar s c i)) B k) (VelOk .kpckms u ∧ u ≠ .WDunits) row.p)
        ks rows := by
  obtain ⟨c1, c2, h1, h2, ik⟩ := in_kpc (sort := false) p l hg hu hs
  have p2 := p.of_rest ik.rest
  obtain ⟨path, c3, h3, d3, g3, r3, hlen, hpts⟩ := matchPath_computed (flow := flow) hf (a := a.matchArgs none) p ik rfl hT hn
  have h3' : orbitalPath g flow a.pathArgs c2 = .ok (path, c3) := h3
  have hno : (a.matchArgs none).nt = a.no := rfl
  have hfc : (a.matchArgs none).fromCentre = a.fromCentre := rfl
  rw [hno] at hlen hpts
  rw [hfc] at hpts
  have hne : path ≠ [] := by rintro rfl; simp at hlen; omega
  have p3 := p2.of_rest r3
  have l3 := lin_of_data d3 ik.lin
  have hu3 : c3.units = some .kpckms := (congrArg Data.units d3).trans ik.units
  have ho3 : c3.origin = some .galaxy := (congrArg Data.origin d3).trans ik.origin
  have hst3 : c3.st = c2.st := congrArg Data.st d3
  obtain ⟨Tb, B, lo, hi, hTb, hB, hrange, hup, hmid, hQ⟩ := hbins (path.map PathPt.t) (by simpa using hlen) (fun k hk => by
    rw [list_map_at (by omega)]; exact (hpts k hk).1)
  obtain ⟨out, c4, h4, d4, f4, hol, i0, -, hm⟩ := match_given (flow := flow) (a := a.matchArgs (some path)) (s := kpcScale) p3 l3 g3 hu3 rfl rfl
    hne (fun _ => by omega) hd
  obtain ⟨g4, r4⟩ := match_keeps (s := kpcScale) p3 l3 g3 hu3 rfl rfl h4
  have r4' : c4.rest = c.rest := (r4.trans r3).trans ik.rest
  have hst4 : c4.st = c2.st := (congrArg Data.st d4).trans hst3
  have l4 := lin_of_data d4 l3
  have w4 : world g c4 = world g c := (world_of_data d4 r4).trans ((world_of_data d3 r3).trans ik.world)
  obtain ⟨c5, h5, d5, f5, g5, -, r5⟩ := return_of_world (sort := false) (cm := none) p l hg g4 l4 r4' w4
  obtain ⟨hu5, hs5⟩ := same_units hu hs d5 r5
  have p5 := p.of_rest r5
  have hn3 : c3.st.length = c.st.length := by rw [hst3]; exact ik.len
  rw [hn3] at hm hol
  have hgal : ∀ i < c.st.length, galStar kpcScale c3 i = galStar s c i := by
    intro i hi'
    rw [← ik.star i hi']
    simp only [galStar, ho3, if_true, hst3]
  choose! near hnear using hm
  have hN : ∀ i < c.st.length, Nearest a.projected (fun j => kpcScale.ph (path[j]!).p) a.no (galStar s c i) (near i) := by
    intro i hi'
    obtain ⟨y, sm⟩ := hnear i hi'
    have := sm.nearest
    rw [hgal i hi', hlen] at this
    exact this
  have htime : ∀ i < c.st.length, (out[i]!).t = (path[near i]!).t := by
    intro i hi'
    obtain ⟨y, sm⟩ := hnear i hi'
    have := sm.time
    simp only [kpcScale] at this
    linarith
  set S : ℕ → Prop := fun i => ∀ d, a.dmax.map (· * s.len) = some d →
    between a.projected (kpcScale.ph (path[near i]!).p) (galStar s c i) ≤ d with hS
  have hmask : MaskOf (tailMask (a.dmax.map (fun d => c.units.elim d (fun u => convertLength g c2 u .kpckms d))) out) c.st.length S := by
    refine ⟨by simp [tailMask, hol], fun i hi' => ?_⟩
    unfold tailMask
    rw [list_map_at (by omega)]
    cases hdm : a.dmax with
    | none => simp [hS, hdm]
    | some d =>
      rcases hsel with h | ⟨ht, hpr⟩
      · rw [h] at hdm; cases hdm
      simp only [Option.map_some, Option.elim, hu, hS, Option.some.injEq, forall_eq', hdm]
      obtain ⟨y, sm⟩ := hnear i hi'
      obtain ⟨q, hq, hnan⟩ := sm.nan
      obtain ⟨q', hq', hdist⟩ := sm.dist
      have : q' = q := ph_injective (hq'.trans hq.symm)
      subst this
      rw [hgal i hi'] at hq
      have hdo : distOf (a.matchArgs (some path)).projected (a.matchArgs (some path)).toPath path (near i) q' =
          some (between false (path[near i]!).p q') := by
        simp [distOf, TailArgs.matchArgs, ht, hpr]
      cases hdp : (out[i]!).dpath with
      | none =>
        have := hnan.mp hdp
        rw [hdo] at this
        cases this
      | some x =>
        obtain ⟨d0, e1, e2⟩ := hdist x hdp
        rw [hdo] at e1
        cases e1
        have hb : between a.projected (kpcScale.ph (path[near i]!).p) (galStar s c i) = between false (path[near i]!).p q' * 1000 := by
          rw [← hq, between_scale kpc_pos.le, hpr]; rfl
        have hnn := between_nonneg false (path[near i]!).p q'
        have hx : |x| = between false (path[near i]!).p q' := by
          have hsg : signOf (a.matchArgs (some path)).projected path (near i) y q' = if angularDot (path[near i]!).p q' < 0 then -1 else 1 := by
            simp [signOf, TailArgs.matchArgs, hpr]
          rw [hsg] at e2
          simp only [kpcScale] at e2
          split at e2
          · have : x = -between false (path[near i]!).p q' := by linarith
            rw [this, abs_neg, abs_of_nonneg hnn]
          · have : x = between false (path[near i]!).p q' := by linarith
            rw [this, abs_of_nonneg hnn]
        have hc := C38_length p2.nz (u := u) (t := .kpckms) (su := s) (st := kpcScale)
          (by rw [unitScale_of_rest ik.rest]; exact hs) rfl d
        simp only [kpcScale] at hc
        simp only [decide_eq_true_eq, hx, hb]
        constructor <;> intro h <;> nlinarith
  have hts : ∀ i < c.st.length, (out.map Matched.t)[i]! = (path[near i]!).t := fun i hi' => by
    rw [list_map_at (by omega)]; exact htime i hi'
  have hst4l : c4.st.length = c.st.length := by rw [hst4]; exact ik.len
  obtain ⟨ks, rows, hr, hks, hkm, hrows⟩ := tailRows_ok hB hmask (T := Tb) (ts := out.map Matched.t) (st := c4.st) (by simpa using hol) hst4l
    (fun i hi' => by
      rw [hts i hi']
      refine hrange _ (List.mem_map.mpr ⟨path[near i]!, ?_, rfl⟩)
      have := (hN i hi').1
      rw [getElem!_pos path _ (by omega)]
      exact List.getElem_mem _) hup hmid
  have hcongr : ∀ k, ∀ i < c.st.length, (S i ∧ InBin B k (out.map Matched.t)[i]!) ↔ InTailBin path near (a.dmax.map (· * s.len))
        (fun i => between a.projected (kpcScale.ph (path[near i]!).p) (galStar s c i)) B k i := by
    intro k i hi'
    rw [hts i hi']
    rfl
  have hnum : ∀ k, numOver c.st.length (fun i => S i ∧ InBin B k (out.map Matched.t)[i]!) = numOver c.st.length
      (InTailBin path near (a.dmax.map (· * s.len)) (fun i => between a.projected (kpcScale.ph (path[near i]!).p) (galStar s c i)) B k) := by
    intro k
    have : (numOver c.st.length (fun i => S i ∧ InBin B k (out.map Matched.t)[i]!) : ℝ) = _ :=
      (numOver_eq _ _).trans ((sumOver_congr (hcongr k) fun _ _ _ => rfl).trans (numOver_eq _ _).symm)
    exact_mod_cast this
  refine ⟨path, near, B, Tb.mid, ks, rows.map (convertTail g c5), c5, ?_, d5, f5, ⟨g5, r5⟩, ⟨hlen, hpts⟩, hN, hQ, hks, ?_, ?_⟩
  · unfold tailPath
    simp only [h1, h2, bind, Except.bind, h3', hTb, h4, hr, h5, pure, Except.pure]
  · intro k
    rw [hkm k, hnum k]
  · rw [List.forall₂_map_right_iff]
    have hrows' := (List.forall₂_and_left (p := fun k => k ∈ ks) ks rows).mpr ⟨fun _ h => h, hrows⟩
    refine hrows'.imp ?_
    rintro k row ⟨hk, e0, ex, ey, ez, evx, evy, evz⟩
    have hpos : (0 : ℝ) < numOver c.st.length (InTailBin path near (a.dmax.map (· * s.len))
        (fun i => between a.projected (kpcScale.ph (path[near i]!).p) (galStar s c i)) B k) := by
      have := ((hkm k).mp hk).2
      rw [hnum k] at this
      exact_mod_cast this
    have hL : ∀ x, convertLength g c5 .kpckms u x * s.len = x * 1000 := fun x => C38_length p5.nz (su := kpcScale) rfl hs5 x
    have hV : VelOk .kpckms u ∧ u ≠ .WDunits → ∀ x, convertVelocity g c5 .kpckms u x * s.vel = x :=
      fun h x => velocity_kept p5.nz hs5 h.1 h.2 x
    have pos : ∀ (f : Ph → ℝ) (x : ℝ), (∀ q, f (kpcScale.ph q) = f q * 1000) →
        x * numOver c.st.length (fun i => S i ∧ InBin B k (out.map Matched.t)[i]!) =
          sumOver c.st.length (fun i => S i ∧ InBin B k (out.map Matched.t)[i]!) (fun i => f c4.st[i]!) →
        convertLength g c5 .kpckms u x * s.len = meanOver c.st.length (InTailBin path near (a.dmax.map (· * s.len))
          (fun i => between a.projected (kpcScale.ph (path[near i]!).p) (galStar s c i)) B k) (fun i => f (galStar s c i)) := by
      intro f x hf' e
      rw [hL, meanOver, eq_div_iff hpos.ne', ← hnum k]
      have : x * 1000 * numOver c.st.length (fun i => S i ∧ InBin B k (out.map Matched.t)[i]!) =
          x * numOver c.st.length (fun i => S i ∧ InBin B k (out.map Matched.t)[i]!) * 1000 := by ring
      rw [this, e, sumOver_mul]
      refine sumOver_congr (hcongr k) fun i hi' _ => ?_
      rw [← ik.star i hi', hf', hst4]
    have vel : VelOk .kpckms u ∧ u ≠ .WDunits → ∀ (f : Ph → ℝ) (x : ℝ), (∀ q, f (kpcScale.ph q) = f q) →
        x * numOver c.st.length (fun i => S i ∧ InBin B k (out.map Matched.t)[i]!) =
          sumOver c.st.length (fun i => S i ∧ InBin B k (out.map Matched.t)[i]!) (fun i => f c4.st[i]!) →
        convertVelocity g c5 .kpckms u x * s.vel = meanOver c.st.length (InTailBin path near (a.dmax.map (· * s.len))
          (fun i => between a.projected (kpcScale.ph (path[near i]!).p) (galStar s c i)) B k) (fun i => f (galStar s c i)) := by
      intro hv f x hf' e
      rw [hV hv, meanOver, eq_div_iff hpos.ne', ← hnum k, e]
      refine sumOver_congr (hcongr k) fun i hi' _ => ?_
      rw [← ik.star i hi', hf', hst4]
    have hcv : convertTail g c5 row = { t := convertTime g c5 .kpckms u row.t
                                        p := { x := convertLength g c5 .kpckms u row.p.x, y := convertLength g c5 .kpckms u row.p.y
                                               z := convertLength g c5 .kpckms u row.p.z, vx := convertVelocity g c5 .kpckms u row.p.vx
                                               vy := convertVelocity g c5 .kpckms u row.p.vy
                                               vz := convertVelocity g c5 .kpckms u row.p.vz } } := by
      simp only [convertTail, hu5, Option.elim]
    rw [hcv]
    refine ⟨?_, ?_, ?_, ?_, ?_, ?_, ?_⟩
    · show convertTime g c5 .kpckms u row.t * s.time = _
      rw [C38_time p5.nz (su := 1000) (.inl rfl) (.inl (by rw [hs5]; rfl)), e0]
    · exact pos Ph.x _ (fun q => rfl) ex
    · exact pos Ph.y _ (fun q => rfl) ey
    · exact pos Ph.z _ (fun q => rfl) ez
    · exact fun h => vel h Ph.vx _ (fun q => by simp [Scale.ph, kpcScale]) evx
    · exact fun h => vel h Ph.vy _ (fun q => by simp [Scale.ph, kpcScale]) evy
    · exact fun h => vel h Ph.vz _ (fun q => by simp [Scale.ph, kpcScale]) evz

/-! ### the bins -/

theorem times_range {T : ℝ} {n : ℕ} (hn : 2 ≤ n) {times : List ℝ} (hl : times.length = n)
    (ht : ∀ k < n, times[k]! = -T + k * (2 * T / (n - 1))) :
    -|T| ∈ times ∧ |T| ∈ times ∧ ∀ t ∈ times, -|T| ≤ t ∧ t ≤ |T| := by
  have hn1 : (0 : ℝ) < n - 1 := by
    have : (2 : ℝ) ≤ n := by exact_mod_cast hn
    linarith
  have m1 : -T ∈ times := by
    have := ht 0 (by omega)
    simp only [Nat.cast_zero, zero_mul, add_zero] at this
    rw [← this, getElem!_pos times 0 (by omega)]
    exact List.getElem_mem _
  have m2 : T ∈ times := by
    have := ht (n - 1) (by omega)
    rw [Nat.cast_sub (by omega), Nat.cast_one, mul_div_cancel₀ _ hn1.ne'] at this
    have e : T = times[n - 1]! := by linarith
    rw [e, getElem!_pos times (n - 1) (by omega)]
    exact List.getElem_mem _
  refine ⟨?_, ?_, ?_⟩
  · rcases abs_cases T with ⟨h, -⟩ | ⟨h, -⟩ <;> rw [h]
    · exact m1
    · rw [neg_neg]; exact m2
  · rcases abs_cases T with ⟨h, -⟩ | ⟨h, -⟩ <;> rw [h]
    · exact m2
    · exact m1
  · intro t hmem
    obtain ⟨k, hk, e⟩ := List.getElem_of_mem hmem
    rw [hl] at hk
    have e' : t = -T + k * (2 * T / (n - 1)) := by
      rw [← ht k hk, getElem!_pos times k (by omega), e]
    have hk0 : (0 : ℝ) ≤ k := Nat.cast_nonneg k
    have hk1 : (k : ℝ) ≤ n - 1 := by
      have : (k : ℝ) + 1 ≤ n := by exact_mod_cast hk
      linarith
    have e2 : t = T * (2 * (k / (n - 1)) - 1) := by rw [e']; field_simp; ring
    have q0 : 0 ≤ (k : ℝ) / (n - 1) := by positivity
    have q1 : (k : ℝ) / (n - 1) ≤ 1 := (div_le_one hn1).mpr hk1
    have : |t| ≤ |T| := by
      rw [e2, abs_mul]
      have : |2 * ((k : ℝ) / (n - 1)) - 1| ≤ 1 := abs_le.mpr ⟨by linarith, by linarith⟩
      nlinarith [abs_nonneg T]
    exact abs_le.mp this

theorem tailBins_ok {a : TailArgs} {T : ℝ} (hT : T ≠ 0) (hn : 2 ≤ a.no) (hb : 0 < a.nt) (hr : a.ntail ≤ a.nt) {times : List ℝ}
    (hl : times.length = a.no) (ht : ∀ k < a.no, times[k]! = -T + k * (2 * T / (a.no - 1))) :
    ∃ Tb B lo hi, tailBins a times = .ok Tb ∧ Contig lo hi B ∧ (∀ t ∈ times, lo ≤ t ∧ t ≤ hi) ∧ Tb.upper = B.map Prod.snd ∧
      Tb.mid.length = B.length ∧ TailBins a times T B Tb.mid := by
  obtain ⟨m1, m2, m3⟩ := times_range hn hl ht
  have hpos : 0 < |T| := abs_pos.mpr hT
  have hlt : -|T| < |T| := by linarith
  have hne : times ≠ [] := List.ne_nil_of_mem m1
  have hnr : ¬ a.nt < a.ntail := by omega
  cases hnum : a.num
  · obtain ⟨Tb, hTb, t1, -, -, -, t5⟩ := C26_equal_width_bins times a.nt true hne hb (by simp)
    obtain ⟨hc, hw⟩ := t5 _ _ m1 m2 m3 hlt
    have hTm : Tb.upper.length = a.nt ∧ Tb.mid = List.zipWith (fun u l => (u + l) / 2) Tb.upper Tb.lower := by
      have h' := hTb
      unfold binmaker at h'
      rw [if_neg hne] at h'
      simp only [Except.ok.injEq] at h'
      subst h'
      simp [tabulate] at t1 ⊢
      omega
    have hz : (List.zip Tb.lower Tb.upper).length = a.nt := by simp [List.length_zip, t1, hTm.1]
    have hml : Tb.mid.length = a.nt := by rw [hTm.2]; simp [t1, hTm.1]
    refine ⟨Tb, List.zip Tb.lower Tb.upper, _, _, ?_, hc, m3, (List.map_snd_zip (by omega)).symm, by rw [hz, hml], hc, by rw [hz], ?_, ?_⟩
    · simp only [tailBins, hnum, hnr, if_false, Bool.false_eq_true, hTb]
    · refine fun _ => ⟨hz, fun k hk => ?_⟩
      rw [hz] at hk
      have e : (List.zip Tb.lower Tb.upper)[k]! = (Tb.lower[k]!, Tb.upper[k]!) := by
        rw [getElem!_pos _ k (by omega), List.getElem_zip, getElem!_pos Tb.lower k (by omega), getElem!_pos Tb.upper k (by omega)]
      have hw' := hw rfl k hk
      simp only [List.getD_eq_getElem?_getD, List.getElem?_eq_getElem (show k < Tb.upper.length by omega),
        List.getElem?_eq_getElem (show k < Tb.lower.length by omega), Option.getD_some] at hw'
      rw [e]
      refine ⟨?_, ?_⟩
      · show Tb.upper[k]! - Tb.lower[k]! = _
        rw [getElem!_pos Tb.lower k (by omega), getElem!_pos Tb.upper k (by omega), hw']
        congr 1; ring
      · show Tb.mid[k]! = _
        rw [getElem!_pos Tb.mid k (by omega)]
        simp only [hTm.2, List.getElem_zipWith]
        rw [getElem!_pos Tb.lower k (by omega), getElem!_pos Tb.upper k (by omega)]
        ring
    · intro h; rw [hnum] at h; cases h
  · obtain ⟨Tb, lo, hi, hTb, ⟨a1, a2, a3⟩, t1, t2, t3, t6, t7, -, -, t4, t5⟩ := C25_equal_number_bins times a.nt hb ⟨_, m1, _, m2, hlt.ne⟩
    have el : lo = -|T| := le_antisymm (a3 _ m1).1 (m3 _ a1).1
    have eh : hi = |T| := le_antisymm (m3 _ a2).2 (a3 _ m2).2
    subst el eh
    have hz : (List.zip Tb.lower Tb.upper).length = Tb.lower.length := by simp [List.length_zip, t1]
    refine ⟨Tb, List.zip Tb.lower Tb.upper, _, _, ?_, t3, m3, (List.map_snd_zip (by omega)).symm, by rw [hz, t4], t3, by omega, ?_, ?_⟩
    · simp only [tailBins, hnum, hnr, if_false, if_true, hTb]
    · intro h; rw [hnum] at h; cases h
    · intro _ k hk
      rw [hz] at hk
      obtain ⟨y1, y2, -, -⟩ := t5 k hk
      have hh : Tb.hist.getD k 0 = ((inBin (List.zip Tb.lower Tb.upper) times k).length : ℝ) := by
        rw [t6, List.getD_eq_getElem?_getD, List.getElem?_map, List.getElem?_range hk]; rfl
      have hs : Tb.sum.getD k 0 = (inBin (List.zip Tb.lower Tb.upper) times k).sum := by
        rw [t7, List.getD_eq_getElem?_getD, List.getElem?_map, List.getElem?_range hk]; rfl
      have hm : Tb.mid.getD k 0 = Tb.mid[k]! := by
        rw [getElem!_pos Tb.mid k (by omega), List.getD_eq_getElem?_getD, List.getElem?_eq_getElem (by omega)]; rfl
      rw [hh] at y1
      rw [hh, hs, hm] at y2
      exact ⟨by exact_mod_cast y1, y2⟩

/-- **C60.**  `tail_path` (with `ntail ≤ nt`, all stars or those within `dmax` of the path) follows the tails along the cluster's orbit: every star
belongs to the point of the orbit nearest to it, the orbit's times from `-tfinal` to `tfinal` Gyr are divided into contiguous bins, and there is
one entry for each bin that holds stars, in the order of time: the bin's time and the mean galactocentric position (in the right units also
velocity) of its stars, all in the units of the cluster.  The cluster is left as it was.  Not right: velocities in pcmyr, kpcgyr and WDunits (as
in C38), `tfinal` in Gyr in all units, and `ntail > nt` (`C60_roaming_violated`). -/
theorem C60_tail_partial {g : Galpy} {flow : ℝ → Ph → Ph} (hf : IsFlow flow) {a : TailArgs} {c : Cluster} {u : Units} {s : Scale}
    (p : Pos g c) (l : Lin c) (hg : Good c) (hu : c.units = some u) (hs : unitScale g c u = some s) {T : ℝ} (hT : a.tfinal = some T)
    (hT0 : T ≠ 0) (hn : 2 ≤ a.no) (hb : 0 < a.nt) (hr : a.ntail ≤ a.nt) (hd : a.doFull = false)
    (hsel : a.dmax = none ∨ a.toPath = false ∧ a.projected = false) :
    ∃ (path : List PathPt) (near : ℕ → ℕ) (B : List (ℝ × ℝ)) (mid : List ℝ) (ks : List ℕ) (rows : List PathPt) (c' : Cluster),
      tailPath g flow a c = .ok (rows, c') ∧ c'.data = c.data ∧ Fresh c' ∧ IsOrbit g flow (orbitStart s a.fromCentre c) T a.no path ∧
      (∀ i < c.st.length, Nearest a.projected (fun j => kpcScale.ph (path[j]!).p) a.no (galStar s c i) (near i)) ∧
      TailBins a (path.map PathPt.t) T B mid ∧ ks.Pairwise (· < ·) ∧
      (∀ k, k ∈ ks ↔ k < B.length ∧ 0 < numOver c.st.length (InTailBin path near (a.dmax.map (· * s.len))
        (fun i => between a.projected (kpcScale.ph (path[near i]!).p) (galStar s c i)) B k)) ∧
      List.Forall₂ (fun k row => row.t * s.time = mid[k]! * 1000 ∧
        IsMeanRow s c (InTailBin path near (a.dmax.map (· * s.len))
          (fun i => between a.projected (kpcScale.ph (path[near i]!).p) (galStar s c i)) B k) (VelOk .kpckms u ∧ u ≠ .WDunits) row.p)
        ks rows := by
  obtain ⟨path, near, B, mid, ks, rows, c', h1, h2, h3, -, h4⟩ := tail_run hf p l hg hu hs hT hn hd hsel
    (fun _ h1 h2 => tailBins_ok hT0 hn hb hr h1 h2)
  exact ⟨path, near, B, mid, ks, rows, c', h1, h2, h3, h4⟩

/-- **C60 (no star lost, none counted twice).**  Every star within `dmax` of its point of the orbit is counted in exactly one bin. -/
theorem C60_each_star_once {g : Galpy} {flow : ℝ → Ph → Ph} {a : TailArgs} {start : Ph} {T : ℝ} (hn : 2 ≤ a.no) {path : List PathPt}
    {near : ℕ → ℕ} {B : List (ℝ × ℝ)} {dmax : Option ℝ} {dist : ℕ → ℝ} (ho : IsOrbit g flow start T a.no path)
    (hB : Contig (-|T|) |T| B) {i : ℕ} (hi : near i < a.no) (hd : ∀ d, dmax = some d → dist i ≤ d) :
    ∃! k, k < B.length ∧ InTailBin path near dmax dist B k i := by
  have hr := (times_range hn (times := path.map PathPt.t) (by simpa using ho.1) (fun k hk => by
    rw [list_map_at (by rw [ho.1]; exact hk)]; exact (ho.2 k hk).1)).2.2
  have hm : (path[near i]!).t ∈ path.map PathPt.t := by
    refine List.mem_map.mpr ⟨path[near i]!, ?_, rfl⟩
    rw [getElem!_pos path _ (by rw [ho.1]; exact hi)]
    exact List.getElem_mem _
  obtain ⟨k, -, hk⟩ := hB.index _ (hr _ hm)
  have hkl : k < B.length := by obtain ⟨_, _, e, _⟩ := hk; exact (List.getElem?_eq_some_iff.mp e).1
  exact ⟨k, ⟨hkl, hd, hk⟩, fun j hj => hB.inBin_unique hj.2.2 hk⟩

theorem roamBins_ok {a : TailArgs} {T : ℝ} (hT : T ≠ 0) (hn : 2 ≤ a.no) (hb : 2 ≤ a.nt) (hr : a.nt < a.ntail) (hnum : a.num = false)
    {times : List ℝ} (hl : times.length = a.no) (ht : ∀ k < a.no, times[k]! = -T + k * (2 * T / (a.no - 1))) :
    ∃ Tb B lo hi, tailBins a times = .ok Tb ∧ Contig lo hi B ∧ (∀ t ∈ times, lo ≤ t ∧ t ≤ hi) ∧ Tb.upper = B.map Prod.snd ∧
      Tb.mid.length = B.length ∧ RoamBins a T B Tb.mid := by
  obtain ⟨m1, m2, m3⟩ := times_range hn hl ht
  have hpos : 0 < |T| := abs_pos.mpr hT
  have hne : times ≠ [] := List.ne_nil_of_mem m1
  have emin : minOf times = -|T| := by
    obtain ⟨x1, x2⟩ := minOf_spec hne
    exact le_antisymm (x2 _ m1) (m3 _ x1).1
  have emax : maxOf times = |T| := by
    obtain ⟨x1, x2⟩ := maxOf_spec hne
    exact le_antisymm (m3 _ x1).2 (x2 _ m2)
  have hnt : (2 : ℝ) ≤ a.nt := by exact_mod_cast hb
  have hntl : (a.nt : ℝ) < a.ntail := by exact_mod_cast hr
  have hden : (0 : ℝ) < a.ntail - 1 := by linarith
  have hw : |maxOf times - minOf times| / (a.nt : ℝ) = 2 * |T| / a.nt := by
    rw [emin, emax, sub_neg_eq_add, abs_of_pos (by linarith)]; congr 1; ring
  have hwlt : 2 * |T| / a.nt < 2 * |T| := div_lt_self (by linarith) (by linarith)
  set δ := (2 * |T| - 2 * |T| / a.nt) / (a.ntail - 1) with hδ
  have hδ0 : 0 < δ := div_pos (by linarith) hden
  have hδw : δ < 2 * |T| / a.nt := by
    rw [hδ, div_lt_iff₀ hden, show 2 * |T| - 2 * |T| / a.nt = 2 * |T| / a.nt * (a.nt - 1) by field_simp]
    exact mul_lt_mul_of_pos_left (by linarith) (by positivity)
  have hlow : linspace (minOf times) (maxOf times - |maxOf times - minOf times| / (a.nt : ℝ)) a.ntail =
      (List.range a.ntail).map (windowStart a T) := by
    rw [hw, emin, emax]
    unfold linspace
    refine List.map_congr_left fun k _ => ?_
    unfold windowStart
    rw [show |T| - 2 * |T| / a.nt - -|T| = 2 * |T| - 2 * |T| / a.nt by ring]
  have hupp : (linspace (minOf times) (maxOf times - |maxOf times - minOf times| / (a.nt : ℝ)) a.ntail).map
      (· + |maxOf times - minOf times| / (a.nt : ℝ)) = (List.range a.ntail).map (windowEnd a T) := by
    rw [hlow, List.map_map, hw]; rfl
  obtain ⟨m, hm⟩ : ∃ m, a.ntail = m + 1 := ⟨a.ntail - 1, by omega⟩
  set f : ℕ → ℝ := fun i => if i = 0 then -|T| else windowEnd a T (i - 1) with hf
  have hf0 : f 0 = -|T| := by simp [hf]
  have hfs : ∀ i, f (i + 1) = windowEnd a T i := fun i => by simp [hf]
  have hstep : ∀ i, f i < f (i + 1) := by
    intro i
    rw [hfs]
    cases i with
    | zero =>
      rw [hf0]; simp only [windowEnd, windowStart, Nat.cast_zero, zero_mul, add_zero]
      have : 0 < 2 * |T| / a.nt := by positivity
      linarith
    | succ i =>
      rw [hfs]; simp only [windowEnd, windowStart, ← hδ]; push_cast; linarith
  have hlast : f (m + 1) = |T| := by
    rw [hfs]
    simp only [windowEnd, windowStart]
    have : (m : ℝ) = a.ntail - 1 := by rw [hm]; push_cast; ring
    rw [this, mul_div_cancel₀ _ hden.ne']
    ring
  have hB := contig_range f m (fun i _ => hstep i)
  rw [hf0, hlast] at hB
  rw [show m + 1 = a.ntail from hm.symm] at hB
  set B := (List.range a.ntail).map (fun i => (f i, f (i + 1))) with hBdef
  have hget : ∀ k < a.ntail, B[k]! = (f k, f (k + 1)) := by
    intro k hk
    rw [hBdef, getElem!_pos _ k (by simpa using hk), List.getElem_map, List.getElem_range]
  obtain ⟨Tb, hTb, e1, e2⟩ : ∃ Tb, tailBins a times = .ok Tb ∧
      Tb.upper = (linspace (minOf times) (maxOf times - |maxOf times - minOf times| / (a.nt : ℝ)) a.ntail).map
        (· + |maxOf times - minOf times| / (a.nt : ℝ)) ∧
      Tb.mid = List.zipWith (fun u l => (u + l) / 2) ((linspace (minOf times) (maxOf times - |maxOf times - minOf times| / (a.nt : ℝ)) a.ntail).map
        (· + |maxOf times - minOf times| / (a.nt : ℝ)))
        (linspace (minOf times) (maxOf times - |maxOf times - minOf times| / (a.nt : ℝ)) a.ntail) := by
    unfold tailBins
    rw [hnum, if_neg (by simp), if_pos hr]
    unfold roamingBinmaker
    rw [if_neg hne, if_pos rfl]
    exact ⟨_, rfl, rfl, rfl⟩
  rw [hupp] at e1
  rw [hupp, hlow] at e2
  refine ⟨Tb, B, _, _, hTb, hB, m3, ?_, ?_, ?_⟩
  · rw [e1, hBdef, List.map_map]
    refine List.map_congr_left fun k _ => (hfs k).symm
  · simp [e2, hBdef]
  · refine ⟨hB, by simp [hBdef], fun k hk => ?_, fun k hk => ?_, fun k hk => ?_, fun k hk => ?_⟩
    · rw [e2, getElem!_pos _ k (by simpa using hk), List.getElem_zipWith, List.getElem_map, List.getElem_map, List.getElem_range]
      ring
    · rw [hget k hk, hfs]
    · rw [hget _ hk, hfs]
    · rw [hget _ hk, hfs]
      simp only [windowEnd, windowStart, ← hδ]
      push_cast
      linarith

/-- **C60 is violated for `ntail > nt`:** the entries are documented to be roaming averages, over overlapping windows of `1 / nt` of the range of
times; but a star is counted only in the first window that holds it, so that all entries but the first leave out the stars at the beginning of
their window (`RoamBins.short`). -/
theorem C60_roaming_violated {g : Galpy} {flow : ℝ → Ph → Ph} (hf : IsFlow flow) {a : TailArgs} {c : Cluster} {u : Units} {s : Scale}
    (p : Pos g c) (l : Lin c) (hg : Good c) (hu : c.units = some u) (hs : unitScale g c u = some s) {T : ℝ} (hT : a.tfinal = some T)
    (hT0 : T ≠ 0) (hn : 2 ≤ a.no) (hb : 2 ≤ a.nt) (hr : a.nt < a.ntail) (hnum : a.num = false) (hd : a.doFull = false)
    (hsel : a.dmax = none ∨ a.toPath = false ∧ a.projected = false) :
    ∃ (path : List PathPt) (near : ℕ → ℕ) (B : List (ℝ × ℝ)) (mid : List ℝ) (ks : List ℕ) (rows : List PathPt) (c' : Cluster),
      tailPath g flow a c = .ok (rows, c') ∧ c'.data = c.data ∧ Fresh c' ∧ IsOrbit g flow (orbitStart s a.fromCentre c) T a.no path ∧
      (∀ i < c.st.length, Nearest a.projected (fun j => kpcScale.ph (path[j]!).p) a.no (galStar s c i) (near i)) ∧
      RoamBins a T B mid ∧ ks.Pairwise (· < ·) ∧
      (∀ k, k ∈ ks ↔ k < B.length ∧ 0 < numOver c.st.length (InTailBin path near (a.dmax.map (· * s.len))
        (fun i => between a.projected (kpcScale.ph (path[near i]!).p) (galStar s c i)) B k)) ∧
      List.Forall₂ (fun k row => row.t * s.time = mid[k]! * 1000 ∧
        IsMeanRow s c (InTailBin path near (a.dmax.map (· * s.len))
          (fun i => between a.projected (kpcScale.ph (path[near i]!).p) (galStar s c i)) B k) (VelOk .kpckms u ∧ u ≠ .WDunits) row.p)
        ks rows := by
  obtain ⟨path, near, B, mid, ks, rows, c', h1, h2, h3, -, h4⟩ := tail_run (Q := fun _ B mid => RoamBins a T B mid) hf p l hg hu hs hT hn hd hsel
    (fun _ h1 h2 => roamBins_ok hT0 hn hb hr hnum h1 h2)
  exact ⟨path, near, B, mid, ks, rows, c', h1, h2, h3, h4⟩

end

end CT
