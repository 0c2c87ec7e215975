/- Property theorems C52 (velocity profiles). -/
import Verif.Props.Profiles
import Verif.Props.Coords

namespace CT

noncomputable section

set_option linter.unusedSimpArgs false

/-! ### Velocity components -/

theorem vR_eq (p : Ph) (h : OffAxis p) : (cartToCyl p).vR = component true .r p := by
  obtain ⟨h3, h4⟩ := polar (x := p.x) (y := p.y)
  have hR : Real.sqrt (p.x ^ 2 + p.y ^ 2) ≠ 0 := by
    rw [Real.sqrt_ne_zero']; exact lt_of_le_of_ne (by positivity) (Ne.symm h)
  simp only [component, if_true, cartToCyl]
  rw [eq_div_iff hR]
  linear_combination p.vx * h3 + p.vy * h4

theorem vT_eq (b : Bool) (p : Ph) (h : OffAxis p) : (cartToCyl p).vT = component b .phi p := by
  obtain ⟨h3, h4⟩ := polar (x := p.x) (y := p.y)
  have hR : Real.sqrt (p.x ^ 2 + p.y ^ 2) ≠ 0 := by
    rw [Real.sqrt_ne_zero']; exact lt_of_le_of_ne (by positivity) (Ne.symm h)
  simp only [component, cartToCyl]
  rw [eq_div_iff hR]
  linear_combination p.vy * h3 - p.vx * h4

theorem vphi_eq (b : Bool) (p : Ph) (h : OffAxis p) : (cartToSphere p).vphi = component b .phi p := by
  rw [← vT_eq b p h]; simp [cartToSphere, cartToCyl]

theorem offAxis_ne {p : Ph} (h : OffAxis p) : p.x ^ 2 + p.y ^ 2 + p.z ^ 2 ≠ 0 := by
  intro h0; apply h; nlinarith [sq_nonneg p.x, sq_nonneg p.y, sq_nonneg p.z]

theorem vr_eq (p : Ph) (h : OffAxis p) : (cartToSphere p).vr = component false .r p := by
  obtain ⟨h1, -, -, -, -, -, -, h2⟩ := C32_sphere_meaning p (offAxis_ne h)
  simp only [component, Bool.false_eq_true, if_false]
  rw [eq_div_iff (by exact h1.ne')]
  exact h2

theorem vtheta_eq (p : Ph) (h : OffAxis p) : (cartToSphere p).vtheta = component false .theta p := by
  obtain ⟨h1, h2⟩ := polar_angle (offAxis_ne h)
  obtain ⟨h3, h4⟩ := polar (x := p.x) (y := p.y)
  have hR : Real.sqrt (p.x ^ 2 + p.y ^ 2) ≠ 0 := by
    rw [Real.sqrt_ne_zero']; exact lt_of_le_of_ne (by positivity) (Ne.symm h)
  have hr : Real.sqrt (p.x ^ 2 + p.y ^ 2 + p.z ^ 2) ≠ 0 := by
    rw [Real.sqrt_ne_zero']; exact lt_of_le_of_ne (by positivity) (Ne.symm (offAxis_ne h))
  have hR2 : Real.sqrt (p.x ^ 2 + p.y ^ 2) ^ 2 = p.x ^ 2 + p.y ^ 2 := Real.sq_sqrt (by positivity)
  simp only [component, cartToSphere]
  rw [eq_div_iff (mul_ne_zero hR hr)]
  generalize Real.sqrt (p.x ^ 2 + p.y ^ 2 + p.z ^ 2) = r at *
  generalize Real.arccos (p.z / r) = th at *
  generalize arctan2 p.y p.x = ph at *
  generalize Real.sqrt (p.x ^ 2 + p.y ^ 2) = R at *
  linear_combination (r * Real.cos th) * (p.vx * h3 + p.vy * h4) + (p.x * p.vx + p.y * p.vy) * h1 - p.vz * R * h2 - p.vz * hR2

/-! ### The run -/

/-- `sphere_coords` gives the spherical coordinates of the rows and leaves the analysed cluster as it was. -/
theorem sphere_started {g : Galpy} {c c1 : Cluster} (p : Pos g c) (s : Started g c c1) :
    ∃ c1', sphereCoords g c1 = .ok (c1.st.map cartToSphere, c1') ∧ Started g c c1' := by
  have p1 := p.of_rest s.rest
  obtain ⟨c2, h2, d2, f2, g2, -, r2⟩ := return_of_world (sort := false) (cm := none) p1 s.lin s.good s.good s.lin rfl rfl
  have hna : c1.units ≠ some .amuse := by
    rw [s.units]; split <;> simp_all
  have ho : c1.origin ≠ some .sky := by
    obtain ⟨-, o, ho, hl⟩ := s.lin
    rw [ho]; rintro e; cases e; exact hl
  have hd : ∀ {α : Type} (q : Data → α), q c2.data = q c1.data := fun q => congrArg q d2
  refine ⟨c2, ?_, g2, f2, ?_, ?_, r2.trans s.rest, ?_, ?_, ?_⟩
  · simp only [sphereCoords, coordsOf, if_neg hna, if_neg ho, bind, Except.bind, h2, pure, Except.pure]
  · exact ⟨by rw [show c2.units = c1.units from hd Data.units]; exact s.lin.1,
      by rw [show c2.origin = c1.origin from hd Data.origin]; exact s.lin.2⟩
  · rw [← s.world]; exact world_of_data d2 r2
  · exact (hd Data.m).trans s.m
  · exact (hd Data.st).trans s.st
  · exact (hd Data.units).trans s.units

theorem map_congr_rows {α : Type} {c1 : Cluster} {c : Cluster} (h : c1.st = centred c) {f q : Ph → α}
    (hf : ∀ p ∈ centred c, f p = q p) : c1.st.map f = (centred c).map q := by
  rw [h]; exact List.map_congr_left hf

theorem speeds_eq {g : Galpy} {c c1 : Cluster} (s : Started g c c1) (b : Bool) :
    (if b then c1.d.vpro else c1.d.v) = (centred c).map (component b .v) := by
  cases b
  · rw [if_neg (by simp), s.fresh.v.eq_map, s.st]; rfl
  · rw [if_pos rfl, s.fresh.vpro.eq_map, s.st]; rfl

theorem velColumn_spec {g : Galpy} {c c1 : Cluster} (s : Started g c c1) {k : VKind} {b : Bool} {q : VCoord}
    (hs : Supported k b q) (ho : ∀ p ∈ centred c, OffAxis p) :
    velColumn k q b c1 = .ok ((centred c).map (component b q)) := by
  have hd := speeds_eq s b
  cases q <;> simp only [Supported] at hs <;> unfold velColumn <;> simp only
  · cases b
    · simp only [Bool.false_eq_true, if_false]
      rw [map_congr_rows s.st fun p hp => vr_eq p (ho p hp)]
    · simp only [if_true]
      rw [map_congr_rows s.st fun p hp => vR_eq p (ho p hp)]
  · cases b
    · simp only [Bool.false_eq_true, if_false]
      rw [map_congr_rows s.st fun p hp => vphi_eq false p (ho p hp)]
    · simp only [if_true]
      rw [map_congr_rows s.st fun p hp => vT_eq true p (ho p hp)]
  · subst hs
    simp only [Bool.false_eq_true, if_false]
    rw [map_congr_rows s.st fun p hp => vtheta_eq p (ho p hp)]
  · rw [if_neg hs, s.st]; rfl
  · rw [if_neg hs, s.st]; rfl
  · rw [if_pos hs, s.st]; rfl
  · rw [hd]

/-- The data of a velocity profile: the radii of the rows, the requested component, and a cluster as good as before. -/
theorem velData_spec {g : Galpy} {c c1 : Cluster} (p : Pos g c) (s : Started g c c1) {k : VKind} {b : Bool} {q : Option VCoord}
    (hs : ∀ x, q = some x → Supported k b x) (ho : q ≠ none → ∀ p ∈ centred c, OffAxis p) :
    ∃ c1', velData g k q b c1 = .ok (if b then c1.d.rpro else c1.d.r, (centred c).map (component b (q.getD .v)), c1') ∧
      Started g c c1' ∧ (c1' = c1 ∨ returnCluster g (saveCluster c1) false none c1 = .ok c1') := by
  cases q with
  | none =>
    refine ⟨c1, ?_, s, .inl rfl⟩
    have hd := speeds_eq s b
    cases b
    · simp only [velData, Bool.false_eq_true, if_false, Option.getD_none, ← hd]
    · simp only [velData, if_true, Option.getD_none, ← hd]
  | some x =>
    have hx := hs x rfl
    have ho := ho (by simp)
    cases b
    · obtain ⟨c1', h1, s1⟩ := sphere_started p s
      refine ⟨c1', ?_, s1, .inr ?_⟩
      · simp only [velData, Bool.false_eq_true, if_false, h1, bind, Except.bind, velColumn_spec s1 hx ho, pure, Except.pure,
          Option.getD_some, s.fresh.r.eq_map, List.map_map]
        rfl
      · unfold sphereCoords coordsOf at h1
        have hna : c1.units ≠ some .amuse := by
          rw [s.units]; split <;> simp_all
        have hsky : c1.origin ≠ some .sky := by
          obtain ⟨-, o, ho, hl⟩ := s.lin
          rw [ho]; rintro e; cases e; exact hl
        simp only [bind, Except.bind, if_neg hna, if_neg hsky, pure, Except.pure] at h1
        split at h1
        · cases h1
        · rename_i h2
          injection h1 with h1
          injection h1 with _ h1
          rw [h2, h1]
    · refine ⟨c1, ?_, s, .inl rfl⟩
      simp only [velData, if_true, bind, Except.bind, velColumn_spec s hx ho, pure, Except.pure, Option.getD_some,
        s.fresh.rpro.eq_map]
      rfl

theorem mean_mask {mask : List Bool} {n : ℕ} {S : ℕ → Prop} (h : MaskOf mask n S) {l : List ℝ} (hl : l.length = n) (f : ℝ → ℝ) :
    mean ((maskSel mask l).map f) = meanOver n S (fun i => f l[i]!) := by
  unfold mean meanOver
  rw [h.sum hl, List.length_map, h.length hl]

theorem mean_mask' {mask : List Bool} {n : ℕ} {S : ℕ → Prop} (h : MaskOf mask n S) {l : List ℝ} (hl : l.length = n) :
    mean (maskSel mask l) = meanOver n S (fun i => l[i]!) := by
  have := mean_mask h hl (fun x => x)
  simpa using this

theorem std_mask {mask : List Bool} {n : ℕ} {S : ℕ → Prop} (h : MaskOf mask n S) {l : List ℝ} (hl : l.length = n) :
    npStd (maskSel mask l) = stdOver n S (fun i => l[i]!) := by
  unfold npStd stdOver
  rw [mean_mask' h hl, mean_mask h hl (fun v => (v - meanOver n S (fun i => l[i]!)) ^ 2)]

theorem stat_mask (k : VKind) {mask : List Bool} {n : ℕ} {S : ℕ → Prop} (h : MaskOf mask n S) {l : List ℝ} (hl : l.length = n) :
    k.stat (maskSel mask l) = statOver k n S (fun i => l[i]!) := by
  cases k
  · exact std_mask h hl
  · exact mean_mask' h hl
  · exact mean_mask h hl (fun x => x ^ 2)

theorem meanOver_congr {n : ℕ} {S : ℕ → Prop} {f q : ℕ → ℝ} (h : ∀ i < n, f i = q i) : meanOver n S f = meanOver n S q := by
  unfold meanOver; rw [sumOver_congr (fun _ _ => Iff.rfl) (fun i hi _ => h i hi)]

theorem stdOver_congr {n : ℕ} {S : ℕ → Prop} {f q : ℕ → ℝ} (h : ∀ i < n, f i = q i) : stdOver n S f = stdOver n S q := by
  unfold stdOver
  rw [meanOver_congr h]
  rw [meanOver_congr (q := fun i => (q i - meanOver n S q) ^ 2) (fun i hi => by rw [h i hi])]

theorem statOver_congr (k : VKind) {n : ℕ} {S : ℕ → Prop} {f q : ℕ → ℝ} (h : ∀ i < n, f i = q i) :
    statOver k n S f = statOver k n S q := by
  cases k
  · exact stdOver_congr h
  · exact meanOver_congr h
  · exact meanOver_congr fun i hi => by rw [h i hi]

theorem rows_get {c : Cluster} {f : Ph → ℝ} {i : ℕ} (hi : i < c.st.length) : ((centred c).map f)[i]! = f (centred c)[i]! := by
  have : i < (centred c).length := by rw [centred_length]; exact hi
  rw [getElem!_pos _ i (by simpa using this), getElem!_pos _ i this, List.getElem_map]

theorem massRadii_keeps {o : Option (List ℕ)} {mt : ℝ} {m r : List ℝ} {old x : Option ℝ × Option ℝ} (ho : old.1 ≠ none)
    (h : massRadii o mt m r old = .ok x) : x.1 ≠ none := by
  cases o with
  | none => simp only [massRadii, Except.ok.injEq] at h; rw [← h]; exact ho
  | some o => obtain ⟨a, b, e⟩ := massRadii_some (by simp) h; rw [e]; simp

theorem analyze_hasRm {s p : Bool} {c c' : Cluster} (hr : HasRm c) (h : analyze s c p = .ok c') : HasRm c' := by
  unfold analyze at h
  simp only [bind, Except.bind, pure, Except.pure] at h
  split at h
  · cases h
  · split at h
    · cases h
    · rename_i h1
      split at h
      · cases h
      · rename_i h2
        injection h with h
        rw [← h]
        exact ⟨massRadii_keeps hr.1 h1, massRadii_keeps hr.2 h2⟩

theorem analyze_sort_hasRm {c c' : Cluster} (h : analyze true c true = .ok c') : HasRm c' := by
  obtain ⟨x, y, h1, h2⟩ := analyze_rm_some h
  exact ⟨by rw [h1]; simp, by rw [h2]; simp⟩

theorem return_hasRm {g : Galpy} {q : Option Units × Option Origin × Option (List ℕ) × Option Origin} {sort : Bool}
    {cm : Option CentreMethod} {c c2 : Cluster} (h : returnCluster g q sort cm c = .ok c2) : HasRm c2 := by
  obtain ⟨c0, h0, -⟩ := return_analyze h
  exact analyze_sort_hasRm h0

theorem toCluster_hasRm {c c' : Cluster} (ho : c.origin = some .galaxy) (hu : c.units ≠ some .radec)
    (h : toCluster true none c = .ok c') : HasRm c' := by
  unfold toCluster at h
  simp only [ho, bind, Except.bind, setMethod, if_neg hu] at h
  exact analyze_sort_hasRm h

/-- From the galaxy, `to_centre` first goes to the cluster, sorting, and then to the centre. -/
theorem toCentre_galaxy {s : Bool} {c c' : Cluster} (ho : c.origin = some .galaxy) (hu : c.units ≠ some .radec)
    (h : toCentre s none c = .ok c') : ∃ ca, toCluster true none c = .ok ca ∧
      analyze s { ca with st := ca.st.map (·.sub ca.c), origin := some .centre } = .ok c' := by
  have hs : setMethod none c = c := rfl
  unfold toCentre at h
  rw [ho] at h
  simp only [bind, hs] at h
  rw [if_pos (by simp), if_neg hu, if_pos (by simp)] at h
  simp only [Except.bind] at h
  split at h
  · cases h
  · rename_i h1
    exact ⟨_, h1, h⟩

theorem toCentre_hasRm {s : Bool} {c c' : Cluster} (ho : c.origin = some .galaxy) (hu : c.units ≠ some .radec)
    (h : toCentre s none c = .ok c') : HasRm c' := by
  obtain ⟨ca, h1, h2⟩ := toCentre_galaxy ho hu h
  have hr := toCluster_hasRm ho hu h1
  exact analyze_hasRm (c := { ca with st := ca.st.map (·.sub ca.c), origin := some .centre }) (by exact hr) h2

theorem toPckms_hasRm {g : Galpy} {c c' : Cluster} (hu : c.units = some .amuse) (h : toPckms g true c = .ok c') : HasRm c' := by
  unfold toPckms at h
  simp only [hu, bind, Except.bind, reduceCtorEq, or_self, if_false, if_true, analyzeIf] at h
  exact analyze_sort_hasRm h

theorem profStart_hasRm {g : Galpy} {sm ss : Bool} {c c1 : Cluster} (l : Lin c) (hr : HasRm c) (h : profStart g sm ss c = .ok c1) :
    HasRm c1 := by
  have hsort : ∀ (x : Cluster), HasRm x → HasRm (sortstars true x.d.r x.d.rpro x) := by
    intro x hx
    have : (sortstars true x.d.r x.d.rpro x).d = x.d := by
      unfold sortstars; dsimp only; repeat' split
      all_goals rfl
    unfold HasRm; rw [this]; exact hx
  have fin : ∀ (x : Cluster), HasRm x → x.origin = c.origin → x.units ≠ some .radec →
      (if c.origin ≠ some .cluster ∧ c.origin ≠ some .centre then toCentre sm none x
        else if ss then .ok (sortstars true x.d.r x.d.rpro x) else .ok x) = .ok c1 → HasRm c1 := by
    intro x hx xo xu h
    split at h
    · rename_i ho
      obtain ⟨-, o, ho', hl⟩ := l
      have : x.origin = some .galaxy := by
        rw [xo, ho']; cases o <;> simp_all [Origin.linear]
      exact toCentre_hasRm this xu h
    · split at h
      · injection h with h; rw [← h]; exact hsort x hx
      · injection h with h; rw [← h]; exact hx
  unfold profStart at h
  simp only [bind, Except.bind] at h
  obtain ⟨⟨u, hu, hul⟩, -⟩ := id l
  by_cases ha : c.units = some .amuse
  · rw [if_pos ha] at h
    split at h
    · cases h
    · rename_i h1
      have k := toPckms_amuse ha h1
      exact fin _ (toPckms_hasRm ha h1) k.2.2.2.1 (by rw [k.2.2.1]; simp) h
  · rw [if_neg ha] at h
    exact fin c hr rfl (by rw [hu]; rintro e; cases e; exact hul) h

/-! ### C52 -/

theorem velRadii_spec {a : ProfArgs} {c1 : Cluster} (h : HasRm c1 ∨ a.normalize = false) (mid : List ℝ) :
    ∃ s, velRadii a c1 mid = .ok (if a.normalize then mid.map (· / s) else mid) := by
  unfold velRadii
  split
  · rename_i hn
    rcases h with h | h
    · cases a.sub.projected
      · obtain ⟨x, hx⟩ := Option.ne_none_iff_exists'.mp h.1
        exact ⟨x, by simp [divRm_some hx]⟩
      · obtain ⟨x, hx⟩ := Option.ne_none_iff_exists'.mp h.2
        exact ⟨x, by simp [divRm_some hx]⟩
    · simp [h] at hn
  · exact ⟨0, rfl⟩

theorem velProf_core {g : Galpy} {c : Cluster} (p : Pos g c) (l : Lin c) (hg : Good c) (f : Fresh c) {a : ProfArgs} {e : PStars}
    {indx : Option ℕ} {mem : Mem} (he : e.Ok a.sub c.st.length) (hm : ∀ q, indx = some q → mem[q]!.length = c.st.length)
    (hr : HasRm c ∨ a.normalize = false) (k : VKind) (coord : Option VCoord)
    (hs : ∀ x, coord = some x → Supported k a.sub.projected x) (hax : coord ≠ none → ∀ q ∈ centred c, OffAxis q)
    (hc : BinsCover a c.st.length (Chosen a.sub e indx mem c) (radiusOf a.sub c)) :
    ∃ rs vs after P, velProf g k a coord e indx mem c = .ok ((rs, vs), after) ∧ ReportedBins a e indx mem c P ∧
      VelRadii a e indx mem c P rs ∧ (∃ c1 c1' mid, profStart g a.normalize a.normalize c = .ok c1 ∧ Started g c c1 ∧ Started g c c1' ∧
        (c1' = c1 ∨ returnCluster g (saveCluster c1) false none c1 = .ok c1') ∧ BinRadii a e indx mem c P mid ∧
        velRadii a c1' mid = .ok rs) ∧ vs.length = P.length ∧
      (∀ i < P.length,
        (3 < numOver c.st.length (InProfBin a e indx mem c P i) →
          vs[i]! = statOver k c.st.length (InProfBin a e indx mem c P i) (velOf a.sub.projected coord c)) ∧
        (numOver c.st.length (InProfBin a e indx mem c P i) ≤ 3 → vs[i]! = 0)) ∧
      after.cluster.data = c.data ∧ Fresh after.cluster ∧ after.mid = a.bins.map (fun b => b.2.1) ∧
      (∀ mem'', (∃ c1, Started g c c1 ∧ ∃ k, getSubset a.sub (viewOf c1 e) indx mem = .ok (k, mem'')) → after.mem = mem'') := by
  obtain ⟨c1, j, mem', B, P, -, h1, s1, h2, h3, hB, -⟩ := prof_parts a.normalize a.normalize p l hg f he hm hc
  obtain ⟨c1', h4, s1', hd⟩ := velData_spec (k := k) p s1 hs hax
  obtain ⟨c2, h5, d2, f2, g2, -, r2⟩ := return_of_world (sort := false) (cm := none) p l hg s1'.good s1'.lin s1'.rest s1'.world
  have hrm : HasRm c1' ∨ a.normalize = false := by
    rcases hr with hr | hr
    · rcases hd with rfl | hd
      · exact .inl (profStart_hasRm l hr h1)
      · exact .inl (return_hasRm hd)
    · exact .inr hr
  obtain ⟨s, h6⟩ := velRadii_spec hrm B.mid
  have hu : c2.units = c.units := congrArg Data.units d2
  have hcl := fun x => conv_id s1' hu (f := fun u t v => .ok (convertLength g c2 u t v)) (by simp [convertLength])
    (by simp [convertLength, Units.isPc, Units.isKpc]) x
  have hcv := fun x => conv_id s1' hu (f := k.convert g c2)
    (by intro u x; cases k <;> simp [VKind.convert, convertVelocity, convertSquareVelocity])
    (by intro x; cases k <;> simp [VKind.convert, convertVelocity, convertSquareVelocity, Units.isPc, Units.isKpc]) x
  have hlast : (if k = .disp ∨ ¬ a.normalize = true then
      convUnits (fun u t x => .ok (convertLength g c2 u t x)) c1' c2 (if a.normalize then B.mid.map (· / s) else B.mid)
      else .ok (if a.normalize then B.mid.map (· / s) else B.mid)) = .ok (if a.normalize then B.mid.map (· / s) else B.mid) := by
    split
    · exact hcl _
    · rfl
  refine ⟨if a.normalize then B.mid.map (· / s) else B.mid,
    (List.range P.length).map (fun i => binStat k.stat (B.at i) ((centred c).map (component a.sub.projected (coord.getD .v)))),
    ⟨c2, mem', a.bins.map (fun b => b.2.1)⟩, P, ?_, hB.reported,
    ⟨B.mid, hB.radii, fun hn => by rw [if_neg (by simp [hn])], fun hn => ⟨s, by rw [if_pos hn]⟩⟩, ⟨c1, c1', B.mid, h1, s1, s1', hd, hB.radii, h6⟩,
    by simp, ?_, d2, f2, rfl, ?_⟩
  · simp only [velProf, bind, Except.bind, h1, h2, h4, h3, h6, h5, hB.lenm]
    refine ite_bind_of (f := fun rn => _) hlast ?_
    simp only [hcv, pure, Except.pure]
  · intro i hi
    rw [map_get! _ _ hi]
    unfold binStat
    have hM : MaskOf (B.at i) c.st.length (InProfBin a e indx mem c P i) := hB.atBin i hi
    rw [hM.count, stat_mask k hM (by simp [centred_length])]
    constructor
    · intro hn
      rw [if_pos hn]
      exact statOver_congr k fun q hq => rows_get hq
    · intro hn
      rw [if_neg (by omega)]
  · rintro mem'' ⟨c1'', s'', k', hk'⟩
    rw [s''.view, ← s1.view, h2] at hk'
    exact (Prod.mk.inj (Except.ok.inj hk')).2

/-- **C52 (velocity profiles).**  For every linear cluster, filter, mask and bins that cover the chosen radii, and every
component the function can compute, `sigv_prof`, `v_prof` and `v2_prof` succeed and report, for each bin with more than
three chosen stars, the standard deviation, mean or mean square of that component over exactly the chosen stars in the
bin, and 0 for the other bins; the cluster is left as it was. -/
theorem C52_velocity_partial {g : Galpy} {c : Cluster} (p : Pos g c) (l : Lin c) (hg : Good c) (f : Fresh c) {a : ProfArgs} {e : PStars}
    {indx : Option ℕ} {mem : Mem} (he : e.Ok a.sub c.st.length) (hm : ∀ q, indx = some q → mem[q]!.length = c.st.length)
    (hr : HasRm c ∨ a.normalize = false) (k : VKind) (coord : Option VCoord)
    (hs : ∀ x, coord = some x → Supported k a.sub.projected x) (hax : coord ≠ none → ∀ q ∈ centred c, OffAxis q)
    (hc : BinsCover a c.st.length (Chosen a.sub e indx mem c) (radiusOf a.sub c)) :
    ∃ rs vs after P, velProf g k a coord e indx mem c = .ok ((rs, vs), after) ∧ ReportedBins a e indx mem c P ∧
      VelRadii a e indx mem c P rs ∧ vs.length = P.length ∧
      (∀ i < P.length,
        (3 < numOver c.st.length (InProfBin a e indx mem c P i) →
          vs[i]! = statOver k c.st.length (InProfBin a e indx mem c P i) (velOf a.sub.projected coord c)) ∧
        (numOver c.st.length (InProfBin a e indx mem c P i) ≤ 3 → vs[i]! = 0)) ∧
      after.cluster.data = c.data ∧ Fresh after.cluster := by
  obtain ⟨rs, vs, after, P, x1, x2, x3, -, x4, x5, x6, x7, -⟩ := velProf_core p l hg f he hm hr k coord hs hax hc
  exact ⟨rs, vs, after, P, x1, x2, x3, x4, x5, x6, x7⟩

theorem beta_mask {projected : Bool} {c : Cluster} {mask : List Bool} {S : ℕ → Prop} (h : MaskOf mask c.st.length S) (vt : List ℝ)
    (hv : projected = false → vt = (centred c).map (component false .theta)) :
    betaOf projected (maskSel mask ((centred c).map (component projected .r))) (maskSel mask ((centred c).map (component projected .phi)))
      (maskSel mask vt) = anisotropyOver projected c S := by
  have key : ∀ q, npStd (maskSel mask ((centred c).map (component projected q))) =
      stdOver c.st.length S (velOf projected (some q) c) := by
    intro q
    rw [std_mask h (by simp [centred_length])]
    exact stdOver_congr fun i hi => rows_get hi
  unfold betaOf anisotropyOver
  cases projected
  · rw [hv rfl, key .r, key .phi, key .theta]
  · rw [key .r, key .phi]; rfl

/-- **C52 (anisotropy profile).**  `beta_prof` reports for each bin with more than three chosen stars the anisotropy of
exactly the chosen stars in the bin, and 0 for the other bins; the cluster is left as it was. -/
theorem C52_anisotropy {g : Galpy} {c : Cluster} (p : Pos g c) (l : Lin c) (hg : Good c) (f : Fresh c) {a : ProfArgs} {e : PStars}
    {indx : Option ℕ} {mem : Mem} (he : e.Ok a.sub c.st.length) (hm : ∀ q, indx = some q → mem[q]!.length = c.st.length)
    (hr : HasRm c ∨ a.normalize = false) (hax : ∀ q ∈ centred c, OffAxis q)
    (hc : BinsCover a c.st.length (Chosen a.sub e indx mem c) (radiusOf a.sub c)) :
    ∃ rs bs after P, betaProf g a e indx mem c = .ok ((rs, bs), after) ∧ ReportedBins a e indx mem c P ∧
      VelRadii a e indx mem c P rs ∧ bs.length = P.length ∧
      (∀ i < P.length,
        (3 < numOver c.st.length (InProfBin a e indx mem c P i) →
          bs[i]! = anisotropyOver a.sub.projected c (InProfBin a e indx mem c P i)) ∧
        (numOver c.st.length (InProfBin a e indx mem c P i) ≤ 3 → bs[i]! = 0)) ∧
      after.cluster.data = c.data ∧ Fresh after.cluster := by
  obtain ⟨c1, j, mem', B, P, -, h1, s1, h2, h3, hB, -⟩ := prof_parts a.normalize a.normalize p l hg f he hm hc
  obtain ⟨c1', h4, s1', hd⟩ := velData_spec (k := .disp) (q := some .r) (b := a.sub.projected) p s1 (fun x hx => by cases hx; trivial) (fun _ => hax)
  obtain ⟨c2, h5, d2, f2, g2, -, r2⟩ := return_of_world (sort := false) (cm := none) p l hg s1'.good s1'.lin s1'.rest s1'.world
  have hrm : HasRm c1' ∨ a.normalize = false := by
    rcases hr with hr | hr
    · rcases hd with rfl | hd
      · exact .inl (profStart_hasRm l hr h1)
      · exact .inl (return_hasRm hd)
    · exact .inr hr
  obtain ⟨s, h6⟩ := velRadii_spec hrm B.mid
  have hu : c2.units = c.units := congrArg Data.units d2
  have hcl := fun x => conv_id s1' hu (f := fun u t v => .ok (convertLength g c2 u t v)) (by simp [convertLength])
    (by simp [convertLength, Units.isPc, Units.isKpc]) x
  have h7 : velColumn .disp .phi a.sub.projected c1' = .ok ((centred c).map (component a.sub.projected .phi)) :=
    velColumn_spec s1' trivial hax
  obtain ⟨vt, h8, hvt⟩ : ∃ vt, (if a.sub.projected then .ok [] else velColumn .disp .theta false c1') = .ok vt ∧
      (a.sub.projected = false → vt = (centred c).map (component false .theta)) := by
    cases hb : a.sub.projected
    · exact ⟨_, by rw [if_neg (by simp)]; exact velColumn_spec s1' rfl hax, fun _ => rfl⟩
    · exact ⟨[], by rw [if_pos rfl], by simp⟩
  refine ⟨if a.normalize then B.mid.map (· / s) else B.mid,
    (List.range P.length).map (fun i =>
    if 3 < (B.at i).count true then
      betaOf a.sub.projected (maskSel (B.at i) ((centred c).map (component a.sub.projected .r)))
        (maskSel (B.at i) ((centred c).map (component a.sub.projected .phi))) (maskSel (B.at i) vt) else 0),
    ⟨c2, mem', a.bins.map (fun b => b.2.1)⟩, P, ?_, hB.reported,
    ⟨B.mid, hB.radii, fun hn => by rw [if_neg (by simp [hn])], fun hn => ⟨s, by rw [if_pos hn]⟩⟩, by simp, ?_, d2, f2⟩
  · rw [Option.getD_some] at h4
    simp only [betaProf, bind, Except.bind, h1, h2, h4, h7]
    by_cases hb : a.sub.projected = true
    · rw [if_pos hb] at h8 ⊢
      injection h8 with h8
      subst h8
      simp only [h3, h6, h5, hB.lenm]
      by_cases hn : a.normalize = true
      · rw [if_pos hn]; rfl
      · rw [if_neg hn, hcl]; rfl
    · rw [if_neg hb] at h8
      rw [if_neg hb]
      simp only [h8, h3, h6, h5, hB.lenm]
      by_cases hn : a.normalize = true
      · rw [if_pos hn]; rfl
      · rw [if_neg hn, hcl]; rfl
  · intro i hi
    rw [map_get! _ _ hi]
    have hM : MaskOf (B.at i) c.st.length (InProfBin a e indx mem c P i) := hB.atBin i hi
    rw [hM.count, beta_mask hM vt hvt]
    constructor
    · intro hn; rw [if_pos hn]
    · intro hn; rw [if_neg (by omega)]

/-- **C52 fails for these documented components.**  `v_prof` and `v2_prof` stop with a NameError for `coord='z'` without
projection; all three stop with a NameError for `coord='theta'` in projection (`bins` or not, for every cluster they
accept otherwise). -/
theorem C52_nameError_violated {g : Galpy} {c : Cluster} (p : Pos g c) (l : Lin c) (hg : Good c) (f : Fresh c) {a : ProfArgs} {e : PStars}
    {indx : Option ℕ} {mem : Mem} (he : e.Ok a.sub c.st.length) (hm : ∀ q, indx = some q → mem[q]!.length = c.st.length) (k : VKind) :
    (a.sub.projected = false → k ≠ .disp → velProf g k a (some .z) e indx mem c = .error .nameError) ∧
    (a.sub.projected = true → velProf g k a (some .theta) e indx mem c = .error .nameError) := by
  obtain ⟨c1, h1, s1⟩ := profStart_spec (g := g) a.normalize a.normalize p l hg f
  obtain ⟨j, mem', h2, -⟩ := chosen_mask (e := e) (q := a.sub) s1 hg he hm
  constructor
  · intro hp hk
    obtain ⟨c1', h3, s1'⟩ := sphere_started p s1
    simp [velProf, bind, Except.bind, h1, h2, velData, hp, h3, velColumn, hk]
  · intro hp
    simp [velProf, bind, Except.bind, h1, h2, velData, hp, velColumn]

/-- **C52 fails for `v2_prof(coord='x')`** (and `'y'`, and every unknown name): the profile is that of the speed. -/
theorem C52_wrong_component_violated (g : Galpy) (a : ProfArgs) (e : PStars) (indx : Option ℕ) (mem : Mem) (c : Cluster) :
    velProf g .meanSq a (some .x) e indx mem c = velProf g .meanSq a (some .v) e indx mem c ∧
    velProf g .meanSq a (some .y) e indx mem c = velProf g .meanSq a (some .v) e indx mem c ∧
    ∀ k, velProf g k a (some .other) e indx mem c = velProf g k a (some .v) e indx mem c := by
  refine ⟨?_, ?_, fun k => ?_⟩ <;> simp [velProf, velData, velColumn]

/-- The two components differ: the demo stars are off the axis and have other speeds than x components. -/
example : (∀ q ∈ demo.st, OffAxis q) ∧ component false .x demo.st[1]! ≠ component false .v demo.st[1]! ∧
    component false .r demo.st[0]! = 3 / 5 ∧ component false .theta demo.st[0]! = 4 / 5 := by
  have h25 : Real.sqrt 25 = 5 := by rw [show (25 : ℝ) = 5 ^ 2 by norm_num]; exact Real.sqrt_sq (by norm_num)
  have h9 : Real.sqrt 9 = 3 := by rw [show (9 : ℝ) = 3 ^ 2 by norm_num]; exact Real.sqrt_sq (by norm_num)
  have e0 : demo.st[0]! = ⟨3, 0, 4, 1, 0, 0⟩ := rfl
  have e1 : demo.st[1]! = ⟨0, 1, 0, 0, -2, 5⟩ := rfl
  rw [e0, e1]
  refine ⟨?_, ?_, ?_, ?_⟩
  · intro q hq
    simp only [demo, List.mem_cons, List.not_mem_nil, or_false] at hq
    rcases hq with rfl | rfl <;> norm_num [OffAxis]
  · have : (0 : ℝ) < Real.sqrt (0 ^ 2 + (-2) ^ 2 + 5 ^ 2) := Real.sqrt_pos.mpr (by norm_num)
    exact this.ne
  · simp only [component]; norm_num [h25]
  · simp only [component]; norm_num [h25, h9]

/-- Five stars, given from the galactic centre. -/
def demoFive : Cluster :=
  { demo with
    origin := some .galaxy, m := [1, 2, 3, 4, 5], c := ⟨0, 0, 0, 0, 0, 0⟩, gc := ⟨10, 0, 0, 0, 0, 0⟩,
    st := [⟨11, 0, 0, 1, 0, 0⟩, ⟨12, 0, 0, 0, 1, 0⟩, ⟨13, 0, 0, 0, 0, 1⟩, ⟨6, 0, 0, -1, 0, 0⟩, ⟨5, 0, 0, 0, 0, 2⟩],
    rorder := none, rproorder := none }

/-- The hypotheses of C52 hold of it, with a bin that has more than three stars. -/
example : ∃ c a e P, Pos demoG c ∧ Lin c ∧ Good c ∧ Fresh c ∧ HasRm c ∧ c.st = demoFive.st ∧ PStars.Ok e a.sub c.st.length ∧
    a.normalize = true ∧ (∀ q ∈ centred c, OffAxis q) ∧
    BinsCover a c.st.length (Chosen a.sub e none [] c) (radiusOf a.sub c) ∧
    3 < numOver c.st.length (InProfBin a e none [] c P 0) := by
  have g0 : Good demoFive := ⟨by simp [demoFive], by simp [demoFive], by norm_num [demoFive], by simp [demoFive], by simp [demoFive]⟩
  obtain ⟨c, h, hg⟩ := analyze_total (s := true) (p := true) g0
  obtain ⟨k1, k2, -, k4, k5, kc, kg, -, -, -, -, kr⟩ := core_fields (analyze_core h)
  have p0 : Pos demoG demoFive := ⟨demo_pos.rbar, demo_pos.vbar, demo_pos.zmbar, demo_pos.tbar, demo_pos.ro, demo_pos.vo,
    demo_pos.time, demo_pos.mass, demo_pos.vel⟩
  have hcen : centred c = [⟨1, 0, 0, 1, 0, 0⟩, ⟨2, 0, 0, 0, 1, 0⟩, ⟨3, 0, 0, 0, 0, 1⟩, ⟨-4, 0, 0, -1, 0, 0⟩, ⟨-5, 0, 0, 0, 0, 2⟩] := by
    unfold centred
    rw [k2, if_pos (by rfl), k5, kc, kg]
    norm_num [demoFive]
  have hrad : ∀ i < 5, radiusOf {} c i = i + 1 := by
    intro i hi
    unfold radiusOf
    rw [hcen]
    interval_cases i <;> simp [dist0, Real.sqrt_sq_eq_abs] <;> norm_num
  have hch : ∀ i, Chosen {} ⟨[1, 1, 1, 1, 1], [], []⟩ none [] c i := fun i =>
    ⟨fun q h => (by cases h), by constructor <;> simp [Within, rowsView]⟩
  refine ⟨c, { bins := some ([0, 7], [3, 8], [7, 9]), normalize := true }, ⟨[1, 1, 1, 1, 1], [], []⟩, [(0, 7), (7, 9)],
    p0.of_rest kr, ?_, hg, analyze_fresh h, analyze_sort_hasRm h, k5, ?_, rfl, ?_, ?_, ?_⟩
  · exact ⟨by rw [k1]; exact ⟨_, rfl, trivial⟩, by rw [k2]; exact ⟨_, rfl, trivial⟩⟩
  · rw [k5]; exact ⟨rfl, .inl rfl, .inl ⟨rfl, rfl⟩⟩
  · rw [hcen]; intro q hq
    simp only [List.mem_cons, List.not_mem_nil, or_false] at hq
    rcases hq with rfl | rfl | rfl | rfl | rfl <;> norm_num [OffAxis]
  · refine .inr ⟨_, 0, 9, rfl, rfl, rfl, .cons (by norm_num) (.one (by norm_num)), ?_⟩
    intro i hi _
    rw [k5] at hi
    have hi' : i < 5 := hi
    show 0 ≤ radiusOf {} c i ∧ radiusOf {} c i ≤ 9
    rw [hrad i hi']
    interval_cases i <;> norm_num
  · rw [k5]
    have : ∀ i < 5, InProfBin { bins := some ([0, 7], [3, 8], [7, 9]), normalize := true } ⟨[1, 1, 1, 1, 1], [], []⟩ none [] c
        [(0, 7), (7, 9)] 0 i := by
      intro i hi
      refine ⟨hch i, 0, 7, rfl, ?_⟩
      show 0 ≤ radiusOf {} c i ∧ (radiusOf {} c i < 7 ∨ _)
      rw [hrad i hi]
      interval_cases i <;> norm_num
    classical
    have h5 : demoFive.st.length = 5 := rfl
    unfold numOver
    rw [h5, Finset.filter_true_of_mem (fun i hi => this i (Finset.mem_range.mp hi))]
    simp

end

end CT
