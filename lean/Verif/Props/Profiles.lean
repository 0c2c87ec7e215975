/- Property theorems C37 (mass profiles), C51 (density profiles). -/
import Verif.Lemmas.Profiles
import Verif.Props.Convert
import Verif.Props.Energy2
import Mathlib.Tactic.IntervalCases

namespace CT

noncomputable section

set_option linter.unusedSimpArgs false

/-! ### Helpers -/

theorem conv_id {g : Galpy} {c c1 c2 : Cluster} (s : Started g c c1) (hu : c2.units = c.units)
    {f : Units → Units → ℝ → Except Err ℝ} (h1 : ∀ u x, f u u x = .ok x) (h2 : ∀ x, f .pckms .amuse x = .ok x) (l : List ℝ) :
    convUnits f c1 c2 l = .ok l := by
  have key : ∀ q : ℝ → Except Err ℝ, (∀ x, q x = .ok x) → l.mapM q = .ok l := by
    intro q hq
    have := mapM_ok l q (fun x => x) (fun x _ => hq x)
    simpa using this
  unfold convUnits
  obtain ⟨⟨u1, hu1, -⟩, -⟩ := s.lin
  have := s.units
  by_cases ha : c.units = some .amuse
  · rw [if_pos ha] at this
    rw [this, hu, ha]
    exact key _ h2
  · rw [if_neg ha] at this
    rw [hu, ← this, hu1]
    exact key _ (h1 u1)

theorem divRm_some {o : Option ℝ} {k : ℝ} (h : o = some k) (l : List ℝ) : divRm o l = .ok (l.map (· / k)) := by
  subst h; rfl

theorem massRadii_some {o : Option (List ℕ)} {mt : ℝ} {m r : List ℝ} {old x : Option ℝ × Option ℝ} (ho : o ≠ none)
    (h : massRadii o mt m r old = .ok x) : ∃ a b, x = (some a, some b) := by
  cases o with
  | none => exact absurd rfl ho
  | some o =>
    simp only [massRadii, bind, Except.bind, pure, Except.pure] at h
    split at h
    · cases h
    · split at h
      · cases h
      · injection h with h; exact ⟨_, _, h.symm⟩

theorem sortstars_some (r rp : List ℝ) (c : Cluster) :
    (sortstars true r rp c).rorder ≠ none ∧ (sortstars true r rp c).rproorder ≠ none := by
  unfold sortstars
  dsimp only
  constructor
  all_goals
    repeat' split
    all_goals simp_all

/-- A sorting analysis sets the half-mass radii. -/
theorem analyze_rm_some {c c' : Cluster} (h : analyze true c true = .ok c') : ∃ x y, c'.d.rm = some x ∧ c'.d.rmpro = some y := by
  unfold analyze at h
  simp only [bind, Except.bind, pure, Except.pure, if_true] at h
  split at h
  · cases h
  · split at h
    · cases h
    · rename_i h1
      split at h
      · cases h
      · rename_i h2
        injection h with h
        obtain ⟨a, b, e1⟩ := massRadii_some (sortstars_some _ _ c).1 h1
        obtain ⟨a', b', e2⟩ := massRadii_some (sortstars_some _ _ c).2 h2
        refine ⟨a, a', ?_, ?_⟩
        · rw [← h, e1]
        · rw [← h, e2]

/-- `return_cluster` ends with a sorting analysis of the saved order. -/
theorem return_analyze {g : Galpy} {q : Option Units × Option Origin × Option (List ℕ) × Option Origin} {sort : Bool}
    {cm : Option CentreMethod} {c c2 : Cluster} (h : returnCluster g q sort cm c = .ok c2) :
    ∃ c0, analyze true c0 true = .ok c2 ∧ c0.rorder = q.2.2.1 ∧ c0.rorderOrigin = q.2.2.2 := by
  obtain ⟨q1, q2, q3, q4⟩ := q
  unfold returnCluster at h
  simp only [bind, Except.bind] at h
  repeat' split at h
  all_goals first
    | cases h; done
    | exact ⟨_, h, rfl, rfl⟩

/-! ### The run of `m_prof` and `rho_prof` -/

/-- The radii come back divided by the half-mass radius of the restored cluster if `normalize` is set. -/
theorem radii_out {g : Galpy} {a : ProfArgs} {c c1 c2 : Cluster} (s : Started g c c1) (hu : c2.units = c.units)
    (hp : a.plot = false ∨ a.normalize = false) {rm : ℝ} (hrm : c2.d.rm = some rm) (mid : List ℝ) :
    massRadiiOut g a c1 c2 mid = .ok (if a.normalize then mid.map (· / rm) else mid) := by
  have hc := conv_id s hu (f := fun u t v => .ok (convertLength g c2 u t v)) (by simp [convertLength])
    (by simp [convertLength, Units.isPc, Units.isKpc]) mid
  unfold massRadiiOut
  have hn : ¬ (a.plot = true ∧ a.normalize = true) := by rintro ⟨h1, h2⟩; simp_all
  rw [if_neg hn]
  simp only [bind, Except.bind, hc, divRm_some hrm]
  split <;> rfl

/-- Everything the property theorems about mass-type profiles use. -/
theorem prof_parts {g : Galpy} {c : Cluster} (sm ss : Bool) (p : Pos g c) (l : Lin c) (hg : Good c) (f : Fresh c) {a : ProfArgs} {e : PStars}
    {indx : Option ℕ} {mem : Mem} (he : e.Ok a.sub c.st.length) (hm : ∀ q, indx = some q → mem[q]!.length = c.st.length)
    (hc : BinsCover a c.st.length (Chosen a.sub e indx mem c) (radiusOf a.sub c)) :
    ∃ c1 k mem' B P c2, profStart g sm ss c = .ok c1 ∧ Started g c c1 ∧
      getSubset a.sub (viewOf c1 e) indx mem = .ok (some k, mem') ∧
      profBinned a (if a.sub.projected then c1.d.rpro else c1.d.r) (some k, mem') = .ok B ∧
      BinnedOk a c.st.length (Chosen a.sub e indx mem c) (radiusOf a.sub c) B P ∧
      returnCluster g (saveCluster c) false none c1 = .ok c2 ∧ c2.data = c.data ∧ Fresh c2 ∧ Good c2 ∧ c2.rest = c.rest := by
  obtain ⟨c1, h1, s1⟩ := profStart_spec (g := g) sm ss p l hg f
  obtain ⟨k, mem', h2, hS⟩ := chosen_mask (e := e) (q := a.sub) s1 hg he hm
  have hrad : ∀ i < c.st.length, (if a.sub.projected then c1.d.rpro else c1.d.r)[i]! = radiusOf a.sub c i := by
    intro i hi
    have hi' : i < (centred c).length := by rw [centred_length]; exact hi
    unfold radiusOf
    rw [getElem!_pos (centred c) i hi']
    cases a.sub.projected
    · rw [if_neg (by simp), s1.fresh.r.eq_map, s1.st, getElem!_pos _ i (by simpa using hi'), List.getElem_map]; rfl
    · rw [if_pos rfl, s1.fresh.rpro.eq_map, s1.st, getElem!_pos _ i (by simpa using hi'), List.getElem_map]; rfl
  have hlen : (if a.sub.projected then c1.d.rpro else c1.d.r).length = c.st.length := by
    split
    · rw [s1.fresh.rpro.length, s1.st, centred_length]
    · rw [s1.fresh.r.length, s1.st, centred_length]
  generalize hrs : (if a.sub.projected then c1.d.rpro else c1.d.r) = rs at *
  have hc' : BinsCover a c.st.length (Chosen a.sub e indx mem c) (fun i => rs[i]!) := by
    rcases hc with ⟨x1, x2, i, j, x3, x4, x5, x6, x7⟩ | ⟨b, lo, hi, x1, x2, x3, x4, x5⟩
    · refine .inl ⟨x1, x2, i, j, x3, x4, x5, x6, ?_⟩
      show rs[i]! ≠ rs[j]!
      rw [hrad i x3, hrad j x4]; exact x7
    · exact .inr ⟨b, lo, hi, x1, x2, x3, x4, fun i hi' hs => by
        show lo ≤ rs[i]! ∧ rs[i]! ≤ hi
        rw [hrad i hi']; exact x5 i hi' hs⟩
  obtain ⟨B, P, h3, hB⟩ := binned_ok hlen hS hc'
  obtain ⟨c2, h4, d2, f2, g2, -, r2⟩ := return_of_world (sort := false) (cm := none) p l hg s1.good s1.lin s1.rest s1.world
  refine ⟨c1, k, mem', B, P, c2, h1, s1, h2, hrs ▸ h3, ?_, h4, d2, f2, g2, r2⟩
  obtain ⟨lo, hi, q1, q2, q3⟩ := hB.contig
  have esum : ∀ (k : ℕ), sumOver c.st.length (fun i => Chosen a.sub e indx mem c i ∧ InBin P k rs[i]!) (fun i => rs[i]!) =
      sumOver c.st.length (fun i => Chosen a.sub e indx mem c i ∧ InBin P k (radiusOf a.sub c i)) (radiusOf a.sub c) :=
    fun k => sumOver_congr (fun i hi' => by rw [hrad i hi']) (fun i hi' _ => hrad i hi')
  have enum : ∀ (k : ℕ), numOver c.st.length (fun i => Chosen a.sub e indx mem c i ∧ InBin P k rs[i]!) =
      numOver c.st.length (fun i => Chosen a.sub e indx mem c i ∧ InBin P k (radiusOf a.sub c i)) := by
    intro k
    have := sumOver_congr (n := c.st.length) (S := fun i => Chosen a.sub e indx mem c i ∧ InBin P k rs[i]!)
      (T := fun i => Chosen a.sub e indx mem c i ∧ InBin P k (radiusOf a.sub c i)) (f := fun _ => 1) (g := fun _ => 1)
      (fun i hi' => by rw [hrad i hi']) (fun _ _ _ => rfl)
    rw [← numOver_eq, ← numOver_eq] at this
    exact_mod_cast this
  refine ⟨hB.zip, hB.lenl, hB.lenu, hB.lenm, ⟨lo, hi, q1, ?_, ?_⟩, hB.given, hB.nbin,
    fun x1 x2 k hk => by rw [← esum, ← enum]; exact hB.midNum x1 x2 k hk, hB.midFix, ?_, ?_, ?_⟩
  · intro i hi' hs; rw [← hrad i hi']; exact q2 i hi' hs
  · intro hn
    obtain ⟨⟨i, y1, y2, y3⟩, ⟨j, y4, y5, y6⟩⟩ := q3 hn
    exact ⟨⟨i, y1, y2, by rw [← hrad i y1]; exact y3⟩, ⟨j, y4, y5, by rw [← hrad j y4]; exact y6⟩⟩
  · intro x1 x2
    obtain ⟨X, z1, z2, z3⟩ := hB.ranks x1 x2
    exact ⟨X, z1, by rw [← valuesOf_congr hrad]; exact z2, z3⟩
  · exact fun k hk => (hB.atBin k hk).congr fun i hi' => by rw [hrad i hi']
  · exact fun k hk => (hB.upTo k hk).congr fun i hi' => by rw [hrad i hi']

theorem map_get! {α : Type} [Inhabited α] (n : ℕ) (f : ℕ → α) {k : ℕ} (hk : k < n) : ((List.range n).map f)[k]! = f k := by
  rw [getElem!_pos _ k (by simpa using hk)]; simp

theorem BinnedOk.reported {a : ProfArgs} {e : PStars} {indx : Option ℕ} {mem : Mem} {c : Cluster} {B : Binned} {P : List (ℝ × ℝ)}
    (h : BinnedOk a c.st.length (Chosen a.sub e indx mem c) (radiusOf a.sub c) B P) : ReportedBins a e indx mem c P :=
  ⟨h.contig, h.nbin, fun b hb => (by obtain ⟨h1, -, h3⟩ := h.given b hb; rw [h.zip, h1, h3]), h.ranks⟩

theorem BinnedOk.radii {a : ProfArgs} {e : PStars} {indx : Option ℕ} {mem : Mem} {c : Cluster} {B : Binned} {P : List (ℝ × ℝ)}
    (h : BinnedOk a c.st.length (Chosen a.sub e indx mem c) (radiusOf a.sub c) B P) : BinRadii a e indx mem c P B.mid :=
  ⟨h.lenm, h.midNum, h.midFix, fun b hb => (h.given b hb).2.1⟩

theorem radiiOut {a : ProfArgs} {e : PStars} {indx : Option ℕ} {mem : Mem} {c c' : Cluster} {B : Binned} {P : List (ℝ × ℝ)} {rm : ℝ}
    (h : BinnedOk a c.st.length (Chosen a.sub e indx mem c) (radiusOf a.sub c) B P) (hrm : c'.d.rm = some rm) :
    RadiiOut a e indx mem c c' P (if a.normalize then B.mid.map (· / rm) else B.mid) :=
  ⟨B.mid, rm, h.radii, hrm, fun hn => by rw [if_neg (by simp [hn])], fun hn => by rw [if_pos hn]⟩

/-! ### C37 -/

/-- **C37 (mass profile).**  For every cluster with linear units and origin, every filter and mask, and bins that cover the
chosen radii, `m_prof` succeeds; entry `k` is the total mass and the number of the chosen stars whose distance from the
cluster centre lies in bin `k`; the entries add up to the mass and the number of all chosen stars; the cluster is left
as it was. -/
theorem C37_mass {g : Galpy} {c : Cluster} (p : Pos g c) (l : Lin c) (hg : Good c) (f : Fresh c) {a : ProfArgs} {e : PStars}
    {indx : Option ℕ} {mem : Mem} (he : e.Ok a.sub c.st.length) (hm : ∀ q, indx = some q → mem[q]!.length = c.st.length)
    (hp : a.plot = false ∨ a.normalize = false)
    (hc : BinsCover a c.st.length (Chosen a.sub e indx mem c) (radiusOf a.sub c)) :
    ∃ rs ms ns after P, mProf g a false e indx mem c = .ok ((rs, ms, ns), after) ∧ ReportedBins a e indx mem c P ∧
      RadiiOut a e indx mem c after.cluster P rs ∧ ms.length = P.length ∧ ns.length = P.length ∧
      (∀ k < P.length, ms[k]! = sumOver c.st.length (InProfBin a e indx mem c P k) (fun i => c.m[i]!) ∧
        ns[k]! = numOver c.st.length (InProfBin a e indx mem c P k)) ∧
      ms.sum = sumOver c.st.length (Chosen a.sub e indx mem c) (fun i => c.m[i]!) ∧
      ns.sum = numOver c.st.length (Chosen a.sub e indx mem c) ∧
      after.cluster.data = c.data ∧ Fresh after.cluster := by
  obtain ⟨c1, k, mem', B, P, c2, h1, s1, h2, h3, hB, h4, d2, f2, g2, r2⟩ := prof_parts a.normalize a.normalize p l hg f he hm hc
  obtain ⟨c0, ha, -, -⟩ := return_analyze h4
  obtain ⟨rm, -, hrm, -⟩ := analyze_rm_some ha
  have hu : c2.units = c.units := congrArg Data.units d2
  have hr := radii_out s1 hu hp hrm B.mid
  have hml : c1.m.length = c.st.length := by rw [s1.m]; exact hg.len
  have hms := conv_id s1 hu (f := fun u t v => convertMass c2 u t v) (by simp [convertMass]) (by simp [convertMass])
    (((List.range B.mid.length).map (fun i => B.at i)).map (fun w => (maskSel w c1.m).sum))
  rw [hB.lenm] at hms
  obtain ⟨lo, hi, q1, q2, -⟩ := hB.contig
  have em : ∀ k < P.length, (maskSel (B.at k) c1.m).sum = sumOver c.st.length (InProfBin a e indx mem c P k) (fun i => c.m[i]!) := by
    intro k hk
    rw [(hB.atBin k hk).sum' hml, s1.m]; rfl
  have en : ∀ k < P.length, (B.at k).count true = numOver c.st.length (InProfBin a e indx mem c P k) :=
    fun k hk => (hB.atBin k hk).count
  refine ⟨if a.normalize then B.mid.map (· / rm) else B.mid,
    ((List.range P.length).map (fun i => B.at i)).map (fun w => (maskSel w c1.m).sum),
    ((List.range P.length).map (fun i => B.at i)).map (fun w => w.count true),
    ⟨c2, mem', midAfter a c1 c2 (if a.normalize then B.mid.map (· / rm) else B.mid)⟩, P, ?_, hB.reported, radiiOut hB hrm,
    by simp, by simp, ?_, ?_, ?_, d2, f2⟩
  · simp only [mProf, bind, Except.bind, pure, Except.pure, h1, h2, h3, h4, hr, hB.lenm, Bool.false_eq_true, if_false, hms]
  · intro k hk
    simp only [List.map_map]
    rw [map_get! _ _ hk, map_get! _ _ hk]
    exact ⟨em k hk, en k hk⟩
  · rw [List.map_map, sum_range_list, ← q1.sum_bins q2]
    exact Finset.sum_congr rfl fun k hk => em k (Finset.mem_range.mp hk)
  · have : (((((List.range P.length).map (fun i => B.at i)).map (fun w => w.count true)).sum : ℕ) : ℝ) =
        (numOver c.st.length (Chosen a.sub e indx mem c) : ℝ) := by
      rw [Nat.cast_list_sum, List.map_map, List.map_map, sum_range_list, numOver_eq, ← q1.sum_bins q2]
      refine Finset.sum_congr rfl fun k hk => ?_
      simp only [Function.comp_apply]
      rw [en k (Finset.mem_range.mp hk), numOver_eq]; rfl
    exact_mod_cast this

theorem sumOver_mono {n : ℕ} {S T : ℕ → Prop} {f : ℕ → ℝ} (h : ∀ i < n, S i → T i) (hf : ∀ i < n, 0 ≤ f i) :
    sumOver n S f ≤ sumOver n T f := by
  classical
  rw [sumOver_ite, sumOver_ite]
  refine Finset.sum_le_sum fun i hi => ?_
  have hi' := Finset.mem_range.mp hi
  have := hf i hi'
  by_cases hs : S i
  · rw [if_pos hs, if_pos (h i hi' hs)]
  · rw [if_neg hs]; split <;> simp [this]

theorem Contig.upper_mono {lo hi : ℝ} {P : List (ℝ × ℝ)} (h : Contig lo hi P) :
    ∀ {i j : ℕ}, i ≤ j → j < P.length → P[i]!.2 ≤ P[j]!.2 := by
  have key : ∀ j, j + 1 < P.length → P[j]!.2 ≤ P[j + 1]!.2 := by
    intro j hj
    by_contra hlt
    have h1 := (h.index_le (v := P[j + 1]!.2) (k := j) (by omega)).mpr (not_le.mp hlt)
    have h2 := (h.index_le (v := P[j + 1]!.2) (k := j + 1) hj).mp (by omega)
    exact lt_irrefl _ h2
  intro i j hij hj
  induction j, hij using Nat.le_induction with
  | base => exact le_refl _
  | succ j _ ih => exact (ih (by omega)).trans (key j hj)

/-- **C37 (cumulative mass profile).**  Entry `k` is the mass and the number of all chosen stars inside the upper edge of bin
`k` (for the last bin: of all chosen stars); for masses that are not negative the profile never decreases, and it ends at
the total chosen mass. -/
theorem C37_cumulative {g : Galpy} {c : Cluster} (p : Pos g c) (l : Lin c) (hg : Good c) (f : Fresh c) {a : ProfArgs} {e : PStars}
    {indx : Option ℕ} {mem : Mem} (he : e.Ok a.sub c.st.length) (hm : ∀ q, indx = some q → mem[q]!.length = c.st.length)
    (hp : a.plot = false ∨ a.normalize = false)
    (hc : BinsCover a c.st.length (Chosen a.sub e indx mem c) (radiusOf a.sub c)) :
    ∃ rs ms ns after P, mProf g a true e indx mem c = .ok ((rs, ms, ns), after) ∧ ReportedBins a e indx mem c P ∧
      RadiiOut a e indx mem c after.cluster P rs ∧ ms.length = P.length ∧ ns.length = P.length ∧
      (∀ k < P.length,
        ms[k]! = sumOver c.st.length (fun i => Chosen a.sub e indx mem c i ∧
          (radiusOf a.sub c i < P[k]!.2 ∨ k + 1 = P.length)) (fun i => c.m[i]!) ∧
        ns[k]! = numOver c.st.length (fun i => Chosen a.sub e indx mem c i ∧
          (radiusOf a.sub c i < P[k]!.2 ∨ k + 1 = P.length))) ∧
      ((∀ i < c.st.length, (0 : ℝ) ≤ c.m[i]!) → ∀ i j, i ≤ j → j < P.length → ms[i]! ≤ ms[j]!) ∧
      ms[P.length - 1]! = sumOver c.st.length (Chosen a.sub e indx mem c) (fun i => c.m[i]!) ∧
      ns[P.length - 1]! = numOver c.st.length (Chosen a.sub e indx mem c) ∧
      after.cluster.data = c.data ∧ Fresh after.cluster := by
  obtain ⟨c1, k, mem', B, P, c2, h1, s1, h2, h3, hB, h4, d2, f2, g2, r2⟩ := prof_parts a.normalize a.normalize p l hg f he hm hc
  obtain ⟨c0, ha, -, -⟩ := return_analyze h4
  obtain ⟨rm, -, hrm, -⟩ := analyze_rm_some ha
  have hu : c2.units = c.units := congrArg Data.units d2
  have hr := radii_out s1 hu hp hrm B.mid
  have hml : c1.m.length = c.st.length := by rw [s1.m]; exact hg.len
  have hms := conv_id s1 hu (f := fun u t v => convertMass c2 u t v) (by simp [convertMass]) (by simp [convertMass])
    (((List.range B.mid.length).map (fun i => B.upTo i)).map (fun w => (maskSel w c1.m).sum))
  rw [hB.lenm] at hms
  obtain ⟨lo, hi, q1, q2, -⟩ := hB.contig
  have hpos : 0 < P.length := List.length_pos_iff.mpr q1.ne
  have em : ∀ k < P.length, (maskSel (B.upTo k) c1.m).sum = sumOver c.st.length (fun i => Chosen a.sub e indx mem c i ∧
          (radiusOf a.sub c i < P[k]!.2 ∨ k + 1 = P.length)) (fun i => c.m[i]!) := by
    intro k hk
    rw [(hB.upTo k hk).sum' hml, s1.m]
  have en : ∀ k < P.length, (B.upTo k).count true = numOver c.st.length (fun i => Chosen a.sub e indx mem c i ∧
          (radiusOf a.sub c i < P[k]!.2 ∨ k + 1 = P.length)) :=
    fun k hk => (hB.upTo k hk).count
  have hlast : ∀ i, (Chosen a.sub e indx mem c i ∧ (radiusOf a.sub c i < P[P.length - 1]!.2 ∨ P.length - 1 + 1 = P.length)) ↔
      Chosen a.sub e indx mem c i := fun i => ⟨fun h => h.1, fun h => ⟨h, .inr (by omega)⟩⟩
  refine ⟨if a.normalize then B.mid.map (· / rm) else B.mid,
    ((List.range P.length).map (fun i => B.upTo i)).map (fun w => (maskSel w c1.m).sum),
    ((List.range P.length).map (fun i => B.upTo i)).map (fun w => w.count true),
    ⟨c2, mem', midAfter a c1 c2 (if a.normalize then B.mid.map (· / rm) else B.mid)⟩, P, ?_, hB.reported, radiiOut hB hrm,
    by simp, by simp, ?_, ?_, ?_, ?_, d2, f2⟩
  · simp only [mProf, bind, Except.bind, pure, Except.pure, h1, h2, h3, h4, hr, hB.lenm, if_true, hms]
  · intro k hk
    simp only [List.map_map]
    rw [map_get! _ _ hk, map_get! _ _ hk]
    exact ⟨em k hk, en k hk⟩
  · intro hpm i j hij hj
    simp only [List.map_map]
    rw [map_get! _ _ hj, map_get! _ _ (lt_of_le_of_lt hij hj)]
    simp only [Function.comp_apply]
    rw [em i (lt_of_le_of_lt hij hj), em j hj]
    refine sumOver_mono ?_ hpm
    rintro q hq ⟨x1, x2⟩
    refine ⟨x1, ?_⟩
    rcases x2 with x2 | x2
    · exact .inl (x2.trans_le (q1.upper_mono hij hj))
    · exact .inr (by omega)
  · rw [List.map_map, map_get! _ _ (by omega)]
    simp only [Function.comp_apply]
    rw [em _ (by omega)]
    exact sumOver_congr (fun i _ => hlast i) (fun _ _ _ => rfl)
  · rw [List.map_map, map_get! _ _ (by omega)]
    simp only [Function.comp_apply]
    rw [en _ (by omega)]
    simp only [hlast]

/-! ### C51 -/

theorem shell_eq (projected : Bool) (lo hi : ℝ) : shell projected lo hi = shellSize projected lo hi := by
  unfold shell shellSize; split <;> ring

theorem shellSize_pos {projected : Bool} {lo hi : ℝ} (h0 : 0 ≤ lo) (h : lo < hi) : 0 < shellSize projected lo hi := by
  have hpi := Real.pi_pos
  rw [← shell_eq]
  unfold shell
  split
  · have : lo ^ 2 < hi ^ 2 := by gcongr
    have : 0 < hi ^ 2 - lo ^ 2 := by linarith
    positivity
  · have : lo ^ 3 < hi ^ 3 := by gcongr
    have : 0 < hi ^ 3 - lo ^ 3 := by linarith
    positivity

theorem dist0_nonneg (b : Bool) (p : Ph) : 0 ≤ dist0 b p := by unfold dist0; split <;> exact Real.sqrt_nonneg _

/-- **C51 (density profile).**  `rho_prof` succeeds; in every bin the density times the volume of the shell (in projection the
area of the ring) is the mass of the chosen stars in the bin, and the count is their number; so density times volume adds
up to the chosen mass.  The cluster is left as it was.  Caller's bins must not begin at negative radii. -/
theorem C51_density {g : Galpy} {c : Cluster} (p : Pos g c) (l : Lin c) (hg : Good c) (f : Fresh c) {a : ProfArgs} {e : PStars}
    {indx : Option ℕ} {mem : Mem} (he : e.Ok a.sub c.st.length) (hm : ∀ q, indx = some q → mem[q]!.length = c.st.length)
    (hp : a.plot = false ∨ a.normalize = false) (hb0 : ∀ b, a.bins = some b → ∀ x ∈ b.1, 0 ≤ x)
    (hc : BinsCover a c.st.length (Chosen a.sub e indx mem c) (radiusOf a.sub c)) :
    ∃ rs ds ns after P, rhoProf g a e indx mem c = .ok ((rs, ds, ns), after) ∧ ReportedBins a e indx mem c P ∧
      RadiiOut a e indx mem c after.cluster P rs ∧ ds.length = P.length ∧ ns.length = P.length ∧
      (∀ k < P.length, 0 < shellSize a.sub.projected P[k]!.1 P[k]!.2 ∧
        ds[k]! * shellSize a.sub.projected P[k]!.1 P[k]!.2 =
          sumOver c.st.length (InProfBin a e indx mem c P k) (fun i => c.m[i]!) ∧
        ns[k]! = numOver c.st.length (InProfBin a e indx mem c P k)) ∧
      ∑ k ∈ Finset.range P.length, ds[k]! * shellSize a.sub.projected P[k]!.1 P[k]!.2 =
        sumOver c.st.length (Chosen a.sub e indx mem c) (fun i => c.m[i]!) ∧
      after.cluster.data = c.data ∧ Fresh after.cluster := by
  obtain ⟨c1, k, mem', B, P, c2, h1, s1, h2, h3, hB, h4, d2, f2, g2, r2⟩ := prof_parts a.normalize a.normalize p l hg f he hm hc
  obtain ⟨c0, ha, -, -⟩ := return_analyze h4
  obtain ⟨rm, -, hrm, -⟩ := analyze_rm_some ha
  have hu : c2.units = c.units := congrArg Data.units d2
  have hr := radii_out s1 hu hp hrm B.mid
  have hml : c1.m.length = c.st.length := by rw [s1.m]; exact hg.len
  have hms := conv_id s1 hu (f := fun u t v => convertDensity g c2 a.sub.projected u t v)
    (by intro u x; simp [convertDensity, pure, Except.pure])
    (by intro x; simp [convertDensity, convertMass, Units.isPc, Units.isKpc, bind, Except.bind, pure, Except.pure])
    ((List.range B.mid.length).map (fun i =>
      ((maskSel (B.at i) c1.m).map (· / shell a.sub.projected B.lower[i]! B.upper[i]!)).sum))
  rw [hB.lenm] at hms
  obtain ⟨lo, hi, q1, q2, q3⟩ := hB.contig
  have hlow : ∀ k < P.length, 0 ≤ P[k]!.1 ∧ P[k]!.1 < P[k]!.2 := by
    intro k hk
    have e0 : P[k]? = some (P[k].1, P[k].2) := by rw [List.getElem?_eq_getElem hk]
    obtain ⟨a1, a2, a3, a4, a5⟩ := q1.ends e0
    rw [getElem!_pos P k hk]
    refine ⟨?_, a2⟩
    cases hbn : a.bins with
    | none =>
      obtain ⟨⟨i, -, -, y⟩, -⟩ := q3 hbn
      have : 0 ≤ lo := by rw [← y]; exact dist0_nonneg _ _
      exact this.trans a1
    | some b =>
      refine hb0 b hbn _ ?_
      have hz := hB.zip
      have := (hB.given b hbn).1
      rw [← this]
      simp only [hz, List.getElem_zip]
      exact List.getElem_mem _
  have edge : ∀ k < P.length, B.lower[k]! = P[k]!.1 ∧ B.upper[k]! = P[k]!.2 := by
    intro k hk
    have e1 := hB.lenl
    have e2 := hB.lenu
    rw [getElem!_pos P k hk, getElem!_pos B.lower k (by omega), getElem!_pos B.upper k (by omega)]
    simp only [hB.zip, List.getElem_zip, and_self]
  have em : ∀ k < P.length, ((maskSel (B.at k) c1.m).map (· / shell a.sub.projected B.lower[k]! B.upper[k]!)).sum *
      shellSize a.sub.projected P[k]!.1 P[k]!.2 = sumOver c.st.length (InProfBin a e indx mem c P k) (fun i => c.m[i]!) := by
    intro k hk
    rw [(edge k hk).1, (edge k hk).2, shell_eq, sum_map_div, (hB.atBin k hk).sum' hml, s1.m]
    exact div_mul_cancel₀ _ (shellSize_pos (hlow k hk).1 (hlow k hk).2).ne'
  have en : ∀ k < P.length, (B.at k).count true = numOver c.st.length (InProfBin a e indx mem c P k) :=
    fun k hk => (hB.atBin k hk).count
  refine ⟨if a.normalize then B.mid.map (· / rm) else B.mid,
    (List.range P.length).map (fun i =>
      ((maskSel (B.at i) c1.m).map (· / shell a.sub.projected B.lower[i]! B.upper[i]!)).sum),
    (List.range P.length).map (fun i => (B.at i).count true),
    ⟨c2, mem', midAfter a c1 c2 (if a.normalize then B.mid.map (· / rm) else B.mid)⟩, P, ?_, hB.reported, radiiOut hB hrm,
    by simp, by simp, ?_, ?_, d2, f2⟩
  · simp only [rhoProf, bind, Except.bind, pure, Except.pure, h1, h2, h3, h4, hr, hB.lenm, hms]
  · intro k hk
    rw [map_get! _ _ hk, map_get! _ _ hk]
    exact ⟨shellSize_pos (hlow k hk).1 (hlow k hk).2, em k hk, en k hk⟩
  · rw [← q1.sum_bins q2]
    refine Finset.sum_congr rfl fun k hk => ?_
    have hk' := Finset.mem_range.mp hk
    rw [map_get! _ _ hk']
    exact em k hk'

/-- The hypotheses of C37 and C51 hold of the demo cluster, with a filter, a mask and two bins. -/
example : ∃ c a e indx mem, Pos demoG c ∧ Lin c ∧ Good c ∧ Fresh c ∧ c.st = demo.st ∧ a.sub.mmax = some 2 ∧ a.bins ≠ none ∧
    PStars.Ok e a.sub c.st.length ∧ indx = some 0 ∧ (∀ q, indx = some q → (mem : Mem)[q]!.length = c.st.length) ∧
    (a.plot = false ∨ a.normalize = false) ∧ (∀ b, a.bins = some b → ∀ x ∈ b.1, 0 ≤ x) ∧
    BinsCover a c.st.length (Chosen a.sub e indx mem c) (radiusOf a.sub c) := by
  obtain ⟨c, -, p, l, hg, f, hm, hst, ho, hu⟩ := demo_fresh
  refine ⟨c, { sub := { mmax := some 2 }, bins := some ([0, 2], [1, 4], [2, 6]) }, ⟨[1, 1], [0, 0], []⟩, some 0, [[true, true]],
    p, l, hg, f, hst, rfl, by simp, ?_, rfl, ?_, .inl rfl, ?_, ?_⟩
  · rw [hst]; exact ⟨rfl, .inr rfl, .inl ⟨rfl, rfl⟩⟩
  · intro q hq; injection hq with hq; subst hq; rw [hst]; rfl
  · intro b hb; injection hb with hb; subst hb; simp
  · refine .inr ⟨([0, 2], [1, 4], [2, 6]), 0, 6, rfl, rfl, rfl, .cons (by norm_num) (.one (by norm_num)), ?_⟩
    intro i hi _
    rw [hst] at hi
    have e : radiusOf { mmax := some 2 } c i = dist0 false demo.st[i]! := by
      unfold radiusOf centred; rw [if_neg (by rw [ho]; simp), hst]
    rw [e]
    have : i < 2 := hi
    interval_cases i
    · show 0 ≤ dist0 false ⟨3, 0, 4, 1, 0, 0⟩ ∧ dist0 false ⟨3, 0, 4, 1, 0, 0⟩ ≤ 6
      refine ⟨dist0_nonneg _ _, ?_⟩
      unfold dist0
      rw [if_neg (by simp), Real.sqrt_le_left (by norm_num)]
      norm_num
    · show 0 ≤ dist0 false ⟨0, 1, 0, 0, -2, 5⟩ ∧ dist0 false ⟨0, 1, 0, 0, -2, 5⟩ ≤ 6
      refine ⟨dist0_nonneg _ _, ?_⟩
      unfold dist0
      rw [if_neg (by simp), Real.sqrt_le_left (by norm_num)]
      norm_num

/-- … and with bins made by the function itself: two chosen stars at different radii. -/
example : ∃ c a e, Pos demoG c ∧ Lin c ∧ Good c ∧ Fresh c ∧ a.bins = none ∧ PStars.Ok e a.sub c.st.length ∧
    BinsCover a c.st.length (Chosen a.sub e none [] c) (radiusOf a.sub c) := by
  obtain ⟨c, -, p, l, hg, f, hm, hst, ho, hu⟩ := demo_fresh
  refine ⟨c, {}, ⟨[1, 1], [], []⟩, p, l, hg, f, rfl, ?_, ?_⟩
  · rw [hst]; exact ⟨rfl, .inl rfl, .inl ⟨rfl, rfl⟩⟩
  · have e : ∀ i, radiusOf {} c i = dist0 false demo.st[i]! := by
      intro i; unfold radiusOf centred; rw [if_neg (by rw [ho]; simp), hst]
    refine .inl ⟨rfl, by decide, 0, 1, by rw [hst]; decide, by rw [hst]; decide, ?_, ?_, ?_⟩
    · exact ⟨fun q h => (by cases h), by constructor <;> simp [Within, rowsView]⟩
    · exact ⟨fun q h => (by cases h), by constructor <;> simp [Within, rowsView]⟩
    · show radiusOf {} c 0 ≠ radiusOf {} c 1
      rw [e, e]
      show dist0 false ⟨3, 0, 4, 1, 0, 0⟩ ≠ dist0 false ⟨0, 1, 0, 0, -2, 5⟩
      unfold dist0
      rw [if_neg (by simp), if_neg (by simp)]
      intro h
      rw [Real.sqrt_inj (by norm_num) (by norm_num)] at h
      norm_num at h

end

end CT
