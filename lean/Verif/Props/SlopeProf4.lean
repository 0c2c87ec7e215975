/- Property theorems C98 (profiles of the slope of velocity dispersion against mass). -/
import Verif.Props.SlopeProf3

namespace CT

noncomputable section

set_option linter.unusedSimpArgs false

/-! ### Statistics depend on the stars of the cluster only -/

theorem numOver_congr {n : ℕ} {S T : ℕ → Prop} (h : ∀ i < n, S i ↔ T i) : numOver n S = numOver n T := by
  have := sumOver_congr (n := n) (f := fun _ => 1) (g := fun _ => 1) h (fun _ _ _ => rfl)
  rw [← numOver_eq, ← numOver_eq] at this
  exact_mod_cast this

theorem meanOver_congr' {n : ℕ} {S T : ℕ → Prop} {f : ℕ → ℝ} (h : ∀ i < n, S i ↔ T i) : meanOver n S f = meanOver n T f := by
  unfold meanOver; rw [sumOver_congr h (fun _ _ _ => rfl), numOver_congr h]

theorem stdOver_congr' {n : ℕ} {S T : ℕ → Prop} {f : ℕ → ℝ} (h : ∀ i < n, S i ↔ T i) : stdOver n S f = stdOver n T f := by
  unfold stdOver; rw [meanOver_congr' h, meanOver_congr' h]

theorem valuesOf_sel {n : ℕ} {S T : ℕ → Prop} {f : ℕ → ℝ} (h : ∀ i < n, S i ↔ T i) : valuesOf n S f = valuesOf n T f := by
  unfold valuesOf
  congr 1
  refine List.filter_congr fun i hi => ?_
  rw [decide_eq_decide]; exact h i (List.mem_range.mp hi)

/-- The relation of dispersion and mass depends on the selected stars only. -/
theorem IsEtaFunction.select {a a' : EtaArgs} {e e' : PStars} {indx indx' : Option ℕ} {mem mem' : Mem} {c c' : Cluster} {P : List (ℝ × ℝ)}
    {o : EtaOut} (h : IsEtaFunction a e indx mem c P o) (hst : c'.st = c.st) (hm : c'.m = c.m) (hn : a'.nmass = a.nmass)
    (hp : a'.sub.projected = a.sub.projected)
    (hs : ∀ i < c.st.length, MassSelected a.sub e indx mem c i ↔ MassSelected a'.sub e' indx' mem' c' i) :
    IsEtaFunction a' e' indx' mem' c' P o := by
  have hb : ∀ k, ∀ i < c.st.length, InMassBin a.sub e indx mem c P k i ↔ InMassBin a'.sub e' indx' mem' c' P k i := by
    intro k i hi; unfold InMassBin; rw [hs i hi, hm]
  obtain ⟨⟨lo, hi, h1, h2, ⟨i, x1, x2, x3⟩, ⟨j, y1, y2, y3⟩⟩, h3, ⟨X, z1, z2, z3⟩, h5, h6, h7⟩ := h
  refine ⟨⟨lo, hi, h1, ?_, ?_, ?_⟩, by rw [hn]; exact h3, ⟨X, z1, ?_, by rw [hn]; exact z3⟩, by rw [hn]; exact h5, ?_, ?_⟩
  · intro i hi' hsel
    rw [hst] at hi'
    rw [hm]; exact h2 i hi' ((hs i hi').mpr hsel)
  · exact ⟨i, by rw [hst]; exact x1, (hs i x1).mp x2, by rw [hm]; exact x3⟩
  · exact ⟨j, by rw [hst]; exact y1, (hs j y1).mp y2, by rw [hm]; exact y3⟩
  · rw [hst, ← valuesOf_sel hs, hm]; exact z2
  · intro k hk
    rw [hn] at hk
    rw [hst, ← numOver_congr (hb k), ← meanOver_congr' (hb k), hm]
    exact h6 k hk
  · intro k hk
    rw [hn] at hk
    rw [hst, ← stdOver_congr' (hb k), hp]
    exact h7 k hk

/-! ### The run -/

/-- What `eta_function` leaves. -/
theorem eta_after {g : Galpy} {c : Cluster} (p : Pos g c) (l : Lin c) (hg : Good c) (f : Fresh c) {a : EtaArgs} {q : Option CurveFit} {e : PStars}
    {indx : Option ℕ} {mem : Mem} {o : EtaOut} {c2 : Cluster} {mem' : Mem} (h : etaFunction g a q e indx mem c = .ok (o, c2, mem')) :
    LeftAs c c2 ∧ ∃ c1, returnCluster g (saveCluster c) false none c1 = .ok c2 := by
  obtain ⟨c1, h1, s1, m1, g1, l1, f1, r1, w1, -, -⟩ := strip_amuse p l hg f
  obtain ⟨c3, h4, d2, f2, g2, -, r2⟩ := return_of_world (sort := false) (cm := none) p l hg g1 l1 r1 w1
  suffices hs : returnCluster g (saveCluster c) false none c1 = .ok c2 by
    rw [h4] at hs; cases hs
    exact ⟨⟨d2, f2, g2, r2⟩, c1, h4⟩
  unfold etaFunction at h
  simp only [bind] at h
  have rest : ∀ c1', c1' = c1 → ((getSubset a.sub (viewOf c1' e) indx mem).bind fun sel =>
      if enough (2 * a.nmass) sel = true then (etaFit a q c1'.m (if a.sub.projected then c1'.d.vpro else c1'.d.v) sel).bind fun out =>
        (returnCluster g (saveCluster c) false none c1').bind fun c2 => pure (out, c2, sel.2)
      else (Except.ok a.tooFew).bind fun out =>
        (returnCluster g (saveCluster c) false none c1').bind fun c2 => pure (out, c2, sel.2)) = .ok (o, c2, mem') →
      returnCluster g (saveCluster c) false none c1 = .ok c2 := by
    rintro c1' rfl h
    obtain ⟨sel, -, h⟩ := bind_ok h
    split at h
    all_goals
      obtain ⟨out, -, h⟩ := bind_ok h
      obtain ⟨c4, h5, h⟩ := bind_ok h
      simp only [pure, Except.pure, Except.ok.injEq, Prod.mk.injEq] at h
      rw [h5, h.2.1]
  split at h1
  · rename_i hu
    rw [if_pos hu, h1] at h
    exact rest c1 rfl h
  · rename_i hu
    rw [if_neg hu] at h
    injection h1 with h1
    exact rest c h1 h

theorem etaBins_run {g : Galpy} {c1 : Cluster} (p : Pos g c1) (l : Lin c1) {a : EtaProfArgs} {q : Option CurveFit} {e : PStars} :
    ∀ (bs : List (ℝ × ℝ)) {d : Cluster} {mem : Mem} {t : List ℝ × Cluster × Mem}, LeftAs c1 d → etaBins g a q e bs d mem = .ok t →
      LeftAs c1 t.2.1 ∧ t.1.length = bs.length ∧
      (∀ j < bs.length, ∃ d' m' M c' m'', LeftAs c1 d' ∧ etaFunction g (a.inner bs[j]!.1 bs[j]!.2) q e none m' d' = .ok (M, c', m'') ∧
        t.1[j]! = (keepSlope M.fit).1) ∧
      (OrderCurrent d → (∀ x ∈ c1.m, 0 ≤ x) → OrderCurrent t.2.1 ∧ (bs ≠ [] → RmCurrent t.2.1)) ∧
      (bs ≠ [] → ∃ x y, t.2.1.d.rm = some x ∧ t.2.1.d.rmpro = some y ∧ x ∈ c1.st.map Ph.r ∧ y ∈ c1.st.map Ph.rpro)
  | [], d, mem, t, hk, h => by
    simp only [etaBins, Except.ok.injEq] at h
    subst h
    exact ⟨hk, rfl, fun j hj => by simp at hj, fun ho _ => ⟨ho, fun h => absurd rfl h⟩, fun h => absurd rfl h⟩
  | b :: bs, d, mem, t, hk, h => by
    simp only [etaBins, bind] at h
    obtain ⟨⟨M, d1, m1⟩, h1, h⟩ := bind_ok h
    obtain ⟨⟨s, d2, m2⟩, h2, h⟩ := bind_ok h
    simp only [pure, Except.pure, Except.ok.injEq] at h
    subst h
    obtain ⟨k1, cx, hr⟩ := eta_after (p.of_rest hk.rest) (hk.lin l) hk.good hk.fresh h1
    have hk1 := hk.trans k1
    obtain ⟨z1, z2, z3, z4, z5⟩ := etaBins_run p l bs hk1 h2
    have dm : d.m = c1.m := congrArg Data.m hk.data
    refine ⟨z1, by simp [z2], ?_, ?_, ?_⟩
    · intro j hj
      cases j with
      | zero => exact ⟨d, mem, M, d1, m1, hk, h1, rfl⟩
      | succ j =>
        obtain ⟨d', m', M', c', m'', y1, y2, y3⟩ := z3 j (by simpa using hj)
        exact ⟨d', m', M', c', m'', y1, by simpa using y2, by simpa using y3⟩
    · intro ho hm
      obtain ⟨x1, x2⟩ := return_current' hk.good (by rw [dm]; exact hm) ho hr k1.data
      obtain ⟨y1, y2⟩ := z4 x1 hm
      refine ⟨y1, fun _ => ?_⟩
      by_cases hi : bs = []
      · subst hi
        simp only [etaBins, Except.ok.injEq, Prod.mk.injEq] at h2
        show RmCurrent d2
        rw [← h2.2.1]; exact x2
      · exact y2 hi
    · intro _
      by_cases hi : bs = []
      · subst hi
        simp only [etaBins, Except.ok.injEq, Prod.mk.injEq] at h2
        obtain ⟨c0, h0, -⟩ := return_analyze hr
        have := analyze_rm_mem h0
        rw [show d1.st = c1.st from congrArg Data.st hk1.data] at this
        show ∃ x y, d2.d.rm = some x ∧ d2.d.rmpro = some y ∧ _
        rw [← h2.2.1]; exact this
      · exact z5 hi

theorem BinnedOk.congr {a : ProfArgs} {n : ℕ} {S : ℕ → Prop} {r r' : ℕ → ℝ} {B : Binned} {P : List (ℝ × ℝ)} (hB : BinnedOk a n S r B P)
    (hrad : ∀ i < n, r i = r' i) : BinnedOk a n S r' B P := by
  obtain ⟨lo, hi, q1, q2, q3⟩ := hB.contig
  have esum : ∀ (k : ℕ), sumOver n (fun i => S i ∧ InBin P k (r i)) r = sumOver n (fun i => S i ∧ InBin P k (r' i)) r' :=
    fun k => sumOver_congr (fun i hi' => by rw [hrad i hi']) (fun i hi' _ => hrad i hi')
  have enum : ∀ (k : ℕ), numOver n (fun i => S i ∧ InBin P k (r i)) = numOver n (fun i => S i ∧ InBin P k (r' i)) :=
    fun k => numOver_congr fun i hi' => by rw [hrad i hi']
  refine ⟨hB.zip, hB.lenl, hB.lenu, hB.lenm, ⟨lo, hi, q1, ?_, ?_⟩, hB.given, hB.nbin,
    fun x1 x2 k hk => by rw [← esum, ← enum]; exact hB.midNum x1 x2 k hk, hB.midFix, ?_, ?_, ?_⟩
  · intro i hi' hs; rw [← hrad i hi']; exact q2 i hi' hs
  · intro hn
    obtain ⟨⟨i, y1, y2, y3⟩, ⟨j, y4, y5, y6⟩⟩ := q3 hn
    exact ⟨⟨i, y1, y2, by rw [← hrad i y1]; exact y3⟩, ⟨j, y4, y5, by rw [← hrad j y4]; exact y6⟩⟩
  · intro x1 x2
    obtain ⟨X, z1, z2, z3⟩ := hB.ranks x1 x2
    exact ⟨X, z1, by rw [← valuesOf_congr hrad]; exact z2, z3⟩
  · exact fun k hk => (hB.atBin k hk).congr fun i hi' => by rw [hrad i hi']
  · exact fun k hk => (hB.upTo k hk).congr fun i hi' => by rw [hrad i hi']

/-- Distance in space of star `i` from the centre. -/
abbrev centreDist (c : Cluster) (i : ℕ) : ℝ := dist0 false (centred c)[i]!

/-- The first part of `eta_prof`: its bins are made of the distances in space. -/
theorem eta_parts {g : Galpy} {c : Cluster} (p : Pos g c) (l : Lin c) (hg : Good c) (f : Fresh c) {a : ProfArgs} {e : PStars}
    {indx : Option ℕ} {mem : Mem} (he : e.Ok a.sub c.st.length) (hm : ∀ q, indx = some q → mem[q]!.length = c.st.length)
    (hc : BinsCover a c.st.length (Chosen a.sub e indx mem c) (centreDist c)) :
    ∃ c1 k mem' B P, profStart g a.normalize a.normalize c = .ok c1 ∧ Started g c c1 ∧
      getSubset a.sub (viewOf c1 e) indx mem = .ok (some k, mem') ∧ profBinned a c1.d.r (some k, mem') = .ok B ∧
      BinnedOk a c.st.length (Chosen a.sub e indx mem c) (centreDist c) B P := by
  obtain ⟨c1, h1, s1⟩ := profStart_spec (g := g) a.normalize a.normalize p l hg f
  obtain ⟨k, mem', h2, hS⟩ := chosen_mask (e := e) (q := a.sub) s1 hg he hm
  have er := started_radii s1 false
  simp only [Bool.false_eq_true, if_false] at er
  have hrad : ∀ i < c.st.length, c1.d.r[i]! = centreDist c i := by
    intro i hi
    rw [er]; exact rows_get hi
  have hlen : c1.d.r.length = c.st.length := by rw [er, List.length_map, centred_length]
  have hc' : BinsCover a c.st.length (Chosen a.sub e indx mem c) (fun i => c1.d.r[i]!) := by
    rcases hc with ⟨b0, n0, i, j, x1, x2, x3, x4, x5⟩ | ⟨b, lo, hi, x1, x2, x3, x4, x5⟩
    · exact .inl ⟨b0, n0, i, j, x1, x2, x3, x4, by simp only [hrad i x1, hrad j x2]; exact x5⟩
    · exact .inr ⟨b, lo, hi, x1, x2, x3, x4, fun i hi' hS => by simp only [hrad i hi']; exact x5 i hi' hS⟩
  obtain ⟨B, P, h3, hB⟩ := binned_ok hlen hS hc'
  exact ⟨c1, k, mem', B, P, h1, s1, h2, h3, hB.congr hrad⟩

theorem fitLn_fit {mid y : List ℝ} {rm : Option ℝ} {f : LineFit} (h : fitLn mid rm y = .ok f) :
    ∃ k, rm = some k ∧ IsLineFit (lnPoints k mid y) f := by
  cases rm with
  | none => cases h
  | some k =>
    simp only [fitLn, Option.elim] at h
    split at h
    · cases h
    · exact ⟨k, rfl, (polyfit1_fit h).2⟩

/-- The parts of a run of `eta_prof`. -/
theorem eta_core {g : Galpy} {c : Cluster} (p : Pos g c) (l : Lin c) (hg : Good c) (f : Fresh c) {a : EtaProfArgs} {q : Option CurveFit} {e : PStars}
    {indx : Option ℕ} {mem : Mem} (he : e.Ok a.prof.sub c.st.length) (hm : ∀ q, indx = some q → mem[q]!.length = c.st.length)
    (hc : BinsCover a.prof c.st.length (Chosen a.prof.sub e indx mem c) (centreDist c))
    {o : SlopeOut} {after : After} (h : etaProf g a q e indx mem c = .ok (o, after)) :
    ∃ c1 B P t m0, profStart g a.prof.normalize a.prof.normalize c = .ok c1 ∧ Started g c c1 ∧
      BinnedOk a.prof c.st.length (Chosen a.prof.sub e indx mem c) (centreDist c) B P ∧
      velRadii a.prof c1 B.mid = .ok o.r ∧ etaBins g a q e P c1 m0 = .ok t ∧ o.slope = t.1 ∧
      (3 < P.length → fitLn B.mid (rmOf a.prof.sub.projected t.2.1) t.1 = .ok o.fit) ∧ (P.length ≤ 3 → o.fit = noFit) ∧
      after.cluster.data = c.data ∧ Fresh after.cluster := by
  obtain ⟨c1, k, mem', B, P, h1, s1, h2, h3, hB⟩ := eta_parts p l hg f he hm hc
  unfold etaProf at h
  simp only [bind, h1, Except.bind, h2, h3] at h
  obtain ⟨rn, h4, h⟩ := bind_ok h
  obtain ⟨t, h5, h⟩ := bind_ok h
  rw [← hB.zip] at h5
  have p1 := p.of_rest s1.rest
  obtain ⟨kt, -⟩ := etaBins_run p1 s1.lin _ ⟨rfl, s1.fresh, s1.good, rfl⟩ h5
  have last : ∀ fit, ((returnCluster g (saveCluster c) false none t.2.1).bind fun c2 =>
      if a.prof.normalize = true then pure (({ r := rn, slope := t.1, fit := fit, err := [] } : SlopeOut), (⟨c2, t.2.2, a.prof.bins.map (fun b => b.2.1)⟩ : After))
      else (convUnits (fun u v x => .ok (convertLength g c2 u v x)) t.2.1 c2 rn).bind fun rn =>
        pure (({ r := rn, slope := t.1, fit := fit, err := [] } : SlopeOut), (⟨c2, t.2.2, a.prof.bins.map (fun b => b.2.1)⟩ : After))) = .ok (o, after) →
      velRadii a.prof c1 B.mid = .ok o.r ∧ o.slope = t.1 ∧ o.fit = fit ∧ after.cluster.data = c.data ∧ Fresh after.cluster := by
    intro fit h
    obtain ⟨c2, h6, h⟩ := bind_ok h
    obtain ⟨c3, h8, d2, f2, g2, -, -⟩ := return_of_world (sort := false) (cm := none) p l hg kt.good (kt.lin s1.lin) (kt.rest.trans s1.rest)
      ((world_of_data kt.data kt.rest).trans s1.world)
    rw [h6] at h8; cases h8
    have hu : c2.units = c.units := congrArg Data.units d2
    have hu' : t.2.1.units = c1.units := congrArg Data.units kt.data
    have hconv := conv_id s1 hu (f := fun u v x => .ok (convertLength g c2 u v x)) (by simp [convertLength])
      (by simp [convertLength, Units.isPc, Units.isKpc]) rn
    have hconv' : convUnits (fun u v x => .ok (convertLength g c2 u v x)) t.2.1 c2 rn = .ok rn := by
      rw [← hconv]; unfold convUnits; rw [hu']
    rw [hconv'] at h
    have e7 : Except.ok (({ r := rn, slope := t.1, fit := fit, err := [] } : SlopeOut), (⟨c2, t.2.2, a.prof.bins.map (fun b => b.2.1)⟩ : After)) =
        (.ok (o, after) : Except Err _) := by
      split at h <;> exact h
    simp only [Except.ok.injEq, Prod.mk.injEq] at e7
    obtain ⟨ho, ha⟩ := e7
    subst ho; subst ha
    exact ⟨h4, rfl, rfl, d2, f2⟩
  by_cases h3' : 3 < B.mid.length
  · rw [if_pos h3'] at h
    obtain ⟨fit, hf, h⟩ := bind_ok h
    obtain ⟨x1, x2, x3, x4, x5⟩ := last fit h
    exact ⟨c1, B, P, t, mem', h1, s1, hB, x1, h5, x2, fun _ => by rw [x3]; exact hf, fun h => by rw [hB.lenm] at h3'; omega, x4, x5⟩
  · rw [if_neg h3'] at h
    obtain ⟨x1, x2, x3, x4, x5⟩ := last noFit h
    exact ⟨c1, B, P, t, mem', h1, s1, hB, x1, h5, x2, fun h => by rw [hB.lenm] at h3'; omega, fun _ => x3, x4, x5⟩

/-- The stars of one shell. -/
theorem eta_bin {g : Galpy} {c c1 : Cluster} (p : Pos g c) (s1 : Started g c c1) {a : EtaProfArgs} {e : PStars} (he : e.Ok a.prof.sub c.st.length)
    (b : ℝ × ℝ) {d : Cluster} (kd : LeftAs c1 d) (m0 : Mem) :
    Pos g d ∧ Lin d ∧ d.st = centred c ∧ d.st.length = c.st.length ∧ d.m = c.m ∧ e.Ok (a.inner b.1 b.2).sub d.st.length ∧
      (∀ i < c.st.length, MassSelected (a.inner b.1 b.2).sub e none m0 d i ↔ ShellStar a e c b i) ∧
      numOver d.st.length (MassSelected (a.inner b.1 b.2).sub e none m0 d) = numOver c.st.length (ShellStar a e c b) := by
  have hst : d.st = centred c := (congrArg Data.st kd.data).trans s1.st
  have hl : d.st.length = c.st.length := by rw [hst, centred_length]
  have hdm : d.m = c.m := (congrArg Data.m kd.data).trans s1.m
  have hsel : ∀ i < c.st.length, MassSelected (a.inner b.1 b.2).sub e none m0 d i ↔ ShellStar a e c b i := by
    intro i hi
    have er : (rowsView d.st d.m e).rAt a.prof.sub.projected i = radiusOf a.prof.sub c i := by
      unfold View.rAt rowsView radiusOf
      rw [hst]
      cases a.prof.sub.projected <;> simp only [Bool.false_eq_true, if_true, if_false] <;> exact rows_get hi
    have ev : (rowsView d.st d.m e).vAt a.prof.sub.projected i = speed0 a.prof.sub.projected (centred c)[i]! := by
      unfold View.vAt rowsView
      rw [hst]
      cases a.prof.sub.projected <;> simp only [Bool.false_eq_true, if_true, if_false] <;> exact rows_get hi
    constructor
    · rintro ⟨-, x1, x2, x3, -, -, x6⟩
      simp only [EtaProfArgs.inner] at x1 x2 x3 x6
      rw [er] at x1
      rw [ev] at x3
      refine ⟨x1.1 _ rfl, x1.2 _ rfl, ?_, x3, x6⟩
      rw [← hdm]; exact x2
    · rintro ⟨x1, x2, x3, x4, x5⟩
      refine ⟨(fun p hp => by cases hp), ?_, ?_, ?_, ⟨(fun b hb => by cases hb), (fun b hb => by cases hb)⟩, (fun p hp => by cases hp), x5⟩
      · show Within (some b.1) (some b.2) ((rowsView d.st d.m e).rAt a.prof.sub.projected i)
        rw [er]
        exact ⟨fun b hb => by cases hb; exact x1, fun b hb => by cases hb; exact x2⟩
      · show Within a.prof.sub.mmin a.prof.sub.mmax d.m[i]!
        rw [hdm]; exact x3
      · show Within a.prof.sub.vmin a.prof.sub.vmax ((rowsView d.st d.m e).vAt a.prof.sub.projected i)
        rw [ev]; exact x4
  refine ⟨p.of_rest (kd.rest.trans s1.rest), kd.lin s1.lin, hst, hl, hdm, ?_, hsel, ?_⟩
  · rw [hl]; exact ⟨he.npop, he.kw, .inl ⟨rfl, rfl⟩⟩
  · rw [hl]; exact numOver_congr hsel

/-- What `eta_function` finds in one shell. -/
theorem eta_entry {g : Galpy} {c c1 : Cluster} (p : Pos g c) (s1 : Started g c c1) {a : EtaProfArgs} {q : Option CurveFit} {e : PStars}
    (he : e.Ok a.prof.sub c.st.length) (h0 : 0 < a.nmass)
    {b : ℝ × ℝ} {d : Cluster} (kd : LeftAs c1 d) {m0 : Mem} {M : EtaOut} {x : Cluster × Mem} {S : ℕ → Prop}
    (hS : ∀ i < c.st.length, ShellStar a e c b i ↔ S i)
    (hn : 2 * a.nmass ≤ numOver c.st.length S) (hd : ∃ i j, i < c.st.length ∧ j < c.st.length ∧ S i ∧ S j ∧ c.m[i]! ≠ c.m[j]!)
    (h : etaFunction g (a.inner b.1 b.2) q e none m0 d = .ok (M, x)) : ∃ Q, EtaOf a e c S Q M ∧ FitOf q c M := by
  classical
  obtain ⟨pd, ld, hst, hl, hdm, he', hsel, hnum⟩ := eta_bin p s1 he b kd m0
  obtain ⟨c2, m2⟩ := x
  obtain ⟨i, j, x1, x2, x3, x4, x5⟩ := hd
  have hn' : 2 * (a.inner b.1 b.2).nmass ≤ numOver d.st.length (MassSelected (a.inner b.1 b.2).sub e none m0 d) := by
    rw [hnum, numOver_congr hS]; exact hn
  have hd' : ∃ i j, i < d.st.length ∧ j < d.st.length ∧ MassSelected (a.inner b.1 b.2).sub e none m0 d i ∧
      MassSelected (a.inner b.1 b.2).sub e none m0 d j ∧ d.m[i]! ≠ d.m[j]! :=
    ⟨i, j, by rw [hl]; exact x1, by rw [hl]; exact x2, (hsel i x1).mpr ((hS i x1).mpr x3), (hsel j x2).mpr ((hS j x2).mpr x4), by rw [hdm]; exact x5⟩
  have hw : ∀ Q, IsEtaFunction (a.inner b.1 b.2) e none m0 d Q M → EtaOf a e c S Q M := by
    intro Q hQ
    refine ⟨(List.range c.st.length).map (fun i => decide (S i)), by simp, fun i hi => by rw [map_get! _ _ hi]; simp, ?_⟩
    refine hQ.select hst.symm hdm.symm rfl rfl ?_
    intro i hi
    rw [hl] at hi
    rw [hsel i hi, hS i hi]
    constructor
    · intro hs
      refine ⟨?_, ⟨(fun b hb => by cases hb), (fun b hb => by cases hb)⟩, ⟨(fun b hb => by cases hb), (fun b hb => by cases hb)⟩,
        ⟨(fun b hb => by cases hb), (fun b hb => by cases hb)⟩, ⟨(fun b hb => by cases hb), (fun b hb => by cases hb)⟩,
        (fun p hp => by cases hp), fun h => absurd rfl h⟩
      intro p hp
      cases hp
      show ((List.range c.st.length).map (fun i => decide (S i)))[i]! = true
      rw [map_get! _ _ hi]; simpa using hs
    · rintro ⟨hs, -⟩
      have : ((List.range c.st.length).map (fun i => decide (S i)))[i]! = true := hs 0 rfl
      rw [map_get! _ _ hi] at this; simpa using this
  cases q with
  | none =>
    obtain ⟨Q, hQ, hf, -⟩ := C91_eta_function pd ld kd.good kd.fresh (a := a.inner b.1 b.2) (indx := none) (mem := m0) he' (fun q hq => by cases hq) hn' h0 hd' h
    exact ⟨Q, hw Q hQ, ⟨fun _ => hf, fun f hf => by cases hf⟩⟩
  | some q =>
    obtain ⟨⟨Q, lo, hi, hQ, y1, y2, y3⟩, -⟩ := eta_meq pd ld kd.good kd.fresh (a := a.inner b.1 b.2) (indx := none) (mem := m0) he' (fun q hq => by cases hq) hn' h0 hd' h
    rw [hdm] at y1 y2
    exact ⟨Q, hw Q hQ, ⟨(fun h => by cases h), (fun f hf => by cases hf; exact ⟨lo, hi, y1, y2, y3⟩)⟩⟩

theorem Contig.inside {lo hi : ℝ} {P : List (ℝ × ℝ)} (h : Contig lo hi P) {k : ℕ} (hk : k < P.length) : lo ≤ P[k]!.1 ∧ P[k]!.1 < P[k]!.2 ∧ P[k]!.2 ≤ hi := by
  obtain ⟨h1, h2, h3, -⟩ := h.ends (i := k) (lo := P[k]!.1) (hi := P[k]!.2) (by rw [List.getElem?_eq_getElem hk, getElem!_pos P k hk])
  exact ⟨h1, h2, h3⟩

/-- Without a mask and limits on energy and population, the stars between two edges of bins are the chosen ones there. -/
theorem shell_iff {c : Cluster} {a : EtaProfArgs} {e : PStars} {mem : Mem} {B : Binned} {P : List (ℝ × ℝ)}
    (h1 : a.prof.sub.emin = none ∧ a.prof.sub.emax = none) (h2 : a.prof.sub.npop = none)
    (h3 : a.prof.bins = none ∨ (a.prof.sub.rmin = none ∧ a.prof.sub.rmax = none))
    (hB : BinnedOk a.prof c.st.length (Chosen a.prof.sub e none mem c) (radiusOf a.prof.sub c) B P) {k : ℕ} (hk : k < P.length) :
    ∀ i < c.st.length, ShellStar a e c P[k]! i ↔ BetweenEdges a.prof e none mem c P k i := by
  intro i hi
  have er : ∀ i < c.st.length, (rowsView (centred c) c.m e).rAt a.prof.sub.projected i = radiusOf a.prof.sub c i := by
    intro i hi
    unfold View.rAt rowsView radiusOf
    cases a.prof.sub.projected <;> simp only [Bool.false_eq_true, if_true, if_false] <;> exact rows_get hi
  have ev : (rowsView (centred c) c.m e).vAt a.prof.sub.projected i = speed0 a.prof.sub.projected (centred c)[i]! := by
    unfold View.vAt rowsView
    cases a.prof.sub.projected <;> simp only [Bool.false_eq_true, if_true, if_false] <;> exact rows_get hi
  constructor
  · rintro ⟨x1, x2, x3, x4, x5⟩
    refine ⟨⟨(fun p hp => by cases hp), ?_, x3, ?_, ?_, ?_, x5⟩, x1, x2⟩
    · rw [er i hi]
      rcases h3 with h | ⟨h, h'⟩
      · obtain ⟨lo, hi', q1, -, q3⟩ := hB.contig
        obtain ⟨y1, -, y3⟩ := q1.inside hk
        obtain ⟨⟨j, j1, j2, j3⟩, ⟨j', j1', j2', j3'⟩⟩ := q3 h
        constructor
        · intro b hb
          have := j2.2.r.1 b hb
          rw [er j j1] at this
          linarith
        · intro b hb
          have := j2'.2.r.2 b hb
          rw [er j' j1'] at this
          linarith
      · exact ⟨(fun b hb => by rw [h] at hb; cases hb), (fun b hb => by rw [h'] at hb; cases hb)⟩
    · rw [ev]; exact x4
    · exact ⟨(fun b hb => by rw [h1.1] at hb; cases hb), (fun b hb => by rw [h1.2] at hb; cases hb)⟩
    · intro p hp; rw [h2] at hp; cases hp
  · rintro ⟨⟨-, y1, y2, y3, -, -, y6⟩, x1, x2⟩
    rw [ev] at y3
    exact ⟨x1, x2, y2, y3, y6⟩

/-- **C98.**  Whatever `eta_prof` (or, with a fit, `meq_prof`) returns in space, without a mask and limits on energy and population: the
bins are those of all profiles; entry `k` is the slope (the equipartition mass) `eta_function` finds for the chosen stars between the edges
of bin `k` if there are at least `2·nmass` of them, not all of one mass, and it is above `-100`.  With up to three bins there is no gradient
(`-100`), with more it is the least-squares line of the entries against `ln(r/rm)`; `rm`, and what normalised radii are divided by, is the
half-mass radius about the centre (for a current stored order).  The cluster is left as it was. -/
theorem C98_eta_prof {g : Galpy} {c : Cluster} (p : Pos g c) (l : Lin c) (hg : Good c) (f : Fresh c) {a : EtaProfArgs} {q : Option CurveFit}
    {e : PStars} {mem : Mem} (he : e.Ok a.prof.sub c.st.length) (h0 : 0 < a.nmass) (hpr : a.prof.sub.projected = false)
    (h1 : a.prof.sub.emin = none ∧ a.prof.sub.emax = none) (h2 : a.prof.sub.npop = none)
    (h3 : a.prof.bins = none ∨ (a.prof.sub.rmin = none ∧ a.prof.sub.rmax = none))
    (hc : BinsCover a.prof c.st.length (Chosen a.prof.sub e none mem c) (radiusOf a.prof.sub c))
    {o : SlopeOut} {after : After} (h : etaProf g a q e none mem c = .ok (o, after)) :
    ∃ P mid, ReportedBins a.prof e none mem c P ∧ BinRadii a.prof e none mem c P mid ∧ (a.prof.normalize = false → o.r = mid) ∧
      o.slope.length = P.length ∧
      (∀ k < P.length, 2 * a.nmass ≤ numOver c.st.length (BetweenEdges a.prof e none mem c P k) →
        (∃ i j, i < c.st.length ∧ j < c.st.length ∧ BetweenEdges a.prof e none mem c P k i ∧ BetweenEdges a.prof e none mem c P k j ∧ c.m[i]! ≠ c.m[j]!) →
        ∃ Q M, EtaOf a e c (BetweenEdges a.prof e none mem c P k) Q M ∧ FitOf q c M ∧ (-100 < M.fit.slope → o.slope[k]! = M.fit.slope)) ∧
      (P.length ≤ 3 → o.fit = ⟨-100, 0, 0, 0⟩) ∧
      (3 < P.length → ∃ rm, IsLineFit (lnPoints rm mid o.slope) o.fit ∧
        (OrderCurrent c → (∀ x ∈ c.m, 0 ≤ x) → IsMassRadius 0.5 c.m ((centred c).map (dist0 false)) rm)) ∧
      (a.prof.normalize = true → OrderCurrent c → (∀ x ∈ c.m, 0 ≤ x) → (c.origin ≠ some .galaxy → RmCurrent c) →
        ∃ rm, IsMassRadius 0.5 c.m ((centred c).map (dist0 false)) rm ∧ o.r = mid.map (· / rm)) ∧
      after.cluster.data = c.data ∧ Fresh after.cluster := by
  have e3 : radiusOf a.prof.sub c = centreDist c := by funext i; unfold radiusOf; rw [hpr]
  obtain ⟨c1, B, P, t, m0, hstart, s1, hB, hr, ht, es, ef, ef', d2, f2⟩ := eta_core p l hg f he (fun q hq => by cases hq) (by rw [← e3]; exact hc) h
  rw [← e3] at hB
  obtain ⟨kt, tl, tj, tord, -⟩ := etaBins_run (p.of_rest s1.rest) s1.lin _ ⟨rfl, s1.fresh, s1.good, rfl⟩ ht
  refine ⟨P, B.mid, hB.reported, hB.radii, ?_, by rw [es, tl], ?_, fun h => ef' h, ?_, ?_, d2, f2⟩
  · intro hn
    unfold velRadii at hr
    rw [if_neg (by simp [hn])] at hr
    injection hr with hr; exact hr.symm
  · intro k hk hn hd
    obtain ⟨d, m', M, c', m'', kd, hM, hv⟩ := tj k hk
    obtain ⟨Q, hQ, hF⟩ := eta_entry p s1 he h0 kd (shell_iff h1 h2 h3 hB hk) hn hd hM
    refine ⟨Q, M, hQ, hF, fun hgt => ?_⟩
    rw [es, hv, keepSlope, if_pos hgt]
  · intro h3
    obtain ⟨rm, hrm, hfit⟩ := fitLn_fit (ef h3)
    refine ⟨rm, by rw [es]; exact hfit, ?_⟩
    intro ho hmass
    have hne : P ≠ [] := by rintro rfl; simp at h3
    have oc := profStart_order l hg f hmass ho hstart
    obtain ⟨rm', r1, r2⟩ := (tord oc (by rw [s1.m]; exact hmass)).2 hne
    rw [hpr] at hrm
    have hrm : t.2.1.d.rm = some rm := hrm
    rw [hrm] at r1; cases r1
    rw [show t.2.1.m = c1.m from congrArg Data.m kt.data, show t.2.1.st = c1.st from congrArg Data.st kt.data, s1.m, s1.st] at r2
    rw [dist0_eq]; exact r2
  · intro hn ho hmass hrm
    obtain ⟨-, rm, r1, r2⟩ := profStart_current l hg f hmass ho hrm (by rw [hn] at hstart; exact hstart)
    rw [s1.m, s1.st] at r2
    refine ⟨rm, by rw [dist0_eq]; exact r2, ?_⟩
    unfold velRadii at hr
    rw [if_pos hn, hpr] at hr
    simp only [Bool.false_eq_true, if_false] at hr
    rw [divRm_some r1] at hr
    injection hr with hr; exact hr.symm

end

end CT
