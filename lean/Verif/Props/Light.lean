/- Property theorems C157, C158: half-light radii. -/
import Verif.Model.Light
import Verif.Props.Session
import Verif.Props.Analysis
import Verif.Props.Lagrange
import Verif.Props.Mutate
import Verif.Props.Relax
import Verif.Lemmas.Sky
import Verif.Spec.Relax

namespace CT

noncomputable section

theorem lights_nonneg (l : List ℝ) : ∀ x ∈ l.map (fun q : ℝ => (10 : ℝ) ^ q), 0 ≤ x := by
  intro x hx
  obtain ⟨q, -, rfl⟩ := List.mem_map.mp hx
  positivity

/-- Luminosities as `add_sse` leaves them, one for each star. -/
structure Lit (x : LCluster) : Prop where
  lum : x.lum = x.logl.map (fun q : ℝ => (10 : ℝ) ^ q)
  tot : x.ltot = x.lum.sum
  len : x.logl.length = x.c.st.length

theorem addLights_lit {x : LCluster} {l : List ℝ} (h : (x.logl ++ l).length = x.c.st.length) : Lit (addLights l x) :=
  ⟨rfl, rfl, h⟩

theorem lightBlock_ok {x : LCluster} {o : List ℕ} (hl : Lit x) (hne : x.c.st ≠ []) (hr : x.c.d.r = x.c.st.map Ph.r)
    (hrp : x.c.d.rpro = x.c.st.map Ph.rpro) (ho : x.c.rorder = some o) (hs : SortedBy (x.c.st.map Ph.r) o)
    (hp : ∀ p, x.c.rproorder = some p → IsOrder x.c.st.length p) :
    ∃ rh rh10 a b, lightBlock x = .ok { x with rh := some rh, rh10 := some rh10, rhpro := some a, rh10pro := some b } ∧
      IsMassRadius 0.5 x.lum (x.c.st.map Ph.r) rh ∧ IsMassRadius 0.1 x.lum (x.c.st.map Ph.r) rh10 ∧
      (x.c.rproorder = none → a = 0 ∧ b = 0) ∧
      ∀ p, x.c.rproorder = some p → SortedBy (x.c.st.map Ph.rpro) p →
        IsMassRadius 0.5 x.lum (x.c.st.map Ph.rpro) a ∧ IsMassRadius 0.1 x.lum (x.c.st.map Ph.rpro) b := by
  have hlen : x.lum.length = x.c.st.length := by rw [hl.lum, List.length_map, hl.len]
  have hn : x.lum ≠ [] := by
    intro h; rw [h] at hlen; exact hne (List.length_eq_zero_iff.mp hlen.symm)
  have hm : ∀ q ∈ x.lum, 0 ≤ q := by rw [hl.lum]; exact lights_nonneg _
  obtain ⟨rh, e1, m1⟩ := massFracRadius_isMassRadius (f := 0.5) hs (by simp [hlen]) hn hm (by norm_num)
  obtain ⟨rh10, e2, m2⟩ := massFracRadius_isMassRadius (f := 0.1) hs (by simp [hlen]) hn hm (by norm_num)
  unfold lightBlock
  rw [if_neg hn, ho, hl.tot, hr, hrp]
  simp only [Option.elim_some, e1, e2, bind, Except.bind]
  cases hq : x.c.rproorder with
  | none => exact ⟨rh, rh10, 0, 0, rfl, m1, m2, fun _ => ⟨rfl, rfl⟩, by simp⟩
  | some p =>
    obtain ⟨a, f1⟩ : ∃ a, massFracRadius 0.5 x.lum.sum x.lum (x.c.st.map Ph.rpro) p = .ok a := by
      obtain ⟨k, hk, f1, -⟩ := massFracRadius_spec (f := 0.5) (m := x.lum) (r := x.c.st.map Ph.rpro) (hlen ▸ hp p hq) (by simp [hlen]) hn
        (List.sum_nonneg hm) (by norm_num)
      exact ⟨_, f1⟩
    obtain ⟨b, f2⟩ : ∃ b, massFracRadius 0.1 x.lum.sum x.lum (x.c.st.map Ph.rpro) p = .ok b := by
      obtain ⟨k, hk, f2, -⟩ := massFracRadius_spec (f := 0.1) (m := x.lum) (r := x.c.st.map Ph.rpro) (hlen ▸ hp p hq) (by simp [hlen]) hn
        (List.sum_nonneg hm) (by norm_num)
      exact ⟨_, f2⟩
    refine ⟨rh, rh10, a, b, ?_, m1, m2, by simp, ?_⟩
    · simp only [Option.elim_some, f1, f2, pure, Except.pure]
    · intro p' hp' hsp
      cases hp'
      obtain ⟨a, g1, n1⟩ := massFracRadius_isMassRadius (f := 0.5) hsp (by simp [hlen]) hn hm (by norm_num)
      obtain ⟨b, g2, n2⟩ := massFracRadius_isMassRadius (f := 0.1) hsp (by simp [hlen]) hn hm (by norm_num)
      rw [f1] at g1; cases g1
      rw [f2] at g2; cases g2
      exact ⟨n1, n2⟩

theorem sortstars_rpro_none (r rpro : List ℝ) (c : Cluster) (h : c.rproorder = none) :
    (sortstars true r rpro c).rproorder = some (argsort rpro) := by
  unfold sortstars
  cases hro : c.rorder with
  | none => simp [h]
  | some o =>
    by_cases hc : c.rorderOrigin ≠ c.origin ∨ r.length ≠ o.length
    · simp [hc, h]
    · simp [hc, h]

theorem analyze_rpro_none {c c' : Cluster} (h : analyze true c true = .ok c') (hn : c.rproorder = none) :
    c'.rproorder = some (argsort (c.st.map Ph.rpro)) := by
  unfold analyze at h
  simp only [bind, Except.bind, pure, Except.pure] at h
  split at h
  · cases h
  · split at h
    · cases h
    · split at h
      · cases h
      · injection h with h
        rw [← h]
        simp only [if_true]
        exact sortstars_rpro_none _ _ c hn

/-- **C157 (analyze).**  `analyze()` of a cluster with one luminosity for each star, whose stored order (if made for this origin) is a sort of
the current radii, does to the cluster what it does without luminosities, and `rh` and `rh10` are the radii of the smallest spheres of
stars with a half and a tenth of the light; `rhpro` and `rh10pro` likewise in projection if there is no stored projected order, or a right one. -/
theorem C157_half_light (p : Bool) (x : LCluster) (hg : Good x.c) (hl : Lit x)
    (hcur : ∀ o, x.c.rorder = some o → x.c.rorderOrigin = x.c.origin → SortedBy (x.c.st.map Ph.r) o) :
    ∃ c' rh rh10 a b, analyze true x.c p = .ok c' ∧
      analyzeLight true p x = .ok { x with c := c', rh := some rh, rh10 := some rh10, rhpro := some a, rh10pro := some b } ∧
      IsMassRadius 0.5 x.lum (x.c.st.map Ph.r) rh ∧ IsMassRadius 0.1 x.lum (x.c.st.map Ph.r) rh10 ∧ rh10 ≤ rh ∧
      (p = true → (∀ q, x.c.rproorder = some q → SortedBy (x.c.st.map Ph.rpro) q) →
        IsMassRadius 0.5 x.lum (x.c.st.map Ph.rpro) a ∧ IsMassRadius 0.1 x.lum (x.c.st.map Ph.rpro) b ∧ b ≤ a) := by
  obtain ⟨c', h, g'⟩ := analyze_total (s := true) (p := p) hg
  obtain ⟨o, h1, h2, h3⟩ := analyze_rorder_sorted h
  have hs : SortedBy (x.c.st.map Ph.r) o := by
    rcases h3 with rfl | ⟨k1, k2⟩
    · exact .argsort _
    · exact hcur o k1 k2
  have est : c'.st = x.c.st := core_st (analyze_core h)
  obtain ⟨hne, rm, r10, rmp, r10p, hd⟩ := analyze_d h
  have hr : c'.d.r = x.c.st.map Ph.r := by rw [hd]
  have hrp : c'.d.rpro = x.c.st.map Ph.rpro := by rw [hd]
  obtain ⟨y, hy⟩ : ∃ y : LCluster, y = { x with c := c' } := ⟨_, rfl⟩
  have yc : y.c = c' := by rw [hy]
  have yl : y.lum = x.lum := by rw [hy]
  have lit : Lit y := by rw [hy]; exact ⟨hl.lum, hl.tot, by rw [est]; exact hl.len⟩
  obtain ⟨rh, rh10, a, b, e, m1, m2, -, m4⟩ := lightBlock_ok lit (by rw [yc, est]; exact hne) (by rw [yc, est, hr]) (by rw [yc, est, hrp])
    (by rw [yc]; exact h1) (by rw [yc, est]; exact hs) (by rw [yc]; exact g'.rpo)
  rw [yc, est, yl] at m1 m2 m4
  have hle : ∀ {R : List ℝ} {α β : ℝ}, IsMassRadius 0.5 x.lum R α → IsMassRadius 0.1 x.lum R β → β ≤ α := by
    intro R α β hα hβ
    refine hβ.mono hα ?_
    have : 0 ≤ x.lum.sum := List.sum_nonneg (by rw [hl.lum]; exact lights_nonneg _)
    nlinarith
  refine ⟨c', rh, rh10, a, b, h, ?_, m1, m2, hle m1 m2, ?_⟩
  · simp only [analyzeLight, h, Except.bind]
    rw [← hy, e, hy]
  · rintro rfl hq
    obtain ⟨q, hq1, hq2⟩ : ∃ q, c'.rproorder = some q ∧ SortedBy (x.c.st.map Ph.rpro) q := by
      cases hp : x.c.rproorder with
      | none => exact ⟨_, analyze_rpro_none h hp, .argsort _⟩
      | some q =>
        have hsq := hq q hp
        exact ⟨q, analyze_rproorder hp (by simpa using hsq.1.length) h, hsq⟩
    obtain ⟨n1, n2⟩ := m4 q hq1 hq2
    exact ⟨n1, n2, hle n1 n2⟩

/-- **C157 (sessions).**  After any session of conversions and analysis functions, `analyze()` gives the half-light radius of the cluster's
stars about the current origin: in parsecs it depends on the world, the luminosities and the origin only. -/
theorem C157_session {g : Galpy} {w : World} {l : List SCall} {x : LCluster} {c1 : Cluster} {u : Units} {s : Scale} {o : Origin}
    (hl : ∀ a ∈ l, a.Admissible w) (d : Describes g w x.c) (lit : Lit x) (h : session g l x.c = .ok c1) (hu : c1.units = some u)
    (hs : unitScale g c1 u = some s) (ho : c1.origin = some o) :
    ∃ y rh rh10, analyzeLight true true { x with c := c1 } = .ok y ∧ y.rh = some rh ∧ y.rh10 = some rh10 ∧ y.c.data = c1.data ∧
      IsMassRadius 0.5 x.lum (w.radii o x.c.st.length) (rh * s.len) ∧ IsMassRadius 0.1 x.lum (w.radii o x.c.st.length) (rh10 * s.len) := by
  obtain ⟨d1, -⟩ := session_steps l hl d h
  have n0 := describes_count d
  have n1 := describes_count d1
  have hn : c1.st.length = x.c.st.length := n1.symm.trans n0
  obtain ⟨c', rh, rh10, a, b, e1, e2, m1, m2, -⟩ := C157_half_light true { x with c := c1 } d1.good ⟨lit.lum, lit.tot, lit.len.trans hn.symm⟩
    (fun q hq hs => d1.order.sorted d1.pos d1.lin d1.world hq hs)
  have hpos := (unitScale_pos d1.pos hs).1
  have hol : o.linear := by obtain ⟨-, o', ho', k⟩ := d1.lin; rw [ho] at ho'; cases ho'; exact k
  have er : (c1.st.map Ph.r).map (· * s.len) = w.radii o x.c.st.length := by
    refine List.ext_getElem (by simp [World.radii, hn]) fun i k1 k2 => ?_
    have hi : i < c1.st.length := by simpa using k1
    simp only [World.radii, List.getElem_map, List.getElem_range]
    have := World.radius_eq d1.world hu ho hol hs hpos i hi
    rw [this]
    simp [hi]
  have key : ∀ {f ρ : ℝ}, IsMassRadius f x.lum (c1.st.map Ph.r) ρ → IsMassRadius f x.lum (w.radii o x.c.st.length) (ρ * s.len) := by
    intro f ρ hρ
    have := hρ.scale (k := s.len) (μ := 1) hpos one_pos
    rw [er] at this
    simpa using this
  exact ⟨_, rh, rh10, e2, rfl, rfl, core_data (analyze_core e1), key m1, key m2⟩

theorem massFracRadius_short {f t : ℝ} {m r : List ℝ} {o : List ℕ} {n : ℕ} (ho : IsOrder n o) (h : m.length < n) :
    massFracRadius f t m r o = .error .indexError := by
  have : o.mapM (fun i => m[i]?) = none := by
    have hmem : m.length ∈ o := ho.mem_iff.mpr (by simpa using h)
    clear ho h
    induction o with
    | nil => simp at hmem
    | cons a o ih =>
      rw [List.mapM_cons]
      rcases List.mem_cons.mp hmem with e | e
      · rw [← e]; simp
      · rw [ih e]; cases m[a]? <;> rfl
  unfold massFracRadius
  rw [this]

/-- **C158 is violated: one luminosity too few.**  If there are fewer luminosities than stars, but some, `analyze()` raises `IndexError`, whatever
the cluster. -/
theorem C158_too_few_violated {p : Bool} {x : LCluster} (hg : Good x.c) (h0 : x.lum ≠ []) (h1 : x.lum.length < x.c.st.length) :
    analyzeLight true p x = .error .indexError := by
  obtain ⟨c', h, g'⟩ := analyze_total (s := true) (p := p) hg
  obtain ⟨o, k1, -, -⟩ := analyze_rorder_sorted h
  have est : c'.st = x.c.st := core_st (analyze_core h)
  simp only [analyzeLight, h, Except.bind]
  unfold lightBlock
  simp only [h0, if_false, k1, Option.elim_some]
  rw [massFracRadius_short (n := c'.st.length) (g'.ro o k1) (by rw [est]; exact h1)]
  rfl

/-- **C158 is violated: adding stars.**  Stars added to a cluster with luminosities: `add_stars` raises, with the rows in place but `ntot` still
the old number. -/
theorem C158_add_stars_violated {x : LCluster} {m : List ℝ} {st : List Ph} (hg : Good x.c) (lit : Lit x) (hn : x.ntot = x.c.st.length)
    (hm : ∀ q ∈ m, 0 ≤ q) (hl : m.length = st.length) (h0 : st ≠ []) (hro : x.c.rorder = none) (hrp : x.c.rproorder = none) :
    ∃ y, addRows m st true true x = (y, some .indexError) ∧ y.c.st = x.c.st ++ st ∧ y.c.m = x.c.m ++ m ∧ y.ntot < y.c.st.length := by
  obtain ⟨y, hy⟩ : ∃ y : LCluster, y = { x with c := { x.c with m := x.c.m ++ m, st := x.c.st ++ st } } := ⟨_, rfl⟩
  have hs : 0 < st.length := List.length_pos_iff.mpr h0
  have gy : Good y.c := by
    rw [hy]
    refine ⟨by simp [hg.ne], by simp [hg.len, hl], ?_, by simp [hro], by simp [hrp]⟩
    have := hg.mass
    have q := List.sum_nonneg hm
    simp only [List.sum_append]
    linarith
  have hlen : y.lum.length < y.c.st.length := by
    rw [hy]
    simp only [lit.lum, List.length_map, List.length_append, lit.len]
    omega
  have hne : y.lum ≠ [] := by
    rw [hy]
    intro h
    have := congrArg List.length h
    simp only [lit.lum, List.length_map, lit.len, List.length_nil] at this
    exact hg.ne (List.length_eq_zero_iff.mp this)
  have e := C158_too_few_violated (p := true) gy hne hlen
  refine ⟨y, ?_, by rw [hy], by rw [hy], ?_⟩
  · unfold addRows
    simp only [if_true]
    rw [← hy, e]
  · rw [hy]; simp only [hn, List.length_append]; omega

theorem sortstars_rpro_kept (r rpro : List ℝ) (c : Cluster) (h : c.rproorder = none) (hp : c.projected = false) :
    (sortstars false r rpro c).rproorder = none := by
  unfold sortstars
  cases hro : c.rorder with
  | none => simp [h, hp]
  | some o =>
    by_cases hc : c.rorderOrigin ≠ c.origin ∨ r.length ≠ o.length
    · simp [hc, h, hp]
    · simp [hc, h, hp]

theorem analyze_rpro_kept {c c' : Cluster} (h : analyze true c false = .ok c') (hn : c.rproorder = none) (hp : c.projected = false) :
    c'.rproorder = none := by
  unfold analyze at h
  simp only [bind, Except.bind, pure, Except.pure] at h
  split at h
  · cases h
  · split at h
    · cases h
    · split at h
      · cases h
      · injection h with h
        rw [← h]
        simp only [if_true]
        exact sortstars_rpro_kept _ _ c hn hp

/-- **C158 is violated: no projected order.**  Without one (`analyze(projected=False)`) the projected half-light radius of a cluster is 0,
which is not its half-light radius unless half of the light is at radius 0. -/
theorem C158_projected_violated {x : LCluster} (hg : Good x.c) (hl : Lit x) (hpr : x.c.projected = false) (hrp : x.c.rproorder = none)
    (hcur : ∀ o, x.c.rorder = some o → x.c.rorderOrigin = x.c.origin → SortedBy (x.c.st.map Ph.r) o)
    (hpos : ∀ q ∈ x.c.st, 0 < q.rpro) :
    ∃ y, analyzeLight true false x = .ok y ∧ y.rhpro = some 0 ∧ y.rh10pro = some 0 ∧ ¬ IsMassRadius 0.5 x.lum (x.c.st.map Ph.rpro) 0 ∧
      ∃ rh, y.rh = some rh ∧ IsMassRadius 0.5 x.lum (x.c.st.map Ph.r) rh := by
  obtain ⟨c', h, g'⟩ := analyze_total (s := true) (p := false) hg
  obtain ⟨o, h1, h2, h3⟩ := analyze_rorder_sorted h
  have hs : SortedBy (x.c.st.map Ph.r) o := by
    rcases h3 with rfl | ⟨k1, k2⟩
    · exact .argsort _
    · exact hcur o k1 k2
  have est : c'.st = x.c.st := core_st (analyze_core h)
  obtain ⟨hne, rm, r10, rmp, r10p, hd⟩ := analyze_d h
  obtain ⟨y, hy⟩ : ∃ y : LCluster, y = { x with c := c' } := ⟨_, rfl⟩
  have yc : y.c = c' := by rw [hy]
  have yl : y.lum = x.lum := by rw [hy]
  have lit : Lit y := by rw [hy]; exact ⟨hl.lum, hl.tot, by rw [est]; exact hl.len⟩
  obtain ⟨rh, rh10, a, b, e, m1, m2, m3, -⟩ := lightBlock_ok lit (by rw [yc, est]; exact hne) (by rw [yc, est, hd]) (by rw [yc, est, hd])
    (by rw [yc]; exact h1) (by rw [yc, est]; exact hs) (by rw [yc]; exact g'.rpo)
  obtain ⟨rfl, rfl⟩ := m3 (by rw [yc]; exact analyze_rpro_kept h hrp hpr)
  rw [yc, est, yl] at m1
  refine ⟨_, by simp only [analyzeLight, h, Except.bind]; rw [← hy, e], rfl, rfl, ?_, rh, rfl, m1⟩
  rintro ⟨hm, -⟩
  obtain ⟨q, hq, e0⟩ := List.mem_map.mp hm
  exact (hpos q hq).ne' e0

/-- The cluster `c` with log luminosities `l`. -/
def litDemo (c : Cluster) (l : List ℝ) : LCluster := addLights l ⟨c, [], [], 0, none, none, none, none, c.st.length⟩

/-- **C158 is violated: a projected order made for another origin.**  There is a cluster with right orders, and luminosities, whose projected
half-light radius is wrong after `to_galaxy()`, which analyses it. -/
theorem C158_stale_order_violated : ∃ (x : LCluster) (c' : Cluster) (y : LCluster), Good x.c ∧ Lit x ∧
    (∃ o, x.c.rproorder = some o ∧ SortedBy (x.c.st.map Ph.rpro) o) ∧ toGalaxy demoG true x.c = .ok c' ∧
    analyzeLight true true { x with c := c' } = .ok y ∧ y.rhpro = some 4 ∧ IsMassRadius 0.5 x.lum (c'.st.map Ph.rpro) 0 := by
  have hg := demoPro_good
  obtain ⟨c', h, hg'⟩ := toGalaxy_total (g := demoG) (s := true) (c := demoPro) (by simp [demoPro, demo]) demoPro_good
  have hst : c'.st = [⟨0, 0, 0, 0, 0, 0⟩, ⟨-4, 0, 0, 0, 0, 0⟩] := by
    have h := h
    simp only [toGalaxy, demoPro, demo, bind, Except.bind] at h
    simp at h
    rw [(core_fields (analyze_core h)).2.2.2.2.1]
    simp [Ph.add]
    norm_num
  have hp : Pos demoG demoPro :=
    ⟨demo_pos.rbar, demo_pos.vbar, demo_pos.zmbar, demo_pos.tbar, demo_pos.ro, demo_pos.vo, demo_pos.time,
      demo_pos.mass, demo_pos.vel⟩
  have hl : Lin demoPro := ⟨demo_lin.units, demo_lin.origin⟩
  have hro := C64_projected_order_never_updated demoG demoPro c' [.toGalaxy true] [1, 0] hp hl
    (by simp [Op.linear, Op.unitTarget, Op.originTarget, Origin.linear]) rfl rfl
    (by simp [run, Op.exec, h, Except.bind])
  obtain ⟨c2, h2, hg2⟩ := analyze_total (s := true) (p := true) hg'
  have hro2 : c2.rproorder = some [1, 0] := analyze_rproorder hro (by rw [hst]; rfl) h2
  obtain ⟨q, k1, -, -⟩ := analyze_rorder_sorted h2
  have est : c2.st = c'.st := core_st (analyze_core h2)
  obtain ⟨-, rm, r10, rmp, r10p, hd⟩ := analyze_d h2
  obtain ⟨x, hx⟩ : ∃ x, x = litDemo demoPro [0, 0] := ⟨_, rfl⟩
  have xc : x.c = demoPro := by rw [hx]; rfl
  have xl : x.lum = [1, 1] := by rw [hx]; simp [litDemo, addLights]
  have xt : x.ltot = 2 := by rw [hx]; norm_num [litDemo, addLights]
  have hrp : c2.d.rpro = [0, 4] := by rw [hd, hst]; simp [Ph.rpro, Real.sqrt_sq_eq_abs]
  have lit : Lit x := by rw [hx]; exact addLights_lit (by simp [demoPro])
  have hlen : c2.st.length = 2 := by rw [est, hst]; rfl
  obtain ⟨rh, e1⟩ : ∃ a, massFracRadius 0.5 2 [1, 1] c2.d.r q = .ok a := by
    obtain ⟨k, hk, f1, -⟩ := massFracRadius_spec (f := 0.5) (m := [1, 1]) (r := c2.d.r) (o := q) (by have := hg2.ro q k1; rw [hlen] at this; exact this)
      (by rw [hd, hst]; rfl) (by simp) (by norm_num) (by norm_num)
    have e : ([1, 1] : List ℝ).sum = 2 := by norm_num
    rw [e] at f1
    exact ⟨_, f1⟩
  obtain ⟨rh10, e2⟩ : ∃ a, massFracRadius 0.1 2 [1, 1] c2.d.r q = .ok a := by
    obtain ⟨k, hk, f1, -⟩ := massFracRadius_spec (f := 0.1) (m := [1, 1]) (r := c2.d.r) (o := q) (by have := hg2.ro q k1; rw [hlen] at this; exact this)
      (by rw [hd, hst]; rfl) (by simp) (by norm_num) (by norm_num)
    have e : ([1, 1] : List ℝ).sum = 2 := by norm_num
    rw [e] at f1
    exact ⟨_, f1⟩
  have e3 : massFracRadius 0.5 2 [1, 1] [0, 4] [1, 0] = .ok (4 : ℝ) := by
    norm_num [massFracRadius, cumsum, cumsumFrom, List.findIdx?_cons]
  have e4 : massFracRadius 0.1 2 [1, 1] [0, 4] [1, 0] = .ok (4 : ℝ) := by
    norm_num [massFracRadius, cumsum, cumsumFrom, List.findIdx?_cons]
  refine ⟨x, c', { x with c := c2, rh := some rh, rh10 := some rh10, rhpro := some 4, rh10pro := some 4 }, by rw [xc]; exact hg, lit,
    ⟨[1, 0], by rw [xc]; rfl, ?_⟩, by rw [xc]; exact h, ?_, rfl, ?_⟩
  · rw [xc]
    refine ⟨by simp only [IsOrder, demoPro]; decide, ?_⟩
    simp [demoPro, Ph.rpro, Real.sqrt_sq_eq_abs]
  · simp only [analyzeLight, h2, Except.bind, lightBlock]
    rw [if_neg (by rw [xl]; simp), k1, hro2, xl, xt, hrp]
    simp only [Option.elim_some, e1, e2, e3, e4, bind, Except.bind, pure, Except.pure]
  · rw [xl, hst]
    refine ⟨by simp [Ph.rpro], ?_, ?_⟩
    · simp [massWhere, Ph.rpro, Real.sqrt_sq_eq_abs]
      norm_num
    · intro r hr h0
      simp [Ph.rpro, Real.sqrt_sq_eq_abs] at hr
      rcases hr with rfl | rfl
      · exact absurd h0 (lt_irrefl _)
      · norm_num at h0

/-! ### witnesses -/

example : ∃ c0 w y rh, Describes demoG w c0 ∧ analyzeLight true true (litDemo c0 [0, 1]) = .ok y ∧ y.rh = some rh ∧
    IsMassRadius 0.5 (litDemo c0 [0, 1]).lum (c0.st.map Ph.r) rh := by
  obtain ⟨c0, w, -, p, l, hg, f, hm, hM, hw, i, hu, hn, -⟩ := demo_analysed
  obtain ⟨c', rh, rh10, a, b, -, e2, m1, -⟩ := C157_half_light true (litDemo c0 [0, 1]) hg (addLights_lit (by simp [hn]))
    (fun q hq hs => i.sorted p l hw hq hs)
  exact ⟨c0, w, _, rh, ⟨p, l, hg, f, hw, i⟩, e2, rfl, m1⟩

example : ∃ y, addRows [2] [⟨1, 1, 1, 0, 0, 0⟩] true true (litDemo { demo with rorder := none, rproorder := none } [0, 1]) = (y, some .indexError) := by
  obtain ⟨y, h, -⟩ := C158_add_stars_violated (x := litDemo { demo with rorder := none, rproorder := none } [0, 1]) (m := [2])
    (st := [⟨1, 1, 1, 0, 0, 0⟩])
    ⟨demo_good.ne, demo_good.len, demo_good.mass, by simp [litDemo, addLights], by simp [litDemo, addLights]⟩
    (addLights_lit (by simp [demo])) rfl (by norm_num) rfl (by simp) rfl rfl
  exact ⟨y, h⟩

example : ∃ y, analyzeLight true false (litDemo { demo with rorder := none, rproorder := none } [0, 1]) = .ok y ∧ y.rhpro = some 0 := by
  obtain ⟨y, h, h2, -⟩ := C158_projected_violated (x := litDemo { demo with rorder := none, rproorder := none } [0, 1])
    ⟨demo_good.ne, demo_good.len, demo_good.mass, by simp [litDemo, addLights], by simp [litDemo, addLights]⟩
    (addLights_lit (by simp [demo])) rfl rfl (by simp [litDemo, addLights])
    (by
      intro q hq
      have : q = ⟨3, 0, 4, 1, 0, 0⟩ ∨ q = ⟨0, 1, 0, 0, -2, 5⟩ := by simpa [litDemo, addLights, demo] using hq
      rcases this with rfl | rfl <;> norm_num [Ph.rpro, Real.sqrt_sq_eq_abs])
  exact ⟨y, h, h2⟩

end

end CT
