/- C130, C131: clusters built from observations on the sky. -/
import Verif.Lemmas.SkyHist
import Verif.Lemmas.IO
import Verif.Props.AddOrbit
import Verif.Spec.SkyFirst
import Verif.Spec.Demo

namespace CT

noncomputable section

set_option linter.unusedSimpArgs false

theorem kpc_pcRow (p : Ph) : kpcRow (pcRow p) = p := by
  ext <;> simp [kpcRow, pcRow]

theorem rowsOf_append {n : ℕ} : ∀ {x y z vx vy vz x' y' z' vx' vy' vz' : List ℝ}, x.length = n → y.length = n → z.length = n →
    vx.length = n → vy.length = n → vz.length = n →
    rowsOf (x ++ x') (y ++ y') (z ++ z') (vx ++ vx') (vy ++ vy') (vz ++ vz') = rowsOf x y z vx vy vz ++ rowsOf x' y' z' vx' vy' vz' := by
  induction n with
  | zero =>
    intro x y z vx vy vz _ _ _ _ _ _ h1 h2 h3 h4 h5 h6
    simp only [List.length_eq_zero_iff] at h1 h2 h3 h4 h5 h6
    subst h1 h2 h3 h4 h5 h6
    rfl
  | succ n ih =>
    intro x y z vx vy vz _ _ _ _ _ _ h1 h2 h3 h4 h5 h6
    obtain ⟨a1, x, rfl⟩ := List.exists_cons_of_length_eq_add_one h1
    obtain ⟨a2, y, rfl⟩ := List.exists_cons_of_length_eq_add_one h2
    obtain ⟨a3, z, rfl⟩ := List.exists_cons_of_length_eq_add_one h3
    obtain ⟨a4, vx, rfl⟩ := List.exists_cons_of_length_eq_add_one h4
    obtain ⟨a5, vy, rfl⟩ := List.exists_cons_of_length_eq_add_one h5
    obtain ⟨a6, vz, rfl⟩ := List.exists_cons_of_length_eq_add_one h6
    simp only [List.length_cons, Nat.add_right_cancel_iff] at h1 h2 h3 h4 h5 h6
    simp only [List.cons_append, rowsOf, ih h1 h2 h3 h4 h5 h6]

/-- A cluster under construction on the sky, holding the observations `rows` with masses `ms`. -/
structure SkyTab (t0 : ℝ) (rows : List Ph) (ms : List ℝ) (t : Tab) : Prop where
  al : Aligned t rows.length
  units : t.base.units = some .radec
  origin : t.base.origin = some .sky
  tphys : t.base.tphys = t0
  cols : rowsOf t.x t.y t.z t.vx t.vy t.vz = rows
  sky : t.base.sky = rows
  m : t.m = ms
  ctr : t.base.c = ⟨0, 0, 0, 0, 0, 0⟩
  rest : t.base.rest = { (newCluster none none none 0).rest with sky := rows }
  ro : ∀ o, t.base.rorder = some o → o.length = rows.length
  rpo : ∀ o, t.base.rproorder = some o → o.length = rows.length
  st : rows ≠ [] → t.base.st = rows ∧ t.base.m = ms ∧ Good t.base

theorem SkyTab.blank (t0 : ℝ) : SkyTab t0 [] [] (blankTab (some .radec) (some .sky) t0) :=
  ⟨newTab_aligned _, rfl, rfl, rfl, rfl, rfl, rfl, rfl, rfl, (fun _ h => by cases h),
    (fun _ h => by cases h), fun h => absurd rfl h⟩

theorem SkyTab.add {t0 : ℝ} {rows : List Ph} {ms : List ℝ} {t : Tab} (h : SkyTab t0 rows ms t) {a : StarArgs} {n : ℕ} (f : a.Fits n)
    (hm : 0 ≤ (ms ++ (List.range n).map (fun i => (a.star i).m)).sum) :
    ∃ t', addStars a 0 true true t = .ok t' ∧
      SkyTab t0 (rows ++ (List.range n).map a.obs) (ms ++ (List.range n).map (fun i => (a.star i).m)) t' := by
  have al := h.al
  have al' : Aligned (appended a n t) (rows.length + n) := al.appended
  have hcols : rowsOf (appended a n t).x (appended a n t).y (appended a n t).z (appended a n t).vx (appended a n t).vy
      (appended a n t).vz = rows ++ (List.range n).map a.obs := by
    simp only [appended]
    rw [rowsOf_append al.x al.y al.z al.vx al.vy al.vz, h.cols,
      rowsOf_map a.x.at a.y.at a.z.at a.vx.at a.vy.at a.vz.at (List.range n)]
    rfl
  have hnew : rowsOf a.expand.x a.expand.y a.expand.z a.expand.vx a.expand.vy a.expand.vz = (List.range n).map a.obs := by
    simp only [StarArgs.expand, f.npmax, Val.expand_eq f.x, Val.expand_eq f.y, Val.expand_eq f.z, Val.expand_eq f.vx,
      Val.expand_eq f.vy, Val.expand_eq f.vz]
    rw [rowsOf_map a.x.at a.y.at a.z.at a.vx.at a.vy.at a.vz.at (List.range n)]
    rfl
  have hmm : (appended a n t).m = ms ++ (List.range n).map (fun i => (a.star i).m) := by
    simp only [appended, h.m]; rfl
  have hn := f.pos
  obtain ⟨R, hR⟩ : ∃ R, R = rows ++ (List.range n).map a.obs := ⟨_, rfl⟩
  obtain ⟨M, hM⟩ : ∃ M, M = ms ++ (List.range n).map (fun i => (a.star i).m) := ⟨_, rfl⟩
  have hlen : R.length = rows.length + n := by rw [hR]; simp
  rw [← hR] at hcols ⊢
  rw [← hM] at hmm hm ⊢
  unfold addStars
  simp only [Nat.lt_irrefl, if_false, bind, Except.bind, Nat.mul_zero, addSingles_eq f,
    (al.appended (a := a) (n := n)).fix, if_true]
  have hs : addSkyCols a.expand (appended a n t) = { appended a n t with base := { t.base with sky := R } } := by
    unfold addSkyCols
    have e : (appended a n t).base = t.base := rfl
    rw [if_pos (by rw [e]; exact ⟨h.units, h.origin⟩), hnew, e, h.sky, hR]
  rw [hs]
  obtain ⟨b, hb, gb⟩ : ∃ b, analyze true { t.base with sky := R, st := R, m := M } = .ok b ∧ Good b := by
    rw [analyze_stale]
    · have g : Good { t.base with sky := R, st := R, m := M, rorder := none, rproorder := none } :=
        { ne := by
            intro h0
            have h' : R = [] := h0
            rw [h'] at hlen
            simp at hlen; omega
          len := by
            show M.length = R.length
            rw [← hmm, al'.m, hlen]
          mass := hm
          ro := by intro o h; cases h
          rpo := by intro o h; cases h }
      exact analyze_total (s := true) (p := true) g
    · intro o h0
      have := h.ro o h0
      show R.length ≠ _
      omega
    · intro o h0
      have := h.rpo o h0
      show R.length ≠ _
      omega
  have e : analyzeTab true { appended a n t with base := { t.base with sky := R } } = .ok { appended a n t with base := b } := by
    unfold analyzeTab
    rw [if_neg (by simp only [al'.x, al'.y, al'.z, al'.vx, al'.vy, al'.vz]; simp)]
    simp only [bind, Except.bind, pure, Except.pure]
    rw [hcols, hmm, hb]
  rw [e]
  obtain ⟨k1, k2, k3, k4, k5, k6, k7, -, -, -, -, k8⟩ := core_fields (analyze_core hb)
  refine ⟨_, rfl, ?_⟩
  refine ⟨?_, k1.trans h.units, k2.trans h.origin, k3.trans h.tphys, hcols, ?_, hmm, k6.trans h.ctr, ?_, ?_, ?_, fun _ => ⟨k5, k4, gb⟩⟩
  · rw [hlen]
    exact ⟨al'.x, al'.y, al'.z, al'.vx, al'.vy, al'.vz, al'.m, al'.m0, al'.npop, al'.id⟩
  · exact (congrArg Cluster.sky k8 :)
  · refine k8.trans ?_
    have : ({ t.base with sky := R, st := R, m := M } : Cluster).rest = { t.base.rest with sky := R } := rfl
    rw [this, h.rest]
  · intro o ho
    have := gb.ro o ho
    rw [k5] at this
    simpa using this.length_eq
  · intro o ho
    have := gb.rpo o ho
    rw [k5] at this
    simpa using this.length_eq

theorem SkyTab.many (l : List (StarArgs × ℕ)) {t0 : ℝ} {rows : List Ph} {ms : List ℝ} {t : Tab} (h : SkyTab t0 rows ms t)
    (f : ∀ c ∈ l, c.1.Fits c.2 ∧ ∀ i < c.2, 0 ≤ (c.1.star i).m) (hm : ∀ x ∈ ms, 0 ≤ x) :
    ∃ t', addMany (l.map (fun c => (c.1, true, true))) t = .ok t' ∧ SkyTab t0 (rows ++ obsOf l) (ms ++ massesOf l) t' := by
  induction l generalizing t rows ms with
  | nil => exact ⟨t, rfl, by simpa [obsOf, massesOf] using h⟩
  | cons c l ih =>
    obtain ⟨hf, hp⟩ := f c (List.mem_cons_self ..)
    have hm' : ∀ x ∈ ms ++ (List.range c.2).map (fun i => (c.1.star i).m), 0 ≤ x := by
      intro x hx
      rcases List.mem_append.mp hx with hx | hx
      · exact hm x hx
      · obtain ⟨i, hi, rfl⟩ := List.mem_map.mp hx
        exact hp i (List.mem_range.mp hi)
    obtain ⟨t1, h1, s1⟩ := h.add hf (List.sum_nonneg hm')
    obtain ⟨t2, h2, s2⟩ := ih s1 (fun c hc => f c (List.mem_cons_of_mem _ hc)) hm'
    refine ⟨t2, ?_, ?_⟩
    · simp only [List.map_cons, addMany, h1, Except.bind]
      exact h2
    · simpa [obsOf, massesOf, List.append_assoc] using s2

/-- The filled-in rows. -/
theorem fillSky_completed (rows : List Ph) (p : Ph) : fillSky rows p = completed rows p := by
  have hf : ∀ (f : Ph → ℝ), fillCol (rows.map f) (f p) = rows.map (completedCol rows f p) := by
    intro f
    unfold fillCol completedCol
    by_cases h : ∀ q' ∈ rows, f q' = 0
    · rw [if_pos (by simpa using h), List.map_map]
      refine List.map_congr_left fun q hq => ?_
      rw [if_pos h]
      simp [h q hq]
    · rw [if_neg (by simpa using h)]
      refine List.map_congr_left fun q hq => ?_
      rw [if_neg h]
  unfold fillSky completed
  rw [hf Ph.x, hf Ph.y, hf Ph.z, hf Ph.vx, hf Ph.vy, hf Ph.vz]
  exact rowsOf_map _ _ _ _ _ _ rows

theorem completed_of_complete {rows : List Ph} {p : Ph} (h : Complete rows p) : completed rows p = rows := by
  have key : ∀ f ∈ [Ph.x, Ph.y, Ph.z, Ph.vx, Ph.vy, Ph.vz], ∀ q ∈ rows, completedCol rows f p q = f q := by
    intro f hf q hq
    unfold completedCol
    rcases h f hf with ⟨q', hq', h'⟩ | h'
    · rw [if_neg (fun k => h' (k q' hq'))]
    · by_cases k : ∀ q' ∈ rows, f q' = 0
      · rw [if_pos k, h', k q hq]
      · rw [if_neg k]
  unfold completed
  conv_rhs => rw [← List.map_id rows]
  refine List.map_congr_left fun q hq => ?_
  ext
  · exact key Ph.x (by simp) q hq
  · exact key Ph.y (by simp) q hq
  · exact key Ph.z (by simp) q hq
  · exact key Ph.vx (by simp) q hq
  · exact key Ph.vy (by simp) q hq
  · exact key Ph.vz (by simp) q hq

/-- `add_orbit` on the sky. -/
theorem addOrbit_sky {g : Galpy} {c : Cluster} {p : Ph} {ou : Option Units} (hou : ou = none ∨ ou = some .radec)
    (hu : c.units = some .radec) (ho : c.origin = some .sky) :
    addOrbit g p ou none c = { c with gc := p, skyGc := p, sky := completed c.sky p } := by
  rw [← fillSky_completed]
  rcases hou with rfl | rfl <;> simp [addOrbit, hu, ho]

/-- The truth behind observations. -/
def seen (g : Galpy) (rows : List Ph) (p : Ph) (ms : List ℝ) (t0 : ℝ) : Truth :=
  ⟨t0 * 1000, ms, rows.map (fun q => pcRow (g.ofSky q)), pcRow (g.ofSky p), (1, 1, 1, 1)⟩

theorem Shows.of_inv {g : Galpy} {rows : List Ph} {p : Ph} {ms : List ℝ} {t0 : ℝ} {c : Cluster}
    (hinv : ∀ q ∈ p :: rows, g.toSky (g.ofSky q) = q) (h : Inv g (seen g rows p ms t0) c) : Shows g rows p ms t0 c := by
  have e : (seen g rows p ms t0).stars.map (fun p => g.toSky (kpcRow p)) = rows := by
    simp only [seen, List.map_map]
    conv_rhs => rw [← List.map_id rows]
    refine List.map_congr_left fun q hq => ?_
    simp only [Function.comp, kpc_pcRow, id_eq]
    exact hinv q (List.mem_cons_of_mem _ hq)
  rcases h with h | h
  · obtain ⟨u, hu, hul⟩ := h.lin.units
    refine ⟨fun k => by rw [hu] at k; cases k; exact absurd hul id, fun _ => ?_⟩
    obtain ⟨W, hw, k1, k2, k3, k4, -⟩ := h.desc
    exact ⟨W, hw, by rw [k3]; simp [seen], k4, k2, k1⟩
  · refine ⟨fun _ => ⟨h.sky.trans e, ?_, fun ho => (h.state.sky ho).trans (h.sky.trans e), h.m, ?_⟩, fun k => absurd h.state.units k⟩
    · rw [h.gcp]
      simp only [seen, kpc_pcRow]
      exact hinv p (List.mem_cons_self ..)
    · have := h.time
      simp only [seen] at this
      linarith

/-- The observed cluster satisfies the invariant when no quantity is missing (or once the rows shown are the completed ones). -/
theorem SkyTab.inv {g : Galpy} (gp : g.Pos) {t0 : ℝ} {rows : List Ph} {ms : List ℝ} {t : Tab} (h : SkyTab t0 rows ms t) (hne : rows ≠ [])
    {p : Ph} (hinv : ∀ q ∈ p :: completed rows p, g.toSky (g.ofSky q) = q) :
    Inv g (seen g (completed rows p) p ms t0)
      { t.base with gc := p, skyGc := p, sky := completed rows p, st := completed rows p } := by
  obtain ⟨s1, s2, s3⟩ := h.st hne
  have hr := h.rest
  have hl : (completed rows p).length = rows.length := by simp [completed]
  have b1 : t.base.rbar = 1 := (congrArg Cluster.rbar hr :)
  have b2 : t.base.vbar = 1 := (congrArg Cluster.vbar hr :)
  have b3 : t.base.zmbar = 1 := (congrArg Cluster.zmbar hr :)
  have b4 : t.base.tbar = 1 := (congrArg Cluster.tbar hr :)
  refine .inr ⟨⟨?_, ?_, ?_, ?_, gp.ro, gp.vo, gp.time, gp.mass, gp.vel⟩, ⟨h.units, .inl h.origin, ?_, fun _ => rfl⟩, ?_, ?_, ?_, ?_, ?_, ?_, ?_, ?_, ?_⟩
  · show 0 < t.base.rbar
    rw [b1]; norm_num
  · show 0 < t.base.vbar
    rw [b2]; norm_num
  · show 0 < t.base.zmbar
    rw [b3]; norm_num
  · show 0 < t.base.tbar
    rw [b4]; norm_num
  · show (completed rows p).length = t.base.m.length
    rw [s3.len, s1, hl]
  · exact s3.newst (by show (completed rows p).length = t.base.st.length; rw [s1, hl]) rfl rfl rfl
  · show completed rows p = _
    simp only [seen, List.map_map]
    conv_lhs => rw [← List.map_id (completed rows p)]
    refine List.map_congr_left fun q hq => ?_
    simp only [Function.comp, kpc_pcRow, id_eq]
    exact (hinv q (List.mem_cons_of_mem _ hq)).symm
  · show p = _
    simp only [seen, kpc_pcRow]
    exact (hinv p (List.mem_cons_self ..)).symm
  · exact s2
  · show t.base.tphys * 1000 = t0 * 1000
    rw [h.tphys]
  · refine .inr ⟨?_, ?_, ?_⟩
    · exact ((congrArg Cluster.orbit hr :) : t.base.orbit = none)
    · show p = _
      simp only [seen, kpc_pcRow]
      exact (hinv p (List.mem_cons_self ..)).symm
    · simp only [seen, kpc_pcRow]
      rw [hinv p (List.mem_cons_self ..)]
  · refine .inr ⟨?_, ?_⟩
    · exact ((congrArg Cluster.orbits hr :) : t.base.orbits = none)
    · intro q hq
      simp only [seen, List.mem_map] at hq
      obtain ⟨q', hq', rfl⟩ := hq
      simp only [kpc_pcRow]
      rw [hinv q' (List.mem_cons_of_mem _ hq')]
  · show (t.base.zmbar, t.base.rbar, t.base.vbar, t.base.tbar) = _
    rw [b1, b2, b3, b4]
    rfl
  · show p = _
    simp only [seen, kpc_pcRow]
    exact (hinv p (List.mem_cons_self ..)).symm

theorem obsOf_ne {l : List (StarArgs × ℕ)} (hne : l ≠ []) (f : ∀ c ∈ l, c.1.Fits c.2 ∧ ∀ i < c.2, 0 ≤ (c.1.star i).m) : obsOf l ≠ [] := by
  cases l with
  | nil => exact absurd rfl hne
  | cons c l =>
    have := (f c (List.mem_cons_self ..)).1.pos
    intro h
    simp only [obsOf, List.flatMap_cons, List.append_eq_nil_iff, List.map_eq_nil_iff, List.range_eq_nil] at h
    omega

/-- **C130 (observed clusters).**  Build a cluster with units `radec` and origin `sky` at any time by any sequence of well-formed calls of
`add_stars` with sky coordinates and non-negative masses, and give it its own position on the sky with `add_orbit`.  Then any
sequence of conversion calls whatsoever runs without exception and ends in a cluster that shows the observations: on the sky the
observed coordinates themselves, elsewhere the Galactocentric rows which galpy assigns to them, in the units and frame of its
labels. -/
theorem C130_histories {g : Galpy} (gp : g.Pos) (l : List (StarArgs × ℕ)) (hne : l ≠ [])
    (f : ∀ c ∈ l, c.1.Fits c.2 ∧ ∀ i < c.2, 0 ≤ (c.1.star i).m) (t0 : ℝ) (p : Ph) {ou : Option Units} (hou : ou = none ∨ ou = some .radec)
    (hc : Complete (obsOf l) p) (hinv : ∀ q ∈ p :: obsOf l, g.toSky (g.ofSky q) = q) (ks : List Call) :
    ∃ T c', addMany (l.map (fun c => (c.1, true, true))) (blankTab (some .radec) (some .sky) t0) = .ok T ∧
      calls g ks (addOrbit g p ou none T.base) = .ok c' ∧ Shows g (obsOf l) p (massesOf l) t0 c' := by
  obtain ⟨T, h, s⟩ := SkyTab.many l (SkyTab.blank t0) f (by simp)
  simp only [List.nil_append] at s
  have hrows := obsOf_ne hne f
  have i := s.inv gp hrows (p := p) (by rw [completed_of_complete hc]; exact hinv)
  rw [completed_of_complete hc] at i
  have e : addOrbit g p ou none T.base = { T.base with gc := p, skyGc := p, sky := obsOf l, st := obsOf l } := by
    rw [addOrbit_sky hou s.units s.origin, s.sky, completed_of_complete hc]
    have := (s.st hrows).1
    rw [← this]
  obtain ⟨c', h', i'⟩ := calls_inv ks i
  exact ⟨T, c', h, by rw [e]; exact h', Shows.of_inv hinv i'⟩

/-- Leaving the sky for the first time. -/
theorem fromRadec_fresh {g : Galpy} {c : Cluster} (hu : c.units = some .radec) (ho : c.origin = some .sky) (h1 : c.orbit = none)
    (h2 : c.orbits = none) :
    fromRadec g c = .ok { c with
      orbit := some (g.orbitOfSky c.skyGc)
      orbits := some (c.sky.map g.orbitOfSky)
      c := fromRadecCentre g c
      st := c.sky.map g.ofSky
      gc := g.ofSky c.skyGc
      origin := some .galaxy
      units := some .kpckms } := by
  have e : (c.sky.map g.orbitOfSky).map OrbitObj.cart = c.sky.map g.ofSky := by
    rw [List.map_map]; rfl
  unfold fromRadec
  simp only [hu, ho, ne_eq, not_true_eq_false, and_false, if_false, and_self, if_true, bind, Except.bind, h1, h2, initOrbitSky,
    initOrbitsSky, e]
  rfl

/-- The observed cluster leaves the sky with the completed observations. -/
theorem SkyTab.leaves {g : Galpy} (gp : g.Pos) {t0 : ℝ} {rows : List Ph} {ms : List ℝ} {t : Tab} (s : SkyTab t0 rows ms t) (hne : rows ≠ [])
    {p : Ph} {ou : Option Units} (hou : ou = none ∨ ou = some .radec) (hinv : ∀ q ∈ p :: completed rows p, g.toSky (g.ofSky q) = q) :
    (addOrbit g p ou none t.base).units = some .radec ∧
    ∃ c1, fromRadec g (addOrbit g p ou none t.base) = .ok c1 ∧ LinInv g (seen g (completed rows p) p ms t0) c1 ∧
      c1.units = some .kpckms ∧ c1.origin = some .galaxy := by
  have i := s.inv gp hne (p := p) hinv
  rw [addOrbit_sky hou s.units s.origin, s.sky]
  refine ⟨s.units, ?_⟩
  rcases i with i | i
  · obtain ⟨u', hu', hul'⟩ := i.lin.units
    have := hu'.symm.trans s.units
    cases this
    exact absurd hul' id
  · obtain ⟨c1, h1, j, u1, o1, -⟩ := fromRadec_sky i
    have ob : t.base.orbit = none := (congrArg Cluster.orbit s.rest :)
    have os : t.base.orbits = none := (congrArg Cluster.orbits s.rest :)
    obtain ⟨A, hA⟩ : ∃ A : Cluster, A = { t.base with gc := p, skyGc := p, sky := completed rows p } := ⟨_, rfl⟩
    obtain ⟨B, hB⟩ : ∃ B : Cluster, B = { t.base with gc := p, skyGc := p, sky := completed rows p, st := completed rows p } :=
      ⟨_, rfl⟩
    have h1B : fromRadec g B = .ok c1 := by rw [hB]; exact h1
    refine ⟨c1, ?_, j, u1, o1⟩
    rw [← hA, ← h1B, fromRadec_fresh (by rw [hA]; exact s.units) (by rw [hA]; exact s.origin) (by rw [hA]; exact ob) (by rw [hA]; exact os),
        fromRadec_fresh (by rw [hB]; exact s.units) (by rw [hB]; exact s.origin) (by rw [hB]; exact ob) (by rw [hB]; exact os), hA, hB]
    rfl

/-- **C130 (missing data).**  If quantities are missing (zero for all stars), `add_orbit` completes them with those of the cluster:
whenever the calls begin with a conversion to another unit system, everything goes on from the completed observations. -/
theorem C130_missing {g : Galpy} (gp : g.Pos) (l : List (StarArgs × ℕ)) (hne : l ≠ [])
    (f : ∀ c ∈ l, c.1.Fits c.2 ∧ ∀ i < c.2, 0 ≤ (c.1.star i).m) (t0 : ℝ) (p : Ph) {ou : Option Units} (hou : ou = none ∨ ou = some .radec)
    (hinv : ∀ q ∈ p :: completed (obsOf l) p, g.toSky (g.ofSky q) = q) {op : Op} {u : Units} (hop : op.unitTarget = some u)
    (hul : u.linear) (ks : List Call) :
    ∃ T c', addMany (l.map (fun c => (c.1, true, true))) (blankTab (some .radec) (some .sky) t0) = .ok T ∧
      calls g (.op op :: ks) (addOrbit g p ou none T.base) = .ok c' ∧ Shows g (completed (obsOf l) p) p (massesOf l) t0 c' := by
  obtain ⟨T, h, s⟩ := SkyTab.many l (SkyTab.blank t0) f (by simp)
  simp only [List.nil_append] at s
  obtain ⟨uA, c1, h1, j, u1, -⟩ := s.leaves gp (obsOf_ne hne f) hou hinv
  obtain ⟨c2, h2, j2, -⟩ := units_inv (.inl j) op hop hul
  obtain ⟨c', h', i'⟩ := calls_inv ks (.inl j2)
  refine ⟨T, c', h, ?_, Shows.of_inv hinv i'⟩
  simp only [calls, Call.exec, exec_sky_units uA h1 u1 op hop hul, h2, Except.bind]
  exact h'

/-- Three stars in two calls, with distances missing, and the cluster's position: the hypotheses are met (`demoG` has the identity as
sky map). -/
example : ∃ T c', addMany [(⟨.arr [10, 11], .arr [-70, -71], .scalar 0, .scalar 1, .scalar 2, .arr [100, 101], some (.scalar 0.5), none, none, none⟩, true, true),
      (⟨.scalar 12, .scalar (-72), .scalar 0, .scalar 1, .scalar 2, .scalar 99, none, none, none, none⟩, true, true)]
        (blankTab (some .radec) (some .sky) 12) = .ok T ∧
    calls demoG [.op .toNbody, .op (.toCluster true none), .toRadec true none true, .toSky true none]
      (addOrbit demoG ⟨11, -71, 5, 1, 2, 100⟩ none none T.base) = .ok c' ∧
    Shows demoG [⟨10, -70, 5, 1, 2, 100⟩, ⟨11, -71, 5, 1, 2, 101⟩, ⟨12, -72, 5, 1, 2, 99⟩] ⟨11, -71, 5, 1, 2, 100⟩ [0.5, 0.5, 1] 12 c' := by
  have hf : ∀ c ∈ [((⟨.arr [10, 11], .arr [-70, -71], .scalar 0, .scalar 1, .scalar 2, .arr [100, 101], some (.scalar 0.5), none, none, none⟩ : StarArgs), 2),
      (⟨.scalar 12, .scalar (-72), .scalar 0, .scalar 1, .scalar 2, .scalar 99, none, none, none, none⟩, 1)],
      c.1.Fits c.2 ∧ ∀ i < c.2, 0 ≤ (c.1.star i).m := by
    intro c hc
    simp only [List.mem_cons, List.not_mem_nil, or_false] at hc
    rcases hc with rfl | rfl
    · refine ⟨⟨by norm_num, rfl, rfl, trivial, trivial, trivial, rfl, ?_, ?_, ?_, ?_, .inr (.inl trivial)⟩, fun i _ => by norm_num [StarArgs.star, Val.at]⟩
      · intro v hv; cases hv; trivial
      all_goals (intro v hv; cases hv)
    · refine ⟨⟨by norm_num, trivial, trivial, trivial, trivial, trivial, trivial, ?_, ?_, ?_, ?_, .inl rfl⟩, fun i _ => by simp [StarArgs.star]⟩
      all_goals (intro v hv; cases hv)
  have h := C130_missing (g := demoG) (by constructor <;> norm_num [demoG]) _ (by simp) hf 12 ⟨11, -71, 5, 1, 2, 100⟩ (.inl rfl)
    (fun q _ => rfl) (op := .toNbody) rfl trivial [.op (.toCluster true none), .toRadec true none true, .toSky true none]
  obtain ⟨T, c', h1, h2, h3⟩ := h
  refine ⟨T, c', h1, h2, ?_⟩
  have e1 : obsOf [((⟨.arr [10, 11], .arr [-70, -71], .scalar 0, .scalar 1, .scalar 2, .arr [100, 101], some (.scalar 0.5), none, none, none⟩ : StarArgs), 2),
      (⟨.scalar 12, .scalar (-72), .scalar 0, .scalar 1, .scalar 2, .scalar 99, none, none, none, none⟩, 1)] =
      [⟨10, -70, 0, 1, 2, 100⟩, ⟨11, -71, 0, 1, 2, 101⟩, ⟨12, -72, 0, 1, 2, 99⟩] := by
    simp [obsOf, StarArgs.obs, Val.at, List.range_succ]
  have e2 : completed [⟨10, -70, 0, 1, 2, 100⟩, ⟨11, -71, 0, 1, 2, 101⟩, ⟨12, -72, 0, 1, 2, 99⟩] ⟨11, -71, 5, 1, 2, 100⟩ =
      [⟨10, -70, 5, 1, 2, 100⟩, ⟨11, -71, 5, 1, 2, 101⟩, ⟨12, -72, 5, 1, 2, 99⟩] := by
    simp [completed, completedCol]
  have e3 : massesOf [((⟨.arr [10, 11], .arr [-70, -71], .scalar 0, .scalar 1, .scalar 2, .arr [100, 101], some (.scalar 0.5), none, none, none⟩ : StarArgs), 2),
      (⟨.scalar 12, .scalar (-72), .scalar 0, .scalar 1, .scalar 2, .scalar 99, none, none, none, none⟩, 1)] = [0.5, 0.5, 1] := by
    simp [massesOf, StarArgs.star, Val.at, List.range_succ]
  rw [e1, e2, e3] at h3
  exact h3

end

end CT
