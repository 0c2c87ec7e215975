/- Sampling limepy models (C142, C143). -/
import Verif.Spec.LimepySample
import Verif.Props.Limepy
import Verif.Props.AstropyTable

namespace CT

noncomputable section

/-! ### what limepy is asked for -/

/-- With a mass and one radius. -/
theorem limeRadius_one {k : LimeKw} {q : RadKey} {r : ℝ} (h : k.OneRadius q r) : limeRadius k = (q.kind, r) := by
  obtain ⟨h1, h2⟩ := h
  have a1 := h2 .rt
  have a2 := h2 .rv
  have a3 := h2 .rh
  have a4 := h2 .rm
  have a5 := h2 .r0
  have a6 := h2 .rc
  unfold limeRadius
  cases q <;> simp [LimeKw.radius, RadKey.kind] at * <;> simp [*]

theorem limeRadius_none {k : LimeKw} (h : ∀ q, k.radius q = none) : limeRadius k = (.rv, 1) := by
  have a1 := h .rt
  have a2 := h .rv
  have a3 := h .rh
  have a4 := h .rm
  have a5 := h .r0
  have a6 := h .rc
  unfold limeRadius
  simp [LimeKw.radius] at *
  simp [*]

theorem limeModel_pot {μ : Type} (lib : LimeLib μ) {k : LimeKw} {w : ℝ} (h : k.Potential w) :
    limeModel lib none k = (lib.make (limeCall k w)).bind (fun m => .ok (m, k.M.getD 1)) := by
  unfold limeModel
  have : k.W0.orElse (fun _ => k.phi0) = some w := by
    rcases h with h | ⟨h1, h2⟩
    · rw [h]; rfl
    · rw [h1, h2]; rfl
  rw [this]
  rfl

theorem limeCall_mass {k : LimeKw} {M : ℝ} (h : k.M = some M) (w : ℝ) :
    limeCall k w = ⟨w, k.g.getD 1, none, M, (limeRadius k).1, (limeRadius k).2, k.projected.getD false⟩ := by
  unfold limeCall
  rw [h]
  rfl

theorem truncZ_eq {v : ℝ} {n : ℕ} (h0 : (n : ℝ) ≤ v) (h1 : v < n + 1) : truncZ v = n := by
  unfold truncZ
  have : (0 : ℝ) ≤ v := le_trans (Nat.cast_nonneg n) h0
  rw [if_pos this, Int.floor_eq_iff]
  exact ⟨by exact_mod_cast h0, by exact_mod_cast h1⟩

/-! ### the cluster -/

/-- `find_centre()` on a cluster without units keeps the stars. -/
theorem findCentre_noUnits (g : Galpy) {c : Cluster} (hu : c.units = none) (ho : c.origin = some .cluster) (hg : Good c) :
    ∃ c', findCentreDefault g c = .ok c' ∧ c'.units = none ∧ c'.origin = some .cluster ∧ c'.tphys = c.tphys ∧ c'.st = c.st ∧ c'.m = c.m ∧
      c'.gc = c.gc ∧ Good c' := by
  have hst : c.st.length ≠ 0 := by simpa using hg.ne
  have hne : maskSel (List.replicate c.st.length true) (List.zip c.m c.st) ≠ [] := by
    intro e
    haveI : Inhabited MStar := ⟨(0, ⟨0, 0, 0, 0, 0, 0⟩)⟩
    have h1 := maskSel_length (mask := List.replicate c.st.length true) (l := List.zip c.m c.st)
      (by rw [List.length_zip, hg.len]; simp)
    rw [e] at h1
    have h2 := count_pos_iff.mp (List.count_pos_iff.mpr (show true ∈ List.replicate c.st.length true by simp [hst]))
    exact h2 (List.length_eq_zero_iff.mp h1.symm)
  obtain ⟨q, R, h1, -, -⟩ := C36_harfst (start := ({} : CentreArgs).start) (nsphere := ({} : CentreArgs).nsphere)
    (rmin := ({} : CentreArgs).rmin) (rmax := ({} : CentreArgs).rmax) (nmax := ({} : CentreArgs).nmax) (fuel := 101)
    (l := maskSel (List.replicate c.st.length true) (List.zip c.m c.st)) (Or.inl hne) (by decide)
  have h2 : centreOf ({} : CentreArgs) .harfst 101 (List.replicate c.st.length true) [] (List.zip c.m c.st) = .ok (some q) := by
    unfold centreOf
    rw [if_pos rfl]
    exact h1
  obtain ⟨d, hd, gd⟩ := analyze_total (s := true) (p := true) hg
  have kd := core_fields (analyze_core hd)
  have hd' : returnCluster g (saveCluster c) false none c = .ok d := by
    unfold returnCluster saveCluster
    simp only [ne_eq, not_true_eq_false, if_false, bind, Except.bind]
    exact hd
  obtain ⟨k1, k2, k3, k4, k5, k6, k7, -⟩ := kd
  obtain ⟨e, he⟩ : ∃ e : Cluster, e = { d with rorder := c.rorder, rorderOrigin := c.rorderOrigin } := ⟨_, rfl⟩
  have ge : Good e := by
    rw [he]
    refine ⟨gd.1, gd.2, gd.3, ?_, gd.5⟩
    intro o ho
    show IsOrder d.st.length o
    rw [k5]
    exact hg.4 o ho
  obtain ⟨f, hf, gf⟩ := analyze_total (s := true) (p := true) ge
  have hf' : returnCluster g (saveCluster c) false none d = .ok f := by
    unfold returnCluster saveCluster
    rw [if_neg (by simp [k1])]
    simp only [bind, Except.bind]
    rw [if_neg (by simp [k2])]
    rw [he] at hf
    exact hf
  obtain ⟨j1, j2, j3, j4, j5, j6, j7, -⟩ := core_fields (analyze_core hf)
  have hfc : findCentre g {} .harfst 101 none [] c = .ok (some q, f) := by
    unfold findCentre
    simp only [hu, bind, Except.bind, pure, Except.pure, reduceCtorEq, if_false, Option.map_none, Option.getD_none, one_ne_zero, h2, hd', hf', if_true]
  have f2 : f.origin = some .cluster := by rw [j2, he]; exact k2.trans ho
  refine ⟨{ f with c := q }, ?_, ?_, f2, ?_, ?_, ?_, ?_, gf.same rfl rfl rfl rfl⟩
  · unfold findCentreDefault findCentreMethod
    simp only [hfc, bind, Except.bind, pure, Except.pure, Except.map, Option.map_some, Option.getD_some, setCentre, f2]
  · show f.units = _
    rw [j1, he]
    exact k1.trans hu
  · show f.tphys = _
    rw [j3, he]
    exact k3
  · show f.st = _
    rw [j5, he]
    exact k5
  · show f.m = _
    rw [j4, he]
    exact k4
  · show f.gc = _
    rw [j7, he]
    exact k7

theorem Sampled.len {n : ℕ} {s : ATCols} (h : Sampled n s) : ATCols.Len { s with id := some (limeIds n) } n := by
  refine ⟨h.x, h.y, h.z, h.vx, h.vy, h.vz, ?_, ?_⟩
  · intro l hl
    obtain ⟨l', e, hl', -⟩ := h.m
    have : some l = some l' := hl.symm.trans e
    cases this
    exact hl'
  · intro l hl
    have : some l = some (limeIds n) := hl.symm
    cases this
    simp [limeIds]

/-- The stars of a sample. -/
theorem sampleLimepy_ok {μ : Type} {g : Galpy} {lib : LimeLib μ} {model : Option μ} {k : LimeKw} {m : μ} {M v : ℝ} {n : ℕ} {s : ATCols}
    (hm : limeModel lib model k = .ok (m, M)) (hv : v = k.N.getD (M / k.mbar.getD 1)) (hn : 1 ≤ n) (h0 : (n : ℝ) ≤ v) (h1 : v < n + 1)
    (hs : lib.sample m n = .ok s) (hk : Sampled n s) :
    ∃ r, sampleLimepy (findCentreDefault g) lib model k = .ok r ∧ r.base.units = none ∧ r.base.origin = some .cluster ∧ r.base.tphys = 0 ∧
      r.base.gc = ⟨0, 0, 0, 0, 0, 0⟩ ∧ Good r.base ∧
      ∀ b : Cluster, b.st = r.base.st → b.m = r.base.m → HasSample n s { r with base := b } := by
  have hN : limeN k M = n := by
    unfold limeN
    rw [← hv]
    exact truncZ_eq h0 h1
  obtain ⟨T, a1, a2, a3, a4, -, -, -, a7, a8, a9⟩ := addTable hk.len hn none (some .cluster) {}
  have gT : Good T.base := by
    refine a8 ?_
    intro l hl
    obtain ⟨l', e, -, hl'⟩ := hk.m
    have : some l = some l' := hl.symm.trans e
    cases this
    exact hl'
  obtain ⟨b, b1, b2, b3, b4, b5, b6, b7, b8⟩ := findCentre_noUnits g a2 a3 gT
  refine ⟨runOf {} none (some .cluster) T [] b, ?_, b2, b3, b4.trans a4, b7.trans a7, b8, ?_⟩
  · unfold sampleLimepy
    simp only [hm, hN, hs, a1, b1, bind, Except.bind, pure, Except.pure]
  · intro b' hb1 hb2
    have h := a9 b' none (hb1.trans b5) (hb2.trans b6)
    refine ⟨h.ntot, h.st, h.m, h.id, h.star, ?_, ?_⟩
    · intro l hl i hi
      have := h.mass i hi
      simp only [hl, Option.map_some, Option.getD_some] at this
      exact this
    · intro i hi
      refine h.ids (limeIds n) rfl i hi (i + 1) ?_
      unfold limeIds
      rw [List.getElem!_eq_getElem?_getD]
      simp [hi]

/-- The cluster is the sample with the labels asked for, in its own frame. -/
theorem loadLimepy_ok {μ : Type} {g : Galpy} {lib : LimeLib μ} {model : Option μ} {k : LimeKw} {m : μ} {M v : ℝ} {n : ℕ} {s : ATCols} {u : Units}
    (T0 : ℝ) (hm : limeModel lib model k = .ok (m, M)) (hv : v = k.N.getD (M / k.mbar.getD 1)) (hn : 1 ≤ n) (h0 : (n : ℝ) ≤ v) (h1 : v < n + 1)
    (hs : lib.sample m n = .ok s) (hk : Sampled n s) (hu : u.linear) :
    ∃ r, loadLimepy g (findCentreDefault g) lib model k u .cluster none T0 none = .ok r ∧ HasSample n s r ∧
      r.base.units = some u ∧ r.base.origin = some .cluster ∧ r.base.tphys = 0 := by
  obtain ⟨r, r1, r2, r3, r4, r5, r6, r7⟩ := sampleLimepy_ok (g := g) hm hv hn h0 h1 hs hk
  obtain ⟨d, hd⟩ : ∃ d : Cluster, d = { r.base with units := some u, bunits := bunitsOfUnits (some u) } := ⟨_, rfl⟩
  have du : d.units = some u := by rw [hd]
  have dor : d.origin = some .cluster := by rw [hd]; exact r3
  have gd : Good d := by rw [hd]; exact r6.same rfl rfl rfl rfl
  obtain ⟨c', h, j, -⟩ := limepyEnd_ok (g := g) (orbit := none) (T0 := T0) (c := d) (c1 := d) (o := .cluster)
    (by rw [du]; rintro e; cases e; exact hu) rfl dor gd
  obtain ⟨j1, j2, j3, j4, j5, -⟩ := core_fields j
  refine ⟨{ r with base := c' }, ?_, r7 c' (by rw [j5, hd]) (by rw [j4, hd]), j1.trans du, j2.trans dor, by
    show c'.tphys = 0
    rw [j3, hd]
    exact r4⟩
  have hmod : limepyModel g u .cluster none T0 none r.base = .ok c' := by
    unfold limepyModel
    rw [← hd]
    have : limepyOrigin g .cluster d = .ok d := by
      unfold limepyOrigin
      rw [if_neg (by rw [dor]; simp)]
    simp only [this, bind, Except.bind]
    exact h
  unfold loadLimepy
  simp only [r1, hmod, bind, Except.bind, pure, Except.pure]

/-! ### the property -/

/-- **C142 (one radius).**  `load_cluster('limepy', W0=…, g=…, M=…, rt|rv|rh|rm|r0|rc=…, units='pckms')`: limepy is asked for the model
with the central potential, mass and radius given (`rm` means `rh`, `rc` means `r0`), with its own gravitational constant, that of pc,
km/s and solar masses; the cluster has the number of stars asked for, or mass over mean mass, rounded down; they are those limepy
draws from that model, with its masses, and ids `1 … N`. -/
theorem C142_sample {μ : Type} {g : Galpy} {lib : LimeLib μ} {k : LimeKw} {w M a v : ℝ} {q : RadKey} {m : μ} {n : ℕ} {s : ATCols} (T0 : ℝ)
    (hw : k.Potential w) (hM : k.M = some M) (hq : k.OneRadius q a)
    (hm : lib.make ⟨w, k.g.getD 1, none, M, q.kind, a, k.projected.getD false⟩ = .ok m)
    (hv : v = k.N.getD (M / k.mbar.getD 1)) (hn : 1 ≤ n) (h0 : (n : ℝ) ≤ v) (h1 : v < n + 1) (hs : lib.sample m n = .ok s) (hk : Sampled n s) :
    ∃ r, loadLimepy g (findCentreDefault g) lib none k .pckms .cluster none T0 none = .ok r ∧ HasSample n s r ∧
      r.base.units = some .pckms ∧ r.base.origin = some .cluster ∧ r.base.tphys = 0 := by
  refine loadLimepy_ok T0 (m := m) (M := M) ?_ hv hn h0 h1 hs hk trivial
  rw [limeModel_pot lib hw, limeCall_mass hM, limeRadius_one hq, hm, hM]
  rfl

/-- **C142 (no radius).**  With a mass and no radius the virial radius is 1 pc. -/
theorem C142_no_radius {μ : Type} {g : Galpy} {lib : LimeLib μ} {k : LimeKw} {w M v : ℝ} {m : μ} {n : ℕ} {s : ATCols} (T0 : ℝ)
    (hw : k.Potential w) (hM : k.M = some M) (hq : ∀ q, k.radius q = none)
    (hm : lib.make ⟨w, k.g.getD 1, none, M, .rv, 1, k.projected.getD false⟩ = .ok m)
    (hv : v = k.N.getD (M / k.mbar.getD 1)) (hn : 1 ≤ n) (h0 : (n : ℝ) ≤ v) (h1 : v < n + 1) (hs : lib.sample m n = .ok s) (hk : Sampled n s) :
    ∃ r, loadLimepy g (findCentreDefault g) lib none k .pckms .cluster none T0 none = .ok r ∧ HasSample n s r ∧
      r.base.units = some .pckms ∧ r.base.origin = some .cluster ∧ r.base.tphys = 0 := by
  refine loadLimepy_ok T0 (m := m) (M := M) ?_ hv hn h0 h1 hs hk trivial
  rw [limeModel_pot lib hw, limeCall_mass hM, limeRadius_none hq, hm, hM]
  rfl

/-- **C142 (own model).**  A model given by the user is the one that is sampled, whatever parameters are given beside it; the default
number of stars is its mass over the mean mass. -/
theorem C142_model {μ : Type} {g : Galpy} {lib : LimeLib μ} {k : LimeKw} {m : μ} {v : ℝ} {n : ℕ} {s : ATCols} (T0 : ℝ)
    (hv : v = k.N.getD (lib.mass m / k.mbar.getD 1)) (hn : 1 ≤ n) (h0 : (n : ℝ) ≤ v) (h1 : v < n + 1) (hs : lib.sample m n = .ok s)
    (hk : Sampled n s) :
    ∃ r, loadLimepy g (findCentreDefault g) lib (some m) k .pckms .cluster none T0 none = .ok r ∧ HasSample n s r ∧
      r.base.units = some .pckms ∧ r.base.origin = some .cluster ∧ r.base.tphys = 0 :=
  loadLimepy_ok T0 (m := m) (M := lib.mass m) rfl hv hn h0 h1 hs hk trivial

/-- **C142 (no potential).**  Without a model and a central potential the call raises `TypeError`; no model is guessed. -/
theorem C142_no_potential {μ : Type} {g : Galpy} {fc : Cluster → Except Err Cluster} {lib : LimeLib μ} {k : LimeKw} {u : Units} {o : Origin}
    {orbit : Option (ℝ → Ph)} {T0 : ℝ} {ofile : Option (List Line)} (h0 : k.W0 = none) (h1 : k.phi0 = none) :
    loadLimepy g fc lib none k u o orbit T0 ofile = .error .typeError := by
  unfold loadLimepy sampleLimepy limeModel
  rw [h0, h1]
  rfl

/-! ### what goes wrong -/

/-- **C143 (violated: radius without mass).**  If no mass is given, the radius is ignored, silently: any two calls that differ only in
their radii give the same cluster.  It is the model with `G = M = rv = 1`, labelled with the units asked for, and has
`int(1/mbar)` stars by default. -/
theorem C143_radius_violated {μ : Type} {g : Galpy} {lib : LimeLib μ} {k : LimeKw} (hM : k.M = none) (a1 a2 a3 a4 a5 a6 : Option ℝ)
    (fc : Cluster → Except Err Cluster) (model : Option μ) (u : Units) (o : Origin) (orbit : Option (ℝ → Ph)) (T0 : ℝ) (ofile : Option (List Line)) :
    loadLimepy g fc lib model { k with rt := a1, rv := a2, rh := a3, rm := a4, r0 := a5, rc := a6 } u o orbit T0 ofile =
      loadLimepy g fc lib model k u o orbit T0 ofile := by
  unfold loadLimepy sampleLimepy limeModel limeCall limeN
  simp only [hM, Option.elim_none]

theorem C143_nbody_violated {μ : Type} {g : Galpy} {lib : LimeLib μ} {k : LimeKw} {w v : ℝ} {m : μ} {n : ℕ} {s : ATCols} (T0 : ℝ)
    (hw : k.Potential w) (hM : k.M = none) (hm : lib.make ⟨w, k.g.getD 1, some 1, 1, .rv, 1, k.projected.getD false⟩ = .ok m)
    (hv : v = k.N.getD (1 / k.mbar.getD 1)) (hn : 1 ≤ n) (h0 : (n : ℝ) ≤ v) (h1 : v < n + 1) (hs : lib.sample m n = .ok s) (hk : Sampled n s) :
    ∃ r, loadLimepy g (findCentreDefault g) lib none k .pckms .cluster none T0 none = .ok r ∧ HasSample n s r ∧ r.base.units = some .pckms := by
  obtain ⟨r, r1, r2, r3, -⟩ := loadLimepy_ok (g := g) (u := .pckms) T0 (lib := lib) (model := none) (k := k) (m := m) (M := 1) (by
    rw [limeModel_pot lib hw]
    unfold limeCall
    rw [hM]
    simp only [Option.elim_none, hm, Except.bind, Option.getD_none]) hv hn h0 h1 hs hk trivial
  exact ⟨r, r1, r2, r3⟩

/-- **C143 (violated: default number).**  The documented default of 1000 stars is not there: with neither mass, mean mass nor number
the cluster has one star. -/
theorem C143_number_violated {μ : Type} {g : Galpy} {lib : LimeLib μ} {k : LimeKw} {w : ℝ} {m : μ} {s : ATCols} (T0 : ℝ)
    (hw : k.Potential w) (hM : k.M = none) (hb : k.mbar = none) (hN : k.N = none)
    (hm : lib.make ⟨w, k.g.getD 1, some 1, 1, .rv, 1, k.projected.getD false⟩ = .ok m) (hs : lib.sample m 1 = .ok s) (hk : Sampled 1 s) :
    ∃ r, loadLimepy g (findCentreDefault g) lib none k .pckms .cluster none T0 none = .ok r ∧ r.ntot = 1 := by
  obtain ⟨r, h, hs, -⟩ := C143_nbody_violated (g := g) (lib := lib) (k := k) (v := 1) (n := 1) T0 hw hM hm (by rw [hN, hb]; norm_num) le_rfl (by norm_num)
    (by norm_num) (by exact_mod_cast hs) hk
  exact ⟨r, h, hs.ntot⟩

/-- **C143 (violated: documented keywords).**  The documented keywords `ro` (scale radius) and `project` change nothing; `mbar` changes
nothing when the number of stars is given, so that the mean mass of the stars need not be the one asked for. -/
theorem C143_keywords_violated {μ : Type} {g : Galpy} {lib : LimeLib μ} {k : LimeKw}
    (fc : Cluster → Except Err Cluster) (model : Option μ) (u : Units) (o : Origin) (orbit : Option (ℝ → Ph)) (T0 : ℝ) (ofile : Option (List Line)) :
    (∀ ro project, loadLimepy g fc lib model { k with ro := ro, project := project } u o orbit T0 ofile =
      loadLimepy g fc lib model k u o orbit T0 ofile) ∧
    (∀ N, k.N = some N → ∀ mbar, loadLimepy g fc lib model { k with mbar := mbar } u o orbit T0 ofile =
      loadLimepy g fc lib model k u o orbit T0 ofile) := by
  constructor
  · intro ro project
    rfl
  · intro N hN mbar
    unfold loadLimepy sampleLimepy limeModel limeCall limeN limeRadius
    simp only [hN, Option.getD_some]

/-- **C143 (violated: two radii).**  A limiting radius makes all other radii given beside it, consistent with it or not, be
ignored. -/
theorem C143_two_radii_violated {μ : Type} {g : Galpy} {lib : LimeLib μ} {k : LimeKw} {rt : ℝ} (h : k.rt = some rt) (a2 a3 a4 a5 a6 : Option ℝ)
    (fc : Cluster → Except Err Cluster) (model : Option μ) (u : Units) (o : Origin) (orbit : Option (ℝ → Ph)) (T0 : ℝ) (ofile : Option (List Line)) :
    loadLimepy g fc lib model { k with rv := a2, rh := a3, rm := a4, r0 := a5, rc := a6 } u o orbit T0 ofile =
      loadLimepy g fc lib model k u o orbit T0 ofile := by
  unfold loadLimepy sampleLimepy limeModel limeCall limeN limeRadius
  simp only [h, Option.elim_some]

/-! ### concrete cases -/

/-- A library whose models are their calls, and whose stars lie on the x axis. -/
def demoLime : LimeLib LimeCall where
  make := .ok
  mass := LimeCall.M
  sample c N := .ok
    { x := (List.range N.toNat).map (fun i : ℕ => (i : ℝ) * c.radius)
      y := List.replicate N.toNat 0
      z := List.replicate N.toNat 0
      vx := List.replicate N.toNat 0
      vy := List.replicate N.toNat 0
      vz := List.replicate N.toNat 0
      m := some (List.replicate N.toNat 1)
      id := none }

example : ∃ r, loadLimepy demoG (findCentreDefault demoG) demoLime none { W0 := some 5, M := some 10.5, rh := some 3 } .pckms .cluster none 0.03 none
    = .ok r ∧ r.ntot = 10 ∧ (r.base.st[2]!).x = 6 ∧ r.id[2]! = 3 := by
  obtain ⟨r, h, k, -⟩ := C142_sample (g := demoG) (lib := demoLime) (k := { W0 := some 5, M := some 10.5, rh := some 3 }) (w := 5) (M := 10.5)
    (a := 3) (v := 10.5) (q := .rh) (n := 10) 0.03 (.inl rfl) rfl ⟨rfl, by intro q hq; cases q <;> first | rfl | exact absurd rfl hq⟩ rfl (by norm_num)
    (by norm_num) (by norm_num) (by norm_num) rfl ⟨by simp, by simp, by simp, by simp, by simp, by simp, _, rfl, by simp, by norm_num⟩
  refine ⟨r, h, k.ntot, ?_, ?_⟩
  · rw [k.star 2 (by norm_num)]
    norm_num [List.range_succ, RadKey.kind]
  · rw [k.ids 2 (by norm_num)]
    norm_num

example : ∃ r, loadLimepy demoG (findCentreDefault demoG) demoLime none { phi0 := some 5, rh := some 3 } .pckms .cluster none 0.03 none
    = .ok r ∧ r.ntot = 1 :=
  C143_number_violated (w := 5) 0.03 (.inr ⟨rfl, rfl⟩) rfl rfl rfl rfl rfl ⟨by simp, by simp, by simp, by simp, by simp, by simp, _, rfl, by simp, by norm_num⟩

end

end CT
