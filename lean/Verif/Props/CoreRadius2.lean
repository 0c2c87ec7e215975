/- Property theorem C77: the core radius without a known centre; concrete cases for C74-C77. -/
import Verif.Props.CoreRadius

namespace CT

noncomputable section

set_option linter.unusedSimpArgs false

theorem sum_zipWith_pos {α : Type} {f : ℝ → α → ℝ} : ∀ {a : List ℝ} {b : List α}, a.length = b.length → a ≠ [] →
    (∀ x ∈ a, ∀ y ∈ b, 0 < f x y) → 0 < (List.zipWith f a b).sum := by
  intro a
  induction a with
  | nil => intro b _ h; exact absurd rfl h
  | cons x a ih =>
    intro b hl _ hf
    match b with
    | y :: b =>
      rw [List.zipWith_cons_cons, List.sum_cons]
      have h1 := hf x (by simp) y (by simp)
      by_cases ha : a = []
      · subst ha; simpa using h1
      · have := ih (b := b) (by simpa using hl) ha (fun u hu v hv => hf u (by simp [hu]) v (by simp [hv]))
        linarith

/-- The density centre of stars with positive `x` has positive `x`. -/
theorem casertano_pos {g : Galpy} {kd : KDTree} (hk : IsKD kd) {c : Cluster} {w : World} {u : Units} {s : Scale}
    {o : Origin} (p : Pos g c) (hg : Good c) (hw : world g c = some w) (hu : c.units = some u) (hs : unitScale g c u = some s)
    (ho : c.origin = some o) (hol : o.linear) (kn : 6 ≤ c.st.length) (hap : w.Apart false) (hm : ∀ x ∈ c.m, 0 < x)
    (hx : ∀ q ∈ c.st, 0 < q.x) : 0 < (casertano (knnOf kd 6 c.st) (List.zip c.m c.st)).x := by
  obtain ⟨hp, -, hpm, -⟩ := unitScale_pos p hs
  have hwl := world_length hw
  have hcl := columnStack_length false c.st
  have hlen := coreRhos_length hk (pr := false) (m := c.m) (k := 6) (by norm_num) kn
  -- the weights are the densities of the core radius
  have hrhos : (knnOf kd 6 c.st).map (fun q => ((q.1.map (fun j => ((List.zip c.m c.st)[j]!).1)).sum -
      ((List.zip c.m c.st)[q.1.getLastD 0]!).1) / q.2 ^ 3) = coreRhos kd 6 false c.m c.st := by
    unfold knnOf coreRhos
    rw [List.map_map]
    refine List.map_congr_left fun L hL => ?_
    obtain ⟨i, hi, rfl⟩ := List.mem_iff_getElem.mp hL
    have hkl := hk.len (columnStack false c.st) 6 (by norm_num) (by rw [hcl]; exact kn)
    have hrow := hk.row (columnStack false c.st) 6 (by norm_num) (by rw [hcl]; exact kn) i (by rw [← hkl]; exact hi)
    rw [getElem!_pos (kd (columnStack false c.st) 6) i hi] at hrow
    obtain ⟨L, hL⟩ : ∃ L, L = (kd (columnStack false c.st) 6)[i] := ⟨_, rfl⟩
    rw [← hL] at hrow ⊢
    have hget : ∀ a ∈ L, ((List.zip c.m c.st)[a.2]!).1 = c.m[a.2]! := by
      intro a ha
      have h1 := hrow.index a ha
      rw [hcl] at h1
      have h2 : a.2 < c.m.length := by rw [hg.len]; exact h1
      rw [getElem!_pos (List.zip c.m c.st) _ (by simp; omega), getElem!_pos c.m _ h2, List.getElem_zip]
    have hne : L ≠ [] := by rintro rfl; have := hrow.size; simp at this
    have hlast : (L.map Prod.snd).getLastD 0 = (L.getLastD (0, 0)).2 := by
      obtain ⟨D, q, rfl⟩ : ∃ D q, L = D ++ [q] := ⟨_, _, (dropLast_append hne (0, 0)).symm⟩
      simp
    simp only [Function.comp, Bool.false_eq_true, if_false]
    rw [hlast, hget _ (getLastD_mem hne _), List.map_map]
    congr 3
    exact List.map_congr_left fun a ha => hget a ha
  have hpos : ∀ x ∈ coreRhos kd 6 false c.m c.st, 0 < x := by
    intro x hx
    obtain ⟨i, hi, rfl⟩ := List.mem_iff_getElem.mp hx
    have hd := density_ok hk (pr := false) (k := 6) p hg hw hu hs ho hol (by norm_num) kn (i := i) (by rw [← hlen]; exact hi)
    have hmw : ∀ j < w.stars.length, 0 < w.mass[j]! := by
      intro j hj
      rw [hwl, ← hg.len] at hj
      rw [world_mass hw hu hs, getElem!_pos _ j (by simpa using hj), List.getElem_map]
      exact mul_pos (hm _ (List.getElem_mem hj)) hpm
    have h1 := density_pos hap hmw (by norm_num) (by rw [hwl, ← hlen]; exact hi) hd
    rw [getElem!_pos _ i hi] at h1
    exact pos_of_mul_pos_left h1 (by positivity)
  unfold casertano
  dsimp only
  rw [hrhos]
  have hne : coreRhos kd 6 false c.m c.st ≠ [] := by intro h; rw [h] at hlen; simp at hlen; omega
  have htot : 0 < (coreRhos kd 6 false c.m c.st).sum := List.sum_pos _ hpos hne
  refine sum_zipWith_pos (by rw [hlen, List.length_zip, hg.len]; simp) hne fun a ha b hb => ?_
  have hb2 := (List.of_mem_zip hb).2
  exact div_pos (mul_pos (hpos a ha) (hx _ hb2)) htot

/-- **C77 is violated without a known centre:** for a cluster given from its position with the centre at zero, `rcore` does not leave
the cluster as it was: the density centre is stored in it. -/
theorem C77_centre_violated {g : Galpy} {kd : KDTree} (hk : IsKD kd) {pr : Bool} {k : ℕ} {c : Cluster} {w : World} {u : Units} {s : Scale}
    (p : Pos g c) (l : Lin c) (hg : Good c) (hw : world g c = some w) (hu : c.units = some u)
    (hua : u ≠ .amuse) (hs : unitScale g c u = some s) (ho : c.origin = some .cluster) (hc : c.c = ⟨0, 0, 0, 0, 0, 0⟩) (kn : 6 ≤ c.st.length)
    (hap : w.Apart false) (hm : ∀ x ∈ c.m, 0 < x) (hx : ∀ q ∈ c.st, 0 < q.x) :
    ∃ rc c', rcore g kd k pr c = .ok (rc, c') ∧ c'.data = { c.data with c := casertano (knnOf kd 6 c.st) (List.zip c.m c.st) } ∧
      0 < c'.c.x ∧ c'.data ≠ c.data := by
  have hul : u.linear := by obtain ⟨⟨v, hv, hvl⟩, -⟩ := l; rw [hu] at hv; cases hv; exact hvl
  obtain ⟨P, hP⟩ : ∃ P, P = casertano (knnOf kd 6 c.st) (List.zip c.m c.st) := ⟨_, rfl⟩
  have hPx : 0 < P.x := by
    rw [hP]; exact casertano_pos hk p hg hw hu hs ho trivial kn hap hm hx
  obtain ⟨c2, h2, d2, -, g2, -, r2⟩ := return_of_world (sort := false) (cm := none) p l hg hg l rfl rfl
  have l2 : Lin c2 := ⟨⟨u, (congrArg Data.units d2).trans hu, hul⟩, ⟨.cluster, (congrArg Data.origin d2).trans ho, trivial⟩⟩
  obtain ⟨c3, h3, d3, f3, g3, -, r3⟩ := return_of_world (sort := false) (cm := none) p l hg g2 l2 r2 (world_of_data d2 r2)
  have hu3 : c3.units = some u := (congrArg Data.units d3).trans hu
  have ho3 : c3.origin = some .cluster := (congrArg Data.origin d3).trans ho
  have hfind : findCentreMethod g {} (.casertano (knnOf kd 6 c.st)) 0 none [] false c = .ok (some P, { c3 with c := P }) := by
    have : findCentre g {} (.casertano (knnOf kd 6 c.st)) 0 none [] c = .ok (some P, c3) := by
      unfold findCentre
      rw [if_neg (by rw [hu]; simpa using hua)]
      simp only [bind, Except.bind, Option.map_none, Option.getD_none, one_ne_zero, if_false, centreOf, if_true, h2, h3, pure,
        Except.pure, hP]
    unfold findCentreMethod
    simp only [bind, Except.bind, this, pure, Except.pure, Option.map_some, Option.getD_some, setCentre, ho3]
  -- the cluster with the new centre
  obtain ⟨c4, hc4⟩ : ∃ c4 : Cluster, c4 = { c3 with c := P } := ⟨_, rfl⟩
  obtain ⟨cn, hcn⟩ : ∃ cn : Cluster, cn = { c with c := P } := ⟨_, rfl⟩
  have dn : cn.data = { c.data with c := P } := by rw [hcn]; rfl
  have d4 : c4.data = cn.data := by
    have h : ∀ x : Data, x = c.data → { x with c := P } = { c.data with c := P } := fun x h => by rw [h]
    have := h _ d3
    rw [dn, ← this, hc4]; rfl
  have pn : Pos g cn := by rw [hcn]; exact ⟨p.rbar, p.vbar, p.zmbar, p.tbar, p.ro, p.vo, p.time, p.mass, p.vel⟩
  have ln : Lin cn := by rw [hcn]; exact ⟨l.1, l.2⟩
  have gn : Good cn := by rw [hcn]; exact ⟨hg.ne, hg.len, hg.mass, hg.ro, hg.rpo⟩
  have g4 : Good c4 := by rw [hc4]; exact ⟨g3.ne, g3.len, g3.mass, g3.ro, g3.rpo⟩
  have r4 : c4.rest = cn.rest := by rw [hc4, hcn]; exact r3
  have hu4 : c4.units = some u := by rw [hc4]; exact hu3
  have ho4 : c4.origin = some .cluster := by rw [hc4]; exact ho3
  have l4 : Lin c4 := ⟨⟨u, hu4, hul⟩, ⟨.cluster, ho4, trivial⟩⟩
  have w4 := world_of_data (g := g) d4 r4
  have p4 := pn.of_rest r4
  have hur : c4.units ≠ some .radec := by rw [hu4]; rintro h; cases h; exact hul
  obtain ⟨c5, h5, g5⟩ := toCentre_total (s := true) (cm := none) hur g4
  have hl : (Op.toCentre true none).linear := by
    simp [Op.linear, Op.unitTarget, Op.originTarget, Origin.linear]
  have st := exec_step (op := .toCentre true none) p4.nz l4 hl h5
  have os := toCentre_ostep ho4 trivial hur h5
  have l5 : Lin c5 := st.lin hl l4
  obtain ⟨c6, h6, d6, -, -, -, r6⟩ := return_of_world (sort := false) (cm := none) pn ln gn g5 l5 (st.rest.trans r4) (st.world.trans w4)
  have hsave : saveCluster cn = saveCluster c := by rw [hcn]; rfl
  rw [hsave] at h6
  have hu6 : c6.units = some u := by
    have := congrArg Data.units d6
    rw [dn] at this
    exact this.trans hu
  suffices h : ∃ rc, rcore g kd k pr c = .ok (rc, c6) by
    obtain ⟨rc, h⟩ := h
    have e : c6.c = P := by rw [dn] at d6; exact congrArg Data.c d6
    refine ⟨rc, c6, h, by rw [d6, dn, hP], by rw [e]; exact hPx, fun hx => ?_⟩
    have := congrArg Data.c hx
    simp only [Cluster.data] at this
    rw [e, hc] at this
    rw [this] at hPx
    exact lt_irrefl _ hPx
  unfold rcore
  rw [if_neg (by rw [hu]; simpa using hua)]
  have hstart : rcoreStart g kd c = .ok c5 := by
    unfold rcoreStart rcoreCentre
    rw [if_pos (by rw [ho]; simp), if_pos (by rw [hc]; exact ⟨rfl, rfl, rfl⟩), hfind]
    simp only [Except.map, Except.bind]
    rw [← hc4]; exact h5
  simp only [bind, Except.bind, hstart, h6, pure, Except.pure]
  exact ⟨_, rfl⟩

/-! ### concrete cases -/

/-- A neighbour query by sorting. -/
def kdSort : KDTree := fun pts k =>
  pts.map (fun a => ((argsort (pts.map (dist3 a))).take k).map (fun j => (dist3 a pts[j]!, j)))

/-- The requirements on the neighbour query can be met. -/
theorem kdSort_isKD : IsKD kdSort := by
  constructor
  · intro pts k _ _; simp [kdSort]
  · intro pts k k1 kn i hi
    unfold kdSort
    rw [getElem!_pos (pts.map _) i (by simpa using hi), List.getElem_map, ← getElem!_pos pts i hi]
    obtain ⟨a, ha⟩ : ∃ a, a = pts[i]! := ⟨_, rfl⟩
    rw [← ha]
    obtain ⟨o, hoo⟩ : ∃ o, o = argsort (pts.map (dist3 a)) := ⟨_, rfl⟩
    have hperm := argsort_perm (pts.map (dist3 a))
    have hsort := argsort_sorted (pts.map (dist3 a))
    rw [← hoo] at hperm hsort ⊢
    have hol : o.length = pts.length := by simpa using hperm.length_eq
    have hnd : o.Nodup := hperm.nodup_iff.mpr List.nodup_range
    have hmem : ∀ j, j ∈ o ↔ j < pts.length := fun j => by rw [hperm.mem_iff]; simp
    have hval : ∀ j ∈ o, (pts.map (dist3 a)).getD j 0 = dist3 a pts[j]! := by
      intro j hj
      have hj := (hmem j).mp hj
      rw [List.getD_eq_getElem?_getD, List.getElem?_eq_getElem (by simpa using hj), Option.getD_some, List.getElem_map, getElem!_pos pts j hj]
    have hsort' : o.Pairwise (fun x y => dist3 a pts[x]! ≤ dist3 a pts[y]!) := by
      refine hsort.imp_of_mem ?_
      intro x y hx hy h
      rwa [hval x hx, hval y hy] at h
    have hsnd : ((o.take k).map (fun j => (dist3 a pts[j]!, j))).map Prod.snd = o.take k := by
      rw [List.map_map]; simp [Function.comp_def]
    refine ⟨by simp [hol, kn], by rw [hsnd]; exact hnd.sublist (List.take_sublist _ _), ?_, ?_, ?_, ?_⟩
    · intro q hq
      obtain ⟨j, hj, rfl⟩ := List.mem_map.mp hq
      exact (hmem j).mp (List.mem_of_mem_take hj)
    · intro q hq
      obtain ⟨j, hj, rfl⟩ := List.mem_map.mp hq
      rfl
    · rw [List.pairwise_map]
      exact hsort'.sublist (List.take_sublist _ _)
    · intro j hj hjn q hq
      rw [hsnd] at hjn
      obtain ⟨x, hx, rfl⟩ := List.mem_map.mp hq
      have hjo : j ∈ o := (hmem j).mpr hj
      rw [← List.take_append_drop k o, List.mem_append] at hjo
      have hjd := hjo.resolve_left hjn
      have h := hsort'
      rw [← List.take_append_drop k o, List.pairwise_append] at h
      exact h.2.2 x hx j hjd

theorem kdSort_deterministic (pts : List (ℝ × ℝ × ℝ)) (k i j : ℕ) (hi : i < pts.length) (hj : j < pts.length)
    (h : pts[i]! = pts[j]!) : (kdSort pts k)[i]! = (kdSort pts k)[j]! := by
  unfold kdSort
  rw [getElem!_pos (pts.map _) i (by simpa using hi), getElem!_pos (pts.map _) j (by simpa using hj), List.getElem_map, List.getElem_map,
    ← getElem!_pos pts i hi, ← getElem!_pos pts j hj, h]

/-- Six stars on a line, at 1, 2, 4, 8, 16 and 32 pc from the cluster's position. -/
def demoSix (cz : Ph) : Cluster :=
  { demo with m := [1, 1, 1, 1, 1, 1], st := (List.range 6).map (fun i => ⟨2 ^ i, 0, 0, 0, 0, 0⟩), c := cz, rorder := none, rproorder := none }

theorem demoSix_ok (cz : Ph) : ∃ c0 w, analyze true (demoSix cz) = .ok c0 ∧ Pos demoG c0 ∧ Lin c0 ∧ Good c0 ∧ Fresh c0 ∧
    (∀ x ∈ c0.m, 0 < x) ∧ 0 < c0.m.sum ∧ world demoG c0 = some w ∧ OrderInv w c0 ∧ c0.units = some .pckms ∧
    c0.origin = some .cluster ∧ c0.c = cz ∧ c0.st.length = 6 ∧ (∀ q ∈ c0.st, 0 < q.x) ∧ w.Generic false ∧ w.Apart false := by
  have gd : Good (demoSix cz) := ⟨by simp [demoSix], by simp [demoSix], by simp [demoSix]; norm_num,
    by intro o ho; simp [demoSix] at ho, by intro o ho; simp [demoSix] at ho⟩
  have pd : Pos demoG (demoSix cz) := ⟨demo_pos.rbar, demo_pos.vbar, demo_pos.zmbar, demo_pos.tbar, demo_pos.ro, demo_pos.vo,
    demo_pos.time, demo_pos.mass, demo_pos.vel⟩
  obtain ⟨c0, h0, g0⟩ := analyze_total (s := true) (p := true) gd
  obtain ⟨k1, k2, k3, k4, k5, k6, k7, k8, k9, k10, k11, k12⟩ := core_fields (analyze_core h0)
  have l0 : Lin c0 := ⟨⟨.pckms, k1, trivial⟩, ⟨.cluster, k2, trivial⟩⟩
  have p0 := pd.of_rest k12
  obtain ⟨w, hw⟩ := world_isSome (g := demoG) (c := demoSix cz) (u := .pckms) (o := .cluster) rfl trivial rfl
  have hw0 : world demoG c0 = some w := (world_core (analyze_core h0)).trans hw
  have hst : c0.st = (List.range 6).map (fun i => (⟨2 ^ i, 0, 0, 0, 0, 0⟩ : Ph)) := k5
  have hm0 : c0.m = [1, 1, 1, 1, 1, 1] := k4
  have hl : c0.st.length = 6 := by rw [hst]; simp
  have i0 : OrderInv w (demoSix cz) := by intro o ho; simp [demoSix] at ho
  have i1 := i0.analyze p0 l0 hw0 h0
  have hwl : w.stars.length = 6 := by rw [world_length hw0, hl]
  have hap : ∀ i < 6, ∀ j < 6, w.apart false i j = |(2 : ℝ) ^ i - 2 ^ j| := by
    intro i hi j hj
    have hg : ∀ n < 6, c0.st[n]! = ⟨2 ^ n, 0, 0, 0, 0, 0⟩ := by
      intro n hn
      rw [hst, getElem!_pos _ n (by simpa using hn), List.getElem_map, List.getElem_range]
    rw [apart_eq (s := ⟨1, 1, 1, 1⟩) hw0 k1 k2 trivial rfl one_pos (by rw [hl]; exact hi) (by rw [hl]; exact hj),
      columnStack_get (by rw [hl]; exact hi), columnStack_get (by rw [hl]; exact hj), hg i hi, hg j hj]
    simp [dist3, Real.sqrt_sq_eq_abs]
  have hpow : ∀ a b : ℕ, (2 : ℝ) ^ a = 2 ^ b → a = b := fun a b h => pow_right_injective₀ (by norm_num) (by norm_num) h
  have hgen : w.Generic false := by
    intro i hi j hj k hk hjk he
    rw [hwl] at hi hj hk
    rw [hap i hi j hj, hap i hi k hk, abs_eq_abs] at he
    rcases he with he | he
    · exact hjk (hpow j k (by linarith))
    · have h1 : (2 : ℝ) ^ (i + 1) = 2 ^ j + 2 ^ k := by rw [pow_succ]; linarith
      have h2 : 2 ^ (i + 1) = 2 ^ j + 2 ^ k := by exact_mod_cast h1
      have h3 : ∀ i < 6, ∀ j < 6, ∀ k < 6, 2 ^ (i + 1) = 2 ^ j + 2 ^ k → j = k := by decide
      exact hjk (h3 i hi j hj k hk h2)
  refine ⟨c0, w, h0, p0, l0, g0, analyze_fresh h0, by rw [hm0]; simp, by rw [hm0]; norm_num, hw0, i1, k1, k2, k6, hl, ?_, hgen, ?_⟩
  · rw [hst]
    intro q hq
    obtain ⟨n, -, rfl⟩ := List.mem_map.mp hq
    positivity
  · intro i hi j hj hij
    have := hgen i hi i hi j hj hij
    rw [apart_self] at this
    exact lt_of_le_of_ne (apart_nonneg _ _ _ _) this

/-- C74, C76: the six stars, with a known centre at 3 pc, satisfy all hypotheses. -/
example : ∃ c w d a rc c1 t c2, world demoG c = some w ∧ closestStar kdSort false c = some (d, a) ∧ d[0]! = 1 ∧ a[0]! = 1 ∧
    rcore demoG kdSort 6 false c = .ok (rc, c1) ∧ c1.data = c.data ∧ IsCoreRadius w false 6 rc ∧
    coreRelaxationTime demoG kdSort 0.4 false c = .ok (t, c2) := by
  obtain ⟨c0, w, h0, p, l, hg, f, hm, hM, hw, i, hu, ho, hc, hn, hx, hgen, hap⟩ := demoSix_ok ⟨3, 0, 0, 0, 0, 0⟩
  obtain ⟨d, a, a1, a2, a3, a4⟩ := C74_closest_star kdSort_isKD (pr := false) (s := ⟨1, 1, 1, 1⟩) p l (by rw [hn]; norm_num) hw hu rfl
  have hcz : ¬ (c0.c.x = 0 ∧ c0.c.y = 0 ∧ c0.c.z = 0) := by rw [hc]; norm_num
  obtain ⟨rc, c1, b1, b2, -, b4⟩ := C76_core_radius kdSort_isKD (pr := false) (k := 6) (s := ⟨1, 1, 1, 1⟩) p l hg f hw hu rfl (by norm_num)
    (by rw [hn]) (Or.inr hcz)
  obtain ⟨t, c2, -, -, e1, -⟩ := C76_core_relaxation kdSort_isKD (γ := 0.4) (s := ⟨1, 1, 1, 1⟩) p l hg f (fun x h => (hm x h).le) hM hw i hu rfl
    (by rw [hn]) (Or.inr hcz)
  have hwl : w.stars.length = 6 := by rw [world_length hw, hn]
  have hst : c0.st = (List.range 6).map (fun i => (⟨2 ^ i, 0, 0, 0, 0, 0⟩ : Ph)) := (core_fields (analyze_core h0)).2.2.2.2.1
  have h01 : w.apart false 0 1 = 1 := by
    rw [apart_eq (s := ⟨1, 1, 1, 1⟩) hw hu ho trivial rfl one_pos (by rw [hn]; norm_num) (by rw [hn]; norm_num),
      columnStack_get (by rw [hn]; norm_num), columnStack_get (by rw [hn]; norm_num), hst]
    simp [dist3, List.range_succ]
    norm_num
  have hj : ∀ j < 6, j ≠ 0 → 1 ≤ w.apart false 0 j := by
    intro j hj hj0
    rw [apart_eq (s := ⟨1, 1, 1, 1⟩) hw hu ho trivial rfl one_pos (by rw [hn]; norm_num) (by rw [hn]; exact hj),
      columnStack_get (by rw [hn]; norm_num), columnStack_get (by rw [hn]; exact hj), hst]
    interval_cases j <;> simp [dist3, List.range_succ, Real.sqrt_sq_eq_abs] at hj0 ⊢ <;> norm_num
  obtain ⟨m1, ⟨j, hj6, hj0, m2⟩, m3, m4, m5⟩ := a4 0 (by rw [hn]; norm_num)
  rw [mul_one] at m2 m4
  have hd0 : d[0]! = 1 := by
    have h1 := m1 1 (by rw [hn]; norm_num) (by norm_num)
    rw [mul_one, h01] at h1
    have h2 := hj j (by rw [← hn]; exact hj6) hj0
    rw [← m2] at h2
    exact le_antisymm h1 h2
  have ha0 : a[0]! = 1 := by
    by_contra hne
    refine hgen 0 (by rw [hwl]; norm_num) a[0]! (by rw [hwl, ← hn]; exact m3) 1 (by rw [hwl]; norm_num) hne ?_
    rw [← m4, hd0, h01]
  exact ⟨c0, w, d, a, rc, c1, t, c2, hw, a1, hd0, ha0, b1, b2, by simpa using b4, e1⟩

/-- C77: with the centre at zero they satisfy the hypotheses of the violation. -/
example : ∃ c rc c', Good c ∧ Fresh c ∧ rcore demoG kdSort 6 false c = .ok (rc, c') ∧ c'.data ≠ c.data := by
  obtain ⟨c0, w, h0, p, l, hg, f, hm, hM, hw, i, hu, ho, hc, hn, hx, hgen, hap⟩ := demoSix_ok ⟨0, 0, 0, 0, 0, 0⟩
  obtain ⟨rc, c', a1, -, -, a2⟩ := C77_centre_violated kdSort_isKD (pr := false) (k := 6) (s := ⟨1, 1, 1, 1⟩) p l hg hw hu (by simp) rfl ho hc
    (by rw [hn]) hap hm hx
  exact ⟨c0, rc, c', hg, f, a1, a2⟩

/-- C75: three stars, two at the same place, and the query by sorting. -/
example : ∃ d a, closestStar kdSort false { demo with st := [⟨1, 2, 3, 0, 0, 0⟩, ⟨5, 2, 3, 0, 0, 0⟩, ⟨1, 2, 3, 1, 0, 0⟩] } = some (d, a) ∧
    (a[0]! = 0 ∨ a[2]! = 2) := by
  refine C75_coincident_violated kdSort_isKD kdSort_deterministic (by simp [demo]) (by norm_num) (by norm_num) (by norm_num) rfl ?_
  intro k hk h0 h2
  simp only [List.length_cons, List.length_nil] at hk
  interval_cases k
  · exact absurd rfl h0
  · simp [columnStack, dist3]
    norm_num
  · exact absurd rfl h2

end

end CT
