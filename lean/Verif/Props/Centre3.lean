/- C35, C50: sigma-clipped centre, `find_centre` on a cluster, the stored centre. -/
import Verif.Props.Centre2
import Verif.Props.Coords
import Verif.Props.Energy2
import Verif.Lemmas.Mask

namespace CT

noncomputable section

set_option linter.unusedSimpArgs false

/-! ### the clipped centre -/

theorem maskSel_cons {α : Type} (b : Bool) (mask : List Bool) (a : α) (l : List α) :
    maskSel (b :: mask) (a :: l) = if b then a :: maskSel mask l else maskSel mask l := by
  cases b <;> simp [maskSel]

theorem maskSel_sublist_centre {α : Type} (mask : List Bool) (l : List α) : (maskSel mask l).Sublist l := by
  induction mask generalizing l with
  | nil => simp [maskSel]
  | cons b mask ih =>
    cases l with
    | nil => simp [maskSel]
    | cons a l =>
      rw [maskSel_cons]
      cases b
      · exact (ih l).cons a
      · exact (ih l).cons_cons a

/-- With different ids, picking the stars by id from all stars picks them from the selected ones. -/
theorem pick_by_id {α : Type} : ∀ {mask : List Bool} {ids : List ℤ} {l : List α} {s : List ℤ}, ids.Nodup →
    mask.length = ids.length → l.length = ids.length → s.Sublist (maskSel mask ids) →
    (maskSel (isinMask ids s) l).Sublist (maskSel mask l) ∧ (maskSel (isinMask ids s) l).length = s.length := by
  intro mask ids
  induction ids generalizing mask with
  | nil =>
    intro l s _ hm hl hs
    obtain rfl : l = [] := List.length_eq_zero_iff.mp hl
    obtain rfl : mask = [] := List.length_eq_zero_iff.mp hm
    obtain rfl : s = [] := by simpa [maskSel] using hs
    simp [maskSel]
  | cons i ids ih =>
    intro l s hn hm hl hs
    obtain ⟨b, mask, rfl⟩ : ∃ b t, mask = b :: t := by
      cases mask with
      | nil => simp at hm
      | cons b t => exact ⟨b, t, rfl⟩
    obtain ⟨a, l, rfl⟩ : ∃ b t, l = b :: t := by
      cases l with
      | nil => simp at hl
      | cons b t => exact ⟨b, t, rfl⟩
    obtain ⟨hi, hn'⟩ := List.nodup_cons.mp hn
    have hm' : mask.length = ids.length := by simpa using hm
    have hl' : l.length = ids.length := by simpa using hl
    have hsub : ∀ {s : List ℤ}, s.Sublist (maskSel mask ids) → i ∉ s := fun h hmem =>
      hi ((maskSel_sublist_centre mask ids).subset (h.subset hmem))
    have skip : ∀ {s : List ℤ}, i ∉ s → maskSel (isinMask (i :: ids) s) (a :: l) = maskSel (isinMask ids s) l := by
      intro s h
      unfold isinMask
      rw [List.map_cons, maskSel_cons, if_neg (by simpa using h)]
    rw [maskSel_cons] at hs
    cases b
    · have hs : s.Sublist (maskSel mask ids) := hs
      rw [skip (hsub hs), maskSel_cons]
      exact ih hn' hm' hl' hs
    · have hs : s.Sublist (i :: maskSel mask ids) := hs
      rw [maskSel_cons, if_pos rfl]
      rcases List.sublist_cons_iff.mp hs with h | ⟨s', rfl, h⟩
      · rw [skip (hsub h)]
        obtain ⟨h1, h2⟩ := ih (l := l) hn' hm' hl' h
        exact ⟨h1.cons a, h2⟩
      · obtain ⟨h1, h2⟩ := ih (l := l) hn' hm' hl' h
        have e : maskSel (isinMask (i :: ids) (i :: s')) (a :: l) = a :: maskSel (isinMask ids s') l := by
          unfold isinMask
          rw [List.map_cons, maskSel_cons, if_pos (by simp)]
          congr 2
          refine List.map_congr_left fun x hx => ?_
          have : x ≠ i := by rintro rfl; exact hi hx
          simp [this]
        rw [e]
        exact ⟨h1.cons_cons a, by simp [h2]⟩

/-- **C67 (sigma clipping).**  With different ids and `nsigma ≤ 2`, `find_centre(density=False)` returns the centre of
mass of some of the selected stars: of all of them if there are at most `nsphere`, of more than `nsphere` of them
otherwise. -/
theorem C67_clip {nsigma : ℝ} (hs : nsigma ≤ 2) {nsphere fuel : ℕ} {start : Ph} {mask : List Bool} {ids : List ℤ}
    {l : List MStar} (hid : ids.Nodup) (hm : mask.length = ids.length) (hl : l.length = ids.length)
    (hf : ids.length < fuel) :
    ∃ p kept, clipCentre nsigma nsphere fuel start mask ids l = some p ∧ kept.Sublist (maskSel mask l) ∧
      (massOf kept ≠ 0 → IsCom kept p) ∧ ((maskSel mask l).length ≤ nsphere → kept = maskSel mask l) ∧
      (nsphere < (maskSel mask l).length → nsphere < kept.length) := by
  obtain ⟨rows, hrows⟩ : ∃ rows, rows = List.zipWith (fun i (a : MStar) =>
    ({ id := i, x := a.2.x - start.x, y := a.2.y - start.y, z := a.2.z - start.z } : Clip))
    (maskSel mask ids) (maskSel mask l) := ⟨_, rfl⟩
  have hlen : (maskSel mask ids).length = (maskSel mask l).length := by
    have hll : mask.length = l.length := by omega
    rw [maskSel_length hm]
    have e : (maskSel mask l).length = (maskPos mask).length := by
      haveI : Inhabited MStar := ⟨(0, ⟨0, 0, 0, 0, 0, 0⟩)⟩
      exact maskSel_length hll
    rw [e]
  have hrl : rows.length = (maskSel mask l).length := by rw [hrows, List.length_zipWith]; omega
  have hri : rows.map Clip.id = maskSel mask ids := by
    rw [hrows, List.map_zipWith]
    clear hrl hrows
    revert hlen
    generalize maskSel mask ids = A
    generalize maskSel mask l = B
    intro h
    induction A generalizing B with
    | nil => simp
    | cons a A ih =>
      cases B with
      | nil => simp at h
      | cons b B => simp [ih B (by simpa using h)]
  have hle : (maskSel mask ids).length ≤ ids.length := (maskSel_sublist_centre mask ids).length_le
  obtain ⟨r, hr⟩ := C36_clip_ends hs nsphere (l := rows) (fuel := fuel) (by omega)
  obtain ⟨h1, h2, h3⟩ := clip_result hr
  rw [hri] at h1
  obtain ⟨k1, k2⟩ := pick_by_id (l := l) hid hm hl h1
  refine ⟨comOfStars (maskSel (isinMask ids (r.map Clip.id)) l), maskSel (isinMask ids (r.map Clip.id)) l, ?_, k1,
    fun h => (C35_com h _).mpr rfl, ?_, ?_⟩
  · unfold clipCentre
    simp only
    rw [← hrows, hr]
    rfl
  · intro h
    have e := h2 (by omega)
    refine k1.eq_of_length ?_
    rw [k2, e, List.length_map, hrl]
  · intro h
    have := h3 (by omega)
    rw [k2, List.length_map]
    exact this

/-- Non-vacuity: three stars, two selected. -/
example : ∃ p kept, clipCentre 1 100 4 ⟨0, 0, 0, 0, 0, 0⟩ [true, false, true] [7, 8, 9]
    [(1, ⟨0, 0, 0, 0, 0, 0⟩), (5, ⟨1, 1, 1, 0, 0, 0⟩), (3, ⟨4, 0, 0, 0, 0, 8⟩)] = some p ∧ IsCom kept p ∧
    kept = [(1, ⟨0, 0, 0, 0, 0, 0⟩), (3, ⟨4, 0, 0, 0, 0, 8⟩)] := by
  obtain ⟨p, kept, h1, -, h3, h4, -⟩ := C67_clip (nsigma := 1) (by norm_num) (nsphere := 100) (fuel := 4)
    (start := ⟨0, 0, 0, 0, 0, 0⟩) (mask := [true, false, true]) (ids := [7, 8, 9])
    (l := [(1, ⟨0, 0, 0, 0, 0, 0⟩), (5, ⟨1, 1, 1, 0, 0, 0⟩), (3, ⟨4, 0, 0, 0, 0, 8⟩)]) (by decide) rfl rfl (by decide)
  have e : kept = [(1, ⟨0, 0, 0, 0, 0, 0⟩), (3, ⟨4, 0, 0, 0, 0, 8⟩)] := by rw [h4 (by simp [maskSel])]; simp [maskSel]
  exact ⟨p, kept, h1, h3 (by rw [e]; norm_num [massOf]), e⟩

/-! ### find_centre on a cluster -/

/-- `find_centre` computes the centre of the stars it is given and puts the cluster back. -/
theorem findCentre_run {g : Galpy} {a : CentreArgs} {meth : DensityMethod} {fuel : ℕ} {mask : Option (List Bool)}
    {ids : List ℤ} {c : Cluster} {r : Option Ph} (p : Pos g c) (l : Lin c) (hg : Good c) (f : Fresh c)
    (hmask : ∀ m, mask = some m → true ∈ m)
    (hr : centreOf a meth fuel (mask.getD (List.replicate c.st.length true)) ids (List.zip c.m c.st) = .ok r) :
    ∃ c', findCentre g a meth fuel mask ids c = .ok (r, c') ∧ c'.data = c.data ∧ Fresh c' ∧ Good c' ∧ c'.rest = c.rest := by
  obtain ⟨c1, h1, s1, m1, g1, l1, f1, r1, w1, -, -⟩ := strip_amuse p l hg f
  have p1 := p.of_rest r1
  obtain ⟨c2, h2, s2, g2, l2, r2, w2⟩ : ∃ c2, (if a.density then returnCluster g (saveCluster c1) false none c1 else .ok c1) = .ok c2 ∧
      c2.data = c1.data ∧ Good c2 ∧ Lin c2 ∧ c2.rest = c.rest ∧ world g c2 = world g c := by
    by_cases hd : a.density = true
    · obtain ⟨c2, h2, d2, f2, g2, -, q2⟩ := return_of_world (sort := false) (cm := none) p1 l1 g1 g1 l1 rfl rfl
      refine ⟨c2, by rw [if_pos hd]; exact h2, d2, g2, ?_, q2.trans r1, (world_of_data d2 q2).trans w1⟩
      have e1 : c2.units = c1.units := congrArg Data.units d2
      have e2 : c2.origin = c1.origin := congrArg Data.origin d2
      exact ⟨by rw [e1]; exact l1.1, by rw [e2]; exact l1.2⟩
    · exact ⟨c1, by rw [if_neg hd], rfl, g1, l1, r1, w1⟩
  obtain ⟨c3, h3, d3, f3, g3, -, r3⟩ := return_of_world (sort := false) (cm := none) p l hg g2 l2 r2 w2
  refine ⟨c3, ?_, d3, f3, g3, r3⟩
  have hcount : ¬ (mask.map (fun m => m.count true)).getD 1 = 0 := by
    cases mask with
    | none => simp
    | some m => simpa [List.count_eq_zero] using hmask m rfl
  unfold findCentre
  simp only [bind, pure, Except.pure]
  refine ite_bind_of h1 ?_
  rw [if_neg hcount, m1, s1, hr]
  simp only [Except.bind]
  refine ite_bind_of (f := fun v => Except.bind (returnCluster g (saveCluster c) false none v) fun c3 => Except.ok (r, c3)) h2 ?_
  simp only [h3, Except.bind]

/-- **C67 (`find_centre`, default density method).**  On a cluster with linear units and origin, `find_centre` gives the
result of the shrinking spheres on the selected stars and leaves the cluster as it was. -/
theorem C67_find_centre {g : Galpy} {a : CentreArgs} {fuel : ℕ} {mask : Option (List Bool)} {ids : List ℤ} {c : Cluster}
    (p : Pos g c) (l : Lin c) (hg : Good c) (f : Fresh c) (hd : a.density = true) (hf : a.nmax < fuel)
    (hmask : ∀ m, mask = some m → m.length = c.st.length ∧ true ∈ m) :
    ∃ q R c', findCentre g a .harfst fuel mask ids c = .ok (some q, c') ∧ c'.data = c.data ∧
      (∀ b, a.rmax = some b → R = b) ∧
      Shrinks (maskSel (mask.getD (List.replicate c.st.length true)) (List.zip c.m c.st)) a.nsphere a.rmin a.start R
        a.nmax q := by
  obtain ⟨mk, hmk⟩ : ∃ mk, mk = mask.getD (List.replicate c.st.length true) := ⟨_, rfl⟩
  have hml : mk.length = c.st.length ∧ true ∈ mk := by
    rw [hmk]
    cases mask with
    | none =>
      have : c.st.length ≠ 0 := by simpa using hg.ne
      simp [this]
    | some m => exact hmask m rfl
  have hne : maskSel mk (List.zip c.m c.st) ≠ [] := by
    intro e
    haveI : Inhabited MStar := ⟨(0, ⟨0, 0, 0, 0, 0, 0⟩)⟩
    have h1 := maskSel_length (mask := mk) (l := List.zip c.m c.st)
      (by rw [List.length_zip, hg.len, hml.1]; simp)
    rw [e] at h1
    have h2 := count_pos_iff.mp (List.count_pos_iff.mpr hml.2)
    exact h2 (List.length_eq_zero_iff.mp h1.symm)
  obtain ⟨q, R, h1, h2, h3⟩ := C36_harfst (start := a.start) (nsphere := a.nsphere) (rmin := a.rmin) (rmax := a.rmax)
    (nmax := a.nmax) (fuel := fuel) (l := maskSel mk (List.zip c.m c.st)) (Or.inl hne) hf
  obtain ⟨c', k1, k2, -⟩ := findCentre_run (a := a) (meth := .harfst) (fuel := fuel) (mask := mask) (ids := ids)
    (r := some q) p l hg f (fun m e => (hmask m e).2) (by
      unfold centreOf
      rw [if_pos hd, ← hmk]
      exact h1)
  refine ⟨q, R, c', k1, k2, ?_, by rw [← hmk]; exact h3⟩
  intro b hb
  rw [hb] at h2
  exact h2

/-- **C67 (`find_centre(density=False)`).** -/
theorem C67_find_centre_clip {g : Galpy} {a : CentreArgs} {meth : DensityMethod} {fuel : ℕ} {mask : Option (List Bool)}
    {ids : List ℤ} {c : Cluster} (p : Pos g c) (l : Lin c) (hg : Good c) (f : Fresh c) (hd : a.density = false)
    (hs : a.nsigma ≤ 2) (hid : ids.Nodup) (hl : ids.length = c.st.length) (hf : ids.length < fuel)
    (hmask : ∀ m, mask = some m → m.length = c.st.length ∧ true ∈ m) :
    ∃ q kept c', findCentre g a meth fuel mask ids c = .ok (some q, c') ∧ c'.data = c.data ∧
      kept.Sublist (maskSel (mask.getD (List.replicate c.st.length true)) (List.zip c.m c.st)) ∧
      (massOf kept ≠ 0 → IsCom kept q) := by
  have hml : (mask.getD (List.replicate c.st.length true)).length = c.st.length := by
    cases mask with
    | none => simp
    | some m => exact (hmask m rfl).1
  obtain ⟨q, kept, h1, h2, h3, -⟩ := C67_clip hs (nsphere := a.nsphere) (start := a.start)
    (mask := mask.getD (List.replicate c.st.length true)) (l := List.zip c.m c.st) hid (by omega)
    (by rw [List.length_zip, hg.len]; omega) hf
  obtain ⟨c', k1, k2, -⟩ := findCentre_run (a := a) (meth := meth) (fuel := fuel) (mask := mask) (ids := ids)
    (r := some q) p l hg f (fun m e => (hmask m e).2) (by
      unfold centreOf
      rw [if_neg (by simp [hd]), h1])
  exact ⟨q, kept, c', k1, k2, h2, h3⟩

/-- **C67 is violated for an empty selection:** on a cluster in AMUSE units `find_centre` returns zeros and leaves the
cluster in pc and km/s. -/
theorem C67_empty_selection_violated {g : Galpy} {a : CentreArgs} {meth : DensityMethod} {fuel : ℕ} {ids : List ℤ}
    {mask : List Bool} {c : Cluster} (p : Pos g c) (hg : Good c) (hu : c.units = some .amuse) (hm : true ∉ mask) :
    ∃ c', findCentre g a meth fuel (some mask) ids c = .ok (some ⟨0, 0, 0, 0, 0, 0⟩, c') ∧ c'.units = some .pckms := by
  obtain ⟨c1, h1, -⟩ := toPckms_total (g := g) (a := true) hu trivial p hg
  refine ⟨c1, ?_, (toPckms_amuse hu h1).2.2.1⟩
  unfold findCentre
  have hc : mask.count true = 0 := List.count_eq_zero.mpr hm
  simp only [hu, if_true, bind, Except.bind, h1, pure, Except.pure, Option.map_some, Option.getD_some, hc]

/-! ### the stored centre -/

/-- Rows seen from `p`. -/
def seenFrom (p : Ph) (st : List Ph) : List Ph := st.map (fun q => ⟨q.x - p.x, q.y - p.y, q.z - p.z, q.vx - p.vx, q.vy - p.vy, q.vz - p.vz⟩)

theorem setCentre_same (reset : Bool) (p : Ph) (c : Cluster) : (setCentre reset p c).st = c.st ∧ (setCentre reset p c).m = c.m ∧
    (setCentre reset p c).units = c.units ∧ (setCentre reset p c).origin = c.origin ∧ (setCentre reset p c).rest = c.rest ∧
    (Good c → Good (setCentre reset p c)) := by
  unfold setCentre
  simp only
  repeat' split
  all_goals exact ⟨rfl, rfl, rfl, by simp_all, rfl, fun h => ⟨h.ne, h.len, h.mass, h.ro, h.rpo⟩⟩

/-- **C50.**  Once a centre finder has stored the centre it found (on a cluster in linear units with origin `cluster` or
`galaxy`), `to_centre` gives all rows relative to that centre.  Excluded: a galactocentric cluster whose orbit position
equals the found centre while an older, different centre offset is stored. -/
theorem C50_centred {reset s : Bool} {cm : Option CentreMethod} {p : Ph} {c : Cluster} (hu : c.units ≠ some .radec)
    (ho : c.origin = some .cluster ∨ c.origin = some .galaxy) (hg : Good c)
    (hex : c.origin = some .galaxy → reset = false → c.gc = p → c.gc = ⟨0, 0, 0, 0, 0, 0⟩ ∨ c.c = ⟨0, 0, 0, 0, 0, 0⟩) :
    ∃ c', toCentre s cm (setCentre reset p c) = .ok c' ∧ c'.origin = some .centre ∧ c'.units = c.units ∧ c'.m = c.m ∧
      c'.st = seenFrom p c.st := by
  obtain ⟨e1, e2, e3, e4, e5, e6⟩ := setCentre_same reset p c
  obtain ⟨c', h, -⟩ := toCentre_total (s := s) (cm := cm) (by rw [e3]; exact hu) (e6 hg)
  obtain ⟨o, hoo, hol⟩ : ∃ o, c.origin = some o ∧ o.linear := by
    rcases ho with h | h <;> exact ⟨_, h, trivial⟩
  have os := toCentre_ostep (e4.trans hoo) hol (by rw [e3]; exact hu) h
  refine ⟨c', h, os.origin, os.units.trans e3, os.m.trans e2, ?_⟩
  have hrows := os.rows o (e4.trans hoo)
  rw [os.ctr, os.gcp, e1] at hrows
  have hsum : o = .cluster ∧ (setCentre reset p c).c = p ∨
      o = .galaxy ∧ phAdd (setCentre reset p c).c (setCentre reset p c).gc = p := by
    rcases ho with h | h
    · left
      rw [h] at hoo; cases hoo
      exact ⟨rfl, by simp [setCentre, h]⟩
    · right
      rw [h] at hoo; cases hoo
      refine ⟨rfl, ?_⟩
      unfold setCentre
      simp only [h]
      split
      · ext <;> simp [phAdd]
      · rename_i hn
        split
        · rename_i hgp
          push Not at hn
          rcases hex h (by simpa using hn.2) hgp with hz | hz
          · exact absurd hz hn.1
          · rw [hz, hgp]; ext <;> simp [phAdd]
        · ext <;> simp [phAdd, Ph.sub]
  unfold galRows at hrows
  have hlen : c'.st.length = c.st.length := by simpa using congrArg List.length hrows
  refine List.ext_getElem (by simp [seenFrom, hlen]) fun i h1 h2 => ?_
  have hi : i < c.st.length := by omega
  have hrow := congrArg (fun l => l[i]?) hrows
  simp only [List.getElem?_map, List.getElem?_eq_getElem h1, List.getElem?_eq_getElem hi, Option.map_some,
    Option.some.injEq] at hrow
  simp only [seenFrom, List.getElem_map]
  rcases hsum with ⟨rfl, hc⟩ | ⟨rfl, hc⟩
  all_goals
    simp only [galactocentric, Option.some.injEq] at hrow
    have hx := congrArg Ph.x hrow
    have hy := congrArg Ph.y hrow
    have hz := congrArg Ph.z hrow
    have hvx := congrArg Ph.vx hrow
    have hvy := congrArg Ph.vy hrow
    have hvz := congrArg Ph.vz hrow
    have px := congrArg Ph.x hc
    have py := congrArg Ph.y hc
    have pz := congrArg Ph.z hc
    have pvx := congrArg Ph.vx hc
    have pvy := congrArg Ph.vy hc
    have pvz := congrArg Ph.vz hc
    simp only [phAdd] at hx hy hz hvx hvy hvz px py pz pvx pvy pvz
    ext <;> simp only [phAdd] <;> linarith

/-- **C50 (centre of mass).**  `find_centre_of_mass` followed by `to_centre` puts the centre of mass at the origin and
at rest. -/
theorem C50_com {reset s : Bool} {cm : Option CentreMethod} {c : Cluster} (hu : c.units ≠ some .radec)
    (ho : c.origin = some .cluster ∨ c.origin = some .galaxy) (hg : Good c) (hm : c.m.sum ≠ 0)
    (hex : c.origin = some .galaxy → reset = false → c.c = ⟨0, 0, 0, 0, 0, 0⟩) :
    ∃ c', toCentre s cm (findCentreOfMassMethod reset c).2 = .ok c' ∧
      IsCom (List.zip c'.m c'.st) ⟨0, 0, 0, 0, 0, 0⟩ := by
  obtain ⟨c', h1, -, -, h4, h5⟩ := C50_centred (reset := reset) (s := s) (cm := cm) (p := findCentreOfMass c) hu ho hg
    (fun a b _ => Or.inr (hex a b))
  refine ⟨c', h1, ?_⟩
  have hmass : massOf (List.zip c.m c.st) ≠ 0 := by
    unfold massOf
    rwa [List.map_fst_zip (by rw [hg.len])]
  have hcom : IsCom (List.zip c.m c.st) (findCentreOfMass c) := (C35_com hmass _).mpr rfl
  have e : ∀ (f : MStar → ℝ), ((List.zip c'.m c'.st).map f).sum =
      ((List.zip c.m c.st).map (fun a => f (a.1, ⟨a.2.x - (findCentreOfMass c).x, a.2.y - (findCentreOfMass c).y,
        a.2.z - (findCentreOfMass c).z, a.2.vx - (findCentreOfMass c).vx, a.2.vy - (findCentreOfMass c).vy,
        a.2.vz - (findCentreOfMass c).vz⟩))).sum := by
    intro f
    rw [h4, h5]
    unfold seenFrom
    rw [List.zip_map_right, List.map_map]
    rfl
  constructor <;> rw [e] <;> simp only [sub_zero]
  · exact hcom.x
  · exact hcom.y
  · exact hcom.z
  · exact hcom.vx
  · exact hcom.vy
  · exact hcom.vz

/-- **C50 is violated** by a galactocentric cluster with a stored centre offset whose orbit position equals the found
centre: `to_centre` still subtracts the old offset as well. -/
theorem C50_stale_violated {s : Bool} {cm : Option CentreMethod} {p : Ph} {c : Cluster} (hu : c.units ≠ some .radec)
    (ho : c.origin = some .galaxy) (hg : Good c) (hgc : c.gc = p) (h0 : p ≠ ⟨0, 0, 0, 0, 0, 0⟩)
    (hc : c.c.x ≠ 0) :
    ∃ c', toCentre s cm (setCentre false p c) = .ok c' ∧ c'.st = seenFrom (phAdd p c.c) c.st ∧
      c'.st ≠ seenFrom p c.st := by
  have hset : setCentre false p c = c := by
    unfold setCentre
    simp only [ho]
    rw [if_neg (by rw [hgc]; simpa using h0), if_pos hgc]
  rw [hset]
  obtain ⟨c', h, -⟩ := toCentre_total (s := s) (cm := cm) hu hg
  have os := toCentre_ostep ho trivial hu h
  have hrows := os.rows _ ho
  rw [os.ctr, os.gcp] at hrows
  unfold galRows at hrows
  have hlen : c'.st.length = c.st.length := by simpa using congrArg List.length hrows
  have hst : c'.st = seenFrom (phAdd p c.c) c.st := by
    refine List.ext_getElem (by simp [seenFrom, hlen]) fun i h1 h2 => ?_
    have hi : i < c.st.length := by omega
    have hrow := congrArg (fun l => l[i]?) hrows
    simp only [List.getElem?_map, List.getElem?_eq_getElem h1, List.getElem?_eq_getElem hi, Option.map_some,
      Option.some.injEq] at hrow
    simp only [seenFrom, List.getElem_map]
    simp only [galactocentric, Option.some.injEq] at hrow
    have hx := congrArg Ph.x hrow
    have hy := congrArg Ph.y hrow
    have hz := congrArg Ph.z hrow
    have hvx := congrArg Ph.vx hrow
    have hvy := congrArg Ph.vy hrow
    have hvz := congrArg Ph.vz hrow
    have px := congrArg Ph.x hgc
    have py := congrArg Ph.y hgc
    have pz := congrArg Ph.z hgc
    have pvx := congrArg Ph.vx hgc
    have pvy := congrArg Ph.vy hgc
    have pvz := congrArg Ph.vz hgc
    simp only [phAdd] at hx hy hz hvx hvy hvz
    ext <;> simp only [phAdd] <;> linarith
  refine ⟨c', h, hst, ?_⟩
  rw [hst]
  obtain ⟨q, t, hq⟩ := List.exists_cons_of_ne_nil hg.ne
  rw [hq]
  simp only [seenFrom, List.map_cons, ne_eq, List.cons.injEq, not_and, Ph.mk.injEq]
  intro h
  exfalso
  have := h.1
  simp only [phAdd] at this
  exact hc (by linarith)

/-- Non-vacuity of C32, C35 and C50. -/
example : ∃ c, Pos demoG c ∧ Lin c ∧ Good c ∧ Fresh c ∧ c.origin = some .cluster ∧ c.m.sum ≠ 0 ∧
    (∀ q ∈ c.st, q.x ^ 2 + q.y ^ 2 + q.z ^ 2 ≠ 0) := by
  obtain ⟨c, -, p, l, hg, f, hm, hst, ho, -⟩ := demo_fresh
  refine ⟨c, p, l, hg, f, ho, by rw [hm]; norm_num [demo], ?_⟩
  rw [hst]
  simp only [demo, List.mem_cons, List.not_mem_nil, or_false, forall_eq_or_imp, forall_eq]
  norm_num

end

end CT
