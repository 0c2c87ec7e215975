/- The centre of density as a function and as a method. -/
import Verif.Model.CentreMethods
import Verif.Props.Centre3

namespace CT

noncomputable section

theorem ite_bind_any {α β : Type} {P : Prop} [Decidable P] {x y : Except Err α} {v : α} {f : α → Except Err β} {r : Except Err β}
    (h : (if P then x else y) = .ok v) (hf : f v = r) : (if P then x.bind f else y.bind f) = r := by
  by_cases k : P
  · rw [if_pos k] at h ⊢
    rw [h]
    exact hf
  · rw [if_neg k] at h ⊢
    rw [h]
    exact hf

theorem findCentreOfDensity_run {g : Galpy} {a : CentreArgs} {meth : DensityMethod} {fuel : ℕ} {mask : Option (List Bool)} {c : Cluster}
    {r : Option Ph} (p : Pos g c) (l : Lin c) (hg : Good c) (f : Fresh c)
    (hr : densityCentre a meth fuel (mask.getD (List.replicate c.st.length true)) (List.zip c.m c.st) = .ok r) :
    ∃ c', findCentreOfDensity g a meth fuel mask c = .ok (r, c') ∧ c'.data = c.data ∧ Fresh c' ∧ Good c' ∧ c'.rest = c.rest := by
  obtain ⟨c1, h1, s1, m1, g1, l1, f1, r1, w1, -, -⟩ := strip_amuse p l hg f
  obtain ⟨c3, h3, d3, f3, g3, -, r3⟩ := return_of_world (sort := false) (cm := none) p l hg g1 l1 r1 w1
  refine ⟨c3, ?_, d3, f3, g3, r3⟩
  unfold findCentreOfDensity
  simp only [bind, pure, Except.pure]
  refine ite_bind_of h1 ?_
  rw [m1, s1, hr]
  simp only [Except.bind, h3]

theorem selection_ne {c : Cluster} {mask : Option (List Bool)} (hg : Good c) (hmask : ∀ m, mask = some m → m.length = c.st.length ∧ true ∈ m) :
    maskSel (mask.getD (List.replicate c.st.length true)) (List.zip c.m c.st) ≠ [] := by
  obtain ⟨mk, hmk⟩ : ∃ mk, mk = mask.getD (List.replicate c.st.length true) := ⟨_, rfl⟩
  have hml : mk.length = c.st.length ∧ true ∈ mk := by
    rw [hmk]
    cases mask with
    | none =>
      have : c.st.length ≠ 0 := by simpa using hg.ne
      simp [this]
    | some m => exact hmask m rfl
  rw [← hmk]
  intro e
  haveI : Inhabited MStar := ⟨(0, ⟨0, 0, 0, 0, 0, 0⟩)⟩
  have h1 := maskSel_length (mask := mk) (l := List.zip c.m c.st) (by rw [List.length_zip, hg.len, hml.1]; simp)
  rw [e] at h1
  exact count_pos_iff.mp (List.count_pos_iff.mpr hml.2) (List.length_eq_zero_iff.mp h1.symm)

/-- **C165 (the function).**  `find_centre_of_density` with shrinking spheres gives their end point on the selected stars and leaves the cluster as
it was. -/
theorem C165_harfst {g : Galpy} {a : CentreArgs} {fuel : ℕ} {mask : Option (List Bool)} {c : Cluster} (p : Pos g c) (l : Lin c) (hg : Good c)
    (f : Fresh c) (hf : a.nmax < fuel) (hmask : ∀ m, mask = some m → m.length = c.st.length ∧ true ∈ m) :
    ∃ q R c', findCentreOfDensity g a .harfst fuel mask c = .ok (some q, c') ∧ c'.data = c.data ∧ c'.rest = c.rest ∧
      StartRadius a.start a.rmax (maskSel (mask.getD (List.replicate c.st.length true)) (List.zip c.m c.st)) R ∧
      Shrinks (maskSel (mask.getD (List.replicate c.st.length true)) (List.zip c.m c.st)) a.nsphere a.rmin a.start R a.nmax q := by
  obtain ⟨q, R, h1, h2, h3⟩ := C36_harfst (start := a.start) (nsphere := a.nsphere) (rmin := a.rmin) (rmax := a.rmax) (nmax := a.nmax)
    (fuel := fuel) (.inl (selection_ne hg hmask)) hf
  obtain ⟨c', k1, k2, -, -, k3⟩ := findCentreOfDensity_run (a := a) (meth := .harfst) (fuel := fuel) (mask := mask) (r := some q) p l hg f h1
  exact ⟨q, R, c', k1, k2, k3, h2, h3⟩

/-- **C165 (the function, Casertano & Hut).** -/
theorem C165_casertano {g : Galpy} {a : CentreArgs} {knn : List (List ℕ × ℝ)} {fuel : ℕ} {mask : Option (List Bool)} {c : Cluster} (p : Pos g c)
    (l : Lin c) (hg : Good c) (f : Fresh c) :
    ∃ c', findCentreOfDensity g a (.casertano knn) fuel mask c = .ok (some (casertano knn (List.zip c.m c.st)), c') ∧ c'.data = c.data ∧
      c'.rest = c.rest := by
  obtain ⟨c', k1, k2, -, -, k3⟩ := findCentreOfDensity_run (a := a) (meth := .casertano knn) (fuel := fuel) (mask := mask) p l hg f rfl
  exact ⟨c', k1, k2, k3⟩

/-- **C165 (`find_centre` finds the same).**  Whatever method, `find_centre` with `density=True` gives what `find_centre_of_density` gives. -/
theorem C165_agree {g : Galpy} {a : CentreArgs} {meth : DensityMethod} {fuel : ℕ} {mask : Option (List Bool)} {ids : List ℤ} {c : Cluster}
    {r : Option Ph} {c1 : Cluster} (p : Pos g c) (l : Lin c) (hg : Good c) (f : Fresh c) (hd : a.density = true)
    (hmask : ∀ m, mask = some m → true ∈ m) (h : findCentreOfDensity g a meth fuel mask c = .ok (r, c1)) :
    ∃ c2, findCentre g a meth fuel mask ids c = .ok (r, c2) ∧ c2.data = c1.data := by
  obtain ⟨s, hs⟩ : ∃ s, densityCentre a meth fuel (mask.getD (List.replicate c.st.length true)) (List.zip c.m c.st) = .ok s := by
    rcases k : densityCentre a meth fuel (mask.getD (List.replicate c.st.length true)) (List.zip c.m c.st) with e | s
    · exfalso
      obtain ⟨b, hb, s1, m1, -⟩ := strip_amuse p l hg f
      have : findCentreOfDensity g a meth fuel mask c = .error e := by
        unfold findCentreOfDensity
        simp only [bind, pure, Except.pure]
        refine ite_bind_any hb ?_
        rw [m1, s1, k]
        rfl
      rw [this] at h
      cases h
    · exact ⟨s, rfl⟩
  obtain ⟨c', k1, k2, -⟩ := findCentreOfDensity_run p l hg f hs
  rw [h] at k1
  cases k1
  obtain ⟨c2, e1, e2, -⟩ := findCentre_run (a := a) (meth := meth) (fuel := fuel) (mask := mask) (ids := ids) (r := r) p l hg f hmask (by
    unfold centreOf
    rw [if_pos hd, ← hs]
    rfl)
  exact ⟨c2, e1, e2.trans k2.symm⟩

/-- **C165 (the method, default).**  The method with the default `method` returns the end point of the shrinking spheres on the selected stars, and
`to_centre` afterwards puts the stars relative to it; nothing else about the stars changes. -/
theorem C165_method {g : Galpy} {k : DensityCall} {fuel : ℕ} {reset s : Bool} {c : Cluster} (p : Pos g c) (l : Lin c) (hg : Good c)
    (f : Fresh c) (hf : k.args.nmax < fuel) (hk : k.meth = .harfst) (hmask : ∀ m, k.mask = some m → m.length = c.st.length ∧ true ∈ m)
    (ho : c.origin = some .cluster ∨ c.origin = some .galaxy) (hc : c.origin = some .galaxy → reset = false → c.c = ⟨0, 0, 0, 0, 0, 0⟩) :
    ∃ q R c1 c' c'', k.run g fuel c = .ok (some q, c1) ∧ findCentreOfDensityMethod g fuel reset k c = .ok (some q, c') ∧ c'.st = c.st ∧ c'.m = c.m ∧
      StartRadius k.args.start k.args.rmax (maskSel (k.mask.getD (List.replicate c.st.length true)) (List.zip c.m c.st)) R ∧
      Shrinks (maskSel (k.mask.getD (List.replicate c.st.length true)) (List.zip c.m c.st)) k.args.nsphere k.args.rmin k.args.start R
        k.args.nmax q ∧
      toCentre s none c' = .ok c'' ∧ c''.origin = some .centre ∧ c''.m = c.m ∧ c''.st = seenFrom q c.st := by
  obtain ⟨q, R, h1, h2, h3⟩ := C36_harfst (start := k.args.start) (nsphere := k.args.nsphere) (rmin := k.args.rmin) (rmax := k.args.rmax)
    (nmax := k.args.nmax) (fuel := fuel) (.inl (selection_ne hg hmask)) hf
  obtain ⟨c1, k1, k2, -, k4, k3⟩ := findCentreOfDensity_run (a := k.args) (meth := .harfst) (fuel := fuel) (mask := k.mask) (r := some q) p l hg f h1
  have eo : c1.origin = c.origin := congrArg Data.origin k2
  have eu : c1.units = c.units := congrArg Data.units k2
  have es : c1.st = c.st := congrArg Data.st k2
  have em : c1.m = c.m := congrArg Data.m k2
  have ec : c1.c = c.c := congrArg Data.c k2
  have hu : c1.units ≠ some .radec := by
    obtain ⟨u, hu, hul⟩ := l.1
    rw [eu, hu]
    rintro e
    cases e
    exact hul
  obtain ⟨a1, a2, -⟩ := setCentre_same reset q c1
  obtain ⟨c'', t1, t2, -, t4, t5⟩ := C50_centred (reset := reset) (s := s) (cm := none) (p := q) (c := c1) hu (by rw [eo]; exact ho) k4
    (fun e1 e2 _ => .inr (by rw [ec]; exact hc (by rw [← eo]; exact e1) e2))
  refine ⟨q, R, c1, setCentre reset q c1, c'', by unfold DensityCall.run; rw [hk]; exact k1, ?_, a1.trans es, a2.trans em, h2, h3, t1, t2, t4.trans em, by rw [t5, es]⟩
  unfold findCentreOfDensityMethod DensityCall.run DensityCall.inMethod
  simp only [bind, k1, Except.bind, Option.elim_some, pure, Except.pure]

/-- **C166 is violated: the method ignores `method`.**  For Casertano & Hut (or any other method) the function gives the density centre, but the method
with the same arguments stays at the starting point if there are not more than `nsphere` stars, wherever the stars are. -/
theorem C166_method_violated {g : Galpy} {k : DensityCall} {knn : List (List ℕ × ℝ)} {fuel : ℕ} {reset : Bool} {c : Cluster} (p : Pos g c)
    (l : Lin c) (hg : Good c) (f : Fresh c) (hf : k.args.nmax < fuel) (hk : k.meth = .casertano knn)
    (hmask : ∀ m, k.mask = some m → m.length = c.st.length ∧ true ∈ m) (few : c.st.length ≤ k.args.nsphere) :
    ∃ c1 c2, k.run g fuel c = .ok (some (casertano knn (List.zip c.m c.st)), c1) ∧
      findCentreOfDensityMethod g fuel reset k c = .ok (some k.args.start, c2) := by
  obtain ⟨c1, h1, -⟩ := C165_casertano (a := k.args) (knn := knn) (fuel := fuel) (mask := k.mask) p l hg f
  obtain ⟨q, R, c2, h2, -, -, -, h3⟩ := C165_harfst (a := k.args) p l hg f hf hmask
  have hq : q = k.args.start := by
    have hl : (maskSel (k.mask.getD (List.replicate c.st.length true)) (List.zip c.m c.st)).length ≤ c.st.length := by
      refine (maskSel_sublist_centre _ _).length_le.trans ?_
      rw [List.length_zip]
      omega
    generalize k.args.nmax = n at h3
    cases h3 with
    | stop => rfl
    | step _ h =>
      have h2 := h.2
      have h3 := List.length_filter_le (fun a : MStar => decide ((a.2.x - k.args.start.x) ^ 2 + (a.2.y - k.args.start.y) ^ 2 +
        (a.2.z - k.args.start.z) ^ 2 < R ^ 2)) (maskSel (k.mask.getD (List.replicate c.st.length true)) (List.zip c.m c.st))
      unfold insideOf at h2
      omega
  refine ⟨c1, setCentre reset q c2, by unfold DensityCall.run; rw [hk]; exact h1, ?_⟩
  unfold findCentreOfDensityMethod DensityCall.run DensityCall.inMethod
  simp only [bind, h2, Except.bind, Option.elim_some, pure, Except.pure]
  rw [hq]

/-- **C166 is violated: a mistyped `method` goes unnoticed.**  The function raises, the method answers. -/
theorem C166_unknown_violated {g : Galpy} {k : DensityCall} {fuel : ℕ} {reset : Bool} {c : Cluster} (p : Pos g c) (l : Lin c) (hg : Good c)
    (f : Fresh c) (hf : k.args.nmax < fuel) (hk : k.meth = .other) (hmask : ∀ m, k.mask = some m → m.length = c.st.length ∧ true ∈ m) :
    k.run g fuel c = .error .nameError ∧ ∃ q c2, findCentreOfDensityMethod g fuel reset k c = .ok (some q, c2) := by
  constructor
  · obtain ⟨b, hb, s1, m1, -⟩ := strip_amuse p l hg f
    unfold DensityCall.run findCentreOfDensity
    simp only [bind, pure, Except.pure]
    refine ite_bind_any hb ?_
    rw [m1, s1, hk]
    rfl
  · obtain ⟨q, R, c2, h2, -⟩ := C165_harfst (a := k.args) p l hg f hf hmask
    refine ⟨q, setCentre reset q c2, ?_⟩
    unfold findCentreOfDensityMethod DensityCall.run DensityCall.inMethod
    simp only [bind, h2, Except.bind, Option.elim_some, pure, Except.pure]

/-! ### witnesses -/

/-- The two stars of the demo cluster, each the other's nearest neighbour: the density centre is three quarters of the way to the second, the method
stays at the origin. -/
example : ∃ c c1 c2 d, Pos demoG c ∧ Lin c ∧ Good c ∧ Fresh c ∧ IsKnn 2 (List.zip c.m c.st) [([0, 1], d), ([1, 0], d)] ∧
    DensityCall.run demoG 200 ⟨{}, .casertano [([0, 1], d), ([1, 0], d)], none⟩ c = .ok (some ⟨3 / 4, 3 / 4, 1, 1 / 4, -3 / 2, 15 / 4⟩, c1) ∧
    findCentreOfDensityMethod demoG 200 false ⟨{}, .casertano [([0, 1], d), ([1, 0], d)], none⟩ c = .ok (some ⟨0, 0, 0, 0, 0, 0⟩, c2) := by
  obtain ⟨c, -, p, l, hg, f, hm, hst, ho, -⟩ := demo_fresh
  have hz : List.zip c.m c.st = [(1, ⟨3, 0, 4, 1, 0, 0⟩), (3, ⟨0, 1, 0, 0, -2, 5⟩)] := by rw [hm, hst]; rfl
  have hd : Real.sqrt 26 ≠ 0 := by positivity
  obtain ⟨c1, c2, h1, h2⟩ := C166_method_violated (k := ⟨{}, .casertano [([0, 1], Real.sqrt 26), ([1, 0], Real.sqrt 26)], none⟩) (fuel := 200)
    (reset := false) p l hg f (by norm_num) rfl (by simp) (by rw [hst]; simp [demo])
  refine ⟨c, c1, c2, Real.sqrt 26, p, l, hg, f, ?_, ?_, h2⟩
  · rw [hz]
    refine ⟨rfl, by simp, ?_, ?_, ?_⟩
    · intro i hi j hj
      have : i = 0 ∨ i = 1 := by simp at hi; omega
      rcases this with rfl | rfl <;> simp at hj <;> rcases hj with rfl | rfl <;>
        exact Real.sqrt_le_sqrt (by norm_num [Ph.r2, Ph.sub])
    · intro i hi
      have : i = 0 ∨ i = 1 := by simp at hi; omega
      rcases this with rfl | rfl <;> norm_num [Ph.r2, Ph.sub]
    · intro i hi j hj hn
      have : i = 0 ∨ i = 1 := by simp at hi; omega
      have : j = 0 ∨ j = 1 := by simp at hj; omega
      rcases ‹i = 0 ∨ i = 1› with rfl | rfl <;> rcases ‹j = 0 ∨ j = 1› with rfl | rfl <;> simp at hn
  · rw [h1, hz]
    have hp : (Real.sqrt 26) ^ 3 ≠ 0 := by positivity
    have : casertano [([0, 1], Real.sqrt 26), ([1, 0], Real.sqrt 26)] [(1, ⟨3, 0, 4, 1, 0, 0⟩), (3, ⟨0, 1, 0, 0, -2, 5⟩)] =
        ⟨3 / 4, 3 / 4, 1, 1 / 4, -3 / 2, 15 / 4⟩ := by
      generalize hr : (Real.sqrt 26) ^ 3 = r at hp
      unfold casertano
      ext <;> simp [hr] <;> field_simp <;> norm_num
    rw [this]

end

end CT
