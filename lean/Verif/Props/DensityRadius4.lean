/- C83-C85: the limiting radius and the core radius from the central density. -/
import Verif.Props.DensityRadius3
import Verif.Props.CoreRadius2

namespace CT

noncomputable section

set_option linter.unusedSimpArgs false

theorem background_world {g : Galpy} {dens : ℝ → ℝ → ℝ} {a : TideArgs} {c : Cluster} {w : World} {u : Units} {s : Scale} {pr : Bool}
    {rs : List ℝ} (p : Pos g c) (hw : world g c = some w) (hu : c.units = some u) (hs : unitScale g c u = some s) :
    background g dens s a pr rs c = w.background g dens a pr rs := by
  have hp := (unitScale_pos p hs).1
  have hc : w.centre = s.ph c.c ∧ w.gc = s.ph c.gc := by
    have h := hw; unfold world phys at h
    simp only [hu, hs] at h
    split at h
    · rename_i h1 _
      simp only [Option.some.injEq] at h h1
      rw [← h, ← h1]; exact ⟨rfl, rfl⟩
    · cases h
  have hat : tideAt s a c = w.hostAt a := by
    unfold tideAt World.hostAt
    rw [hc.1, hc.2]
    have hsq : ∀ x y : ℝ, Real.sqrt ((x * s.len) ^ 2 + (y * s.len) ^ 2) = Real.sqrt (x ^ 2 + y ^ 2) * s.len := by
      intro x y
      rw [show (x * s.len) ^ 2 + (y * s.len) ^ 2 = (x ^ 2 + y ^ 2) * s.len ^ 2 by ring, Real.sqrt_mul (by positivity),
        Real.sqrt_sq hp.le]
    cases a.fromCentre
    · simp only [Bool.false_eq_true, if_false, Scale.ph, hsq]
    · simp only [if_true, Scale.ph, phAdd, ← add_mul, hsq]
  unfold background World.background localDensity World.hostDensity
  rw [hat]

/-- **C83.**  `rlimiting` gives the radius at which the density profile of the cluster about its position or centre falls to the density of
the galaxy there (the radius of the last bin if even that is denser, zero if already the first is not as dense), in the length unit of the
cluster, and returns the cluster as it was.  The profile is that of the physical cluster, whatever its units and origin.  The one exception
is a last bin exactly at the background when no bin is below it, see `C83_tie`. -/
theorem C83_limiting {g : Galpy} {dens : ℝ → ℝ → ℝ} {a : TideArgs} {c : Cluster} {w : World} {u : Units} {s : Scale} {pr : Bool} {e : PStars}
    {nrad : ℕ} (p : Pos g c) (l : Lin c) (hg : Good c) (f : Fresh c) (hw : world g c = some w) (hu : c.units = some u)
    (hs : unitScale g c u = some s) (he : StarLists e c.st.length) (hn : 0 < nrad) (ht : TwoRadii w pr (workFrame c) e) :
    ∃ P rs ds, ShellProfile w pr (workFrame c) e nrad P rs ds ∧
      ((ds[ds.length - 1]! = w.background g dens a pr rs → ∃ k < ds.length, ds[k]! < w.background g dens a pr rs) →
        ∃ x c', rlimiting g dens a nrad pr e c = .ok (x, c') ∧ c'.data = c.data ∧ Fresh c' ∧
          IsLimiting rs ds (w.background g dens a pr rs) (x * s.len)) := by
  obtain ⟨P, rs, ds, h1, h2, -⟩ := limiting_run (dens := dens) (a := a) (pr := pr) p l hg f hw hu hs he hn ht
  rw [background_world p hw hu hs] at h2
  exact ⟨P, rs, ds, h1, h2⟩

/-- **C83 (a tie).**  When the last bin is exactly as dense as the background and no bin is less dense, `rlimiting` fails with an
`IndexError`. -/
theorem C83_tie {g : Galpy} {dens : ℝ → ℝ → ℝ} {a : TideArgs} {c : Cluster} {w : World} {u : Units} {s : Scale} {pr : Bool} {e : PStars}
    {nrad : ℕ} {P : List (ℝ × ℝ)} {rs ds : List ℝ} (p : Pos g c) (l : Lin c) (hg : Good c) (f : Fresh c) (hw : world g c = some w)
    (hu : c.units = some u) (hs : unitScale g c u = some s) (he : StarLists e c.st.length) (hn : 0 < nrad)
    (ht : TwoRadii w pr (workFrame c) e) (hS : ShellProfile w pr (workFrame c) e nrad P rs ds)
    (hx : ds[ds.length - 1]! = w.background g dens a pr rs) (ha : ∀ k < ds.length, w.background g dens a pr rs ≤ ds[k]!) :
    rlimiting g dens a nrad pr e c = .error .indexError := by
  obtain ⟨P', rs', ds', h1, -, h3⟩ := limiting_run (dens := dens) (a := a) (pr := pr) p l hg f hw hu hs he hn ht
  obtain ⟨-, rfl, rfl⟩ := hS.unique h1
  rw [background_world p hw hu hs] at h3
  exact h3 hx ha

/-- **C83 (units and origins).**  Two descriptions of the same cluster, both taken about its position or both about its centre, have the same
limiting radius. -/
theorem C83_same_cluster {g : Galpy} {dens : ℝ → ℝ → ℝ} {a : TideArgs} {c d : Cluster} {w : World} {u v : Units} {s r : Scale} {pr : Bool}
    {e : PStars} {nrad : ℕ} {x y : ℝ} {c' d' : Cluster} (p : Pos g c) (l : Lin c) (hg : Good c) (f : Fresh c) (hw : world g c = some w)
    (hu : c.units = some u) (hs : unitScale g c u = some s) (p' : Pos g d) (l' : Lin d) (hg' : Good d) (f' : Fresh d)
    (hw' : world g d = some w) (hu' : d.units = some v) (hr : unitScale g d v = some r) (he : StarLists e w.stars.length) (hn : 0 < nrad)
    (hfr : workFrame d = workFrame c) (ht : TwoRadii w pr (workFrame c) e)
    (hx : rlimiting g dens a nrad pr e c = .ok (x, c')) (hy : rlimiting g dens a nrad pr e d = .ok (y, d')) : x * s.len = y * r.len := by
  obtain ⟨P, rs, ds, h1, h2, h3⟩ := limiting_run (dens := dens) (a := a) (pr := pr) p l hg f hw hu hs (by rw [← world_length hw]; exact he) hn ht
  obtain ⟨P', rs', ds', h1', h2', -⟩ := limiting_run (dens := dens) (a := a) (pr := pr) p' l' hg' f' hw' hu' hr
    (by rw [← world_length hw']; exact he) hn (by rw [hfr]; exact ht)
  rw [hfr] at h1'
  obtain ⟨-, rfl, rfl⟩ := h1.unique h1'
  rw [background_world p hw hu hs] at h2 h3
  rw [background_world p' hw' hu' hr] at h2'
  have hcase : ds[ds.length - 1]! = w.background g dens a pr rs → ∃ k < ds.length, ds[k]! < w.background g dens a pr rs := by
    intro hb
    by_contra hc
    push Not at hc
    rw [h3 hb hc] at hx
    cases hx
  obtain ⟨x1, c1, e1, -, -, e2⟩ := h2 hcase
  obtain ⟨y1, d1, e3, -, -, e4⟩ := h2' hcase
  rw [hx] at e1; rw [hy] at e3
  injection e1 with e1; injection e3 with e3
  injection e1 with e1; injection e3 with e3
  subst e1 e3
  exact e2.unique e4

/-- **C84.**  Where the density profile of the cluster about its centre stays below the core density (a third of the central density, in
projection half of it) once it is below, and somewhere is, `rcore(method='isothermal')` gives the radius at which it falls to that density,
in the length unit of the cluster, and returns the cluster as it was; for a cluster given from its centre or with a known centre. -/
theorem C84_core_radius {g : Galpy} {find : Cluster → Except Err Cluster} {c : Cluster} {w : World} {u : Units} {s : Scale} {pr : Bool}
    {e : PStars} {q : ℝ} (p : Pos g c) (l : Lin c) (hg : Good c) (f : Fresh c) (hm : ∀ x ∈ c.m, 0 ≤ x)
    (hw : world g c = some w) (hu : c.units = some u) (hs : unitScale g c u = some s) (he : StarLists e c.st.length) (hq0 : 0 < q) (hq1 : q ≤ 1)
    (ht : TwoRadii w pr .centre e) (hc : c.origin = some .centre ∨ ¬ (c.c.x = 0 ∧ c.c.y = 0 ∧ c.c.z = 0)) :
    ∃ P rs ds, ShellProfile w pr .centre e ⌈1 / q⌉₊ P rs ds ∧
      (StaysBelow ds (coreDensity pr ds) → (∃ k < ds.length, ds[k]! < coreDensity pr ds) →
        ∃ x c', rcoreDensity g find e q pr c = .ok (x, c') ∧ c'.data = c.data ∧ Fresh c' ∧
          IsFirstFall rs ds (coreDensity pr ds) (x * s.len)) := by
  obtain ⟨P, rs, ds, h1, -, h2, -⟩ := core_run (find := find) p l hg f hm hw hu hs he hq0 hq1 ht hc
  refine ⟨P, rs, ds, h1, fun hb hx => ?_⟩
  obtain ⟨x, c', e1, e2, e3, e4⟩ := h2 hx
  exact ⟨x, c', e1, e2, e3, e4.first_fall (fun i j hij hj => h1.increasing hij (by rw [← h1.lend]; exact hj)) hb⟩

theorem OnCoreLine.unique {rs ds : List ℝ} {ρ x y : ℝ} (hx : OnCoreLine rs ds ρ x) (hy : OnCoreLine rs ds ρ y) : x = y := by
  obtain ⟨i, j, a1, a2, a3, a4, a5, a6, a7⟩ := hx
  obtain ⟨i', j', b1, b2, b3, b4, b5, b6, b7⟩ := hy
  obtain rfl : i = i' := by
    rcases lt_trichotomy i i' with h | h | h
    · linarith [a4 i' h b1]
    · exact h
    · linarith [b4 i h a1]
  obtain rfl : j = j' := by
    rcases lt_trichotomy j j' with h | h | h
    · linarith [b6 j h]
    · exact h
    · linarith [a6 j' h]
  have hd : ds[i]! - ds[j]! ≠ 0 := by linarith
  have := mul_right_cancel₀ hd (a7.trans b7.symm)
  linarith

/-- **C84 (units and origins).**  Two descriptions of the same cluster, in any units and from any origin, have the same core radius,
whatever the shape of the profile. -/
theorem C84_same_cluster {g : Galpy} {find find' : Cluster → Except Err Cluster} {c d : Cluster} {w : World} {u v : Units} {s r : Scale}
    {pr : Bool} {e : PStars} {q x y : ℝ} {c' d' : Cluster} (p : Pos g c) (l : Lin c) (hg : Good c) (f : Fresh c) (hm : ∀ x ∈ c.m, 0 ≤ x)
    (hw : world g c = some w) (hu : c.units = some u) (hs : unitScale g c u = some s) (p' : Pos g d) (l' : Lin d) (hg' : Good d) (f' : Fresh d)
    (hm' : ∀ x ∈ d.m, 0 ≤ x) (hw' : world g d = some w) (hu' : d.units = some v) (hr : unitScale g d v = some r)
    (he : StarLists e w.stars.length) (hq0 : 0 < q) (hq1 : q ≤ 1) (ht : TwoRadii w pr .centre e)
    (hc : c.origin = some .centre ∨ ¬ (c.c.x = 0 ∧ c.c.y = 0 ∧ c.c.z = 0))
    (hd : d.origin = some .centre ∨ ¬ (d.c.x = 0 ∧ d.c.y = 0 ∧ d.c.z = 0))
    (hx : rcoreDensity g find e q pr c = .ok (x, c')) (hy : rcoreDensity g find' e q pr d = .ok (y, d')) : x * s.len = y * r.len := by
  obtain ⟨P, rs, ds, h1, -, h2, h3⟩ := core_run (find := find) p l hg f hm hw hu hs (by rw [← world_length hw]; exact he) hq0 hq1 ht hc
  obtain ⟨P', rs', ds', h1', -, h2', -⟩ := core_run (find := find') p' l' hg' f' hm' hw' hu' hr (by rw [← world_length hw']; exact he) hq0 hq1 ht hd
  obtain ⟨-, rfl, rfl⟩ := h1.unique h1'
  have hcase : ∃ k < ds.length, ds[k]! < coreDensity pr ds := by
    by_contra hk
    push Not at hk
    rw [h3 hk] at hx
    cases hx
  obtain ⟨x1, c1, e1, -, -, e2⟩ := h2 hcase
  obtain ⟨y1, d1, e3, -, -, e4⟩ := h2' hcase
  rw [hx] at e1; rw [hy] at e3
  injection e1 with e1; injection e3 with e3
  injection e1 with e1; injection e3 with e3
  subst e1 e3
  exact e2.unique e4

/-- **C85 violated (no bin below).**  If no bin is below the core density, the core radius fails with an `IndexError`. -/
theorem C85_no_fall_violated {g : Galpy} {find : Cluster → Except Err Cluster} {c : Cluster} {w : World} {u : Units} {s : Scale} {pr : Bool}
    {e : PStars} {q : ℝ} {P : List (ℝ × ℝ)} {rs ds : List ℝ} (p : Pos g c) (l : Lin c) (hg : Good c) (f : Fresh c) (hm : ∀ x ∈ c.m, 0 ≤ x)
    (hw : world g c = some w) (hu : c.units = some u) (hs : unitScale g c u = some s) (he : StarLists e c.st.length) (hq0 : 0 < q) (hq1 : q ≤ 1)
    (ht : TwoRadii w pr .centre e) (hc : c.origin = some .centre ∨ ¬ (c.c.x = 0 ∧ c.c.y = 0 ∧ c.c.z = 0))
    (hS : ShellProfile w pr .centre e ⌈1 / q⌉₊ P rs ds) (ha : ∀ k < ds.length, coreDensity pr ds ≤ ds[k]!) :
    rcoreDensity g find e q pr c = .error .indexError := by
  obtain ⟨P', rs', ds', h1, -, -, h2⟩ := core_run (find := find) p l hg f hm hw hu hs he hq0 hq1 ht hc
  obtain ⟨-, rfl, rfl⟩ := hS.unique h1
  exact h2 ha

/-- **C85 violated (the whole mass).**  With `mfrac=1` there is a single bin, and the core radius always fails. -/
theorem C85_whole_violated {g : Galpy} {find : Cluster → Except Err Cluster} {c : Cluster} {w : World} {u : Units} {s : Scale} {pr : Bool}
    {e : PStars} (p : Pos g c) (l : Lin c) (hg : Good c) (f : Fresh c) (hm : ∀ x ∈ c.m, 0 ≤ x)
    (hw : world g c = some w) (hu : c.units = some u) (hs : unitScale g c u = some s) (he : StarLists e c.st.length)
    (ht : TwoRadii w pr .centre e) (hc : c.origin = some .centre ∨ ¬ (c.c.x = 0 ∧ c.c.y = 0 ∧ c.c.z = 0)) :
    rcoreDensity g find e 1 pr c = .error .indexError := by
  obtain ⟨P, rs, ds, h1, ⟨k, k1, k2⟩, -, h2⟩ := core_run (find := find) p l hg f hm hw hu hs he one_pos (le_refl _) ht hc
  refine h2 fun j hj => ?_
  have hl : ds.length ≤ 1 := by
    have := h1.few
    rw [← h1.lend] at this
    simpa using this
  obtain rfl : k = j := by omega
  exact k2

/-- **C85 violated (a profile that rises again).**  If a bin is below the core density and one further out is not, the returned radius lies
beyond the first bin below it: it is not the radius at which the profile falls to the core density. -/
theorem C85_rising_violated {g : Galpy} {find : Cluster → Except Err Cluster} {c : Cluster} {w : World} {u : Units} {s : Scale} {pr : Bool}
    {e : PStars} {q : ℝ} {P : List (ℝ × ℝ)} {rs ds : List ℝ} {k m : ℕ} (p : Pos g c) (l : Lin c) (hg : Good c) (f : Fresh c)
    (hm : ∀ x ∈ c.m, 0 ≤ x) (hw : world g c = some w) (hu : c.units = some u) (hs : unitScale g c u = some s) (he : StarLists e c.st.length)
    (hq0 : 0 < q) (hq1 : q ≤ 1) (ht : TwoRadii w pr .centre e) (hc : c.origin = some .centre ∨ ¬ (c.c.x = 0 ∧ c.c.y = 0 ∧ c.c.z = 0))
    (hS : ShellProfile w pr .centre e ⌈1 / q⌉₊ P rs ds) (hkm : k < m) (hmn : m < ds.length) (hk : ds[k]! < coreDensity pr ds)
    (hmρ : coreDensity pr ds ≤ ds[m]!) :
    ∃ x c' j, rcoreDensity g find e q pr c = .ok (x, c') ∧ c'.data = c.data ∧ j ≤ k ∧ ds[j]! < coreDensity pr ds ∧
      (∀ n < j, coreDensity pr ds ≤ ds[n]!) ∧ rs[j]! < x * s.len ∧ ¬ IsFirstFall rs ds (coreDensity pr ds) (x * s.len) := by
  obtain ⟨P', rs', ds', h1, -, h2, -⟩ := core_run (find := find) p l hg f hm hw hu hs he hq0 hq1 ht hc
  obtain ⟨-, rfl, rfl⟩ := hS.unique h1
  obtain ⟨x, c', e1, e2, e3, e4⟩ := h2 ⟨k, by omega, hk⟩
  obtain ⟨j, b1, b2, b3, b4, b5⟩ := e4.beyond (fun i j hij hj => h1.increasing hij (by rw [← h1.lend]; exact hj)) hkm hmn hk hmρ
  exact ⟨x, c', j, e1, e2, b1, b2, b3, b4, b5⟩

end

end CT
