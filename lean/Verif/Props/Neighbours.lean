/- Property theorems C74-C77: nearest stars and the core radius. -/
import Verif.Spec.Neighbours
import Verif.Props.Relax

namespace CT

noncomputable section

set_option linter.unusedSimpArgs false

theorem columnStack_length (pr : Bool) (st : List Ph) : (columnStack pr st).length = st.length := by simp [columnStack]

theorem columnStack_get {pr : Bool} {st : List Ph} {i : ℕ} (hi : i < st.length) :
    (columnStack pr st)[i]! = ((st[i]!).x, (st[i]!).y, if pr then 0 else (st[i]!).z) := by
  unfold columnStack
  rw [getElem!_pos _ i (by simpa using hi), getElem!_pos st i hi, List.getElem_map]

theorem dist3_nonneg (a b : ℝ × ℝ × ℝ) : 0 ≤ dist3 a b := Real.sqrt_nonneg _

theorem dist3_self (a : ℝ × ℝ × ℝ) : dist3 a a = 0 := by simp [dist3]

/-- The distance of two stars in the world is the distance of their rows times the unit of length. -/
theorem apart_eq {g : Galpy} {c : Cluster} {w : World} {u : Units} {s : Scale} {o : Origin} {pr : Bool}
    (hw : world g c = some w) (hu : c.units = some u) (ho : c.origin = some o) (hol : o.linear)
    (hs : unitScale g c u = some s) (hp : 0 < s.len) {i j : ℕ} (hi : i < c.st.length) (hj : j < c.st.length) :
    w.apart pr i j = dist3 (columnStack pr c.st)[i]! (columnStack pr c.st)[j]! * s.len := by
  rw [columnStack_get hi, columnStack_get hj, getElem!_pos c.st _ hi, getElem!_pos c.st _ hj]
  unfold world phys at hw
  simp only [hu, ho, hs, Option.some.injEq] at hw
  subst hw
  have hr : ∀ a : ℝ, Real.sqrt a * s.len = Real.sqrt (a * s.len ^ 2) := by
    intro a
    rw [Real.sqrt_mul' _ (by positivity), Real.sqrt_sq hp.le]
  unfold World.apart between dist3
  rw [hr]
  simp only [World.star, galRows, List.getElem?_map, List.getElem?_eq_getElem hi, List.getElem?_eq_getElem hj, Option.map_some,
    Option.join_some, Option.getD_some]
  cases o <;> simp only [Origin.linear] at hol <;> cases pr <;>
    simp only [galactocentric, phAdd, Scale.ph, Option.getD_some, if_true, Bool.false_eq_true, if_false] <;> congr 1 <;> ring

/-- **C74 (closest star).**  For two or more stars `closest_star` gives every star the distance to the nearest other star, in the length
unit of the cluster, whatever its units and origin, and the index of a star at that distance, which is another star unless two stars are
at the same place. -/
theorem C74_closest_star {g : Galpy} {kd : KDTree} (hk : IsKD kd) {pr : Bool} {c : Cluster} {w : World} {u : Units} {s : Scale}
    (p : Pos g c) (l : Lin c) (hn : 2 ≤ c.st.length) (hw : world g c = some w) (hu : c.units = some u) (hs : unitScale g c u = some s) :
    ∃ d a, closestStar kd pr c = some (d, a) ∧ d.length = c.st.length ∧ a.length = c.st.length ∧
      ∀ i < c.st.length,
        (∀ j < c.st.length, j ≠ i → d[i]! * s.len ≤ w.apart pr i j) ∧
        (∃ j < c.st.length, j ≠ i ∧ d[i]! * s.len = w.apart pr i j) ∧
        a[i]! < c.st.length ∧ d[i]! * s.len = w.apart pr i a[i]! ∧
        ((∀ j < c.st.length, j ≠ i → 0 < w.apart pr i j) → a[i]! ≠ i) := by
  obtain ⟨⟨u', hu', hul⟩, ⟨o, ho, hol⟩⟩ := l
  rw [hu] at hu'; cases hu'
  have hp := (unitScale_pos p hs).1
  have hcl := columnStack_length pr c.st
  have hlen := hk.len (columnStack pr c.st) 2 (by norm_num) (by rw [hcl]; exact hn)
  rw [hcl] at hlen
  refine ⟨(kd (columnStack pr c.st) 2).map (fun l => (l[1]!).1), (kd (columnStack pr c.st) 2).map (fun l => (l[1]!).2), ?_, ?_, ?_, ?_⟩
  · unfold closestStar
    rw [if_neg]
    rintro ⟨h, -⟩
    rw [hu] at h; cases h; exact hul
  · rw [List.length_map, hlen]
  · rw [List.length_map, hlen]
  intro i hi
  have hi' : i < (kd (columnStack pr c.st) 2).length := by rw [hlen]; exact hi
  have hrow := hk.row (columnStack pr c.st) 2 (by norm_num) (by rw [hcl]; exact hn) i (by rw [hcl]; exact hi)
  rw [getElem!_pos ((kd (columnStack pr c.st) 2).map _) i (by simpa using hi'),
    getElem!_pos ((kd (columnStack pr c.st) 2).map _) i (by simpa using hi'), List.getElem_map, List.getElem_map,
    ← getElem!_pos (kd (columnStack pr c.st) 2) i hi']
  obtain ⟨L, hL⟩ : ∃ L, L = (kd (columnStack pr c.st) 2)[i]! := ⟨_, rfl⟩
  rw [← hL] at hrow ⊢
  have hap : ∀ j < c.st.length, w.apart pr i j = dist3 (columnStack pr c.st)[i]! (columnStack pr c.st)[j]! * s.len :=
    fun j hj => apart_eq hw hu ho hol hs hp hi hj
  match L, hrow with
  | [a, b], hrow =>
    have hb : ([a, b] : List (ℝ × ℕ))[1]! = b := rfl
    rw [hb]
    have hne : a.2 ≠ b.2 := by
      have := hrow.nodup
      simpa using this
    have ia := hrow.index a (by simp)
    have ib := hrow.index b (by simp)
    rw [hcl] at ia ib
    have da := hrow.dist a (by simp)
    have db := hrow.dist b (by simp)
    have hab : a.1 ≤ b.1 := by
      have := hrow.sorted
      simpa using this
    have a0 : 0 ≤ a.1 := by rw [da]; exact dist3_nonneg _ _
    have oth : ∀ j < c.st.length, j ≠ a.2 → j ≠ b.2 → b.1 ≤ dist3 (columnStack pr c.st)[i]! (columnStack pr c.st)[j]! := by
      intro j hj h1 h2
      exact hrow.others j (by rw [hcl]; exact hj) (by simp [h1, h2]) b (by simp)
    have bself : b.2 = i → b.1 = 0 := by intro h; rw [db, h, dist3_self]
    refine ⟨?_, ?_, ib, ?_, ?_⟩
    · intro j hj hji
      rw [hap j hj]
      refine mul_le_mul_of_nonneg_right ?_ hp.le
      by_cases h2 : j = b.2
      · rw [db, ← h2]
      by_cases hbi : b.2 = i
      · rw [bself hbi]; exact dist3_nonneg _ _
      by_cases h1 : j = a.2
      · have hia : i ≠ a.2 := by rw [← h1]; exact hji.symm
        have := oth i hi hia (fun h => hbi h.symm)
        rw [dist3_self] at this
        exact this.trans (dist3_nonneg _ _)
      · exact oth j hj h1 h2
    · by_cases hbi : b.2 = i
      · refine ⟨a.2, ia, by rw [← hbi]; exact hne, ?_⟩
        rw [hap _ ia, ← da, show a.1 = b.1 by rw [bself hbi] at hab ⊢; exact le_antisymm hab a0]
      · exact ⟨b.2, ib, hbi, by rw [hap _ ib, ← db]⟩
    · rw [hap _ ib, ← db]
    · intro hpos hbi
      have h1 := hpos a.2 ia (by rw [← hbi]; exact hne)
      rw [hap _ ia, ← da, show a.1 = 0 by rw [bself hbi] at hab; exact le_antisymm hab a0, zero_mul] at h1
      exact lt_irrefl _ h1
  | [], hrow => exact absurd hrow.size (by simp)
  | [a], hrow => exact absurd hrow.size (by simp)
  | a :: b :: e :: l, hrow => exact absurd hrow.size (by simp)

/-- **C75 is violated for sky coordinates:** `closest_star` gives nothing, and fails when asked for the index. -/
theorem C75_sky_violated {kd : KDTree} {c : Cluster} (hu : c.units = some .radec) (ho : c.origin = some .sky) (pr : Option Bool) :
    closestStarMethod kd pr false c = .ok (none, none) ∧ closestStarMethod kd pr true c = .error .typeError := by
  simp [closestStarMethod, closestStar, hu, ho]

/-- **C75 is violated for coincident stars:** if the tree answers equally at equal points, one of two stars at the same place is
called its own closest star, whenever no third star is there. -/
theorem C75_coincident_violated {kd : KDTree} (hk : IsKD kd)
    (hd : ∀ pts k i j, i < pts.length → j < pts.length → pts[i]! = pts[j]! → (kd pts k)[i]! = (kd pts k)[j]!)
    {pr : Bool} {c : Cluster} (hu : c.units ≠ some .radec) {i j : ℕ} (hi : i < c.st.length) (hj : j < c.st.length) (hij : i ≠ j)
    (he : (columnStack pr c.st)[i]! = (columnStack pr c.st)[j]!)
    (ho : ∀ k < c.st.length, k ≠ i → k ≠ j → 0 < dist3 (columnStack pr c.st)[i]! (columnStack pr c.st)[k]!) :
    ∃ d a, closestStar kd pr c = some (d, a) ∧ (a[i]! = i ∨ a[j]! = j) := by
  have hcl := columnStack_length pr c.st
  have hn : 2 ≤ c.st.length := by omega
  have hlen := hk.len (columnStack pr c.st) 2 (by norm_num) (by rw [hcl]; exact hn)
  rw [hcl] at hlen
  refine ⟨(kd (columnStack pr c.st) 2).map (fun l => (l[1]!).1), (kd (columnStack pr c.st) 2).map (fun l => (l[1]!).2), ?_, ?_⟩
  · unfold closestStar
    rw [if_neg]
    rintro ⟨h, -⟩
    exact hu h
  have hi' : i < (kd (columnStack pr c.st) 2).length := by rw [hlen]; exact hi
  have hj' : j < (kd (columnStack pr c.st) 2).length := by rw [hlen]; exact hj
  have hrow := hk.row (columnStack pr c.st) 2 (by norm_num) (by rw [hcl]; exact hn) i (by rw [hcl]; exact hi)
  have hsame := hd (columnStack pr c.st) 2 i j (by rw [hcl]; exact hi) (by rw [hcl]; exact hj) he
  rw [getElem!_pos ((kd (columnStack pr c.st) 2).map _) i (by simpa using hi'),
    getElem!_pos ((kd (columnStack pr c.st) 2).map _) j (by simpa using hj'), List.getElem_map, List.getElem_map,
    ← getElem!_pos (kd (columnStack pr c.st) 2) i hi', ← getElem!_pos (kd (columnStack pr c.st) 2) j hj', ← hsame]
  obtain ⟨L, hL⟩ : ∃ L, L = (kd (columnStack pr c.st) 2)[i]! := ⟨_, rfl⟩
  rw [← hL] at hrow ⊢
  match L, hrow with
  | [a, b], hrow =>
    show b.2 = i ∨ b.2 = j
    have hne : a.2 ≠ b.2 := by
      have := hrow.nodup
      simpa using this
    have ib := hrow.index b (by simp)
    rw [hcl] at ib
    have db := hrow.dist b (by simp)
    by_contra hx
    push Not at hx
    have h0 := ho b.2 ib hx.1 hx.2
    rw [← db] at h0
    -- one of the two is not in the list, and is at distance zero
    have : ∃ q < c.st.length, q ≠ a.2 ∧ q ≠ b.2 ∧ dist3 (columnStack pr c.st)[i]! (columnStack pr c.st)[q]! = 0 := by
      by_cases h1 : i = a.2
      · exact ⟨j, hj, by rw [← h1]; exact hij.symm, hx.2.symm, by rw [← he, dist3_self]⟩
      · exact ⟨i, hi, h1, hx.1.symm, dist3_self _⟩
    obtain ⟨q, hq, q1, q2, q3⟩ := this
    have := hrow.others q (by rw [hcl]; exact hq) (by simp [q1, q2]) b (by simp)
    rw [q3] at this
    linarith
  | [], hrow => exact absurd hrow.size (by simp)
  | [a], hrow => exact absurd hrow.size (by simp)
  | a :: b :: e :: l, hrow => exact absurd hrow.size (by simp)

end

end CT
