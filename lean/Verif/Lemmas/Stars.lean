import Verif.Spec.Stars
import Verif.Lemmas.Total
import Mathlib.Tactic.Linarith

namespace CT

noncomputable section

set_option linter.unusedSimpArgs false

theorem Val.expand_eq {α : Type} [Inhabited α] {v : Val α} {n : ℕ} (h : v.fits n) :
    v.expand n = (List.range n).map v.at := by
  cases v with
  | scalar a =>
    simp only [Val.expand]
    refine List.ext_getElem (by simp) fun i h1 h2 => by simp [Val.at]
  | arr l =>
    simp only [Val.fits] at h
    subst h
    refine List.ext_getElem (by simp [Val.expand]) fun i h1 h2 => ?_
    simp only [Val.expand] at h1
    simp [Val.expand, Val.at, getElem!_pos l i h1]

theorem Val.expand_length {α : Type} [Inhabited α] {v : Val α} {n : ℕ} (h : v.fits n) : (v.expand n).length = n := by
  rw [Val.expand_eq h]; simp

theorem Val.count_le {α : Type} {v : Val α} {n : ℕ} (h : v.fits n) (hn : 1 ≤ n) : v.count ≤ n := by
  cases v with
  | scalar a => exact hn
  | arr l => exact le_of_eq h

theorem Val.count_arr {α : Type} {v : Val α} {n : ℕ} (h : v.fits n) (ha : v.isArr) : v.count = n := by
  cases v with
  | scalar a => exact ha.elim
  | arr l => exact h

theorem Val.count_pos {α : Type} {v : Val α} {n : ℕ} (h : v.fits n) (hn : 1 ≤ n) : 1 ≤ v.count := by
  cases v with
  | scalar a => exact le_refl _
  | arr l =>
    have : l.length = n := h
    show 1 ≤ l.length
    omega

theorem foldl_max_le {l : List ℕ} {a n : ℕ} (ha : a ≤ n) (h : ∀ x ∈ l, x ≤ n) : l.foldl max a ≤ n := by
  induction l generalizing a with
  | nil => exact ha
  | cons b l ih => exact ih (by simp [ha, h b]) (fun x hx => h x (by simp [hx]))

theorem le_foldl_max {l : List ℕ} {a x : ℕ} (h : x ∈ l ∨ x ≤ a) : x ≤ l.foldl max a := by
  induction l generalizing a with
  | nil => simpa using h
  | cons b l ih =>
    refine ih ?_
    rcases h with h | h
    · rcases List.mem_cons.mp h with rfl | h
      · right; exact le_max_right _ _
      · left; exact h
    · right; exact h.trans (le_max_left _ _)

theorem StarArgs.Fits.npmax {a : StarArgs} {n : ℕ} (f : a.Fits n) : a.npmax = n := by
  refine le_antisymm ?_ ?_
  · refine foldl_max_le (Nat.zero_le _) ?_
    have opt : ∀ {α : Type} (o : Option (Val α)), (∀ v, o = some v → v.fits n) → (o.map Val.count).getD 0 ≤ n := by
      intro α o h
      cases o with
      | none => simp
      | some v => exact Val.count_le (h v rfl) f.pos
    intro y hy
    simp only [List.mem_cons, List.not_mem_nil, or_false] at hy
    rcases hy with rfl | rfl | rfl | rfl | rfl | rfl | rfl | rfl | rfl | rfl
    · exact Val.count_le f.x f.pos
    · exact Val.count_le f.y f.pos
    · exact Val.count_le f.z f.pos
    · exact Val.count_le f.vx f.pos
    · exact Val.count_le f.vy f.pos
    · exact Val.count_le f.vz f.pos
    · exact opt _ f.m
    · exact opt _ f.id
    · exact opt _ f.m0
    · exact opt _ f.npop
  · have k : ∀ k ∈ [a.x.count, a.y.count, a.z.count, a.vx.count, a.vy.count, a.vz.count,
        (a.m.map Val.count).getD 0, (a.id.map Val.count).getD 0, (a.m0.map Val.count).getD 0,
        (a.npop.map Val.count).getD 0], k ≤ a.npmax := fun k hk => le_foldl_max (.inl hk)
    simp only [List.mem_cons, List.not_mem_nil, or_false, forall_eq_or_imp, forall_eq] at k
    obtain ⟨k1, k2, k3, k4, k5, k6, k7, k8, k9, k10⟩ := k
    rcases f.arr with h | h | h | h | h | h | h | ⟨v, e, h⟩ | ⟨v, e, h⟩ | ⟨v, e, h⟩ | ⟨v, e, h⟩
    · have := Val.count_pos f.x f.pos
      omega
    · rwa [Val.count_arr f.x h] at k1
    · rwa [Val.count_arr f.y h] at k2
    · rwa [Val.count_arr f.z h] at k3
    · rwa [Val.count_arr f.vx h] at k4
    · rwa [Val.count_arr f.vy h] at k5
    · rwa [Val.count_arr f.vz h] at k6
    · rw [e] at k7; exact (Val.count_arr (f.m v e) h) ▸ k7
    · rw [e] at k8; exact (Val.count_arr (f.id v e) h) ▸ k8
    · rw [e] at k9; exact (Val.count_arr (f.m0 v e) h) ▸ k9
    · rw [e] at k10; exact (Val.count_arr (f.npop v e) h) ▸ k10

/-! ### The length check -/

theorem foldl_const (f : ℕ → ℕ → ℕ) {n : ℕ} (hf : f n n = n) {l : List ℕ} (h : ∀ x ∈ l, x = n) :
    l.foldl f n = n := by
  induction l with
  | nil => rfl
  | cons b l ih =>
    rw [List.foldl_cons, h b (by simp), hf]
    exact ih (fun x hx => h x (by simp [hx]))

theorem Aligned.fix {t : Tab} {n : ℕ} (al : Aligned t n) : fixLengths t = t := by
  have e : t.lens = List.replicate 10 n := by
    simp [Tab.lens, al.x, al.y, al.z, al.vx, al.vy, al.vz, al.m, al.m0, al.npop, al.id, List.replicate]
  have hmax : t.lens.foldl max 0 = n := by
    rw [e]; simp [List.replicate]
  have hmin : t.lens.foldl min n = n := by
    rw [e]; simp [List.replicate]
  unfold fixLengths
  simp only [hmax, hmin, ne_eq, not_true_eq_false, if_false]

/-! ### One call -/

/-- What a column gets from an optional argument. -/
theorem opt_col {α : Type} [Inhabited α] {n : ℕ} {o : Option (Val α)} (h : ∀ v, o = some v → v.fits n) (d : α) :
    ((o.map (Val.expand n)).map (List.drop 0)).getD (List.replicate n d) =
      (List.range n).map (fun i => (o.map (·.at i)).getD d) := by
  cases o with
  | none =>
    refine List.ext_getElem (by simp) fun i h1 h2 => by simp
  | some v =>
    simp only [Option.map_some, List.drop_zero, Option.getD_some]
    rw [Val.expand_eq (h v rfl)]

/-- The ids a call gives to its `n` stars when the cluster already has the ids `ids` and `nb` binaries. -/
def StarArgs.ids (a : StarArgs) (n : ℕ) (ids : List ℤ) (nb : ℕ) : List ℤ :=
  match a.id with
  | some v => (List.range n).map v.at
  | none => (List.range n).map (fun (i : ℕ) => idStart ids (decide (0 < nb)) + (i : ℤ))

/-- The columns after a call without binaries and without analysis. -/
def appended (a : StarArgs) (n : ℕ) (t : Tab) : Tab :=
  { t with
    x := t.x ++ (List.range n).map a.x.at, y := t.y ++ (List.range n).map a.y.at
    z := t.z ++ (List.range n).map a.z.at, vx := t.vx ++ (List.range n).map a.vx.at
    vy := t.vy ++ (List.range n).map a.vy.at, vz := t.vz ++ (List.range n).map a.vz.at
    m := t.m ++ (List.range n).map (fun i => (a.m.map (·.at i)).getD 1)
    m0 := t.m0 ++ (List.range n).map (fun i => (a.m0.map (·.at i)).getD 0)
    npop := t.npop ++ (List.range n).map (fun i => (a.npop.map (·.at i)).getD 1)
    id := t.id ++ a.ids n t.id t.nb }

theorem addSingles_eq {a : StarArgs} {n : ℕ} (f : a.Fits n) (t : Tab) :
    addSingles 0 a.expand t = appended a n t := by
  have hl : ((a.x.expand n).drop 0).length = n := Val.expand_length f.x
  have e1 := opt_col f.m (1 : ℝ)
  have e2 := opt_col f.m0 (0 : ℝ)
  have e3 := opt_col f.npop (1 : ℤ)
  unfold addSingles StarArgs.expand appended
  simp only [f.npmax, hl]
  simp only [e1, e2, e3]
  simp only [List.drop_zero]
  rw [Val.expand_eq f.x, Val.expand_eq f.y, Val.expand_eq f.z, Val.expand_eq f.vx, Val.expand_eq f.vy,
    Val.expand_eq f.vz]
  congr 1
  unfold StarArgs.ids
  cases h : a.id with
  | none => rfl
  | some v => simp only [Option.map_some, Option.getD_some, List.drop_zero]; rw [Val.expand_eq (f.id v h)]

theorem StarArgs.ids_none {a : StarArgs} (h : a.id = none) (n : ℕ) (ids : List ℤ) (nb : ℕ) :
    a.ids n ids nb = (List.range n).map (fun (i : ℕ) => idStart ids (decide (0 < nb)) + (i : ℤ)) := by
  unfold StarArgs.ids; rw [h]

theorem StarArgs.ids_length (a : StarArgs) (n : ℕ) (ids : List ℤ) (nb : ℕ) : (a.ids n ids nb).length = n := by
  unfold StarArgs.ids
  split <;> simp

theorem Aligned.appended {a : StarArgs} {n k : ℕ} {t : Tab} (al : Aligned t k) : Aligned (appended a n t) (k + n) := by
  constructor <;> simp [CT.appended, al.x, al.y, al.z, al.vx, al.vy, al.vz, al.m, al.m0, al.npop, al.id,
    StarArgs.ids_length]

end

end CT
