/- C18: adding stars to a cluster. -/
import Verif.Lemmas.Stars
import Verif.Spec.Demo
import Verif.Lemmas.Frame
import Mathlib.Tactic.IntervalCases

namespace CT

noncomputable section

set_option linter.unusedSimpArgs false

/-! ### Small facts -/

theorem le_amaxZ {l : List ℤ} {i : ℤ} (h : i ∈ l) : i ≤ amaxZ l := by
  have key : ∀ (l : List ℤ) (a : ℤ), (i ∈ l ∨ i ≤ a) → i ≤ l.foldl max a := by
    intro l
    induction l with
    | nil => intro a h; simpa using h
    | cons b l ih =>
      intro a h
      refine ih _ ?_
      rcases h with h | h
      · rcases List.mem_cons.mp h with rfl | h
        · right; exact le_max_right _ _
        · left; exact h
      · right; exact h.trans (le_max_left _ _)
  exact key l _ (.inl h)

theorem lt_idStart {ids : List ℤ} {b : Bool} {i : ℤ} (h : i ∈ ids) : i < idStart ids b := by
  have hne : ids ≠ [] := List.ne_nil_of_mem h
  have := le_amaxZ h
  unfold idStart
  rw [if_pos hne]
  split <;> omega

theorem analyzeTab_cols {sort : Bool} {t t' : Tab} (h : analyzeTab sort t = .ok t') :
    ∃ b, t' = { t with base := b } := by
  unfold analyzeTab at h
  split at h
  · simp [throw, throwThe, MonadExceptOf.throw, bind, Except.bind] at h
  · simp only [pure, Except.pure, bind, Except.bind] at h
    split at h
    · simp at h
    · rename_i b hb
      exact ⟨b, (Except.ok.inj h).symm⟩

/-- The columns, counters and derived data after a call without binaries. -/
theorem addStars_cols {a : StarArgs} {n k : ℕ} {sort an : Bool} {t t' : Tab} (f : a.Fits n) (al : Aligned t k)
    (h : addStars a 0 sort an t = .ok t') :
    ∃ b, t' = { appended a n t with base := b, ntot := k + n, ns := ((k + n : ℕ) : ℤ) - t.nb } := by
  have hx : (appended a n t).x.length = k + n := al.appended.x
  unfold addStars at h
  simp only [Nat.lt_irrefl, if_false, bind, Except.bind, Nat.mul_zero, addSingles_eq f, (al.appended (a := a) (n := n)).fix] at h
  obtain ⟨s, hs⟩ : ∃ s, addSkyCols a.expand (appended a n t) = { appended a n t with base := s } := by
    unfold addSkyCols
    split
    · exact ⟨_, rfl⟩
    · exact ⟨_, rfl⟩
  rw [hs] at h
  have hnb : (appended a n t).nb = t.nb := rfl
  cases an with
  | false =>
    simp only [Bool.false_eq_true, if_false, pure, Except.pure] at h
    refine ⟨s, ?_⟩
    rw [← Except.ok.inj h]
    simp only [hx, hnb]
  | true =>
    simp only [if_true] at h
    split at h
    · simp at h
    · rename_i u hu
      obtain ⟨b, rfl⟩ := analyzeTab_cols hu
      refine ⟨b, ?_⟩
      simp only [pure, Except.pure, Except.ok.injEq] at h
      rw [← h]
      simp only [hx, hnb]

/-! ### C18: one call -/

theorem get!_append_left {α : Type} [Inhabited α] {l r : List α} {i : ℕ} (h : i < l.length) : (l ++ r)[i]! = l[i]! := by
  rw [getElem!_pos (l ++ r) i (by simp; omega), getElem!_pos l i h, List.getElem_append_left h]

theorem get!_append_right {α : Type} [Inhabited α] {l r : List α} {k i : ℕ} (hk : l.length = k) :
    (l ++ r)[k + i]! = r[i]! := by
  subst hk
  by_cases h : i < r.length
  · rw [getElem!_pos (l ++ r) _ (by simp; omega), getElem!_pos r i h, List.getElem_append_right (by omega)]
    congr 1; omega
  · rw [getElem!_neg (l ++ r) _ (by simp; omega), getElem!_neg r _ h]

theorem get!_range_map {α : Type} [Inhabited α] {f : ℕ → α} {n i : ℕ} (h : i < n) :
    ((List.range n).map f)[i]! = f i := by
  rw [getElem!_pos _ i (by simpa using h)]; simp

/-- **C18 (one call).**  A well-formed call of `add_stars` that adds `n` stars to a cluster of `k` stars gives a
cluster whose every per-star array has `k + n` entries and whose `ntot` is `k + n`; the old stars and their ids are
unchanged, the new stars are the given ones in the given order; given ids are used as they are, and generated ids
are different from each other and from every id present. -/
theorem C18_add_stars {a : StarArgs} {n k : ℕ} {sort an : Bool} {t t' : Tab} (f : a.Fits n) (al : Aligned t k)
    (h : addStars a 0 sort an t = .ok t') :
    Aligned t' (k + n) ∧ t'.ntot = k + n ∧ t'.ns = ((k + n : ℕ) : ℤ) - t.nb ∧
      (∀ i < k, t'.star i = t.star i ∧ t'.id[i]! = t.id[i]!) ∧
      (∀ i < n, t'.star (k + i) = a.star i) ∧
      (∀ v, a.id = some v → ∀ i < n, t'.id[k + i]! = v.at i) ∧
      (a.id = none → ∀ i < n, t'.id[k + i]! ∉ t.id ∧ ∀ j < n, t'.id[k + i]! = t'.id[k + j]! → i = j) := by
  obtain ⟨b, rfl⟩ := addStars_cols f al h
  have al' : Aligned (appended a n t) (k + n) := al.appended
  refine ⟨⟨al'.x, al'.y, al'.z, al'.vx, al'.vy, al'.vz, al'.m, al'.m0, al'.npop, al'.id⟩, rfl, rfl, ?_, ?_, ?_, ?_⟩
  · intro i hi
    refine ⟨?_, ?_⟩
    · simp only [Tab.star, appended]
      congr 1 <;> refine get!_append_left ?_
      · rw [al.x]; exact hi
      · rw [al.y]; exact hi
      · rw [al.z]; exact hi
      · rw [al.vx]; exact hi
      · rw [al.vy]; exact hi
      · rw [al.vz]; exact hi
      · rw [al.m]; exact hi
      · rw [al.m0]; exact hi
      · rw [al.npop]; exact hi
    · exact get!_append_left (by rw [al.id]; exact hi)
  · intro i hi
    simp only [Tab.star, appended, StarArgs.star]
    rw [get!_append_right al.x, get!_append_right al.y, get!_append_right al.z, get!_append_right al.vx,
      get!_append_right al.vy, get!_append_right al.vz, get!_append_right al.m, get!_append_right al.m0,
      get!_append_right al.npop]
    simp only [get!_range_map hi]
  · intro v hv i hi
    show (t.id ++ a.ids n t.id t.nb)[k + i]! = v.at i
    rw [get!_append_right al.id]
    simp only [StarArgs.ids, hv, get!_range_map hi]
  · intro hn i hi
    have e : ∀ j < n, (t.id ++ a.ids n t.id t.nb)[k + j]! = idStart t.id (decide (0 < t.nb)) + (j : ℤ) := by
      intro j hj
      rw [get!_append_right al.id]
      simp only [StarArgs.ids, hn, get!_range_map hj]
    refine ⟨?_, ?_⟩
    · show (t.id ++ a.ids n t.id t.nb)[k + i]! ∉ t.id
      rw [e i hi]
      intro hm
      have := lt_idStart (b := decide (0 < t.nb)) hm
      omega
    · intro j hj hij
      have hij' : (t.id ++ a.ids n t.id t.nb)[k + i]! = (t.id ++ a.ids n t.id t.nb)[k + j]! := hij
      rw [e i hi, e j hj] at hij'
      omega

/-- Without `analyze` every well-formed call succeeds. -/
theorem C65_total {a : StarArgs} {sort : Bool} {t : Tab} : ∃ t', addStars a 0 sort false t = .ok t' := by
  unfold addStars
  simp only [Nat.lt_irrefl, if_false, Bool.false_eq_true, bind, Except.bind, pure, Except.pure]
  exact ⟨_, rfl⟩

theorem rowsOf_length {n : ℕ} : ∀ {x y z vx vy vz : List ℝ}, x.length = n → y.length = n → z.length = n →
    vx.length = n → vy.length = n → vz.length = n → (rowsOf x y z vx vy vz).length = n := by
  induction n with
  | zero =>
    intro x y z vx vy vz h1 h2 h3 h4 h5 h6
    simp only [List.length_eq_zero_iff] at h1 h2 h3 h4 h5 h6
    subst h1 h2 h3 h4 h5 h6
    rfl
  | succ n ih =>
    intro x y z vx vy vz h1 h2 h3 h4 h5 h6
    match x, y, z, vx, vy, vz with
    | a :: x, b :: y, c :: z, d :: vx, e :: vy, f :: vz =>
      simp only [List.length_cons, Nat.add_right_cancel_iff] at h1 h2 h3 h4 h5 h6
      simp only [rowsOf, List.length_cons, ih h1 h2 h3 h4 h5 h6]

/-- Orders of the wrong length are replaced. -/
theorem sortstars_stale {r rp : List ℝ} {c : Cluster} (ho : ∀ o, c.rorder = some o → r.length ≠ o.length)
    (hp : ∀ o, c.rproorder = some o → rp.length ≠ o.length) :
    sortstars true r rp c = sortstars true r rp { c with rorder := none, rproorder := none } := by
  unfold sortstars
  cases e1 : c.rorder with
  | none =>
    cases e2 : c.rproorder with
    | none => simp [e1, e2]
    | some o2 => simp [e1, e2, hp o2 e2]
  | some o1 =>
    cases e2 : c.rproorder with
    | none => simp [e1, e2, ho o1 e1]
    | some o2 => simp [e1, e2, ho o1 e1, hp o2 e2]

theorem analyze_stale {c : Cluster} (ho : ∀ o, c.rorder = some o → c.st.length ≠ o.length)
    (hp : ∀ o, c.rproorder = some o → c.st.length ≠ o.length) :
    analyze true c = analyze true { c with rorder := none, rproorder := none } := by
  unfold analyze
  simp only [if_true]
  rw [sortstars_stale (c := c) (r := c.st.map Ph.r) (rp := c.st.map Ph.rpro) (by simpa using ho) (by simpa using hp)]

/-- With the default `analyze=True` and `sortstars=True` a well-formed call with a non-negative total mass succeeds,
whatever orders earlier calls stored for the old stars. -/
theorem C65_total_sorted {a : StarArgs} {n k : ℕ} {t : Tab} (f : a.Fits n) (al : Aligned t k)
    (ho : ∀ o, t.base.rorder = some o → o.length = k) (hp : ∀ o, t.base.rproorder = some o → o.length = k)
    (hm : 0 ≤ t.m.sum + ((List.range n).map (fun i => (a.star i).m)).sum) :
    ∃ t', addStars a 0 true true t = .ok t' ∧ t'.m.sum = t.m.sum + ((List.range n).map (fun i => (a.star i).m)).sum ∧
      (∀ o, t'.base.rorder = some o → IsOrder (k + n) o) ∧ (∀ o, t'.base.rproorder = some o → IsOrder (k + n) o) := by
  have al' : Aligned (appended a n t) (k + n) := al.appended
  unfold addStars
  simp only [Nat.lt_irrefl, if_false, bind, Except.bind, Nat.mul_zero, addSingles_eq f,
    (al.appended (a := a) (n := n)).fix, if_true]
  obtain ⟨s, hs, hr, hrp⟩ : ∃ s, addSkyCols a.expand (appended a n t) = { appended a n t with base := s } ∧
      s.rorder = t.base.rorder ∧ s.rproorder = t.base.rproorder := by
    unfold addSkyCols
    split
    · exact ⟨_, rfl, rfl, rfl⟩
    · exact ⟨_, rfl, rfl, rfl⟩
  rw [hs]
  obtain ⟨rows, hrows⟩ : ∃ rows, rows = rowsOf (appended a n t).x (appended a n t).y (appended a n t).z
    (appended a n t).vx (appended a n t).vy (appended a n t).vz := ⟨_, rfl⟩
  have hlen : rows.length = k + n := by
    rw [hrows]; exact rowsOf_length al'.x al'.y al'.z al'.vx al'.vy al'.vz
  have hn := f.pos
  obtain ⟨b, hb, gb, hbst⟩ : ∃ b, analyze true { s with st := rows, m := (appended a n t).m } = .ok b ∧ Good b ∧
      b.st = rows := by
    rw [analyze_stale]
    · have g : Good { s with st := rows, m := (appended a n t).m, rorder := none, rproorder := none } :=
        { ne := by
            intro h
            have h' : rows = [] := h
            rw [h'] at hlen
            simp at hlen; omega
          len := by show (appended a n t).m.length = rows.length; rw [hlen, al'.m]
          mass := by
            show 0 ≤ (t.m ++ _).sum
            rw [List.sum_append]
            exact hm
          ro := by intro o h; cases h
          rpo := by intro o h; cases h }
      obtain ⟨b, hb, gb⟩ := analyze_total (s := true) (p := true) g
      exact ⟨b, hb, gb, (analyze_same hb).2.1⟩
    · intro o h
      have : o.length = k := ho o (by rw [← hr]; exact h)
      show rows.length ≠ _
      omega
    · intro o h
      have : o.length = k := hp o (by rw [← hrp]; exact h)
      show rows.length ≠ _
      omega
  have e : analyzeTab true { appended a n t with base := s } = .ok { appended a n t with base := b } := by
    unfold analyzeTab
    have hc : ¬((appended a n t).x.length ≠ (appended a n t).y.length ∨
        (appended a n t).x.length ≠ (appended a n t).z.length ∨
        (appended a n t).x.length ≠ (appended a n t).vx.length ∨
        (appended a n t).x.length ≠ (appended a n t).vy.length ∨
        (appended a n t).x.length ≠ (appended a n t).vz.length) := by
      rw [al'.x, al'.y, al'.z, al'.vx, al'.vy, al'.vz]; simp
    simp only [hc, if_false]
    rw [← hrows, hb]
    rfl
  rw [e]
  refine ⟨_, rfl, ?_, ?_, ?_⟩
  · show (t.m ++ _).sum = _
    rw [List.sum_append]
    rfl
  · intro o ho
    have := gb.ro o ho
    rwa [hbst, hlen] at this
  · intro o ho
    have := gb.rpo o ho
    rwa [hbst, hlen] at this

/-! ### C18: every sequence of calls -/

/-- The stars of a cluster with `k` stars, in order. -/
def Tab.stars (t : Tab) (k : ℕ) : List Star := (List.range k).map t.star

theorem Tab.stars_split {t t' : Tab} {k n : ℕ} {f : ℕ → Star} (h1 : ∀ i < k, t'.star i = t.star i)
    (h2 : ∀ i < n, t'.star (k + i) = f i) : t'.stars (k + n) = t.stars k ++ (List.range n).map f := by
  unfold Tab.stars
  rw [List.range_add, List.map_append]
  congr 1
  · exact List.map_congr_left fun i hi => h1 i (List.mem_range.mp hi)
  · rw [List.map_map]
    exact List.map_congr_left fun i hi => h2 i (List.mem_range.mp hi)

/-- **C18 (every sequence of calls).**  After any sequence of well-formed `add_stars` calls, adding `n₁, n₂, …` stars
to a cluster of `k` stars: every per-star array has `k + n₁ + n₂ + …` entries; the stars are the original ones
followed by those of the calls, in the order given. -/
theorem C18_histories (calls : List ((StarArgs × Bool × Bool) × ℕ)) {k : ℕ} {t t' : Tab}
    (f : ∀ c ∈ calls, c.1.1.Fits c.2) (al : Aligned t k) (h : addMany (calls.map Prod.fst) t = .ok t') :
    Aligned t' (k + (calls.map Prod.snd).sum) ∧
      t'.stars (k + (calls.map Prod.snd).sum) =
        t.stars k ++ calls.flatMap (fun c => (List.range c.2).map c.1.1.star) ∧
      (calls ≠ [] → t'.ntot = k + (calls.map Prod.snd).sum) ∧
      t.id <+: t'.id := by
  induction calls generalizing t k with
  | nil =>
    simp only [List.map_nil, addMany, Except.ok.injEq] at h
    subst h
    refine ⟨by simpa using al, by simp, by simp, List.prefix_refl _⟩
  | cons c calls ih =>
    obtain ⟨⟨a, sort, an⟩, n⟩ := c
    simp only [List.map_cons, addMany] at h
    obtain ⟨t1, h1, h2⟩ : ∃ t1, addStars a 0 sort an t = .ok t1 ∧ addMany (calls.map Prod.fst) t1 = .ok t' := by
      cases e : addStars a 0 sort an t with
      | error x => rw [e] at h; simp [Except.bind] at h
      | ok t1 => rw [e] at h; exact ⟨t1, rfl, h⟩
    have hf : a.Fits n := f _ (List.mem_cons_self ..)
    obtain ⟨al1, n1, -, o1, s1, -, -⟩ := C18_add_stars hf al h1
    obtain ⟨al2, st2, n2, id2⟩ := ih (fun c hc => f c (by simp [hc])) al1 h2
    have hsum : k + ((((a, sort, an), n) :: calls).map Prod.snd).sum = (k + n) + (calls.map Prod.snd).sum := by
      simp only [List.map_cons, List.sum_cons]; omega
    rw [hsum]
    refine ⟨al2, ?_, ?_, ?_⟩
    · rw [st2, Tab.stars_split (fun i hi => (o1 i hi).1) s1]
      simp [List.flatMap_cons]
    · intro _
      by_cases hc : calls = []
      · subst hc
        simp only [List.map_nil, addMany, Except.ok.injEq] at h2
        subst h2
        simpa using n1
      · exact n2 hc
    · refine List.IsPrefix.trans ?_ id2
      obtain ⟨b, rfl⟩ := addStars_cols hf al h1
      exact List.prefix_append _ _

/-- **C65 (no failure).**  Any sequence of well-formed calls with `sortstars=True` and non-negative masses succeeds. -/
theorem C65_total_histories (calls : List (StarArgs × ℕ)) {k : ℕ} {t : Tab}
    (f : ∀ c ∈ calls, c.1.Fits c.2 ∧ ∀ i < c.2, 0 ≤ (c.1.star i).m) (al : Aligned t k)
    (ho : ∀ o, t.base.rorder = some o → o.length = k) (hp : ∀ o, t.base.rproorder = some o → o.length = k)
    (hm : 0 ≤ t.m.sum) : ∃ t', addMany (calls.map (fun c => (c.1, true, true))) t = .ok t' := by
  induction calls generalizing t k with
  | nil => exact ⟨t, rfl⟩
  | cons c calls ih =>
    obtain ⟨a, n⟩ := c
    obtain ⟨hf, hpos⟩ := f _ (List.mem_cons_self ..)
    have h0 : 0 ≤ ((List.range n).map (fun i => (a.star i).m)).sum := by
      refine List.sum_nonneg ?_
      intro x hx
      obtain ⟨i, hi, rfl⟩ := List.mem_map.mp hx
      exact hpos i (List.mem_range.mp hi)
    obtain ⟨t1, h1, m1, o1, p1⟩ := C65_total_sorted hf al ho hp (by linarith)
    obtain ⟨al1, -⟩ := C18_add_stars hf al h1
    obtain ⟨t2, h2⟩ := ih (fun c hc => f c (by simp [hc])) al1
      (fun o h => by simpa using (o1 o h).length_eq) (fun o h => by simpa using (p1 o h).length_eq) (by rw [m1]; linarith)
    refine ⟨t2, ?_⟩
    simp only [List.map_cons, addMany, h1]
    exact h2

/-- **C18 (ids).**  If every call lets the code generate the ids, then no two stars ever have the same id. -/
theorem C18_ids (calls : List ((StarArgs × Bool × Bool) × ℕ)) {k : ℕ} {t t' : Tab}
    (f : ∀ c ∈ calls, c.1.1.Fits c.2 ∧ c.1.1.id = none) (al : Aligned t k) (nd : t.id.Nodup)
    (h : addMany (calls.map Prod.fst) t = .ok t') : t'.id.Nodup := by
  induction calls generalizing t k with
  | nil =>
    simp only [List.map_nil, addMany, Except.ok.injEq] at h
    subst h
    exact nd
  | cons c calls ih =>
    obtain ⟨⟨a, sort, an⟩, n⟩ := c
    simp only [List.map_cons, addMany] at h
    obtain ⟨t1, h1, h2⟩ : ∃ t1, addStars a 0 sort an t = .ok t1 ∧ addMany (calls.map Prod.fst) t1 = .ok t' := by
      cases e : addStars a 0 sort an t with
      | error x => rw [e] at h; simp [Except.bind] at h
      | ok t1 => rw [e] at h; exact ⟨t1, rfl, h⟩
    obtain ⟨hf, hid⟩ := f _ (List.mem_cons_self ..)
    obtain ⟨al1, -⟩ := C18_add_stars hf al h1
    refine ih (fun c hc => f c (by simp [hc])) al1 ?_ h2
    obtain ⟨b, rfl⟩ := addStars_cols hf al h1
    show (t.id ++ a.ids n t.id t.nb).Nodup
    rw [StarArgs.ids_none hid, List.nodup_append']
    refine ⟨nd, ?_, ?_⟩
    · refine List.Nodup.map ?_ List.nodup_range
      intro i j hij
      simpa using hij
    · intro i hi hj
      obtain ⟨j, -, rfl⟩ := List.mem_map.mp hj
      have := lt_idStart (b := decide (0 < t.nb)) hi
      omega

/-! ### Hypotheses are satisfiable; what fails -/

/-- An empty cluster. -/
def tab0 : Tab :=
  { x := [], y := [], z := [], vx := [], vy := [], vz := [], m := [], m0 := [], npop := [], id := [], b1 := [],
    mb1 := [], b2 := [], mb2 := [], id2 := [], nb := 0, ntot := 0, ns := 0,
    base := { demo with m := [], st := [], rorder := none, rproorder := none } }

/-- Two stars, numbers broadcast. -/
def args2 : StarArgs :=
  { x := .arr [1, 2], y := .scalar 0, z := .arr [0, 5], vx := .scalar 0, vy := .scalar 1, vz := .arr [2, 3],
    m := some (.arr [1, 1]), id := none, m0 := none, npop := none }

/-- One heavy star. -/
def args1 : StarArgs :=
  { x := .scalar 1, y := .scalar 1, z := .scalar 1, vx := .scalar 0, vy := .scalar 1, vz := .scalar 0,
    m := some (.scalar 10), id := none, m0 := none, npop := none }

theorem args2_fits : args2.Fits 2 := by
  constructor <;> simp [args2, Val.fits, Val.isArr]

theorem args1_fits : args1.Fits 1 := by
  constructor <;> simp [args1, Val.fits, Val.isArr]

theorem tab0_aligned : Aligned tab0 0 := by
  constructor <;> rfl

example : ∃ t', addMany [(args2, true, true), (args1, true, true)] tab0 = .ok t' ∧ Aligned t' 3 ∧ t'.ntot = 3 ∧
    t'.stars 3 = [⟨1, 0, 0, 0, 1, 2, 1, 0, 1⟩, ⟨2, 0, 5, 0, 1, 3, 1, 0, 1⟩, ⟨1, 1, 1, 0, 1, 0, 10, 0, 1⟩] ∧
    t'.id.Nodup := by
  have f : ∀ c ∈ [((args2, true, true), 2), ((args1, true, true), 1)], c.1.1.Fits c.2 ∧ c.1.1.id = none := by
    simp only [List.mem_cons, List.not_mem_nil, or_false, forall_eq_or_imp, forall_eq]
    exact ⟨⟨args2_fits, rfl⟩, ⟨args1_fits, rfl⟩⟩
  obtain ⟨t', h⟩ := C65_total_histories [(args2, 2), (args1, 1)] (t := tab0) (k := 0)
    (by
      simp only [List.mem_cons, List.not_mem_nil, or_false, forall_eq_or_imp, forall_eq]
      refine ⟨⟨args2_fits, ?_⟩, ⟨args1_fits, ?_⟩⟩
      · intro i hi
        interval_cases i <;> simp [StarArgs.star, args2, Val.at]
      · intro i hi
        simp [StarArgs.star, args1, Val.at])
    tab0_aligned (fun o h => by cases h) (fun o h => by cases h) (by simp [tab0])
  obtain ⟨al, st, nt, -⟩ := C18_histories [((args2, true, true), 2), ((args1, true, true), 1)] (t := tab0) (k := 0)
    (fun c hc => (f c hc).1) tab0_aligned h
  refine ⟨t', h, al, nt (by simp), ?_, C18_ids _ f tab0_aligned (by simp [tab0]) h⟩
  refine Eq.trans st ?_
  simp [Tab.stars, args2, args1, StarArgs.star, Val.at, List.range_succ]

/-- The cluster after two unit-mass stars were added and sorted. -/
def tab2 : Tab :=
  { tab0 with
    x := [1, 2], y := [0, 0], z := [0, 5], vx := [0, 0], vy := [1, 1], vz := [2, 3], m := [1, 1], m0 := [0, 0]
    npop := [1, 1], id := [0, 1], ntot := 2, ns := 2
    base := { demo with m := [1, 1], st := [⟨1, 0, 0, 0, 1, 2⟩, ⟨2, 0, 5, 0, 1, 3⟩], rorder := some [0, 1],
                        rproorder := some [0, 1] } }

/-- With the default `sortstars=False` the claim that a well-formed call succeeds is false: the stored order of the two
old stars is applied to the masses of the three stars, half of the mass is never reached and the call raises
`IndexError` (after having appended the columns, so that `ntot` is stale). -/
theorem C65_unsorted_violated : Aligned tab2 2 ∧ args1.Fits 1 ∧
    addStars args1 0 false true tab2 = .error .indexError := by
  refine ⟨by constructor <;> rfl, args1_fits, ?_⟩
  have al : Aligned tab2 2 := by constructor <;> rfl
  have al' : Aligned (appended args1 1 tab2) 3 := al.appended
  unfold addStars
  simp only [Nat.lt_irrefl, if_false, bind, Except.bind, Nat.mul_zero, addSingles_eq args1_fits,
    (al.appended (a := args1) (n := 1)).fix, if_true]
  have hs : addSkyCols args1.expand (appended args1 1 tab2) = appended args1 1 tab2 := by
    unfold addSkyCols
    rw [if_neg]
    simp [appended, tab2, demo]
  rw [hs]
  have : analyzeTab false (appended args1 1 tab2) = .error .indexError := by
    unfold analyzeTab
    rw [al'.x, al'.y, al'.z, al'.vx, al'.vy, al'.vz]
    simp only [ne_eq, not_true_eq_false, or_self, if_false, bind, Except.bind, pure, Except.pure]
    have hm : (appended args1 1 tab2).m = [1, 1, 10] := by simp [appended, tab2, args1, List.range_succ, Val.at]
    have hk : ∀ r, massFracRadius 0.5 12 [1, 1, 10] r [0, 1] = .error .indexError := by
      intro r
      have : (cumsum [1, 1]).findIdx? (fun s => decide (s ≥ 0.5 * 12)) = none := by
        simp only [cumsum, cumsumFrom, List.findIdx?_eq_none_iff, List.mem_cons, List.not_mem_nil, or_false,
          forall_eq_or_imp, forall_eq, decide_eq_false_iff_not]
        norm_num
      simp only [massFracRadius]
      rw [show ([0, 1] : List ℕ).mapM (fun i => ([1, 1, 10] : List ℝ)[i]?) = some [1, 1] from rfl]
      simp only [this]
    have hsum : ([1, 1, 10] : List ℝ).sum = 12 := by norm_num
    have hne : rowsOf (appended args1 1 tab2).x (appended args1 1 tab2).y (appended args1 1 tab2).z
        (appended args1 1 tab2).vx (appended args1 1 tab2).vy (appended args1 1 tab2).vz ≠ [] := by
      intro h
      have := rowsOf_length al'.x al'.y al'.z al'.vx al'.vy al'.vz
      rw [h] at this
      simp at this
    unfold analyze
    simp only [hne, if_false, Bool.false_eq_true, hm, hsum, bind, Except.bind]
    have hr : ∀ r old, massRadii (appended args1 1 tab2).base.rorder 12 [1, 1, 10] r old = .error .indexError := by
      intro r old
      show massRadii (some [0, 1]) 12 [1, 1, 10] r old = _
      simp only [massRadii, hk, bind, Except.bind]
    rw [hr]
  rw [this]

end

end CT
