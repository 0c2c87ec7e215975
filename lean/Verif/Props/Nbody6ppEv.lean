/- Stellar evolution files of NBODY6++ (C126, C127). -/
import Verif.Spec.Nbody6ppEv
import Verif.Props.Nbody6pp2
import Verif.Props.IO2

namespace CT

noncomputable section

/-! ### the files -/

/-- What is read from a line of bev.82. -/
def PairLine.read (long : Bool) (p : PairLine) : BevRow :=
  { arg1 := p.addr1, arg2 := p.addr2, id1 := p.id1, id2 := p.id2, kw1 := p.kw1, kw2 := p.kw2, kwb := p.kcm, ecc := p.ecc, pb := p.logP
    semi := p.logA, m1 := p.m1, m2 := p.m2, zl1 := if long then p.logL1 else 0, zl2 := if long then p.logL2 else 0
    r1 := if long then p.logR1 else 0, r2 := if long then p.logR2 else 0 }

/-- What is read from a line of sev.83. -/
def SingleLine.read (s : SingleLine) : EvStar := ⟨s.addr, s.kw, (truncZ s.logL : ℝ), s.logR⟩

theorem truncZ_natCast (k : ℕ) : truncZ (k : ℝ) = k := by
  have := truncZ_int (k : ℤ)
  simpa using this

theorem bevRow_nums (long : Bool) (p : PairLine) : bevRow long p.nums = p.read long := by
  simp [bevRow, PairLine.nums, PairLine.read, truncZ_int, truncZ_natCast]

theorem sevRow_nums (s : SingleLine) : sevRow s.nums = s.read := by
  simp [sevRow, SingleLine.nums, SingleLine.read, truncZ_int, truncZ_natCast]

theorem loadtxt_nums {α : Type} {w : ℕ} {l : List α} {φ : α → List ℝ} (h : ∀ x ∈ l, (φ x).length = w) (hne : l ≠ []) :
    loadtxt 0 (l.map (fun x => Line.row (φ x))) = .ok ⟨l.map φ, w⟩ := by
  refine loadtxt_table ⟨[], rfl, by simp [Function.comp_def], ?_⟩ (by simpa using hne)
  intro r hr
  obtain ⟨x, hx, rfl⟩ := List.mem_map.mp hr
  exact h x hx

theorem readBev_file (ps : List PairLine) : readBev (bevFile ps) = .ok (ps.map (PairLine.read (decide (14 ≤ ps.length)))) := by
  by_cases h : ps = []
  · subst h
    rfl
  have hl : loadtxt 0 (bevFile ps).body = .ok ⟨ps.map PairLine.nums, 20⟩ :=
    loadtxt_nums (fun p _ => rfl) h
  have h0 : 0 < ps.length := List.length_pos_iff.mpr h
  have hc : (0 : ℤ) < (bevFile ps).count := by
    show (0 : ℤ) < ps.length
    exact_mod_cast h0
  have ht : bevTable (bevFile ps) = .ok ⟨ps.map PairLine.nums, 20⟩ := by
    unfold bevTable
    simp only [hl, bind, Except.bind]
    rw [if_neg]
    · rfl
    · rintro ⟨a, b⟩
      have : (ps.length : ℤ) = 1 := a
      simp at b
      omega
  unfold readBev
  rw [if_pos hc]
  simp only [ht, bind, Except.bind, List.length_map]
  have hb : bevHas (bevFile ps) ⟨ps.map PairLine.nums, 20⟩ (if 14 ≤ ps.length then 20 else 14) = true := by
    unfold bevHas
    rw [decide_eq_true_iff]
    refine ⟨by split <;> simp, ?_⟩
    by_cases h1 : ps.length = 1
    · left
      show (ps.length : ℤ) = 1
      exact_mod_cast h1
    · right
      simp
      omega
  rw [hb]
  simp only [Bool.not_true, Bool.false_eq_true, if_false, pure, Except.pure, List.map_map]
  congr 1
  apply List.map_congr_left
  intro p _
  exact bevRow_nums _ p

theorem readSev_file {ss : List SingleLine} (h : 2 ≤ ss.length) : readSev (sevFile ss) = .ok (ss.map SingleLine.read) := by
  have hne : ss ≠ [] := by rintro rfl; simp at h
  have hl : loadtxt 0 (sevFile ss).body = .ok ⟨ss.map SingleLine.nums, 9⟩ := loadtxt_nums (fun p _ => rfl) hne
  unfold readSev
  simp only [hl, bind, Except.bind, List.length_map]
  rw [if_neg (by omega)]
  simp only [pure, Except.pure, List.map_map]
  congr 1
  apply List.map_congr_left
  intro p _
  exact sevRow_nums p

/-! ### the arrays -/

theorem setAt_ok {α : Type} (φ : α → ℕ) (ψ : α → ℝ) : ∀ (l : List α) (a : List ℝ), (∀ x ∈ l, φ x < a.length) → (l.map φ).Nodup →
    ∃ a', setAt (l.map (fun x => ((φ x : ℤ), ψ x))) a = .ok a' ∧ a'.length = a.length ∧ (∀ x ∈ l, a'[φ x]! = ψ x) ∧
      ∀ k, (∀ x ∈ l, φ x ≠ k) → a'[k]! = a[k]!
  | [], a, _, _ => ⟨a, rfl, rfl, by simp, fun _ _ => rfl⟩
  | x :: l, a, h, nd => by
    rw [List.map_cons, List.nodup_cons] at nd
    obtain ⟨h1, h2⟩ := nd
    have hx := h x (by simp)
    obtain ⟨a', e1, e2, e3, e4⟩ := setAt_ok φ ψ l (a.set (φ x) (ψ x)) (by
      intro y hy
      rw [List.length_set]
      exact h y (by simp [hy])) h2
    have hnot : ∀ y ∈ l, φ y ≠ φ x := by
      intro y hy he
      exact h1 (he ▸ List.mem_map_of_mem hy)
    refine ⟨a', ?_, by rw [e2, List.length_set], ?_, ?_⟩
    · have hp : pyPos a.length (φ x : ℤ) = .ok (φ x) := by
        unfold pyPos
        rw [if_pos ⟨by positivity, by exact_mod_cast hx⟩]
        simp
      simp only [List.map_cons, setAt, hp, bind, Except.bind]
      exact e1
    · intro y hy
      rcases List.mem_cons.mp hy with rfl | hy
      · rw [e4 _ hnot, getElem!_pos _ _ (by rw [List.length_set]; exact hx), List.getElem_set_self]
      · exact e3 y hy
    · intro k hk
      rw [e4 k (fun y hy => hk y (by simp [hy]))]
      have hkx : φ x ≠ k := hk x (by simp)
      simp only [List.getElem!_eq_getElem?_getD, List.getElem?_set_ne hkx]

/-- One of the arrays handed to `add_sse`. -/
theorem evColumn_ok {α β : Type} {n q : ℕ} {ps : List α} {l : List β} {π : α → ℝ} {ad : β → ℕ} {ψ : β → ℝ} (h2 : 2 * q ≤ n)
    (hp : ps.length = q) (ha : ∀ x ∈ l, 2 * q < ad x ∧ ad x ≤ n) (nd : (l.map ad).Nodup) [Inhabited α] :
    ∃ c, evColumn n q (ps.map π) (l.map (fun x => (ad x : ℤ) - q - 1)) (l.map ψ) = .ok c ∧ c.length = n - q ∧
      (∀ i < q, c[i]! = π ps[i]!) ∧ (∀ x ∈ l, c[ad x - 1 - q]! = ψ x) ∧
      ∀ k, q ≤ k → k < n - q → (∀ x ∈ l, ad x ≠ k + q + 1) → c[k]! = -10 := by
  obtain ⟨a0, h0, l0, f0, g0⟩ : ∃ a0, (if 0 < q then setFirst q (ps.map π) (List.replicate (n - q) (-10 : ℝ)) else
      .ok (List.replicate (n - q) (-10 : ℝ))) = .ok a0 ∧ a0.length = n - q ∧ (∀ i < q, a0[i]! = π ps[i]!) ∧
      ∀ k, q ≤ k → k < n - q → a0[k]! = -10 := by
    by_cases hq : 0 < q
    · refine ⟨ps.map π ++ (List.replicate (n - q) (-10 : ℝ)).drop q, ?_, ?_, ?_, ?_⟩
      · rw [if_pos hq]
        unfold setFirst
        rw [if_pos (by simpa using hp)]
      · simp [hp]
        omega
      · intro i hi
        rw [get!_append_left (by simpa [hp] using hi), get!_map _ _ _ (by omega)]
      · intro k h1 h3
        obtain ⟨j, rfl⟩ : ∃ j, k = q + j := ⟨k - q, by omega⟩
        rw [get!_append_right (by simpa using hp), getElem!_pos _ _ (by simp; omega)]
        simp
    · obtain rfl : q = 0 := by omega
      refine ⟨_, by rw [if_neg hq], by simp, by omega, ?_⟩
      intro k h1 h3
      rw [getElem!_pos _ _ (by simpa using h3)]
      simp
  have hcast : ∀ x ∈ l, ((ad x - 1 - q : ℕ) : ℤ) = (ad x : ℤ) - q - 1 := by
    intro x hx
    have := ha x hx
    omega
  have hinj : (l.map (fun x => ad x - 1 - q)).Nodup := by
    have nl := List.Nodup.of_map _ nd
    rw [List.nodup_map_iff_inj_on nl] at nd ⊢
    intro x hx y hy he
    refine nd x hx y hy ?_
    have := ha x hx
    have := ha y hy
    omega
  obtain ⟨c, e1, e2, e3, e4⟩ := setAt_ok (fun x => ad x - 1 - q) ψ l a0 (by
    intro x hx
    have := ha x hx
    rw [l0]
    omega) hinj
  have hz : (l.map (fun x => (ad x : ℤ) - q - 1)).zip (l.map ψ) = l.map (fun x => (((ad x - 1 - q : ℕ) : ℤ), ψ x)) := by
    rw [List.zip_map', ]
    apply List.map_congr_left
    intro x hx
    rw [hcast x hx]
  refine ⟨c, ?_, by rw [e2, l0], ?_, e3, ?_⟩
  · unfold evColumn
    simp only []
    by_cases hq : 0 < q
    · rw [if_pos hq] at h0 ⊢
      simp only [h0, bind, Except.bind, hz, e1]
    · rw [if_neg hq] at h0 ⊢
      cases h0
      simp only [bind, Except.bind, hz, e1]
  · intro i hi
    rw [e4 i (by
      intro x hx
      have := ha x hx
      omega), f0 i hi]
  · intro k h1 h3 h5
    rw [e4 k (by
      intro x hx
      have := ha x hx
      have := h5 x hx
      omega), g0 k h1 h3]

/-! ### the cluster -/

/-- The data stored for the stars and binaries of a snapshot. -/
structure HasEv (r : PPRec) (q : ℕ) (ps : List PairLine) (ss : List SingleLine) (t : Tab) (e : PPEv) : Prop where
  lenKw : e.kw.length = r.stars.length - q
  lenL : e.logl.length = r.stars.length - q
  lenR : e.logr.length = r.stars.length - q
  /-- a line for a single star goes to the star with its id, position and velocity -/
  single : ∀ s ∈ ss, ∃ i < r.stars.length - q, t.id[i]! = s.id ∧ t.row i = r.row (s.addr - 1) ∧ e.kw[i]! = s.kw ∧ e.logr[i]! = s.logR
  /-- single stars without a line are marked -/
  missing : ∀ i, q ≤ i → i < r.stars.length - q → (∀ s ∈ ss, s.addr ≠ i + q + 1) → e.kw[i]! = -10
  /-- the star that represents a binary has the more evolved type -/
  pair : ∀ i < q, e.kw[i]! = (max (ps.map PairLine.kw1)[i]! (ps.map PairLine.kw2)[i]! : ℤ)
  nb : t.nb = q ∧ t.base.nb = q
  id1 : e.id1 = ps.map PairLine.id1
  id2 : t.id2 = ps.map PairLine.id2
  kw1 : e.kw1 = ps.map PairLine.kw1
  kw2 : e.kw2 = ps.map PairLine.kw2
  kcm : e.kcm = ps.map PairLine.kcm
  ecc : e.ecc = ps.map PairLine.ecc
  lum : e.lum = e.logl.map (fun x : ℝ => (10 : ℝ) ^ x)
  ltot : e.ltot = e.lum.sum

theorem attachEv_ok {r : PPRec} {q : ℕ} {ps : List PairLine} {ss : List SingleLine} {t : Tab} (ok : EvOk r q ps ss) (h2 : 2 * q ≤ r.stars.length)
    (P : IsPP r q t) :
    ∃ k l c, attachEv r.stars.length q (bevFile ps) (sevFile ss) t =
        .ok (storeEv (ps.map (PairLine.read (decide (14 ≤ ps.length)))) k l c t) ∧
      HasEv r q ps ss (storeEv (ps.map (PairLine.read (decide (14 ≤ ps.length)))) k l c t).1
        (storeEv (ps.map (PairLine.read (decide (14 ≤ ps.length)))) k l c t).2 ∧
      (∀ i < q, l[i]! = if 14 ≤ q then (ps.map PairLine.logL1)[i]! + (ps.map PairLine.logL2)[i]! else 0) ∧
      (∀ i < q, c[i]! = if 14 ≤ q then (ps.map PairLine.logR1)[i]! + (ps.map PairLine.logR2)[i]! else 0) ∧
      (∀ s ∈ ss, ∃ i < r.stars.length - q, t.id[i]! = s.id ∧ l[i]! = truncZ s.logL) := by
  haveI : Inhabited PairLine := ⟨⟨0, 0, 0, 0, 0, 0, 0, 0, 0, 0, 0, 0, 0, 0, 0, 0, 0, 0, 0, 0⟩⟩
  have hget : ∀ {β : Type} [Inhabited β] (φ : PairLine → β) (i : ℕ), i < q → (ps.map φ)[i]! = φ ps[i]! := by
    intro β _ φ i hi
    exact get!_map _ _ _ (by rw [ok.pairs]; exact hi)
  obtain ⟨rd, hrd⟩ : ∃ rd, rd = PairLine.read (decide (14 ≤ ps.length)) := ⟨_, rfl⟩
  have hev : getEv (bevFile ps) (sevFile ss) = .ok (ps.map rd, (ps.map rd).flatMap BevRow.members ++ ss.map SingleLine.read) := by
    unfold getEv
    simp only [readBev_file, readSev_file ok.two, bind, Except.bind, pure, Except.pure, hrd]
  have hmem : ((ps.map rd).flatMap BevRow.members).length = 2 * q := by
    have : ∀ l : List BevRow, (l.flatMap BevRow.members).length = 2 * l.length := by
      intro l
      induction l with
      | nil => rfl
      | cons b l ih =>
        rw [List.flatMap_cons, List.length_append, ih]
        simp [BevRow.members]
        omega
    rw [this, List.length_map, ok.pairs]
  have hdrop : ((ps.map rd).flatMap BevRow.members ++ ss.map SingleLine.read).drop (2 * q) = ss.map SingleLine.read := by
    rw [← hmem, List.drop_left]
  have hargs : evArgs q ((ps.map rd).flatMap BevRow.members ++ ss.map SingleLine.read) = ss.map (fun s => (s.addr : ℤ) - q - 1) := by
    unfold evArgs
    by_cases hq : 0 < q
    · rw [if_pos hq, hdrop, List.map_map]
      rfl
    · rw [if_neg hq]
      obtain rfl : q = 0 := by omega
      have : ps = [] := List.eq_nil_of_length_eq_zero ok.pairs
      subst this
      simp [SingleLine.read]
  obtain ⟨k, k1, k2, k3, k4, k5⟩ := evColumn_ok (n := r.stars.length) (q := q) (ps := ps) (l := ss)
    (π := fun p => ((max p.kw1 p.kw2 : ℤ) : ℝ)) (ad := SingleLine.addr) (ψ := fun s => (s.kw : ℝ)) h2 ok.pairs ok.addr ok.nodup
  obtain ⟨l, l1, l2, l3, l4, -⟩ := evColumn_ok (n := r.stars.length) (q := q) (ps := ps) (l := ss)
    (π := fun p => (rd p).zl1 + (rd p).zl2) (ad := SingleLine.addr) (ψ := fun s => (truncZ s.logL : ℝ)) h2 ok.pairs ok.addr ok.nodup
  obtain ⟨c, c1, c2, c3, c4, -⟩ := evColumn_ok (n := r.stars.length) (q := q) (ps := ps) (l := ss)
    (π := fun p => (rd p).r1 + (rd p).r2) (ad := SingleLine.addr) (ψ := fun s => s.logR) h2 ok.pairs ok.addr ok.nodup
  have hidx : ∀ s ∈ ss, s.addr - 1 - q < r.stars.length - q ∧ t.id[s.addr - 1 - q]! = s.id ∧ t.row (s.addr - 1 - q) = r.row (s.addr - 1) := by
    intro s hs
    obtain ⟨a1, a2⟩ := ok.addr s hs
    obtain ⟨j, hj⟩ : ∃ j, s.addr - 1 - q = q + j := ⟨s.addr - 1 - q - q, by omega⟩
    obtain ⟨b1, -, b3⟩ := P.single j (by omega)
    have e : 2 * q + j = s.addr - 1 := by omega
    refine ⟨by omega, ?_, ?_⟩
    · rw [hj, b3, e, ok.id s hs]
    · rw [hj, b1, e]
  refine ⟨k, l, c, ?_, ?_, ?_, ?_, ?_⟩
  · unfold attachEv
    simp only [hev, bind, Except.bind, hdrop, hargs, List.map_map]
    rw [show evColumn r.stars.length q (ps.map ((fun b : BevRow => ((max b.kw1 b.kw2 : ℤ) : ℝ)) ∘ rd)) (ss.map (fun s => (s.addr : ℤ) - q - 1))
      (ss.map ((fun s : EvStar => (s.kw : ℝ)) ∘ SingleLine.read)) = .ok k by rw [hrd]; exact k1,
      show evColumn r.stars.length q (ps.map ((fun b : BevRow => b.zl1 + b.zl2) ∘ rd)) (ss.map (fun s => (s.addr : ℤ) - q - 1))
      (ss.map (EvStar.zl ∘ SingleLine.read)) = .ok l from l1,
      show evColumn r.stars.length q (ps.map ((fun b : BevRow => b.r1 + b.r2) ∘ rd)) (ss.map (fun s => (s.addr : ℤ) - q - 1))
      (ss.map (EvStar.r ∘ SingleLine.read)) = .ok c from c1]
    simp only [pure, Except.pure, hrd]
  · refine ⟨k2, l2, c2, ?_, k5, ?_, ?_, ?_, ?_, ?_, ?_, ?_, ?_, rfl, rfl⟩
    · intro s hs
      obtain ⟨a1, a2, a3⟩ := hidx s hs
      exact ⟨_, a1, a2, a3, k4 s hs, c4 s hs⟩
    · intro i hi
      rw [hget _ i hi, hget _ i hi]
      exact k3 i hi
    · constructor <;> simp [storeEv, ok.pairs]
    all_goals simp [storeEv, PairLine.read, Function.comp_def]
  · intro i hi
    rw [hget _ i hi, hget _ i hi, l3 i hi, hrd, ok.pairs]
    by_cases h : 14 ≤ q <;> simp [h, PairLine.read]
  · intro i hi
    rw [hget _ i hi, hget _ i hi, c3 i hi, hrd, ok.pairs]
    by_cases h : 14 ≤ q <;> simp [h, PairLine.read]
  · intro s hs
    obtain ⟨a1, a2, a3⟩ := hidx s hs
    exact ⟨_, a1, a2, l4 s hs⟩

end

end CT
