/- C18: the binaries of `add_stars(…, nb=…)`. -/
import Verif.Props.Stars2

namespace CT

noncomputable section

set_option linter.unusedSimpArgs false

theorem drop_range_map {α : Type} (f : ℕ → α) (n d : ℕ) :
    ((List.range n).map f).drop d = (List.range (n - d)).map (fun j => f (d + j)) := by
  refine List.ext_getElem (by simp) fun i h1 h2 => by simp

theorem pick_range {α : Type} [Inhabited α] {f : ℕ → α} {n q off : ℕ} (h : 2 * q ≤ n) (ho : off < 2) :
    pick off q ((List.range n).map f) = .ok ((List.range q).map (fun k => f (2 * k + off))) := by
  unfold pick
  rw [if_pos (by simpa using h)]
  congr 1
  refine List.map_congr_left fun k hk => ?_
  have := List.mem_range.mp hk
  exact get!_range_map (by omega)

theorem pickOpt_range {α : Type} [Inhabited α] {o : Option (Val α)} {n q off : ℕ} (hf : ∀ v, o = some v → v.fits n)
    (h : 2 * q ≤ n) (ho : off < 2) : pickOpt off q (o.map (Val.expand n)) =
      .ok (o.map (fun v => (List.range q).map (fun k => v.at (2 * k + off)))) := by
  cases o with
  | none => rfl
  | some v =>
    simp only [Option.map_some, pickOpt, Val.expand_eq (hf v rfl), pick_range h ho, bind, Except.bind, pure,
      Except.pure]

theorem rowsOf_map {α : Type} (f1 f2 f3 f4 f5 f6 : α → ℝ) (l : List α) :
    rowsOf (l.map f1) (l.map f2) (l.map f3) (l.map f4) (l.map f5) (l.map f6) =
      l.map (fun k => ⟨f1 k, f2 k, f3 k, f4 k, f5 k, f6 k⟩) := by
  induction l with
  | nil => rfl
  | cons a l ih => simp only [List.map_cons, rowsOf, ih]

/-- Position and velocity of star `i` of a call. -/
def StarArgs.row (a : StarArgs) (i : ℕ) : Ph := ⟨a.x.at i, a.y.at i, a.z.at i, a.vx.at i, a.vy.at i, a.vz.at i⟩

theorem pickRows_range {a : StarArgs} {n q off : ℕ} (f : a.Fits n) (h : 2 * q ≤ n) (ho : off < 2) :
    pickRows off q a.expand = .ok ((List.range q).map (fun k => a.row (2 * k + off))) := by
  unfold pickRows StarArgs.expand
  simp only [f.npmax, Val.expand_eq f.x, Val.expand_eq f.y, Val.expand_eq f.z, Val.expand_eq f.vx, Val.expand_eq f.vy,
    Val.expand_eq f.vz, pick_range h ho, bind, Except.bind, pure, Except.pure]
  rw [rowsOf_map (fun k => a.x.at (2 * k + off)) (fun k => a.y.at (2 * k + off)) (fun k => a.z.at (2 * k + off))
    (fun k => a.vx.at (2 * k + off)) (fun k => a.vy.at (2 * k + off)) (fun k => a.vz.at (2 * k + off))]
  rfl

theorem getD_range {α : Type} [Inhabited α] {o : Option (Val α)} (q off : ℕ) (d : α) :
    (o.map (fun v => (List.range q).map (fun k => v.at (2 * k + off)))).getD (List.replicate q d) =
      (List.range q).map (fun k => (o.map (·.at (2 * k + off))).getD d) := by
  cases o with
  | none => refine List.ext_getElem (by simp) fun i h1 h2 => by simp
  | some v => rfl

/-- The columns after the binary block. -/
theorem addBinaryBlock_eq {a : StarArgs} {n k q : ℕ} {t : Tab} (f : a.Fits n) (al : Aligned t k) (h2 : 2 * q ≤ n)
    (hm : a.m ≠ none ∨ q ≠ 1) (e1 : t.mb1 = []) (e2 : t.mb2 = []) :
    ∃ t1, addBinaryBlock q a.expand t = .ok t1 ∧ Aligned t1 (q + k) ∧ t1.nb = t.nb + q ∧
      (∀ i < q, (a.star (2 * i)).m + (a.star (2 * i + 1)).m ≠ 0 →
        Represents t1.m[i]! (t1.row i) (a.star (2 * i)).m (a.row (2 * i)) (a.star (2 * i + 1)).m (a.row (2 * i + 1))) ∧
      (∀ i < k, t1.star (q + i) = t.star i) ∧
      t1.id = (a.id.map (fun v => (List.range q).map (fun k => v.at (2 * k)))).getD
        ((List.range q).map (fun (i : ℕ) => idStart t.id false + 2 * (i : ℤ))) ++ t.id := by
  have p0 := pickRows_range (off := 0) f h2 (by omega)
  have p1 := pickRows_range (off := 1) f h2 (by omega)
  have em : a.expand.m = a.m.map (Val.expand n) := by simp [StarArgs.expand, f.npmax]
  have ei : a.expand.id = a.id.map (Val.expand n) := by simp [StarArgs.expand, f.npmax]
  have en : a.expand.npop = a.npop.map (Val.expand n) := by simp [StarArgs.expand, f.npmax]
  have ez : a.expand.m0 = a.m0.map (Val.expand n) := by simp [StarArgs.expand, f.npmax]
  have m0 := pickOpt_range (off := 0) f.m h2 (by omega)
  have m1 := pickOpt_range (off := 1) f.m h2 (by omega)
  have i0 := pickOpt_range (off := 0) f.id h2 (by omega)
  have n0 := pickOpt_range (off := 0) f.npop h2 (by omega)
  have z0 := pickOpt_range (off := 0) f.m0 h2 (by omega)
  have z1 := pickOpt_range (off := 1) f.m0 h2 (by omega)
  rw [← em] at m0 m1
  rw [← ei] at i0
  rw [← en] at n0
  rw [← ez] at z0 z1
  have hc : ¬(q = 1 ∧ a.expand.m = none) := by
    rintro ⟨hq, hn⟩
    rcases hm with hm | hm
    · simp only [StarArgs.expand, Option.map_eq_none_iff] at hn; exact hm hn
    · exact hm hq
  have hlen : ∀ off, ((List.range q).map (fun k => a.row (2 * k + off))).length = q := fun off => by simp
  have g0 := getD_range (o := a.m) q 0 1
  have g1 := getD_range (o := a.m) q 1 1
  obtain ⟨K, hK, kx, ky, kz, kvx, kvy, kvz, km, kr⟩ := comOf_eq
    (m1 := (List.range q).map (fun k => (a.m.map (·.at (2 * k + 0))).getD 1))
    (m2 := (List.range q).map (fun k => (a.m.map (·.at (2 * k + 1))).getD 1))
    (by simp) (by simp) (hlen 0) (hlen 1)
  obtain ⟨mm, hmm⟩ : ∃ mm : List ℝ, mm = (match a.m0.map (fun v => (List.range q).map (fun k => v.at (2 * k + 0))),
      a.m0.map (fun v => (List.range q).map (fun k => v.at (2 * k + 1))) with
      | some p, some q => List.zipWith (· + ·) p q
      | _, _ => List.replicate q 0) := ⟨_, rfl⟩
  have hmm' : mm.length = q := by
    rw [hmm]
    cases a.m0 <;> simp
  unfold addBinaryBlock
  simp only [p0, p1, m0, m1, i0, n0, z0, z1, bind, Except.bind, pure, Except.pure, hc, if_false, storeBinaries, e1, e2,
    List.nil_append, List.length_map, List.length_range, g0, g1, hK, prependCom]
  refine ⟨_, rfl, ?_, rfl, ?_, ?_, ?_⟩
  · constructor
    · simp [kx, al.x]
    · simp [ky, al.y]
    · simp [kz, al.z]
    · simp [kvx, al.vx]
    · simp [kvy, al.vy]
    · simp [kvz, al.vz]
    · simp [km, al.m]
    · cases a.m0 <;> simp [al.m0]
    · cases a.npop <;> simp [al.npop]
    · cases a.id <;> simp [al.id]
  · intro i hi h0
    have := kr i hi (by simpa [get!_range_map hi, StarArgs.star] using h0)
    simp only [get!_range_map hi] at this
    simp only [Tab.row]
    rw [get!_append_left (by omega), get!_append_left (by omega), get!_append_left (by omega),
      get!_append_left (by omega), get!_append_left (by omega), get!_append_left (by omega),
      get!_append_left (by omega)]
    exact this
  · intro i hi
    simp only [Tab.star]
    rw [get!_append_right kx, get!_append_right ky, get!_append_right kz, get!_append_right kvx, get!_append_right kvy,
      get!_append_right kvz, get!_append_right km, get!_append_right (by cases a.m0 <;> simp),
      get!_append_right (by cases a.npop <;> simp)]
  · rfl

/-- What an optional column appends after the first `d` rows. -/
theorem opt_drop {α : Type} [Inhabited α] {n d : ℕ} {o : Option (Val α)} (h : ∀ v, o = some v → v.fits n) (z : α) :
    ((o.map (Val.expand n)).map (List.drop d)).getD (List.replicate (n - d) z) =
      (List.range (n - d)).map (fun j => (o.map (·.at (d + j))).getD z) := by
  cases o with
  | none => refine List.ext_getElem (by simp) fun i h1 h2 => by simp
  | some v =>
    simp only [Option.map_some, Option.getD_some, Val.expand_eq (h v rfl), drop_range_map]

theorem addSingles_drop {a : StarArgs} {n k d : ℕ} {t : Tab} (f : a.Fits n) (al : Aligned t k) :
    Aligned (addSingles d a.expand t) (k + (n - d)) ∧ (addSingles d a.expand t).nb = t.nb ∧
      (∀ i < k, (addSingles d a.expand t).star i = t.star i ∧ (addSingles d a.expand t).row i = t.row i ∧
        (addSingles d a.expand t).m[i]! = t.m[i]!) ∧
      (∀ j < n - d, (addSingles d a.expand t).star (k + j) = a.star (d + j)) ∧
      (addSingles d a.expand t).id = t.id ++ (a.id.map (fun v => (List.range (n - d)).map (fun j => v.at (d + j)))).getD
        ((List.range (n - d)).map (fun (i : ℕ) => idStart t.id (decide (0 < t.nb)) + (i : ℤ))) := by
  have hl : ((a.x.expand n).drop d).length = n - d := by rw [List.length_drop, Val.expand_length f.x]
  have eid : (Option.map (List.drop d) (Option.map (Val.expand n) a.id)) =
      a.id.map (fun v => (List.range (n - d)).map (fun j => v.at (d + j))) := by
    cases h : a.id with
    | none => rfl
    | some v => simp only [Option.map_some, Val.expand_eq (f.id v h), drop_range_map]
  unfold addSingles StarArgs.expand
  simp only [f.npmax, hl]
  simp only [opt_drop f.m (1 : ℝ), opt_drop f.m0 (0 : ℝ), opt_drop f.npop (1 : ℤ), eid]
  rw [Val.expand_eq f.x, Val.expand_eq f.y, Val.expand_eq f.z, Val.expand_eq f.vx, Val.expand_eq f.vy,
    Val.expand_eq f.vz]
  simp only [drop_range_map]
  refine ⟨?_, trivial, ?_, ?_, trivial⟩
  · constructor <;> simp [al.x, al.y, al.z, al.vx, al.vy, al.vz, al.m, al.m0, al.npop, al.id]
    cases a.id <;> simp
  · intro i hi
    have e : ∀ {α : Type} [Inhabited α] {l r : List α}, l.length = k → (l ++ r)[i]! = l[i]! :=
      fun h => get!_append_left (by omega)
    simp only [Tab.star, Tab.row]
    rw [e al.x, e al.y, e al.z, e al.vx, e al.vy, e al.vz, e al.m, e al.m0, e al.npop]
    simp only [and_self]
  · intro j hj
    simp only [Tab.star, StarArgs.star]
    rw [get!_append_right al.x, get!_append_right al.y, get!_append_right al.z, get!_append_right al.vx,
      get!_append_right al.vy, get!_append_right al.vz, get!_append_right al.m, get!_append_right al.m0,
      get!_append_right al.npop]
    simp only [get!_range_map hj]

theorem idStart_pairs {ids : List ℤ} {q : ℕ} (hq : 1 ≤ q) :
    idStart (((List.range q).map (fun (i : ℕ) => idStart ids false + 2 * (i : ℤ))) ++ ids) true ≥
      idStart ids false + 2 * (q : ℤ) := by
  obtain ⟨j, rfl⟩ : ∃ j, q = j + 1 := ⟨q - 1, by omega⟩
  have hmem : idStart ids false + 2 * ((j : ℕ) : ℤ) ∈
      ((List.range (j + 1)).map (fun (i : ℕ) => idStart ids false + 2 * (i : ℤ))) ++ ids := by
    refine List.mem_append_left _ (List.mem_map.mpr ⟨j, by simp, rfl⟩)
  have h1 := le_amaxZ hmem
  rw [idStart, if_pos (List.ne_nil_of_mem hmem), if_pos rfl]
  push_cast
  omega

/-- **C65 (binaries).**  A well-formed call `add_stars(…, nb=q)` of `n` rows, the first `2q` of them pairs of
components, on a cluster of `k` stars without binaries: it succeeds, every per-star array has `k + n - q` entries; the
first `q` stars represent the pairs, the `k` old stars follow unchanged, then the single stars in order.  Generated ids
are pairwise different, and leave room for the second component of each pair (`id + 1` is not used). -/
theorem C65_binaries {a : StarArgs} {n k q : ℕ} {sort : Bool} {t : Tab} (f : a.Fits n) (al : Aligned t k) (hq : 1 ≤ q)
    (h2 : 2 * q ≤ n) (hm : a.m ≠ none ∨ q ≠ 1) (e1 : t.mb1 = []) (e2 : t.mb2 = []) :
    ∃ t', addStars a q sort false t = .ok t' ∧ Aligned t' (k + n - q) ∧ t'.ntot = k + n - q ∧ t'.nb = t.nb + q ∧
      t'.ns = ((k + n - q : ℕ) : ℤ) - (t.nb + q : ℕ) ∧
      (∀ i < q, (a.star (2 * i)).m + (a.star (2 * i + 1)).m ≠ 0 →
        Represents t'.m[i]! (t'.row i) (a.star (2 * i)).m (a.row (2 * i)) (a.star (2 * i + 1)).m (a.row (2 * i + 1))) ∧
      (∀ i < k, t'.star (q + i) = t.star i) ∧
      (∀ j < n - 2 * q, t'.star (q + k + j) = a.star (2 * q + j)) ∧
      (a.id = none → t.id.Nodup → t'.id.Nodup ∧ ∀ i < q, t'.id[i]! + 1 ∉ t'.id) := by
  obtain ⟨t1, h1, al1, nb1, r1, o1, i1⟩ := addBinaryBlock_eq f al h2 hm e1 e2
  obtain ⟨al2, nb2, o2, s2, i2⟩ := addSingles_drop (d := 2 * q) f al1
  obtain ⟨t2, ht2⟩ : ∃ t2, t2 = addSingles (2 * q) a.expand t1 := ⟨_, rfl⟩
  rw [← ht2] at al2 nb2 o2 s2 i2
  have hl : q + k + (n - 2 * q) = k + n - q := by omega
  rw [hl] at al2
  have hsky : ∃ b, addSkyCols a.expand t2 = { t2 with base := b } := by
    unfold addSkyCols
    split
    · exact ⟨_, rfl⟩
    · exact ⟨_, rfl⟩
  obtain ⟨b, hb⟩ := hsky
  unfold addStars
  simp only [if_pos (show 0 < q by omega), h1, bind, Except.bind, ← ht2, al2.fix, hb, Bool.false_eq_true, if_false,
    pure, Except.pure]
  refine ⟨_, rfl, ⟨al2.x, al2.y, al2.z, al2.vx, al2.vy, al2.vz, al2.m, al2.m0, al2.npop, al2.id⟩, al2.x,
    by show t2.nb = _; rw [nb2, nb1], by show (t2.x.length : ℤ) - t2.nb = _; rw [al2.x, nb2, nb1], ?_, ?_, s2, ?_⟩
  · intro i hi h0
    have := r1 i hi h0
    obtain ⟨-, hrow, hmm⟩ := o2 i (by omega)
    show Represents t2.m[i]! (t2.row i) _ _ _ _
    rw [hrow, hmm]
    exact this
  · intro i hi
    show t2.star (q + i) = _
    rw [(o2 (q + i) (by omega)).1]
    exact o1 i hi
  · intro hid nd
    show t2.id.Nodup ∧ ∀ i < q, t2.id[i]! + 1 ∉ t2.id
    have hpos : 0 < t1.nb := by omega
    rw [i2]
    simp only [hid, Option.map_none, Option.getD_none, hpos, decide_true] at i1 ⊢
    have hS := idStart_pairs (ids := t.id) hq
    rw [← i1] at hS
    have hmem1 : ∀ x ∈ t1.id, x ∈ t.id ∨ ∃ j < q, x = idStart t.id false + 2 * (j : ℤ) := by
      intro x hx
      rw [i1] at hx
      rcases List.mem_append.mp hx with hx | hx
      · obtain ⟨j, hj, rfl⟩ := List.mem_map.mp hx
        exact .inr ⟨j, List.mem_range.mp hj, rfl⟩
      · exact .inl hx
    have nd1 : t1.id.Nodup := by
      rw [i1, List.nodup_append']
      refine ⟨List.Nodup.map (fun i j hij => ?_) List.nodup_range, nd, ?_⟩
      · have : idStart t.id false + 2 * (i : ℤ) = idStart t.id false + 2 * (j : ℤ) := hij
        omega
      · intro x hx hx'
        obtain ⟨j, -, rfl⟩ := List.mem_map.mp hx
        have := lt_idStart (b := false) hx'
        omega
    refine ⟨?_, ?_⟩
    · rw [List.nodup_append']
      refine ⟨nd1, List.Nodup.map (fun i j hij => ?_) List.nodup_range, ?_⟩
      · have : idStart t1.id true + (i : ℤ) = idStart t1.id true + (j : ℤ) := hij
        omega
      · intro x hx hx'
        obtain ⟨j, -, rfl⟩ := List.mem_map.mp hx'
        have := lt_idStart (b := true) hx
        omega
    · intro i hi
      rw [get!_append_left (by rw [al1.id]; omega)]
      have hi' : t1.id[i]! = idStart t.id false + 2 * (i : ℤ) := by
        rw [i1, get!_append_left (by simpa using hi), get!_range_map hi]
      rw [hi']
      intro hx
      rcases List.mem_append.mp hx with hx | hx
      · rcases hmem1 _ hx with hx | ⟨j, hj, hx⟩
        · have := lt_idStart (b := false) hx
          omega
        · omega
      · obtain ⟨j, -, hx⟩ := List.mem_map.mp hx
        omega

/-- Four rows, one pair, on the two stars of `tab2`. -/
example : ∃ a : StarArgs, a.Fits 4 ∧ Aligned tab2 2 ∧ 2 * 1 ≤ 4 ∧ a.m ≠ none ∧ tab2.mb1 = [] ∧ tab2.mb2 = [] :=
  ⟨{ x := .arr [1, 2, 3, 4], y := .scalar 0, z := .scalar 0, vx := .scalar 0, vy := .scalar 0, vz := .scalar 0,
     m := some (.arr [1, 2, 3, 4]), id := none, m0 := none, npop := none },
   by constructor <;> simp [Val.fits, Val.isArr], by constructor <;> rfl, by norm_num, by simp, rfl, rfl⟩

/-- One pair without masses is rejected by `len()` of a number. -/
theorem C65_single_pair_without_mass_violated {a : StarArgs} {n : ℕ} {sort an : Bool} {t : Tab} (f : a.Fits n)
    (h2 : 2 ≤ n) (hm : a.m = none) : addStars a 1 sort an t = .error .valueError := by
  have p0 := pickRows_range (q := 1) (off := 0) f (by omega) (by omega)
  have p1 := pickRows_range (q := 1) (off := 1) f (by omega) (by omega)
  have he : a.expand.m = none := by simp [StarArgs.expand, hm]
  unfold addStars addBinaryBlock
  simp only [if_pos (show 0 < 1 by omega), p0, p1, he, pickOpt, bind, Except.bind, and_self, if_true, throw,
    throwThe, MonadExceptOf.throw]

end

end CT
