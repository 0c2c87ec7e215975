/- The ids of stars (C134, C135). -/
import Verif.Spec.Ids
import Mathlib.Tactic.Linarith
import Mathlib.Tactic.NormNum

namespace CT

theorem roundNat_small {a : ℕ} (h : a ≤ 2 ^ 53) : roundNat a = a := by
  rcases Nat.lt_or_eq_of_le h with h | h
  · have h1 : Nat.log 2 a ≤ 52 := by
      by_cases h0 : a = 0
      · subst h0; simp
      · have := (Nat.log_lt_iff_lt_pow (b := 2) (by norm_num) h0 (x := 53)).mpr h
        omega
    have e : Nat.log 2 a - 52 = 0 := by omega
    unfold roundNat
    rw [e]
    simp [Nat.mod_one]
  · subst h
    have : Nat.log 2 (2 ^ 53) = 53 := Nat.log_pow (by norm_num) 53
    unfold roundNat
    rw [this]
    norm_num

theorem roundNat_even {a : ℕ} (h : 2 ^ 53 < a) : 2 ∣ roundNat a := by
  have h1 : 53 ≤ Nat.log 2 a := Nat.le_log_of_pow_le (by norm_num) h.le
  unfold roundNat
  obtain ⟨e, he⟩ : ∃ e, Nat.log 2 a - 52 = e + 1 := ⟨Nat.log 2 a - 53, by omega⟩
  rw [he]
  exact Dvd.dvd.mul_left (dvd_pow_self 2 (by omega)) _

theorem roundF64_small {n : ℤ} (h : SmallId n) : roundF64 n = n := by
  unfold roundF64
  rw [roundNat_small h]
  split <;> omega

theorem roundF64_even {n : ℤ} (h : 2 ^ 53 < n.natAbs) : 2 ∣ roundF64 n := by
  have := roundNat_even h
  unfold roundF64
  split <;> omega

theorem toI64_small {n : ℤ} (h : SmallId n) : toI64 n = n := by
  unfold toI64 SmallId at *
  rw [if_pos]
  norm_num at h ⊢
  omega

theorem toI64_even {n : ℤ} (h : 2 ∣ n) : 2 ∣ toI64 n := by
  unfold toI64
  split
  · exact h
  · norm_num

theorem conv_small {t : DType} {a : IdArr} (h : ∀ n ∈ a.vals, SmallId n) : a.conv t = a.vals := by
  have h1 : a.vals.map roundF64 = a.vals := by
    conv_rhs => rw [← List.map_id' a.vals]
    exact List.map_congr_left (fun n hn => roundF64_small (h n hn))
  have h2 : a.vals.map toI64 = a.vals := by
    conv_rhs => rw [← List.map_id' a.vals]
    exact List.map_congr_left (fun n hn => toI64_small (h n hn))
  unfold IdArr.conv
  split <;> first | exact h1 | exact h2 | rfl

theorem npAppend_small {a b : IdArr} (ha : ∀ n ∈ a.vals, SmallId n) (hb : ∀ n ∈ b.vals, SmallId n) : (npAppend a b).vals = a.vals ++ b.vals := by
  unfold npAppend
  rw [conv_small ha, conv_small hb]

theorem addIds_small {a b : IdArr} (ha : ∀ n ∈ a.vals, SmallId n) (hb : ∀ n ∈ b.vals, SmallId n) (n : ℕ) :
    (addIds a (some b) n).vals = a.vals ++ b.vals := by
  unfold addIds
  show (npAppend a b).conv .i64 = _
  rw [conv_small, npAppend_small ha hb]
  rw [npAppend_small ha hb]
  intro n hn
  rcases List.mem_append.mp hn with h | h
  · exact ha n h
  · exact hb n h

theorem wantedIds_mem {calls : List (Option IdArr × ℕ)} : ∀ {l : List ℤ} {n : ℤ}, n ∈ l → n ∈ wantedIds calls l := by
  induction calls with
  | nil => intro l n h; exact h
  | cons c cs ih =>
    obtain ⟨g, k⟩ := c
    intro l n h
    cases g with
    | none => exact ih (List.mem_append_left _ h)
    | some a => exact ih (List.mem_append_left _ h)

/-- The histories, from any state. -/
theorem storedIds_small {calls : List (Option IdArr × ℕ)} : ∀ {a : IdArr}, (∀ n ∈ wantedIds calls a.vals, SmallId n) →
    (storedIds calls a).vals = wantedIds calls a.vals := by
  induction calls with
  | nil => intro a _; rfl
  | cons c cs ih =>
    obtain ⟨g, k⟩ := c
    intro a h
    have ha : ∀ n ∈ a.vals, SmallId n := fun n hn => h n (wantedIds_mem hn)
    cases g with
    | none =>
      obtain ⟨b, hb⟩ : ∃ b : IdArr, b = ⟨.i64, (List.range k).map (fun i : ℕ => nextId a.vals + i)⟩ := ⟨_, rfl⟩
      have hbs : ∀ n ∈ b.vals, SmallId n := by
        intro n hn
        apply h
        rw [hb] at hn
        exact wantedIds_mem (calls := cs) (l := a.vals ++ (List.range k).map (fun i : ℕ => nextId a.vals + i)) (List.mem_append_right _ hn)
      have e : (addIds a none k).vals = a.vals ++ b.vals := by
        have : addIds a none k = addIds a (some b) k := by rw [hb]; rfl
        rw [this]
        exact addIds_small ha hbs k
      show (storedIds cs (addIds a none k)).vals = wantedIds cs (a.vals ++ _)
      have e2 : a.vals ++ (List.range k).map (fun i : ℕ => nextId a.vals + i) = (addIds a none k).vals := by rw [e, hb]
      rw [e2]
      apply ih
      rw [← e2]
      exact h
    | some b =>
      have hbs : ∀ n ∈ b.vals, SmallId n := fun n hn =>
        h n (wantedIds_mem (calls := cs) (l := a.vals ++ b.vals) (List.mem_append_right _ hn))
      have e := addIds_small ha hbs k
      show (storedIds cs (addIds a (some b) k)).vals = wantedIds cs (a.vals ++ b.vals)
      rw [← e]
      apply ih
      rw [e]
      exact h

/-- **C134 (small ids).**  If no id exceeds 2^53 in size, then after any history of calls of `add_stars`, with or without ids, of any
integer or float type, the cluster's ids are exactly those given, in order, and those counted on from the largest before. -/
theorem C134_small_ids {calls : List (Option IdArr × ℕ)} (h : ∀ n ∈ wantedIds calls [], SmallId n) :
    (storedIds calls noIdsYet).vals = wantedIds calls [] := storedIds_small (a := noIdsYet) h

theorem storedIds_append {calls : List (Option IdArr × ℕ)} {c : Option IdArr × ℕ} : ∀ {a : IdArr},
    storedIds (calls ++ [c]) a = addIds (storedIds calls a) c.1 c.2 := by
  induction calls with
  | nil => intro a; rfl
  | cons d ds ih => intro a; exact ih

theorem storedIds_ty {calls : List (Option IdArr × ℕ)} {a : IdArr} (h : calls ≠ []) : (storedIds calls a).ty = .i64 := by
  rcases List.eq_nil_or_concat calls with h0 | ⟨l, c, rfl⟩
  · exact absurd h0 h
  · rw [List.concat_eq_append, storedIds_append]; rfl

/-- **C134 (later calls).**  From the second call on, signed integer ids of any size are stored exactly, and the ids already there
are left alone. -/
theorem C134_later_calls {calls : List (Option IdArr × ℕ)} (h : calls ≠ []) (l : List ℤ) (n : ℕ) :
    (storedIds (calls ++ [(some ⟨.i64, l⟩, n)]) noIdsYet).vals = (storedIds calls noIdsYet).vals ++ l := by
  rw [storedIds_append]
  have e := storedIds_ty (a := noIdsYet) h
  unfold addIds npAppend
  simp [e, promote, IdArr.conv]

/-- What the first call makes of integer ids. -/
theorem first_ids {l : List ℤ} {t : DType} (ht : t ≠ .f64) (n : ℕ) :
    (storedIds [(some ⟨t, l⟩, n)] noIdsYet).vals = l.map (fun k => toI64 (roundF64 k)) := by
  cases t with
  | f64 => exact absurd rfl ht
  | i64 => simp [storedIds, addIds, noIdsYet, npAppend, promote, IdArr.conv]
  | u64 => simp [storedIds, addIds, noIdsYet, npAppend, promote, IdArr.conv]

/-- **C135 (violated: large ids).**  In the first call of `add_stars` every odd integer id above 2^53 (such as half of the 19-digit
source ids of Gaia) is changed. -/
theorem C135_first_call_violated {l : List ℤ} {t : DType} (ht : t ≠ .f64) (n : ℕ) {i : ℕ} (hi : i < l.length) (hbig : 2 ^ 53 < (l[i]).natAbs)
    (hodd : ¬2 ∣ l[i]) : ∃ k, (storedIds [(some ⟨t, l⟩, n)] noIdsYet).vals[i]? = some k ∧ k ≠ l[i] := by
  rw [first_ids ht]
  refine ⟨toI64 (roundF64 l[i]), by simp [hi], ?_⟩
  intro e
  exact hodd (e ▸ toI64_even (roundF64_even hbig))

/-- **C135 (violated: unsigned ids).**  Adding unsigned ids (the keys of AMUSE particles) to a cluster that has stars changes every odd
id above 2^53, new or old. -/
theorem C135_unsigned_violated {calls : List (Option IdArr × ℕ)} (h : calls ≠ []) {l : List ℤ} (n : ℕ) {i : ℕ} {k : ℤ}
    (hk : ((storedIds calls noIdsYet).vals ++ l)[i]? = some k) (hbig : 2 ^ 53 < k.natAbs) (hodd : ¬2 ∣ k) :
    ∃ k', (storedIds (calls ++ [(some ⟨.u64, l⟩, n)]) noIdsYet).vals[i]? = some k' ∧ k' ≠ k := by
  rw [storedIds_append]
  have e := storedIds_ty (a := noIdsYet) h
  have e2 : (addIds (storedIds calls noIdsYet) (some ⟨.u64, l⟩) n).vals = ((storedIds calls noIdsYet).vals ++ l).map (fun k => toI64 (roundF64 k)) := by
    unfold addIds npAppend
    simp [e, promote, IdArr.conv, Function.comp_def]
  refine ⟨toI64 (roundF64 k), by simp only [e2, List.getElem?_map, hk]; rfl, ?_⟩
  intro q
  exact hodd (q ▸ toI64_even (roundF64_even hbig))

theorem roundNat_tie {m : ℕ} (h1 : 2 ^ 52 ≤ m) (h2 : m < 2 ^ 53) : roundNat (2 * m + 1) = if m % 2 = 0 then 2 * m else 2 * m + 2 := by
  have e : Nat.log 2 (2 * m + 1) = 53 := by
    apply Nat.log_eq_of_pow_le_of_lt_pow
    · norm_num at h1 ⊢; omega
    · norm_num at h2 ⊢; omega
  unfold roundNat
  rw [e]
  have q : (2 * m + 1) / 2 = m := by omega
  have r : (2 * m + 1) % 2 = 1 := by omega
  norm_num [q, r]
  split <;> split <;> omega

/-- **C135 (violated: what becomes of an id).**  An odd id between 2^53 and 2^54 becomes, in the first call, the neighbouring multiple of 4. -/
theorem C135_neighbour_violated {m : ℕ} (h1 : 2 ^ 52 ≤ m) (h2 : m < 2 ^ 53) {t : DType} (ht : t ≠ .f64) (n : ℕ) :
    ∃ k : ℤ, (storedIds [(some ⟨t, [(2 * m + 1 : ℕ)]⟩, n)] noIdsYet).vals = [k] ∧ 4 ∣ k ∧ (k = 2 * m ∨ k = 2 * m + 2) := by
  rw [first_ids ht]
  have e : roundF64 ((2 * m + 1 : ℕ) : ℤ) = (roundNat (2 * m + 1) : ℤ) := by
    unfold roundF64
    rw [if_pos (by omega)]
    rfl
  refine ⟨toI64 (roundNat (2 * m + 1) : ℤ), by simp only [List.map_cons, List.map_nil, e], ?_⟩
  rw [roundNat_tie h1 h2]
  have hb : (2 * m + 2 : ℤ) < 2 ^ 63 := by norm_num at h2 ⊢; omega
  unfold toI64
  by_cases hm : m % 2 = 0
  · simp only [hm, if_true]
    rw [if_pos ⟨by norm_num; omega, by push_cast; omega⟩]
    push_cast
    exact ⟨by omega, Or.inl rfl⟩
  · simp only [hm, if_false]
    rw [if_pos ⟨by norm_num; omega, by push_cast; omega⟩]
    push_cast
    exact ⟨by omega, Or.inr rfl⟩

theorem roundNat_odd {m : ℕ} (h1 : 2 ^ 52 ≤ m) (h2 : m < 2 ^ 53) : roundNat (2 * m + 1) = 2 * m ∨ roundNat (2 * m + 1) = 2 * m + 2 := by
  have e : Nat.log 2 (2 * m + 1) = 53 := by
    apply Nat.log_eq_of_pow_le_of_lt_pow
    · norm_num at h1 ⊢; omega
    · norm_num at h2 ⊢; omega
  unfold roundNat
  rw [e]
  have q : (2 * m + 1) / 2 = m := by omega
  have r : (2 * m + 1) % 2 = 1 := by omega
  norm_num [q, r]
  split <;> omega

theorem roundNat_twice {m : ℕ} (h1 : 2 ^ 52 ≤ m) (h2 : m ≤ 2 ^ 53) : roundNat (2 * m) = 2 * m := by
  rcases Nat.lt_or_eq_of_le h2 with h2 | h2
  · have e : Nat.log 2 (2 * m) = 53 := by
      apply Nat.log_eq_of_pow_le_of_lt_pow
      · norm_num at h1 ⊢; omega
      · norm_num at h2 ⊢; omega
    unfold roundNat
    rw [e]
    have q : (2 * m) / 2 = m := by omega
    have r : (2 * m) % 2 = 0 := by omega
    norm_num [q, r]
    omega
  · have e : Nat.log 2 (2 * m) = 54 := by
      have : 2 * m = 2 ^ 54 := by rw [h2]; norm_num
      rw [this]
      exact Nat.log_pow (by norm_num) 54
    unfold roundNat
    rw [e, h2]
    norm_num

/-- **C135 (violated: stars that cannot be told apart).**  Distinct ids become equal: of any three consecutive ids between 2^53 and
2^54, starting with an even one, two are the same after the first call. -/
theorem C135_distinct_violated {m : ℕ} (h1 : 2 ^ 52 ≤ m) (h2 : m < 2 ^ 53) (n : ℕ) :
    ¬(storedIds [(some ⟨.i64, [(2 * m : ℕ), (2 * m + 1 : ℕ), (2 * m + 2 : ℕ)]⟩, n)] noIdsYet).vals.Nodup := by
  rw [first_ids (by decide)]
  have c : ∀ k : ℕ, roundF64 (k : ℤ) = (roundNat k : ℤ) := by
    intro k
    unfold roundF64
    rw [if_pos (by omega)]
    rfl
  have e0 := roundNat_twice h1 h2.le
  have e2 := roundNat_twice (m := m + 1) (by omega) (by omega)
  rw [show 2 * (m + 1) = 2 * m + 2 by omega] at e2
  simp only [List.map_cons, List.map_nil, c, e0, e2]
  rcases roundNat_odd h1 h2 with e | e <;> simp [e]

/-! ### concrete cases -/

example : (storedIds [(some ⟨.i64, [5, 3]⟩, 2), (none, 2), (some ⟨.u64, [100]⟩, 1), (some ⟨.f64, [7]⟩, 1)] noIdsYet).vals = [5, 3, 6, 7, 100, 7] := by
  rw [C134_small_ids]
  · rfl
  · intro n hn
    have : n ∈ ([5, 3, 6, 7, 100, 7] : List ℤ) := hn
    simp only [List.mem_cons, List.not_mem_nil, or_false] at this
    rcases this with h | h | h | h | h | h <;> subst h <;> norm_num [SmallId]

example : ∃ k, (storedIds [(some ⟨.i64, [4611686018427387903]⟩, 1)] noIdsYet).vals[0]? = some k ∧ k ≠ 4611686018427387903 :=
  C135_first_call_violated (l := [4611686018427387903]) (by decide) 1 (by decide) (by norm_num) (by norm_num)

end CT
