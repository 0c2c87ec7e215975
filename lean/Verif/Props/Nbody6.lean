/- C41: NBODY6 binary files. -/
import Verif.Spec.Nbody6
import Verif.Lemmas.IO

namespace CT

noncomputable section

set_option linter.unusedSimpArgs false

/-! ### words -/

theorem readWord_bytes {v : ℕ} (h : v < 2 ^ 32) (t : Bytes) : readWord (wordBytes v ++ t) = .ok (v, t) := by
  have e : leNat (UInt8.ofNat v) (UInt8.ofNat (v / 256)) (UInt8.ofNat (v / 65536)) (UInt8.ofNat (v / 16777216)) = v := by
    simp only [leNat, UInt8.toNat_ofNat']
    omega
  simp only [wordBytes, List.cons_append, List.nil_append, readWord, e]

theorem readInt_bytes {z : ℤ} (h : Int32 z) (t : Bytes) : readInt (intBytes z ++ t) = .ok (z, t) := by
  have h1 : (z % 2 ^ 32).toNat < 2 ^ 32 := by omega
  simp only [readInt, intBytes, readWord_bytes h1, bind, Except.bind, pure, Except.pure]
  have : asInt (z % 2 ^ 32).toNat = z := by
    unfold asInt
    obtain ⟨h2, h3⟩ := h
    split <;> omega
  rw [this]

theorem Single.bits_lt {s : Single} (h : s.Ok) : s.bits < 2 ^ 32 := by
  obtain ⟨h1, h2⟩ := h
  unfold Single.bits
  split <;> omega

theorem asFloat_bits {s : Single} (h : s.Ok) : asFloat s.bits = s.value := by
  obtain ⟨h1, h2⟩ := h
  have e1 : s.bits / 2 ^ 23 % 2 ^ 8 = s.exp := by unfold Single.bits; split <;> omega
  have e2 : s.bits % 2 ^ 23 = s.frac := by unfold Single.bits; split <;> omega
  have e3 : s.bits < 2 ^ 31 ↔ s.neg = false := by
    unfold Single.bits
    cases s.neg <;> simp <;> omega
  unfold asFloat Single.value
  simp only [e1, e2, e3]
  have hs : (if s.neg = false then (1 : ℝ) else -1) = (if s.neg = true then -1 else 1) := by cases s.neg <;> simp
  rw [hs]
  generalize (if s.neg = true then (-1 : ℝ) else 1) = g
  split
  · have : (2 : ℝ) ^ (-126 : ℤ) = 1 / 2 ^ 126 := by norm_num
    rw [this]
    ring
  · have : (2 : ℝ) ^ ((s.exp : ℤ) - 127) = 2 ^ s.exp / 2 ^ 127 := by
      rw [zpow_sub₀ (by norm_num)]
      norm_cast
    rw [this]
    ring

theorem readFloat_bytes {s : Single} (h : s.Ok) (t : Bytes) : readFloat (s.bytes ++ t) = .ok (s.value, t) := by
  simp only [readFloat, Single.bytes, readWord_bytes (Single.bits_lt h), bind, Except.bind, pure, Except.pure, asFloat_bits h]

theorem readFloats_bytes {l : List Single} (h : ∀ s ∈ l, s.Ok) (t : Bytes) :
    readFloats l.length (l.flatMap Single.bytes ++ t) = .ok (l.map Single.value, t) := by
  induction l with
  | nil => rfl
  | cons s l ih =>
    simp only [List.length_cons, readFloats, List.flatMap_cons, List.append_assoc, readFloat_bytes (h s (by simp)), bind,
      Except.bind, ih (fun x hx => h x (by simp [hx])), pure, Except.pure, List.map_cons]

theorem readMasses_bytes {l : List StarRec} (h : ∀ s ∈ l, s.Ok) (t : Bytes) :
    readFloats l.length (l.flatMap (fun s => s.m.bytes) ++ t) = .ok (l.map (fun s => s.m.value), t) := by
  have := readFloats_bytes (l := l.map StarRec.m) (by
    intro s hs
    obtain ⟨q, hq, rfl⟩ := List.mem_map.mp hs
    exact (h q hq).1) t
  simpa [List.flatMap_map, Function.comp_def] using this

theorem readInts_bytes {l : List StarRec} (h : ∀ s ∈ l, s.Ok) (t : Bytes) :
    readInts l.length (l.flatMap (fun s => intBytes s.id) ++ t) = .ok (l.map StarRec.id, t) := by
  induction l with
  | nil => rfl
  | cons s l ih =>
    simp only [List.length_cons, readInts, List.flatMap_cons, List.append_assoc,
      readInt_bytes (h s (by simp)).2.2.2.2.2.2.2, bind, Except.bind, ih (fun x hx => h x (by simp [hx])), pure,
      Except.pure, List.map_cons]

theorem readTriples_bytes {l : List StarRec} (a b c : StarRec → Single)
    (h : ∀ s ∈ l, (a s).Ok ∧ (b s).Ok ∧ (c s).Ok) (t : Bytes) :
    readTriples l.length (l.flatMap (fun s => (a s).bytes ++ (b s).bytes ++ (c s).bytes) ++ t) =
      .ok (l.map (fun s => ((a s).value, (b s).value, (c s).value)), t) := by
  induction l with
  | nil => rfl
  | cons s l ih =>
    obtain ⟨h1, h2, h3⟩ := h s (by simp)
    simp only [List.length_cons, readTriples, List.flatMap_cons, List.append_assoc, readFloat_bytes h1, readFloat_bytes h2,
      readFloat_bytes h3, bind, Except.bind, pure, Except.pure, List.map_cons]
    have := ih (fun x hx => h x (by simp [hx]))
    simp only [List.append_assoc] at this
    rw [this]

theorem readInt_length (n : ℕ) (t : Bytes) :
    readInt (intBytes n ++ t) = .ok (asInt ((n : ℤ) % 2 ^ 32).toNat, t) := by
  have h1 : ((n : ℤ) % 2 ^ 32).toNat < 2 ^ 32 := by omega
  simp only [readInt, intBytes, readWord_bytes h1, bind, Except.bind, pure, Except.pure]

theorem nat32 {n : ℕ} (h : n < 2 ^ 31) : Int32 (n : ℤ) := ⟨by omega, by exact_mod_cast h⟩

theorem readData_bytes {r : Rec} (ok : r.Ok) (t : Bytes) :
    readData r.stars.length r.alist.length (fortranBlock r.data ++ t) = .ok (r.snap, t) := by
  have p := readTriples_bytes (l := r.stars) StarRec.x StarRec.y StarRec.z
    (fun s hs => ⟨(ok.stars s hs).2.1, (ok.stars s hs).2.2.1, (ok.stars s hs).2.2.2.1⟩)
  have v := readTriples_bytes (l := r.stars) StarRec.vx StarRec.vy StarRec.vz
    (fun s hs => ⟨(ok.stars s hs).2.2.2.2.1, (ok.stars s hs).2.2.2.2.2.1, (ok.stars s hs).2.2.2.2.2.2.1⟩)
  generalize hL : r.data.length = L
  unfold readData fortranBlock
  rw [hL]
  unfold Rec.data
  simp only [List.append_assoc, readInt_length, Int.toNat_natCast, bind, Except.bind, readFloats_bytes ok.alist,
    readMasses_bytes ok.stars]
  simp only [List.append_assoc] at p v
  simp only [p, v, readInts_bytes ok.stars, readInt_length, ne_eq, not_true_eq_false, if_false, pure, Except.pure]
  rfl

/-- **C41 (OUT3).**  Reading an OUT3 file that starts with a snapshot returns exactly its header values, masses, positions,
velocities and ids, and leaves the file at the end of that snapshot. -/
theorem C41_record {r : Rec} (ok : r.Ok) (t : Bytes) : readOut3 (r.out3 ++ t) = .ok (r.snap, t) := by
  have h16 : Int32 16 := ⟨by norm_num, by norm_num⟩
  have hl : ((intBytes r.stars.length ++ intBytes r.model ++ intBytes r.nrun ++ intBytes r.alist.length).length : ℤ) = 16 := by
    simp [intBytes, wordBytes]
  unfold readOut3 Rec.out3
  conv in fortranBlock (_ ++ intBytes _) => unfold fortranBlock
  rw [hl]
  simp only [List.append_assoc, readInt_bytes h16]
  unfold out3Rest
  simp only [readInt_bytes (nat32 ok.n), readInt_bytes ok.model, readInt_bytes ok.nrun, readInt_bytes (nat32 ok.nk),
    readInt_bytes h16, bind, Except.bind, ne_eq, not_true_eq_false, if_false]
  exact readData_bytes ok t

/-- **C41 (OUT33).**  The same for the stars of the tidal tail; a snapshot without such stars has only a header. -/
theorem C41_tail_record {r : Rec} (ok : r.Ok) (t : Bytes) :
    readOut33 (r.out33 ++ t) = .ok (if r.stars = [] then emptySnap else r.snap, t) := by
  have h12 : Int32 12 := ⟨by norm_num, by norm_num⟩
  have hl : ((intBytes r.stars.length ++ intBytes r.model ++ intBytes r.alist.length).length : ℤ) = 12 := by
    simp [intBytes, wordBytes]
  unfold readOut33 Rec.out33
  conv in fortranBlock (_ ++ intBytes _) => unfold fortranBlock
  rw [hl]
  simp only [List.append_assoc, readInt_bytes h12]
  unfold out33Rest
  simp only [readInt_bytes (nat32 ok.n), readInt_bytes ok.model, readInt_bytes (nat32 ok.nk),
    readInt_bytes h12, bind, Except.bind, ne_eq, not_true_eq_false, if_false]
  by_cases h : r.stars = []
  · simp only [h, List.length_nil, Nat.cast_zero, lt_irrefl, if_false, if_true, List.nil_append]
    rfl
  · have : 0 < (r.stars.length : ℤ) := by
      have := List.length_pos_iff.mpr h
      exact_mod_cast this
    simp only [if_neg h, if_pos this]
    exact readData_bytes ok t

/-- Reading `k` times from the same file: the snapshots returned, and what is left. -/
def readOut3s : ℕ → Bytes → Except Err (List Snap × Bytes)
  | 0, f => .ok ([], f)
  | k + 1, f => do
    let a ← readOut3 f
    let l ← readOut3s k a.2
    return (a.1 :: l.1, l.2)

/-- **C41 (successive reads).**  Repeated reads of a file of snapshots return the snapshots one after the other. -/
theorem C41_sequence {rs : List Rec} (ok : ∀ r ∈ rs, r.Ok) (t : Bytes) :
    readOut3s rs.length (rs.flatMap Rec.out3 ++ t) = .ok (rs.map Rec.snap, t) := by
  induction rs with
  | nil => rfl
  | cons r rs ih =>
    simp only [List.length_cons, readOut3s, List.flatMap_cons, List.append_assoc, C41_record (ok r (by simp)), bind, Except.bind,
      ih (fun x hx => ok x (by simp [hx])), pure, Except.pure, List.map_cons]

/-- **C41 (end of file).**  At the end of the file an empty snapshot is returned. -/
theorem C41_end (f : Bytes) (h : f.length < 4) : ∃ s, readOut3 f = .ok (s, []) ∧ s.n = 0 ∧ s.m = [] := by
  have : readInt f = .error .structError := by
    match f, h with
    | [], _ => rfl
    | [_], _ => rfl
    | [_, _], _ => rfl
    | [_, _, _], _ => rfl
  refine ⟨emptySnap, ?_, rfl, rfl⟩
  unfold readOut3
  rw [this]

/-! ### incomplete and damaged files -/

/-- Appending bytes to the file changes neither the result of a successful read nor an error other than reaching the end. -/
def Mono {α : Type} (R : Bytes → Except Err (α × Bytes)) : Prop :=
  (∀ p s v q, R p = .ok (v, q) → R (p ++ s) = .ok (v, q ++ s)) ∧
    (∀ p s e, R p = .error e → e ≠ .structError → R (p ++ s) = .error e)

theorem Mono.bind {α β : Type} {R : Bytes → Except Err (α × Bytes)} {S : α → Bytes → Except Err (β × Bytes)}
    (h : Mono R) (h' : ∀ a, Mono (S a)) : Mono (fun f => (R f).bind (fun a => S a.1 a.2)) := by
  refine ⟨fun p s v q hp => ?_, fun p s e hp he => ?_⟩
  · simp only at hp ⊢
    cases hR : R p with
    | error e => rw [hR] at hp; cases hp
    | ok a =>
      rw [hR] at hp
      rw [h.1 p s a.1 a.2 hR]
      exact (h' a.1).1 _ s v q hp
  · simp only at hp ⊢
    cases hR : R p with
    | error e' =>
      rw [hR] at hp
      cases hp
      rw [h.2 p s _ hR he]
      rfl
    | ok a =>
      rw [hR] at hp
      rw [h.1 p s a.1 a.2 hR]
      exact (h' a.1).2 _ s e hp he

theorem Mono.pure {α : Type} (a : α) : Mono (fun f => .ok (a, f)) := by
  refine ⟨fun p s v q hp => ?_, fun p s e hp he => ?_⟩
  · cases hp; rfl
  · cases hp

theorem Mono.ite {α : Type} {P : Prop} [Decidable P] {R S : Bytes → Except Err (α × Bytes)} (h : Mono R) (h' : Mono S) :
    Mono (fun f => if P then R f else S f) := by
  by_cases hp : P
  · simpa [hp] using h
  · simpa [hp] using h'

theorem Mono.error {α : Type} (e : Err) : Mono (α := α) (fun _ => .error e) :=
  ⟨fun p s v q hp => (by cases hp), fun p s e hp _ => hp⟩

theorem mono_readWord : Mono readWord := by
  refine ⟨fun p s v q hp => ?_, fun p s e hp he => ?_⟩
  · match p with
    | a :: b :: c :: d :: t => cases hp; rfl
    | [] | [_] | [_, _] | [_, _, _] => cases hp
  · match p with
    | a :: b :: c :: d :: t => cases hp
    | [] | [_] | [_, _] | [_, _, _] => cases hp; exact absurd rfl he

theorem mono_readInt : Mono readInt := mono_readWord.bind (fun v => Mono.pure (asInt v))
theorem mono_readFloat : Mono readFloat := mono_readWord.bind (fun v => Mono.pure (asFloat v))

theorem mono_readFloats (n : ℕ) : Mono (readFloats n) := by
  induction n with
  | zero => exact Mono.pure _
  | succ n ih => exact mono_readFloat.bind (fun a => ih.bind (fun l => Mono.pure (a :: l)))

theorem mono_readInts (n : ℕ) : Mono (readInts n) := by
  induction n with
  | zero => exact Mono.pure _
  | succ n ih => exact mono_readInt.bind (fun a => ih.bind (fun l => Mono.pure (a :: l)))

theorem mono_readTriples (n : ℕ) : Mono (readTriples n) := by
  induction n with
  | zero => exact Mono.pure _
  | succ n ih =>
    exact mono_readFloat.bind (fun a => mono_readFloat.bind (fun b => mono_readFloat.bind (fun c =>
      ih.bind (fun l => Mono.pure ((a, b, c) :: l)))))

theorem mono_readData (n nk : ℤ) : Mono (readData n nk) :=
  mono_readInt.bind (fun s => (mono_readFloats _).bind (fun a => (mono_readFloats _).bind (fun m =>
    (mono_readTriples _).bind (fun p => (mono_readTriples _).bind (fun v => (mono_readInts _).bind (fun i =>
      mono_readInt.bind (fun e => Mono.ite (P := s ≠ e) (Mono.error .typeError)
        (Mono.pure (⟨n, a, p, v, m, i⟩ : Snap)))))))))

theorem mono_out3Rest (h : ℤ) : Mono (out3Rest h) :=
  mono_readInt.bind (fun n => mono_readInt.bind (fun _ => mono_readInt.bind (fun _ => mono_readInt.bind (fun nk =>
    mono_readInt.bind (fun e => Mono.ite (P := h ≠ e) (Mono.error .typeError) (mono_readData n nk))))))

theorem readOut3_mono {f : Bytes} (h : 4 ≤ f.length) :
    (∀ s v q, readOut3 f = .ok (v, q) → readOut3 (f ++ s) = .ok (v, q ++ s)) ∧
      (∀ s e, readOut3 f = .error e → e ≠ .structError → readOut3 (f ++ s) = .error e) := by
  obtain ⟨a, t, hf⟩ : ∃ a t, readInt f = .ok (a, t) := by
    match f, h with
    | a :: b :: c :: d :: t, _ => exact ⟨_, _, rfl⟩
    | [], h => simp at h
    | [_], h => simp at h
    | [_, _], h => simp at h
    | [_, _, _], h => simp at h
  have e1 : readOut3 f = out3Rest a t := by unfold readOut3; rw [hf]
  have e2 : ∀ s, readOut3 (f ++ s) = out3Rest a (t ++ s) := by
    intro s
    unfold readOut3
    rw [mono_readInt.1 f s a t hf]
  simp only [e1, e2]
  exact ⟨fun s v q => (mono_out3Rest a).1 t s v q, fun s e => (mono_out3Rest a).2 t s e⟩

/-- **C41 (incomplete snapshot).**  A file that ends inside a snapshot, after its first four bytes, is never taken for a
snapshot: reading fails at the end of the file. -/
theorem C41_truncated {r : Rec} (ok : r.Ok) {p q : Bytes} (hp : r.out3 = p ++ q) (h4 : 4 ≤ p.length) (hq : q ≠ []) :
    readOut3 p = .error .structError := by
  have hr : readOut3 (p ++ q) = .ok (r.snap, []) := by
    rw [← hp]
    simpa using C41_record ok []
  obtain ⟨m1, m2⟩ := readOut3_mono h4
  cases h : readOut3 p with
  | ok v =>
    have := m1 q v.1 v.2 h
    rw [hr] at this
    simp only [Except.ok.injEq, Prod.mk.injEq] at this
    exact absurd (List.append_eq_nil_iff.mp this.2.symm).2 hq
  | error e =>
    by_cases he : e = .structError
    · rw [he]
    · have := m2 q e h he
      rw [hr] at this
      cases this

/-- **C41 (damaged snapshot).**  If the size at the end of the header, or at the end of the data, differs from the size at
its beginning, no snapshot is returned: the read fails. -/
theorem C41_damaged {r : Rec} (ok : r.Ok) {z z' : ℤ} (hz : Int32 z) (hz' : Int32 z') (t : Bytes) :
    (z ≠ 16 → readOut3 (intBytes 16 ++ intBytes r.stars.length ++ intBytes r.model ++ intBytes r.nrun ++ intBytes r.alist.length ++
        intBytes z ++ t) = .error .typeError) ∧
      (z ≠ z' → readOut3 (fortranBlock (intBytes r.stars.length ++ intBytes r.model ++ intBytes r.nrun ++ intBytes r.alist.length) ++
        intBytes z' ++ r.data ++ intBytes z ++ t) = .error .typeError) := by
  have h16 : Int32 16 := ⟨by norm_num, by norm_num⟩
  have hl : ((intBytes r.stars.length ++ intBytes r.model ++ intBytes r.nrun ++ intBytes r.alist.length).length : ℤ) = 16 := by
    simp [intBytes, wordBytes]
  have p := readTriples_bytes (l := r.stars) StarRec.x StarRec.y StarRec.z
    (fun s hs => ⟨(ok.stars s hs).2.1, (ok.stars s hs).2.2.1, (ok.stars s hs).2.2.2.1⟩)
  have v := readTriples_bytes (l := r.stars) StarRec.vx StarRec.vy StarRec.vz
    (fun s hs => ⟨(ok.stars s hs).2.2.2.2.1, (ok.stars s hs).2.2.2.2.2.1, (ok.stars s hs).2.2.2.2.2.2.1⟩)
  simp only [List.append_assoc] at p v
  constructor
  · intro h
    unfold readOut3
    simp only [List.append_assoc, readInt_bytes h16]
    unfold out3Rest
    simp only [readInt_bytes (nat32 ok.n), readInt_bytes ok.model, readInt_bytes ok.nrun, readInt_bytes (nat32 ok.nk),
      readInt_bytes hz, bind, Except.bind]
    rw [if_pos (Ne.symm h)]
    rfl
  · intro h
    unfold readOut3 fortranBlock
    rw [hl]
    simp only [List.append_assoc, readInt_bytes h16]
    unfold out3Rest
    simp only [readInt_bytes (nat32 ok.n), readInt_bytes ok.model, readInt_bytes ok.nrun, readInt_bytes (nat32 ok.nk),
      readInt_bytes h16, bind, Except.bind, ne_eq, not_true_eq_false, if_false]
    unfold readData Rec.data
    simp only [List.append_assoc, readInt_bytes hz', readInt_bytes hz, Int.toNat_natCast, bind, Except.bind,
      readFloats_bytes ok.alist, readMasses_bytes ok.stars, p, v, readInts_bytes ok.stars]
    rw [if_pos (Ne.symm h)]
    rfl

/-- A snapshot with two stars: the encoding of 1.5 is `0x3FC00000`. -/
def demoRec : Rec :=
  { model := 1, nrun := -2, alist := List.replicate 20 ⟨false, 128, 0⟩
    stars := [⟨⟨false, 127, 4194304⟩, ⟨true, 127, 0⟩, ⟨false, 0, 0⟩, ⟨false, 0, 0⟩, ⟨false, 0, 0⟩, ⟨false, 0, 0⟩, ⟨false, 0, 1⟩, 7⟩,
      ⟨⟨false, 127, 0⟩, ⟨false, 128, 0⟩, ⟨false, 0, 0⟩, ⟨false, 0, 0⟩, ⟨false, 0, 0⟩, ⟨true, 0, 0⟩, ⟨false, 0, 0⟩, 3⟩] }

theorem demoRec_ok : demoRec.Ok := by
  constructor
  · exact ⟨by norm_num [demoRec], by norm_num [demoRec]⟩
  · exact ⟨by norm_num [demoRec], by norm_num [demoRec]⟩
  · simp [demoRec]
  · simp [demoRec]
  · intro s hs
    simp [demoRec] at hs
    subst hs
    exact ⟨by norm_num, by norm_num⟩
  · intro s hs
    simp [demoRec] at hs
    rcases hs with rfl | rfl <;> simp [StarRec.Ok, Single.Ok, Int32]

/-- The hypotheses are met; the masses read are 1.5 and 1, the first coordinates -1 and 2. -/
example (t : Bytes) : ∃ s, readOut3 (demoRec.out3 ++ t) = .ok (s, t) ∧ s.m = [1.5, 1] ∧ s.pos = [(-1, 0, 0), (2, 0, 0)] ∧
    s.id = [7, 3] ∧ s.n = 2 := by
  refine ⟨_, C41_record demoRec_ok t, ?_, ?_, rfl, rfl⟩
  · simp [demoRec, Rec.snap, Single.value]
    norm_num
  · simp [demoRec, Rec.snap, Single.value]

end

end CT
