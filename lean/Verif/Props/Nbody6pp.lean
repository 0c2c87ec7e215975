/- Reading NBODY6++ snapshots (C112, C113). -/
import Verif.Spec.Nbody6pp
import Verif.Props.Nbody6b
import Verif.Props.Stars3
import Verif.Props.Subset3

namespace CT

noncomputable section

/-! ### the file -/

theorem readCol_bytes {α : Type} {l : List α} (φ : α → Single) (h : ∀ s ∈ l, (φ s).Ok) (t : Bytes) :
    readFloats l.length (l.flatMap (fun s => (φ s).bytes) ++ t) = .ok (l.map (fun s => (φ s).value), t) := by
  have := readFloats_bytes (l := l.map φ) (by
    intro s hs
    obtain ⟨q, hq, rfl⟩ := List.mem_map.mp hs
    exact h q hq) t
  simpa [List.flatMap_map, Function.comp_def] using this

theorem readWordInt_bytes {s : Single} (h : s.Ok) (t : Bytes) : readInt (s.bytes ++ t) = .ok (asInt s.bits, t) := by
  simp only [readInt, Single.bytes, readWord_bytes (Single.bits_lt h), bind, Except.bind, pure, Except.pure]

theorem readIntCol_bytes {α : Type} {l : List α} (φ : α → Single) (h : ∀ s ∈ l, (φ s).Ok) (t : Bytes) :
    readInts l.length (l.flatMap (fun s => (φ s).bytes) ++ t) = .ok (l.map (fun s => asInt (φ s).bits), t) := by
  induction l with
  | nil => rfl
  | cons s l ih =>
    simp only [List.length_cons, readInts, List.flatMap_cons, List.append_assoc, readWordInt_bytes (h s (by simp)), bind,
      Except.bind, ih (fun x hx => h x (by simp [hx])), pure, Except.pure, List.map_cons]

theorem readIds_bytes {α : Type} {l : List α} (φ : α → ℤ) (h : ∀ s ∈ l, Int32 (φ s)) (t : Bytes) :
    readInts l.length (l.flatMap (fun s => intBytes (φ s)) ++ t) = .ok (l.map φ, t) := by
  induction l with
  | nil => rfl
  | cons s l ih =>
    simp only [List.length_cons, readInts, List.flatMap_cons, List.append_assoc, readInt_bytes (h s (by simp)), bind,
      Except.bind, ih (fun x hx => h x (by simp [hx])), pure, Except.pure, List.map_cons]

theorem readTripleCol_bytes {α : Type} {l : List α} (a b c : α → Single)
    (h : ∀ s ∈ l, (a s).Ok ∧ (b s).Ok ∧ (c s).Ok) (t : Bytes) :
    readTriples l.length (l.flatMap (fun s => (a s).bytes ++ (b s).bytes ++ (c s).bytes) ++ t) =
      .ok (l.map (fun s => ((a s).value, (b s).value, (c s).value)), t) := by
  induction l with
  | nil => rfl
  | cons s l ih =>
    obtain ⟨h1, h2, h3⟩ := h s (by simp)
    simp only [List.length_cons, readTriples, List.flatMap_cons, List.append_assoc, readFloat_bytes h1, readFloat_bytes h2,
      readFloat_bytes h3, bind, Except.bind, pure, Except.pure, List.map_cons]
    have := ih (fun x hx => h x (by simp [hx]))
    simp only [List.append_assoc] at this
    rw [this]

/-- What the reader makes of a snapshot: everything as written but the potentials, whose bits are taken for integers. -/
def PPRec.read (r : PPRec) : PPSnap :=
  { base := r.plain.snap, rhos := r.stars.map (fun s => s.rho.value), xns := r.stars.map (fun s => s.xn.value)
    phi := r.stars.map (fun s => asInt s.pot.bits) }

theorem PPRec.Ok.plain {r : PPRec} (ok : r.Ok) : r.plain.Ok := by
  refine ⟨ok.model, ok.nrun, ok.nk, by simpa [PPRec.plain] using ok.n, ok.alist, ?_⟩
  intro s hs
  obtain ⟨q, hq, rfl⟩ := List.mem_map.mp hs
  exact (ok.stars q hq).1

theorem readDataPP_bytes {r : PPRec} (ok : r.Ok) (t : Bytes) :
    readDataPP r.stars.length r.alist.length (fortranBlock r.data ++ t) = .ok r.read := by
  have p := readTripleCol_bytes (l := r.stars) (fun s => s.star.x) (fun s => s.star.y) (fun s => s.star.z)
    (fun s hs => by obtain ⟨h, -⟩ := ok.stars s hs; exact ⟨h.2.1, h.2.2.1, h.2.2.2.1⟩)
  have v := readTripleCol_bytes (l := r.stars) (fun s => s.star.vx) (fun s => s.star.vy) (fun s => s.star.vz)
    (fun s hs => by obtain ⟨h, -⟩ := ok.stars s hs; exact ⟨h.2.2.2.2.1, h.2.2.2.2.2.1, h.2.2.2.2.2.2.1⟩)
  have m := readCol_bytes (l := r.stars) (fun s => s.star.m) (fun s hs => (ok.stars s hs).1.1)
  have rh := readCol_bytes (l := r.stars) (fun s => s.rho) (fun s hs => (ok.stars s hs).2.1)
  have xn := readCol_bytes (l := r.stars) (fun s => s.xn) (fun s hs => (ok.stars s hs).2.2.1)
  have ph := readIntCol_bytes (l := r.stars) (fun s => s.pot) (fun s hs => (ok.stars s hs).2.2.2)
  have id := readIds_bytes (l := r.stars) (fun s => s.star.id) (fun s hs => (ok.stars s hs).1.2.2.2.2.2.2.2)
  generalize hL : r.data.length = L
  unfold readDataPP fortranBlock
  rw [hL]
  unfold PPRec.data
  simp only [List.append_assoc] at p v
  simp only [List.append_assoc, readInt_length, Int.toNat_natCast, bind, Except.bind, readFloats_bytes ok.alist, m, rh, xn, p, v, ph, id,
    ne_eq, not_true_eq_false, if_false, pure, Except.pure, PPRec.read, PPRec.plain, Rec.snap, List.length_map, List.map_map]
  rfl

/-- A snapshot without stars has only a header; whatever follows in the file is ignored. -/
theorem readConf3_file {r : PPRec} (ok : r.Ok) (t : Bytes) :
    readConf3 (some (r.file ++ t)) = .ok (if r.stars = [] then emptyPP else r.read) := by
  have h16 : Int32 16 := ⟨by norm_num, by norm_num⟩
  have hl : ((intBytes r.stars.length ++ intBytes r.model ++ intBytes r.nrun ++ intBytes r.alist.length).length : ℤ) = 16 := by
    simp [intBytes, wordBytes]
  unfold readConf3 PPRec.file
  conv in fortranBlock (_ ++ intBytes _) => unfold fortranBlock
  rw [hl]
  simp only [List.append_assoc, Option.elim_some, readInt_bytes h16]
  unfold conf3Rest
  simp only [readInt_bytes (nat32 ok.n), readInt_bytes ok.model, readInt_bytes ok.nrun, readInt_bytes (nat32 ok.nk),
    readInt_bytes h16, bind, Except.bind, ne_eq, not_true_eq_false, if_false]
  by_cases h : r.stars = []
  · simp only [h, List.length_nil, Nat.cast_zero, lt_irrefl, if_false, if_true]
    rfl
  · have : 0 < (r.stars.length : ℤ) := by
      have := List.length_pos_iff.mpr h
      exact_mod_cast this
    simp only [if_neg h, if_pos this]
    exact readDataPP_bytes ok t

/-! ### the stars -/

theorem addBinaryBlock_base {q : ℕ} {a : Cols} {t t1 : Tab} (h : addBinaryBlock q a t = .ok t1) : t1.base = t.base := by
  unfold addBinaryBlock at h
  obtain ⟨b1, -, h⟩ := bind_ok h
  obtain ⟨b2, -, h⟩ := bind_ok h
  obtain ⟨m1, -, h⟩ := bind_ok h
  obtain ⟨m2, -, h⟩ := bind_ok h
  split at h
  · cases h
  obtain ⟨k, -, h⟩ := bind_ok h
  obtain ⟨i, -, h⟩ := bind_ok h
  obtain ⟨x, -, h⟩ := bind_ok h
  obtain ⟨y, -, h⟩ := bind_ok h
  obtain ⟨z, -, h⟩ := bind_ok h
  cases h
  rfl

/-- Adding `n` rows, `2q` of them components of binaries, to a cluster without stars. -/
theorem addStars_pairs {a : StarArgs} {n q : ℕ} {sort : Bool} {t : Tab} {ids : Val ℤ} (f : a.Fits n) (al : Aligned t 0)
    (h2 : 2 * q ≤ n) (hm : a.m ≠ none) (hi : a.id = some ids) (e1 : t.mb1 = []) (e2 : t.mb2 = [])
    (hu : ¬(t.base.units = some .radec ∧ t.base.origin = some .sky)) :
    ∃ t', addStars a q sort false t = .ok t' ∧ Aligned t' (n - q) ∧ t'.ntot = n - q ∧ t'.nb = t.nb + q ∧ t'.base = t.base ∧
      (∀ i < q, (a.star (2 * i)).m + (a.star (2 * i + 1)).m ≠ 0 →
        Represents t'.m[i]! (t'.row i) (a.star (2 * i)).m (a.row (2 * i)) (a.star (2 * i + 1)).m (a.row (2 * i + 1))) ∧
      (∀ i < q, t'.id[i]! = ids.at (2 * i)) ∧
      (∀ j < n - 2 * q, t'.star (q + j) = a.star (2 * q + j) ∧ t'.id[q + j]! = ids.at (2 * q + j)) := by
  obtain ⟨t1, h1, al1, nb1, r1, i1, b1⟩ : ∃ t1, (if 0 < q then addBinaryBlock q a.expand t else .ok t) = .ok t1 ∧ Aligned t1 q ∧
      t1.nb = t.nb + q ∧
      (∀ i < q, (a.star (2 * i)).m + (a.star (2 * i + 1)).m ≠ 0 →
        Represents t1.m[i]! (t1.row i) (a.star (2 * i)).m (a.row (2 * i)) (a.star (2 * i + 1)).m (a.row (2 * i + 1))) ∧
      t1.id = (List.range q).map (fun k => ids.at (2 * k)) ∧ t1.base = t.base := by
    by_cases hq : 0 < q
    · obtain ⟨t1, h1, al1, nb1, r1, -, i1⟩ := addBinaryBlock_eq f al h2 (.inl hm) e1 e2
      have ht : t.id = [] := List.eq_nil_of_length_eq_zero al.id
      rw [hi, ht] at i1
      exact ⟨t1, by rw [if_pos hq]; exact h1, al1, nb1, r1, by simpa using i1, addBinaryBlock_base h1⟩
    · obtain rfl : q = 0 := by omega
      have ht : t.id = [] := List.eq_nil_of_length_eq_zero al.id
      exact ⟨t, by rw [if_neg hq], al, rfl, by intro i hi; omega, by simp [ht], rfl⟩
  obtain ⟨al2, nb2, o2, s2, i2⟩ := addSingles_drop (d := 2 * q) f al1
  obtain ⟨t2, ht2⟩ : ∃ t2, t2 = addSingles (2 * q) a.expand t1 := ⟨_, rfl⟩
  have b2 : t2.base = t.base := by rw [ht2, ← b1]; rfl
  rw [← ht2] at al2 nb2 o2 s2 i2
  have hl : q + (n - 2 * q) = n - q := by omega
  rw [hl] at al2
  have hsky : addSkyCols a.expand t2 = t2 := by
    unfold addSkyCols
    rw [if_neg (by rw [b2]; exact hu)]
  have hid : t2.id = (List.range q).map (fun k => ids.at (2 * k)) ++ (List.range (n - 2 * q)).map (fun j => ids.at (2 * q + j)) := by
    rw [i2, i1, hi]
    rfl
  have key : addStars a q sort false t = .ok { t2 with ntot := t2.x.length, ns := (t2.x.length : ℤ) - t2.nb } := by
    unfold addStars
    by_cases hq : 0 < q
    · rw [if_pos hq] at h1 ⊢
      simp only [h1, bind, Except.bind, ← ht2, al2.fix, hsky, Bool.false_eq_true, if_false, pure, Except.pure]
    · rw [if_neg hq] at h1 ⊢
      cases h1
      simp only [bind, Except.bind, ← ht2, al2.fix, hsky, Bool.false_eq_true, if_false, pure, Except.pure]
  refine ⟨_, key, ⟨al2.x, al2.y, al2.z, al2.vx, al2.vy, al2.vz, al2.m, al2.m0, al2.npop, al2.id⟩, al2.x,
    by show t2.nb = _; rw [nb2, nb1], b2, ?_, ?_, ?_⟩
  · intro i hi h0
    have := r1 i hi h0
    obtain ⟨-, hrow, hmm⟩ := o2 i (by omega)
    show Represents t2.m[i]! (t2.row i) _ _ _ _
    rw [hrow, hmm]
    exact this
  · intro i hi
    show t2.id[i]! = _
    rw [hid, get!_append_left (by simpa using hi), get!_range_map hi]
  · intro j hj
    refine ⟨s2 j hj, ?_⟩
    show t2.id[q + j]! = _
    rw [hid, get!_append_right (by simp), get!_range_map hj]

/-- A snapshot with stars, a complete header and `q` binaries. -/
structure PPRec.Full (r : PPRec) (q : ℕ) : Prop where
  ok : r.Ok
  ne : r.stars ≠ []
  head : 18 ≤ r.alist.length
  nb : r.head 1 = q
  pairs : 2 * q ≤ r.stars.length

/-- The cluster is what snapshot `r`, whose first `2q` stars are the components of `q` binaries, says: each pair is represented by
one star (total mass, centre of mass, id of the first component), the other stars follow in the order of the file; N-body
units; scales and centre from the header. -/
structure IsPP (r : PPRec) (q : ℕ) (t : Tab) : Prop where
  len : Aligned t (r.stars.length - q)
  ntot : t.ntot = r.stars.length - q
  pair : ∀ i < q, r.mass (2 * i) + r.mass (2 * i + 1) ≠ 0 →
    Represents t.m[i]! (t.row i) (r.mass (2 * i)) (r.row (2 * i)) (r.mass (2 * i + 1)) (r.row (2 * i + 1))
  pairId : ∀ i < q, t.id[i]! = r.id (2 * i)
  single : ∀ j < r.stars.length - 2 * q, t.row (q + j) = r.row (2 * q + j) ∧ t.m[q + j]! = r.mass (2 * q + j) ∧
    t.id[q + j]! = r.id (2 * q + j)
  units : t.base.units = some .nbody
  origin : t.base.origin = some .cluster
  rbar : t.base.rbar = r.head 2
  zmbar : t.base.zmbar = r.head 3
  vbar : t.base.vbar = r.head 11
  tbar : t.base.tbar = r.head 10
  centre : t.base.c = ⟨r.head 6, r.head 7, r.head 8, 0, 0, 0⟩

theorem truncZ_nat (q : ℕ) : (truncZ (q : ℝ)).toNat = q := by
  unfold truncZ
  rw [if_pos (by positivity)]
  simp

theorem get!_stars {α : Type} [Inhabited α] {r : PPRec} (φ : StarRec → α) (i : ℕ) :
    ((r.plain.stars).map φ)[i]! = (r.stars.map (fun s => φ s.star))[i]! := by
  simp [PPRec.plain, Function.comp_def]

/-- The stars of a snapshot as arguments of `add_stars`. -/
theorem plain_star {r : PPRec} {i : ℕ} (h : i < r.stars.length) :
    ((snapStars r.plain.snap).star i).m = r.mass i ∧ (snapStars r.plain.snap).row i = r.row i ∧
      (Val.arr r.plain.snap.id).at i = r.id i ∧
      (⟨((snapStars r.plain.snap).star i).x, ((snapStars r.plain.snap).star i).y, ((snapStars r.plain.snap).star i).z,
        ((snapStars r.plain.snap).star i).vx, ((snapStars r.plain.snap).star i).vy, ((snapStars r.plain.snap).star i).vz⟩ : Ph) = r.row i := by
  have hg : ∀ {α : Type} [Inhabited α] (φ : PPStar → α), (r.stars.map φ)[i]! = φ r.stars[i] := by
    intro α _ φ
    rw [getElem!_pos _ i (by simpa using h)]
    simp
  simp only [StarArgs.star, StarArgs.row, snapStars, Rec.snap, PPRec.plain, List.map_map, Function.comp_def, Val.at, Option.map_some,
    Option.getD_some, PPRec.mass, PPRec.row, PPRec.id, StarRec.row, hg]
  simp

/-- The block that adds scales and stars. -/
theorem addPP_ok {r : PPRec} {q : ℕ} (hr : r.Full q) (t0 : ℝ) :
    ∃ t, addPP r.read (blankTab (some .nbody) (some .cluster) t0) =
        .ok (t, joinPairs q (r.stars.map (fun s => s.rho.value)), kinCol t,
          joinPairs q ((r.stars.map (fun s => asInt s.pot.bits)).map (fun (z : ℤ) => (z : ℝ)))) ∧
      IsPP r q t ∧ t.nb = 2 * q ∧ t.base.gc = ⟨0, 0, 0, 0, 0, 0⟩ ∧ t.base.tphys = t0 ∧ t.base.rorder = none ∧ t.base.rproorder = none := by
  have hn : r.plain.stars ≠ [] := by simpa [PPRec.plain] using hr.ne
  have full : r.plain.Full := ⟨hr.ok.plain, hn, hr.head⟩
  have hp : 0 < r.read.base.n := by
    have := List.length_pos_iff.mpr hn
    show (0 : ℤ) < r.plain.stars.length
    exact_mod_cast this
  have hlen : r.plain.stars.length = r.stars.length := by simp [PPRec.plain]
  have hb : alistAt r.read.base 1 = .ok (q : ℝ) := by
    rw [← hr.nb]
    exact alistAt_ok (r := r.plain) (k := 1) (by have := hr.head; show 1 < r.alist.length; omega)
  have hfits := snapStars_fits hn
  rw [hlen] at hfits
  obtain ⟨T, hT⟩ : ∃ T, T = addNbody6 (r.head 2) (r.head 6) (r.head 7) (r.head 8) (r.head 3) (r.head 11) (r.head 10) (r.head 1)
    (blankTab (some .nbody) (some .cluster) t0) := ⟨_, rfl⟩
  have hh : addHeader r.read.base (blankTab (some .nbody) (some .cluster) t0) = .ok T := by
    rw [hT]; exact addHeader_ok full _
  have hTnb : T.nb = q := by rw [hT, hr.nb]; exact truncZ_nat q
  obtain ⟨t, h, al, nt, nb, hbase, hpair, hpid, hsing⟩ := addStars_pairs (sort := true) (t := T) (ids := .arr r.plain.snap.id) hfits
    (by rw [hT]; constructor <;> rfl) hr.pairs (by simp [snapStars]) rfl (by rw [hT]; rfl) (by rw [hT]; rfl)
    (by rw [hT]; rintro ⟨e, -⟩; cases e)
  have h' : addStars (snapStars r.read.base) q true false T = .ok t := h
  refine ⟨t, ?_, ?_, ?_, ?_, ?_, ?_, ?_⟩
  · unfold addPP
    rw [if_pos hp]
    simp only [bind, Except.bind, hh, hb, truncZ_nat, h', pure, Except.pure]
    rfl
  · have hpr := hr.pairs
    refine ⟨al, nt, ?_, ?_, ?_, ?_, ?_, ?_, ?_, ?_, ?_, ?_⟩
    · intro i hi h0
      obtain ⟨a1, a2, -⟩ := plain_star (r := r) (i := 2 * i) (by omega)
      obtain ⟨b1, b2, -⟩ := plain_star (r := r) (i := 2 * i + 1) (by omega)
      have := hpair i hi (by rw [a1, b1]; exact h0)
      rw [a1, a2, b1, b2] at this
      exact this
    · intro i hi
      rw [hpid i hi, (plain_star (r := r) (i := 2 * i) (by omega)).2.2.1]
    · intro j hj
      obtain ⟨s1, s2⟩ := hsing j hj
      obtain ⟨a1, a2, a3, a4⟩ := plain_star (r := r) (i := 2 * q + j) (by omega)
      refine ⟨?_, ?_, by rw [s2, a3]⟩
      · rw [← a4, ← s1]
        rfl
      · rw [← a1, ← s1]
        rfl
    all_goals rw [hbase, hT]; rfl
  · rw [nb, hTnb]; omega
  all_goals rw [hbase, hT]; rfl

/-- One snapshot. -/
theorem getNbody6pp_ok {g : Galpy} {r : PPRec} {q n d : ℕ} {s : Bytes} {kw : Kw} {adv : Bool} {ofile : Option (List Line)} {t : ℝ} {p : Ph}
    (hr : r.Full q) (hm : ∀ i < r.stars.length, 0 < r.mass i) (ho : OrbitOk { kw with nsnap := some (n / d) } adv ofile t p) :
    ∃ c, getNbody6pp g (some (r.file ++ s)) ofile adv kw n d = .ok c ∧ IsPP r q c.tab ∧ c.tab.nb = 2 * q ∧
      c.rhos = joinPairs q (r.stars.map (fun s => s.rho.value)) ∧ c.kin = kinCol c.tab ∧
      c.pot = joinPairs q ((r.stars.map (fun s => asInt s.pot.bits)).map (fun (z : ℤ) => (z : ℝ))) ∧
      c.ektot = c.kin.sum ∧ c.ptot = c.pot.sum / 2 ∧
      (kw.analyze.getD true → c.tab.base.st.length = r.stars.length - q ∧ (∀ i < r.stars.length - q, c.tab.base.st[i]! = c.tab.row i) ∧
        c.tab.base.m = c.tab.m) ∧
      c.tab.base.gc = (if ofile.isSome then p else ⟨0, 0, 0, 0, 0, 0⟩) ∧
      c.tab.base.tphys = (if ofile.isSome ∧ kw.otime.getD false then t else r.head 0) ∧
      c.nsnap = n ∧ c.wdir = dirSlash (kw.wdir.getD "") ∧ c.snapdir = "" ∧
      c.ofile = ofile.map (List.drop (orbitLines { kw with nsnap := some (n / d) } adv)) := by
  obtain ⟨T, e1, P, nb, gc, tp, ro, rpo⟩ := addPP_ok hr (r.head 0)
  have h0 : alistAt r.read.base 0 = .ok (r.head 0) :=
    alistAt_ok (r := r.plain) (k := 0) (by have := hr.head; show 0 < r.alist.length; omega)
  have hN : 0 < r.stars.length - q := by
    have := List.length_pos_iff.mpr hr.ne
    have := hr.pairs
    omega
  have hrl : (rowsOf T.x T.y T.z T.vx T.vy T.vz).length = r.stars.length - q := by
    exact rowsOf_length P.len.x P.len.y P.len.z P.len.vx P.len.vy P.len.vz
  have hrow : ∀ i < r.stars.length - q, (rowsOf T.x T.y T.z T.vx T.vy T.vz)[i]! = T.row i := by
    intro i hi
    rw [rowsOf_get P.len.x P.len.y P.len.z P.len.vx P.len.vy P.len.vz i hi]
    rfl
  have hmass : ∀ i < r.stars.length - q, 0 ≤ T.m[i]! := by
    have hpr := hr.pairs
    intro i hi
    by_cases hiq : i < q
    · have a := hm (2 * i) (by omega)
      have b := hm (2 * i + 1) (by omega)
      have := (P.pair i hiq (by positivity)).m
      rw [this]
      positivity
    · obtain ⟨j, rfl⟩ : ∃ j, i = q + j := ⟨i - q, by omega⟩
      rw [(P.single j (by omega)).2.1]
      exact (hm _ (by omega)).le
  have hsum : 0 ≤ T.m.sum := by
    refine List.sum_nonneg ?_
    intro x hx
    obtain ⟨i, hi, rfl⟩ := List.getElem_of_mem hx
    have := hmass i (by rw [← P.len.m]; exact hi)
    rwa [getElem!_pos _ i hi] at this
  obtain ⟨b', e3, F, i3⟩ : ∃ b', nbAnalyze kw T = .ok { T with base := b' } ∧
      (b'.rbar = T.base.rbar ∧ b'.zmbar = T.base.zmbar ∧ b'.vbar = T.base.vbar ∧ b'.tbar = T.base.tbar ∧ b'.c = T.base.c ∧ b'.gc = T.base.gc ∧
        b'.tphys = T.base.tphys ∧ b'.units = T.base.units ∧ b'.origin = T.base.origin) ∧
      (kw.analyze.getD true → b'.st = rowsOf T.x T.y T.z T.vx T.vy T.vz ∧ b'.m = T.m) := by
    unfold nbAnalyze
    split
    · have good : Good { T.base with st := rowsOf T.x T.y T.z T.vx T.vy T.vz, m := T.m } := by
        refine ⟨?_, ?_, hsum, ?_, ?_⟩
        · show rowsOf T.x T.y T.z T.vx T.vy T.vz ≠ []
          intro h
          rw [h] at hrl
          simp at hrl
          omega
        · show T.m.length = (rowsOf T.x T.y T.z T.vx T.vy T.vz).length
          rw [hrl, P.len.m]
        · show ∀ o, T.base.rorder = some o → _
          rw [ro]; intro o h; cases h
        · show ∀ o, T.base.rproorder = some o → _
          rw [rpo]; intro o h; cases h
      obtain ⟨b', hb', -⟩ := analyze_total (s := kw.sort.getD true) (p := true) good
      obtain ⟨k1, k2, k3, k4, k5, k6, k7, k8, k9, k10, k11⟩ := rest_of_fields (analyze_core hb')
      refine ⟨b', ?_, ⟨k1, k2, k3, k4, k5, k6, k7, k8, k9⟩, fun _ => ⟨k10, k11⟩⟩
      unfold analyzeTab
      have al := P.len
      rw [if_neg (by simp only [al.x, al.y, al.z, al.vx, al.vy, al.vz]; simp)]
      simp only [bind, Except.bind, pure, Except.pure, hb']
    · rename_i hna
      refine ⟨T.base, rfl, ⟨rfl, rfl, rfl, rfl, rfl, rfl, rfl, rfl, rfl⟩, fun h => absurd ⟨h, ?_⟩ hna⟩
      rw [P.ntot]; exact hN
  obtain ⟨f1, f2, f3, f4, f5, f6, f7, f8, f9⟩ := F
  obtain ⟨f', e4⟩ := readOrbitIf_ok (g := g) (c := b') (by rw [f8, P.units]; rintro ⟨⟩) ho
  have e0 : readConf3 (some (r.file ++ s)) = .ok r.read := by rw [readConf3_file hr.ok, if_neg hr.ne]
  unfold getNbody6pp
  simp only [bind, Except.bind, e0, h0, e1, e3, e4, pure, Except.pure]
  refine ⟨_, rfl, ⟨⟨P.len.x, P.len.y, P.len.z, P.len.vx, P.len.vy, P.len.vz, P.len.m, P.len.m0, P.len.npop, P.len.id⟩, P.ntot, P.pair, P.pairId, P.single, f8.trans P.units, f9.trans P.origin,
    f1.trans P.rbar, f2.trans P.zmbar, f3.trans P.vbar, f4.trans P.tbar, f5.trans P.centre⟩, nb, rfl, rfl, rfl, rfl, rfl, ?_, ?_, ?_, rfl, rfl, rfl,
    readOrbitIf_drop e4⟩
  · intro h
    obtain ⟨g1, g2⟩ := i3 h
    refine ⟨?_, ?_, g2⟩
    · show b'.st.length = _
      rw [g1, hrl]
    · intro i hi
      show b'.st[i]! = T.row i
      rw [g1, hrow i hi]
  · show (if ofile.isSome then p else b'.gc) = _
    rw [f6, gc]
  · show (if ofile.isSome ∧ kw.otime.getD false then t else b'.tphys) = _
    rw [f7, tp]

end

end CT
