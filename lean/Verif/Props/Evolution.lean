/- Property theorems C146, C147: stellar evolution data. -/
import Verif.Spec.Evolution
import Verif.Lemmas.Vcirc

namespace CT

noncomputable section

theorem newEvo_holds (spun : Bool) : newEvo.Holds [] [] spun := by
  constructor <;> simp [newEvo]

theorem zipWith_map_map {α : Type} (f : ℝ → ℝ → ℝ) (a b : α → ℝ) (l : List α) : List.zipWith f (l.map a) (l.map b) = l.map (fun x => f (a x) (b x)) := by
  induction l with
  | nil => rfl
  | cons x l ih => simp [ih]

theorem bindingOf_rows (B : List PairEvo) :
    bindingOf (B.map PairEvo.m1) (B.map PairEvo.m2) (B.map PairEvo.semi) = .ok (B.map (fun b => 0.5 * b.m1 * b.m2 / b.semi)) := by
  unfold bindingOf
  rw [if_pos (by simp), zipWith_map_map, zipWith_map_map]

theorem addStars_evoRows {S : List StarEvo} {B : List PairEvo} {spun : Bool} {e : EvoTab} (h : e.Holds S B spun) (T : List StarEvo) (p q : Bool) :
    ∃ e', ((EvoRows.stars T p q).call spun).exec e = .ok e' ∧
      e'.Holds (S ++ T.map (fun s => { s with ep := if p then s.ep else 0, ospin := if q then s.ospin else 0 })) B spun := by
  refine ⟨_, rfl, ?_⟩
  constructor
  · simp [h.kw, Function.comp_def]
  · simp [h.logl, Function.comp_def]
  · simp [h.logr, Function.comp_def]
  · cases p <;> simp [appendOpt, h.ep, Function.comp_def]
  · cases q <;> simp [appendOpt, h.ospin, Function.comp_def]
  · simp [h.logl, Function.comp_def]
  · simp [h.logl, Function.comp_def]
  · exact h.id1
  · exact h.id2
  · exact h.kw1
  · exact h.kw2
  · exact h.kcm
  · exact h.ecc
  · exact h.pb
  · exact h.semi
  · exact h.m1
  · exact h.m2
  · exact h.logl1
  · exact h.logl2
  · exact h.logr1
  · exact h.logr2
  · exact h.ep1
  · exact h.ep2
  · exact h.ospin1
  · exact h.ospin2
  · exact h.eb
  · exact h.nb

theorem addBse_ok {a : BseArgs} {e : EvoTab} {eb : List ℝ} (h : bindingOf (e.m1 ++ a.m1) (e.m2 ++ a.m2) (e.semi ++ a.semi) = .ok eb) :
    addBse a e = .ok { e with
    id1 := e.id1 ++ a.id1
    id2 := e.id2 ++ a.id2
    kw1 := e.kw1 ++ a.kw1
    kw2 := e.kw2 ++ a.kw2
    kcm := e.kcm ++ a.kcm
    ecc := e.ecc ++ a.ecc
    pb := e.pb ++ a.pb
    semi := e.semi ++ a.semi
    m1 := e.m1 ++ a.m1
    m2 := e.m2 ++ a.m2
    logl1 := e.logl1 ++ a.logl1
    logl2 := e.logl2 ++ a.logl2
    logr1 := e.logr1 ++ a.logr1
    logr2 := e.logr2 ++ a.logr2
    ep1 := e.ep1 ++ a.ep1.getD []
    ep2 := e.ep2 ++ a.ep2.getD []
    ospin1 := e.ospin1 ++ a.ospin1.getD []
    ospin2 := e.ospin2 ++ a.ospin2.getD []
    eb := eb
    nb := (e.id1 ++ a.id1).length } := by
  unfold addBse
  simp only [h, bind, Except.bind, pure, Except.pure]

theorem addPairs_rows {S : List StarEvo} {B : List PairEvo} {spun : Bool} {e : EvoTab} (h : e.Holds S B spun) (C : List PairEvo) :
    ∃ e', ((EvoRows.pairs C).call spun).exec e = .ok e' ∧ e'.Holds S (B ++ C) spun := by
  have hb := bindingOf_rows (B ++ C)
  simp only [List.map_append] at hb
  rw [← h.m1, ← h.m2, ← h.semi] at hb
  refine ⟨_, addBse_ok hb, ?_⟩
  · constructor
    · exact h.kw
    · exact h.logl
    · exact h.logr
    · exact h.ep
    · exact h.ospin
    · exact h.lum
    · exact h.ltot
    · simp [h.id1]
    · simp [h.id2]
    · simp [h.kw1]
    · simp [h.kw2]
    · simp [h.kcm]
    · simp [h.ecc]
    · simp [h.pb]
    · simp [h.semi]
    · simp [h.m1]
    · simp [h.m2]
    · simp [h.logl1]
    · simp [h.logl2]
    · simp [h.logr1]
    · simp [h.logr2]
    · cases spun <;> simp [h.ep1]
    · cases spun <;> simp [h.ep2]
    · cases spun <;> simp [h.ospin1]
    · cases spun <;> simp [h.ospin2]
    · simp
    · simp [h.id1]

theorem evoRun_rows {spun : Bool} (L : List EvoRows) : ∀ {S : List StarEvo} {B : List PairEvo} {e : EvoTab}, e.Holds S B spun →
    ∃ e', evoRun (L.map (EvoRows.call spun)) e = .ok e' ∧ e'.Holds (S ++ L.flatMap EvoRows.stars') (B ++ L.flatMap EvoRows.pairs') spun := by
  induction L with
  | nil => intro S B e h; exact ⟨e, rfl, by simpa using h⟩
  | cons a L ih =>
    intro S B e h
    obtain ⟨e1, h1, k1⟩ : ∃ e1, (a.call spun).exec e = .ok e1 ∧ e1.Holds (S ++ a.stars') (B ++ a.pairs') spun := by
      cases a with
      | stars T p q => simpa [EvoRows.pairs', EvoRows.stars'] using addStars_evoRows h T p q
      | pairs C => simpa [EvoRows.stars', EvoRows.pairs'] using addPairs_rows h C
    obtain ⟨e2, h2, k2⟩ := ih k1
    refine ⟨e2, ?_, by simpa using k2⟩
    simp only [List.map_cons, evoRun, h1, bind, Except.bind]
    exact h2

/-- **C146 (tables).**  After any sequence of `add_sse` and `add_bse` (without `arg`; epochs and spins of binaries always or never given)
the columns of a new cluster are those of all rows given, in order: no star or binary is lost or moved against another column. -/
theorem C146_tables (spun : Bool) (L : List EvoRows) :
    ∃ e, evoRun (L.map (EvoRows.call spun)) newEvo = .ok e ∧ e.Holds (L.flatMap EvoRows.stars') (L.flatMap EvoRows.pairs') spun := by
  simpa using evoRun_rows L (newEvo_holds spun)

theorem maskIx_map {α β : Type} {mask : List Bool} {l : List α} (f : α → β) (h : mask.length = l.length) :
    maskIx mask (l.map f) = .ok ((maskSel mask l).map f) := by
  unfold maskIx
  rw [if_pos (by simpa using h), maskSel_map]

theorem evo_maskSel_filter {α : Type} (p : α → Bool) (l : List α) : maskSel (l.map p) l = l.filter p := by
  induction l with
  | nil => rfl
  | cons a l ih =>
    unfold maskSel at ih ⊢
    simp only [List.map_cons, List.zip_cons_cons, List.filter_cons]
    cases p a <;> simp [ih]

theorem pairMask_rows (ids : List ℤ) (B : List PairEvo) : pairMask ids (B.map PairEvo.id1) (B.map PairEvo.id2) =
    .ok (B.map (fun b => decide (b.id1 ∈ ids) || decide (b.id2 ∈ ids))) := by
  unfold pairMask
  rw [if_pos (by simp)]
  congr 1
  induction B with
  | nil => rfl
  | cons b B ih => simp [ih]

/-- **C146 (selection).**  The evolution data of a subcluster are the rows of its stars, in order, and of the binaries with at least one
component among them. -/
theorem C146_subset {S : List StarEvo} {B : List PairEvo} {spun : Bool} {e : EvoTab} (h : e.Holds S B spun) {mask : List Bool}
    (hm : mask.length = S.length) (ids : List ℤ) :
    ∃ s, subEvo mask ids e = .ok s ∧
      s.Holds (maskSel mask S) (B.filter (fun b => decide (b.id1 ∈ ids) || decide (b.id2 ∈ ids))) spun := by
  have h1 : ∃ s1, evoSelSse mask e { newEvo with nb := e.nb } = .ok s1 ∧
      { s1 with nb := 0 }.Holds (maskSel mask S) [] spun ∧ s1.nb = e.nb := by
    unfold evoSelSse
    by_cases hS : S = []
    · subst hS
      have : mask = [] := List.length_eq_zero_iff.mp hm
      subst this
      rw [if_neg (by simp [h.logl]), if_neg (by simp [h.kw])]
      exact ⟨_, rfl, newEvo_holds spun, rfl⟩
    · have hp : 0 < S.length := List.length_pos_iff.mpr hS
      rw [if_pos (by simpa [h.logl] using hp)]
      simp only [h.kw, h.logl, h.logr, h.ep, h.ospin, maskIx_map _ hm, bind, Except.bind, List.length_map]
      rw [if_pos ⟨hp.ne', hp.ne'⟩]
      refine ⟨_, rfl, ?_, rfl⟩
      constructor <;> simp [newEvo, Function.comp_def]
  obtain ⟨s1, e1, k1, n1⟩ := h1
  unfold subEvo
  simp only [e1, bind, Except.bind]
  unfold evoSelBse
  by_cases hB : B = []
  · subst hB
    rw [if_neg (by simp [h.id2])]
    refine ⟨s1, rfl, ?_⟩
    have hn : s1.nb = 0 := n1.trans h.nb
    have : ({ s1 with nb := 0 } : EvoTab) = s1 := by rw [← hn]
    rw [this] at k1
    exact k1
  · have hp : 0 < B.length := List.length_pos_iff.mpr hB
    rw [if_pos (by simpa [h.id2] using hp)]
    obtain ⟨P, hP⟩ : ∃ P : PairEvo → Bool, P = fun b => decide (b.id1 ∈ ids) || decide (b.id2 ∈ ids) := ⟨_, rfl⟩
    have hl : (B.map P).length = B.length := by simp
    have q1 := pairMask_rows ids B
    rw [← hP] at q1 ⊢
    have z := addPairs_rows k1 (B.filter P)
    have hnb : ∀ a : BseArgs, addBse a { s1 with nb := 0 } = addBse a s1 := fun a => rfl
    simp only [h.id1, h.id2, q1, bind, Except.bind, maskIx_map _ hl, evo_maskSel_filter, h.kw1, h.kw2, h.kcm, h.ecc, h.pb, h.semi, h.m1, h.m2,
      h.logl1, h.logl2, h.logr1, h.logr2]
    cases spun with
    | true =>
      rw [if_pos (by simp [h.ep1, h.ospin1, hp.ne'])]
      simp only [h.ep1, h.ep2, h.ospin1, h.ospin2, if_true, maskIx_map _ hl, evo_maskSel_filter]
      obtain ⟨s, z1, z2⟩ := z
      exact ⟨s, z1, z2⟩
    | false =>
      rw [if_neg (by simp [h.ep1])]
      obtain ⟨s, z1, z2⟩ := z
      exact ⟨s, z1, z2⟩

theorem pyPos_ok {n k : ℕ} (h : k < n) : pyPos n (k : ℤ) = .ok k := by
  unfold pyPos
  rw [if_pos (by omega)]
  simp

theorem putAt_ok {α : Type} (P : List (ℕ × α)) : ∀ {a : List α}, (∀ p ∈ P, p.1 < a.length) → (P.map Prod.fst).Nodup →
    ∃ r, putAt (P.map (fun p => ((p.1 : ℤ), p.2))) a = .ok r ∧ r.length = a.length ∧ (∀ p ∈ P, r[p.1]? = some p.2) ∧
      ∀ i, i ∉ P.map Prod.fst → r[i]? = a[i]? := by
  induction P with
  | nil => intro a _ _; exact ⟨a, rfl, rfl, by simp, by simp⟩
  | cons p P ih =>
    intro a h hn
    simp only [List.map_cons, List.nodup_cons] at hn
    obtain ⟨r, h1, h2, h3, h4⟩ := ih (a := a.set p.1 p.2) (fun q hq => by simpa using h q (by simp [hq])) hn.2
    refine ⟨r, ?_, by simpa using h2, ?_, ?_⟩
    · simp only [List.map_cons, putAt, pyPos_ok (h p (by simp)), bind, Except.bind]
      exact h1
    · intro q hq
      rcases List.mem_cons.mp hq with rfl | hq
      · rw [h4 _ hn.1, List.getElem?_set_self (h q (by simp))]
      · exact h3 q hq
    · intro i hi
      simp only [List.map_cons, List.mem_cons, not_or] at hi
      rw [h4 i hi.2, List.getElem?_set_ne (fun e => hi.1 e.symm)]

/-- Assignment of a new column at distinct places after `k` old entries. -/
theorem assignAt_ok {α : Type} {z : α} {k : ℕ} {arg : List ℕ} {v old a : List α} (hl : arg.length = v.length) (hb : ∀ i ∈ arg, i < v.length)
    (hd : arg.Nodup) (hk : old.length = k) (ha : a = old ++ List.replicate v.length z) :
    ∃ r, assignAt ((arg.map (fun i : ℕ => (i : ℤ))).map (fun i => (k : ℤ) + i)) v a = .ok r ∧ r.length = k + v.length ∧
      (∀ i < k, r[i]? = old[i]?) ∧ ∀ j < v.length, r[k + arg[j]!]? = v[j]? := by
  subst ha
  have e : ((arg.map (fun i : ℕ => (i : ℤ))).map (fun i => (k : ℤ) + i)).zip v = ((arg.map (k + ·)).zip v).map (fun p => ((p.1 : ℤ), p.2)) := by
    clear hl hb hd
    induction arg generalizing v with
    | nil => rfl
    | cons i arg ih => cases v with
      | nil => rfl
      | cons x v =>
        simp only [List.map_cons, List.zip_cons_cons, ih]
        simp
  have hf : ((arg.map (k + ·)).zip v).map Prod.fst = arg.map (k + ·) := List.map_fst_zip (by simp [hl])
  obtain ⟨r, h1, h2, h3, h4⟩ := putAt_ok ((arg.map (k + ·)).zip v) (a := old ++ List.replicate v.length z)
    (by
      rintro ⟨i, x⟩ hp
      obtain ⟨j, hj, rfl⟩ := List.mem_map.mp (List.of_mem_zip hp).1
      have := hb j hj
      simp only [List.length_append, List.length_replicate]
      omega)
    (by rw [hf]; exact hd.map (fun a b h => by simpa using h))
  refine ⟨r, ?_, ?_, ?_, ?_⟩
  · unfold assignAt
    rw [if_pos (by simpa using hl), e, h1]
  · rw [h2]; simp [hk]
  · intro i hi
    rw [h4 i (by rw [hf]; simp; intro x _; omega), List.getElem?_append_left (by omega)]
  · intro j hj
    have hj' : j < arg.length := by omega
    rw [getElem!_pos arg j hj', List.getElem?_eq_getElem hj]
    refine h3 (k + arg[j], v[j]) ?_
    have : ((arg.map (k + ·)).zip v)[j]'(by simp; omega) = (k + arg[j], v[j]) := by simp
    rw [← this]
    exact List.getElem_mem _

theorem zerosAfter_eq {α : Type} {z : α} {a : List α} {kw : List ℝ} (h : a.length = kw.length) (n : ℕ) :
    zerosAfter z kw.isEmpty n a = a ++ List.replicate n z := by
  unfold zerosAfter
  cases kw with
  | nil => rw [List.length_eq_zero_iff.mp h]; rfl
  | cons x l => rfl

theorem putNone_length (P : List ℤ) : ∀ {a r : List (Option ℝ)}, putAt (P.map (fun i : ℤ => (i, none))) a = .ok r → r.length = a.length := by
  induction P with
  | nil => intro a r h; cases h; rfl
  | cons p P ih =>
    intro a r h
    simp only [List.map_cons, putAt] at h
    obtain ⟨k, -, h⟩ := bind_ok h
    rw [ih h]
    simp

/-- Evolution data given with their places: `T[j]` belongs to the new star number `arg[j]`. -/
def placedCall (T : List StarEvo) (arg : List ℕ) (ep ospin : Bool) : SseArgs :=
  { kw := T.map StarEvo.kw, logl := T.map StarEvo.logl, logr := T.map StarEvo.logr
    ep := if ep then some (T.map StarEvo.ep) else none
    ospin := if ospin then some (T.map StarEvo.ospin) else none
    arg := some (arg.map (fun i : ℕ => (i : ℤ))) }

/-- Epochs or spins assigned at places: given ones arrive, missing ones become NaN. -/
theorem assignOpt_ok {k : ℕ} {arg : List ℕ} {v : List ℝ} {old a : List (Option ℝ)} (b : Bool) (hl : arg.length = v.length)
    (hb : ∀ i ∈ arg, i < v.length) (hd : arg.Nodup) (hk : old.length = k) (ha : a = old ++ List.replicate v.length (some 0)) :
    ∃ r, assignOpt ((arg.map (fun i : ℕ => (i : ℤ))).map (fun i => (k : ℤ) + i)) (if b then some v else none) a = .ok r ∧
      r.length = k + v.length ∧ (∀ i < k, r[i]? = old[i]?) ∧ ∀ j < v.length, r[k + arg[j]!]? = some (if b then some v[j]! else none) := by
  cases b with
  | true =>
    obtain ⟨r, h1, h2, h3, h4⟩ := assignAt_ok (z := some 0) (v := v.map some) (arg := arg) (k := k) (old := old) (a := a) (by simpa using hl)
      (by simpa using hb) hd hk (by simpa using ha)
    refine ⟨r, h1, by simpa using h2, h3, ?_⟩
    intro j hj
    rw [h4 j (by simpa using hj)]
    simp [hj]
  | false =>
    obtain ⟨r, h1, h2, h3, h4⟩ := assignAt_ok (z := some 0) (v := v.map (fun _ => (none : Option ℝ))) (arg := arg) (k := k) (old := old) (a := a)
      (by simpa using hl) (by simpa using hb) hd hk (by simpa using ha)
    refine ⟨r, ?_, by simpa using h2, h3, ?_⟩
    · rw [← h1]
      show putAt _ a = if _ then _ else _
      rw [if_pos (by simpa using hl)]
      congr 1
      clear h1 h2 h3 h4 ha hb hd
      induction arg generalizing v with
      | nil => rfl
      | cons i arg ih => cases v with
        | nil => simp at hl
        | cons x v => simpa using ih (by simpa using hl)
    · intro j hj
      rw [h4 j (by simpa using hj)]
      simp [hj]

/-- **C147 (partial: places).**  With `arg` types, luminosities and radii go to the stars named, and the old entries stay; epochs and spins do
too, but then they are appended once more, so that their columns are longer than the others. -/
theorem C147_places_partial {S : List StarEvo} {B : List PairEvo} {spun : Bool} {e : EvoTab} (h : e.Holds S B spun) {T : List StarEvo} {arg : List ℕ}
    (hl : arg.length = T.length) (hb : ∀ i ∈ arg, i < T.length) (hd : arg.Nodup) (p q : Bool) :
    ∃ e', addSse (placedCall T arg p q) e = .ok e' ∧
      e'.kw.length = S.length + T.length ∧ e'.logl.length = S.length + T.length ∧ e'.logr.length = S.length + T.length ∧
      e'.ep.length = S.length + T.length + T.length ∧ e'.ospin.length = S.length + T.length + T.length ∧
      (∀ i < S.length, e'.kw[i]? = e.kw[i]? ∧ e'.logl[i]? = e.logl[i]? ∧ e'.logr[i]? = e.logr[i]? ∧ e'.ep[i]? = e.ep[i]? ∧
        e'.ospin[i]? = e.ospin[i]?) ∧
      (∀ j (hj : j < T.length), e'.kw[S.length + arg[j]!]? = some T[j].kw ∧ e'.logl[S.length + arg[j]!]? = some T[j].logl ∧
        e'.logr[S.length + arg[j]!]? = some T[j].logr ∧ e'.ep[S.length + arg[j]!]? = some (if p then some T[j].ep else none) ∧
        e'.ospin[S.length + arg[j]!]? = some (if q then some T[j].ospin else none)) ∧
      e'.id1 = e.id1 ∧ e'.id2 = e.id2 ∧ e'.lum = e'.logl.map (fun x : ℝ => (10 : ℝ) ^ x) := by
  have lk : e.kw.length = S.length := by simp [h.kw]
  have ll : e.logl.length = e.kw.length := by simp [h.kw, h.logl]
  have lr : e.logr.length = e.kw.length := by simp [h.kw, h.logr]
  have le : e.ep.length = e.kw.length := by simp [h.kw, h.ep]
  have lo : e.ospin.length = e.kw.length := by simp [h.kw, h.ospin]
  obtain ⟨a1, k1, k2, k3, k4⟩ := assignAt_ok (z := (0 : ℝ)) (v := T.map StarEvo.kw) (arg := arg) (old := e.kw) (by simpa using hl) (by simpa using hb)
    hd rfl rfl
  obtain ⟨a2, l1, l2, l3, l4⟩ := assignAt_ok (z := (0 : ℝ)) (v := T.map StarEvo.logl) (arg := arg) (old := e.logl) (by simpa using hl)
    (by simpa using hb) hd ll rfl
  obtain ⟨a3, m1, m2, m3, m4⟩ := assignAt_ok (z := (0 : ℝ)) (v := T.map StarEvo.logr) (arg := arg) (old := e.logr) (by simpa using hl)
    (by simpa using hb) hd lr rfl
  obtain ⟨a4, n1, n2, n3, n4⟩ := assignOpt_ok (v := T.map StarEvo.ep) (arg := arg) (old := e.ep) p (by simpa using hl)
    (by simpa using hb) hd le rfl
  obtain ⟨a5, o1, o2, o3, o4⟩ := assignOpt_ok (v := T.map StarEvo.ospin) (arg := arg) (old := e.ospin) q (by simpa using hl)
    (by simpa using hb) hd lo rfl
  have hx : sseColumns (placedCall T arg p q) e = .ok { e with kw := a1, logl := a2, logr := a3, ep := a4, ospin := a5 } := by
    unfold sseColumns placedCall
    simp only [Option.elim_some, List.length_map, zerosAfter_eq rfl, zerosAfter_eq ll, zerosAfter_eq lr, zerosAfter_eq le, zerosAfter_eq lo]
    simp only [List.length_map] at k1 l1 m1 n1 o1
    simp only [k1, l1, m1, n1, o1, bind, Except.bind, pure, Except.pure]
  simp only [List.length_map] at k2 l2 m2 n2 o2 k4 l4 m4 n4 o4
  rw [lk] at k2 l2 m2 n2 o2 k3 l3 m3 n3 o3 k4 l4 m4 n4 o4
  have ap : ∀ (b : Bool) (f : StarEvo → ℝ) (a : List (Option ℝ)) , (appendOpt (if b then some (T.map f) else none) T.length a).length = a.length + T.length := by
    intro b f a
    cases b <;> simp [appendOpt]
  have al : ∀ (v : Option (List ℝ)) (n : ℕ) (a : List (Option ℝ)) (i : ℕ), i < a.length → (appendOpt v n a)[i]? = a[i]? := by
    intro v n a i hi
    unfold appendOpt
    rw [List.getElem?_append_left hi]
  have hy : addSse (placedCall T arg p q) e = .ok { e with
      kw := a1
      logl := a2
      logr := a3
      lum := a2.map (fun x : ℝ => (10 : ℝ) ^ x)
      ltot := (a2.map (fun x : ℝ => (10 : ℝ) ^ x)).sum
      ep := appendOpt (placedCall T arg p q).ep (placedCall T arg p q).kw.length a4
      ospin := appendOpt (placedCall T arg p q).ospin (placedCall T arg p q).kw.length a5 } := by
    unfold addSse
    simp only [hx, bind, Except.bind, pure, Except.pure]
  refine ⟨_, hy, k2, l2, m2, ?_, ?_, ?_, ?_, rfl, rfl, rfl⟩
  · show (appendOpt _ (T.map StarEvo.kw).length a4).length = _
    rw [List.length_map]
    unfold placedCall
    rw [ap, n2]
  · show (appendOpt _ (T.map StarEvo.kw).length a5).length = _
    rw [List.length_map]
    unfold placedCall
    rw [ap, o2]
  · intro i hi
    exact ⟨k3 i hi, l3 i hi, m3 i hi, (al _ _ _ i (by omega)).trans (n3 i hi), (al _ _ _ i (by omega)).trans (o3 i hi)⟩
  · intro j hj
    have hb' : arg[j]! < T.length := by
      rw [getElem!_pos arg j (by omega)]
      exact hb _ (List.getElem_mem _)
    refine ⟨?_, ?_, ?_, (al _ _ _ _ (by omega)).trans ?_, (al _ _ _ _ (by omega)).trans ?_⟩
    · rw [k4 j hj]; simp [hj]
    · rw [l4 j hj]; simp [hj]
    · rw [m4 j hj]; simp [hj]
    · rw [n4 j hj]; simp [hj]
    · rw [o4 j hj]; simp [hj]

/-- **C147 (violated: places).**  After `add_sse` with `arg` of at least one star no subcluster can be made any more: every selection of
the stars raises `IndexError`. -/
theorem C147_subset_violated {S : List StarEvo} {B : List PairEvo} {spun : Bool} {e : EvoTab} (h : e.Holds S B spun) {T : List StarEvo} {arg : List ℕ}
    (hl : arg.length = T.length) (hb : ∀ i ∈ arg, i < T.length) (hd : arg.Nodup) (hT : T ≠ []) (p q : Bool) {mask : List Bool}
    (hm : mask.length = S.length + T.length) (ids : List ℤ) :
    ∃ e', addSse (placedCall T arg p q) e = .ok e' ∧ subEvo mask ids e' = .error .indexError := by
  obtain ⟨e', h1, h2, h3, h4, h5, h6, -⟩ := C147_places_partial h hl hb hd p q
  have hp : 0 < T.length := List.length_pos_iff.mpr hT
  refine ⟨e', h1, ?_⟩
  have ix : ∀ {α : Type} (l : List α), l.length = S.length + T.length → maskIx mask l = .ok (maskSel mask l) := by
    intro α l hl
    unfold maskIx
    rw [if_pos (hm.trans hl.symm)]
  have ne : maskIx mask e'.ep = .error .indexError := by
    unfold maskIx
    rw [if_neg (by omega)]
  unfold subEvo evoSelSse
  rw [if_pos (by omega)]
  simp only [ix _ h2, ix _ h3, ix _ h4, bind, Except.bind]
  rw [if_pos (by omega)]
  simp only [ne]

/-- **C147 (violated: binaries).**  If epochs and spins are given for some binaries only, they are not with their binaries: those of the later
call stand at the place of the earlier binaries, and every subcluster raises `IndexError`. -/
theorem C147_binaries_violated {S : List StarEvo} {B C : List PairEvo} {e : EvoTab} (h : e.Holds S B false) (hB : B ≠ []) (hC : C ≠ [])
    {mask : List Bool} (hm : mask.length = S.length) (ids : List ℤ) :
    ∃ e', ((EvoRows.pairs C).call true).exec e = .ok e' ∧ e'.id1 = (B ++ C).map PairEvo.id1 ∧ e'.ep1 = C.map PairEvo.ep1 ∧
      subEvo mask ids e' = .error .indexError := by
  have hb := bindingOf_rows (B ++ C)
  simp only [List.map_append] at hb
  rw [← h.m1, ← h.m2, ← h.semi] at hb
  obtain ⟨e', hx, he⟩ : ∃ e', ((EvoRows.pairs C).call true).exec e = .ok e' ∧ e' = _ := ⟨_, addBse_ok hb, rfl⟩
  have kk : e'.kw = e.kw ∧ e'.logl = e.logl ∧ e'.logr = e.logr ∧ e'.ep = e.ep ∧ e'.ospin = e.ospin ∧ e'.nb = (B ++ C).length := by
    subst he
    exact ⟨rfl, rfl, rfl, rfl, rfl, by simp [h.id1]⟩
  have i1 : e'.id1 = (B ++ C).map PairEvo.id1 := by subst he; simp [h.id1]
  have i2 : e'.id2 = (B ++ C).map PairEvo.id2 := by subst he; simp [h.id2]
  have i3 : e'.ep1 = C.map PairEvo.ep1 := by subst he; simp [h.ep1]
  have i4 : e'.ospin1 = C.map PairEvo.ospin1 := by subst he; simp [h.ospin1]
  have j1 : e'.kw1 = (B ++ C).map PairEvo.kw1 := by subst he; simp [h.kw1]
  have j2 : e'.kw2 = (B ++ C).map PairEvo.kw2 := by subst he; simp [h.kw2]
  have j3 : e'.kcm = (B ++ C).map PairEvo.kcm := by subst he; simp [h.kcm]
  have j4 : e'.ecc = (B ++ C).map PairEvo.ecc := by subst he; simp [h.ecc]
  have j5 : e'.pb = (B ++ C).map PairEvo.pb := by subst he; simp [h.pb]
  have j6 : e'.semi = (B ++ C).map PairEvo.semi := by subst he; simp [h.semi]
  have j7 : e'.m1 = (B ++ C).map PairEvo.m1 := by subst he; simp [h.m1]
  have j8 : e'.m2 = (B ++ C).map PairEvo.m2 := by subst he; simp [h.m2]
  have j9 : e'.logl1 = (B ++ C).map PairEvo.logl1 := by subst he; simp [h.logl1]
  have j10 : e'.logl2 = (B ++ C).map PairEvo.logl2 := by subst he; simp [h.logl2]
  have j11 : e'.logr1 = (B ++ C).map PairEvo.logr1 := by subst he; simp [h.logr1]
  have j12 : e'.logr2 = (B ++ C).map PairEvo.logr2 := by subst he; simp [h.logr2]
  refine ⟨e', hx, i1, i3, ?_⟩
  obtain ⟨s1, hs⟩ : ∃ s1, evoSelSse mask e' { newEvo with nb := e'.nb } = .ok s1 := by
    unfold evoSelSse
    by_cases hS : S = []
    · subst hS
      rw [if_neg (by simp [kk.2.1, h.logl]), if_neg (by simp [kk.1, h.kw])]
      exact ⟨_, rfl⟩
    · have hp : 0 < S.length := List.length_pos_iff.mpr hS
      rw [if_pos (by simpa [kk.2.1, h.logl] using hp)]
      simp only [kk.1, kk.2.1, kk.2.2.1, kk.2.2.2.1, kk.2.2.2.2.1, h.kw, h.logl, h.logr, h.ep, h.ospin, maskIx_map _ hm, bind, Except.bind,
        List.length_map]
      rw [if_pos ⟨hp.ne', hp.ne'⟩]
      exact ⟨_, rfl⟩
  have pB : 0 < B.length := List.length_pos_iff.mpr hB
  have pC : 0 < C.length := List.length_pos_iff.mpr hC
  obtain ⟨P, hP⟩ : ∃ P : PairEvo → Bool, P = fun b => decide (b.id1 ∈ ids) || decide (b.id2 ∈ ids) := ⟨_, rfl⟩
  have q1 := pairMask_rows ids (B ++ C)
  rw [← hP] at q1
  have hl : ((B ++ C).map P).length = (B ++ C).length := by simp
  have ne : maskIx ((B ++ C).map P) (C.map PairEvo.ep1) = .error .indexError := by
    unfold maskIx
    rw [if_neg (by simp; omega)]
  unfold subEvo
  simp only [hs, bind, Except.bind]
  unfold evoSelBse
  rw [if_pos (by simp [i2]; omega)]
  simp only [i1, i2, q1, j1, j2, j3, j4, j5, j6, j7, j8, j9, j10, j11, j12, maskIx_map _ hl, bind, Except.bind]
  rw [if_pos (by simp [i3, i4]; omega)]
  simp only [i3, ne]

/-- Concrete case: two stars, then one more with its epoch and a binary; the first and the last star selected. -/
example : ∃ e s, evoRun ([.stars [⟨1, 2, 3, 0, 0⟩, ⟨4, 5, 6, 0, 0⟩] false false, .stars [⟨7, 8, 9, 10, 11⟩] true true,
      .pairs [⟨1, 2, 0, 0, 0, 0, 1, 2, 3, 4, 0, 0, 0, 0, 0, 0, 0, 0⟩]].map (EvoRows.call false)) newEvo = .ok e ∧
    subEvo [true, false, true] [1, 3] e = .ok s ∧ s.kw = [1, 7] ∧ s.ep = [some 0, some 10] ∧ s.id2 = [2] ∧ s.eb = [3] := by
  obtain ⟨e, h1, h2⟩ := C146_tables false [.stars [⟨1, 2, 3, 0, 0⟩, ⟨4, 5, 6, 0, 0⟩] false false, .stars [⟨7, 8, 9, 10, 11⟩] true true,
      .pairs [⟨1, 2, 0, 0, 0, 0, 1, 2, 3, 4, 0, 0, 0, 0, 0, 0, 0, 0⟩]]
  obtain ⟨s, h3, h4⟩ := C146_subset h2 (mask := [true, false, true]) rfl [1, 3]
  refine ⟨e, s, h1, h3, ?_, ?_, ?_, ?_⟩
  · rw [h4.kw]; simp [maskSel, EvoRows.stars']
  · rw [h4.ep]; simp [maskSel, EvoRows.stars']
  · rw [h4.id2]; simp [EvoRows.pairs']
  · rw [h4.eb]; norm_num [EvoRows.pairs']

/-- The hypotheses of C147 are those of two stars given in reverse order. -/
example : ∃ e', addSse (placedCall [⟨1, 2, 3, 4, 5⟩, ⟨6, 7, 8, 9, 10⟩] [1, 0] true true) newEvo = .ok e' ∧
    subEvo [true, true] [] e' = .error .indexError :=
  C147_subset_violated (newEvo_holds true) rfl (by decide) (by decide) (by simp) true true rfl []

end

end CT
