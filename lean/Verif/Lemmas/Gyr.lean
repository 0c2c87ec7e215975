/- Reading a well-formed gyrfalcON file. -/
import Verif.Spec.Gyr
import Verif.Lemmas.IO
import Verif.Props.Stars

namespace CT

noncomputable section

open Classical

theorem chop_push (s : String) (z : Char) : chop (String.ofList (s.toList ++ [z])) = s := by
  unfold chop
  simp

theorem hash_not_plain {d : Toks} (h : ∀ w ∈ d, '#' ∉ w.toList) : "#" ∉ d := by
  intro hm
  exact h _ hm (by decide)

theorem gyrHead_step {P : Parse} {k : ℕ} {h : GHead} {d : Toks} {F : List Toks} (hd : "#" ∈ d) :
    gyrHead P (k + 1) h (d :: F) = (gyrHeadLine P d h).bind (fun h => gyrHead P k h F) := by
  have hne : d ≠ [] := by rintro rfl; simp at hd
  rw [gyrHead, if_neg (show ¬(d :: F).headD [] = [] from hne), if_neg (show ¬"#" ∉ (d :: F).headD [] from not_not.mpr hd)]
  rfl

/-- The header loop, from any state. -/
theorem gyrHead_run (P : Parse) {n : ℤ} {t : ℝ} (rest : List Toks) : ∀ (H : List Toks) (h : GHead), (∀ d ∈ H, "#" ∈ d) →
    (∀ d ∈ H, mentions "Ntot" d → ∃ (v w s : String) (z : Char) (more : Toks), d = v :: w :: String.ofList (s.toList ++ [z]) :: more ∧ P.int s = .ok n) →
    (∀ d ∈ H, mentions "time" d → ∃ (v w s : String) (more : Toks), d = v :: w :: s :: more ∧ P.flt s = .ok t) →
    gyrHead P H.length h (H ++ rest) = .ok (some (⟨if ∃ d ∈ H, mentions "Ntot" d then n else h.ntot,
      if ∃ d ∈ H, mentions "time" d then t else h.tphys⟩, none, rest)) := by
  intro H
  induction H with
  | nil => intro h _ _ _; simp [gyrHead]
  | cons d H ih =>
    intro h hc hn ht
    have hd := hc d (by simp)
    have hline : gyrHeadLine P d h = .ok ⟨if mentions "Ntot" d then n else h.ntot, if mentions "time" d then t else h.tphys⟩ := by
      unfold gyrHeadLine
      by_cases h1 : mentions "Ntot" d
      · obtain ⟨v, w, s, z, more, e, hs⟩ := hn d (by simp) h1
        have e2 : tokAt d 2 = .ok (String.ofList (s.toList ++ [z])) := by rw [e]; rfl
        by_cases h2 : mentions "time" d
        · obtain ⟨v', w', s', more', e', hs'⟩ := ht d (by simp) h2
          have e3 : tokAt d 2 = .ok s' := by rw [e']; rfl
          simp only [if_pos h1, if_pos h2, bind, Except.bind, pure, Except.pure]
          rw [show (tokAt d 2) = .ok s' from e3] at e2 ⊢
          cases e2
          simp only [chop_push, hs, hs']
        · simp only [if_pos h1, if_neg h2, bind, Except.bind, pure, Except.pure, e2, chop_push, hs]
      · by_cases h2 : mentions "time" d
        · obtain ⟨v', w', s', more', e', hs'⟩ := ht d (by simp) h2
          have e3 : tokAt d 2 = .ok s' := by rw [e']; rfl
          simp only [if_neg h1, if_pos h2, bind, Except.bind, pure, Except.pure, e3, hs']
        · simp only [if_neg h1, if_neg h2, bind, Except.bind, pure, Except.pure]
    rw [List.length_cons, List.cons_append, gyrHead_step hd, hline]
    simp only [Except.bind]
    rw [ih _ (fun x hx => hc x (List.mem_cons_of_mem _ hx)) (fun x hx => hn x (List.mem_cons_of_mem _ hx))
      (fun x hx => ht x (List.mem_cons_of_mem _ hx))]
    have q : ∀ (Q : Toks → Prop) {α : Type} (x y : α), (if ∃ d ∈ H, Q d then x else if Q d then x else y) = if ∃ e ∈ d :: H, Q e then x else y := by
      intro Q α x y
      by_cases h1 : Q d <;> by_cases h2 : ∃ d ∈ H, Q d <;> simp [h1, h2]
    rw [← q, ← q]

theorem gyrHead_header {P : Parse} {n : ℕ} {t : ℝ} {H : List Toks} (h : IsGyrHeader P n t H) (h0 : GHead) (rest : List Toks) :
    gyrHead P H.length h0 (H ++ rest) = .ok (some (⟨n, t⟩, none, rest)) := by
  rw [gyrHead_run P rest H h0 h.comment h.num h.time, if_pos h.hasN, if_pos h.hasT]

/-- The header loop beyond the header. -/
theorem gyrHead_more {P : Parse} {j : ℕ} {F : List Toks} {r : GHead} {rest : List Toks} : ∀ (H : List Toks) (h : GHead), (∀ d ∈ H, "#" ∈ d) →
    gyrHead P H.length h (H ++ F) = .ok (some (r, none, rest)) → gyrHead P (H.length + j) h (H ++ F) = gyrHead P j r rest := by
  intro H
  induction H with
  | nil =>
    intro h _ e
    simp only [List.length_nil, gyrHead, Except.ok.injEq, Option.some.injEq, Prod.mk.injEq, true_and] at e
    simp only [List.length_nil, Nat.zero_add, List.nil_append] at e ⊢
    rw [e.1, e.2]
  | cons d H ih =>
    intro h hc e
    have hd := hc d (by simp)
    rw [List.length_cons, List.cons_append, gyrHead_step hd] at e
    rw [List.length_cons, Nat.add_right_comm, List.cons_append, gyrHead_step hd]
    obtain ⟨h', e1, e⟩ := bind_ok e
    rw [e1]
    exact ih h' (fun x hx => hc x (List.mem_cons_of_mem _ hx)) e

/-- A header of at most `skip` lines followed by a row. -/
theorem gyrHead_upto {P : Parse} {skip n : ℕ} {t : ℝ} {H : List Toks} (h : IsGyrHeader P n t H) (hl : H.length ≤ skip) (h0 : GHead) {d : Toks}
    (F : List Toks) (hd : d ≠ []) (hd' : "#" ∉ d) :
    gyrHead P skip h0 (H ++ d :: F) = .ok (some (⟨n, t⟩, if H.length = skip then none else some d, if H.length = skip then d :: F else F)) := by
  have e := gyrHead_header h h0 (d :: F)
  have e2 := gyrHead_more (j := skip - H.length) H h0 h.comment e
  rw [Nat.add_sub_cancel' hl] at e2
  rw [e2]
  by_cases hs : H.length = skip
  · rw [if_pos hs, if_pos hs, hs, Nat.sub_self, gyrHead]
  · rw [if_neg hs, if_neg hs]
    obtain ⟨j, hj⟩ : ∃ j, skip - H.length = j + 1 := ⟨skip - H.length - 1, by omega⟩
    rw [hj, gyrHead, if_neg (show ¬(d :: F).headD [] = [] from hd), if_pos (show "#" ∉ (d :: F).headD [] from hd')]
    rfl

theorem gyrBody_over {P : Parse} {cols k : ℕ} {d : Toks} {F : List Toks} : gyrBody P cols (k + 1) (some d) F = gyrBody P cols (k + 1) none (d :: F) := by
  simp [gyrBody]

theorem gyrHead_end {P : Parse} {skip : ℕ} (h : 0 < skip) (h0 : GHead) : gyrHead P skip h0 [] = .ok none := by
  cases skip with
  | zero => omega
  | succ k => simp [gyrHead]

/-- A row cut to the columns that are read. -/
def cut (cols : ℕ) (r : List ℝ) : List ℝ := (List.range cols).map (fun k => r[k]!)

theorem cut_get {cols k : ℕ} (r : List ℝ) (h : k < cols) : (cut cols r)[k]! = r[k]! := get!_range_map h

theorem cut_length (cols : ℕ) (r : List ℝ) : (cut cols r).length = cols := by simp [cut]

theorem floats_row {P : Parse} {r : List ℝ} {d : Toks} (h : IsGyrRow P r d) : ∀ ks : List ℕ, (∀ k ∈ ks, k < r.length) →
    floats P d ks = .ok (ks.map (fun k => r[k]!)) := by
  intro ks
  induction ks with
  | nil => intro _; rfl
  | cons k ks ih =>
    intro hk
    have hk0 := hk k (by simp)
    have hl := h.vals.length_eq
    have e1 : tokAt d k = .ok d[k]! := by unfold tokAt; rw [if_pos (by omega)]
    have e2 : P.flt d[k]! = .ok r[k]! := by
      rw [getElem!_pos d k (by omega), getElem!_pos r k hk0]
      exact h.vals.get (by omega) hk0
    simp only [floats, e1, e2, ih (fun k hk' => hk k (List.mem_cons_of_mem _ hk')), bind, Except.bind, pure, Except.pure, List.map_cons]

theorem gyrBody_rows {P : Parse} {cols : ℕ} (rest : List Toks) {rows : List (List ℝ)} {B : List Toks} (h : List.Forall₂ (IsGyrRow P) rows B) :
    (∀ r ∈ rows, cols ≤ r.length) → gyrBody P cols rows.length none (B ++ rest) = .ok (rows.map (cut cols), rest) := by
  induction h with
  | nil => intro _; rfl
  | @cons r d rows B h1 h2 ih =>
    intro hc
    have hr := hc r (by simp)
    rw [List.length_cons, gyrBody]
    simp only [Option.getD_none, List.cons_append, List.headD_cons, List.tail_cons, Option.isSome_none, Bool.false_eq_true, if_false]
    rw [if_neg (hash_not_plain h1.plain), floats_row h1 _ (fun k hk => lt_of_lt_of_le (List.mem_range.mp hk) hr)]
    simp only [ih (fun r hr => hc r (List.mem_cons_of_mem _ hr)), bind, Except.bind, pure, Except.pure, List.map_cons]
    rfl

/-! ### the stars -/

theorem gyrArgs_fits (id0 : ℤ) {rows : List (List ℝ)} (h : rows ≠ []) : (gyrArgs id0 rows).Fits rows.length := by
  have hp : 1 ≤ rows.length := by
    cases rows with
    | nil => exact absurd rfl h
    | cons r rows => simp
  refine ⟨hp, ?_, ?_, ?_, ?_, ?_, ?_, ?_, ?_, ?_, ?_, .inr (.inl trivial)⟩
  all_goals first
    | (simp [gyrArgs, Val.fits]; done)
    | (intro v hv; simp only [gyrArgs] at hv; cases hv; simp [Val.fits])

theorem gyr_added (id0 : ℤ) {rows : List (List ℝ)} (h : rows ≠ []) (u : Option Units) (o : Option Origin) (t : ℝ) :
    ∃ T, addStars (gyrArgs id0 rows) 0 false true (blankTab u o t) = .ok T ∧
      T.base.st = rows.map (fun l => ⟨l[1]!, l[2]!, l[3]!, l[4]!, l[5]!, l[6]!⟩) ∧ T.base.m = rows.map (fun l => l[0]!) ∧
      T.base.units = u ∧ T.base.origin = o ∧ T.base.tphys = t ∧
      (¬(u = some .radec ∧ o = some .sky) → T.base.rest = (newCluster u o (bunitsOfUnits u) t).rest) ∧ Fresh T.base ∧
      T.base.c = ⟨0, 0, 0, 0, 0, 0⟩ ∧ T.base.gc = ⟨0, 0, 0, 0, 0, 0⟩ ∧
      T.id = (List.range rows.length).map (fun (i : ℕ) => id0 + (i : ℤ)) ∧ T.ntot = rows.length ∧
      ((0 : ℝ) ≤ (rows.map (fun l => l[0]!)).sum → Good T.base) := by
  obtain ⟨T, h1, h2, h3, h4, h5, h6, h7, h8, h9, h10, h11, h12, h13, h14⟩ := addStars_blank (gyrArgs_fits id0 h) u o t
  have key : ∀ {α : Type} [Inhabited α] (l : List α), (List.range l.length).map (fun i => l[i]!) = l := by
    intro α _ l
    apply List.ext_getElem
    · simp
    · intro i h1 h2
      simp only [List.getElem_map, List.getElem_range]
      exact getElem!_pos l i h2
  have col : ∀ k i : ℕ, i < rows.length → (rows.map (fun l : List ℝ => l[k]!))[i]! = ((rows[i]!)[k]! : ℝ) := by
    intro k i hi
    rw [getElem!_pos _ i (by simpa using hi), List.getElem_map, getElem!_pos rows i hi]
  have lift : ∀ {α : Type} (F : List ℝ → α), (List.range rows.length).map (fun i => F rows[i]!) = rows.map F := by
    intro α F
    conv_rhs => rw [← key rows, List.map_map]
    rfl
  have es : T.base.st = rows.map (fun l => ⟨l[1]!, l[2]!, l[3]!, l[4]!, l[5]!, l[6]!⟩) := by
    rw [h2, ← lift]
    refine List.map_congr_left fun i hi => ?_
    have hi := List.mem_range.mp hi
    show (⟨(rows.map (fun l => l[1]!))[i]!, (rows.map (fun l => l[2]!))[i]!, (rows.map (fun l => l[3]!))[i]!,
      (rows.map (fun l => l[4]!))[i]!, (rows.map (fun l => l[5]!))[i]!, (rows.map (fun l => l[6]!))[i]!⟩ : Ph) = _
    rw [col 1 i hi, col 2 i hi, col 3 i hi, col 4 i hi, col 5 i hi, col 6 i hi]
  have em : T.base.m = rows.map (fun l => l[0]!) := by
    rw [h3, ← lift]
    refine List.map_congr_left fun i hi => ?_
    exact col 0 i (List.mem_range.mp hi)
  have hi : T.id = (List.range rows.length).map (fun (i : ℕ) => id0 + (i : ℤ)) := by
    rw [h13]
    unfold StarArgs.ids
    simp only [gyrArgs, Val.at]
    refine List.map_congr_left fun i hi => get!_range_map (List.mem_range.mp hi)
  refine ⟨T, h1, es, em, h4, h5, h6, h9, h12, h10, h11, hi, h14, fun hm => ⟨?_, ?_, ?_, ?_, ?_⟩⟩
  · rw [es]; simpa using h
  · rw [es, em]; simp
  · rw [em]; exact hm
  · rw [h7]; intro o h; cases h
  · rw [h8]; intro o h; cases h

/-! ### settling -/

theorem galRows_inj {o : Origin} (ho : o = .galaxy ∨ o = .cluster) {c c' gc : Ph} {st st' : List Ph}
    (h : galRows o c' gc st' = galRows o c gc st) : st' = st := by
  unfold galRows at h
  have e : galactocentric o c' gc = galactocentric o c gc := by rcases ho with rfl | rfl <;> rfl
  rw [e] at h
  refine List.map_injective_iff.mpr ?_ h
  intro p q hpq
  rcases ho with rfl | rfl
  · exact Option.some.inj hpq
  · have := Option.some.inj hpq
    simp only [phAdd, Ph.mk.injEq, add_left_inj] at this
    obtain ⟨a1, a2, a3, a4, a5, a6⟩ := this
    exact Ph.ext a1 a2 a3 a4 a5 a6

theorem gyrAnalyze_ok {g : Galpy} {fc : Cluster → Except Err Cluster} (hfc : CentreFinder g fc) {kw : Kw} {c : Cluster} {o : Origin}
    (p : Pos g c) (l : Lin c) (hg : Good c) (fr : Fresh c) (ho : c.origin = some o) (hl : o.linear) :
    ∃ c', gyrAnalyze g fc kw (some o) c = .ok c' ∧ c'.units = c.units ∧ c'.origin = c.origin ∧ c'.m = c.m ∧
      galRows o c'.c c'.gc c'.st = galRows o c.c c.gc c.st ∧ c'.gc = c.gc ∧ c'.tphys = c.tphys ∧ c'.rest = c.rest ∧ Good c' ∧ Fresh c' := by
  have hu := lin_units l
  obtain ⟨c1, h1, g1⟩ := toCluster_total (s := false) (cm := none) hu hg
  have s1 := toCluster_ostep ho hl hu h1
  have f1 := toCluster_fresh fr h1
  have p1 := p.of_rest s1.rest
  have l1 : Lin c1 := ⟨by rw [s1.units]; exact l.units, _, s1.origin, trivial⟩
  obtain ⟨c2, h2, k2, e2⟩ := hfc c1 p1 l1 g1 f1
  have eg := e2 s1.origin
  have hu2 : c2.units ≠ some .radec := by rw [k2.units, s1.units]; exact hu
  have ho2 : c2.origin = some .cluster := by rw [k2.origin]; exact s1.origin
  obtain ⟨c3, h3, g3⟩ := toCentre_total (s := kw.sort.getD true) (cm := none) hu2 k2.good
  have s3 := toCentre_ostep ho2 trivial hu2 h3
  have hu3 : c3.units ≠ some .radec := by rw [s3.units]; exact hu2
  obtain ⟨c4, h4, g4⟩ := toOrigin_total (g := g) (t := o) (s := true) (cm := none) hl hu3 g3
  have s4 := toOrigin_ostep s3.origin trivial hl hu3 h4
  refine ⟨c4, by simp only [gyrAnalyze, Option.elim_some, h1, h2, h3, h4, bind, Except.bind], ?_, ?_, ?_, ?_, ?_, ?_, ?_, g4,
    toOrigin_fresh (toCentre_fresh k2.fresh h3) h4⟩
  · rw [s4.units, s3.units, k2.units, s1.units]
  · rw [s4.origin, ho]
  · rw [s4.m, s3.m, k2.m, s1.m]
  · have r4 := s4.rows _ s3.origin
    rw [s3.rows _ ho2, eg, k2.st, galRows_cluster_centre c2.c c1.c, s1.rows _ ho] at r4
    exact r4
  · rw [s4.gcp, s3.gcp, eg, s1.gcp]
  · rw [s4.tphys, s3.tphys, k2.tphys, s1.tphys]
  · rw [s4.rest, s3.rest, k2.rest, s1.rest]

/-- Placing the cluster: the orbit file or the centre finder. -/
theorem place_ok {g : Galpy} {fc : Cluster → Except Err Cluster} (hfc : CentreFinder g fc) {kw : Kw} {c : Cluster} {adv : Bool}
    {f : Option (List Line)} {t : ℝ} {q : Ph} (p : Pos g c) (l : Lin c) (hg : Good c) (fr : Fresh c) (ok : OrbitOk kw adv f t q) :
    ∃ c1, placeGalaxy g fc kw adv f c = .ok (c1, f.map (List.drop (orbitLines kw adv))) ∧
      c1.units = c.units ∧ c1.origin = c.origin ∧ c1.m = c.m ∧ c1.st = c.st ∧ (f.isSome → c1.gc = q) ∧
      c1.tphys = (if f.isSome ∧ kw.otime.getD false then t else c.tphys) ∧ Good c1 ∧ c1.rest = c.rest ∧ Fresh c1 := by
  have hu := lin_units l
  unfold placeGalaxy
  cases f with
  | none =>
    obtain ⟨c1, h1, k1, -⟩ := hfc c p l hg fr
    exact ⟨c1, by simp [h1, bind, Except.bind, pure, Except.pure], k1.units, k1.origin, k1.m, k1.st, by simp, by simp [k1.tphys], k1.good, k1.rest, k1.fresh⟩
  | some L =>
    obtain ⟨f', hf⟩ := readOrbitIf_ok (g := g) hu ok
    have ef : f' = (some L).map (List.drop (orbitLines kw adv)) := by
      have hf' := hf
      simp only [readOrbitIf, Option.elim_some, readOrbit] at hf'
      obtain ⟨r, hr, hf'⟩ := bind_ok hf'
      obtain ⟨v, -, hr⟩ := bind_ok hr
      cases hr
      exact (congrArg (fun x : Except Err (Cluster × Option (List Line)) => (x.toOption.map Prod.snd).getD none) hf').symm
    refine ⟨placed kw (some L) t q c, ?_, rfl, rfl, rfl, rfl, fun _ => rfl, rfl, hg.moved _ _, rfl, fr.moved _ _⟩
    rw [if_neg (by simp), hf, ef]

theorem gyrSettle_ok {g : Galpy} {fc : Cluster → Except Err Cluster} (hfc : CentreFinder g fc) {kw : Kw} {c : Cluster} {adv : Bool}
    {f : Option (List Line)} {t : ℝ} {q : Ph} {o : Origin} (p : Pos g c) (l : Lin c) (hg : Good c) (fr : Fresh c) (ho : c.origin = some o)
    (hl : o = .galaxy ∨ o = .cluster) (ok : OrbitOk kw adv f t q) :
    ∃ c', gyrSettle g fc kw (some o) adv f c = .ok (c', f.map (List.drop (orbitLines kw adv))) ∧
      c'.units = c.units ∧ c'.origin = c.origin ∧ c'.m = c.m ∧ c'.st = c.st ∧ (f.isSome → c'.gc = q) ∧
      c'.tphys = (if f.isSome ∧ kw.otime.getD false then t else c.tphys) ∧ Good c' ∧ c'.rest = c.rest ∧ Fresh c' := by
  obtain ⟨c1, e1, k1, k2, k3, k4, k5, k6, g1, r1, f1⟩ := place_ok hfc p l hg fr ok
  unfold gyrSettle
  simp only [e1, bind, Except.bind, pure, Except.pure]
  by_cases ha : kw.analyze.getD true = true
  · obtain ⟨c2, h2, m1, m2, m3, m4, m5, m6, m7, g2, f2⟩ := gyrAnalyze_ok hfc (kw := kw) (p.of_rest r1)
      ⟨by rw [k1]; exact l.units, by rw [k2]; exact l.origin⟩ g1 f1 (k2.trans ho) (by rcases hl with rfl | rfl <;> trivial)
    rw [if_pos ha, h2]
    rw [m5] at m4
    exact ⟨c2, rfl, m1.trans k1, m2.trans k2, m3.trans k3, (galRows_inj hl m4).trans k4, fun h => m5.trans (k5 h), m6.trans k6, g2,
      m7.trans r1, f2⟩
  · rw [if_neg ha]
    exact ⟨c1, rfl, k1, k2, k3, k4, k5, k6, g1, r1, f1⟩

end

end CT
