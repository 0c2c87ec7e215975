/- Common steps of the profile functions. -/
import Verif.Lemmas.Mask
import Verif.Lemmas.Subset
import Verif.Lemmas.Frame
import Verif.Lemmas.Nbin
import Verif.Props.Subset
import Verif.Props.Coords
import Verif.Props.Bins
import Verif.Props.Bins2
import Verif.Spec.Profiles
import Mathlib.Algebra.BigOperators.Group.Finset.Piecewise

namespace CT

noncomputable section

set_option linter.unusedSimpArgs false

/-- What the first lines leave. -/
structure Started (g : Galpy) (c c1 : Cluster) : Prop where
  good : Good c1
  fresh : Fresh c1
  lin : Lin c1
  world : world g c1 = world g c
  rest : c1.rest = c.rest
  m : c1.m = c.m
  st : c1.st = centred c
  units : c1.units = if c.units = some .amuse then some .pckms else c.units

theorem centred_length (c : Cluster) : (centred c).length = c.st.length := by
  unfold centred; split <;> simp

theorem toCentre_galaxy_rows {s : Bool} {c c' : Cluster} (ho : c.origin = some .galaxy) (hu : c.units ≠ some .radec)
    (h : toCentre s none c = .ok c') : c'.st = centred c := by
  have os := toCentre_ostep ho trivial hu h
  have hr := os.rows _ ho
  rw [os.ctr, os.gcp] at hr
  have := congrArg (List.map (fun q : Option Ph => ((q.getD ⟨0, 0, 0, 0, 0, 0⟩).sub c.gc).sub c.c)) hr
  simp only [galRows, List.map_map] at this
  unfold centred
  rw [if_pos ho]
  refine Eq.trans ?_ (this.trans rfl)
  conv_lhs => rw [← List.map_id c'.st]
  refine List.map_congr_left fun p _ => ?_
  simp [galactocentric, phAdd, Ph.sub]

theorem toPckms_amuse_centre {g : Galpy} {c c' : Cluster} (hu : c.units = some .amuse) (h : toPckms g true c = .ok c') :
    c'.c = c.c ∧ c'.gc = c.gc := by
  simp only [toPckms, hu, bind, fromAmuse, reduceCtorEq, or_self, if_false, if_true, Except.bind, pckmsStep,
    Option.some.injEq] at h
  have := analyze_same h
  exact ⟨this.2.2.2.2.1, this.2.2.2.2.2⟩

theorem Fresh.sortstars {c : Cluster} (f : Fresh c) (p : Bool) (r rp : List ℝ) : Fresh (sortstars p r rp c) := by
  obtain ⟨k1, k2, -, k4, k5, -⟩ := core_fields (sortstars_core p r rp c)
  have hd : (CT.sortstars p r rp c).d = c.d := by
    unfold CT.sortstars
    dsimp only
    repeat' split
    all_goals rfl
  refine ⟨?_, ?_, ?_, ?_, ?_, ?_, ?_, ?_, ?_, ?_, ?_, ?_⟩ <;> simp only [hd, k1, k2, k4, k5]
  exacts [f.units, f.origin, f.r, f.rpro, f.v, f.vpro, f.mtot, f.mmean, f.rmean, f.rmeanpro, f.rmax, f.rmaxpro]

theorem AreNorms.eq_map {q : Ph → ℝ} {st : List Ph} {l : List ℝ} (h : AreNorms q st l) :
    l = st.map (fun p => Real.sqrt (q p)) := by
  unfold AreNorms at h
  induction h with
  | nil => rfl
  | cons h _ ih =>
    rw [List.map_cons, ← ih, ← h.2, Real.sqrt_sq h.1]

theorem AreNorms.length {q : Ph → ℝ} {st : List Ph} {l : List ℝ} (h : AreNorms q st l) : l.length = st.length := by
  rw [h.eq_map, List.length_map]

theorem profStart_spec {g : Galpy} {c : Cluster} (sm ss : Bool) (p : Pos g c) (l : Lin c) (hg : Good c) (f : Fresh c) :
    ∃ c1, profStart g sm ss c = .ok c1 ∧ Started g c c1 := by
  obtain ⟨c1, h1, s1, m1, g1, l1, f1, r1, w1, u1, o1⟩ := strip_amuse p l hg f
  have hcc : c1.c = c.c ∧ c1.gc = c.gc := by
    by_cases ha : c.units = some .amuse
    · rw [if_pos ha] at h1; exact toPckms_amuse_centre ha h1
    · rw [if_neg ha] at h1; cases h1; exact ⟨rfl, rfl⟩
  have fin : ∀ c2, (if c.origin ≠ some .cluster ∧ c.origin ≠ some .centre then toCentre sm none c1
      else if ss then .ok (sortstars true c1.d.r c1.d.rpro c1) else .ok c1) = .ok c2 → profStart g sm ss c = .ok c2 := by
    intro c2 h2
    unfold profStart
    simp only [bind]
    refine ite_bind_of (f := fun c1 => if c.origin ≠ some .cluster ∧ c.origin ≠ some .centre then toCentre sm none c1
      else if ss then .ok (sortstars true c1.d.r c1.d.rpro c1) else .ok c1) h1 ?_
    exact h2
  obtain ⟨⟨u, hu, hul⟩, ⟨o, ho, hol⟩⟩ := l
  have hur : c1.units ≠ some .radec := by
    obtain ⟨⟨u', hu', hul'⟩, -⟩ := l1
    rw [hu']; rintro h; cases h; exact hul'
  by_cases hgal : o = .galaxy
  · subst hgal
    have ho1 : c1.origin = some .galaxy := o1.trans ho
    obtain ⟨c2, h2, g2⟩ := toCentre_total (s := sm) (cm := none) hur g1
    have os := toCentre_ostep ho1 trivial hur h2
    refine ⟨c2, fin c2 (by rw [if_pos (by rw [ho]; simp)]; exact h2), g2, toCentre_fresh f1 h2, ?_,
      (os.world (by rw [ho1]; simp)).trans w1, os.rest.trans r1, os.m.trans m1, ?_, os.units.trans u1⟩
    · exact ⟨by rw [os.units]; exact l1.1, ⟨_, os.origin, trivial⟩⟩
    · rw [toCentre_galaxy_rows ho1 hur h2]
      unfold centred
      rw [if_pos ho1, if_pos ho, hcc.1, hcc.2, s1]
  · have hno : ¬ (c.origin ≠ some .cluster ∧ c.origin ≠ some .centre) := by
      cases o <;> simp [Origin.linear] at hol hgal <;> simp [ho]
    have hst : c1.st = centred c := by
      unfold centred; rw [if_neg (by rw [ho]; simpa using hgal)]; exact s1
    cases ss
    · exact ⟨c1, fin c1 (by rw [if_neg hno]; rfl), g1, f1, l1, w1, r1, m1, hst, u1⟩
    · have hc := sortstars_core true c1.d.r c1.d.rpro c1
      obtain ⟨k1, k2, -, k4, k5, -, -, -, -, -, -, kr⟩ := core_fields hc
      refine ⟨_, fin _ (by rw [if_neg hno]; rfl), sortstars_good g1 f1.r.length f1.rpro.length, f1.sortstars _ _ _,
        ⟨by rw [k1]; exact l1.1, by rw [k2]; exact l1.2⟩, (world_core hc).trans w1, kr.trans r1, k4.trans m1, k5.trans hst,
        k1.trans u1⟩

/-- The filter sees the rows relative to the centre. -/
theorem Started.view {g : Galpy} {c c1 : Cluster} (s : Started g c c1) (e : PStars) :
    viewOf c1 e = rowsView (centred c) c.m e := by
  have f := s.fresh
  unfold viewOf rowsView
  rw [f.r.eq_map, f.rpro.eq_map, f.v.eq_map, f.vpro.eq_map, s.st, s.m]
  rfl

theorem rowsView_ok {rows : List Ph} {m : List ℝ} {e : PStars} {q : SubArgs} {n : ℕ} (hn : 1 ≤ n) (hr : rows.length = n)
    (hm : m.length = n) (he : e.Ok q n) : (rowsView rows m e).Ok q n :=
  { pos := hn, ntot := hr, r := by simp [rowsView, hr], rpro := by simp [rowsView, hr], v := by simp [rowsView, hr],
    vpro := by simp [rowsView, hr], m := hm, npop := he.npop, kw := he.kw, etot := he.etot }

/-- The mask of the chosen stars. -/
theorem chosen_mask {g : Galpy} {c c1 : Cluster} {e : PStars} {q : SubArgs} {indx : Option ℕ} {mem : Mem}
    (s : Started g c c1) (hg : Good c) (he : e.Ok q c.st.length)
    (hm : ∀ p, indx = some p → mem[p]!.length = c.st.length) :
    ∃ k mem', getSubset q (viewOf c1 e) indx mem = .ok (some k, mem') ∧
      MaskOf mem'[k]! c.st.length (Chosen q e indx mem c) := by
  have hn : 1 ≤ c.st.length := List.length_pos_iff.mpr hg.ne
  have ok := rowsView_ok (q := q) hn (centred_length c) hg.len he
  rw [s.view]
  cases indx with
  | none =>
    obtain ⟨k, mem', h1, h2, h3⟩ := C20_subset (mem := mem) ok
    exact ⟨k, mem', h1, h2, fun i hi => (h3 i hi).trans (by simp [Chosen, InMask])⟩
  | some p =>
    obtain ⟨k, mem', h1, h2, h3⟩ := C20_subset_mask (mem := mem) ok (hm p rfl)
    exact ⟨k, mem', h1, h2, fun i hi => (h3 i hi).trans (by simp [Chosen, InMask])⟩

/-- Sums over a selection. -/
theorem MaskOf.sum {mask : List Bool} {n : ℕ} {S : ℕ → Prop} (h : MaskOf mask n S) {l : List ℝ} (hl : l.length = n) (f : ℝ → ℝ) :
    ((maskSel mask l).map f).sum = sumOver n S (fun i => f l[i]!) := by
  classical
  rw [maskSel_eq mask l (by rw [h.len, hl]), List.map_map, hl]
  unfold sumOver
  rw [← List.sum_toFinset _ (List.nodup_range.filter _)]
  refine Finset.sum_congr ?_ fun _ _ => rfl
  ext i
  simp only [List.mem_toFinset, List.mem_filter, List.mem_range, Finset.mem_filter, Finset.mem_range]
  exact ⟨fun ⟨h1, h2⟩ => ⟨h1, (h.val i h1).mp h2⟩, fun ⟨h1, h2⟩ => ⟨h1, (h.val i h1).mpr h2⟩⟩

theorem MaskOf.sum' {mask : List Bool} {n : ℕ} {S : ℕ → Prop} (h : MaskOf mask n S) {l : List ℝ} (hl : l.length = n) :
    (maskSel mask l).sum = sumOver n S (fun i => l[i]!) := by
  have := h.sum hl (fun x => x)
  simpa using this

theorem MaskOf.length {mask : List Bool} {n : ℕ} {S : ℕ → Prop} (h : MaskOf mask n S) {l : List ℝ} (hl : l.length = n) :
    (maskSel mask l).length = numOver n S := by
  have := h.sum hl (fun _ => (1 : ℝ))
  rw [map_one_sum] at this
  have e : sumOver n S (fun _ => (1 : ℝ)) = (numOver n S : ℝ) := by simp [sumOver, numOver]
  exact_mod_cast this.trans e

theorem maskSel_replicate_length (mask : List Bool) (l : List ℝ) (h : mask.length = l.length) :
    (maskSel mask l).length = mask.count true := by
  induction mask generalizing l with
  | nil => simp [maskSel]
  | cons b mask ih =>
    cases l with
    | nil => simp at h
    | cons a l =>
      have := ih l (by simpa using h)
      cases b <;> simp_all [maskSel]

theorem MaskOf.count {mask : List Bool} {n : ℕ} {S : ℕ → Prop} (h : MaskOf mask n S) :
    mask.count true = numOver n S := by
  rw [← maskSel_replicate_length mask (List.replicate n (0 : ℝ)) (by simp [h.len])]
  exact h.length (by simp)

/-- Values of a selection. -/
theorem MaskOf.mem {α : Type} [Inhabited α] {mask : List Bool} {n : ℕ} {S : ℕ → Prop} (h : MaskOf mask n S) {l : List α}
    (hl : l.length = n) {x : α} : x ∈ maskSel mask l ↔ ∃ i, i < n ∧ S i ∧ l[i]! = x := by
  rw [maskSel_eq mask l (by rw [h.len, hl]), List.mem_map]
  simp only [List.mem_filter, List.mem_range, hl]
  exact ⟨fun ⟨i, ⟨h1, h2⟩, e⟩ => ⟨i, h1, (h.val i h1).mp h2, e⟩, fun ⟨i, h1, h2, e⟩ => ⟨i, ⟨h1, (h.val i h1).mpr h2⟩, e⟩⟩

theorem sumOver_ite (n : ℕ) (S : ℕ → Prop) [DecidablePred S] (f : ℕ → ℝ) :
    sumOver n S f = ∑ i ∈ Finset.range n, if S i then f i else 0 := by
  classical
  unfold sumOver
  rw [← Finset.sum_filter]
  congr

theorem sumOver_congr {n : ℕ} {S T : ℕ → Prop} {f g : ℕ → ℝ} (h : ∀ i < n, S i ↔ T i) (hf : ∀ i < n, T i → f i = g i) :
    sumOver n S f = sumOver n T g := by
  classical
  rw [sumOver_ite, sumOver_ite]
  refine Finset.sum_congr rfl fun i hi => ?_
  have hi' := Finset.mem_range.mp hi
  by_cases ht : T i
  · rw [if_pos ((h i hi').mpr ht), if_pos ht, hf i hi' ht]
  · rw [if_neg (fun hs => ht ((h i hi').mp hs)), if_neg ht]

theorem numOver_eq (n : ℕ) (S : ℕ → Prop) : (numOver n S : ℝ) = sumOver n S (fun _ => 1) := by
  simp [numOver, sumOver]

theorem sum_range_list (n : ℕ) (f : ℕ → ℝ) : ((List.range n).map f).sum = ∑ k ∈ Finset.range n, f k := by
  induction n with
  | zero => simp
  | succ n ih => rw [List.range_succ, List.map_append, List.sum_append, ih, Finset.sum_range_succ]; simp

/-- Sums over the bins. -/
theorem Contig.sum_bins {lo hi : ℝ} {P : List (ℝ × ℝ)} (h : Contig lo hi P) {n : ℕ} {S : ℕ → Prop} {r : ℕ → ℝ}
    (hin : ∀ i < n, S i → lo ≤ r i ∧ r i ≤ hi) (f : ℕ → ℝ) :
    ∑ k ∈ Finset.range P.length, sumOver n (fun i => S i ∧ InBin P k (r i)) f = sumOver n S f := by
  classical
  simp only [sumOver_ite]
  rw [Finset.sum_comm]
  refine Finset.sum_congr rfl fun i hi => ?_
  have hi' := Finset.mem_range.mp hi
  by_cases hs : S i
  · obtain ⟨q, -, hq⟩ := h.index (r i) (hin i hi' hs)
    have hql : q < P.length := by obtain ⟨_, _, e, _⟩ := hq; exact (List.getElem?_eq_some_iff.mp e).1
    rw [if_pos hs, Finset.sum_eq_single q]
    · rw [if_pos ⟨hs, hq⟩]
    · intro k _ hk
      rw [if_neg]
      rintro ⟨-, h2⟩
      exact hk (h.inBin_unique h2 hq)
    · intro hn; exact absurd (Finset.mem_range.mpr hql) hn
  · rw [if_neg hs]
    exact Finset.sum_eq_zero fun k _ => if_neg (fun h' => hs h'.1)

theorem MaskOf.filter_sum {mask : List Bool} {n : ℕ} {S : ℕ → Prop} (h : MaskOf mask n S) {l : List ℝ} (hl : l.length = n)
    (Q : ℝ → Prop) [DecidablePred Q] (f : ℝ → ℝ) :
    (((maskSel mask l).filter (fun x => decide (Q x))).map f).sum = sumOver n (fun i => S i ∧ Q l[i]!) (fun i => f l[i]!) := by
  classical
  have h1 := h.sum hl (fun x => if decide (Q x) = true then f x else 0)
  rw [sum_ite_filter] at h1
  rw [h1, sumOver_ite, sumOver_ite]
  refine Finset.sum_congr rfl fun i _ => ?_
  by_cases a : S i <;> by_cases b : Q l[i]! <;> simp only [a, b, decide_true, decide_false, if_true, if_false, and_true, and_false,
    and_self, Bool.false_eq_true]

/-- The bins and the bin masks. -/
structure BinnedOk (a : ProfArgs) (n : ℕ) (S : ℕ → Prop) (r : ℕ → ℝ) (B : Binned) (P : List (ℝ × ℝ)) : Prop where
  zip : P = List.zip B.lower B.upper
  lenl : B.lower.length = P.length
  lenu : B.upper.length = P.length
  lenm : B.mid.length = P.length
  contig : ∃ lo hi, Contig lo hi P ∧ (∀ i < n, S i → lo ≤ r i ∧ r i ≤ hi) ∧
    (a.bins = none → (∃ i < n, S i ∧ r i = lo) ∧ ∃ i < n, S i ∧ r i = hi)
  given : ∀ b, a.bins = some b → B.lower = b.1 ∧ B.mid = b.2.1 ∧ B.upper = b.2.2
  nbin : a.bins = none → P.length ≤ a.nrad
  midNum : a.bins = none → a.fix = false → ∀ k < P.length, 0 < numOver n (fun i => S i ∧ InBin P k (r i)) ∧
    B.mid[k]! * numOver n (fun i => S i ∧ InBin P k (r i)) = sumOver n (fun i => S i ∧ InBin P k (r i)) r
  midFix : a.bins = none → a.fix = true → ∀ k < P.length, B.mid[k]! = (P[k]!.1 + P[k]!.2) / 2
  ranks : a.bins = none → a.fix = false → EqualNumberBins n S r a.nrad P
  atBin : ∀ k < P.length, MaskOf (B.at k) n (fun i => S i ∧ InBin P k (r i))
  upTo : ∀ k < P.length, MaskOf (B.upTo k) n (fun i => S i ∧ (r i < P[k]!.2 ∨ k + 1 = P.length))

theorem Contig.index_le {lo hi : ℝ} {P : List (ℝ × ℝ)} (h : Contig lo hi P) {v : ℝ} {k : ℕ} (hk : k < P.length) :
    (searchsortedRight (P.map Prod.snd) v ≤ k ↔ v < P[k]!.2) := by
  induction h generalizing k with
  | @one a b h =>
    have hk0 : k = 0 := by simpa using hk
    subst hk0
    simp only [List.map_cons, List.map_nil, ssr_cons]
    split <;> rename_i hh
    · simp [hh]
    · simp [not_le.mp hh]
  | @cons a b c P h hP ih =>
    simp only [List.map_cons, ssr_cons]
    cases k with
    | zero =>
      split <;> rename_i hh
      · simp [hh]
      · simp [not_le.mp hh]
    | succ k =>
      have hk' : k < P.length := by simpa using hk
      have e : ((a, b) :: P)[k + 1]! = P[k]! := by simp
      rw [e]
      split <;> rename_i hh
      · rw [← ih hk']; omega
      · have hv : v < b := not_le.mp hh
        have h3 := (hP.ssr v).2.2 hv
        exact ⟨fun _ => (ih hk').mp (by rw [h3]; omega), fun _ => by omega⟩

theorem zip_tail_map {n : ℕ} (hn : 0 < n) (f : ℕ → ℝ) (z : ℝ) :
    List.zip ((List.range n).map f) (((List.range n).map f).tail ++ [z]) =
      (List.range n).map (fun i => (f i, if i + 1 < n then f (i + 1) else z)) := by
  apply List.ext_getElem
  · simp; omega
  · intro i h1 h2
    simp only [List.length_map, List.length_range] at h2
    simp only [List.getElem_zip, List.getElem_map, List.getElem_range, Prod.mk.injEq, true_and]
    split
    · rename_i h
      rw [List.getElem_append_left (by simp; omega), List.getElem_tail, List.getElem_map, List.getElem_range]
    · rename_i h
      rw [List.getElem_append_right (by simp; omega)]
      simp

theorem MaskOf.values {mask : List Bool} {n : ℕ} {S : ℕ → Prop} (h : MaskOf mask n S) {l : List ℝ} (hl : l.length = n) :
    maskSel mask l = valuesOf n S (fun i => l[i]!) := by
  classical
  rw [maskSel_eq mask l (by rw [h.len, hl]), hl]
  unfold valuesOf
  congr 1
  refine List.filter_congr fun i hi => ?_
  have := h.val i (List.mem_range.mp hi)
  by_cases hS : S i
  · simp [hS, this.mpr hS]
  · simp only [hS, decide_false]
    exact Bool.eq_false_iff.mpr fun hx => hS (this.mp hx)

theorem valuesOf_congr {n : ℕ} {S : ℕ → Prop} {f h : ℕ → ℝ} (e : ∀ i < n, f i = h i) : valuesOf n S f = valuesOf n S h := by
  unfold valuesOf
  refine List.map_congr_left fun i hi => ?_
  exact e i (List.mem_range.mp (List.mem_of_mem_filter hi))

/-- The bins of `nbinmaker`. -/
theorem nbinmaker_ranks {x : List ℝ} {k : ℕ} (hk : 0 < k) (hd : ∃ u ∈ x, ∃ v ∈ x, u ≠ v) {T : BinTable} (h : nbinmaker x k = .ok T) :
    List.zip T.lower T.upper = rankBins (sortedOf x) k := by
  classical
  obtain ⟨P, -, -, -, hPe, hT⟩ := nbinmaker_spec x k hk hd
  rw [h] at hT
  injection hT with hT
  have hz : List.zip T.lower T.upper = P := by rw [hT]; exact (List.zip_of_prod rfl rfl).symm
  obtain ⟨u, hu, -⟩ := hd
  have hne : x ≠ [] := List.ne_nil_of_mem hu
  have hpos : 0 < x.length := List.length_pos_iff.mpr hne
  have hsl := sortedOf_length x
  have hget : ∀ j, j < x.length → (sortedOf x).getD j 0 = (sortedOf x)[j]! := by
    intro j hj
    rw [getElem!_pos (sortedOf x) j (by omega), List.getD_eq_getElem?_getD, List.getElem?_eq_getElem (by omega)]; rfl
  have hmax : maxOf x = (sortedOf x)[x.length - 1]! := by
    obtain ⟨m1, m2⟩ := maxOf_spec hne
    apply le_antisymm
    · obtain ⟨j, hj, e⟩ := List.mem_iff_getElem.mp ((sortedOf_perm x).mem_iff.mpr m1)
      have := getD_mono (sortedOf_sorted x) (i := j) (j := x.length - 1) (by omega) (by omega)
      rw [hget j (by omega), hget (x.length - 1) (by omega), getElem!_pos (sortedOf x) j hj, e] at this
      exact this
    · rw [getElem!_pos (sortedOf x) (x.length - 1) (by omega)]
      exact m2 _ ((sortedOf_perm x).mem_iff.mp (List.getElem_mem _))
  rw [hz, hPe, zip_tail_map hk]
  unfold rankBins
  rw [hsl]
  have : (List.range k).map (fun i => ((sortedOf x).getD (i * x.length / k) 0,
      if i + 1 < k then (sortedOf x).getD ((i + 1) * x.length / k) 0 else maxOf x)) =
      (List.range k).map (fun i => ((sortedOf x)[i * x.length / k]!,
      if i + 1 < k then (sortedOf x)[(i + 1) * x.length / k]! else (sortedOf x)[x.length - 1]!)) := by
    refine List.map_congr_left fun i hi => ?_
    have hi' := List.mem_range.mp hi
    rw [hget _ (cut_lt hpos hi'), hmax]
    split
    · rename_i h1; rw [hget _ (cut_lt hpos h1)]
    · rfl
  rw [this]

theorem binned_ok {a : ProfArgs} {n : ℕ} {S : ℕ → Prop} {rs : List ℝ} {k : ℕ} {mem : Mem} (hr : rs.length = n)
    (hS : MaskOf mem[k]! n S) (hc : BinsCover a n S (fun i => rs[i]!)) :
    ∃ B P, profBinned a rs (some k, mem) = .ok B ∧ BinnedOk a n S (fun i => rs[i]!) B P := by
  classical
  obtain ⟨b, P, lo, hi, hb, hP, hz, l1, l2, l3, hin, hends, hgiv, hnb, hmn, hmf, hrk⟩ : ∃ (b : List ℝ × List ℝ × List ℝ) (P : List (ℝ × ℝ)) (lo hi : ℝ),
      profBins a (maskSel mem[k]! rs) = .ok b ∧ Contig lo hi P ∧ P = List.zip b.1 b.2.2 ∧ b.1.length = P.length ∧
      b.2.2.length = P.length ∧ b.2.1.length = P.length ∧ (∀ i < n, S i → lo ≤ rs[i]! ∧ rs[i]! ≤ hi) ∧
      (a.bins = none → (∃ i < n, S i ∧ rs[i]! = lo) ∧ ∃ i < n, S i ∧ rs[i]! = hi) ∧ (∀ b', a.bins = some b' → b = b') ∧
      (a.bins = none → P.length ≤ a.nrad) ∧
      (a.bins = none → a.fix = false → ∀ j < P.length, 0 < numOver n (fun i => S i ∧ InBin P j rs[i]!) ∧
        b.2.1[j]! * numOver n (fun i => S i ∧ InBin P j rs[i]!) = sumOver n (fun i => S i ∧ InBin P j rs[i]!) (fun i => rs[i]!)) ∧
      (a.bins = none → a.fix = true → ∀ j < P.length, b.2.1[j]! = (P[j]!.1 + P[j]!.2) / 2) ∧
      (a.bins = none → a.fix = false → EqualNumberBins n S (fun i => rs[i]!) a.nrad P) := by
    rcases hc with ⟨hn, hnr, i, j, hi, hj, si, sj, hij⟩ | ⟨b, lo, hi, hb, l1, l2, hP, hin⟩
    · have mi := (hS.mem hr).mpr ⟨i, hi, si, rfl⟩
      have mj := (hS.mem hr).mpr ⟨j, hj, sj, rfl⟩
      have hd : ∃ u ∈ maskSel mem[k]! rs, ∃ v ∈ maskSel mem[k]! rs, u ≠ v := ⟨_, mi, _, mj, hij⟩
      cases hf : a.fix
      · obtain ⟨T, lo, hi, hT, ⟨a1, a2, a3⟩, t1, t2, t3, t6, t7, -, -, t4, t5⟩ := C25_equal_number_bins _ a.nrad hnr hd
        refine ⟨(T.lower, T.mid, T.upper), List.zip T.lower T.upper, lo, hi, ?_, t3, rfl, ?_, ?_, ?_, ?_, ?_, ?_, ?_, ?_, ?_, ?_⟩
        · simp only [profBins, hn, hf, hT, bind, Except.bind, pure, Except.pure, if_true, if_false, Bool.false_eq_true]
        · simp [List.length_zip, t1]
        · simp [List.length_zip, t1]
        · simp [List.length_zip, t1, t4]
        · exact fun i hi si => a3 _ ((hS.mem hr).mpr ⟨i, hi, si, rfl⟩)
        · intro _
          obtain ⟨i, h1, h2, h3⟩ := (hS.mem hr).mp a1
          obtain ⟨j, h4, h5, h6⟩ := (hS.mem hr).mp a2
          exact ⟨⟨i, h1, h2, h3⟩, ⟨j, h4, h5, h6⟩⟩
        · intro b' hb'; rw [hn] at hb'; cases hb'
        · intro _; rw [List.length_zip, t1, min_self, ← t1]; exact t2
        · intro _ _ j hj
          have hjl : j < T.lower.length := by simpa [List.length_zip, t1] using hj
          obtain ⟨y1, y2, -, -⟩ := t5 j hjl
          have e1 := hS.filter_sum hr (InBin (List.zip T.lower T.upper) j) (fun _ => (1 : ℝ))
          have e2 := hS.filter_sum hr (InBin (List.zip T.lower T.upper) j) (fun x => x)
          rw [map_one_sum] at e1
          rw [List.map_id'] at e2
          have hh : T.hist.getD j 0 = sumOver n (fun i => S i ∧ InBin (List.zip T.lower T.upper) j rs[i]!) (fun _ => 1) := by
            rw [← e1, t6, List.getD_eq_getElem?_getD, List.getElem?_map, List.getElem?_range hjl]; rfl
          have hs : T.sum.getD j 0 = sumOver n (fun i => S i ∧ InBin (List.zip T.lower T.upper) j rs[i]!) (fun i => rs[i]!) := by
            rw [← e2, t7, List.getD_eq_getElem?_getD, List.getElem?_map, List.getElem?_range hjl]; rfl
          have hmid : T.mid.getD j 0 = T.mid[j]! := by
            rw [getElem!_pos T.mid j (by omega), List.getD_eq_getElem?_getD, List.getElem?_eq_getElem (by omega)]; rfl
          rw [hh, ← numOver_eq] at y1
          rw [hh, hs, ← numOver_eq, hmid] at y2
          exact ⟨by exact_mod_cast y1, y2⟩
        · intro _ h; cases h
        · intro _ _
          exact ⟨_, sortedOf_sorted _, by rw [← hS.values hr]; exact sortedOf_perm _, nbinmaker_ranks hnr hd hT⟩
      · have hne := List.ne_nil_of_mem mi
        obtain ⟨T, hT, t1, t2, -, -, t5⟩ := C26_equal_width_bins _ a.nrad true hne hnr (by simp)
        obtain ⟨mx1, mx2⟩ := maxOf_spec hne
        obtain ⟨mn1, mn2⟩ := minOf_spec hne
        have hlt : minOf (maskSel mem[k]! rs) < maxOf (maskSel mem[k]! rs) := by
          rcases lt_or_eq_of_le (mn2 _ mx1) with h | h
          · exact h
          · refine absurd ?_ hij
            have e1 := mn2 _ mi; have e2 := mx2 _ mi; have e3 := mn2 _ mj; have e4 := mx2 _ mj
            show rs[i]! = rs[j]!
            linarith
        have hbnd : ∀ v ∈ maskSel mem[k]! rs, minOf (maskSel mem[k]! rs) ≤ v ∧ v ≤ maxOf (maskSel mem[k]! rs) :=
          fun v hv => ⟨mn2 v hv, mx2 v hv⟩
        obtain ⟨hcon, -⟩ := t5 _ _ mn1 mx1 hbnd hlt
        have hlen : T.upper.length = a.nrad ∧ T.mid.length = a.nrad := by
          unfold binmaker at hT
          rw [if_neg hne] at hT
          simp only [Except.ok.injEq] at hT
          subst hT
          simp [tabulate] at t1 ⊢
          omega
        have hzl : (List.zip T.lower T.upper).length = a.nrad := by simp [List.length_zip, t1, hlen.1]
        refine ⟨(T.lower, T.mid, T.upper), List.zip T.lower T.upper, _, _, ?_, hcon, rfl, by rw [hzl, t1],
          by rw [hzl, hlen.1], by rw [hzl, hlen.2], ?_, ?_, ?_, ?_, ?_, ?_, fun _ h => by cases h⟩
        · simp only [profBins, hn, hf, hT, bind, Except.bind, pure, Except.pure, if_true, if_false, Bool.false_eq_true]
        · exact fun i hi si => hbnd _ ((hS.mem hr).mpr ⟨i, hi, si, rfl⟩)
        · intro _
          obtain ⟨i, h1, h2, h3⟩ := (hS.mem hr).mp mn1
          obtain ⟨j, h4, h5, h6⟩ := (hS.mem hr).mp mx1
          exact ⟨⟨i, h1, h2, h3⟩, ⟨j, h4, h5, h6⟩⟩
        · intro b' hb'; rw [hn] at hb'; cases hb'
        · intro _; rw [hzl]
        · intro _ h; cases h
        · intro _ _ j hj
          have hTm : T.mid = List.zipWith (fun u l => (u + l) / 2) T.upper T.lower := by
            unfold binmaker at hT
            rw [if_neg hne] at hT
            injection hT with hT
            rw [← hT]; rfl
          have hj' : j < a.nrad := by omega
          rw [getElem!_pos (List.zip T.lower T.upper) j hj]
          have hjm : j < T.mid.length := by omega
          show T.mid[j]! = _
          rw [getElem!_pos T.mid j hjm]
          simp only [hTm]
          rw [List.getElem_zipWith, List.getElem_zip]
          ring
    · have hzl : (List.zip b.1 b.2.2).length = b.1.length := by rw [List.length_zip, ← l1, min_self]
      refine ⟨b, List.zip b.1 b.2.2, lo, hi, by simp [profBins, hb], hP, rfl, hzl.symm, by rw [hzl, l1], by rw [hzl, l2], hin, ?_,
        ?_, ?_, ?_, ?_, ?_⟩
      · intro h; rw [h] at hb; cases hb
      · intro b' hb'; rw [hb] at hb'; injection hb'
      · intro h; rw [h] at hb; cases hb
      · intro h; rw [h] at hb; cases hb
      · intro h; rw [h] at hb; cases hb
      · intro h; rw [h] at hb; cases hb
  refine ⟨{ mask := mem[k]!, lower := b.1, mid := b.2.1, upper := b.2.2, idx := binIndex rs b.1 b.2.2 }, P, ?_, hz, l1, l2, l3,
    ⟨lo, hi, hP, hin, hends⟩, ?_, hnb, hmn, hmf, hrk, ?_, ?_⟩
  · simp only [profBinned, hb, bind, Except.bind, pure, Except.pure]
  · intro b' hb'; obtain rfl := hgiv b' hb'; exact ⟨rfl, rfl, rfl⟩
  · intro j hj
    have hu : P.map Prod.snd = b.2.2 := by rw [hz]; exact List.map_snd_zip (by omega)
    have hm := MaskOf.map (l := binIndex rs b.1 b.2.2) (n := n) (by simp [binIndex, hr]) (fun k => decide (k = (j : ℤ)))
    refine (hS.zip hm).congr fun i hi => ?_
    refine and_congr_right fun si => ?_
    have hx : (binIndex rs b.1 b.2.2)[i]! = min (searchsortedRight (P.map Prod.snd) rs[i]! : ℤ) (((P.map Prod.snd).length : ℤ) - 1) := by
      unfold binIndex
      rw [getElem!_pos _ i (by simp [hr, hi]), List.getElem_map, hu, getElem!_pos rs i (by omega)]
    obtain ⟨q, hq, hqb⟩ := hP.index rs[i]! (hin i hi si)
    rw [hx, hq]
    simp only [decide_eq_true_eq, Nat.cast_inj]
    exact ⟨fun h => h ▸ hqb, fun h => hP.inBin_unique hqb h⟩
  · intro j hj
    have hu : P.map Prod.snd = b.2.2 := by rw [hz]; exact List.map_snd_zip (by omega)
    have hm := MaskOf.map (l := binIndex rs b.1 b.2.2) (n := n) (by simp [binIndex, hr]) (fun k => decide (k ≤ (j : ℤ)))
    refine (hS.zip hm).congr fun i hi => ?_
    refine and_congr_right fun si => ?_
    have hx : (binIndex rs b.1 b.2.2)[i]! = min (searchsortedRight (P.map Prod.snd) rs[i]! : ℤ) (((P.map Prod.snd).length : ℤ) - 1) := by
      unfold binIndex
      rw [getElem!_pos _ i (by simp [hr, hi]), List.getElem_map, hu, getElem!_pos rs i (by omega)]
    rw [hx, List.length_map, ← hP.index_le hj, decide_eq_true_eq]
    omega

end

end CT
