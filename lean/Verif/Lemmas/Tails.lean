/- Binned sums over selected stars. -/
import Verif.Lemmas.Profiles
import Verif.Spec.Tails

namespace CT

noncomputable section

theorem zip_maskSel {α β : Type} (mask : List Bool) (a : List α) (b : List β) (h : a.length = b.length) :
    List.zip (maskSel mask a) (maskSel mask b) = maskSel mask (List.zip a b) := by
  induction mask generalizing a b with
  | nil => simp [maskSel]
  | cons q mask ih =>
    cases a with
    | nil => cases b with
      | nil => simp [maskSel]
      | cons _ _ => simp at h
    | cons x a =>
      cases b with
      | nil => simp at h
      | cons y b =>
        have := ih a b (by simpa using h)
        cases q <;> simp_all [maskSel]

theorem maskSel_mem {α : Type} {mask : List Bool} {l : List α} {x : α} (h : x ∈ maskSel mask l) : x ∈ l := by
  unfold maskSel at h
  obtain ⟨⟨b, y⟩, h1, rfl⟩ := List.mem_map.mp h
  exact (List.of_mem_zip (List.mem_filter.mp h1).1).2

/-- Sum of a function over a selection of a list. -/
theorem MaskOf.sumOf {α : Type} [Inhabited α] {mask : List Bool} {n : ℕ} {S : ℕ → Prop} (h : MaskOf mask n S) {l : List α}
    (hl : l.length = n) (f : α → ℝ) : ((maskSel mask l).map f).sum = sumOver n S (fun i => f l[i]!) := by
  classical
  rw [maskSel_eq mask l (by rw [h.len, hl]), List.map_map, hl]
  unfold sumOver
  rw [← List.sum_toFinset _ (List.nodup_range.filter _)]
  refine Finset.sum_congr ?_ fun _ _ => rfl
  ext i
  simp only [List.mem_toFinset, List.mem_filter, List.mem_range, Finset.mem_filter, Finset.mem_range]
  exact ⟨fun ⟨h1, h2⟩ => ⟨h1, (h.val i h1).mp h2⟩, fun ⟨h1, h2⟩ => ⟨h1, (h.val i h1).mpr h2⟩⟩

/-- `bincount` over a selection sums the weights bin by bin. -/
theorem bincount_over {lo hi : ℝ} {B : List (ℝ × ℝ)} (h : Contig lo hi B) {n : ℕ} {S : ℕ → Prop} {mask : List Bool} (hS : MaskOf mask n S)
    {ts ws lower upper : List ℝ} (ht : ts.length = n) (hw : ws.length = n) (hin : ∀ i < n, lo ≤ ts[i]! ∧ ts[i]! ≤ hi)
    (hu : upper = B.map Prod.snd) (N : ℕ) :
    bincount (maskSel mask (binIndex ts lower upper)) (maskSel mask ws) N =
      .ok ((List.range N).map (fun k => sumOver n (fun i => S i ∧ InBin B k ts[i]!) (fun i => ws[i]!))) := by
  classical
  subst hu
  have hil : (binIndex ts lower (B.map Prod.snd)).length = n := by simp [binIndex, ht]
  have hidx : ∀ i < n, ∃ q : ℕ, (binIndex ts lower (B.map Prod.snd))[i]! = (q : ℤ) ∧ InBin B q ts[i]! := by
    intro i hi'
    obtain ⟨q, e, hq⟩ := h.index ts[i]! (hin i hi')
    refine ⟨q, ?_, hq⟩
    rw [← e]
    unfold binIndex
    rw [getElem!_pos _ i (by simp [ht, hi']), List.getElem_map, getElem!_pos ts i (by omega)]
  unfold bincount
  rw [if_neg]
  · congr 1
    refine List.map_congr_left fun k _ => ?_
    rw [zip_maskSel _ _ _ (by rw [hil, hw])]
    have hz : (List.zip (binIndex ts lower (B.map Prod.snd)) ws).length = n := by rw [List.length_zip, hil, hw, min_self]
    rw [hS.sumOf hz, sumOver_ite, sumOver_ite]
    refine Finset.sum_congr rfl fun i hi' => ?_
    have hi'' := Finset.mem_range.mp hi'
    have hget : (List.zip (binIndex ts lower (B.map Prod.snd)) ws)[i]! = ((binIndex ts lower (B.map Prod.snd))[i]!, ws[i]!) := by
      rw [getElem!_pos _ i (by omega), List.getElem_zip, getElem!_pos _ i (by omega), getElem!_pos ws i (by omega)]
    rw [hget]
    obtain ⟨q, e, hq⟩ := hidx i hi''
    simp only [e, Nat.cast_inj]
    by_cases hs : S i
    · by_cases hk : q = k
      · subst hk
        rw [if_pos hs, if_pos rfl, if_pos ⟨hs, hq⟩]
      · rw [if_pos hs, if_neg hk, if_neg]
        rintro ⟨-, h2⟩
        exact hk (h.inBin_unique hq h2)
    · rw [if_neg hs, if_neg (fun h' => hs h'.1)]
  · simp only [List.any_eq_true, decide_eq_true_eq, not_exists, not_and, not_lt]
    intro k hk
    obtain ⟨i, hi', e⟩ := List.getElem_of_mem (maskSel_mem hk)
    obtain ⟨q, e2, -⟩ := hidx i (by omega)
    rw [getElem!_pos _ i hi', e] at e2
    omega

/-- The rows of the bins that hold stars. -/
theorem tailRows_ok {lo hi : ℝ} {B : List (ℝ × ℝ)} (h : Contig lo hi B) {n : ℕ} {S : ℕ → Prop} {mask : List Bool} (hS : MaskOf mask n S)
    {T : BinTable} {ts : List ℝ} {st : List Ph} (ht : ts.length = n) (hst : st.length = n) (hin : ∀ i < n, lo ≤ ts[i]! ∧ ts[i]! ≤ hi)
    (hu : T.upper = B.map Prod.snd) (hm : T.mid.length = B.length) :
    ∃ (ks : List ℕ) (rows : List PathPt), tailRows T mask ts st = .ok rows ∧
      ks.Pairwise (· < ·) ∧ (∀ k, k ∈ ks ↔ k < B.length ∧ 0 < numOver n (fun i => S i ∧ InBin B k ts[i]!)) ∧
      List.Forall₂ (fun k row => row.t = T.mid[k]! ∧
        row.p.x * numOver n (fun i => S i ∧ InBin B k ts[i]!) = sumOver n (fun i => S i ∧ InBin B k ts[i]!) (fun i => (st[i]!).x) ∧
        row.p.y * numOver n (fun i => S i ∧ InBin B k ts[i]!) = sumOver n (fun i => S i ∧ InBin B k ts[i]!) (fun i => (st[i]!).y) ∧
        row.p.z * numOver n (fun i => S i ∧ InBin B k ts[i]!) = sumOver n (fun i => S i ∧ InBin B k ts[i]!) (fun i => (st[i]!).z) ∧
        row.p.vx * numOver n (fun i => S i ∧ InBin B k ts[i]!) = sumOver n (fun i => S i ∧ InBin B k ts[i]!) (fun i => (st[i]!).vx) ∧
        row.p.vy * numOver n (fun i => S i ∧ InBin B k ts[i]!) = sumOver n (fun i => S i ∧ InBin B k ts[i]!) (fun i => (st[i]!).vy) ∧
        row.p.vz * numOver n (fun i => S i ∧ InBin B k ts[i]!) = sumOver n (fun i => S i ∧ InBin B k ts[i]!) (fun i => (st[i]!).vz))
        ks rows := by
  classical
  have key : ∀ f : Ph → ℝ, bincount (maskSel mask (binIndex ts T.lower T.upper)) (maskSel mask (st.map f)) T.mid.length =
      .ok ((List.range T.mid.length).map (fun k => sumOver n (fun i => S i ∧ InBin B k ts[i]!) (fun i => f st[i]!))) := by
    intro f
    rw [bincount_over h hS ht (by simpa using hst) hin hu]
    congr 1
    refine List.map_congr_left fun k _ => ?_
    refine sumOver_congr (fun i _ => Iff.rfl) fun i hi' _ => ?_
    rw [getElem!_pos _ i (by simpa [hst] using hi'), List.getElem_map, getElem!_pos st i (by omega)]
  have get : ∀ (f : ℕ → ℝ) (k : ℕ), k < T.mid.length → ((List.range T.mid.length).map f)[k]! = f k := by
    intro f k hk
    rw [getElem!_pos _ k (by simpa using hk), List.getElem_map, List.getElem_range]
  obtain ⟨A, hA, hget⟩ : ∃ A : (Ph → ℝ) → List ℝ,
      (∀ f, bincount (maskSel mask (binIndex ts T.lower T.upper)) (maskSel mask (st.map f)) T.mid.length = .ok (A f)) ∧
      ∀ f k, k < T.mid.length → (A f)[k]! = sumOver n (fun i => S i ∧ InBin B k ts[i]!) (fun i => f st[i]!) :=
    ⟨_, key, fun f k hk => get _ k hk⟩
  clear key get
  refine ⟨(List.range T.mid.length).filter (fun k => decide ((0 : ℝ) < (A (fun _ => 1))[k]!)),
    ((List.range T.mid.length).filter (fun k => decide ((0 : ℝ) < (A (fun _ => 1))[k]!))).map (fun k =>
      { t := T.mid[k]!
        p := ⟨(A Ph.x)[k]! / (A (fun _ => 1))[k]!, (A Ph.y)[k]! / (A (fun _ => 1))[k]!, (A Ph.z)[k]! / (A (fun _ => 1))[k]!,
          (A Ph.vx)[k]! / (A (fun _ => 1))[k]!, (A Ph.vy)[k]! / (A (fun _ => 1))[k]!, (A Ph.vz)[k]! / (A (fun _ => 1))[k]!⟩ }),
    ?_, ?_, ?_, ?_⟩
  · unfold tailRows
    simp only [hA, bind, Except.bind, pure, Except.pure]
  · exact List.pairwise_lt_range.filter _
  · intro k
    simp only [List.mem_filter, List.mem_range, decide_eq_true_eq, hm]
    refine and_congr_right fun hk => ?_
    rw [← hm] at hk
    rw [hget _ k hk, ← numOver_eq]
    exact_mod_cast Iff.rfl
  · rw [List.forall₂_map_right_iff, List.forall₂_same]
    intro k hk
    simp only [List.mem_filter, List.mem_range, decide_eq_true_eq] at hk
    obtain ⟨hk1, hk2⟩ := hk
    rw [hget _ k hk1, ← numOver_eq] at hk2
    simp only [hget _ k hk1, ← numOver_eq]
    refine ⟨trivial, ?_, ?_, ?_, ?_, ?_, ?_⟩ <;> exact div_mul_cancel₀ _ hk2.ne'

end

end CT
