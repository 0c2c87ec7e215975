/- C19 (and the binaries of C18): adding binaries to a cluster. -/
import Verif.Props.Stars

namespace CT

noncomputable section

set_option linter.unusedSimpArgs false

/-! ### Broadcasting -/

theorem bcast_eq {f : ℝ → ℝ → ℝ} {a b : List ℝ} (h : a.length = b.length) : bcast f a b = .ok (List.zipWith f a b) := by
  unfold bcast; rw [if_pos h]

/-- Arrays of different lengths, neither of length one, cannot be combined. -/
theorem bcast_error {f : ℝ → ℝ → ℝ} {a b : List ℝ} (h : a.length ≠ b.length) (ha : a.length ≠ 1) (hb : b.length ≠ 1) :
    bcast f a b = .error .shapeError := by
  unfold bcast
  rw [if_neg h]
  match a, b with
  | [], [] => simp at h
  | [], [_] => simp at hb
  | [], _ :: _ :: _ => rfl
  | [_], _ => simp at ha
  | _ :: _ :: _, [] => rfl
  | _ :: _ :: _, [_] => simp at hb
  | _ :: _ :: _, _ :: _ :: _ => rfl

theorem zipWith_get! {f : ℝ → ℝ → ℝ} {a b : List ℝ} {i : ℕ} (ha : i < a.length) (hb : i < b.length) :
    (List.zipWith f a b)[i]! = f a[i]! b[i]! := by
  rw [getElem!_pos _ i (by simp; omega), getElem!_pos a i ha, getElem!_pos b i hb, List.getElem_zipWith]

theorem comCol_eq {m1 m2 mc u1 u2 : List ℝ} {q : ℕ} (h1 : m1.length = q) (h2 : m2.length = q) (hm : mc.length = q)
    (hu1 : u1.length = q) (hu2 : u2.length = q) :
    ∃ c, comCol m1 m2 mc u1 u2 = .ok c ∧ c.length = q ∧
      ∀ i < q, c[i]! = (u1[i]! * m1[i]! + u2[i]! * m2[i]!) / mc[i]! := by
  unfold comCol
  rw [bcast_eq (by rw [hu1, h1])]
  simp only [bind, Except.bind]
  rw [bcast_eq (by rw [hu2, h2])]
  simp only
  rw [bcast_eq (by simp [h1, h2, hu1, hu2])]
  simp only
  rw [bcast_eq (by simp [h1, h2, hu1, hu2, hm])]
  refine ⟨_, rfl, by simp [h1, h2, hu1, hu2, hm], ?_⟩
  intro i hi
  rw [zipWith_get! (by simp; omega) (by omega), zipWith_get! (by simp; omega) (by simp; omega),
    zipWith_get! (by omega) (by omega), zipWith_get! (by omega) (by omega)]

/-! ### Specification: what the centre-of-mass star of a pair has to satisfy -/

/-- A star of mass `M` at `p` represents the pair of point masses `m1` at `p1` and `m2` at `p2`: total mass, and
mass-weighted position and velocity equal to the sum over the components. -/
structure Represents (M : ℝ) (p : Ph) (m1 : ℝ) (p1 : Ph) (m2 : ℝ) (p2 : Ph) : Prop where
  m : M = m1 + m2
  x : M * p.x = m1 * p1.x + m2 * p2.x
  y : M * p.y = m1 * p1.y + m2 * p2.y
  z : M * p.z = m1 * p1.z + m2 * p2.z
  vx : M * p.vx = m1 * p1.vx + m2 * p2.vx
  vy : M * p.vy = m1 * p1.vy + m2 * p2.vy
  vz : M * p.vz = m1 * p1.vz + m2 * p2.vz

/-- Row `i` of the per-star arrays. -/
def Tab.row (t : Tab) (i : ℕ) : Ph := ⟨t.x[i]!, t.y[i]!, t.z[i]!, t.vx[i]!, t.vy[i]!, t.vz[i]!⟩

theorem get!_map_ph {f : Ph → ℝ} {l : List Ph} {i : ℕ} (h : i < l.length) : (l.map f)[i]! = f l[i]! := by
  rw [getElem!_pos _ i (by simpa using h), getElem!_pos l i h]; simp

theorem comOf_eq {m1 m2 : List ℝ} {b1 b2 : List Ph} {q : ℕ} (h1 : m1.length = q) (h2 : m2.length = q)
    (hb1 : b1.length = q) (hb2 : b2.length = q) :
    ∃ k, comOf m1 m2 b1 b2 = .ok k ∧ k.x.length = q ∧ k.y.length = q ∧ k.z.length = q ∧ k.vx.length = q ∧
      k.vy.length = q ∧ k.vz.length = q ∧ k.m.length = q ∧
      ∀ i < q, m1[i]! + m2[i]! ≠ 0 →
        Represents k.m[i]! ⟨k.x[i]!, k.y[i]!, k.z[i]!, k.vx[i]!, k.vy[i]!, k.vz[i]!⟩ m1[i]! b1[i]! m2[i]! b2[i]! := by
  have hm : (List.zipWith (· + ·) m1 m2).length = q := by simp [h1, h2]
  have hl : ∀ f : Ph → ℝ, (b1.map f).length = q ∧ (b2.map f).length = q := fun f => by simp [hb1, hb2]
  obtain ⟨x, ex, lx, gx⟩ := comCol_eq h1 h2 hm (hl Ph.x).1 (hl Ph.x).2
  obtain ⟨y, ey, ly, gy⟩ := comCol_eq h1 h2 hm (hl Ph.y).1 (hl Ph.y).2
  obtain ⟨z, ez, lz, gz⟩ := comCol_eq h1 h2 hm (hl Ph.z).1 (hl Ph.z).2
  obtain ⟨vx, evx, lvx, gvx⟩ := comCol_eq h1 h2 hm (hl Ph.vx).1 (hl Ph.vx).2
  obtain ⟨vy, evy, lvy, gvy⟩ := comCol_eq h1 h2 hm (hl Ph.vy).1 (hl Ph.vy).2
  obtain ⟨vz, evz, lvz, gvz⟩ := comCol_eq h1 h2 hm (hl Ph.vz).1 (hl Ph.vz).2
  refine ⟨⟨x, y, z, vx, vy, vz, List.zipWith (· + ·) m1 m2⟩, ?_, lx, ly, lz, lvx, lvy, lvz, hm, ?_⟩
  · unfold comOf
    rw [bcast_eq (by rw [h1, h2])]
    simp only [bind, Except.bind, ex, ey, ez, evx, evy, evz]
    rfl
  · intro i hi h0
    have hM : (List.zipWith (· + ·) m1 m2)[i]! = m1[i]! + m2[i]! := zipWith_get! (by omega) (by omega)
    have k : ∀ f : Ph → ℝ, (m1[i]! + m2[i]!) * (((b1.map f)[i]! * m1[i]! + (b2.map f)[i]! * m2[i]!) /
        (List.zipWith (· + ·) m1 m2)[i]!) = m1[i]! * f b1[i]! + m2[i]! * f b2[i]! := by
      intro f
      rw [hM, get!_map_ph (by omega), get!_map_ph (by omega)]
      field_simp
    constructor
    · exact hM
    all_goals simp only [hM]
    · rw [gx i hi]; exact k Ph.x
    · rw [gy i hi]; exact k Ph.y
    · rw [gz i hi]; exact k Ph.z
    · rw [gvx i hi]; exact k Ph.vx
    · rw [gvy i hi]; exact k Ph.vy
    · rw [gvz i hi]; exact k Ph.vz

/-! ### C19 -/

/-- **C19 (first call).**  `add_binary_stars` on a cluster that has no binaries yet, with `q` pairs of components:
the first `q` stars of the result represent the pairs, and the stars that were there follow unchanged.  Missing
masses count as 1. -/
theorem C19_first_call_partial {b1 b2 : List Ph} {m1 m2 : Option (List ℝ)} {ids1 ids2 p1 p2 : Option (List ℤ)} {t : Tab}
    {q : ℕ} (hb1 : b1.length = q) (hb2 : b2.length = q) (h1 : ∀ l, m1 = some l → l.length = q)
    (h2 : ∀ l, m2 = some l → l.length = q) (e1 : t.mb1 = []) (e2 : t.mb2 = []) :
    ∃ t', addBinaryStars b1 b2 m1 m2 ids1 ids2 p1 p2 t = .ok t' ∧
      t'.nb = t.nb + q ∧ t'.ntot = q + t.x.length ∧
      t'.x.drop q = t.x ∧ t'.y.drop q = t.y ∧ t'.z.drop q = t.z ∧ t'.vx.drop q = t.vx ∧ t'.vy.drop q = t.vy ∧
      t'.vz.drop q = t.vz ∧ t'.m.drop q = t.m ∧
      ∀ i < q,
        let M1 := (m1.getD (List.replicate q 1))[i]!
        let M2 := (m2.getD (List.replicate q 1))[i]!
        M1 + M2 ≠ 0 → Represents t'.m[i]! (t'.row i) M1 b1[i]! M2 b2[i]! := by
  have l1 : (m1.getD (List.replicate q 1)).length = q := by
    cases h : m1 with
    | none => simp
    | some l => exact h1 l h
  have l2 : (m2.getD (List.replicate q 1)).length = q := by
    cases h : m2 with
    | none => simp
    | some l => exact h2 l h
  obtain ⟨k, hk, kx, ky, kz, kvx, kvy, kvz, km, kr⟩ := comOf_eq l1 l2 hb1 hb2
  unfold addBinaryStars storeBinaries
  simp only [e1, e2, List.nil_append, hb1, hb2, hk, bind, Except.bind, pure, Except.pure]
  refine ⟨_, rfl, rfl, ?_, ?_⟩
  · show (k.x ++ t.x).length = _
    simp [kx]
  · simp only [prependCom]
    refine ⟨?_, ?_, ?_, ?_, ?_, ?_, ?_, ?_⟩
    · rw [← kx]; simp
    · rw [← ky]; simp
    · rw [← kz]; simp
    · rw [← kvx]; simp
    · rw [← kvy]; simp
    · rw [← kvz]; simp
    · rw [← km]; simp
    · intro i hi h0
      have := kr i hi h0
      simp only [Tab.row]
      rw [get!_append_left (by omega), get!_append_left (by omega), get!_append_left (by omega),
        get!_append_left (by omega), get!_append_left (by omega), get!_append_left (by omega),
        get!_append_left (by omega)]
      exact this

/-- The claim for later calls is false, first way: once a cluster has `p ≥ 1` binaries, adding `q ≥ 2` more always raises
(the `q` new positions are multiplied by the `p + q` accumulated masses). -/
theorem C19_later_call_fails_violated {b1 b2 : List Ph} {m1 m2 : Option (List ℝ)} {ids1 ids2 p1 p2 : Option (List ℤ)}
    {t : Tab} {q : ℕ} (hb1 : b1.length = q) (hb2 : b2.length = q) (h1 : ∀ l, m1 = some l → l.length = q)
    (h2 : ∀ l, m2 = some l → l.length = q) (hq : 2 ≤ q) (e1 : t.mb1 ≠ []) (e2 : t.mb1.length = t.mb2.length) :
    addBinaryStars b1 b2 m1 m2 ids1 ids2 p1 p2 t = .error .shapeError := by
  have l1 : (m1.getD (List.replicate q 1)).length = q := by
    cases h : m1 with
    | none => simp
    | some l => exact h1 l h
  have l2 : (m2.getD (List.replicate q 1)).length = q := by
    cases h : m2 with
    | none => simp
    | some l => exact h2 l h
  have hp : 0 < t.mb1.length := List.length_pos_iff.mpr e1
  unfold addBinaryStars storeBinaries comOf comCol
  simp only [hb1, hb2]
  rw [bcast_eq (by simp [l1, l2, e2])]
  simp only [bind, Except.bind]
  rw [bcast_error (a := b1.map Ph.x) (by simp [l1, hb1]; exact e1) (by simp [hb1]; omega) (by simp [l1]; omega)]

theorem bcast_single {f : ℝ → ℝ → ℝ} {u : ℝ} {b : List ℝ} (h : b.length ≠ 1) : bcast f [u] b = .ok (b.map (f u)) := by
  unfold bcast
  rw [if_neg (by simpa using Ne.symm h)]

theorem comCol_single {m1 m2 mc : List ℝ} {u v : ℝ} {n : ℕ} (h1 : m1.length = n) (h2 : m2.length = n)
    (hm : mc.length = n) (hn : 2 ≤ n) :
    ∃ c, comCol m1 m2 mc [u] [v] = .ok c ∧ c.length = n ∧
      ∀ i < n, c[i]! = (u * m1[i]! + v * m2[i]!) / mc[i]! := by
  unfold comCol
  rw [bcast_single (by omega)]
  simp only [bind, Except.bind]
  rw [bcast_single (by omega)]
  simp only
  rw [bcast_eq (by simp [h1, h2])]
  simp only
  rw [bcast_eq (by simp [h1, h2, hm])]
  refine ⟨_, rfl, by simp [h1, h2, hm], ?_⟩
  intro i hi
  have k : ∀ (w : ℝ) (l : List ℝ), i < l.length → (l.map (fun x => w * x))[i]! = w * l[i]! := by
    intro w l hl
    rw [getElem!_pos _ i (by simpa using hl), getElem!_pos l i hl]; simp
  rw [zipWith_get! (by simp; omega) (by omega), zipWith_get! (by simp; omega) (by simp; omega), k u m1 (by omega),
    k v m2 (by omega)]

/-- Second way: adding one binary to a cluster with `p ≥ 1` binaries adds `p + 1` stars: the new pair's, and for every
older pair one more star with that pair's masses at the *new* pair's position. -/
theorem C19_later_call_adds_extra_violated {u v : Ph} {mu mv : ℝ} {ids1 ids2 p1 p2 : Option (List ℤ)}
    {t : Tab} {p : ℕ} (e1 : t.mb1.length = p) (e2 : t.mb2.length = p) (hp : 1 ≤ p) :
    ∃ t', addBinaryStars [u] [v] (some [mu]) (some [mv]) ids1 ids2 p1 p2 t = .ok t' ∧
      t'.nb = t.nb + 1 ∧ t'.ntot = t.x.length + (p + 1) ∧
      ∀ i < p, t'.m[i]! = t.mb1[i]! + t.mb2[i]! ∧
        (t.mb1[i]! + t.mb2[i]! ≠ 0 → t'.m[i]! * t'.x[i]! = t.mb1[i]! * u.x + t.mb2[i]! * v.x) := by
  obtain ⟨m1, hm1⟩ : ∃ m, m = t.mb1 ++ [mu] := ⟨_, rfl⟩
  obtain ⟨m2, hm2⟩ : ∃ m, m = t.mb2 ++ [mv] := ⟨_, rfl⟩
  have l1 : m1.length = p + 1 := by simp [hm1, e1]
  have l2 : m2.length = p + 1 := by simp [hm2, e2]
  have lm : (List.zipWith (· + ·) m1 m2).length = p + 1 := by simp [l1, l2]
  obtain ⟨x, ex, lx, gx⟩ := comCol_single (u := u.x) (v := v.x) l1 l2 lm (by omega)
  obtain ⟨y, ey, ly, gy⟩ := comCol_single (u := u.y) (v := v.y) l1 l2 lm (by omega)
  obtain ⟨z, ez, lz, gz⟩ := comCol_single (u := u.z) (v := v.z) l1 l2 lm (by omega)
  obtain ⟨vx, evx, lvx, gvx⟩ := comCol_single (u := u.vx) (v := v.vx) l1 l2 lm (by omega)
  obtain ⟨vy, evy, lvy, gvy⟩ := comCol_single (u := u.vy) (v := v.vy) l1 l2 lm (by omega)
  obtain ⟨vz, evz, lvz, gvz⟩ := comCol_single (u := u.vz) (v := v.vz) l1 l2 lm (by omega)
  have hk : comOf m1 m2 [u] [v] = .ok ⟨x, y, z, vx, vy, vz, List.zipWith (· + ·) m1 m2⟩ := by
    unfold comOf
    rw [bcast_eq (by rw [l1, l2])]
    simp only [bind, Except.bind, List.map_cons, List.map_nil, ex, ey, ez, evx, evy, evz]
    rfl
  unfold addBinaryStars storeBinaries
  simp only [Option.getD_some, ← hm1, ← hm2, hk, bind, Except.bind, pure, Except.pure]
  refine ⟨_, rfl, rfl, ?_, ?_⟩
  · simp only [prependCom, List.length_append, lx]; omega
  · intro i hi
    have g1 : m1[i]! = t.mb1[i]! := by rw [hm1]; exact get!_append_left (by omega)
    have g2 : m2[i]! = t.mb2[i]! := by rw [hm2]; exact get!_append_left (by omega)
    have gm : (List.zipWith (· + ·) m1 m2 ++ t.m)[i]! = t.mb1[i]! + t.mb2[i]! := by
      rw [get!_append_left (by omega), zipWith_get! (by omega) (by omega), g1, g2]
    simp only [prependCom]
    refine ⟨gm, fun h0 => ?_⟩
    have gm' : (List.zipWith (· + ·) m1 m2)[i]! = t.mb1[i]! + t.mb2[i]! := by
      rw [zipWith_get! (by omega) (by omega), g1, g2]
    rw [gm, get!_append_left (l := x) (by omega), gx i (by omega), gm', g1, g2]
    field_simp

/-- Without `npop1` and `npop2` the population array is not extended, so the arrays of the result have different
lengths. -/
theorem C65_binary_npop_violated {b1 b2 : List Ph} {m1 m2 : Option (List ℝ)} {ids1 ids2 : Option (List ℤ)} {t t' : Tab}
    {k q : ℕ} (al : Aligned t k) (hb1 : b1.length = q) (hb2 : b2.length = q) (h1 : ∀ l, m1 = some l → l.length = q)
    (h2 : ∀ l, m2 = some l → l.length = q) (e1 : t.mb1 = []) (e2 : t.mb2 = [])
    (h : addBinaryStars b1 b2 m1 m2 ids1 ids2 none none t = .ok t') :
    t'.x.length = k + q ∧ t'.npop.length = k := by
  obtain ⟨t'', h', -, hn, hx, -⟩ := C19_first_call_partial (ids1 := ids1) (ids2 := ids2) (p1 := none) (p2 := none)
    hb1 hb2 h1 h2 e1 e2
  have hnp : t'.ntot = t'.x.length ∧ t'.npop = t.npop := by
    unfold addBinaryStars at h
    simp only [bind, Except.bind, pure, Except.pure] at h
    split at h
    · simp at h
    · rw [← Except.ok.inj h]
      exact ⟨rfl, rfl⟩
  rw [h] at h'
  obtain rfl := Except.ok.inj h'
  refine ⟨?_, by rw [hnp.2, al.npop]⟩
  rw [← hnp.1, hn, al.x]; omega

/-- Two unequal pairs, added to the two stars of `tab2`. -/
example : ∃ t', addBinaryStars [⟨1, 0, 0, 0, 0, 0⟩, ⟨0, 2, 0, 1, 0, 0⟩] [⟨3, 0, 0, 0, 4, 0⟩, ⟨0, 6, 0, 0, 0, 1⟩]
    (some [1, 2]) (some [3, 2]) none none none none tab2 = .ok t' ∧ t'.ntot = 4 ∧
    t'.m[0]! = 4 ∧ t'.x[0]! = 2.5 := by
  obtain ⟨t', h, -, hn, -, -, -, -, -, -, -, hr⟩ := C19_first_call_partial
    (b1 := [⟨1, 0, 0, 0, 0, 0⟩, ⟨0, 2, 0, 1, 0, 0⟩]) (b2 := [⟨3, 0, 0, 0, 4, 0⟩, ⟨0, 6, 0, 0, 0, 1⟩])
    (m1 := some [1, 2]) (m2 := some [3, 2]) (ids1 := none) (ids2 := none) (p1 := none) (p2 := none) (t := tab2)
    (q := 2) rfl rfl (by simp) (by simp) rfl rfl
  have := hr 0 (by norm_num) (by norm_num)
  have hm := this.m
  have hx := this.x
  simp only [Tab.row, Option.getD_some, List.getElem!_cons_zero] at hm hx
  refine ⟨t', h, by rw [hn]; rfl, by rw [hm]; norm_num, ?_⟩
  rw [hm] at hx
  norm_num at hx ⊢
  linarith

end

end CT
