import Verif.Lemmas.Total
import Verif.Spec.Order
import Mathlib.Tactic.Positivity

namespace CT

noncomputable section

set_option linter.unusedSimpArgs false

/-! ### freshness -/

theorem areNorms_map {q : Ph → ℝ} (hq : ∀ p, 0 ≤ q p) (st : List Ph) :
    AreNorms q st (st.map (fun p => Real.sqrt (q p))) := by
  induction st with
  | nil => exact .nil
  | cons p st ih => exact .cons ⟨Real.sqrt_nonneg _, Real.sq_sqrt (hq p)⟩ ih

theorem foldl_max_spec (l : List ℝ) (a : ℝ) :
    (l.foldl max a = a ∨ l.foldl max a ∈ l) ∧ a ≤ l.foldl max a ∧ ∀ x ∈ l, x ≤ l.foldl max a := by
  induction l generalizing a with
  | nil => simp
  | cons b l ih =>
    obtain ⟨h1, h2, h3⟩ := ih (max a b)
    simp only [List.foldl_cons]
    refine ⟨?_, (le_max_left _ _).trans h2, ?_⟩
    · rcases h1 with h1 | h1
      · rw [h1]
        rcases max_choice a b with h | h
        · left; exact h
        · right; rw [h]; simp
      · right; simp [h1]
    · intro x hx
      rcases List.mem_cons.mp hx with rfl | hx
      · exact (le_max_right _ _).trans h2
      · exact h3 x hx

theorem maxOf_spec {l : List ℝ} (h : l ≠ []) : maxOf l ∈ l ∧ ∀ x ∈ l, x ≤ maxOf l := by
  cases l with
  | nil => exact absurd rfl h
  | cons a l =>
    obtain ⟨h1, h2, h3⟩ := foldl_max_spec (a :: l) a
    unfold maxOf
    refine ⟨?_, h3⟩
    rcases h1 with h1 | h1
    · simp only [List.headD_cons]; rw [h1]; simp
    · exact h1

theorem mean_mul {l : List ℝ} (h : l ≠ []) : mean l * l.length = l.sum := by
  have : (l.length : ℝ) ≠ 0 := by simpa using h
  unfold mean; field_simp

theorem analyze_d {s p : Bool} {c c' : Cluster} (h : analyze s c p = .ok c') :
    c.st ≠ [] ∧ ∃ rm r10 rmp r10p, c'.d =
      { units := c.units, origin := c.origin, r := c.st.map Ph.r, rpro := c.st.map Ph.rpro,
        v := c.st.map Ph.v, vpro := c.st.map Ph.vpro,
        mtot := c.m.sum, mmean := mean c.m, rmean := mean (c.st.map Ph.r), rmeanpro := mean (c.st.map Ph.rpro),
        rmax := maxOf (c.st.map Ph.r), rmaxpro := maxOf (c.st.map Ph.rpro),
        rm := rm, r10 := r10, rmpro := rmp, r10pro := r10p } := by
  unfold analyze at h
  simp only [bind, Except.bind, pure, Except.pure] at h
  split at h
  · cases h
  · rename_i hs
    by_cases he : c.st = []
    · simp [he, throw, throwThe, MonadExceptOf.throw] at hs
    · split at h
      · cases h
      · split at h
        · cases h
        · injection h with h
          rw [← h]
          exact ⟨he, _, _, _, _, rfl⟩

theorem analyze_fresh {s p : Bool} {c c' : Cluster} (h : analyze s c p = .ok c') : Fresh c' := by
  obtain ⟨hne, rm, r10, rmp, r10p, hd⟩ := analyze_d h
  obtain ⟨k1, k2, k3, k4, k5, -⟩ := core_fields (analyze_core h)
  have hl : c.st.map Ph.r ≠ [] := by simpa using hne
  have hl2 : c.st.map Ph.rpro ≠ [] := by simpa using hne
  refine ⟨by rw [hd, k1], by rw [hd, k2], ?_, ?_, ?_, ?_, by rw [hd, k4], ?_, ?_, ?_, ?_, ?_⟩
  · rw [hd, k5]; exact areNorms_map (fun p => by positivity) c.st
  · rw [hd, k5]; exact areNorms_map (fun p => by positivity) c.st
  · rw [hd, k5]; exact areNorms_map (fun p => by positivity) c.st
  · rw [hd, k5]; exact areNorms_map (fun p => by positivity) c.st
  · intro hm; rw [k4] at hm; rw [hd, k4]; exact mean_mul hm
  · rw [hd, k5]; have := mean_mul hl; simpa using this
  · rw [hd, k5]; have := mean_mul hl2; simpa using this
  · rw [hd]; exact maxOf_spec hl
  · rw [hd]; exact maxOf_spec hl2

theorem analyzeIf_fresh {c c' : Cluster} (h : analyzeIf true c = .ok c') : Fresh c' :=
  analyze_fresh (s := true) (p := true) h

theorem toPckms_fresh {g : Galpy} {c c' : Cluster} (f : Fresh c) (h : toPckms g true c = .ok c') :
    Fresh c' := by
  unfold toPckms at h
  simp only [bind, pure, Except.pure] at h
  repeat' first | split at h | (with_reducible replace h := bind_ok h; obtain ⟨_, -, h⟩ := h)
  all_goals first | exact analyzeIf_fresh h | (cases h; exact f)

theorem toKpckms_fresh {g : Galpy} {c c' : Cluster} (f : Fresh c) (h : toKpckms g true c = .ok c') :
    Fresh c' := by
  unfold toKpckms at h
  simp only [bind, pure, Except.pure] at h
  repeat' first | split at h | (with_reducible replace h := bind_ok h; obtain ⟨_, -, h⟩ := h)
  all_goals first | exact analyzeIf_fresh h | (cases h; exact f)

theorem toPcmyr_fresh {g : Galpy} {c c' : Cluster} {u : Units} (hu : c.units = some u) (hl : u.linear)
    (f : Fresh c) (h : toPcmyr g true c = .ok c') : Fresh c' := by
  unfold toPcmyr at h
  simp only [hu, bind] at h
  obtain ⟨c1, h1, h2⟩ := ite_bind_ok h
  split at h2
  · exact analyzeIf_fresh h2
  · rename_i hne
    rw [not_not] at hne
    injection h2 with h2
    subst h2
    split at h1
    · rw [(toPckms_ustep hu hl h1).units] at hne; cases hne
    · cases h1; exact f

theorem toKpcgyr_fresh {g : Galpy} {c c' : Cluster} {u : Units} (hu : c.units = some u) (hl : u.linear)
    (f : Fresh c) (h : toKpcgyr g true c = .ok c') : Fresh c' := by
  unfold toKpcgyr at h
  simp only [hu, bind] at h
  obtain ⟨c1, h1, h2⟩ := ite_bind_ok h
  split at h2
  · exact analyzeIf_fresh h2
  · rename_i hne
    rw [not_not] at hne
    injection h2 with h2
    subst h2
    split at h1
    · rw [(toKpckms_ustep hu hl h1).units] at hne; cases hne
    · cases h1; exact f

theorem toNbody_fresh {g : Galpy} {c c' : Cluster} (f : Fresh c) (h : toNbody g c = .ok c') : Fresh c' := by
  unfold toNbody at h
  simp only [bind, pure, Except.pure] at h
  repeat' first | split at h | (with_reducible replace h := bind_ok h; obtain ⟨_, -, h⟩ := h)
  all_goals first | exact analyze_fresh h | (cases h; exact f)

theorem toGalpy_fresh {g : Galpy} {c c' : Cluster} (f : Fresh c) (h : toGalpy g c = .ok c') : Fresh c' := by
  unfold toGalpy at h
  simp only [bind, pure, Except.pure] at h
  repeat' first | split at h | (with_reducible replace h := bind_ok h; obtain ⟨_, -, h⟩ := h)
  all_goals first | exact analyze_fresh h | (cases h; exact f)

theorem toWD_fresh {g : Galpy} {c c' : Cluster} {u : Units} (hu : c.units = some u) (hl : u.linear)
    (f : Fresh c) (h : toWD g c = .ok c') : Fresh c' := by
  unfold toWD at h
  simp only [hu, bind] at h
  obtain ⟨c1, h1, h2⟩ := ite_bind_ok h
  split at h2
  · exact analyze_fresh h2
  · rename_i hne
    rw [not_not] at hne
    injection h2 with h2
    subst h2
    split at h1
    · rw [(toKpckms_ustep hu hl h1).units] at hne; cases hne
    · cases h1; exact f

theorem toAmuse_fresh {g : Galpy} {c c' : Cluster} (f : Fresh c) (h : toAmuse g true c = .ok c') :
    Fresh c' := by
  unfold toAmuse at h
  simp only [bind, pure, Except.pure] at h
  repeat' first | split at h | (with_reducible replace h := bind_ok h; obtain ⟨_, -, h⟩ := h)
  all_goals first | exact analyzeIf_fresh h | (cases h; exact f)

theorem toUnits_fresh {g : Galpy} {t : Units} {c c' : Cluster} {u : Units} (hu : c.units = some u)
    (hl : u.linear) (ht : t.linear) (f : Fresh c) (h : toUnits g t c = .ok c') : Fresh c' := by
  unfold toUnits toUnitsNR at h
  simp only [hu] at h
  cases t <;> simp only [Units.linear] at ht <;> simp only [reduceCtorEq, if_false] at h
  · exact toNbody_fresh f h
  · exact toPckms_fresh f h
  · exact toPcmyr_fresh hu hl f h
  · exact toKpckms_fresh f h
  · exact toKpcgyr_fresh hu hl f h
  · exact toGalpy_fresh f h
  · exact toWD_fresh hu hl f h
  · exact toAmuse_fresh f h

theorem setMethod_fresh {cm : Option CentreMethod} {c : Cluster} (f : Fresh c) : Fresh (setMethod cm c) := by
  cases cm <;> exact ⟨f.1, f.2, f.3, f.4, f.5, f.6, f.7, f.8, f.9, f.10, f.11, f.12⟩

theorem toCluster_fresh {s : Bool} {cm : Option CentreMethod} {c c' : Cluster} (f : Fresh c)
    (h : toCluster s cm c = .ok c') : Fresh c' := by
  unfold toCluster at h
  simp only [bind, pure, Except.pure] at h
  repeat' first | split at h | (with_reducible replace h := bind_ok h; obtain ⟨_, -, h⟩ := h)
  all_goals first | exact analyze_fresh h | (cases h; first | exact f | exact setMethod_fresh f)

theorem toCentre_fresh {s : Bool} {cm : Option CentreMethod} {c c' : Cluster} (f : Fresh c)
    (h : toCentre s cm c = .ok c') : Fresh c' := by
  unfold toCentre at h
  simp only [bind, pure, Except.pure] at h
  repeat' first | split at h | (with_reducible replace h := bind_ok h; obtain ⟨_, -, h⟩ := h)
  all_goals first | exact analyze_fresh h | (cases h; first | exact f | exact setMethod_fresh f)

theorem toGalaxy_fresh {g : Galpy} {s : Bool} {c c' : Cluster} (f : Fresh c)
    (h : toGalaxy g s c = .ok c') : Fresh c' := by
  unfold toGalaxy at h
  simp only [bind, pure, Except.pure] at h
  repeat' first | split at h | (with_reducible replace h := bind_ok h; obtain ⟨_, -, h⟩ := h)
  all_goals first | exact analyze_fresh h | (cases h; exact f)

theorem toOrigin_fresh {g : Galpy} {t : OriginTarget} {s : Bool} {cm : Option CentreMethod} {c c' : Cluster}
    (f : Fresh c) (h : toOrigin g t s cm c = .ok c') : Fresh c' := by
  unfold toOrigin at h
  simp only [bind, pure, Except.pure] at h
  repeat' first | split at h | (with_reducible replace h := bind_ok h; obtain ⟨_, -, h⟩ := h)
  all_goals first | exact analyze_fresh h | (cases h; exact f)

theorem fresh_audays {c : Cluster} (f : Fresh c) : Fresh (toAudays c) := by
  unfold toAudays; dsimp only; repeat' split
  all_goals exact ⟨f.1, f.2, f.3, f.4, f.5, f.6, f.7, f.8, f.9, f.10, f.11, f.12⟩

theorem fresh_sudays {c : Cluster} (f : Fresh c) : Fresh (toSudays c) := by
  unfold toSudays; dsimp only; repeat' split
  all_goals exact ⟨f.1, f.2, f.3, f.4, f.5, f.6, f.7, f.8, f.9, f.10, f.11, f.12⟩

theorem exec_fresh {g : Galpy} {op : Op} {c c' : Cluster} (l : Lin c) (hl : op.linear) (ha : op.analysed)
    (f : Fresh c) (h : op.exec g c = .ok c') : Fresh c' := by
  obtain ⟨⟨u, hu, hul⟩, -⟩ := l
  cases op <;> simp only [Op.analysed] at ha <;> try subst ha
  · exact toPckms_fresh f h
  · exact toKpckms_fresh f h
  · exact toPcmyr_fresh hu hul f h
  · exact toKpcgyr_fresh hu hul f h
  · exact toNbody_fresh f h
  · exact toGalpy_fresh f h
  · exact toWD_fresh hu hul f h
  · exact toAmuse_fresh f h
  · exact toUnits_fresh hu hul (hl.1 _ rfl) f h
  · exact toCentre_fresh f h
  · exact toCluster_fresh f h
  · exact toGalaxy_fresh f h
  · exact toOrigin_fresh f h
  · exact analyze_fresh h
  · cases h; exact fresh_audays f
  · cases h; exact fresh_sudays f

/-! ### radial orders -/

theorem SortedBy.argsort (r : List ℝ) : SortedBy r (argsort r) := ⟨argsort_perm r, argsort_sorted r⟩

/-- What `analyze` does to the stored radial order. -/
theorem analyze_rorder {s p : Bool} {c c' : Cluster} (h : analyze s c p = .ok c') :
    (c'.rorder = c.rorder ∧ c'.rorderOrigin = c.rorderOrigin) ∨
    (s = true ∧ c'.rorder = some (argsort (c.st.map Ph.r)) ∧ c'.rorderOrigin = c.origin) := by
  unfold analyze at h
  simp only [bind, Except.bind, pure, Except.pure] at h
  split at h
  · cases h
  · split at h
    · cases h
    · split at h
      · cases h
      · injection h with h
        rw [← h]
        cases s
        · left; exact ⟨rfl, rfl⟩
        · simp only [if_true]
          unfold sortstars
          dsimp only
          repeat' split
          all_goals first
            | exact Or.inl ⟨rfl, rfl⟩
            | exact Or.inr ⟨by trivial, rfl, rfl⟩
            | (refine Or.inl ⟨?_, ?_⟩ <;> simp_all; done)
            | (refine Or.inr ⟨by trivial, ?_, ?_⟩ <;> simp_all; done)

/-- When `analyze` sorts, the stored order is either fresh or was already made for this origin and length. -/
theorem analyze_rorder_sorted {p : Bool} {c c' : Cluster} (h : analyze true c p = .ok c') :
    ∃ o, c'.rorder = some o ∧ c'.rorderOrigin = c.origin ∧
      (o = argsort (c.st.map Ph.r) ∨ (c.rorder = some o ∧ c.rorderOrigin = c.origin)) := by
  unfold analyze at h
  simp only [bind, Except.bind, pure, Except.pure] at h
  split at h
  · cases h
  · split at h
    · cases h
    · split at h
      · cases h
      · injection h with h
        rw [← h]
        simp only [if_true]
        unfold sortstars
        dsimp only
        cases hro : c.rorder with
        | none =>
          dsimp only
          repeat' split
          all_goals exact ⟨_, rfl, rfl, Or.inl rfl⟩
        | some o =>
          dsimp only
          by_cases hc : c.rorderOrigin ≠ c.origin ∨ (c.st.map Ph.r).length ≠ o.length
          · simp only [if_pos hc]
            repeat' split
            all_goals exact ⟨_, rfl, rfl, Or.inl rfl⟩
          · simp only [if_neg hc]
            have he : c.rorderOrigin = c.origin := by
              by_contra h'; exact hc (Or.inl h')
            repeat' split
            all_goals exact ⟨o, hro, he, Or.inr ⟨rfl, he⟩⟩

theorem World.radius_eq {g : Galpy} {c : Cluster} {w : World} {u : Units} {s : Scale} {o : Origin}
    (hw : world g c = some w) (hu : c.units = some u) (ho : c.origin = some o) (hol : o.linear)
    (hs : unitScale g c u = some s) (hp : 0 < s.len) (i : ℕ) (hi : i < c.st.length) :
    w.radius o i = (c.st.map Ph.r).getD i 0 * s.len := by
  unfold world phys at hw
  simp only [hu, ho, hs, Option.some.injEq] at hw
  subst hw
  have hr : ∀ p : Ph, Real.sqrt ((p.x * s.len) ^ 2 + (p.y * s.len) ^ 2 + (p.z * s.len) ^ 2) = p.r * s.len := by
    intro p
    rw [show (p.x * s.len) ^ 2 + (p.y * s.len) ^ 2 + (p.z * s.len) ^ 2 =
      (p.x ^ 2 + p.y ^ 2 + p.z ^ 2) * s.len ^ 2 by ring, Real.sqrt_mul (by positivity),
      Real.sqrt_sq hp.le]; rfl
  simp only [World.radius, galRows, List.getElem?_map, List.getElem?_eq_getElem hi, Option.map_some,
    List.getD_eq_getElem?_getD, Option.getD_some]
  cases o <;> simp only [Origin.linear] at hol <;>
    simp only [galactocentric, frameOffset, phAdd, Scale.ph, sub_zero] <;> rw [← hr] <;> congr 2 <;> ring

theorem world_length {g : Galpy} {c : Cluster} {w : World} (hw : world g c = some w) :
    w.stars.length = c.st.length := by
  unfold world phys at hw
  split at hw
  · rename_i P o hP ho
    cases hw
    split at hP
    · cases hP
    · split at hP
      · cases hP
      · cases hP; simp [galRows]
  · cases hw

theorem unitScale_pos {g : Galpy} {c : Cluster} (p : Pos g c) {u : Units} {s : Scale}
    (h : unitScale g c u = some s) : 0 < s.len ∧ 0 < s.vel ∧ 0 < s.mass ∧ 0 < s.time := by
  have := p.rbar; have := p.vbar; have := p.zmbar; have := p.tbar; have := p.ro; have := p.vo
  have := p.time; have := p.mass; have := p.vel
  cases u <;> simp only [unitScale, Option.some.injEq, reduceCtorEq] at h <;> subst h <;>
    refine ⟨?_, ?_, ?_, ?_⟩ <;> simp only [kmsToPcMyr, mconWD] <;> positivity

theorem unitScale_isSome {g : Galpy} {c : Cluster} {u : Units} (h : u.linear) :
    ∃ s, unitScale g c u = some s := by
  cases u <;> simp [Units.linear] at h <;> exact ⟨_, rfl⟩

/-- A fresh sort satisfies the order invariant. -/
theorem orderInv_argsort {g : Galpy} {c : Cluster} {w : World} (p : Pos g c) (l : Lin c)
    (hw : world g c = some w) {o : Origin} (ho : c.origin = some o) :
    IsOrder w.stars.length (argsort (c.st.map Ph.r)) ∧
      (argsort (c.st.map Ph.r)).Pairwise (fun i j => w.radius o i ≤ w.radius o j) := by
  obtain ⟨⟨u, hu, hul⟩, ⟨o', ho', hol⟩⟩ := l
  rw [ho] at ho'; cases ho'
  obtain ⟨s, hs⟩ := unitScale_isSome (g := g) (c := c) hul
  have hlen := (unitScale_pos p hs).1
  have hp := argsort_perm (c.st.map Ph.r)
  refine ⟨by rw [world_length hw]; simpa using hp, ?_⟩
  refine (argsort_sorted (c.st.map Ph.r)).imp_of_mem ?_
  intro i j hi hj hij
  have hi' : i < c.st.length := by simpa using hp.lt hi
  have hj' : j < c.st.length := by simpa using hp.lt hj
  rw [World.radius_eq hw hu ho hol hs hlen i hi', World.radius_eq hw hu ho hol hs hlen j hj']
  exact mul_le_mul_of_nonneg_right hij hlen.le

theorem world_core {g : Galpy} {c c' : Cluster} (h : c'.core = c.core) : world g c' = world g c :=
  world_of_data (core_data h) (core_fields h).2.2.2.2.2.2.2.2.2.2.2

theorem OrderInv.of_eq {w : World} {c c' : Cluster} (i : OrderInv w c) (h1 : c'.rorder = c.rorder)
    (h2 : c'.rorderOrigin = c.rorderOrigin) : OrderInv w c' := by
  intro o ho; rw [h1] at ho; rw [h2]; exact i o ho

/-- `analyze` keeps the order invariant, when its result describes the world `w` in linear labels. -/
theorem OrderInv.analyze {g : Galpy} {s pr : Bool} {c c' : Cluster} {w : World} (p : Pos g c') (l : Lin c')
    (hw : world g c' = some w) (i : OrderInv w c) (h : analyze s c pr = .ok c') : OrderInv w c' := by
  have hc := analyze_core h
  obtain ⟨k1, k2, k3, k4, k5, k6, k7, k8, k9, k10, k11, k12⟩ := core_fields hc
  rcases analyze_rorder h with ⟨h1, h2⟩ | ⟨-, h1, h2⟩
  · exact i.of_eq h1 h2
  · intro o ho
    rw [h1] at ho; cases ho
    obtain ⟨f, hf, hfl⟩ := l.origin
    rw [← k5]
    obtain ⟨a1, a2⟩ := orderInv_argsort p l hw hf
    exact ⟨f, by rw [h2, ← k2, hf], hfl, a1, a2⟩

end

end CT
