/- Property theorems C155: the methods for orbits and tails are observers and keep their results. -/
import Verif.Spec.PathMethods
import Verif.Props.Session
import Verif.Props.Tails2

namespace CT

noncomputable section

/-- The call as a call of an analysis function. -/
def TrCall.plain : TrCall → SCall
  | .call a => a
  | .orbitalPath flow a dt sky _ =>
    if sky then .query (.orbitalPathSky flow { a with tfinal := legacyTime dt a.tfinal })
    else .query (.orbitalPath flow { a with tfinal := legacyTime dt a.tfinal })
  | .orbitalPathMatch flow a dt => .query (.orbitalPathMatch flow { a with tfinal := legacyTime dt a.tfinal })
  | .toTail rotTo => .query (.toTail rotTo)
  | .tailPath flow a dt tf => .query (.tailPath flow { a with tfinal := legacyTime (some dt) (tf.getD (some 0.1)) })
  | .tailPathMatch flow a dt tf p => .query (.tailPathMatch flow { a with tfinal := legacyTime (some dt) (tf.getD (some 0.1)) } p)

theorem plain_admissible {w : World} {a : TrCall} (h : a.Admissible w) : a.plain.Admissible w := by
  cases a with
  | call a => exact h
  | orbitalPath flow a dt sky init => cases sky <;> exact trivial
  | _ => exact trivial

theorem plain_exec {g : Galpy} {w : World} {a : TrCall} {x y : Trail} (ha : a.Admissible w) (h : a.exec g x = .ok y) :
    a.plain.exec g x.c = .ok y.c ∧ (a.setsPath = false → y.path = x.path) ∧ (a.setsMatched = false → y.matched = x.matched) ∧
      (a.setsTail = false → y.tail = x.tail ∧ y.rTail = x.rTail ∧ y.vTail = x.vTail) := by
  cases a with
  | call a =>
    simp only [TrCall.exec] at h
    cases e : a.exec g x.c with
    | error _ => rw [e] at h; cases h
    | ok c1 =>
      rw [e] at h; cases h
      exact ⟨e, fun _ => rfl, fun _ => rfl, fun _ => ⟨rfl, rfl, rfl⟩⟩
  | orbitalPath flow a dt sky init =>
    cases ha
    simp only [TrCall.exec, orbitalPathMethod] at h
    cases sky
    · simp only [Bool.false_eq_true, if_false, bind, Except.bind, pure, Except.pure] at h
      cases e : orbitalPath g flow { a with tfinal := legacyTime dt a.tfinal } x.c with
      | error _ => rw [e] at h; cases h
      | ok r =>
        rw [e] at h; cases h
        refine ⟨?_, by simp [TrCall.setsPath], fun _ => rfl, fun _ => ⟨rfl, rfl, rfl⟩⟩
        simp [TrCall.plain, SCall.exec, Query.exec, e, Except.map]
    · simp only [if_true, Bool.false_eq_true, if_false, bind, Except.bind, pure, Except.pure] at h
      cases e : orbitalPathSky g flow { a with tfinal := legacyTime dt a.tfinal } x.c with
      | error _ => rw [e] at h; cases h
      | ok r =>
        rw [e] at h; cases h
        refine ⟨?_, by simp [TrCall.setsPath], fun _ => rfl, fun _ => ⟨rfl, rfl, rfl⟩⟩
        simp [TrCall.plain, SCall.exec, Query.exec, e, Except.map]
  | orbitalPathMatch flow a dt =>
    simp only [TrCall.exec, orbitalPathMatchMethod, bind, Except.bind, pure, Except.pure] at h
    cases e : orbitalPathMatch g flow { a with tfinal := legacyTime dt a.tfinal } x.c with
    | error _ => rw [e] at h; cases h
    | ok r =>
      rw [e] at h; cases h
      refine ⟨?_, fun _ => rfl, by simp [TrCall.setsMatched], fun _ => ⟨rfl, rfl, rfl⟩⟩
      simp [TrCall.plain, SCall.exec, Query.exec, e, Except.map]
  | toTail rotTo =>
    simp only [TrCall.exec, toTailMethod, bind, Except.bind, pure, Except.pure] at h
    cases e : toTail g rotTo x.c with
    | error _ => rw [e] at h; cases h
    | ok r =>
      rw [e] at h; cases h
      refine ⟨?_, fun _ => rfl, fun _ => rfl, by simp [TrCall.setsTail]⟩
      simp [TrCall.plain, SCall.exec, Query.exec, e, Except.map]
  | tailPath flow a dt tf =>
    simp only [TrCall.exec, tailPathMethod, bind, Except.bind, pure, Except.pure] at h
    cases e : tailPath g flow { a with tfinal := legacyTime (some dt) (tf.getD (some 0.1)) } x.c with
    | error _ => rw [e] at h; cases h
    | ok r =>
      rw [e] at h; cases h
      refine ⟨?_, by simp [TrCall.setsPath], fun _ => rfl, fun _ => ⟨rfl, rfl, rfl⟩⟩
      simp [TrCall.plain, SCall.exec, Query.exec, e, Except.map]
  | tailPathMatch flow a dt tf p =>
    simp only [TrCall.exec, tailPathMatchMethod, bind, Except.bind, pure, Except.pure] at h
    cases e : tailPathMatch g flow { a with tfinal := legacyTime (some dt) (tf.getD (some 0.1)) } p x.c with
    | error _ => rw [e] at h; cases h
    | ok r =>
      rw [e] at h; cases h
      refine ⟨?_, fun _ => rfl, by simp [TrCall.setsMatched], fun _ => ⟨rfl, rfl, rfl⟩⟩
      simp [TrCall.plain, SCall.exec, Query.exec, e, Except.map]

theorem plain_conversions (l : List TrCall) : conversions (l.map TrCall.plain) = pathConversions l := by
  induction l with
  | nil => rfl
  | cons a l ih =>
    cases a with
    | call a => cases a <;> simp [TrCall.plain, conversions, pathConversions, ih]
    | orbitalPath flow a dt sky init => cases sky <;> simp [TrCall.plain, conversions, pathConversions, ih]
    | _ => simp [TrCall.plain, conversions, pathConversions, ih]

theorem psession_plain {g : Galpy} {w : World} (l : List TrCall) : ∀ {x y : Trail}, (∀ a ∈ l, a.Admissible w) → psession g l x = .ok y →
    session g (l.map TrCall.plain) x.c = .ok y.c ∧ ((∀ a ∈ l, a.setsPath = false) → y.path = x.path) ∧
      ((∀ a ∈ l, a.setsMatched = false) → y.matched = x.matched) ∧
      ((∀ a ∈ l, a.setsTail = false) → y.tail = x.tail ∧ y.rTail = x.rTail ∧ y.vTail = x.vTail) := by
  induction l with
  | nil => intro x y _ h; cases h; exact ⟨rfl, fun _ => rfl, fun _ => rfl, fun _ => ⟨rfl, rfl, rfl⟩⟩
  | cons a l ih =>
    intro x y hl h
    obtain ⟨x1, h1, h2⟩ := bind_ok h
    obtain ⟨e, k1, k2, k3⟩ := plain_exec (hl a (by simp)) h1
    obtain ⟨e', m1, m2, m3⟩ := ih (fun b hb => hl b (by simp [hb])) h2
    refine ⟨?_, fun q => (m1 (fun b hb => q b (by simp [hb]))).trans (k1 (q a (by simp))),
      fun q => (m2 (fun b hb => q b (by simp [hb]))).trans (k2 (q a (by simp))), fun q => ?_⟩
    · simp only [List.map_cons, session, e, Except.bind]; exact e'
    · obtain ⟨a1, a2, a3⟩ := m3 (fun b hb => q b (by simp [hb]))
      obtain ⟨b1, b2, b3⟩ := k3 (q a (by simp))
      exact ⟨a1.trans b1, a2.trans b2, a3.trans b3⟩

/-- **C155 (observers).**  Sessions of conversions, analysis functions and the methods `orbital_path`, `orbital_path_match`, `to_tail`,
`tail_path`, `tail_path_match`, of any length: the cluster describes the same world, and is exactly the one the conversions alone would
have left. -/
theorem C155_session {g : Galpy} {w : World} {l : List TrCall} {x y : Trail} (hl : ∀ a ∈ l, a.Admissible w) (d : Describes g w x.c)
    (h : psession g l x = .ok y) :
    Describes g w y.c ∧ ∃ c, run g (pathConversions l) x.c = .ok c ∧ y.c.data = c.data ∧ y.c.rest = c.rest := by
  obtain ⟨e, -⟩ := psession_plain l hl h
  rw [← plain_conversions]
  refine C124_session (fun a ha => ?_) d e
  obtain ⟨b, hb, rfl⟩ := List.mem_map.mp ha
  exact plain_admissible (hl b hb)

/-- **C155 (orbital path).**  `orbital_path` returns what the function returns, and `tpath, xpath, …` keep it until `orbital_path` or
`tail_path` is called again. -/
theorem C155_orbital_path {g : Galpy} {w : World} {l : List TrCall} {flow : ℝ → Ph → Ph} {a : PathArgs} {x x1 y : Trail} {r : List PathPt}
    (h : orbitalPathMethod g flow a none false false x = .ok (r, x1)) (hl : ∀ a ∈ l, a.Admissible w)
    (hn : ∀ a ∈ l, a.setsPath = false) (k : psession g l x1 = .ok y) :
    (∃ c, orbitalPath g flow a x.c = .ok (r, c)) ∧ y.path = some r := by
  obtain ⟨-, p, -⟩ := psession_plain l hl k
  simp only [orbitalPathMethod, legacyTime, Option.getD_none, Bool.false_eq_true, if_false, bind, Except.bind, pure, Except.pure] at h
  cases e : orbitalPath g flow a x.c with
  | error _ => rw [e] at h; cases h
  | ok q =>
    rw [e] at h; cases h
    exact ⟨⟨q.2, rfl⟩, p hn⟩

/-- **C155 (sky path).**  The same with `skypath=True`. -/
theorem C155_sky_path {g : Galpy} {w : World} {l : List TrCall} {flow : ℝ → Ph → Ph} {a : PathArgs} {x x1 y : Trail} {r : List PathPt}
    (h : orbitalPathMethod g flow a none true false x = .ok (r, x1)) (hl : ∀ a ∈ l, a.Admissible w)
    (hn : ∀ a ∈ l, a.setsPath = false) (k : psession g l x1 = .ok y) :
    (∃ c, orbitalPathSky g flow a x.c = .ok (r, c)) ∧ y.path = some r := by
  obtain ⟨-, p, -⟩ := psession_plain l hl k
  simp only [orbitalPathMethod, legacyTime, Option.getD_none, Bool.false_eq_true, if_false, if_true, bind, Except.bind, pure, Except.pure] at h
  cases e : orbitalPathSky g flow a x.c with
  | error _ => rw [e] at h; cases h
  | ok q =>
    rw [e] at h; cases h
    exact ⟨⟨q.2, rfl⟩, p hn⟩

/-- **C155 (tail path).**  `tail_path(dt)` returns what the function returns for `tfinal = dt`, and `tpath, xpath, …` keep it. -/
theorem C155_tail_path {g : Galpy} {w : World} {l : List TrCall} {flow : ℝ → Ph → Ph} {a : TailArgs} {dt : Option ℝ} {x x1 y : Trail}
    {r : List PathPt} (h : tailPathMethod g flow a dt none x = .ok (r, x1)) (hl : ∀ a ∈ l, a.Admissible w)
    (hn : ∀ a ∈ l, a.setsPath = false) (k : psession g l x1 = .ok y) :
    (∃ c, tailPath g flow { a with tfinal := dt } x.c = .ok (r, c)) ∧ y.path = some r := by
  obtain ⟨-, p, -⟩ := psession_plain l hl k
  simp only [tailPathMethod, legacyTime, Option.getD_some, bind, Except.bind, pure, Except.pure] at h
  cases e : tailPath g flow { a with tfinal := dt } x.c with
  | error _ => rw [e] at h; cases h
  | ok q =>
    rw [e] at h; cases h
    exact ⟨⟨q.2, rfl⟩, p hn⟩

/-- **C155 (matches).**  `tstar, dprog, dpath` are what the last of `orbital_path_match` and `tail_path_match` returned: what the function
returns. -/
theorem C155_orbital_match {g : Galpy} {w : World} {l : List TrCall} {flow : ℝ → Ph → Ph} {a : MatchArgs} {x x1 y : Trail} {r : List Matched}
    (h : orbitalPathMatchMethod g flow a none x = .ok (r, x1)) (hl : ∀ a ∈ l, a.Admissible w)
    (hn : ∀ a ∈ l, a.setsMatched = false) (k : psession g l x1 = .ok y) :
    (∃ c, orbitalPathMatch g flow a x.c = .ok (r, c)) ∧ y.matched = some r := by
  obtain ⟨-, -, p, -⟩ := psession_plain l hl k
  simp only [orbitalPathMatchMethod, legacyTime, Option.getD_none, bind, Except.bind, pure, Except.pure] at h
  cases e : orbitalPathMatch g flow a x.c with
  | error _ => rw [e] at h; cases h
  | ok q =>
    rw [e] at h; cases h
    exact ⟨⟨q.2, rfl⟩, p hn⟩

theorem C155_tail_match {g : Galpy} {w : World} {l : List TrCall} {flow : ℝ → Ph → Ph} {a : TailArgs} {dt : Option ℝ}
    {path : Option (List PathPt)} {x x1 y : Trail} {r : List Matched}
    (h : tailPathMatchMethod g flow a dt none path x = .ok (r, x1)) (hl : ∀ a ∈ l, a.Admissible w)
    (hn : ∀ a ∈ l, a.setsMatched = false) (k : psession g l x1 = .ok y) :
    (∃ c, tailPathMatch g flow { a with tfinal := dt } path x.c = .ok (r, c)) ∧ y.matched = some r := by
  obtain ⟨-, -, p, -⟩ := psession_plain l hl k
  simp only [tailPathMatchMethod, legacyTime, Option.getD_some, bind, Except.bind, pure, Except.pure] at h
  cases e : tailPathMatch g flow { a with tfinal := dt } path x.c with
  | error _ => rw [e] at h; cases h
  | ok q =>
    rw [e] at h; cases h
    exact ⟨⟨q.2, rfl⟩, p hn⟩

/-- **C155 (tail coordinates).**  After `to_tail`, until it is called again, `r_tail` and `v_tail` are the distances and speeds of the stars
relative to the centre (rows given from the cluster's position as they are), whatever the rotation, and `x_tail` times the cluster's speed
is the component along its orbital velocity. -/
theorem C155_to_tail {g : Galpy} {w : World} {l : List TrCall} {rotTo : ℝ × ℝ × ℝ → Mat3} {x x1 y : Trail} (d : Describes g w x.c)
    (hrot : TurnsToX (x.c.gc.vx, x.c.gc.vy, x.c.gc.vz) (rotTo (x.c.gc.vx, x.c.gc.vy, x.c.gc.vz)))
    (h : toTailMethod g rotTo x = .ok x1) (hl : ∀ a ∈ l, a.Admissible w) (hn : ∀ a ∈ l, a.setsTail = false)
    (k : psession g l x1 = .ok y) :
    ∃ out r v, y.tail = some out ∧ y.rTail = some r ∧ y.vTail = some v ∧ out.length = x.c.st.length ∧ r.length = x.c.st.length ∧
      v.length = x.c.st.length ∧ ∀ i < x.c.st.length,
        0 ≤ r[i]! ∧ r[i]! ^ 2 = dotPos (centred x.c)[i]! (centred x.c)[i]! ∧
        0 ≤ v[i]! ∧ v[i]! ^ 2 = dotVel (centred x.c)[i]! (centred x.c)[i]! ∧
        (out[i]!).x * Real.sqrt (x.c.gc.vx ^ 2 + x.c.gc.vy ^ 2 + x.c.gc.vz ^ 2) =
          ((centred x.c)[i]!).x * x.c.gc.vx + ((centred x.c)[i]!).y * x.c.gc.vy + ((centred x.c)[i]!).z * x.c.gc.vz := by
  obtain ⟨-, -, -, p⟩ := psession_plain l hl k
  obtain ⟨p1, p2, p3⟩ := p hn
  obtain ⟨out, c', e, -, -, hlen, hd, hx⟩ := C61_to_tail d.pos d.lin d.good hrot
  simp only [toTailMethod, e, bind, Except.bind, pure, Except.pure] at h
  cases h
  refine ⟨out, _, _, p1, p2, p3, hlen, by simpa using hlen, by simpa using hlen, fun i hi => ?_⟩
  have hi' : i < out.length := by omega
  obtain ⟨a1, a2, -⟩ := hd i hi i hi
  have e1 : (out.map Ph.r)[i]! = (out[i]!).r := by
    rw [getElem!_pos _ i (by simpa using hi'), getElem!_pos out i hi']; simp
  have e2 : (out.map Ph.v)[i]! = (out[i]!).v := by
    rw [getElem!_pos _ i (by simpa using hi'), getElem!_pos out i hi']; simp
  refine ⟨?_, ?_, ?_, ?_, (hx i hi).1⟩
  · rw [e1]; exact Real.sqrt_nonneg _
  · rw [e1, ← a1, Ph.r, Real.sq_sqrt (by positivity)]; unfold dotPos; ring
  · rw [e2]; exact Real.sqrt_nonneg _
  · rw [e2, ← a2, Ph.v, Real.sq_sqrt (by positivity)]; unfold dotVel; ring

end

end CT
