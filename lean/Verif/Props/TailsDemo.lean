/- Concrete cases that meet the hypotheses of C43, C59, C60, C61 and C62. -/
import Verif.Props.Tails2

namespace CT

noncomputable section

/-- Motion in the absence of forces. -/
def freeFlow (t : ℝ) (p : Ph) : Ph := ⟨p.x + t * p.vx, p.y + t * p.vy, p.z + t * p.vz, p.vx, p.vy, p.vz⟩

theorem freeFlow_isFlow : IsFlow freeFlow where
  zero p := by simp [freeFlow]
  add s t p := by ext <;> simp only [freeFlow] <;> ring

/-- A cluster of one star. -/
def loner : Cluster := { demo with m := [1], st := [⟨3, 0, 4, 1, 0, 0⟩], rorder := none, rproorder := none }

theorem loner_pos : Pos demoG loner := by constructor <;> norm_num [demoG, loner, demo]

theorem loner_lin : Lin loner := ⟨⟨_, rfl, trivial⟩, ⟨_, rfl, trivial⟩⟩

theorem loner_good : Good loner where
  ne := by simp [loner]
  len := by simp [loner]
  mass := by norm_num [loner]
  ro := by intro o h; cases h
  rpo := by intro o h; cases h

/-- The two-star cluster with its first star at the end of `corner`. -/
def cornered : Cluster := { demo with gc := ⟨2997, 4000, -4, 0, 220, 0⟩ }

theorem cornered_pos : Pos demoG cornered := by constructor <;> norm_num [demoG, cornered, demo]

theorem cornered_lin : Lin cornered := ⟨⟨_, rfl, trivial⟩, ⟨_, rfl, trivial⟩⟩

theorem cornered_good : Good cornered where
  ne := demo_good.ne
  len := demo_good.len
  mass := demo_good.mass
  ro := demo_good.ro
  rpo := demo_good.rpo

theorem cornered_star : PosEq (galStar ⟨1, 1, 1, 1⟩ cornered 0) ⟨3000, 4000, 0, 0, 0, 0⟩ := by
  simp only [PosEq, galStar, cornered, demo, Scale.ph, phAdd, Option.some.injEq, reduceCtorEq, if_false, if_true]
  norm_num

/-- The two-star cluster in kpc. -/
def demoKpc : Cluster := { demo with units := some .kpckms }

theorem demoKpc_pos : Pos demoG demoKpc := by constructor <;> norm_num [demoG, demoKpc, demo]

theorem demoKpc_lin : Lin demoKpc := ⟨⟨_, rfl, trivial⟩, ⟨_, rfl, trivial⟩⟩

theorem demoKpc_good : Good demoKpc where
  ne := demo_good.ne
  len := demo_good.len
  mass := demo_good.mass
  ro := demo_good.ro
  rpo := demo_good.rpo

/-- C59: a hundred Myr of the orbit of `demo`. -/
example : ∃ path c', orbitalPath demoG freeFlow { tfinal := some 100 } demo = .ok (path, c') ∧ path.length = 1000 := by
  obtain ⟨path, c', h1, -, -, h2, -⟩ := C59_path_partial freeFlow_isFlow (a := { tfinal := some 100 }) demo_pos demo_lin demo_good rfl rfl rfl
    (by norm_num)
  exact ⟨path, c', h1, h2⟩

/-- C43: the first star of `cornered` is at the end of `corner`, and its progress is wrong. -/
example : ∃ out c', orbitalPathMatch demoG freeFlow { path := some corner } cornered = .ok (out, c') ∧ (out[0]!).dprog * 1 = 2000 ∧
    pathLength false (fun j => kpcScale.ph (corner[j]!).p) 1 2 = 4000 :=
  C43_progress_violated cornered_pos cornered_lin cornered_good rfl rfl rfl rfl rfl (by simp [cornered, demo]) cornered_star

/-- C43: `demo` against `corner`. -/
example : ∃ out c', orbitalPathMatch demoG freeFlow { path := some corner } demo = .ok (out, c') ∧ out.length = 2 := by
  obtain ⟨out, c', h1, -, -, h2, -⟩ := C43_nearest (flow := freeFlow) (a := { path := some corner }) demo_pos demo_lin demo_good rfl rfl rfl
    (by simp [corner]) rfl rfl rfl
  exact ⟨out, c', h1, h2⟩

/-- C60: the tail path of `demo` within a kpc of its orbit, default bins. -/
example : ∃ rows c', tailPath demoG freeFlow { dmax := some 1000 } demo = .ok (rows, c') ∧ c'.data = demo.data := by
  obtain ⟨_, _, _, _, _, rows, c', h1, h2, -⟩ := C60_tail_partial freeFlow_isFlow (a := { dmax := some 1000 }) demo_pos demo_lin demo_good rfl rfl
    rfl (by norm_num) (by norm_num) (by norm_num) (by norm_num) rfl (.inr ⟨rfl, rfl⟩)
  exact ⟨rows, c', h1, h2⟩

/-- C60: roaming bins. -/
example : ∃ rows c', tailPath demoG freeFlow { ntail := 1000 } demo = .ok (rows, c') ∧ c'.data = demo.data := by
  obtain ⟨_, _, _, _, _, rows, c', h1, h2, -⟩ := C60_roaming_violated freeFlow_isFlow (a := { ntail := 1000 }) demo_pos demo_lin demo_good rfl rfl
    rfl (by norm_num) (by norm_num) (by norm_num) (by norm_num) rfl rfl (.inl rfl)
  exact ⟨rows, c', h1, h2⟩

/-- C61: `demo` moves along the y-axis. -/
example : ∃ out c', toTail demoG (fun _ i j => ![![0, -1, 0], ![1, 0, 0], ![0, 0, 1]] i j) demo = .ok (out, c') ∧ out.length = 2 := by
  obtain ⟨out, c', h1, -, -, h2, -⟩ := C61_to_tail (g := demoG) (rotTo := fun _ i j => ![![0, -1, 0], ![1, 0, 0], ![0, 0, 1]] i j) demo_pos demo_lin
    demo_good ⟨by intro i j; fin_cases i <;> fin_cases j <;> simp, by simp, by simp [demo, Real.sqrt_sq], by simp [demo], by simp [demo]⟩
  exact ⟨out, c', h1, h2⟩

/-- C62: a cluster in kpc. -/
example : ∃ rows c1 out c', tailPath demoG freeFlow {} demoKpc = .ok (rows, c1) ∧ tailPathMatch demoG freeFlow {} none demoKpc = .ok (out, c') := by
  obtain ⟨rows, c1, out, c', h1, h2, -⟩ := C62_match_partial freeFlow_isFlow (a := {}) demoKpc_pos demoKpc_lin demoKpc_good rfl rfl
    (by norm_num) (by norm_num) (by norm_num) (by norm_num) rfl rfl rfl rfl
  exact ⟨rows, c1, out, c', h1, h2⟩

/-- C62: one star 8003 pc from the galactic centre is reported about 8000 kpc away from itself. -/
example : ∃ q c1 m c' d, tailPath demoG freeFlow {} loner = .ok ([q], c1) ∧ tailPathMatch demoG freeFlow {} none loner = .ok ([m], c') ∧
    m.dpath = some d ∧ |d| = 999 * between false (galStar ⟨1, 1, 1, 1⟩ loner 0) ⟨0, 0, 0, 0, 0, 0⟩ := by
  obtain ⟨q, c1, m, c', d, h1, -, h2, h3, h4⟩ := C62_units_violated freeFlow_isFlow (a := {}) loner_pos loner_lin loner_good rfl rfl
    (by norm_num) (by norm_num) (by norm_num) (by norm_num) rfl rfl rfl rfl rfl
  exact ⟨q, c1, m, c', d, h1, h2, h3, h4⟩

end

end CT
