/- Specification vocabulary for NBODY6 files: how the program that writes them encodes a snapshot. -/
import Verif.Model.Nbody6

namespace CT

noncomputable section

/-- A finite IEEE 754 single-precision number: sign, biased exponent, fraction. -/
structure Single where
  neg : Bool
  exp : ℕ
  frac : ℕ

/-- Fields within their widths, and not an infinity or NaN. -/
def Single.Ok (s : Single) : Prop := s.exp < 255 ∧ s.frac < 2 ^ 23

/-- Its value: `±1.frac × 2^(exp-127)`, or `±0.frac × 2^(-126)` if the exponent field is zero. -/
def Single.value (s : Single) : ℝ :=
  (if s.neg then -1 else 1) *
    (if s.exp = 0 then (s.frac / 2 ^ 23) * (2 : ℝ) ^ (-126 : ℤ) else (1 + s.frac / 2 ^ 23) * (2 : ℝ) ^ ((s.exp : ℤ) - 127))

/-- Its 32 bits as a number. -/
def Single.bits (s : Single) : ℕ := (if s.neg then 2 ^ 31 else 0) + s.exp * 2 ^ 23 + s.frac

/-- Little-endian bytes of a 32-bit number. -/
def wordBytes (v : ℕ) : Bytes :=
  [UInt8.ofNat v, UInt8.ofNat (v / 256), UInt8.ofNat (v / 65536), UInt8.ofNat (v / 16777216)]

def Single.bytes (s : Single) : Bytes := wordBytes s.bits

/-- 32-bit two's complement. -/
def intBytes (z : ℤ) : Bytes := wordBytes (z % 2 ^ 32).toNat

def Int32 (z : ℤ) : Prop := -2 ^ 31 ≤ z ∧ z < 2 ^ 31

/-- One star of a snapshot. -/
structure StarRec where
  m : Single
  x : Single
  y : Single
  z : Single
  vx : Single
  vy : Single
  vz : Single
  id : ℤ

def StarRec.Ok (s : StarRec) : Prop :=
  s.m.Ok ∧ s.x.Ok ∧ s.y.Ok ∧ s.z.Ok ∧ s.vx.Ok ∧ s.vy.Ok ∧ s.vz.Ok ∧ Int32 s.id

/-- A snapshot as written by NBODY6. -/
structure Rec where
  model : ℤ
  nrun : ℤ
  alist : List Single
  stars : List StarRec

structure Rec.Ok (r : Rec) : Prop where
  model : Int32 r.model
  nrun : Int32 r.nrun
  nk : r.alist.length < 2 ^ 31
  n : r.stars.length < 2 ^ 31
  alist : ∀ s ∈ r.alist, s.Ok
  stars : ∀ s ∈ r.stars, s.Ok

/-- A Fortran unformatted record: the data between two copies of its length. -/
def fortranBlock (data : Bytes) : Bytes := intBytes data.length ++ data ++ intBytes data.length

/-- The data block of a snapshot: header array, masses, positions, velocities, ids. -/
def Rec.data (r : Rec) : Bytes :=
  r.alist.flatMap Single.bytes ++ r.stars.flatMap (fun s => s.m.bytes) ++
    r.stars.flatMap (fun s => s.x.bytes ++ s.y.bytes ++ s.z.bytes) ++
    r.stars.flatMap (fun s => s.vx.bytes ++ s.vy.bytes ++ s.vz.bytes) ++ r.stars.flatMap (fun s => intBytes s.id)

/-- A snapshot in OUT3. -/
def Rec.out3 (r : Rec) : Bytes :=
  fortranBlock (intBytes r.stars.length ++ intBytes r.model ++ intBytes r.nrun ++ intBytes r.alist.length) ++ fortranBlock r.data

/-- A snapshot in OUT33: no run number, and no data block if there are no stars. -/
def Rec.out33 (r : Rec) : Bytes :=
  fortranBlock (intBytes r.stars.length ++ intBytes r.model ++ intBytes r.alist.length) ++
    (if r.stars = [] then [] else fortranBlock r.data)

/-- What a reader should return for a snapshot. -/
def Rec.snap (r : Rec) : Snap :=
  { n := r.stars.length, alist := r.alist.map Single.value
    pos := r.stars.map (fun s => (s.x.value, s.y.value, s.z.value))
    vel := r.stars.map (fun s => (s.vx.value, s.vy.value, s.vz.value))
    m := r.stars.map (fun s => s.m.value), id := r.stars.map StarRec.id }

/-- The phase-space rows of the stars of a snapshot. -/
def Rec.rows (r : Rec) : List Ph :=
  r.stars.map (fun s => ⟨s.x.value, s.y.value, s.z.value, s.vx.value, s.vy.value, s.vz.value⟩)

end

end CT
