/-!
# Base: Python exceptions as values, byte strings, big-endian integers, bit selection
-/

namespace Verif

/-- Python exceptions that the modelled code can raise, as values.
`structError` stands for `struct.error` / `infi.instruct` errors raised when a value does not fit its field,
`truncated` for the error raised when a parser runs out of input, `instruct` for other `InstructError`s. -/
inductive PyErr where
  | assertion
  | zeroDivision
  | structError
  | truncated
  | instruct
  | attribute
  | typeError
  | nameError
  | indexError
  | keyError
  | valueError
  | ioError
  | asiOs
  | asiInternal
  | asiScsi
  | asiQueueFull
  | asiReservationConflict
  | unsupportedLunAddressing
  | unsupportedAddressingMethod
  | other (code : Nat)
  deriving DecidableEq, Repr

abbrev Py (α : Type) := Except PyErr α

/-- `assert cond` -/
def pyAssert (c : Bool) : Py Unit := if c then .ok () else .error .assertion

/-- A byte string. -/
abbrev Bytes := List UInt8

/-- `n` as a byte (mod 256). -/
abbrev byte (n : Nat) : UInt8 := UInt8.ofNat n

@[simp] theorem byte_toNat (n : Nat) : (byte n).toNat = n % 256 := UInt8.toNat_ofNat'

theorem byte_eq_iff (a b : UInt8) : a = b ↔ a.toNat = b.toNat :=
  ⟨fun h => by rw [h], UInt8.toNat_inj.1⟩

theorem byte_lt (b : UInt8) : b.toNat < 256 := b.toNat_lt

@[simp] theorem byte_of_toNat (b : UInt8) : byte b.toNat = b := by
  rw [byte_eq_iff, byte_toNat]; exact Nat.mod_eq_of_lt b.toNat_lt

/-- Big-endian encoding of `v` in `n` bytes (high bits dropped). -/
def be : (n : Nat) → Nat → Bytes
  | 0, _ => []
  | n + 1, v => byte (v / 256 ^ n) :: be n v

/-- Big-endian value of a byte string. -/
def beNat : Bytes → Nat
  | [] => 0
  | b :: bs => b.toNat * 256 ^ bs.length + beNat bs

@[simp] theorem be_length (n v : Nat) : (be n v).length = n := by
  induction n with
  | zero => rfl
  | succ n ih => simp [be, ih]

theorem beNat_lt (bs : Bytes) : beNat bs < 256 ^ bs.length := by
  induction bs with
  | nil => simp [beNat]
  | cons b bs ih =>
    have hb := byte_lt b
    simp only [beNat, List.length_cons, Nat.pow_succ]
    calc b.toNat * 256 ^ bs.length + beNat bs
        < b.toNat * 256 ^ bs.length + 256 ^ bs.length := by omega
      _ = (b.toNat + 1) * 256 ^ bs.length := by rw [Nat.add_mul, Nat.one_mul]
      _ ≤ 256 * 256 ^ bs.length := Nat.mul_le_mul_right _ (by omega)
      _ = 256 ^ bs.length * 256 := Nat.mul_comm ..

@[simp] theorem beNat_be (n v : Nat) : beNat (be n v) = v % 256 ^ n := by
  induction n with
  | zero => simp [be, beNat, Nat.mod_one]
  | succ n ih =>
    simp only [be, beNat, be_length, byte_toNat, ih, Nat.pow_succ]
    rw [Nat.mod_mul, Nat.mul_comm (v / 256 ^ n % 256), Nat.add_comm]

theorem beNat_be_of_lt {n v : Nat} (h : v < 256 ^ n) : beNat (be n v) = v := by
  rw [beNat_be, Nat.mod_eq_of_lt h]

theorem be_congr_mod (n v w : Nat) (h : v % 256 ^ n = w % 256 ^ n) : be n v = be n w := by
  induction n with
  | zero => rfl
  | succ n ih =>
    simp only [Nat.pow_succ] at h
    have h1 : v / 256 ^ n % 256 = w / 256 ^ n % 256 := by
      have := congrArg (· / 256 ^ n) h
      simpa [Nat.mod_mul_right_div_self] using this
    have h2 : v % 256 ^ n = w % 256 ^ n := by
      have := congrArg (· % 256 ^ n) h
      simpa [Nat.mod_mul_right_mod] using this
    simp only [be, ih h2]
    congr 1
    rw [byte_eq_iff, byte_toNat, byte_toNat, h1]

theorem be_beNat_aux (bs : Bytes) (v : Nat) (h : v % 256 ^ bs.length = beNat bs) :
    be bs.length v = bs := by
  induction bs generalizing v with
  | nil => rfl
  | cons b bs ih =>
    have hb := byte_lt b
    have hl := beNat_lt bs
    simp only [beNat, List.length_cons, Nat.pow_succ] at h
    simp only [List.length_cons, be]
    have hpos : 0 < 256 ^ bs.length := Nat.pow_pos (by omega)
    have h1 : v / 256 ^ bs.length % 256 = b.toNat := by
      have := congrArg (· / 256 ^ bs.length) h
      simp only [Nat.mod_mul_right_div_self] at this
      rw [this, Nat.add_comm, Nat.add_mul_div_right _ _ hpos, Nat.div_eq_of_lt hl, Nat.zero_add]
    have h2 : v % 256 ^ bs.length = beNat bs := by
      have := congrArg (· % 256 ^ bs.length) h
      simp only [Nat.mod_mul_right_mod] at this
      rw [this, Nat.add_comm, Nat.add_mul_mod_self_right, Nat.mod_eq_of_lt hl]
    rw [ih _ h2]
    congr 1
    rw [byte_eq_iff, byte_toNat, h1]

@[simp] theorem be_beNat (bs : Bytes) : be bs.length (beNat bs) = bs :=
  be_beNat_aux bs _ (Nat.mod_eq_of_lt (beNat_lt bs))

theorem be_beNat' {n : Nat} (bs : Bytes) (h : bs.length = n) : be n (beNat bs) = bs := by
  subst h; exact be_beNat bs

theorem beNat_append (a b : Bytes) : beNat (a ++ b) = beNat a * 256 ^ b.length + beNat b := by
  induction a with
  | nil => simp [beNat]
  | cons x xs ih =>
    simp only [List.cons_append, beNat, ih, List.length_append, Nat.add_mul, Nat.mul_assoc, Nat.pow_add]
    omega

/-- `be` of a value in range determines it. -/
theorem be_inj {n v w : Nat} (hv : v < 256 ^ n) (hw : w < 256 ^ n) (h : be n v = be n w) : v = w := by
  have := congrArg beNat h
  rwa [beNat_be_of_lt hv, beNat_be_of_lt hw] at this

/-- Bits `lo .. hi-1` (least significant bit first) of a byte: `.bits[lo:hi]`. -/
def getBits (b : UInt8) (lo hi : Nat) : Nat := b.toNat / 2 ^ lo % 2 ^ (hi - lo)

theorem getBits_lt (b : UInt8) (lo hi : Nat) : getBits b lo hi < 2 ^ (hi - lo) :=
  Nat.mod_lt _ (Nat.pow_pos (by omega))

/-- Zero bytes. -/
def zeros (n : Nat) : Bytes := List.replicate n 0

@[simp] theorem zeros_length (n : Nat) : (zeros n).length = n := by simp [zeros]
@[simp] theorem zeros_zero : zeros 0 = [] := rfl
theorem zeros_succ (n : Nat) : zeros (n + 1) = 0 :: zeros n := rfl

/-- Python slice `bs[a:b]` for `0 ≤ a`, `0 ≤ b`. -/
def slice (bs : Bytes) (a b : Nat) : Bytes := (bs.take b).drop a

theorem slice_length (bs : Bytes) (a b : Nat) : (slice bs a b).length = min b bs.length - a := by
  simp [slice]

/-- Two's complement reading of an `n`-byte value. -/
def toSigned (n v : Nat) : Int := if v < 2 ^ (8 * n - 1) then (v : Int) else (v : Int) - 2 ^ (8 * n)

end Verif
