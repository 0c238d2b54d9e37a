import Verif.Model.Codec
/-!
# Little-endian numbers and slices
-/

namespace Verif

@[simp] theorem leBytes_length (len n : Nat) : (leBytes len n).length = len := by
  induction len generalizing n with
  | zero => rfl
  | succ len ih => simp [leBytes, ih]

theorem leNat_leBytes {len n : Nat} (h : n < 256 ^ len) : leNat (leBytes len n) = n := by
  induction len generalizing n with
  | zero => simp only [Nat.pow_zero, Nat.lt_one_iff] at h; simp [leBytes, leNat, h]
  | succ len ih =>
    have : n / 256 < 256 ^ len := by
      rw [Nat.pow_succ] at h
      exact Nat.div_lt_of_lt_mul (by omega)
    simp only [leBytes, leNat, ih this, UInt8.toNat_ofNat']
    omega

theorem leNat_lt_pow (b : List UInt8) : leNat b < 256 ^ b.length := by
  induction b with
  | nil => simp [leNat]
  | cons x b ih =>
    have := x.toNat_lt
    simp only [leNat, List.length_cons, Nat.pow_succ]
    omega

theorem leBytes_leNat (b : List UInt8) : leBytes b.length (leNat b) = b := by
  induction b with
  | nil => rfl
  | cons x b ih =>
    have hx := x.toNat_lt
    simp only [leNat, List.length_cons, leBytes]
    have h1 : (x.toNat + 256 * leNat b) % 256 = x.toNat := by omega
    have h2 : (x.toNat + 256 * leNat b) / 256 = leNat b := by omega
    rw [h1, h2, ih, UInt8.ofNat_toNat]

theorem leBytes_leNat' {b : List UInt8} {n : Nat} (h : b.length = n) : leBytes n (leNat b) = b := by
  subst h; exact leBytes_leNat b

@[simp] theorem slice_length {b : List UInt8} {s n : Nat} (h : s + n ≤ b.length) : (slice b s n).length = n := by
  simp [slice]; omega

theorem slice_zero_all {b : List UInt8} {n : Nat} (h : b.length = n) : slice b 0 n = b := by
  subst h; simp [slice]

/-- A slice of a concatenation that starts behind the first part. -/
theorem slice_append_right {a b : List UInt8} {s n : Nat} (h : a.length ≤ s) :
    slice (a ++ b) s n = slice b (s - a.length) n := by
  simp [slice, List.drop_append, List.drop_eq_nil_of_le h]

/-- A slice of a concatenation that is exactly the first part. -/
theorem slice_append_left {a b : List UInt8} {n : Nat} (h : a.length = n) : slice (a ++ b) 0 n = a := by
  subst h; simp [slice]

/-- Consecutive slices put together. -/
theorem slice_append (b : List UInt8) (s n m : Nat) : slice b s n ++ slice b (s + n) m = slice b s (n + m) := by
  simp only [slice]
  rw [← List.drop_drop, List.take_add]

end Verif
