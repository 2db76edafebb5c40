import Verif.Model.Token
import Verif.Lemmas.Numbers
/-! Lemmas about token bytes. -/
namespace Dparm
open Spec

theorem zero_or64 (x : BitVec 64) : (0 : BitVec 64) ||| x = x := BitVec.zero_or

theorem orLoop_shift (xs : Bytes) (k : Nat) (v : BitVec 64) :
    Tok.orLoop xs k v = v ||| (Tok.orLoop xs 0 0 <<< (8 * k)) := by
  induction xs generalizing k v with
  | nil => simp [Tok.orLoop]
  | cons x xs ih =>
    simp only [Tok.orLoop]
    rw [ih (k + 1), ih (0 + 1)]
    simp only [zero_or64, Nat.mul_zero, BitVec.shiftLeft_zero, Nat.zero_add, Nat.mul_one]
    rw [BitVec.shiftLeft_or_distrib, BitVec.or_assoc, ← BitVec.shiftLeft_add]
    rw [show 8 + 8 * k = 8 * (k + 1) by omega]

theorem or_shift8 (x : Byte) (r : BitVec 64) :
    x.setWidth 64 ||| (r <<< 8) = BitVec.ofNat 64 (x.toNat + 256 * r.toNat) := by
  rw [← BitVec.add_eq_or_of_and_eq_zero]
  · apply BitVec.eq_of_toNat_eq
    have := x.isLt
    simp [BitVec.toNat_add, Nat.shiftLeft_eq]
    omega
  · apply BitVec.eq_of_getLsbD_eq
    intro i hi
    simp only [BitVec.getLsbD_and, BitVec.getLsbD_setWidth, BitVec.getLsbD_shiftLeft,
      BitVec.getLsbD_zero]
    by_cases h : i < 8
    · simp [h]
    · simp [BitVec.getLsbD_of_ge x i (by omega)]

/-- The accumulation loop computes the positional value modulo 2^64. -/
theorem orLoop_eq (xs : Bytes) : Tok.orLoop xs 0 0 = BitVec.ofNat 64 (leVal xs) := by
  induction xs with
  | nil => rfl
  | cons x xs ih =>
    simp only [Tok.orLoop]
    rw [orLoop_shift]
    simp only [zero_or64, Nat.mul_zero, BitVec.shiftLeft_zero, Nat.zero_add, Nat.mul_one]
    rw [or_shift8, ih, leVal]
    apply BitVec.eq_of_toNat_eq
    simp only [BitVec.toNat_ofNat]
    omega

theorem orLoop_reverse (payload : Bytes) :
    Tok.orLoop payload.reverse 0 0 = BitVec.ofNat 64 (beVal payload) := by
  rw [orLoop_eq, leVal_reverse]

end Dparm
