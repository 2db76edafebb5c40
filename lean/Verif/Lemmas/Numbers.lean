import Verif.Spec.Numbers
/-! Lemmas about positional byte values. -/
namespace Dparm.Spec
open Dparm

@[simp] theorem beBytes_length (k n : Nat) : (beBytes k n).length = k := by
  induction k with
  | zero => rfl
  | succ k ih => simp [beBytes, ih]

@[simp] theorem leBytes_length (k n : Nat) : (leBytes k n).length = k := by
  induction k generalizing n with
  | zero => rfl
  | succ k ih => simp [leBytes, ih]

theorem beVal_lt (bs : Bytes) : beVal bs < 256 ^ bs.length := by
  induction bs with
  | nil => simp [beVal]
  | cons b bs ih =>
    have hb := b.isLt
    simp only [beVal, List.length_cons, Nat.pow_succ]
    have : b.toNat * 256 ^ bs.length ≤ 255 * 256 ^ bs.length := Nat.mul_le_mul_right _ (by omega)
    omega

theorem leVal_lt (bs : Bytes) : leVal bs < 256 ^ bs.length := by
  induction bs with
  | nil => simp [leVal]
  | cons b bs ih =>
    have hb := b.isLt
    simp only [leVal, List.length_cons, Nat.pow_succ]
    omega

theorem beVal_beBytes (k n : Nat) : beVal (beBytes k n) = n % 256 ^ k := by
  induction k with
  | zero => simp [beBytes, beVal, Nat.mod_one]
  | succ k ih =>
    simp only [beBytes, beVal, beBytes_length, ih, BitVec.toNat_ofNat]
    rw [show (2:Nat)^8 = 256 from rfl, Nat.pow_succ, Nat.mod_mul, Nat.mul_comm (256^k)]
    omega

theorem leVal_leBytes (k n : Nat) : leVal (leBytes k n) = n % 256 ^ k := by
  induction k generalizing n with
  | zero => simp [leBytes, leVal, Nat.mod_one]
  | succ k ih =>
    simp only [leBytes, leVal, ih, BitVec.toNat_ofNat]
    rw [show (2:Nat)^8 = 256 from rfl, Nat.pow_succ, Nat.mul_comm (256^k) 256, Nat.mod_mul]

theorem beBytes_mod (k n m : Nat) (h : k ≤ m) : beBytes k (n % 256 ^ m) = beBytes k n := by
  induction k with
  | zero => rfl
  | succ k ih =>
    simp only [beBytes]
    rw [ih (by omega)]
    congr 1
    apply BitVec.eq_of_toNat_eq
    simp only [BitVec.toNat_ofNat]
    have : m = k + 1 + (m - k - 1) := by omega
    rw [this, Nat.pow_add, Nat.pow_succ, Nat.mul_assoc, ← Nat.mod_mul_right_div_self,
      ← Nat.mod_mul_right_div_self, Nat.mod_mod_of_dvd, Nat.mod_mul_right_div_self]
    exact Nat.mul_dvd_mul_left _ ⟨_, rfl⟩

theorem beBytes_beVal (bs : Bytes) : beBytes bs.length (beVal bs) = bs := by
  induction bs with
  | nil => rfl
  | cons b bs ih =>
    simp only [List.length_cons, beBytes, beVal]
    have h1 := beVal_lt bs
    congr 1
    · apply BitVec.eq_of_toNat_eq
      rw [BitVec.toNat_ofNat, Nat.mul_comm, Nat.mul_add_div (Nat.pow_pos (by decide)),
        Nat.div_eq_of_lt h1]
      simpa using Nat.mod_eq_of_lt b.isLt
    · rw [← beBytes_mod bs.length (b.toNat * 256 ^ bs.length + beVal bs) bs.length (Nat.le_refl _)]
      rw [Nat.mul_comm, Nat.mul_add_mod, Nat.mod_eq_of_lt h1, ih]

theorem leBytes_leVal (bs : Bytes) : leBytes bs.length (leVal bs) = bs := by
  induction bs with
  | nil => rfl
  | cons b bs ih =>
    have hb := b.isLt
    simp only [List.length_cons, leBytes, leVal]
    congr 1
    · apply BitVec.eq_of_toNat_eq
      rw [BitVec.toNat_ofNat]
      omega
    · rw [show (b.toNat + 256 * leVal bs) / 256 = leVal bs by omega, ih]

theorem beVal_append (a b : Bytes) : beVal (a ++ b) = beVal a * 256 ^ b.length + beVal b := by
  induction a with
  | nil => simp [beVal]
  | cons x a ih =>
    simp only [List.cons_append, beVal, ih, List.length_append, Nat.pow_add, Nat.add_mul]
    rw [Nat.mul_assoc]
    omega

theorem leVal_append (a b : Bytes) : leVal (a ++ b) = leVal a + 256 ^ a.length * leVal b := by
  induction a with
  | nil => simp [leVal]
  | cons x a ih =>
    simp only [List.cons_append, leVal, ih, List.length_cons, Nat.pow_succ]
    rw [Nat.mul_add, Nat.mul_comm (256 ^ a.length) 256, Nat.mul_assoc]
    omega

/-- Reversing a byte string turns big-endian into little-endian. -/
theorem leVal_reverse (bs : Bytes) : leVal bs.reverse = beVal bs := by
  induction bs with
  | nil => rfl
  | cons b bs ih =>
    simp only [List.reverse_cons, leVal_append, ih, beVal, leVal, List.length_reverse]
    rw [Nat.mul_zero, Nat.add_zero, Nat.mul_comm]
    omega

theorem leBytes_reverse (k n : Nat) : (leBytes k n).reverse = beBytes k n := by
  have h1 : beVal (leBytes k n).reverse = beVal (beBytes k n) := by
    rw [← leVal_reverse, List.reverse_reverse, leVal_leBytes, beVal_beBytes]
  have h2 := beBytes_beVal (leBytes k n).reverse
  rw [h1] at h2
  have h3 := beBytes_beVal (beBytes k n)
  simp only [List.length_reverse, leBytes_length, beBytes_length] at h2 h3
  rw [← h2, h3]

theorem beVal_replicate_zero (k : Nat) : beVal (List.replicate k 0#8) = 0 := by
  induction k with
  | zero => rfl
  | succ k ih => simp [List.replicate_succ, beVal, ih]

end Dparm.Spec
