import Verif.Model.Utf16
import Verif.Spec.Utf16
/-!
# UTF-8 and UTF-16
-/
namespace Dparm
open Spec

theorem mask6 (n : Nat) : n &&& 0x3f = n % 64 := Nat.and_two_pow_sub_one_eq_mod n 6
theorem or_shift (a b k : Nat) (h : b < 2 ^ k) : a <<< k ||| b = a * 2 ^ k + b := by
  rw [← Nat.shiftLeft_add_eq_or_of_lt h, Nat.shiftLeft_eq]
theorem or_80 : ∀ x < 64, 0x80 ||| x = 0x80 + x := by decide
theorem or_c0 : ∀ x < 32, 0xc0 ||| x = 0xc0 + x := by decide
theorem or_e0 : ∀ x < 16, 0xe0 ||| x = 0xe0 + x := by decide
theorem or_f0 : ∀ x < 8, 0xf0 ||| x = 0xf0 + x := by decide

theorem three_parts (a b d : Nat) (hb : b < 64) (hd : d < 64) : a <<< 12 ||| b <<< 6 ||| d = a * 4096 + b * 64 + d := by
  have h1 : b <<< 6 = b * 64 := Nat.shiftLeft_eq b 6
  have h2 : a <<< 12 ||| b <<< 6 = (a * 64 + b) <<< 6 := by
    rw [h1, or_shift a (b * 64) 12 (by omega), Nat.shiftLeft_eq]
    omega
  rw [h2, or_shift _ _ 6 (by omega)]
  omega
theorem four_parts (a b d e : Nat) (hb : b < 64) (hd : d < 64) (he : e < 64) :
    a <<< 18 ||| b <<< 12 ||| d <<< 6 ||| e = a * 262144 + b * 4096 + d * 64 + e := by
  have h1 : b <<< 12 = b * 4096 := Nat.shiftLeft_eq b 12
  have h2 : a <<< 18 ||| b <<< 12 = (a * 64 + b) <<< 12 := by
    rw [h1, or_shift a (b * 4096) 18 (by omega), Nat.shiftLeft_eq]
    omega
  rw [h2, three_parts _ _ _ hd he]
  omega

theorem appendRune_utf8 {c : Nat} (h : c < 0x110000) : appendRune c = utf8 c := by
  unfold appendRune utf8
  simp only [mask6, Nat.shiftRight_eq_div_pow]
  by_cases h1 : c < 0x80
  · rw [if_pos (by omega), if_pos h1]
  rw [if_neg (by omega), if_neg h1]
  by_cases h2 : c < 0x800
  · rw [if_pos (by omega), if_pos h2, or_c0 _ (by omega), or_80 _ (by omega)]
  rw [if_neg (by omega), if_neg h2]
  by_cases h3 : c < 0x10000
  · rw [if_pos (by omega), if_pos h3, or_e0 _ (by omega), or_80 _ (by omega), or_80 _ (by omega)]
  rw [if_neg (by omega), if_neg h3, or_f0 _ (by omega), or_80 _ (by omega), or_80 _ (by omega), or_80 _ (by omega)]

/-- What the bytes say. -/
theorem decodeRune_utf8 {c : Nat} (h : c < 0xd800 ∨ (0xe000 ≤ c ∧ c < 0x110000)) (x : Bytes) :
    decodeRune (utf8 c ++ x) = (c, (utf8 c).length) := by
  unfold utf8
  by_cases h1 : c < 0x80
  · rw [if_pos h1]
    have e0 : (BitVec.ofNat 8 c).toNat = c := by rw [BitVec.toNat_ofNat]; omega
    simp only [decodeRune, List.cons_append, List.nil_append, List.getD_cons_zero, e0, h1, if_true]
    simp
  rw [if_neg h1]
  by_cases h2 : c < 0x800
  · rw [if_pos h2]
    have e0 : (BitVec.ofNat 8 (0xc0 + c / 64)).toNat = 0xc0 + c / 64 := by rw [BitVec.toNat_ofNat]; omega
    have e1 : (BitVec.ofNat 8 (0x80 + c % 64)).toNat = 0x80 + c % 64 := by rw [BitVec.toNat_ofNat]; omega
    have a0 : (0xc0 + c / 64) &&& 0x1f = c / 64 := by rw [Nat.and_two_pow_sub_one_eq_mod _ 5]; omega
    have a1 : (0x80 + c % 64) &&& 0x3f = c % 64 := by rw [mask6]; omega
    simp only [decodeRune, List.cons_append, List.nil_append, List.getD_cons_zero, List.getD_cons_succ, e0, e1, List.length_cons, a0, a1]
    rw [if_neg (by simp), if_neg (by omega), if_pos (by omega), if_pos (by simp; omega), or_shift _ _ 6 (by omega)]
    congr 1
    omega
  rw [if_neg h2]
  by_cases h3 : c < 0x10000
  · rw [if_pos h3]
    have e0 : (BitVec.ofNat 8 (0xe0 + c / 4096)).toNat = 0xe0 + c / 4096 := by rw [BitVec.toNat_ofNat]; omega
    have e1 : (BitVec.ofNat 8 (0x80 + c / 64 % 64)).toNat = 0x80 + c / 64 % 64 := by rw [BitVec.toNat_ofNat]; omega
    have e2 : (BitVec.ofNat 8 (0x80 + c % 64)).toNat = 0x80 + c % 64 := by rw [BitVec.toNat_ofNat]; omega
    have a0 : (0xe0 + c / 4096) &&& 0xf = c / 4096 := by rw [Nat.and_two_pow_sub_one_eq_mod _ 4]; omega
    have a1 : (0x80 + c / 64 % 64) &&& 0x3f = c / 64 % 64 := by rw [mask6]; omega
    have a2 : (0x80 + c % 64) &&& 0x3f = c % 64 := by rw [mask6]; omega
    simp only [decodeRune, List.cons_append, List.nil_append, List.getD_cons_zero, List.getD_cons_succ, e0, e1, e2, List.length_cons, a0, a1, a2]
    rw [if_neg (by simp), if_neg (by omega), if_neg (by omega), if_pos (by omega), if_pos, three_parts _ _ _ (by omega) (by omega)]
    · congr 1
      omega
    · simp only [Bool.and_eq_true, decide_eq_true_eq]
      refine ⟨⟨⟨by omega, ?_⟩, ?_⟩, ⟨by omega, by omega⟩, by omega⟩
      · split <;> omega
      · split <;> omega
  · rw [if_neg h3]
    have e0 : (BitVec.ofNat 8 (0xf0 + c / 262144)).toNat = 0xf0 + c / 262144 := by rw [BitVec.toNat_ofNat]; omega
    have e1 : (BitVec.ofNat 8 (0x80 + c / 4096 % 64)).toNat = 0x80 + c / 4096 % 64 := by rw [BitVec.toNat_ofNat]; omega
    have e2 : (BitVec.ofNat 8 (0x80 + c / 64 % 64)).toNat = 0x80 + c / 64 % 64 := by rw [BitVec.toNat_ofNat]; omega
    have e3 : (BitVec.ofNat 8 (0x80 + c % 64)).toNat = 0x80 + c % 64 := by rw [BitVec.toNat_ofNat]; omega
    have a0 : (0xf0 + c / 262144) &&& 0x7 = c / 262144 := by rw [Nat.and_two_pow_sub_one_eq_mod _ 3]; omega
    have a1 : (0x80 + c / 4096 % 64) &&& 0x3f = c / 4096 % 64 := by rw [mask6]; omega
    have a2 : (0x80 + c / 64 % 64) &&& 0x3f = c / 64 % 64 := by rw [mask6]; omega
    have a3 : (0x80 + c % 64) &&& 0x3f = c % 64 := by rw [mask6]; omega
    simp only [decodeRune, List.cons_append, List.nil_append, List.getD_cons_zero, List.getD_cons_succ, e0, e1, e2, e3, List.length_cons,
      a0, a1, a2, a3]
    rw [if_neg (by simp), if_neg (by omega), if_neg (by omega), if_neg (by omega), if_pos (by omega), if_pos,
      four_parts _ _ _ _ (by omega) (by omega) (by omega)]
    · congr 1
      omega
    · simp only [Bool.and_eq_true, decide_eq_true_eq]
      refine ⟨⟨⟨⟨by omega, ?_⟩, ?_⟩, ⟨by omega, by omega⟩, by omega⟩, ⟨by omega, by omega⟩, by omega⟩
      · split <;> omega
      · split <;> omega

theorem appendRune16_utf16 {c : Nat} (h : c < 0xd800 ∨ (0xe000 ≤ c ∧ c < 0x110000)) : appendRune16 c = utf16 c := by
  unfold appendRune16 utf16
  by_cases h1 : c < 0x10000
  · rw [if_pos (by omega), if_pos h1]
  · rw [if_neg (by omega), if_pos (by omega), if_neg h1, Nat.and_two_pow_sub_one_eq_mod _ 10, Nat.and_two_pow_sub_one_eq_mod _ 10,
      Nat.shiftRight_eq_div_pow]
    congr 3
    omega

theorem utf8_ne_nil (c : Nat) : utf8 c ≠ [] := by
  unfold utf8
  repeat' split
  all_goals simp

/-- Encoding a text that starts with the UTF-8 of a scalar value. -/
theorem encode_scalar (wtf : Bool) {c : Nat} (h : c < 0xd800 ∨ (0xe000 ≤ c ∧ c < 0x110000)) (x : Bytes) :
    utf16Encode wtf (utf8 c ++ x) = utf16 c ++ utf16Encode wtf x := by
  have hd := decodeRune_utf8 h x
  obtain ⟨y, ys, hy⟩ : ∃ y ys, utf8 c ++ x = y :: ys := by
    cases hu : utf8 c with
    | nil => exact absurd hu (utf8_ne_nil c)
    | cons a as => exact ⟨a, as ++ x, rfl⟩
  have hlen : max 1 (utf8 c).length = (utf8 c).length := by
    have := List.length_pos_iff.2 (utf8_ne_nil c)
    omega
  rw [hy, utf16Encode, ← hy, hd]
  dsimp only
  rw [if_neg, hlen, List.drop_left, appendRune16_utf16 h]
  simp only [Bool.and_eq_true, decide_eq_true_eq, not_and]
  intro _ hc _ h0
  rw [hc] at h0
  exact absurd h0 (by simp [utf8])

theorem surrogate_bytes {s : Nat} (h1 : 0xd800 ≤ s) (h2 : s < 0xe000) : appendRune s =
    [0xed#8, BitVec.ofNat 8 (0x80 + s / 64 % 64), BitVec.ofNat 8 (0x80 + s % 64)] := by
  rw [appendRune_utf8 (by omega)]
  unfold utf8
  rw [if_neg (by omega), if_neg (by omega), if_pos (by omega), show s / 4096 = 13 by omega]

/-- Encoding a text that starts with the three bytes of a surrogate, in the later version. -/
theorem encode_surrogate {s : Nat} (h1 : 0xd800 ≤ s) (h2 : s < 0xe000) (x : Bytes) :
    utf16Encode true (appendRune s ++ x) = BitVec.ofNat 16 s :: utf16Encode true x := by
  rw [surrogate_bytes h1 h2]
  have e1 : (BitVec.ofNat 8 (0x80 + s / 64 % 64)).toNat = 0x80 + s / 64 % 64 := by rw [BitVec.toNat_ofNat]; omega
  have e2 : (BitVec.ofNat 8 (0x80 + s % 64)).toNat = 0x80 + s % 64 := by rw [BitVec.toNat_ofNat]; omega
  have a1 : (0x80 + s / 64 % 64) &&& 0x3f = s / 64 % 64 := by rw [mask6]; omega
  have a2 : (0x80 + s % 64) &&& 0x3f = s % 64 := by rw [mask6]; omega
  have hd : (decodeRune ([0xed#8, BitVec.ofNat 8 (0x80 + s / 64 % 64), BitVec.ofNat 8 (0x80 + s % 64)] ++ x)).1 = 0xfffd := by
    have e0 : (0xed#8).toNat = 0xed := rfl
    simp only [decodeRune, List.cons_append, List.nil_append, List.getD_cons_zero, List.getD_cons_succ, e0, e1, e2, List.length_cons]
    rw [if_neg (by simp), if_neg (by omega), if_neg (by omega), if_pos (by omega), if_neg]
    simp only [Bool.and_eq_true, decide_eq_true_eq, not_and]
    intro h
    exfalso
    obtain ⟨⟨_, _⟩, h⟩ := h
    simp at h
    omega
  simp only [List.cons_append, List.nil_append] at hd ⊢
  rw [utf16Encode]
  dsimp only
  rw [if_pos]
  · simp only [List.getD_cons_zero, List.getD_cons_succ, e1, e2, a1, a2, List.drop_succ_cons, List.drop_zero]
    rw [three_parts _ _ _ (by omega) (by omega)]
    congr 2
    have : (0xed#8).toNat &&& 0xf = 13 := by decide
    rw [this]
    omega
  · simp only [hd, List.getD_cons_zero, List.getD_cons_succ, e1, e2, List.length_cons, Bool.true_and, decide_eq_true_eq]
    exact ⟨trivial, by omega, rfl, by omega, by omega, by omega, by omega⟩

end Dparm
