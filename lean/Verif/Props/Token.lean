import Verif.Lemmas.Response
import Verif.Lemmas.Token
/-!
# Properties of single tokens (C15, C16)
-/
namespace Dparm
open Spec

/-- C15, totality: `Type` panics exactly on an empty token and depends on the first byte only. -/
theorem type_total (t : Bytes) :
    (Tok.type t = .panic ↔ t = []) ∧ ∀ b r r', Tok.type (b :: r) = Tok.type (b :: r') := by
  refine ⟨?_, fun _ _ _ => rfl⟩
  cases t <;> simp [Tok.type]

/-- The three names `Type` gives to atoms: byte string, signed, unsigned. -/
def kindOf (isBytes signed : Bool) : Nat :=
  if isBytes then 0xe0 else if signed then 0xe1 else 0xe2

theorem typeShort : ∀ (b s : Bool) (n : Fin 16),
    Tok.typeOfByte (BitVec.ofNat 8 (128 + Token.flag b 32 + Token.flag s 16 + n)) = kindOf b s := by
  decide +kernel
theorem typeMedium : ∀ (b s : Bool) (n : Fin 8),
    Tok.typeOfByte (BitVec.ofNat 8 (192 + Token.flag b 16 + Token.flag s 8 + n)) = kindOf b s := by
  decide +kernel
theorem typeLong : ∀ (b s : Bool),
    Tok.typeOfByte (BitVec.ofNat 8 (224 + Token.flag b 2 + Token.flag s 1)) = kindOf b s := by
  decide +kernel
theorem typeControl : ∀ c : Fin 16, Tok.typeOfByte (BitVec.ofNat 8 (240 + c)) = 240 + c := by
  decide +kernel
theorem typeTiny : ∀ (s : Bool) (v : Fin 64),
    Tok.typeOfByte (BitVec.ofNat 8 (Token.flag s 64 + v))
      = if s then 0xe2 else 0xe1 := by
  decide +kernel

/-- C15: `Type` follows the TCG flags for short, medium and long atoms and returns control tokens
verbatim; for tiny atoms the sign is inverted. Every token of the grammar is covered. -/
theorem type_of_encoded (t : Token) (hw : t.WF) :
    Tok.type t.encode = .ret (match t with
      | .tiny signed _ => if signed then 0xe2 else 0xe1
      | .short b s _ => kindOf b s
      | .medium b s _ => kindOf b s
      | .long b s _ => kindOf b s
      | .control c => 240 + c) := by
  cases t with
  | tiny s v => exact congrArg P.ret (typeTiny s ⟨v, hw⟩)
  | short b s d => exact congrArg P.ret (typeShort b s ⟨d.length, hw⟩)
  | medium b s d =>
    simp only [Token.WF] at hw
    exact congrArg P.ret (typeMedium b s ⟨d.length / 256, by omega⟩)
  | long b s d => exact congrArg P.ret (typeLong b s)
  | control c => exact congrArg P.ret (typeControl ⟨c, hw⟩)

example : (Token.tiny false 5).WF ∧ Tok.type (Token.tiny false 5).encode = .ret 0xe1 := by
  decide
example : (Token.medium true false (List.replicate 300 7)).WF :=
  show (List.replicate 300 (7 : Byte)).length < 2048 by rw [List.length_replicate]; omega

/-- C15, the contradiction between the two accessors: on one-byte tokens below 0x80, `Type` answers
"signed" exactly when `GetUint64` accepts the token as unsigned. -/
theorem tiny_sign_inverted (b : Byte) (rest : Bytes) (hb : b.toNat < 128) :
    (Tok.type (b :: rest) = .ret 0xe1 ↔ ∃ v, Tok.getUint64 (b :: rest) = .ok v) ∧
    (Tok.type (b :: rest) = .ret 0xe2 ↔
      Tok.getUint64 (b :: rest) = .err Tok.illegalData) := by
  have h1 : Tok.clear b 0x80 = true := by rw [clear_80]; simpa using hb
  simp only [Tok.type, Tok.typeOfByte, Tok.getUint64, h1, if_true]
  cases Tok.clear b 0x40 <;> simp [DTA_TOKENID_SINT, DTA_TOKENID_UINT]

theorem clear40_tiny : ∀ b : Byte, b.toNat < 128 → Tok.clear b 0x40 = decide (b.toNat < 64) := by
  decide +kernel
theorem and3f_tiny : ∀ b : Byte, b.toNat < 64 → b &&& 0x3f = b := by decide +kernel
theorem clear10_short : ∀ b : Byte, Tok.clear b 0x10 = decide (b.toNat / 16 % 2 = 0) := by
  decide +kernel

/-- C16: the exact behaviour of `GetUint64` on every token: first byte `b`, payload `d`.
Unsigned tiny atoms give their value; short atoms with a clear sign bit (byte strings too) the
big-endian payload modulo 2^64; everything else is rejected. -/
theorem getUint64_exact (b : Byte) (d : Bytes) :
    Tok.getUint64 (b :: d) =
      if b.toNat < 64 then .ok (BitVec.ofNat 64 b.toNat)
      else if 128 ≤ b.toNat ∧ b.toNat < 192 ∧ b.toNat / 16 % 2 = 0 then
        .ok (BitVec.ofNat 64 (beVal d))
      else .err Tok.illegalData := by
  simp only [Tok.getUint64]
  rw [clear_80]
  by_cases h1 : b.toNat < 128
  · simp only [h1, decide_true, if_true, clear40_tiny b h1]
    by_cases h2 : b.toNat < 64
    · simp only [h2, decide_true, if_true, and3f_tiny b h2]
      simp
    · have : ¬ (128 ≤ b.toNat) := by omega
      simp [h2, this]
  · have h2 : ¬ b.toNat < 64 := by omega
    have h3 : 128 ≤ b.toNat := by omega
    simp only [h1, decide_false, Bool.false_eq_true, if_false, h2, clear_40 b h3]
    by_cases h4 : b.toNat < 192
    · simp only [h4, decide_true, if_true, clear10_short, orLoop_reverse, h3, true_and]
      by_cases h5 : b.toNat / 16 % 2 = 0 <;> simp [h5]
    · simp [h4]

/-- C16: the narrower accessors truncate the same value and return the same error. -/
theorem narrow_accessors (t : Bytes) :
    Tok.getUint32 t = (match Tok.getUint64 t with
      | .ok v => .ok (BitVec.ofNat 32 (v.toNat % 2 ^ 32)) | .err e => .err e | .panic => .panic) ∧
    Tok.getUint16 t = (match Tok.getUint64 t with
      | .ok v => .ok (BitVec.ofNat 16 (v.toNat % 2 ^ 16)) | .err e => .err e | .panic => .panic) ∧
    Tok.getUint8 t = (match Tok.getUint64 t with
      | .ok v => .ok (BitVec.ofNat 8 (v.toNat % 2 ^ 8)) | .err e => .err e | .panic => .panic) := by
  simp only [Tok.getUint32, Tok.getUint16, Tok.getUint8]
  cases Tok.getUint64 t <;> simp [Res.map] <;>
    refine ⟨?_, ?_, ?_⟩ <;> apply BitVec.eq_of_toNat_eq <;> simp

/-- C16 on parsed numbers: the status byte of a payload longer than one byte is its last byte. -/
theorem getUint8_is_last_byte (b last : Byte) (d : Bytes)
    (hb : 128 ≤ b.toNat ∧ b.toNat < 192 ∧ b.toNat / 16 % 2 = 0) :
    Tok.getUint8 (b :: (d ++ [last])) = .ok last := by
  have h64 : ¬ b.toNat < 64 := by omega
  rw [Tok.getUint8, getUint64_exact, if_neg h64, if_pos hb]
  simp only [Res.map, Res.ok.injEq]
  apply BitVec.eq_of_toNat_eq
  rw [beVal_append]
  simp [beVal]
  omega

example : Tok.getUint64 [0x82, 1, 2] = .ok 258 := by decide
example : Tok.getUint64 [0xa3, 0x61, 0x62, 0x63] = .ok 0x616263 := by decide

end Dparm
