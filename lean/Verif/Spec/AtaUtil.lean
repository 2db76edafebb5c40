import Verif.Spec.Handle
import Verif.Model.AtaUtil
/-!
# Specification: ATA strings and addresses
-/
namespace Dparm.Spec
open Dparm

/-- `p` is the part of `s` before its first NUL (all of `s` if there is none). -/
def BeforeNul (s p : Bytes) : Prop :=
  (∀ x ∈ p, x ≠ 0) ∧ (p = s ∨ ∃ rest, s = p ++ 0 :: rest)

/-- `o` is `s` without its trailing spaces. -/
def NoTrailingSpaces (s o : Bytes) : Prop :=
  (∃ k, s = o ++ List.replicate k 0x20) ∧ o.getLast? ≠ some 0x20

/-- The ten commands that are always 48 bit. -/
def Ext (op : Byte) : Prop := op.toNat ∈ [0x06, 0x24, 0x25, 0x27, 0x34, 0x35, 0x37, 0x42, 0x45, 0xea]
/-- The four commands that never are. -/
def Fixed28 (op : Byte) : Prop := op.toNat ∈ [0x80, 0xb0, 0xf3, 0xf4]

/-- Byte `i` of a sector. -/
def byteAt (s : Bytes) (i : Nat) : Byte := s.getD i 0

/-- The records a caller gets for an attribute sector `s` (ATA8-ACS table 49, SFF-8035: revision in bytes 0-1, thirty
12-byte attributes from byte 2 on: id, flags, current, worst, six raw bytes, reserved). The two 16-bit numbers are taken
with the most significant byte first, although ATA stores them with the least significant first. -/
def SmartValuesOf (s : Bytes) (v : List Bytes) : Prop :=
  (smartRev v).toNat = 256 * (byteAt s 0).toNat + (byteAt s 1).toNat ∧
  ∀ i, i < 30 →
    (smartAttr v i).id = byteAt s (2 + 12 * i) ∧
    (smartAttr v i).flags.toNat = 256 * (byteAt s (3 + 12 * i)).toNat + (byteAt s (4 + 12 * i)).toNat ∧
    (smartAttr v i).current = byteAt s (5 + 12 * i) ∧
    (smartAttr v i).worst = byteAt s (6 + 12 * i) ∧
    (smartAttr v i).raw = (List.range 6).map (fun j => byteAt s (7 + 12 * i + j))

/-- The same for a threshold sector: thirty 12-byte entries from byte 2 on, id and threshold first. -/
def SmartThresholdsOf (s : Bytes) (t : List Bytes) : Prop :=
  (smartRev t).toNat = 256 * (byteAt s 0).toNat + (byteAt s 1).toNat ∧
  ∀ i, i < 30 → (smartThreshold t i).1 = byteAt s (2 + 12 * i) ∧ (smartThreshold t i).2 = byteAt s (3 + 12 * i)

end Dparm.Spec
