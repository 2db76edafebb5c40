import Verif.Spec.DriveInfo
import Verif.Spec.WinVolume
/-!
# Specification: texts of Windows and texts of Go
-/
namespace Dparm.Spec
open Dparm

/-- Unicode scalar values other than NUL: what a text that can be a path is made of. -/
def Scalar (c : Nat) : Prop := 0 < c ∧ (c < 0xd800 ∨ (0xe000 ≤ c ∧ c < 0x110000))

/-- UTF-16 (RFC 2781). -/
def utf16 (c : Nat) : Wide :=
  if c < 0x10000 then [BitVec.ofNat 16 c]
  else [BitVec.ofNat 16 (0xd800 + (c - 0x10000) / 1024), BitVec.ofNat 16 (0xdc00 + (c - 0x10000) % 1024)]

/-- A text of 16-bit characters is well formed: UTF-16 of a text. -/
def WellFormed (w : Wide) : Prop := ∃ text : List Nat, (∀ c ∈ text, Scalar c) ∧ w = text.flatMap utf16

end Dparm.Spec
