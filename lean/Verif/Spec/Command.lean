import Verif.Model.Command
import Verif.Spec.TokenGrammar
/-!
# Specification: what each call contributes to a command
-/
namespace Dparm.Spec
open Dparm

/-- The bytes one `Add...` call is supposed to append. -/
def encAdd : AddOp → Bytes
  | .tok (.uid u) => (Token.short true false u.bytes).encode
  | .tok (.method m) => (Token.short true false m.bytes).encode
  | .tok (.int v) => [BitVec.ofInt 8 v]
  | .raw d => d
  | .num v => (Token.uint v.toNat).encode
  | .str text none => encStr text text.length
  | .str text (some l) => encStr text (if l < 0 then text.length else l.toNat)
where
  /-- byte-string atom whose header announces `n` bytes; nothing at all from 2048 on; for 0 the
  two bytes `A1 00` -/
  encStr (text : Bytes) (n : Nat) : Bytes :=
    if n = 0 then [0xa1, 0x00]
    else if n < 16 then BitVec.ofNat 8 (0xa0 + n) :: text
    else if n < 2048 then BitVec.ofNat 8 (0xd0 + n / 256) :: BitVec.ofNat 8 (n % 256) :: text
    else []

/-- All calls of a sequence. -/
def encAdds (ops : List AddOp) : Bytes := ops.flatMap encAdd

/-- The method part `Init` is supposed to write: a short byte-string atom, or the caller's bytes. -/
def encMethod : MethodArg → Bytes
  | .method m => 0xa8 :: m.bytes
  | .buf d => d

/-- Bytes `Init` is supposed to leave after the 56-byte header. -/
def encInit (inv : InvokingArg) (m : MethodArg) : Bytes :=
  0xf8 :: (match inv with
    | .uid u => 0xa8 :: u.bytes
    | .buf d => d
    | .method _ => []) ++
  encMethod m

/-- Calls that write a one-byte header with a separate buffer write: UIDs and numbers from 64 on. -/
def headLen : AddOp → Nat
  | .tok (.uid _) => 1
  | .num v => if v.toNat < 64 then 0 else 1
  | _ => 0

/-- The error an `Add...` call reports when `pos` bytes of the 61440-byte window are used: end-of-file for
an empty raw token, and when the write position has reached the end before (or between) its writes. -/
def addErr (pos : Nat) (o : AddOp) : Option GoErr :=
  if o = .raw [] ∨ (encAdd o ≠ [] ∧ cmdSize ≤ pos + headLen o) then some .eof else none

/-- Errors a sequence of calls reports, from position `pos`. -/
def addErrs (pos : Nat) : List AddOp → List (Option GoErr)
  | [] => []
  | o :: os => addErr pos o :: addErrs (min cmdSize (pos + (encAdd o).length)) os

/-- The trailer `Complete` writes unless suppressed. -/
def trailer (eod : Bool) : Bytes := if eod then [0xf9, 0xf0, 0x00, 0x00, 0x00, 0xf1] else []

/-- Next multiple of 4. -/
def up4 (n : Nat) : Nat := (n + 3) / 4 * 4

/-- The single token an `Add...` call denotes, where it denotes one. -/
def tokenOf : AddOp → Option Token
  | .tok (.uid u) => some (.short true false u.bytes)
  | .tok (.method m) => some (.short true false m.bytes)
  | .tok (.int v) =>
    if 0 ≤ v ∧ v < 64 then some (.tiny false v.toNat)
    else if 64 ≤ v ∧ v < 128 then some (.tiny true (v.toNat - 64))
    else if 240 ≤ v ∧ v < 256 then some (.control (v.toNat - 240))
    else none
  | .raw _ => none
  | .num v => some (.uint v.toNat)
  | .str text none => if 1 ≤ text.length ∧ text.length < 2048 then some (.bytes text) else none
  | .str _ (some _) => none

end Dparm.Spec
