import Verif.Spec.Numbers
/-!
# Specification: the TCG Storage token stream

From the TCG Storage Architecture Core Specification, section 3.2.2.3 (atoms and control tokens):

* tiny atom   `0 S vvvvvv`                                  one byte, 6-bit value
* short atom  `10 B S nnnn`             + n data bytes      n < 16
* medium atom `110 B S nnn  nnnnnnnn`   + n data bytes      n < 2048
* long atom   `1110 00 B S` + 3 length bytes + n data bytes n < 2^24
* control token `1111 cccc` (start list, end list, ..., empty atom = FF)

`B` = byte string, `S` = signed.
-/
namespace Dparm.Spec
open Dparm

inductive Token where
  | tiny (signed : Bool) (v : Nat)
  | short (isBytes signed : Bool) (data : Bytes)
  | medium (isBytes signed : Bool) (data : Bytes)
  | long (isBytes signed : Bool) (data : Bytes)
  | control (c : Nat)
deriving DecidableEq, Repr

namespace Token

/-- the size limits of each form -/
def WF : Token → Prop
  | .tiny _ v => v < 64
  | .short _ _ d => d.length < 16
  | .medium _ _ d => d.length < 2048
  | .long _ _ d => d.length < 2 ^ 24
  | .control c => c < 16

instance (t : Token) : Decidable t.WF := by cases t <;> unfold WF <;> infer_instance

def flag (b : Bool) (w : Nat) : Nat := if b then w else 0

def encode : Token → Bytes
  | .tiny s v => [BitVec.ofNat 8 (flag s 64 + v)]
  | .short b s d => BitVec.ofNat 8 (128 + flag b 32 + flag s 16 + d.length) :: d
  | .medium b s d =>
    BitVec.ofNat 8 (192 + flag b 16 + flag s 8 + d.length / 256) :: BitVec.ofNat 8 (d.length % 256) :: d
  | .long b s d => BitVec.ofNat 8 (224 + flag b 2 + flag s 1) :: (beBytes 3 d.length ++ d)
  | .control c => [BitVec.ofNat 8 (240 + c)]

/-- the padding token a receiver ignores -/
def emptyAtom : Token := .control 15

def startList : Token := .control 0
def endList : Token := .control 1
def startName : Token := .control 2
def endName : Token := .control 3
def call : Token := .control 8
def endOfData : Token := .control 9
def endOfSession : Token := .control 10

/-- A byte string in its shortest short/medium form. -/
def bytes (d : Bytes) : Token := if d.length < 16 then .short true false d else .medium true false d

/-- An unsigned number: tiny below 64, else 1, 2, 4 or 8 big-endian bytes, the first that fits. -/
def uint (n : Nat) : Token :=
  if n < 64 then .tiny false n
  else if n < 256 then .short false false (beBytes 1 n)
  else if n < 256 ^ 2 then .short false false (beBytes 2 n)
  else if n < 256 ^ 4 then .short false false (beBytes 4 n)
  else .short false false (beBytes 8 n)

end Token

/-- Encoding of a token sequence. -/
def encodeAll (ts : List Token) : Bytes := ts.flatMap Token.encode

end Dparm.Spec
