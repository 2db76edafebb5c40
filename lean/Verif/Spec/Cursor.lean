import Verif.Model.Base
/-!
# Specification: a fixed-size byte array with a read and a write cursor

The abstract store is a function from index to byte; only indexes below `limit` are accessible.
A transfer moves as many bytes as fit between the cursor and the limit; if that is none
(cursor at the limit, or an empty request) it reports end-of-file; a cursor beyond the limit
is a programming error (panic).
-/
namespace Dparm.Spec
open Dparm

structure Cursor where
  store : Nat → Byte
  limit : Nat
  w : Nat
  r : Nat

inductive BufOp where
  | write (p : Bytes) | writeByte (x : Byte) | read (n : Nat)
  | reset | resetRead | resetWrite
  | setWritePos (n : Nat) | setReadPos (n : Nat) | setLimit (n : Nat)
deriving DecidableEq

inductive BufOut where
  | unit | wrote (n : Nat) | got (d : Bytes) | eof | panic
deriving DecidableEq, Repr

namespace Cursor

/-- the first `n` bytes of `p` stored from index `i` on -/
def put (s : Nat → Byte) (i : Nat) (p : Bytes) (n : Nat) : Nat → Byte :=
  fun j => if i ≤ j ∧ j < i + n then p.getD (j - i) 0 else s j

def step (c : Cursor) : BufOp → Cursor × BufOut
  | .write p =>
    if c.limit < c.w then (c, .panic)
    else if p = [] ∨ c.w = c.limit then (c, .eof)
    else
      let n := min p.length (c.limit - c.w)
      ({ c with store := put c.store c.w p n, w := c.w + n }, .wrote n)
  | .writeByte x =>
    if c.limit ≤ c.w then (c, .eof)
    else ({ c with store := put c.store c.w [x] 1, w := c.w + 1 }, .wrote 1)
  | .read n =>
    if c.limit < c.r then (c, .panic)
    else if n = 0 ∨ c.r = c.limit then (c, .eof)
    else
      let k := min n (c.limit - c.r)
      ({ c with r := c.r + k }, .got ((List.range k).map (fun i => c.store (c.r + i))))
  | .reset => ({ c with store := fun j => if j < c.limit then 0 else c.store j, w := 0, r := 0 }, .unit)
  | .resetRead => ({ c with r := 0 }, .unit)
  | .resetWrite => ({ c with w := 0 }, .unit)
  | .setWritePos n => ({ c with w := n }, .unit)
  | .setReadPos n => ({ c with r := n }, .unit)
  | .setLimit n => ({ c with limit := n }, .unit)

/-- outputs of a history -/
def run (c : Cursor) : List BufOp → Cursor × List BufOut
  | [] => (c, [])
  | o :: os =>
    let (c', out) := c.step o
    let (c'', outs) := c'.run os
    (c'', out :: outs)

end Cursor
end Dparm.Spec
