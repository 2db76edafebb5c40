import Verif.Model.Sg
/-!
# Specification: SAT pass-through commands, sense data, SG_IO transfers
-/
namespace Dparm.Spec
open Dparm

/-- The fields a SCSI/ATA translation layer reads from an ATA PASS-THROUGH (12) or (16) command (SAT-4, 12.2.2 and
12.2.3). Registers are 16-bit values; in the 12-byte form only the low byte exists. -/
structure Sat where
  multiple : Nat
  protocol : Nat
  extend : Nat
  offLine : Nat
  ckCond : Nat
  tType : Nat
  tDir : Nat
  byteBlock : Nat
  tLength : Nat
  feat : Nat
  nsect : Nat
  lbal : Nat
  lbam : Nat
  lbah : Nat
  dev : Byte
  command : Byte
deriving DecidableEq, Repr

/-- Decoding by operation code and length. -/
def satDecode : Bytes → Option Sat
  | [op, f1, f2, a, b, c, d, e, f, g, h, i, j, dev, cmd, _] =>
    if op = 0x85 then
      some { multiple := f1.toNat / 32, protocol := f1.toNat / 2 % 16, extend := f1.toNat % 2,
             offLine := f2.toNat / 64, ckCond := f2.toNat / 32 % 2, tType := f2.toNat / 16 % 2, tDir := f2.toNat / 8 % 2,
             byteBlock := f2.toNat / 4 % 2, tLength := f2.toNat % 4,
             feat := 256 * a.toNat + b.toNat, nsect := 256 * c.toNat + d.toNat, lbal := 256 * e.toNat + f.toNat,
             lbam := 256 * g.toNat + h.toNat, lbah := 256 * i.toNat + j.toNat, dev := dev, command := cmd }
    else none
  | [op, f1, f2, b, d, f, h, j, dev, cmd, _, _] =>
    if op = 0xa1 then
      some { multiple := f1.toNat / 32, protocol := f1.toNat / 2 % 16, extend := f1.toNat % 2,
             offLine := f2.toNat / 64, ckCond := f2.toNat / 32 % 2, tType := f2.toNat / 16 % 2, tDir := f2.toNat / 8 % 2,
             byteBlock := f2.toNat / 4 % 2, tLength := f2.toNat % 4,
             feat := b.toNat, nsect := d.toNat, lbal := f.toNat, lbam := h.toNat, lbah := j.toNat, dev := dev,
             command := cmd }
    else none
  | _ => none

/-- 16-bit value of a register pair, or the low register alone. -/
def reg (is48 : Bool) (hi lo : Byte) : Nat := if is48 then 256 * hi.toNat + lo.toNat else lo.toNat

/-- What a taskfile means as a pass-through command. -/
def satOf (tf : Tf) (hasData rw dma : Bool) : Sat :=
  let x : Bool := tf.isLba48 != 0
  { multiple := 0, offLine := 0, tType := 0,
    extend := if x then 1 else 0,
    -- 3 non-data, 4 PIO data-in, 5 PIO data-out, 6 DMA
    protocol := if hasData then (if dma then 6 else if rw then 5 else 4) else 3,
    -- length in the sector count, in blocks, direction bit set for transfers from the device
    tLength := if hasData then 2 else 0,
    byteBlock := if hasData then 1 else 0,
    tDir := if hasData && !rw then 1 else 0,
    ckCond := if hasData then 0 else 1,
    feat := reg x tf.hob.feat tf.lob.feat, nsect := reg x tf.hob.nsect tf.lob.nsect,
    lbal := reg x tf.hob.lbal tf.lob.lbal, lbam := reg x tf.hob.lbam tf.lob.lbam, lbah := reg x tf.hob.lbah tf.lob.lbah,
    dev := tf.dev, command := tf.command }

/-- The ATA registers in a sense buffer whose descriptor begins at byte 8 (SAT-4, ATA Status Return descriptor): byte `8 + i`
of the buffer is byte `i` of the descriptor. `tf'` is `tf` with those registers. -/
def AtaReturn (s : Bytes) (tf tf' : Tf) : Prop :=
  let b : Nat → Byte := fun i => s.getD i 0
  tf'.isLba48.toNat = (b 10).toNat % 2 ∧ tf'.error = b 11 ∧ tf'.dev = b 20 ∧ tf'.status = b 21 ∧
  tf'.lob.nsect = b 13 ∧ tf'.lob.lbal = b 15 ∧ tf'.lob.lbam = b 17 ∧ tf'.lob.lbah = b 19 ∧
  tf'.command = tf.command ∧ tf'.lob.feat = tf.lob.feat ∧ tf'.hob.feat = 0 ∧
  (if (b 10).toNat % 2 = 1 then
    tf'.hob.nsect = b 12 ∧ tf'.hob.lbal = b 14 ∧ tf'.hob.lbam = b 16 ∧ tf'.hob.lbah = b 18
   else tf'.hob.nsect = 0 ∧ tf'.hob.lbal = 0 ∧ tf'.hob.lbam = 0 ∧ tf'.hob.lbah = 0)

/-- The 32-byte sense area after the kernel stored `given` into an area holding `old`. -/
def senseArea (old given : Bytes) : Bytes := (given.take 32 ++ old.drop (given.take 32).length)

/-- Byte 2 modulo 16: the sense key in fixed format. -/
def fixedKey (s : Bytes) : Nat := (s.getD 2 0).toNat % 16

/-- The sense key by the format the response code announces (SPC-4, 4.5): fixed format 70h/71h, descriptor format
72h/73h; anything else carries none. -/
def trueKey (s : Bytes) : Nat :=
  let code := (s.getD 0 0).toNat % 128
  if code = 0x70 ∨ code = 0x71 then (s.getD 2 0).toNat % 16
  else if code = 0x72 ∨ code = 0x73 then (s.getD 1 0).toNat % 16
  else 0

/-- The ioctls of a history of kernel requests. -/
def ioctls (t : Prog.Trace KReq SgRep) : List (SgReq × SgRep) :=
  t.filterMap (fun p => match p.1 with | .sgIo q => some (q, p.2) | .close => none)

/-- The buffer after the kernel delivered `got` into memory holding `m` in a read of `m.length` bytes. -/
def delivered (m got : Bytes) : Bytes := (got.take m.length) ++ m.drop (got.take m.length).length

end Dparm.Spec
