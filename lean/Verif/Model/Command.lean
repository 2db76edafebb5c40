import Verif.Model.Buffer
import Verif.Spec.Numbers
/-!
# tcg/command.go: building a TCG command

A `TcgCommand` is its aligned buffer (`Header` and `CmdPtr` are views of the same memory,
tcg/command.go:27-33).
-/
namespace Dparm
open Spec (beVal beBytes leBytes)

/-- tcg/types.go:10 `MAX_BUFFER_LENGTH`. -/
abbrev cmdSize : Nat := 61440
/-- `unsafe.Sizeof(OpalHeader{})`, tcg/types.go:266-294. -/
abbrev headerSize : Nat := 56

/-- tcg/types.go:310-311 `OpalUID`, `OpalMethod`: arrays of 8 bytes. -/
structure UID where
  bytes : Bytes
  len : bytes.length = 8
deriving DecidableEq

/-- tcg/types.go:324 -/
def SMUID_UID : UID := ⟨[0, 0, 0, 0, 0, 0, 0, 0xff], rfl⟩
/-- tcg/types.go:325 -/
def THISSP_UID : UID := ⟨[0, 0, 0, 0, 0, 0, 0, 1], rfl⟩
/-- tcg/types.go:326 -/
def ADMINSP_UID : UID := ⟨[0, 0, 2, 5, 0, 0, 0, 1], rfl⟩
/-- tcg/types.go:330 -/
def SID_UID : UID := ⟨[0, 0, 0, 9, 0, 0, 0, 6], rfl⟩
/-- tcg/types.go:334 -/
def PSID_UID : UID := ⟨[0, 0, 0, 9, 0, 1, 0xff, 1], rfl⟩
/-- tcg/types.go:350 -/
def C_PIN_MSID : UID := ⟨[0, 0, 0, 0x0b, 0, 0, 0x84, 2], rfl⟩
/-- tcg/types.go:359 -/
def UID_HEXFF : UID := ⟨[0xff, 0xff, 0xff, 0xff, 0xff, 0xff, 0xff, 0xff], rfl⟩
/-- tcg/types.go:364 -/
def M_STARTSESSION : UID := ⟨[0, 0, 0, 0, 0, 0, 0xff, 2], rfl⟩
/-- tcg/types.go:365 -/
def M_REVERT : UID := ⟨[0, 0, 0, 6, 0, 0, 2, 2], rfl⟩
/-- tcg/types.go:370 -/
def M_EAUTHENTICATE : UID := ⟨[0, 0, 0, 6, 0, 0, 0, 0x0c], rfl⟩
/-- tcg/types.go:373 -/
def M_REVERTSP : UID := ⟨[0, 0, 0, 6, 0, 0, 0, 0x11], rfl⟩
/-- tcg/types.go:374 -/
def M_GET : UID := ⟨[0, 0, 0, 6, 0, 0, 0, 0x16], rfl⟩
/-- tcg/types.go:376 -/
def M_AUTHENTICATE : UID := ⟨[0, 0, 0, 6, 0, 0, 0, 0x1c], rfl⟩

/-- Arguments of `AddToken` (tcg/types.go:537-546). `int` stands for the four integer kinds
`OpalToken`, `OpalTinyAtom`, `OpalShortAtom`, `OpalLockingState`, which are treated alike
(tcg/command.go:88-95). -/
inductive TokArg where
  | uid (u : UID)
  | method (m : UID)
  | int (v : Int)
deriving DecidableEq

/-- The `Add...` calls on a command. -/
inductive AddOp where
  | tok (a : TokArg)
  | raw (d : Bytes)
  | str (text : Bytes) (length : Option Int)
  | num (v : BitVec 64)
deriving DecidableEq

/-- Arguments of `Init` (tcg/types.go:298-321). -/
inductive InvokingArg where
  | uid (u : UID) | buf (d : Bytes) | method (m : UID)
deriving DecidableEq
/-- Second argument of `Init`: `OpalMethod` or `Buf` (tcg/types.go:320-321). -/
inductive MethodArg where
  | method (m : UID) | buf (d : Bytes)
deriving DecidableEq

/-- tcg/command.go:25-33 `NewTcgCommand`; `base` is the address the runtime chose. -/
def newTcgCommand (base : Nat) : ABuf := newAlignedBuffer base 1024 cmdSize

namespace Cmd

/-- `_, err := cmd.CmdBuf.Write(data)` -/
def write (c : ABuf) (p : Bytes) : P (ABuf × Option GoErr) :=
  match c.write p with
  | .panic => .panic
  | .ret (c', _, e) => .ret (c', e)

/-- tcg/command.go:39-42 `Reset`. -/
def reset (c : ABuf) : ABuf := c.reset.setWritePos headerSize

/-- tcg/command.go:71-75 `AddRawToken`. -/
def addRaw (c : ABuf) (d : Bytes) : P (ABuf × Option GoErr) := write c d

/-- tcg/command.go:101-136 `AddStringToken`; the optional length argument is `length`. -/
def addString (c : ABuf) (text : Bytes) (length : Option Int) : P (ABuf × Option GoErr) :=
  let given : Int := match length with
    | some l => l
    | none => text.length
  let lengthVar : Nat := if given < 0 then text.length else given.toNat
  if lengthVar = 0 then write c [0xa1, 0x00]
  else if lengthVar < 16 then write c (BitVec.ofNat 8 (lengthVar ||| 0xa0) :: text)
  else if lengthVar < 2048 then
    write c (BitVec.ofNat 8 (0xd0 ||| ((lengthVar >>> 8) &&& 0x07)) :: BitVec.ofNat 8 lengthVar :: text)
  else .ret (c, none)

/-- tcg/command.go:166-169: `temp[startat-i] = uint8(value >> (i*8))` for `i = startat .. 0`. -/
def numberBytes (v : BitVec 64) (startat : Nat) : Bytes :=
  (List.range (startat + 1)).map (fun j => (v >>> ((startat - j) * 8)).setWidth 8)

/-- tcg/command.go:138-177 `AddNumberToken`. -/
def addNumber (c : ABuf) (v : BitVec 64) : P (ABuf × Option GoErr) :=
  if v.toNat < 64 then .ret (c.writeByte ((v &&& 0x3f).setWidth 8))
  else
    let (hd, startat) : Byte × Nat :=
      if v.toNat < 0x100 then (0x81, 0)
      else if v.toNat < 0x10000 then (0x82, 1)
      else if v.toNat < 0x100000000 then (0x84, 3)
      else (0x88, 7)
    match c.writeByte hd with
    | (c1, some e) => .ret (c1, some e)
    | (c1, none) => write c1 (numberBytes v startat)

/-- tcg/command.go:78-99 `AddToken`. -/
def addToken (c : ABuf) : TokArg → P (ABuf × Option GoErr)
  | .uid u => match c.writeByte 0xa8 with
    | (c1, none) => addRaw c1 u.bytes
    | (c1, some e) => .ret (c1, some e)
  | .method m => addString c m.bytes (some m.bytes.length)
  | .int v => .ret (c.writeByte (BitVec.ofInt 8 v))

/-- Any of the four `Add...` calls. -/
def add (c : ABuf) : AddOp → P (ABuf × Option GoErr)
  | .tok a => addToken c a
  | .raw d => addRaw c d
  | .str t l => addString c t l
  | .num v => addNumber c v

/-- A sequence of `Add...` calls by a caller that collects the errors and goes on. -/
def addAll (c : ABuf) : List AddOp → P (ABuf × List (Option GoErr))
  | [] => .ret (c, [])
  | o :: os => match add c o with
    | .panic => .panic
    | .ret (c1, e) => match addAll c1 os with
      | .panic => .panic
      | .ret (c2, es) => .ret (c2, e :: es)

/-- tcg/command.go:45-69 `Init`. Errors of the inner `Add...` calls are ignored by the code. -/
def init (c : ABuf) (inv : InvokingArg) (m : MethodArg) : P (ABuf × Option GoErr) :=
  match (reset c).writeByte 0xf8 with
  | (c1, some e) => .ret (c1, some e)
  | (c1, none) =>
    match inv with
    | .method _ => .ret (c1, some .invalidParamType)
    | .uid u => match addToken c1 (.uid u) with
      | .panic => .panic
      | .ret (c2, _) => initMethod c2 m
    | .buf d => match addRaw c1 d with
      | .panic => .panic
      | .ret (c2, _) => initMethod c2 m
where
  /-- tcg/command.go:60-66 -/
  initMethod (c : ABuf) : MethodArg → P (ABuf × Option GoErr)
    | .method m => match write (c.writeByte 0xa8).1 m.bytes with
      | .panic => .panic
      | .ret (c', _) => .ret (c', none)
    | .buf d => match addRaw c d with
      | .panic => .panic
      | .ret (c', _) => .ret (c', none)

end Cmd

/-- tcg/types.go:266-294 `OpalHeader`. -/
structure OpalHeader where
  cpReserved0 : BitVec 32
  extendedComID : Bytes
  outstanding : BitVec 32
  minTransfer : BitVec 32
  cpLength : BitVec 32
  tsn : BitVec 32
  hsn : BitVec 32
  seqNumber : BitVec 32
  pktReserved00 : BitVec 16
  ackType : BitVec 16
  ack : BitVec 32
  pktLength : BitVec 32
  subReserved00 : Bytes
  kind : BitVec 16
  subLength : BitVec 32

namespace OpalHeader
/-- big-endian unsigned field of `w` bits at byte offset `i` -/
def field (w : Nat) (m : Bytes) (i : Nat) : BitVec w := BitVec.ofNat w (beVal (slice m i (w / 8)))

/-- `struc.Unpack` of an `OpalHeader` (all fields big-endian) from the first 56 bytes. -/
def unpack (m : Bytes) : OpalHeader where
  cpReserved0 := field 32 m 0
  extendedComID := slice m 4 4
  outstanding := field 32 m 8
  minTransfer := field 32 m 12
  cpLength := field 32 m 16
  tsn := field 32 m 20
  hsn := field 32 m 24
  seqNumber := field 32 m 28
  pktReserved00 := field 16 m 32
  ackType := field 16 m 34
  ack := field 32 m 36
  pktLength := field 32 m 40
  subReserved00 := slice m 44 6
  kind := field 16 m 50
  subLength := field 32 m 52

/-- `struc.Pack` of an `OpalHeader`. -/
def pack (h : OpalHeader) : Bytes :=
  beBytes 4 h.cpReserved0.toNat ++ h.extendedComID ++ beBytes 4 h.outstanding.toNat
    ++ beBytes 4 h.minTransfer.toNat ++ beBytes 4 h.cpLength.toNat
    ++ beBytes 4 h.tsn.toNat ++ beBytes 4 h.hsn.toNat ++ beBytes 4 h.seqNumber.toNat
    ++ beBytes 2 h.pktReserved00.toNat ++ beBytes 2 h.ackType.toNat ++ beBytes 4 h.ack.toNat
    ++ beBytes 4 h.pktLength.toNat
    ++ h.subReserved00 ++ beBytes 2 h.kind.toNat ++ beBytes 4 h.subLength.toNat
end OpalHeader

namespace Cmd

/-- tcg/command.go:199-203: zero bytes until the position is a multiple of 4; at most 3 rounds. -/
def pad : Nat → ABuf → ABuf × Option GoErr
  | 0, c => (c, none)
  | n + 1, c =>
    if c.wpos &&& 3 != 0 then
      match c.writeByte 0 with
      | (c1, some e) => (c1, some e)
      | (c1, none) => pad n c1
    else (c, none)

/-- tcg/command.go:191-213, the part of `Complete` after the trailer. `struc.Unpack` reads 56 bytes from
the start of the buffer (its error path needs a limit below 56, which no command has). -/
def finish (c : ABuf) : P (ABuf × Option GoErr) :=
  if c.limit < headerSize then .ret (c, some .unexpectedEof)
  else
    let hdr := OpalHeader.unpack (slice c.mem c.off headerSize)
    let c := { c with rpos := headerSize }
    let subLen : BitVec 32 := BitVec.ofNat 32 c.wpos - 56#32
    match pad 4 c with
    | (c1, some e) => .ret (c1, some e)
    | (c1, none) =>
      let pktLen : BitVec 32 := BitVec.ofNat 32 c1.wpos - 20#32 - 24#32
      let cpLen : BitVec 32 := BitVec.ofNat 32 c1.wpos - 20#32
      write c1.resetWrite
        { hdr with subLength := subLen, pktLength := pktLen, cpLength := cpLen }.pack

/-- tcg/command.go:179-213 `Complete`; `eod` is the optional argument (default true). -/
def complete (c : ABuf) (eod : Bool := true) : P (ABuf × Option GoErr) :=
  if eod then
    match write c [0xf9, 0xf0, 0x00, 0x00, 0x00, 0xf1] with
    | .panic => .panic
    | .ret (c1, some e) => .ret (c1, some e)
    | .ret (c1, none) => finish c1
  else finish c

/-- tcg/command.go:215-217 `SetComId`: bytes 4..7 of the buffer. -/
def setComId (c : ABuf) (comId : BitVec 16) : ABuf :=
  { c with mem := copyAt c.mem (c.off + 4)
                [(comId >>> 8).setWidth 8, comId.setWidth 8, 0x00, 0x00] }

/-- tcg/command.go:219-221 `SetTSN`: the native (little-endian host) `uint32` at offset 20. -/
def setTSN (c : ABuf) (tsn : BitVec 32) : ABuf :=
  { c with mem := copyAt c.mem (c.off + 20) (leBytes 4 tsn.toNat) }

/-- tcg/command.go:223-225 `SetHSN`: the native `uint32` at offset 24. -/
def setHSN (c : ABuf) (hsn : BitVec 32) : ABuf :=
  { c with mem := copyAt c.mem (c.off + 24) (leBytes 4 hsn.toNat) }

/-- tcg/command.go:231-237 `GetCmdSize`. -/
def getCmdSize (c : ABuf) : Nat :=
  let x := c.wpos &&& 511
  if x != 0 then 512 - x + c.wpos else c.wpos

/-- The bytes a device sends for a command: `unsafe.Slice(cmd.GetCmdPtr(), cmd.GetCmdSize())`,
tcg/device.go:182. -/
def wire (c : ABuf) : Bytes := slice c.mem c.off (getCmdSize c)

end Cmd

/-- Every operation on a command: `AddToken`, `AddRawToken`, `AddStringToken`, `AddNumberToken` (tcg/command.go:71-177), `Init`
(45-69), `Reset` (39-43), `Complete` (179-213), `SetComId`, `SetTSN`, `SetHSN` (215-225). -/
inductive CmdOp where
  | add (o : AddOp)
  | init (inv : InvokingArg) (m : MethodArg)
  | reset
  | complete (eod : Bool)
  | comId (v : BitVec 16)
  | tsn (v : BitVec 32)
  | hsn (v : BitVec 32)

/-- One operation (tcg/command.go:35-225), errors ignored by the caller. -/
def Cmd.exec (c : ABuf) : CmdOp → P ABuf
  | .add o => match Cmd.add c o with | .panic => .panic | .ret (c', _) => .ret c'
  | .init i m => match Cmd.init c i m with | .panic => .panic | .ret (c', _) => .ret c'
  | .reset => .ret (Cmd.reset c)
  | .complete e => match Cmd.complete c e with | .panic => .panic | .ret (c', _) => .ret c'
  | .comId v => .ret (Cmd.setComId c v)
  | .tsn v => .ret (Cmd.setTSN c v)
  | .hsn v => .ret (Cmd.setHSN c v)

/-- A whole history of operations (tcg/command.go:35-225). -/
def Cmd.execAll (c : ABuf) : List CmdOp → P ABuf
  | [] => .ret c
  | o :: os => match Cmd.exec c o with | .panic => .panic | .ret c' => Cmd.execAll c' os

end Dparm
