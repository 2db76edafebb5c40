import Verif.Model.Base
/-!
# tcg/token.go: accessors on one response token

A token is the byte slice it was cut from (`TcgTokenVO.buf`, tcg/token.go:7-13); `p.buf[0]` on an empty
slice panics.
-/
namespace Dparm

/-- tcg/types.go:457 -/
def DTA_TOKENID_BYTESTRING : Nat := 0xe0
/-- tcg/types.go:458 -/
def DTA_TOKENID_SINT : Nat := 0xe1
/-- tcg/types.go:459 -/
def DTA_TOKENID_UINT : Nat := 0xe2

namespace Tok

/-- `typeVal & mask == 0`, the test used throughout tcg/token.go and tcg/response.go -/
def clear (b mask : Byte) : Bool := b &&& mask == 0

/-- tcg/token.go:17-54, the switch of `Type` on the first byte. -/
def typeOfByte (b : Byte) : Nat :=
  if clear b 0x80 then (if clear b 0x40 then DTA_TOKENID_SINT else DTA_TOKENID_UINT)
  else if clear b 0x40 then
    (if !clear b 0x20 then DTA_TOKENID_BYTESTRING
     else if !clear b 0x10 then DTA_TOKENID_SINT else DTA_TOKENID_UINT)
  else if clear b 0x20 then
    (if !clear b 0x10 then DTA_TOKENID_BYTESTRING
     else if !clear b 0x08 then DTA_TOKENID_SINT else DTA_TOKENID_UINT)
  else if clear b 0x10 then
    (if !clear b 0x02 then DTA_TOKENID_BYTESTRING
     else if !clear b 0x01 then DTA_TOKENID_SINT else DTA_TOKENID_UINT)
  else b.toNat

/-- tcg/token.go:15-55 `Type`. -/
def type : Bytes → P Nat
  | [] => .panic
  | b :: _ => .ret (typeOfByte b)

/-- tcg/token.go:57-59 `Length`. -/
def length (t : Bytes) : Nat := t.length

/-- tcg/token.go:81-84, the loop over `buf[len-1], ..., buf[1]`; the list is the payload from its last
byte to its first. Go's `<<` by 64 or more gives 0, as does `BitVec`'s. -/
def orLoop : Bytes → Nat → BitVec 64 → BitVec 64
  | [], _, v => v
  | x :: xs, b, v => orLoop xs (b + 1) (v ||| (x.setWidth 64 <<< (8 * b)))

/-- The error value of every "illegal data" return. -/
def illegalData : GoErr := .msg "illegal data"

/-- tcg/token.go:61-93 `GetUint64`. -/
def getUint64 : Bytes → Res (BitVec 64)
  | [] => .panic
  | b :: payload =>
    if clear b 0x80 then
      (if !clear b 0x40 then .err illegalData else .ok ((b &&& 0x3f).setWidth 64))
    else if clear b 0x40 then
      (if !clear b 0x10 then .err illegalData else .ok (orLoop payload.reverse 0 0))
    else .err illegalData

/-- tcg/token.go:95-98 `GetUint32` (the value beside an error is never used by callers). -/
def getUint32 (t : Bytes) : Res (BitVec 32) := (getUint64 t).map (·.setWidth 32)
/-- tcg/token.go:100-103 `GetUint16`. -/
def getUint16 (t : Bytes) : Res (BitVec 16) := (getUint64 t).map (·.setWidth 16)
/-- tcg/token.go:105-108 `GetUint8`. -/
def getUint8 (t : Bytes) : Res (BitVec 8) := (getUint64 t).map (·.setWidth 8)

/-- `p.buf[offset:]` panics when the offset exceeds the length. -/
def sliceFrom (t : Bytes) (off : Nat) : Res Bytes :=
  if off ≤ t.length then .ok (t.drop off) else .panic

/-- tcg/token.go:110-133 `GetString`. -/
def getString : Bytes → Res Bytes
  | [] => .panic
  | b :: rest =>
    if clear b 0x80 then .err illegalData
    else if clear b 0x40 then sliceFrom (b :: rest) 1
    else if clear b 0x20 then sliceFrom (b :: rest) 2
    else if clear b 0x10 then sliceFrom (b :: rest) 4
    else .ok []

/-- tcg/token.go:135-158 `GetBytes` (a nil slice and an empty one are not distinguished). -/
def getBytes : Bytes → Res Bytes
  | [] => .panic
  | b :: rest =>
    if clear b 0x80 then .err illegalData
    else if clear b 0x40 then sliceFrom (b :: rest) 1
    else if clear b 0x20 then sliceFrom (b :: rest) 2
    else if clear b 0x10 then sliceFrom (b :: rest) 4
    else .ok []

end Tok
end Dparm
