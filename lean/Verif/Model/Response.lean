import Verif.Model.Token
/-!
# tcg/response.go: the response parser

The response buffer is 2048 bytes (`MIN_BUFFER_LENGTH`, tcg/types.go:11). The parser walks it with raw
pointers and can read beyond it; the memory behind the buffer is `after`, an arbitrary function.
Address arithmetic is on `Nat` offsets from the buffer start (64-bit addresses, 32-bit lengths: no
wrap-around). Tokens are the bytes of the slices at the time of parsing.
-/
namespace Dparm

/-- tcg/types.go:11 `MIN_BUFFER_LENGTH`. -/
abbrev respSize : Nat := 2048

/-- Memory as seen through a pointer to a buffer: the buffer, then whatever follows it. -/
def memAt (buf : Bytes) (after : Nat → Byte) (i : Nat) : Byte :=
  if h : i < buf.length then buf[i] else after (i - buf.length)

/-- `unsafe.Slice(cur, n)`. -/
def memSlice (m : Nat → Byte) (cur n : Nat) : Bytes := (List.range n).map (fun i => m (cur + i))

/-- tcg/response.go:60-76: length in bytes of the token starting at `cur`. -/
def tokenLen (m : Nat → Byte) (cur : Nat) : Nat :=
  let b := m cur
  if Tok.clear b 0x80 then 1
  else if Tok.clear b 0x40 then (b &&& 0x0f).toNat + 1
  else if Tok.clear b 0x20 then
    ((((b.setWidth 32 &&& 0x07#32) <<< 8) ||| (m (cur + 1)).setWidth 32) + 2#32).toNat
  else if Tok.clear b 0x10 then
    ((((m (cur + 1)).setWidth 32 <<< 16) ||| ((m (cur + 2)).setWidth 32 <<< 8)
      ||| (m (cur + 3)).setWidth 32) + 4#32).toNat
  else 1

/-- tcg/response.go:81: the token is kept unless it is the single byte `EMPTYATOM` (0xff). -/
def keepToken (t : Bytes) : Bool := t.length != 1 || t != [0xff]

/-- tcg/response.go:59-86, the token loop. `fuel` bounds the number of iterations; `commit` supplies
one more than `end - cur`, which suffices because every token has at least one byte
(theorem `scan_fuel` in `Lemmas/Response.lean`). -/
def scan (m : Nat → Byte) (endp : Nat) : Nat → Nat → List Bytes → List Bytes
  | 0, _, acc => acc
  | fuel + 1, cur, acc =>
    if cur < endp then
      let n := tokenLen m cur
      let t := memSlice m cur n
      scan m endp fuel (cur + n) (if keepToken t then acc ++ [t] else acc)
    else acc

/-- tcg/response.go:16-21 `TcgResponse`: buffer content and parsed tokens. -/
structure Resp where
  buf : Bytes
  tokens : List Bytes

/-- tcg/response.go:23-31 `NewTcgResponse` (base address and alignment play no role here). -/
def newTcgResponse : Resp := { buf := zeros respSize, tokens := [] }

namespace Resp
/-- tcg/response.go:33-35 `Reset`: clears the buffer, keeps the token list. -/
def reset (r : Resp) : Resp := { r with buf := zeros respSize }

/-- `binary.BigEndian.Uint32` of the four bytes at offset `i` of a header overlay. -/
def be32 (b : Bytes) (i : Nat) : BitVec 32 :=
  ((b.getD i 0).setWidth 32 <<< 24) ||| ((b.getD (i + 1) 0).setWidth 32 <<< 16)
    ||| ((b.getD (i + 2) 0).setWidth 32 <<< 8) ||| (b.getD (i + 3) 0).setWidth 32

/-- tcg/response.go:45-91 `Commit`: the sub-packet length is at offset 52, tokens start at 56. -/
def commit (r : Resp) (after : Nat → Byte) : Resp × Option GoErr :=
  let subpktLen := (be32 r.buf 52).toNat
  let cur := 56
  let endp := cur + subpktLen
  if endp > respSize then (r, some Tok.illegalData)
  else
    ({ r with tokens := scan (memAt r.buf after) endp (endp - cur + 1) cur [] }, none)

/-- tcg/response.go:93-95 `GetTokenCount`. -/
def getTokenCount (r : Resp) : Int := r.tokens.length

/-- tcg/response.go:97-102 `GetToken`: nil (`none`) from the count on, a panic for negative indexes. -/
def getToken (r : Resp) (i : Int) : P (Option Bytes) :=
  if i ≥ r.tokens.length then .ret none
  else if i < 0 then .panic
  else .ret r.tokens[i.toNat]?

end Resp
end Dparm
