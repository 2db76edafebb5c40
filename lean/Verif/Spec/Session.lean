import Verif.Model.Session
import Verif.Spec.Exec
import Verif.Spec.Command
/-!
# Specification: session responses and the command image on the wire
-/
namespace Dparm.Spec
open Dparm

/-- The number a token carries, as the accessors read numbers: an unsigned tiny atom, or a short atom
without sign bit (big-endian, modulo 2^64). -/
def unsignedValue : Bytes → Option Nat
  | [] => none
  | b :: d =>
    if b.toNat < 64 then some b.toNat
    else if 128 ≤ b.toNat ∧ b.toNat < 192 ∧ b.toNat / 16 % 2 = 0 then some (beVal d % 2 ^ 64)
    else none

/-- The three length fields of a response (com-packet, packet, sub-packet) are not zero. -/
def LengthsPresent (r : Resp) : Prop :=
  beVal (slice r.buf 16 4) ≠ 0 ∧ beVal (slice r.buf 40 4) ≠ 0 ∧ beVal (slice r.buf 52 4) ≠ 0

/-- The first token is END OF SESSION. -/
def EndOfSession (r : Resp) : Prop := ∃ t, r.tokens.head? = some t ∧ t.head? = some 0xfa

/-- The response ends in a status list: START LIST, a status token, two more tokens, END LIST. -/
def StatusList (r : Resp) (status : Bytes) : Prop :=
  ∃ pre open_ x y close, r.tokens = pre ++ [open_, status, x, y, close] ∧
    open_.head? = some 0xf0 ∧ close.head? = some 0xf1

/-- The response carries the number `v` in its status list. -/
def StatusValue (r : Resp) (v : Nat) : Prop :=
  ∃ status, StatusList r status ∧ unsignedValue status = some v

/-- A response that `SendCommand` should take as success. -/
def Accepted (r : Resp) : Prop :=
  LengthsPresent r ∧ r.tokens ≠ [] ∧ (EndOfSession r ∨ ∃ v, StatusValue r v ∧ v % 256 = 0)

/-- A response on which `SendCommand` panics. -/
def TooShort (r : Resp) : Prop :=
  LengthsPresent r ∧ 1 ≤ r.tokens.length ∧ r.tokens.length ≤ 4 ∧ ¬ EndOfSession r

/-- A parsed response: 2048 bytes that were parsed without error. -/
def Parsed (r : Resp) : Prop :=
  ∃ (buf : Bytes) (behind : Nat → Byte), buf.length = 2048 ∧
    Resp.commit ⟨buf, []⟩ behind = (r, none)

/-- The 512 bytes a finished command puts on the wire: header (ComID, lengths, session numbers), token
bytes, trailer, zero padding, cut at 512. `n` token bytes including the trailer. -/
def wireImage (comId : Nat) (tsn hsn : Bytes) (payload : Bytes) : Bytes :=
  let body := payload ++ [0xf9, 0xf0, 0x00, 0x00, 0x00, 0xf1]
  let n := body.length
  ((zeros 4 ++ beBytes 2 comId ++ zeros 2) ++ zeros 8 ++ beBytes 4 (up4 n + 36)
    ++ tsn ++ hsn ++ zeros 12 ++ beBytes 4 (up4 n + 12) ++ zeros 8 ++ beBytes 4 n
    ++ body ++ zeros 512).take 512

end Dparm.Spec

namespace Dparm.Spec
open Dparm

/-- The sends in a conversation, in order, with their answers. -/
def sends (t : Prog.Trace SecReq SecRep) : List (SecReq × SecRep) := t.filter isSend

/-- The request that transmits `data` by security protocol 1 on a ComID. -/
def sendOf (comId : BitVec 16) (data : Bytes) : SecReq := .sec true false 1 comId data 5

/-- The conversation ended with a receive whose data was parsed to the response `r`. -/
def Answered (t : Prog.Trace SecReq SecRep) (r : Resp) : Prop :=
  ∃ (before : Prog.Trace SecReq SecRep) (p : Byte) (c : BitVec 16) (last : Round),
    t = before ++ last.exchanges p c ∧ last.got.err = none ∧ last.parsed = (r, none)

/-- A byte string argument as it appears in a command: one atom for 1 to 2047 bytes, nothing from 2048
on, and `A1 00` for none. -/
def stringArg (s : Bytes) : Bytes :=
  if s.length = 0 then [0xa1, 0x00]
  else if s.length < 2048 then (Token.bytes s).encode
  else []

/-- The opening of a method call: CALL, invoking UID, method UID. -/
def callHead (invoking method : Bytes) : Bytes := encodeAll [.call, .bytes invoking, .bytes method]

/-- The StartSession call on the session manager: host session id 105, the SP, write session; with a
credential also `0 = challenge` and `3 = authority` (given as encoded atoms). -/
def startSessionCall (sp : Bytes) (credential : Option (Bytes × Bytes)) : Bytes :=
  callHead [0, 0, 0, 0, 0, 0, 0, 0xff] [0, 0, 0, 0, 0, 0, 0xff, 2] ++
  encodeAll [.startList, .uint 105, .bytes sp, .uint 1] ++
  (match credential with
   | none => []
   | some (challenge, authority) =>
     encodeAll [.startName, .uint 0] ++ challenge ++ encodeAll [.endName] ++
     encodeAll [.startName, .uint 3] ++ authority ++ encodeAll [.endName]) ++
  encodeAll [.endList]

/-- The Admin SP, the authorities SID and PSID, the row C_PIN_MSID. -/
def adminSP : Bytes := [0, 0, 2, 5, 0, 0, 0, 1]
def sidAuthority : Bytes := [0, 0, 0, 9, 0, 0, 0, 6]
def psidAuthority : Bytes := [0, 0, 0, 9, 0, 1, 0xff, 1]
def cPinMsid : Bytes := [0, 0, 0, 0x0b, 0, 0, 0x84, 2]

/-- Revert on the Admin SP, with an empty argument list. -/
def revertCall : Bytes :=
  callHead adminSP [0, 0, 0, 6, 0, 0, 2, 2] ++ encodeAll [.startList, .endList]

/-- Get on C_PIN_MSID, columns 3 (PIN) to 3. -/
def getMsidCall : Bytes :=
  callHead cPinMsid [0, 0, 0, 6, 0, 0, 0, 0x16] ++
  encodeAll [.startList, .startList, .startName, .uint 3, .uint 3, .endName,
    .startName, .uint 4, .uint 3, .endName, .endList, .endList]

/-- Authenticate on the session's SP: the authority (given as an encoded atom) and, with a credential,
`0 = challenge`. -/
def authenticateCall (authority : Bytes) (challenge : Option Bytes) : Bytes :=
  callHead [0, 0, 0, 0, 0, 0, 0, 1] [0, 0, 0, 6, 0, 0, 0, 0x1c] ++ encodeAll [.startList] ++ authority ++
  (match challenge with
   | none => []
   | some c => encodeAll [.startName, .uint 0] ++ c ++ encodeAll [.endName]) ++
  encodeAll [.endList]

/-- What `Start` puts in the challenge value: the challenge itself, or `D0 20` and the derived key of its
first 32 bytes. -/
def challengeValue (kdf : Kdf) (noHash : Bool) (serial challenge : Bytes) : Bytes :=
  if noHash then challenge else 0xd0 :: 0x20 :: kdf.key (challenge.take 32) serial

/-- The session numbers in the fifth and sixth token of a StartSession reply. -/
def SessionNumbers (r : Resp) (host tper : Nat) : Prop :=
  ∃ a b c d h t rest, r.tokens = a :: b :: c :: d :: h :: t :: rest ∧
    unsignedValue h = some host ∧ unsignedValue t = some tper

end Dparm.Spec
