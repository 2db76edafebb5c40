import Verif.Spec.Session
/-!
# Specification: a conforming TCG drive

A reference model of the part of an Opal drive that `RevertTPer` and `GetDefaultPassword` deal with. It is
written from the TCG Storage Architecture Core and Opal SSC specifications and shares nothing with the
model of the library except byte strings: it decodes the packets by the token grammar, keeps sessions and
credentials, and answers in the token grammar. What the specifications leave to the drive (session numbers,
the form of its atoms, header fields, how often it says "not ready", padding) is left open.
-/
namespace Dparm.Spec
open Dparm

/-! ## Reading tokens -/

/-- The first token of a byte string and what follows it. -/
def decodeOne : Bytes → Option (Token × Bytes)
  | [] => none
  | b :: rest =>
    let v := b.toNat
    if v < 128 then some (.tiny (decide (64 ≤ v)) (v % 64), rest)
    else if v < 192 then
      if rest.length < v % 16 then none
      else some (.short (decide (v / 32 % 2 = 1)) (decide (v / 16 % 2 = 1)) (rest.take (v % 16)),
        rest.drop (v % 16))
    else if v < 224 then
      match rest with
      | [] => none
      | c :: rest' =>
        if rest'.length < v % 8 * 256 + c.toNat then none
        else some (.medium (decide (v / 16 % 2 = 1)) (decide (v / 8 % 2 = 1))
          (rest'.take (v % 8 * 256 + c.toNat)), rest'.drop (v % 8 * 256 + c.toNat))
    else if v < 240 then
      if rest.length < 3 + beVal (rest.take 3) then none
      else some (.long (decide (v / 2 % 2 = 1)) (decide (v % 2 = 1))
        ((rest.drop 3).take (beVal (rest.take 3))), (rest.drop 3).drop (beVal (rest.take 3)))
    else some (.control (v % 16), rest)

/-- All tokens of a byte string; `n` bounds their number. -/
def decodeAll : Nat → Bytes → Option (List Token)
  | _, [] => some []
  | 0, _ :: _ => none
  | n + 1, bs =>
    match decodeOne bs with
    | none => none
    | some (t, rest) => (decodeAll n rest).map (t :: ·)

namespace Token
/-- The byte string a token denotes. -/
def asBytes : Token → Option Bytes
  | .short true false d => some d
  | .medium true false d => some d
  | .long true false d => some d
  | _ => none

/-- The number a token denotes; numbers are sent as tiny or short atoms. -/
def asNat : Token → Option Nat
  | .tiny false v => some v
  | .short false false d => some (beVal d)
  | _ => none
end Token

/-! ## Reading commands -/

/-- A packet: ComID, session numbers, tokens. -/
structure Packet where
  comId : Nat
  tsn : Nat
  hsn : Nat
  tokens : List Token
deriving DecidableEq

/-- Reading the block a host transmitted: ComPacket header (ComID at 4, length at 16), packet header
(session numbers at 20 and 24, length at 40), data sub-packet header (kind 0 at 50, length at 52), payload
from 56. The lengths must agree with each other, padding included, and the payload must be there. -/
def readPacket (data : Bytes) : Option Packet :=
  let n := beVal (slice data 52 4)
  if 56 + up4 n ≤ data.length ∧ beVal (slice data 50 2) = 0 ∧ beVal (slice data 40 4) = 12 + up4 n ∧
      beVal (slice data 16 4) = 36 + up4 n then
    (decodeAll n (slice data 56 n)).map fun ts =>
      ⟨beVal (slice data 4 2), beVal (slice data 20 4), beVal (slice data 24 4), ts⟩
  else none

/-- A method call: invoking UID, method UID, arguments. -/
structure Call where
  invoking : Bytes
  method : Bytes
  args : List Token
deriving DecidableEq

/-- The end of every method call: END LIST, END OF DATA and the status list of a call. -/
def callEnd : List Token :=
  [.endList, .endOfData, .startList, .tiny false 0, .tiny false 0, .tiny false 0, .endList]

/-- CALL, invoking UID, method UID, START LIST, arguments, `callEnd`. -/
def readCall : List Token → Option Call
  | t0 :: t1 :: t2 :: t3 :: rest =>
    match t1.asBytes, t2.asBytes with
    | some i, some m =>
      if t0 = .call ∧ t3 = .startList ∧ 7 ≤ rest.length ∧ rest.drop (rest.length - 7) = callEnd then
        some ⟨i, m, rest.take (rest.length - 7)⟩
      else none
    | _, _ => none
  | _ => none

/-- Named arguments: START NAME, number, value, END NAME. -/
def readNamed : List Token → Option (List (Nat × Token))
  | [] => some []
  | t0 :: t1 :: t2 :: t3 :: rest =>
    match t1.asNat, readNamed rest with
    | some n, some l => if t0 = .startName ∧ t3 = .endName then some ((n, t2) :: l) else none
    | _, _ => none
  | _ => none

/-- The arguments of StartSession. -/
structure StartArgs where
  host : Nat
  sp : Bytes
  write : Bool
  challenge : Option Bytes
  authority : Option Bytes
deriving DecidableEq

/-- Host session number, SP, write flag, then by name 0 the host challenge and 3 the signing authority. -/
def readStart : List Token → Option StartArgs
  | t0 :: t1 :: t2 :: rest =>
    match t0.asNat, t1.asBytes, t2.asNat, readNamed rest with
    | some h, some sp, some w, some l =>
      some ⟨h, sp, decide (w = 1), (l.lookup 0).bind Token.asBytes, (l.lookup 3).bind Token.asBytes⟩
    | _, _, _, _ => none
  | _ => none

/-! ## The drive -/

/-- The session manager and the methods and arguments the drive understands. -/
def smUid : Bytes := [0, 0, 0, 0, 0, 0, 0, 0xff]
def mStartSession : Bytes := [0, 0, 0, 0, 0, 0, 0xff, 2]
def mSyncSession : Bytes := [0, 0, 0, 0, 0, 0, 0xff, 3]
def mRevert : Bytes := [0, 0, 0, 6, 0, 0, 2, 2]
def mGet : Bytes := [0, 0, 0, 6, 0, 0, 0, 0x16]
/-- The cell block "columns 3 to 3". -/
def pinColumn : List Token :=
  [.startList, .startName, .tiny false 3, .tiny false 3, .endName,
   .startName, .tiny false 4, .tiny false 3, .endName, .endList]

/-- What is fixed for a drive: its ComID, the PSID printed on it, the MSID it was shipped with, how many
sessions it can have open at a time. -/
structure Drive where
  comId : BitVec 16
  psid : Bytes
  msid : Bytes
  maxSessions : Nat

/-- An open session: its numbers, whether it may write, who is authenticated. -/
structure OpenSession where
  host : Nat
  tper : Nat
  write : Bool
  authority : Option Bytes
deriving DecidableEq

/-- What a drive answers. -/
inductive Answer where
  /-- SyncSession with both session numbers -/
  | sync (host tper : Nat)
  /-- success without results -/
  | done
  /-- success with the value of one column -/
  | column (n : Nat) (value : Bytes)
  /-- a status other than success -/
  | refused (status : Nat)
deriving DecidableEq

/-- The state of a drive: the SID credential, open sessions, the answer waiting to be fetched, how many
more times it will say "not ready" before, and how often it was reverted to factory state. -/
structure DriveState where
  sid : Bytes
  sessions : List OpenSession
  answer : Option Answer
  wait : Nat
  reverts : Nat
deriving DecidableEq

namespace Drive

/-- Who may open a session: anybody without credentials; PSID and SID with theirs. -/
def admits (dr : Drive) (s : DriveState) (a : StartArgs) : Bool :=
  match a.challenge, a.authority with
  | none, none => true
  | some c, some u => (u == psidAuthority && c == dr.psid) || (u == sidAuthority && c == s.sid)
  | _, _ => false

/-- StartSession: 0C invalid parameter, 07 no sessions available, 01 not authorized. -/
def startSession (dr : Drive) (tper : Nat) (s : DriveState) (a : StartArgs) : DriveState :=
  if a.sp ≠ adminSP ∨ 2 ^ 32 ≤ a.host then { s with answer := some (.refused 0x0c) }
  else if dr.maxSessions ≤ s.sessions.length then { s with answer := some (.refused 0x07) }
  else if dr.admits s a then
    { s with sessions := ⟨a.host, tper, a.write, a.authority⟩ :: s.sessions,
             answer := some (.sync a.host tper) }
  else { s with answer := some (.refused 0x01) }

/-- A method call in an open session. Revert of the Admin SP needs a writing session of SID or PSID; it
resets the SID credential to the MSID and ends all sessions. Everybody may read the MSID. -/
def method (dr : Drive) (s : DriveState) (o : OpenSession) (c : Call) : DriveState :=
  if c.invoking = adminSP ∧ c.method = mRevert ∧ c.args = [] then
    if o.write = true ∧ (o.authority = some sidAuthority ∨ o.authority = some psidAuthority) then
      { s with sid := dr.msid, sessions := [], answer := some .done, reverts := s.reverts + 1 }
    else { s with answer := some (.refused 0x01) }
  else if c.invoking = cPinMsid ∧ c.method = mGet ∧ c.args = pinColumn then
    { s with answer := some (.column 3 dr.msid) }
  else { s with answer := some (.refused 0x0c) }

/-- What a packet does: session manager calls carry session numbers 0; packets of unknown sessions are
dropped. `tper` is the number the drive would give to a new session. -/
def perform (dr : Drive) (tper : Nat) (s : DriveState) (p : Packet) : DriveState :=
  match readCall p.tokens with
  | none => { s with answer := some (.refused 0x0c) }
  | some c =>
    if p.tsn = 0 ∧ p.hsn = 0 then
      if c.invoking = smUid ∧ c.method = mStartSession then
        match readStart c.args with
        | none => { s with answer := some (.refused 0x0c) }
        | some a => dr.startSession tper s a
      else { s with answer := some (.refused 0x0c) }
    else
      match s.sessions.find? (fun o => o.tper == p.tsn && o.host == p.hsn) with
      | none => { s with answer := none }
      | some o => dr.method s o c

end Drive

/-! ## The drive's messages -/

/-- A status list: START LIST, status, two reserved numbers, END LIST. -/
def IsStatus (status : Nat) (ts : List Token) : Prop :=
  ∃ s x y, ts = [.startList, s, x, y, .endList] ∧ s.asNat = some status

/-- The tokens of an answer. Numbers and byte strings may have any form the grammar has for them;
SyncSession may have further arguments, and an unsuccessful call any results (but not END OF SESSION). -/
def Answer.Encodes : Answer → List Token → Prop
  | .sync host tper, ts => ∃ sm m h t more st,
      ts = [.call, sm, m, .startList, h, t] ++ more ++ [.endList, .endOfData] ++ st ∧
      sm.asBytes = some smUid ∧ m.asBytes = some mSyncSession ∧ h.asNat = some host ∧
      t.asNat = some tper ∧ IsStatus 0 st
  | .done, ts => ∃ st, ts = [.startList, .endList, .endOfData] ++ st ∧ IsStatus 0 st
  | .column n v, ts => ∃ c b st,
      ts = [.startList, .startList, .startName, c, b, .endName, .endList, .endList, .endOfData] ++ st ∧
      c.asNat = some n ∧ b.asBytes = some v ∧ IsStatus 0 st
  | .refused status, ts => ∃ pre st, ts = pre ++ st ∧ pre.head? ≠ some .endOfSession ∧
      IsStatus status st

/-- A block of at most 2048 bytes that says "not ready": outstanding data, no transfer possible yet. -/
def NotReady (data : Bytes) : Prop :=
  16 ≤ data.length ∧ data.length ≤ 2048 ∧ beVal (slice data 8 4) ≠ 0 ∧ beVal (slice data 12 4) = 0

/-- A block of at most 2048 bytes that carries the tokens `ts`: consistent non-zero lengths, nothing more
outstanding, payload from 56; empty atoms may stand between the tokens. -/
def CarriesTokens (data : Bytes) (ts : List Token) : Prop :=
  ∃ us : List Token, (∀ u ∈ us, u.WF) ∧ us.filter (fun u => u ≠ Token.emptyAtom) = ts ∧
    data.length ≤ 2048 ∧ 56 + (encodeAll us).length ≤ data.length ∧
    beVal (slice data 52 4) = (encodeAll us).length ∧ slice data 56 (encodeAll us).length = encodeAll us ∧
    beVal (slice data 40 4) ≠ 0 ∧ beVal (slice data 16 4) ≠ 0 ∧ beVal (slice data 8 4) = 0

/-- The environment behaves as the drive `dr`: `st` gives its state after each history. A new session gets
a number below 2^32; at most `maxWait` times the drive says "not ready". Nothing is said of requests the
library does not make: other transfer modes, protocols and ComIDs, sends that are no multiple of 512 bytes or
longer than 4096 bytes, receives into anything but 2048 zero bytes. -/
structure Conforming (dr : Drive) (maxWait : Nat) (env : Prog.Env SecReq SecRep)
    (st : Prog.Trace SecReq SecRep → DriveState) : Prop where
  send : ∀ h data secs p, data.length ≤ 4096 → 512 ∣ data.length → readPacket data = some p →
    p.comId = dr.comId.toNat →
    (env h (.sec true false 1 dr.comId data secs)).err = none ∧
    ∃ tper w, tper < 2 ^ 32 ∧ w ≤ maxWait ∧
      st (h ++ [(.sec true false 1 dr.comId data secs, env h (.sec true false 1 dr.comId data secs))])
        = { dr.perform tper (st h) p with wait := w }
  notReady : ∀ h secs a w, (st h).answer = some a → (st h).wait = w + 1 →
    (env h (.sec false false 1 dr.comId (zeros 2048) secs)).err = none ∧
    NotReady (env h (.sec false false 1 dr.comId (zeros 2048) secs)).data ∧
    st (h ++ [(.sec false false 1 dr.comId (zeros 2048) secs, env h (.sec false false 1 dr.comId (zeros 2048) secs))])
      = { st h with wait := w }
  ready : ∀ h secs a, (st h).answer = some a → (st h).wait = 0 →
    (env h (.sec false false 1 dr.comId (zeros 2048) secs)).err = none ∧
    (∃ ts, a.Encodes ts ∧ CarriesTokens (env h (.sec false false 1 dr.comId (zeros 2048) secs)).data ts) ∧
    st (h ++ [(.sec false false 1 dr.comId (zeros 2048) secs, env h (.sec false false 1 dr.comId (zeros 2048) secs))])
      = { st h with answer := none }
  now : ∀ h, st (h ++ [(.now, env h .now)]) = st h
  sleep : ∀ h ns, st (h ++ [(.sleep ns, env h (.sleep ns))]) = st h

/-- No two clock readings are more than 10 s apart. -/
def Prompt (env : Prog.Env SecReq SecRep) : Prop :=
  ∀ h h', (env h' .now).time ≤ (env h .now).time + 10000000000

end Dparm.Spec
