import Verif.Model.Device
/-!
# Specification: what one command exchange looks like from outside

A conversation is the list of requests to the drive, the clock and the sleep function with their answers.
-/
namespace Dparm.Spec
open Dparm

/-- The answers of one polling round: clock reading, sleep, receive. -/
structure Round where
  clock : SecRep
  slept : SecRep
  got : SecRep

/-- A polling round as exchanges: read the clock, sleep 25 ms, receive 2048 bytes (into a zeroed buffer)
with the given protocol and ComID, 5 s timeout, no DMA. -/
def Round.exchanges (protocol : Byte) (comId : BitVec 16) (r : Round) : List (SecReq × SecRep) :=
  [(.now, r.clock), (.sleep 25000000, r.slept),
   (.sec false false protocol comId (zeros 2048) 5, r.got)]

/-- The 2048-byte response: what the drive delivered (at most 2048 bytes), zeros after it. -/
def Round.response (r : Round) : Bytes :=
  r.got.data.take 2048 ++ zeros (2048 - (r.got.data.take 2048).length)

/-- More than 10 s had passed since `t0` when the round began. -/
def Round.expired (t0 : Nat) (r : Round) : Prop := t0 + 10000000000 < r.clock.time

/-- The drive says more data is pending: outstanding count (bytes 8..11) not zero, minimum transfer
(bytes 12..15) zero. -/
def Round.pending (r : Round) : Prop :=
  beVal (slice r.response 8 4) ≠ 0 ∧ beVal (slice r.response 12 4) = 0

/-- A round after which polling goes on. -/
def Round.goesOn (t0 : Nat) (r : Round) : Prop := r.got.err = none ∧ ¬ r.expired t0 ∧ r.pending

/-- Parsing a response: `tokens` as in C10/C11. -/
def Round.parsed (r : Round) : Resp × Option GoErr := Resp.commit ⟨r.response, []⟩ r.got.behind

/-- Whether an exchange is a request to the drive. -/
def isDriveIO : SecReq × SecRep → Bool
  | (.sec .., _) => true
  | _ => false
/-- Whether an exchange is a receive from the drive. -/
def isReceive : SecReq × SecRep → Bool
  | (.sec false .., _) => true
  | _ => false
/-- Whether an exchange is a send to the drive. -/
def isSend : SecReq × SecRep → Bool
  | (.sec true .., _) => true
  | _ => false

/-- An environment with a clock that never runs backwards and in which a sleep really lasts: `clk h` is
the time after history `h`. -/
structure Clocked (env : Prog.Env SecReq SecRep) (clk : Prog.Trace SecReq SecRep → Nat) : Prop where
  now : ∀ h, (env h .now).time = clk h
  mono : ∀ h q, clk h ≤ clk (h ++ [(q, env h q)])
  sleep : ∀ h ns, clk h + ns ≤ clk (h ++ [(.sleep ns, env h (.sleep ns))])

end Dparm.Spec
