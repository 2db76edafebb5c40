/-!
# Base vocabulary of the model

Bytes, Go error values, panics, byte-order helpers and request trees for code that performs I/O.
-/
namespace Dparm

/-- Go `byte`/`uint8`. -/
abbrev Byte := BitVec 8
/-- Go `[]byte` / `string`: the content only; aliasing is modelled by returning new contents. -/
abbrev Bytes := List Byte

/-- Go error values, distinguished as far as callers can observe them.
`msg` covers `errors.New`/`fmt.Errorf` (compared by text only in common/drive_handle.go:179). -/
inductive GoErr where
  /-- `io.EOF` -/
  | eof
  /-- `io.ErrUnexpectedEOF` -/
  | unexpectedEof
  /-- an error built from a message -/
  | msg (s : String)
  /-- tcg/command.go:12 `ErrInvalidParamType` -/
  | invalidParamType
  /-- tcg/response.go:13 `ErrIllegalResponse` -/
  | illegalResponse
  /-- tcg/errors.go:7-13 `TcgError{Status}` -/
  | tcg (status : Nat)
  /-- common/drive_handle.go:24 `ErrNotSupportThisDriver` -/
  | notSupportThisDriver
  /-- common/errors.go:7-12 `DparmError` with driver status and sense bytes -/
  | dparm (status : Byte) (sense : Bytes)
  /-- an operating-system error number -/
  | errno (n : Nat)
deriving DecidableEq, Repr

/-- Outcome of a Go call that may panic. The returned value includes the error value. -/
inductive P (α : Type u) where
  | panic : P α
  | ret (a : α) : P α
deriving DecidableEq, Repr

namespace P
/-- sequencing: a panic propagates -/
def bind {α : Type u} {β : Type v} : P α → (α → P β) → P β
  | .panic, _ => .panic
  | .ret a, f => f a
instance : Monad P where
  pure := P.ret
  bind := P.bind
@[simp] theorem ret_bind {α β : Type u} (a : α) (f : α → P β) : (P.ret a >>= f) = f a := rfl
@[simp] theorem panic_bind {α β : Type u} (f : α → P β) : ((P.panic : P α) >>= f) = P.panic := rfl
@[simp] theorem pure_eq {α : Type u} (a : α) : (pure a : P α) = P.ret a := rfl
end P

/-- Outcome of a Go function returning `(value, error)`: value on nil error, error, or panic.
Used where the value returned beside a non-nil error is the zero value or ignored by every caller. -/
inductive Res (α : Type u) where
  | ok (a : α) : Res α
  | err (e : GoErr) : Res α
  | panic : Res α
deriving DecidableEq, Repr

namespace Res
/-- sequencing: errors and panics propagate (`if err != nil { return err }`) -/
def bind {α : Type u} {β : Type v} : Res α → (α → Res β) → Res β
  | .ok a, f => f a
  | .err e, _ => .err e
  | .panic, _ => .panic
instance : Monad Res where
  pure := Res.ok
  bind := Res.bind
@[simp] theorem ok_bind {α β : Type u} (a : α) (f : α → Res β) : (Res.ok a >>= f) = f a := rfl
@[simp] theorem err_bind {α β : Type u} (e : GoErr) (f : α → Res β) :
    ((Res.err e : Res α) >>= f) = Res.err e := rfl
@[simp] theorem panic_bind {α β : Type u} (f : α → Res β) :
    ((Res.panic : Res α) >>= f) = Res.panic := rfl
@[simp] theorem pure_eq {α : Type u} (a : α) : (pure a : Res α) = Res.ok a := rfl
def map {α : Type u} {β : Type v} (f : α → β) : Res α → Res β
  | .ok a => .ok (f a)
  | .err e => .err e
  | .panic => .panic
end Res

/-- Overwrite `p.length` bytes of `m` from index `i` (Go `copy(m[i:i+len(p)], p)` in range). -/
def copyAt (m : Bytes) (i : Nat) (p : Bytes) : Bytes :=
  m.take i ++ p ++ m.drop (i + p.length)

/-- `n` bytes starting at `i` (Go `m[i:i+n]`, in range). -/
def slice (m : Bytes) (i n : Nat) : Bytes := (m.drop i).take n

/-- `n` zero bytes (a fresh or cleared buffer). -/
def zeros (n : Nat) : Bytes := List.replicate n 0
@[simp] theorem zeros_length (n : Nat) : (zeros n).length = n := by simp [zeros]
@[simp] theorem getElem_zeros (n i : Nat) (h : i < (zeros n).length) : (zeros n)[i] = 0 := by
  simp [zeros]
theorem getElem?_zeros (n i : Nat) : (zeros n)[i]? = if i < n then some 0 else none := by
  simp [zeros, List.getElem?_replicate]
theorem drop_zeros (n k : Nat) : (zeros n).drop k = zeros (n - k) := by simp [zeros]
theorem take_zeros (n k : Nat) : (zeros n).take k = zeros (min k n) := by simp [zeros]
theorem zeros_append (a b : Nat) : zeros a ++ zeros b = zeros (a + b) := by
  simp [zeros, List.replicate_append_replicate]

/-- A request tree: code that asks its environment questions `Q` and receives replies `R`. -/
inductive Prog (Q R : Type) (α : Type) where
  | done (a : α) : Prog Q R α
  | ask (q : Q) (k : R → Prog Q R α) : Prog Q R α

namespace Prog
variable {Q R Q' R' α β : Type}

def bind : Prog Q R α → (α → Prog Q R β) → Prog Q R β
  | .done a, f => f a
  | .ask q k, f => .ask q (fun r => (k r).bind f)

instance : Monad (Prog Q R) where
  pure := Prog.done
  bind := Prog.bind

@[simp] theorem done_bind (a : α) (f : α → Prog Q R β) : (Prog.done a >>= f) = f a := rfl
@[simp] theorem ask_bind (q : Q) (k : R → Prog Q R α) (f : α → Prog Q R β) :
    (Prog.ask q k >>= f) = Prog.ask q (fun r => k r >>= f) := rfl
@[simp] theorem pure_eq (a : α) : (pure a : Prog Q R α) = Prog.done a := rfl

/-- The complete history of exchanges, oldest first. -/
abbrev Trace (Q R : Type) := List (Q × R)
/-- An environment: the next reply as an arbitrary function of the whole history and the request. -/
abbrev Env (Q R : Type) := Trace Q R → Q → R

/-- Run a program after history `h`; returns the result and the exchanges this run added. -/
def run (env : Env Q R) : Trace Q R → Prog Q R α → α × Trace Q R
  | _, .done a => (a, [])
  | h, .ask q k =>
    let r := env h q
    let res := run env (h ++ [(q, r)]) (k r)
    (res.1, (q, r) :: res.2)

@[simp] theorem run_done (env : Env Q R) (h : Trace Q R) (a : α) :
    run env h (.done a) = (a, []) := rfl

theorem run_ask (env : Env Q R) (h : Trace Q R) (q : Q) (k : R → Prog Q R α) :
    run env h (.ask q k) =
      ((run env (h ++ [(q, env h q)]) (k (env h q))).1,
       (q, env h q) :: (run env (h ++ [(q, env h q)]) (k (env h q))).2) := rfl

/-- Running a sequence: the second part runs after the first part's exchanges. -/
theorem run_bind (env : Env Q R) (h : Trace Q R) (p : Prog Q R α) (f : α → Prog Q R β) :
    run env h (p >>= f) =
      ((run env (h ++ (run env h p).2) (f (run env h p).1)).1,
       (run env h p).2 ++ (run env (h ++ (run env h p).2) (f (run env h p).1)).2) := by
  induction p generalizing h with
  | done a => simp
  | ask q k ih =>
    simp only [ask_bind, run_ask]
    rw [ih]
    simp [List.append_assoc]

/-- Replace each request of an upper layer by a lower-layer program. -/
def interp (f : Q → Prog Q' R' R) : Prog Q R α → Prog Q' R' α
  | .done a => .done a
  | .ask q k => f q >>= fun r => interp f (k r)

end Prog

end Dparm
