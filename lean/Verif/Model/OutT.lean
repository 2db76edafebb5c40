import Verif.Model.Base
/-!
# Programs with outcomes

`OutT Q R α`: a request tree whose result is a returned value, a panic, or "still running after the
given number of loop rounds" (only loops that wait for a device have such a bound; the theorems say when
it is not reached).
-/
namespace Dparm

/-- Outcome of a call. -/
inductive Out (α : Type) where
  | ret (a : α)
  | panic
  | running
deriving DecidableEq, Repr

/-- Programs asking `Q`, answered with `R`, ending in an outcome. -/
def OutT (Q R : Type) (α : Type) : Type := Prog Q R (Out α)

namespace OutT
variable {Q R Q' R' α β : Type}

/-- continue with a returned value; panics and unfinished loops propagate -/
def cont (f : α → OutT Q R β) : Out α → Prog Q R (Out β)
  | .ret a => f a
  | .panic => .done .panic
  | .running => .done .running

def bind (p : OutT Q R α) (f : α → OutT Q R β) : OutT Q R β := Prog.bind p (cont f)

instance : Monad (OutT Q R) where
  pure a := Prog.done (.ret a)
  bind := OutT.bind

/-- return -/
def ret (a : α) : OutT Q R α := Prog.done (.ret a)
/-- ask the environment once -/
def ask (q : Q) : OutT Q R R := Prog.ask q (fun r => Prog.done (.ret r))
/-- panic -/
def panic : OutT Q R α := Prog.done .panic
/-- loop bound used up -/
def running : OutT Q R α := Prog.done .running
/-- a pure call that may panic -/
def lift : P α → OutT Q R α
  | .panic => OutT.panic
  | .ret a => OutT.ret a

/-- Run; result and exchanges. -/
def run (env : Prog.Env Q R) (h : Prog.Trace Q R) (p : OutT Q R α) : Out α × Prog.Trace Q R :=
  Prog.run env h p

variable (env : Prog.Env Q R) (h : Prog.Trace Q R)

@[simp] theorem run_pure (a : α) : run env h (pure a : OutT Q R α) = (.ret a, []) := rfl
@[simp] theorem run_ret (a : α) : run env h (ret a : OutT Q R α) = (.ret a, []) := rfl
@[simp] theorem run_panic : run env h (panic : OutT Q R α) = (.panic, []) := rfl
@[simp] theorem run_running : run env h (running : OutT Q R α) = (.running, []) := rfl
@[simp] theorem run_ask (q : Q) : run env h (ask q) = (.ret (env h q), [(q, env h q)]) := rfl
@[simp] theorem run_lift_ret (a : α) : run env h (lift (.ret a) : OutT Q R α) = (.ret a, []) := rfl
@[simp] theorem run_lift_panic : run env h (lift (.panic) : OutT Q R α) = (.panic, []) := rfl

theorem run_bind (p : OutT Q R α) (f : α → OutT Q R β) :
    run env h (p >>= f) =
      match run env h p with
      | (.ret a, t) => ((run env (h ++ t) (f a)).1, t ++ (run env (h ++ t) (f a)).2)
      | (.panic, t) => (.panic, t)
      | (.running, t) => (.running, t) := by
  have := Prog.run_bind (α := Out α) (β := Out β) env h p (cont f)
  unfold run
  show Prog.run env h (Prog.bind p (cont f)) = _
  refine Eq.trans this ?_
  rcases hp : Prog.run env h p with ⟨o, t⟩
  cases o <;> simp [cont]

theorem run_bind_ret {p : OutT Q R α} {f : α → OutT Q R β} {a : α} {t : Prog.Trace Q R}
    (hp : run env h p = (.ret a, t)) :
    run env h (p >>= f) = ((run env (h ++ t) (f a)).1, t ++ (run env (h ++ t) (f a)).2) := by
  rw [run_bind, hp]

theorem run_ask_bind (q : Q) (f : R → OutT Q R β) :
    run env h (ask q >>= f) =
      ((run env (h ++ [(q, env h q)]) (f (env h q))).1,
       (q, env h q) :: (run env (h ++ [(q, env h q)]) (f (env h q))).2) := by
  rw [run_bind_ret env h (run_ask env h q)]
  rfl

/-- A request whose answer is not looked at. -/
def call (q : Q) : OutT Q R Unit := do
  let _ ← ask q
  ret ()

theorem run_call (q : Q) : run env h (call q) = (.ret (), [(q, env h q)]) := by
  unfold call
  rw [run_ask_bind]
  rfl

/-- The outcome after a deferred call: that of the function, unless the call itself panics. -/
def after (o : Out α) : Out Unit → Out α
  | .ret _ => o
  | .panic => .panic
  | .running => .running

/-- `defer d` with `p` as the rest of the function: `d` runs after `p` returned or panicked (a panic then goes on); a
panic of `d` itself is a panic. While `p` is still running `d` has not run. -/
def defer (p : OutT Q R α) (d : OutT Q R Unit) : OutT Q R α :=
  Prog.bind p (fun o => match o with
    | .running => .done .running
    | .ret a => Prog.bind d (fun x => .done (after (.ret a) x))
    | .panic => Prog.bind d (fun x => .done (after .panic x)))

theorem run_after {d : OutT Q R Unit} {u : Prog.Trace Q R} (hd : run env h d = (.ret (), u)) (o : Out α) :
    Prog.run env h (Prog.bind d (fun x => .done (after o x))) = (o, u) := by
  refine (Prog.run_bind (α := Out Unit) (β := Out α) env h d _).trans ?_
  unfold run at hd
  rw [hd]
  simp [Prog.run, after]

theorem run_defer_ret {p : OutT Q R α} {d : OutT Q R Unit} {a : α} {t u : Prog.Trace Q R} (hp : run env h p = (.ret a, t))
    (hd : run env (h ++ t) d = (.ret (), u)) : run env h (defer p d) = (.ret a, t ++ u) := by
  refine (Prog.run_bind (α := Out α) (β := Out α) env h p _).trans ?_
  unfold run at hp
  rw [hp]
  simp only
  rw [run_after env (h ++ t) hd]

theorem run_defer_panic {p : OutT Q R α} {d : OutT Q R Unit} {t u : Prog.Trace Q R} (hp : run env h p = (.panic, t))
    (hd : run env (h ++ t) d = (.ret (), u)) : run env h (defer p d) = (.panic, t ++ u) := by
  refine (Prog.run_bind (α := Out α) (β := Out α) env h p _).trans ?_
  unfold run at hp
  rw [hp]
  simp only
  rw [run_after env (h ++ t) hd]

theorem run_defer_running {p : OutT Q R α} {d : OutT Q R Unit} {t : Prog.Trace Q R} (hp : run env h p = (.running, t)) :
    run env h (defer p d) = (.running, t) := by
  refine (Prog.run_bind (α := Out α) (β := Out α) env h p _).trans ?_
  unfold run at hp
  rw [hp]
  simp [Prog.run]

theorem run_defer_ne_running {p : OutT Q R α} {d : OutT Q R Unit} (hp : (run env h p).1 ≠ .running)
    (hd : ∀ h, (run env h d).1 ≠ .running) : (run env h (defer p d)).1 ≠ .running := by
  have key : ∀ (o : Out α) (h : Prog.Trace Q R), o ≠ .running →
      (Prog.run env h (Prog.bind d (fun x => .done (after o x)))).1 ≠ .running := by
    intro o h ho
    rw [show Prog.run env h (Prog.bind d (fun x => .done (after o x))) = _ from
      Prog.run_bind (α := Out Unit) (β := Out α) env h d _]
    have := hd h
    unfold run at this
    rcases hr : Prog.run env h d with ⟨x, u⟩
    rw [hr] at this
    cases x <;> simp_all [Prog.run, after]
  rw [show run env h (defer p d) = _ from Prog.run_bind (α := Out α) (β := Out α) env h p _]
  unfold run at hp
  rcases hr : Prog.run env h p with ⟨o, t⟩
  rw [hr] at hp
  cases o with
  | running => exact absurd rfl hp
  | ret a => exact key (.ret a) (h ++ t) (by simp)
  | panic => exact key .panic (h ++ t) (by simp)

/-- Replace each request of an upper layer by a lower-layer program (which may panic). -/
def interp (f : Q → OutT Q' R' R) : Prog Q R (Out α) → OutT Q' R' α
  | .done a => Prog.done a
  | .ask q k => f q >>= fun r => interp f (k r)

end OutT
end Dparm
