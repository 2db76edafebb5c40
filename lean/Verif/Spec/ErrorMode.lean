import Verif.Model.Concurrent
/-!
# Specification: the error mode of the process

`SetErrorMode` changes the error mode of the whole process and returns the mode before.
-/
namespace Dparm.Spec

/-- A change of the error mode: the new mode, and what Windows answered. -/
def modeChange : WAReq × WARep → Option (Nat × Nat)
  | (.sys (.setErrorMode m), r) => some (m, r.sys.n)
  | _ => none

/-- The changes of the error mode, in order. -/
def modeChanges (t : Prog.Trace WAReq WARep) : List (Nat × Nat) := t.filterMap modeChange

/-- The error mode of a process that started with `m₀`: the last one set. -/
def errorMode (m₀ : Nat) (t : Prog.Trace WAReq WARep) : Nat :=
  match (modeChanges t).getLast? with
  | some x => x.1
  | none => m₀

/-- Windows answers with the mode before. -/
def TellsMode (m₀ : Nat) (env : Prog.Env WAReq WARep) : Prop :=
  ∀ t m, (env t (.sys (.setErrorMode m))).sys.n = errorMode m₀ t

/-- The same, whoever asks. -/
def SysTellsMode (m₀ : Nat) (env : SysEnv WAReq WARep) : Prop :=
  ∀ t i m, (env t i (.sys (.setErrorMode m))).sys.n = errorMode m₀ (Tagged.whole t)

/-- A call of `EnumVolumes`. -/
def _root_.Dparm.WinClientCall.enumsVolumes : WinClientCall → Bool
  | .enumVolumes _ _ => true
  | _ => false

end Dparm.Spec
