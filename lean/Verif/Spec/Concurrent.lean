import Verif.Model.Concurrent
import Verif.Spec.Client
import Verif.Spec.WinClient
/-!
# Specification: several clients at once
-/
namespace Dparm.Spec

/-- The operating system never returns a descriptor from `open` that is still open, whoever opened it. -/
def SysFreshFds (env : SysEnv AReq ARep) : Prop :=
  ∀ t i path, (env t i (.sys (.os (.openDev path)))).sys.os.err = none →
    (env t i (.sys (.os (.openDev path)))).sys.os.fd ∉ openFds (Tagged.whole t)

/-- Windows never hands out a handle that is still open, whoever holds it. -/
def SysFreshHandles (env : SysEnv WAReq WARep) : Prop :=
  ∀ t i q x, winGives q (env t i (.sys q)).sys = some x → x ∉ openRes (Tagged.whole t)

/-- The goroutine `i` has ended with this result. -/
def _root_.Dparm.Pool.Ended {Q R α : Type} (s : Pool Q R α) (i : Nat) (a : α) : Prop := s.threads[i]? = some (.done a)

end Dparm.Spec
