import Verif.Model.Base
/-!
# Specification: records cut out of a byte string
-/
namespace Dparm.Spec
open Dparm

/-- Consecutive pieces of the given sizes from the start of a byte string. -/
def pieces : List Nat → Bytes → List Bytes
  | [], _ => []
  | n :: ns, d => d.take n :: pieces ns (d.drop n)

end Dparm.Spec
