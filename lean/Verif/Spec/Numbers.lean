import Verif.Model.Base
/-!
# Specification: big- and little-endian numbers
Written without reference to the code: the usual positional value of a byte string.
-/
namespace Dparm.Spec
open Dparm

/-- Big-endian value of a byte string (most significant byte first). -/
def beVal : Bytes → Nat
  | [] => 0
  | b :: bs => b.toNat * 256 ^ bs.length + beVal bs

/-- Little-endian value of a byte string (least significant byte first). -/
def leVal : Bytes → Nat
  | [] => 0
  | b :: bs => b.toNat + 256 * leVal bs

/-- The `k`-byte big-endian representation of `n` (modulo `256^k`). -/
def beBytes : (k : Nat) → (n : Nat) → Bytes
  | 0, _ => []
  | k + 1, n => BitVec.ofNat 8 (n / 256 ^ k) :: beBytes k n

/-- The `k`-byte little-endian representation of `n` (modulo `256^k`). -/
def leBytes : (k : Nat) → (n : Nat) → Bytes
  | 0, _ => []
  | k + 1, n => BitVec.ofNat 8 n :: leBytes k (n / 256)

end Dparm.Spec
