import Verif.Model.Base
/-!
# Specification: bit fields of a byte
-/
namespace Dparm.Spec
open Dparm

/-- Bits `lo .. lo+w-1` of `new` are the low `w` bits of `v`; all other bits are those of `old`. -/
def StoredAt (old new v : Byte) (lo w : Nat) : Prop :=
  ∀ i, i < 8 → new.getLsbD i = if lo ≤ i ∧ i < lo + w then v.getLsbD (i - lo) else old.getLsbD i

/-- `v` is the value of bits `lo .. lo+w-1` of `b`. -/
def ReadAt (b v : Byte) (lo w : Nat) : Prop := v.toNat = b.toNat / 2 ^ lo % 2 ^ w

/-- Bit `lo` of `new` is `v`; all other bits are those of `old`. -/
def FlagAt (old new : Byte) (v : Bool) (lo : Nat) : Prop :=
  ∀ i, i < 8 → new.getLsbD i = if i = lo then v else old.getLsbD i

end Dparm.Spec
