import Verif.Model.OutT
import Verif.Spec.Numbers
/-!
# internal/direct_mbr/table.go
-/
namespace Dparm
open Spec (leVal)

/-- internal/direct_mbr/table.go:37-74 `tableFromBytes`: the identifier (the other fields of the result are constants).
Constants lines 19-27. -/
def mbrFromBytes (b : Bytes) : Res (BitVec 32) :=
  if b.length ≠ 512 then .err (.msg "data for partition was % bytes instead of expected %")
  else if b.drop 510 ≠ [0x55#8, 0xaa#8] then .err (.msg "invalid MBR Signature %")
  else .ok (BitVec.ofNat 32 (leVal (slice b 440 4)))

/-- `f.ReadAt(b, 0)`: bytes stored at the start of `b`, count and error returned. -/
structure ReadAtRep where
  data : Bytes := []
  n : Nat := 0
  err : Option GoErr := none

/-- internal/direct_mbr/table.go:77-88 `Read`; the request is the length of the buffer, the offset is 0. -/
def mbrRead : OutT Nat ReadAtRep (Res (BitVec 32)) := do
  let r ← OutT.ask 512
  match r.err with
  | some _ => OutT.ret (.err (.msg "error reading MBR from file: %"))
  | none =>
    if r.n ≠ 512 then OutT.ret (.err (.msg "read only % bytes of MBR from file instead of expected %"))
    else OutT.ret (mbrFromBytes (copyAt (zeros 512) 0 (r.data.take 512)))

end Dparm
