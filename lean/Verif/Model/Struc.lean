import Verif.Model.Buffer
/-!
# struc.Unpack

The library `github.com/lunixbochs/struc` is not part of the repository. Modelled as its documentation
and source say: `Unpack` goes through the flattened list of fields in declaration order, reads each one
with one `io.ReadFull` of the field's size, stops at the first error, and decodes integers with the
record's byte order (big-endian by default, little-endian with `internal.GetStrucOptions`,
internal/utils.go:17-22). The model keeps the bytes of every field; decoding is a byte-order function.
-/
namespace Dparm

/-- `struc.Unpack` of a record with the given field sizes: the fields' bytes, or the first error. -/
def unpackFields : List Nat → WBuf → P (Res (List Bytes))
  | [], _ => .ret (.ok [])
  | n :: ns, b => do
    let (b', d, e) ← b.readFull n
    match e with
    | some e => .ret (.err e)
    | none =>
      match ← unpackFields ns b' with
      | .ok fs => .ret (.ok (d :: fs))
      | .err e => .ret (.err e)
      | .panic => .ret .panic

/-- `struc.Unpack(internal.NewWrappedBuffer(data), &record)`. -/
def unpackBytes (sizes : List Nat) (data : Bytes) : P (Res (List Bytes)) :=
  unpackFields sizes { mem := data, limit := data.length, wpos := 0, rpos := 0 }

end Dparm
