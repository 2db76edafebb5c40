import Verif.Model.Device
import Verif.Model.Struc
import Verif.Model.Layout
/-!
# common/drive_handle.go TcgDiscovery0 and tcg/types.go feature decoders
-/
namespace Dparm
open Spec (beVal)

namespace Level0

/-- common/drive_handle.go:216-233: the flag set for a feature code. -/
def mark (i : Level0) (fc : BitVec 16) : Level0 :=
  if fc = FcTPer then { i with tper := true }
  else if fc = FcLocking then { i with locking := true }
  else if fc = FcGeometryReporting then { i with geometry := true }
  else if fc = FcOpalSscV100 then { i with opalV100 := true }
  else if fc = FcOpalSscV200 then { i with opalV200 := true }
  else if fc = FcEnterprise then { i with enterprise := true }
  else if fc = FcSingleUser then { i with singleUser := true }
  else if fc = FcDataStore then { i with dataStore := true }
  else i

/-- The content of the map after an assignment (common/drive_handle.go:235). -/
def put (i : Level0) (fc : BitVec 16) (f : RawFeat) : Level0 :=
  { i with raw := fun c => if c = fc then some f else i.raw c }

/-- common/drive_handle.go:235: map assignment; panics on a nil map. -/
def store (i : Level0) (fc : BitVec 16) (f : RawFeat) : P Level0 :=
  if i.made then .ret (i.put fc f) else .panic

end Level0

/-- common/drive_handle.go:207 `copy(currentUnion.Buffer[:], bufferRef[offset:])`: 16 bytes, the tail of
the previous content staying when fewer remain. -/
def unionCopy (union buf : Bytes) (off : Nat) : Bytes :=
  (buf.drop off).take 16 ++ union.drop ((buf.drop off).take 16).length

/-- common/drive_handle.go:209-211 `bufferRef[offset:offset+len+4]`: a sub-slice of the buffer. -/
def rawItem (buf : Bytes) (behind : Nat → Byte) (off len : Nat) : RawFeat :=
  { data := slice buf off len, behind := fun i => memAt (buf.drop (off + len)) behind i }

/-- common/drive_handle.go:206-237: the loop. `behind` is the memory behind the 2048-byte buffer.
`ToBasic` (tcg/types.go:193-199) reads 4 of the union's 16 bytes and cannot fail: code big-endian at 0,
length at 3. -/
def discoveryWalk (buf : Bytes) (behind : Nat → Byte) (length : Nat) (off : Nat) (union : Bytes)
    (info : Level0) : P Level0 :=
  if off < length then
    let u := unionCopy union buf off
    let fc : BitVec 16 := BitVec.ofNat 16 (beVal (slice u 0 2))
    let n : Nat := (u.getD 3 0).toNat
    -- bufferRef[offset : offset+len+4]
    if off + n + 4 > buf.length then .panic
    else
      match (info.mark fc).store fc (rawItem buf behind off (n + 4)) with
      | .panic => .panic
      | .ret info' => discoveryWalk buf behind length (off + n + 4) u info'
  else .ret info
termination_by length - off

/-- common/drive_handle.go:187-239: parsing the discovery response (`buf` is the 2048-byte buffer). The
header record has 32 bytes (`struc.Sizeof`), so unpacking it from the buffer cannot fail; `Length` is the
big-endian word at 0. -/
def discoveryParse (info : Level0) (buf : Bytes) (behind : Nat → Byte) : P (Level0 × Option GoErr) :=
  let length := beVal (slice buf 0 4)
  if buf.length < length then .ret (info, some (.msg "invalid data: length overflow"))
  else match discoveryWalk buf behind length Layout.header.sum (zeros 16) info with
    | .panic => .panic
    | .ret info' => .ret (info', none)

/-- tcg/types.go:193-263: a decoder `To...` of the 16-byte union: `struc.Unpack` of the record. -/
def unionDecode (layout : List Nat) (union : Bytes) : P (Res (List Bytes)) := unpackBytes layout union

/-- tcg/types.go:31-33 `VersionField.GetVersion` of the byte `B02`. -/
def getVersion (b02 : Byte) : Byte := (b02 >>> 4) &&& 0x0f#8

/-- tcg/types.go:35-37 `VersionField.SetVersion`: the new `B02`. -/
def setVersion (b02 version : Byte) : Byte := (b02 &&& 0x0f#8) ||| ((version &&& 0x0F#8) <<< 4)

/-- The `i`th decoded field as a number (`big` in the `struc` tags; without a byte order `struc` is big-endian too). -/
def fieldNum (w : Nat) (fs : List Bytes) (i : Nat) : BitVec w := BitVec.ofNat w (beVal (fs.getD i []))

/-- The decoded record from the decoded fields. -/
def decodeAs {α : Type} (layout : List Nat) (union : Bytes) (mk : List Bytes → α) : P (Res α) :=
  match unionDecode layout union with
  | .ret (.ok fs) => .ret (.ok (mk fs))
  | .ret (.err e) => .ret (.err e)
  | .ret .panic => .panic
  | .panic => .panic

/-- tcg/types.go:50-56 `Discovery0BasicFeature` -/
structure BasicFeature where
  code : BitVec 16
  b02 : Byte
  length : Byte
  deriving DecidableEq, Repr

/-- tcg/types.go:193-199 `ToBasic` -/
def toBasic (u : Bytes) : P (Res BasicFeature) :=
  decodeAs Layout.basic u (fun f => { code := fieldNum 16 f 0, b02 := fieldNum 8 f 1, length := fieldNum 8 f 2 })

/-- tcg/types.go:119-125 `Discovery0OpalSSCFeatureV100` -/
structure OpalV100Feature extends BasicFeature where
  baseComID : BitVec 16
  numComIDs : BitVec 16
  deriving DecidableEq, Repr

/-- tcg/types.go:225-231 `ToOpalSscV100` -/
def toOpalV100 (u : Bytes) : P (Res OpalV100Feature) :=
  decodeAs Layout.opalV100 u (fun f => { code := fieldNum 16 f 0, b02 := fieldNum 8 f 1, length := fieldNum 8 f 2,
                                         baseComID := fieldNum 16 f 3, numComIDs := fieldNum 16 f 4 })

/-- tcg/types.go:165-174 `Discovery0SingleUserModeFeature` (the reserved fields left out). -/
structure SingleUserFeature extends BasicFeature where
  numberLockingObj : BitVec 32
  b08 : Byte
  deriving DecidableEq, Repr

/-- tcg/types.go:249-255 `ToSingleUserMode` -/
def toSingleUser (u : Bytes) : P (Res SingleUserFeature) :=
  decodeAs Layout.singleUser u (fun f => { code := fieldNum 16 f 0, b02 := fieldNum 8 f 1, length := fieldNum 8 f 2,
                                           numberLockingObj := fieldNum 32 f 3, b08 := fieldNum 8 f 4 })

/-- tcg/types.go:179-187 `Discovery0DataStoreTableFeature` (the reserved field left out). -/
structure DataStoreFeature extends BasicFeature where
  maxTables : BitVec 16
  maxSizeTables : BitVec 32
  tableSizeAlignment : BitVec 32
  deriving DecidableEq, Repr

/-- tcg/types.go:257-263 `ToDataStoreTable` -/
def toDataStore (u : Bytes) : P (Res DataStoreFeature) :=
  decodeAs Layout.dataStore u (fun f => { code := fieldNum 16 f 0, b02 := fieldNum 8 f 1, length := fieldNum 8 f 2,
                                          maxTables := fieldNum 16 f 4, maxSizeTables := fieldNum 32 f 5,
                                          tableSizeAlignment := fieldNum 32 f 6 })

end Dparm
