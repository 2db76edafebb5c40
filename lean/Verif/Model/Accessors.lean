import Verif.Model.DriveHandle
/-!
# Small exported accessors

ata/types.go, scsi/types.go, common/errors.go, plat_win/storage_types.go, tcg/types.go.
-/
namespace Dparm
open Spec (leVal)

/-! ## Capability bits of the decoded ATA identity -/

namespace Layout
/-- Index of `Word59.B` (ata/types.go:160-162). -/
abbrev ixWord59B : Nat := 26
/-- Index of `DataSetManagementFeature.A` (ata/types.go:278-280). -/
abbrev ixDsm : Nat := 84
end Layout

namespace AtaIdentity
/-- The byte `Word59.B` of the record (ata/types.go:160-162). -/
def word59B (fs : List Bytes) : Byte := (field fs Layout.ixWord59B).getD 0 0#8
/-- ata/types.go:173-175 -/
def isMultiSectorSettingValid (fs : List Bytes) : Bool := word59B fs &&& 0x01#8 != 0#8
/-- ata/types.go:177-179 -/
def isBlockEraseExtSupported (fs : List Bytes) : Bool := word59B fs &&& 0x80#8 != 0#8
/-- ata/types.go:181-183 -/
def isOverwriteExtSupported (fs : List Bytes) : Bool := word59B fs &&& 0x40#8 != 0#8
/-- ata/types.go:185-187 -/
def isCryptoScrambleExtSupported (fs : List Bytes) : Bool := word59B fs &&& 0x20#8 != 0#8
/-- ata/types.go:189-191 -/
def isSanitizeFeatureSetSupported (fs : List Bytes) : Bool := word59B fs &&& 0x10#8 != 0#8
/-- ata/types.go:196-198 -/
def isSanitizeOperationStandardCompliant (fs : List Bytes) : Bool := word59B fs &&& 0x08#8 != 0#8
/-- ata/types.go:200-202 -/
def isSanitizeAntifreezeLockExtSupported (fs : List Bytes) : Bool := word59B fs &&& 0x04#8 != 0#8
/-- A 16-bit field, decoded little-endian (internal/utils.go:17-22). -/
def u16 (fs : List Bytes) (k : Nat) : BitVec 16 := BitVec.ofNat 16 (leVal (field fs k))
/-- ata/types.go:230-232 `CommandSetSupport.GetSmartCommands` -/
def smartSupported (fs : List Bytes) : Bool := u16 fs Layout.ixSupport &&& 0x0001#16 != 0#16
/-- ata/types.go:240-242 `CommandSetActive.GetSmartCommands` -/
def smartActive (fs : List Bytes) : Bool := u16 fs Layout.ixActive &&& 0x0001#16 != 0#16
/-- ata/types.go:282-284 `DataSetManagementFeature.GetTrim` -/
def getTrim (fs : List Bytes) : Bool := u16 fs Layout.ixDsm &&& 0x01#16 != 0#16
end AtaIdentity

/-! ## Sense data -/

/-- scsi/types.go:11-22 `SENSE_DATA`, as its 18 bytes in memory: `B00` is byte 0, `B02` byte 2, the additional sense
code byte 12 and its qualifier byte 13. -/
structure SenseData where
  bytes : Bytes
namespace SenseData
/-- scsi/types.go:26-28 -/
def getErrorCode (s : SenseData) : Byte := s.bytes.getD 0 0#8 &&& 0x7f#8
/-- scsi/types.go:30-32 -/
def isValid (s : SenseData) : Bool := s.bytes.getD 0 0#8 &&& 0x80#8 != 0#8
/-- scsi/types.go:34-36 -/
def getSenseKey (s : SenseData) : Byte := s.bytes.getD 2 0#8 &&& 0x0f#8
/-- scsi/types.go:38-40 -/
def isIncorrectLength (s : SenseData) : Bool := s.bytes.getD 2 0#8 &&& 0x20#8 != 0#8
/-- scsi/types.go:42-44 -/
def isEndOfMedia (s : SenseData) : Bool := s.bytes.getD 2 0#8 &&& 0x40#8 != 0#8
/-- scsi/types.go:46-48 -/
def isFileMark (s : SenseData) : Bool := s.bytes.getD 2 0#8 &&& 0x80#8 != 0#8
/-- scsi/types.go:18 `AdditionalSenseCode` -/
def asc (s : SenseData) : Byte := s.bytes.getD 12 0#8
/-- scsi/types.go:19 `AdditionalSenseCodeQualifier` -/
def ascq (s : SenseData) : Byte := s.bytes.getD 13 0#8
end SenseData

/-! ## Errors -/

/-- common/errors.go:18-22 `NestedError`. -/
structure NestedError where
  message : Bytes
  cause : GoErr

/-- common/errors.go:24-29 `NewNestedError`; `render` is the text of an error (`cause.Error()`). A nil cause is a nil
interface: calling its method panics. -/
def newNestedError (render : GoErr → Bytes) (msg : Bytes) (cause : Option GoErr) : P NestedError :=
  match cause with
  | none => .panic
  | some c => .ret { message := msg ++ [0x3a, 0x20] ++ render c, cause := c }

/-- common/errors.go:31-33 `Cause` -/
def NestedError.getCause (e : NestedError) : GoErr := e.cause
/-- common/errors.go:35-37 `Error` -/
def NestedError.error (e : NestedError) : Bytes := e.message

/-! ## Windows tables -/

/-- plat_win/storage_types.go:118-161 `StorageBusTypeToString` over the constants 77-100: the cases in source order. -/
def busTypeString (b : Byte) : String :=
  if b = 0#8 then "Unknown" else if b = 1#8 then "Scsi" else if b = 2#8 then "Atapi" else if b = 3#8 then "Ata"
  else if b = 4#8 then "1394" else if b = 5#8 then "Ssa" else if b = 6#8 then "Fibre" else if b = 7#8 then "Usb"
  else if b = 8#8 then "RAID" else if b = 9#8 then "iScsi" else if b = 10#8 then "Sas" else if b = 11#8 then "Sata"
  else if b = 12#8 then "Sd" else if b = 13#8 then "Mmc" else if b = 14#8 then "Virtual"
  else if b = 15#8 then "FileBackedVirtual" else if b = 16#8 then "Spaces" else if b = 17#8 then "Nvme"
  else if b = 18#8 then "SCM" else if b = 19#8 then "Ufs" else ""

/-! ## TCG version nibble -/


end Dparm
