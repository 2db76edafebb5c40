import Verif.Model.Base
/-!
# SCSI command descriptor blocks

plat_linux/types_ata_passthu.go, plat_win/ata_passthu_types.go (same text), plat_linux/types_cdb.go,
plat_linux/sg_types.go.
-/
namespace Dparm

/-- The two flag bytes `B01`, `B02` that ATA_PASSTHROUGH12 and ATA_PASSTHROUGH16 share
(plat_linux/types_ata_passthu.go:33-46,116-133 and plat_win/ata_passthu_types.go:33-46,116-133). The accessors below have the same text for both records. -/
structure PassFlags where
  b01 : Byte := 0
  b02 : Byte := 0
deriving DecidableEq, Repr

namespace PassFlags
/-- plat_linux/types_ata_passthu.go:48-50,147-149 and plat_win/ata_passthu_types.go:48-50,147-149 -/
def getProtocol (c : PassFlags) : Byte := (c.b01 >>> 1) &&& 0x0f#8
/-- plat_linux/types_ata_passthu.go:52-54,151-153 and plat_win/ata_passthu_types.go:52-54,151-153 -/
def setProtocol (c : PassFlags) (v : Byte) : PassFlags := { c with b01 := (c.b01 &&& 0xe1#8) ||| ((v &&& 0x0f#8) <<< 1) }
/-- plat_linux/types_ata_passthu.go:56-58,155-157 and plat_win/ata_passthu_types.go:56-58,155-157 -/
def getMultipleCount (c : PassFlags) : Byte := (c.b01 >>> 5) &&& 0x07#8
/-- plat_linux/types_ata_passthu.go:60-62,159-161 and plat_win/ata_passthu_types.go:60-62,159-161: the result goes to `B02`. -/
def setMultipleCount (c : PassFlags) (v : Byte) : PassFlags := { c with b02 := (c.b01 &&& 0x1f#8) ||| (v &&& 0x07#8) }
/-- plat_linux/types_ata_passthu.go:64-66,163-165 and plat_win/ata_passthu_types.go:64-66,163-165 -/
def getTLength (c : PassFlags) : Byte := c.b02 &&& 0x03#8
/-- plat_linux/types_ata_passthu.go:68-70,167-169 and plat_win/ata_passthu_types.go:68-70,167-169 -/
def setTLength (c : PassFlags) (v : Byte) : PassFlags := { c with b02 := (c.b02 &&& 0xfc#8) ||| (v &&& 0x03#8) }
/-- plat_linux/types_ata_passthu.go:72-74,171-173 and plat_win/ata_passthu_types.go:72-74,171-173 -/
def isByteBlock (c : PassFlags) : Bool := c.b02 &&& 0x04#8 != 0#8
/-- plat_linux/types_ata_passthu.go:76-82,175-181 and plat_win/ata_passthu_types.go:76-82,175-181 -/
def setByteBlock (c : PassFlags) (v : Bool) : PassFlags :=
  { c with b02 := if v then c.b02 ||| 0x04#8 else c.b02 &&& ~~~0x04#8 }
/-- plat_linux/types_ata_passthu.go:84-86,183-185 and plat_win/ata_passthu_types.go:84-86,183-185 -/
def isTDir (c : PassFlags) : Bool := c.b02 &&& 0x08#8 != 0#8
/-- plat_linux/types_ata_passthu.go:88-94,187-193 and plat_win/ata_passthu_types.go:88-94,187-193 -/
def setTDir (c : PassFlags) (v : Bool) : PassFlags :=
  { c with b02 := if v then c.b02 ||| 0x08#8 else c.b02 &&& ~~~0x08#8 }
/-- plat_linux/types_ata_passthu.go:96-98,195-197 and plat_win/ata_passthu_types.go:96-98,195-197 -/
def isCkCond (c : PassFlags) : Bool := c.b02 &&& 0x20#8 != 0#8
/-- plat_linux/types_ata_passthu.go:100-106,199-205 and plat_win/ata_passthu_types.go:100-106,199-205 -/
def setCkCond (c : PassFlags) (v : Bool) : PassFlags :=
  { c with b02 := if v then c.b02 ||| 0x20#8 else c.b02 &&& ~~~0x20#8 }
/-- plat_linux/types_ata_passthu.go:108-110,207-209 and plat_win/ata_passthu_types.go:108-110,207-209 -/
def getOffline (c : PassFlags) : Byte := (c.b02 >>> 6) &&& 0x03#8
/-- plat_linux/types_ata_passthu.go:112-114,211-213 and plat_win/ata_passthu_types.go:112-114,211-213 -/
def setOffline (c : PassFlags) (v : Byte) : PassFlags := { c with b02 := (c.b02 &&& 0x3f#8) ||| ((v &&& 0x03#8) <<< 6) }
/-- plat_linux/types_ata_passthu.go:135-137 and plat_win/ata_passthu_types.go:135-137 (16-byte form only) -/
def isExtend (c : PassFlags) : Bool := c.b02 &&& 0x01#8 != 0#8
/-- plat_linux/types_ata_passthu.go:139-145 and plat_win/ata_passthu_types.go:139-145 (16-byte form only) -/
def setExtend (c : PassFlags) (v : Bool) : PassFlags :=
  { c with b02 := if v then c.b02 ||| 0x01#8 else c.b02 &&& ~~~0x01#8 }
end PassFlags

/-! Byte 1 (`B01`) accessors of CDB10 and CDB16 (plat_linux/types_cdb.go:3-11,57-64 and plat_win/cdb_types.go:3-11,57-64). -/
namespace CdbB01
/-- plat_linux/types_cdb.go:13-15 and plat_win/cdb_types.go:13-15 `IsRelativeAddress` -/
def isRelativeAddress (b : Byte) : Bool := b &&& 0x01#8 != 0#8
/-- plat_linux/types_cdb.go:17-23 and plat_win/cdb_types.go:17-23 -/
def setRelativeAddress (b : Byte) (v : Bool) : Byte := if v then b ||| 0x01#8 else b &&& ~~~0x01#8
/-- plat_linux/types_cdb.go:25-27,66-68 and plat_win/cdb_types.go:25-27,66-68 `IsForceUnitAccess` -/
def isForceUnitAccess (b : Byte) : Bool := b &&& 0x08#8 != 0#8
/-- plat_linux/types_cdb.go:29-35,70-76 and plat_win/cdb_types.go:29-35,70-76 -/
def setForceUnitAccess (b : Byte) (v : Bool) : Byte := if v then b ||| 0x08#8 else b &&& ~~~0x08#8
/-- plat_linux/types_cdb.go:37-39,78-80 and plat_win/cdb_types.go:37-39,78-80 `IsDisablePageOut` -/
def isDisablePageOut (b : Byte) : Bool := b &&& 0x10#8 != 0#8
/-- plat_linux/types_cdb.go:41-47,82-88 and plat_win/cdb_types.go:41-47,82-88 -/
def setDisablePageOut (b : Byte) (v : Bool) : Byte := if v then b ||| 0x10#8 else b &&& ~~~0x10#8
/-- plat_linux/types_cdb.go:49-51,90-92 and plat_win/cdb_types.go:49-51,90-92 `GetLogicalUnitNumber`, `GetProtection` -/
def getTop (b : Byte) : Byte := b >>> 5
/-- plat_linux/types_cdb.go:53-55,94-96 and plat_win/cdb_types.go:53-55,94-96 `SetLogicalUnitNumber`, `SetProtection` -/
def setTop (b v : Byte) : Byte := (b &&& 0x1f#8) ||| (v <<< 5)
/-- plat_linux/sg_types.go:45-47 and plat_win/scsi_types.go:36-38 `IsInc512` (byte 4 of the security protocol CDB) -/
def isInc512 (b : Byte) : Bool := b &&& 0x80#8 != 0#8
/-- plat_linux/sg_types.go:49-55 and plat_win/scsi_types.go:40-46 `SetInc512` -/
def setInc512 (b : Byte) (v : Bool) : Byte := if v then b ||| 0x80#8 else b &&& ~~~0x80#8
end CdbB01

end Dparm
