import Verif.Spec.Handle
/-!
# Specification: where the identity blocks keep their fields

ATA: word numbers of ATA8-ACS / ACS-2 IDENTIFY DEVICE data. NVMe: byte offsets of NVMe 1.4 Identify Controller data.
-/
namespace Dparm.Spec
open Dparm

/-- Fields of the exported Go record `ata.IdentityDeviceData`, in order: name, word, 1 for the high byte of that word,
number of bytes. -/
def ataFields111 : List (String × Nat × Nat × Nat) :=
  [("GeneralConfiguration.A", 0, 0, 1), ("GeneralConfiguration.B", 0, 1, 1), ("NumCylinders", 1, 0, 2),
   ("SpecificConfiguration", 2, 0, 2), ("NumHeads", 3, 0, 2), ("Retired1", 4, 0, 4), ("NumSectorsPerTrack", 6, 0, 2),
   ("VendorUnique1", 7, 0, 6), ("SerialNumber", 10, 0, 20), ("Retired2", 20, 0, 4), ("Obsolete1", 22, 0, 2),
   ("FirmwareRevision", 23, 0, 8), ("ModelNumber", 27, 0, 40), ("MaximumBlockTransfer", 47, 0, 1),
   ("VendorUnique2", 47, 1, 1), ("TrustComputing", 48, 0, 2), ("Capabilities.A", 49, 0, 2),
   ("Capabilities.B", 50, 0, 2), ("ObsoleteWords51", 51, 0, 4), ("Word53.A", 53, 0, 1),
   ("Word53.FreeFallControlSensitivity", 53, 1, 1), ("NumberOfCurrentCylinders", 54, 0, 2),
   ("NumberOfCurrentHeads", 55, 0, 2), ("CurrentSectorsPerTrack", 56, 0, 2), ("CurrentSectorCapacity", 57, 0, 4),
   ("Word59.CurrentMultiSectorSetting", 59, 0, 1), ("Word59.B", 59, 1, 1), ("UserAddressableSectors", 60, 0, 4),
   ("ObsoleteWord62", 62, 0, 2), ("MultiWordDmaSupport", 63, 0, 1), ("MultiWordDmaActive", 63, 1, 1),
   ("AdvancedPioModes", 64, 0, 1), ("ReservedByte64", 64, 1, 1), ("MinimumMwxferCycleTime", 65, 0, 2),
   ("RecommendedMwxferCycleTime", 66, 0, 2), ("MinimumPioCycleTime", 67, 0, 2),
   ("MinimumPioCycleTimeIordy", 68, 0, 2), ("AdditionalSupported", 69, 0, 2), ("ReservedWords70", 70, 0, 10),
   ("Word75", 75, 0, 2), ("SerialAtaCapabilities.A", 76, 0, 2), ("SerialAtaCapabilities.B", 77, 0, 2),
   ("SerialAtaFeaturesSupported", 78, 0, 2), ("SerialAtaFeaturesEnabled", 79, 0, 2), ("MajorRevision", 80, 0, 2),
   ("MinorRevision", 81, 0, 2), ("CommandSetSupport.A", 82, 0, 2), ("CommandSetSupport.B", 83, 0, 2),
   ("CommandSetSupport.C", 84, 0, 2), ("CommandSetActive.A", 85, 0, 2), ("CommandSetActive.B", 86, 0, 2),
   ("CommandSetActive.C", 87, 0, 2), ("UltraDmaSupport", 88, 0, 1), ("UltraDmaActive", 88, 1, 1),
   ("NormalSecurityEraseUnit", 89, 0, 2), ("EnhancedSecurityEraseUnit", 90, 0, 2), ("CurrentApmLevel", 91, 0, 1),
   ("ReservedWord91", 91, 1, 1), ("MasterPasswordId", 92, 0, 2), ("HardwareResetResult", 93, 0, 2),
   ("CurrentAcousticValue", 94, 0, 1), ("RecommendedAcousticValue", 94, 1, 1), ("StreamMinRequestSize", 95, 0, 2),
   ("StreamingTransferTimeDma", 96, 0, 2), ("StreamingAccessLatencyDmaPio", 97, 0, 2),
   ("StreamingPerfGranularity", 98, 0, 4), ("Max48bitLba", 100, 0, 8), ("StreamingTransferTime", 104, 0, 2),
   ("DsmCap", 105, 0, 2), ("PhysicalLogicalSectorSize", 106, 0, 2), ("InterSeekDelay", 107, 0, 2),
   ("WorldWideName", 108, 0, 8), ("ReservedForWorldWideName128", 112, 0, 8),
   ("ReservedForTlcTechnicalReport", 116, 0, 2), ("WordsPerLogicalSector", 117, 0, 4),
   ("CommandSetSupportExt", 119, 0, 2), ("CommandSetActiveExt", 120, 0, 2),
   ("ReservedForExpandedSupportandActive", 121, 0, 12), ("Word127", 127, 0, 2), ("SecurityStatus", 128, 0, 2),
   ("ReservedWord129", 129, 0, 62), ("CfaPowerMode1", 160, 0, 2), ("ReservedForCfaWord161", 161, 0, 14),
   ("Word168", 168, 0, 2), ("DataSetManagementFeature", 169, 0, 2), ("AdditionalProductID", 170, 0, 8),
   ("ReservedForCfaWord174", 174, 0, 4), ("CurrentMediaSerialNumber", 176, 0, 60),
   ("SctCommandTransport", 206, 0, 2), ("ReservedWord207", 207, 0, 4), ("BlockAlignment", 209, 0, 2),
   ("WriteReadVerifySectorCountMode3Only", 210, 0, 4), ("WriteReadVerifySectorCountMode2Only", 212, 0, 4),
   ("NvCacheCapabilities", 214, 0, 2), ("NvCacheSizeLSW", 215, 0, 2), ("NvCacheSizeMSW", 216, 0, 2),
   ("NominalMediaRotationRate", 217, 0, 2), ("ReservedWord218", 218, 0, 2), ("NvCacheOptions", 219, 0, 2),
   ("WriteReadVerifySectorCountMode", 220, 0, 1), ("ReservedWord220", 220, 1, 1), ("ReservedWord221", 221, 0, 2),
   ("TransportMajorVersion", 222, 0, 2), ("TransportMinorVersion", 223, 0, 2), ("ReservedWord224", 224, 0, 12),
   ("ExtendedNumberOfUserAddressableSectors", 230, 0, 8), ("MinBlocksPerDownloadMicrocodeMode03", 234, 0, 2),
   ("MaxBlocksPerDownloadMicrocodeMode03", 235, 0, 2), ("ReservedWord236", 236, 0, 38), ("Signature", 255, 0, 1),
   ("CheckSum", 255, 1, 1)]

/-- Fields of the exported Go record `nvme.IdentifyController` before the power states: name, offset, number of bytes. -/
def nvmeFields85 : List (String × Nat × Nat) :=
  [("Vid", 0, 2), ("Ssvid", 2, 2), ("Sn", 4, 20), ("Mn", 24, 40), ("Fr", 64, 8), ("Rab", 72, 1), ("Ieee", 73, 3),
   ("Cmic", 76, 1), ("Mdts", 77, 1), ("Cntlid", 78, 2), ("TertiaryVersion", 80, 1), ("MinorVersion", 81, 1),
   ("MajorVersion", 82, 2), ("Rtd3r", 84, 4), ("Rtd3e", 88, 4), ("Oaes", 92, 4), ("Ctratt", 96, 4), ("Rrls", 100, 2),
   ("Rsvd102", 102, 9), ("Cntrltype", 111, 1), ("Fguid", 112, 16), ("Crdt1", 128, 2), ("Crdt2", 130, 2),
   ("Crdt3", 132, 2), ("Rsvd134", 134, 122), ("Oacs", 256, 2), ("Acl", 258, 1), ("Aerl", 259, 1), ("Frmw", 260, 1),
   ("Lpa", 261, 1), ("Elpe", 262, 1), ("Npss", 263, 1), ("Avscc", 264, 1), ("Apsta", 265, 1), ("Wctemp", 266, 2),
   ("Cctemp", 268, 2), ("Mtfa", 270, 2), ("Hmpre", 272, 4), ("Hmmin", 276, 4), ("Tnvmcap", 280, 16),
   ("Unvmcap", 296, 16), ("Rpmbs", 312, 4), ("Edstt", 316, 2), ("Dsto", 318, 1), ("Fwug", 319, 1), ("Kas", 320, 2),
   ("Hctma", 322, 2), ("Mntmt", 324, 2), ("Mxtmt", 326, 2), ("Sanicap", 328, 4), ("Hmminds", 332, 4),
   ("Hmmaxd", 336, 2), ("Nsetidmax", 338, 2), ("Endgidmax", 340, 2), ("Anatt", 342, 1), ("Anacap", 343, 1),
   ("Anagrpmax", 344, 4), ("Nanagrpid", 348, 4), ("Pels", 352, 4), ("Rsvd356", 356, 156), ("Sqes", 512, 1),
   ("Cqes", 513, 1), ("Maxcmd", 514, 2), ("Nn", 516, 4), ("Oncs", 520, 2), ("Fuses", 522, 2), ("Fna", 524, 1),
   ("Vwc", 525, 1), ("Awun", 526, 2), ("Awupf", 528, 2), ("Icsvscc", 530, 1), ("Nwpc", 531, 1), ("Acwu", 532, 2),
   ("Ocfs", 534, 2), ("Sgls", 536, 4), ("Mnan", 540, 4), ("Rsvd544", 544, 224), ("Subnqn", 768, 256),
   ("Rsvd1024", 1024, 768), ("Ioccsz", 1792, 4), ("Iorcsz", 1796, 4), ("Icdoff", 1800, 2), ("Ctrattr", 1802, 1),
   ("Msdbd", 1803, 1), ("Rsvd1804", 1804, 244)]

/-- Fields of `nvme.IdentifyPowerState` within the 32 bytes of a power state; state `i` begins at byte 2048 + 32 i. -/
def powerFields : List (String × Nat × Nat) :=
  [("MaxPower", 0, 2), ("Rsvd2", 2, 1), ("Flags", 3, 1), ("EntryLat", 4, 4), ("ExitLat", 8, 4), ("Readput", 12, 1),
   ("ReadLat", 13, 1), ("Writeput", 14, 1), ("WriteLat", 15, 1), ("IdlePower", 16, 2), ("IdleScale", 18, 1),
   ("Rsvd19", 19, 1), ("ActivePower", 20, 2), ("ActiveWorkScale", 22, 1), ("Rsvd23", 23, 9)]

/-- The fields of `ata.IdentityDeviceData` that are texts (ATA strings: first character in the high byte). -/
def ataTexts : List String := ["SerialNumber", "FirmwareRevision", "ModelNumber"]

/-- Bit `k` of word `w` of an ATA identity block. -/
def wordBit (raw : Bytes) (w k : Nat) : Bool := decide (word raw w / 2 ^ k % 2 = 1)

/-- STORAGE_BUS_TYPE values in order (ntddstor.h), with the spelling the package uses. -/
def busNames : List String :=
  ["Unknown", "Scsi", "Atapi", "Ata", "1394", "Ssa", "Fibre", "Usb", "RAID", "iScsi", "Sas", "Sata", "Sd", "Mmc",
   "Virtual", "FileBackedVirtual", "Spaces", "Nvme", "SCM", "Ufs"]

end Dparm.Spec
