import Verif.Model.Nvme
import Verif.Spec.Sg
/-!
# Specification: NVMe Get Log Page, Security Send/Receive, Linux ioctl numbers
-/
namespace Dparm.Spec
open Dparm

/-- Fields of a Get Log Page command (NVM Express Base 1.4, 5.14: command dwords 10 to 13). -/
structure LogPage where
  /-- log page identifier, CDW10 bits 7:0 -/
  lid : Nat
  /-- log specific field, CDW10 bits 11:8; bits 14:12 are reserved -/
  lsp : Nat
  reserved : Nat
  /-- retain asynchronous event, CDW10 bit 15 -/
  rae : Bool
  /-- number of dwords, zero-based: CDW11 bits 15:0 above CDW10 bits 31:16 -/
  numd : Nat
  /-- log specific identifier, CDW11 bits 31:16 -/
  lsi : Nat
  /-- log page offset in bytes: CDW13 above CDW12 -/
  lpo : Nat
deriving DecidableEq, Repr

/-- Decoding the dwords of a command. -/
def logPageOf (c : NvmeCmd) : LogPage :=
  { lid := c.cdw10.toNat % 256,
    lsp := c.cdw10.toNat / 256 % 16,
    reserved := c.cdw10.toNat / 4096 % 8,
    rae := c.cdw10.toNat / 32768 % 2 = 1,
    numd := c.cdw11.toNat % 65536 * 65536 + c.cdw10.toNat / 65536,
    lsi := c.cdw11.toNat / 65536,
    lpo := c.cdw13.toNat * 4294967296 + c.cdw12.toNat }

/-- Fields of a Security Send or Security Receive command (NVM Express Base 1.4, 5.25 and 5.26). -/
structure Security where
  /-- security protocol, CDW10 bits 31:24 -/
  secp : Nat
  /-- protocol specific, CDW10 bits 23:8 -/
  spsp : Nat
  /-- NVMe security specific, CDW10 bits 7:0 -/
  nssf : Nat
  /-- transfer length in bytes, CDW11 -/
  tl : Nat
deriving DecidableEq, Repr

/-- Decoding the dwords of a kernel record. -/
def securityOf (k : KNvme) : Security :=
  { secp := k.cdw10.toNat / 16777216, spsp := k.cdw10.toNat / 256 % 65536, nssf := k.cdw10.toNat % 256,
    tl := k.cdw11.toNat }

/-- Parts of a Linux ioctl number (include/uapi/asm-generic/ioctl.h): number 8 bits, type 8, size 14, direction 2. -/
structure IoctlParts where
  dir : Nat
  type : Nat
  nr : Nat
  size : Nat
deriving DecidableEq, Repr

/-- Splitting a number into its parts. -/
def ioctlParts (n : BitVec 64) : IoctlParts :=
  { nr := n.toNat % 256, type := n.toNat / 256 % 256, size := n.toNat / 65536 % 16384,
    dir := n.toNat / 1073741824 }

/-- Content of a buffer after a sequence of answers that each stored bytes at its start. -/
def afterStores (b : Bytes) (rs : List Bytes) : Bytes :=
  rs.foldl delivered b

/-- The address handed to the kernel: an explicit one, else the buffer's, else 0. -/
def addrOf (c : NvmeCmd) (bufAddr : BitVec 64) : BitVec 64 :=
  if c.dataAddr ≠ 0 then c.dataAddr else if (c.dataBuffer.getD []).length = 0 then 0 else bufAddr

end Dparm.Spec
