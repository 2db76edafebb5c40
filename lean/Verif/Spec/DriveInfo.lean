import Verif.Model.Factory
/-!
# What the factory reports about a drive before any driver is asked
-/
namespace Dparm

/-- The system call succeeded: return value and error number 0. -/
def SysOk (r : FRep) : Prop := r.ret = 0 ∧ r.errno = 0

/-- The directory of udev's links to the drives. -/
def byIdDir : Bytes := ascii "/dev/disk/by-id"

/-- Unicode's white space (property White_Space), as code points. -/
def White (c : Nat) : Prop :=
  (0x09 ≤ c ∧ c ≤ 0x0d) ∨ c = 0x20 ∨ c = 0x85 ∨ c = 0xa0 ∨ c = 0x1680 ∨ (0x2000 ≤ c ∧ c ≤ 0x200a) ∨ c = 0x2028 ∨ c = 0x2029 ∨ c = 0x202f ∨
    c = 0x205f ∨ c = 0x3000

/-- UTF-8 (RFC 3629). -/
def utf8 (c : Nat) : Bytes :=
  if c < 0x80 then [BitVec.ofNat 8 c]
  else if c < 0x800 then [BitVec.ofNat 8 (0xc0 + c / 64), BitVec.ofNat 8 (0x80 + c % 64)]
  else if c < 0x10000 then [BitVec.ofNat 8 (0xe0 + c / 4096), BitVec.ofNat 8 (0x80 + c / 64 % 64), BitVec.ofNat 8 (0x80 + c % 64)]
  else [BitVec.ofNat 8 (0xf0 + c / 262144), BitVec.ofNat 8 (0x80 + c / 4096 % 64), BitVec.ofNat 8 (0x80 + c / 64 % 64),
    BitVec.ofNat 8 (0x80 + c % 64)]

/-- The name of a link in /dev/disk/by-id carries this model and serial: the serial is what follows the last underscore,
the model what lies between the first hyphen before it and that underscore (nothing if there is no hyphen). -/
def NamesDrive (name model serial : Bytes) : Prop :=
  ∃ pre, name = pre ++ 0x5f#8 :: serial ∧ 0x5f#8 ∉ serial ∧
    ((∃ bus, pre = bus ++ 0x2d#8 :: model ∧ 0x2d#8 ∉ bus) ∨ (0x2d#8 ∉ pre ∧ model = []))

/-- Letters, digits and underscore. -/
def WordByte (c : Byte) : Prop :=
  (0x30 ≤ c.toNat ∧ c.toNat ≤ 0x39) ∨ (0x41 ≤ c.toNat ∧ c.toNat ≤ 0x5a) ∨ c.toNat = 0x5f ∨
  (0x61 ≤ c.toNat ∧ c.toNat ≤ 0x7a)

/-- Links that are not considered: partitions, SCSI and WWN names, and NVMe names with a dot right after the first word. -/
def Ignored (name : Bytes) : Prop :=
  (∃ a b, name = a ++ ascii "-part" ++ b) ∨ (∃ a b, name = a ++ ascii "scsi" ++ b) ∨ (∃ a b, name = a ++ ascii "wwn" ++ b) ∨
  (∃ a w b, name = a ++ ascii "nvme-" ++ w ++ 0x2e#8 :: b ∧ ∀ c ∈ w, WordByte c)

/-- The links that were resolved, with the answers. -/
def resolved (tr : Prog.Trace FReq FRep) : List (Bytes × FRep) :=
  tr.filterMap (fun x => match x.1 with
    | .evalSymlinks p => some (p, x.2)
    | _ => none)

/-- The files that were read, with the answers. -/
def filesRead (tr : Prog.Trace FReq FRep) : List (Bytes × FRep) :=
  tr.filterMap (fun x => match x.1 with
    | .readFile p => some (p, x.2)
    | _ => none)

end Dparm
