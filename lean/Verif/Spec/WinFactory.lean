import Verif.Spec.WinNvme
import Verif.Model.WinFactory
/-!
# Specification: the Windows drive factory
-/
namespace Dparm.Spec
open Dparm

/-! ### Which driver -/

/-- Driver number `i` accepted the handle with `x`; the drivers before it were asked in order and refused, each after what
had happened until then. `segs` are the exchanges of each of them. -/
structure FirstAccepted (env : Prog.Env WReq WRep) (hist : Prog.Trace WReq WRep) (ds : List WinOpener) (h i : Nat)
    (x : WinDrv × Driver) (segs : List (Prog.Trace WReq WRep)) : Prop where
  count : segs.length = i + 1
  refused : ∀ j, j < i → ∃ d seg e, ds[j]? = some d ∧ segs[j]? = some seg ∧
    OutT.run env (hist ++ (segs.take j).flatten) (d h) = (.ret (.err e), seg)
  accepted : ∃ d seg, ds[i]? = some d ∧ segs[i]? = some seg ∧
    OutT.run env (hist ++ (segs.take i).flatten) (d h) = (.ret (.ok x), seg)

/-- All drivers were asked and refused. -/
structure NoneAccepted (env : Prog.Env WReq WRep) (hist : Prog.Trace WReq WRep) (ds : List WinOpener) (h : Nat)
    (segs : List (Prog.Trace WReq WRep)) : Prop where
  count : segs.length = ds.length
  refused : ∀ j d, ds[j]? = some d → ∃ seg e, segs[j]? = some seg ∧
    OutT.run env (hist ++ (segs.take j).flatten) (d h) = (.ret (.err e), seg)

/-! ### Numbers and texts in records -/

/-- The text of a GUID (RFC 4122 groups; the first three are stored little-endian) with these 16 digits. -/
def uuidWith (digits g : Bytes) : Bytes :=
  let x := fun i => [digits.getD ((g.getD i 0).toNat / 16) 0, digits.getD ((g.getD i 0).toNat % 16) 0]
  x 3 ++ x 2 ++ x 1 ++ x 0 ++ ascii "-" ++ x 5 ++ x 4 ++ ascii "-" ++ x 7 ++ x 6 ++ ascii "-" ++ x 8 ++ x 9 ++ ascii "-" ++
    x 10 ++ x 11 ++ x 12 ++ x 13 ++ x 14 ++ x 15

/-- With lower-case digits. -/
def uuidLower (g : Bytes) : Bytes := uuidWith (ascii "0123456789abcdef") g
/-- With upper-case digits, in braces. -/
def uuidUpper (g : Bytes) : Bytes := ascii "{" ++ uuidWith (ascii "0123456789ABCDEF") g ++ ascii "}"

/-- `o` is `s` without the bytes of `set` at both ends. -/
def TrimmedBy (set s o : Bytes) : Prop :=
  ∃ a b, s = a ++ o ++ b ∧ (∀ x ∈ a, x ∈ set) ∧ (∀ x ∈ b, x ∈ set) ∧ (∀ x ∈ o.head?, x ∉ set) ∧ (∀ x ∈ o.getLast?, x ∉ set)

/-- The text at an offset, up to the next NUL; nothing for offset 0 or if no NUL follows. -/
def CString (data : Bytes) (off : Nat) (t : Bytes) : Prop :=
  (off = 0 ∧ t = []) ∨ (0 < off ∧ ∃ a b, data = a ++ t ++ 0 :: b ∧ a.length = off ∧ 0 ∉ t) ∨
  (0 < off ∧ off ≤ data.length ∧ 0 ∉ data.drop off ∧ t = [])

/-! ### Data of variable size -/

/-- What fetching it gave: bytes (a buffer of which the first `k` were returned), an error, or a crash. -/
inductive Fetch where
  | data (buf : Bytes) (k : Nat)
  | failed (e : GoErr)
  | crashed

/-- Fetching data with a control code: once with 4096 bytes; if that is too small, once with the size Windows named. A
failing second call reports the first error; size 0 crashes. (Windows never returns more bytes than asked for.) -/
inductive Fetched (h code : Nat) (inb : Bytes) : Prog.Trace WReq WRep → Fetch → Prop
  | once (r : WRep) : r.err = none → r.n ≤ 4096 →
      Fetched h code inb [(.ioctl h code inb 4096 none, r)] (.data (delivered (zeros 4096) r.out) r.n)
  | failed (r : WRep) (e : GoErr) : r.err = some e → e ≠ .errno 122 →
      Fetched h code inb [(.ioctl h code inb 4096 none, r)] (.failed e)
  | crashed (r : WRep) : (r.err = none ∧ r.n > 4096) ∨ (r.err = some (.errno 122) ∧ r.n = 0) →
      Fetched h code inb [(.ioctl h code inb 4096 none, r)] .crashed
  | again (r r2 : WRep) : r.err = some (.errno 122) → r.n ≠ 0 → r2.err = none → r2.n ≤ r.n →
      Fetched h code inb [(.ioctl h code inb 4096 none, r), (.ioctl h code inb r.n none, r2)]
        (.data (delivered (zeros r.n) r2.out) r2.n)
  | againFailed (r r2 : WRep) (e : GoErr) : r.err = some (.errno 122) → r.n ≠ 0 → r2.err = some e →
      Fetched h code inb [(.ioctl h code inb 4096 none, r), (.ioctl h code inb r.n none, r2)] (.failed (.errno 122))
  | againCrashed (r r2 : WRep) : r.err = some (.errno 122) → r.n ≠ 0 → r2.err = none → r2.n > r.n →
      Fetched h code inb [(.ioctl h code inb 4096 none, r), (.ioctl h code inb r.n none, r2)] .crashed

/-! ### Number, size and description of a device -/

/-- STORAGE_DEVICE_NUMBER (12 bytes): the number is at offset 4. DISK_GEOMETRY_EX (32 bytes): the size in bytes is at 24.
Both only if the inquiry succeeded. -/
def numberReported (r : WRep) : Option (BitVec 32) :=
  if r.err = none then some (BitVec.ofNat 32 (leVal (slice (delivered (zeros 12) r.out) 4 4))) else none
def sizeReported (r : WRep) : Option (BitVec 64) :=
  if r.err = none then some (BitVec.ofNat 64 (leVal (slice (delivered (zeros 32) r.out) 24 8))) else none

/-- The fixed part of STORAGE_DEVICE_DESCRIPTOR (36 bytes; what a smaller buffer lacks is whatever lies behind it). -/
def fixedPart (buf : Bytes) (beyond : Nat → Byte) : Bytes := buf ++ (List.range 36).map beyond

/-- A description agrees with a descriptor `m` and the bytes returned: type, modifier and removable flag at 8, 9 and 10,
bus at 28; the texts at the offsets stored at 12 (vendor), 16 (product), 20 (revision) and 24 (serial), without spaces at
the ends. -/
structure Describes (m data : Bytes) (d : StorageDesc) : Prop where
  deviceType : d.deviceType = m.getD 8 0
  typeModifier : d.typeModifier = m.getD 9 0
  removable : d.removable = true ↔ m.getD 10 0 ≠ 0
  busType : d.busType = m.getD 28 0
  vendor : ∃ t, CString data (leVal (slice m 12 4)) t ∧ TrimmedBy [0x20] t d.vendorId
  product : ∃ t, CString data (leVal (slice m 16 4)) t ∧ TrimmedBy [0x20] t d.productId
  revision : ∃ t, CString data (leVal (slice m 20 4)) t ∧ TrimmedBy [0x20] t d.revision
  serial : ∃ t, CString data (leVal (slice m 24 4)) t ∧ TrimmedBy [0x20] t d.serial

/-- One of the four offsets lies behind the bytes returned. -/
def BadOffset (m data : Bytes) : Prop :=
  leVal (slice m 12 4) > data.length ∨ leVal (slice m 16 4) > data.length ∨ leVal (slice m 20 4) > data.length ∨
  leVal (slice m 24 4) > data.length

instance (m data : Bytes) : Decidable (BadOffset m data) := inferInstanceAs (Decidable (_ ∨ _ ∨ _ ∨ _))

/-! ### The drive layout (winioctl.h: DRIVE_LAYOUT_INFORMATION_EX, PARTITION_INFORMATION_EX) -/

/-- The entries announced, as far as they were returned completely. -/
def layoutItems (data : Bytes) : List Bytes :=
  (List.range (min (leVal (slice data 4 4)) ((data.length - 48) / 144))).map (fun i => slice data (48 + 144 * i) 144)

/-- A partition entry on a disk: start and length in bytes, style, and MBR or GPT details. -/
def itemPart (disk : BitVec 32) (e : Bytes) : WinPart :=
  { diskNumber := disk, start := BitVec.ofNat 64 (leVal (slice e 8 8)), length := BitVec.ofNat 64 (leVal (slice e 16 8)),
    style := leVal (slice e 0 4),
    mbrInfo := if leVal (slice e 0 4) = 0 then some (e.getD 32 0, decide (e.getD 33 0 ≠ 0)) else none,
    gptInfo := if leVal (slice e 0 4) = 1 then some (uuidUpper (slice e 32 16), uuidUpper (slice e 48 16)) else none }

/-- The layout lists an entry of a style other than its own. -/
def MixedStyles (data : Bytes) : Prop := ∃ e ∈ layoutItems data, leVal (slice e 0 4) ≠ leVal (slice data 0 4)

instance (data : Bytes) : Decidable (MixedStyles data) :=
  inferInstanceAs (Decidable (∃ e ∈ layoutItems data, leVal (slice e 0 4) ≠ leVal (slice data 0 4)))

end Dparm.Spec
