# go-dparm in Lean 4: design

This file is generated by `tools/props.py` from `tools/design_head.md` and `tools/props_data.py`
(the same source produces `properties.jsonl` and `MANIFEST.json`).

## What is modelled

The model lives in `lean/Verif/Model/`, one file per part of the code; each definition cites the Go
file and lines. Specifications that a reader can check without the model are in `lean/Verif/Spec/`
(token grammar, big/little-endian numbers, cursor buffers, descriptor walks, group-by, SAT/NVMe field
positions). Property theorems are in `lean/Verif/Props/`, helper lemmas in `lean/Verif/Lemmas/`.

* **Values.** Bytes are `BitVec 8`, Go's fixed-width integers are `BitVec n` wherever wrap-around or
  truncation can matter; `int` quantities that stay small are `Nat` (or `Int` where negative values are
  reachable, e.g. `GetToken`). Slices are lists; aliasing is modelled by returning the new contents.
* **Outcomes.** A Go call either returns (value and error are ordinary values) or panics; panics are an
  explicit outcome, never totalised away.
* **Devices, kernel, clock.** Code that performs I/O is a tree of requests (`Prog`), run against an
  arbitrary *environment*, a function from the complete history of exchanges to the next reply. A theorem
  "for every environment" therefore covers every drive, firmware, kernel or clock behaviour, including
  adversarial ones, and traces are the observable effects.
* **Unsafe memory.** Where the code reads through `unsafe.Slice` beyond an allocation, the memory
  behind the buffer is an arbitrary function supplied by the environment, so results that
  hold for every such function cannot depend on it, and over-reads are visible as dependence.
* **Host.** 64-bit little-endian (the library's targets: linux/amd64, windows/amd64).

## Trusted base

* Lean 4.33.0's kernel; the axioms allowed are `propext`, `Classical.choice` and `Quot.sound` (what each
  property theorem uses is reported by the gate; no axiom is declared by this project, no
  `native_decide`, no `bv_decide`).
* The reading of the Go code: the model is written by hand from the pinned commit, nothing in /repo is
  executed.
* External code, represented by its documented behaviour: `struc` packs and unpacks fixed-layout
  records field by field, big-endian unless the options or tags say otherwise, failing on short input;
  `pbkdf2` is an arbitrary function of password and salt; `strings.Cut/Trim/LastIndex`,
  `binary.BigEndian`, `copy`, `append` as specified by Go. go-diskfs and the operating system are
  environment. SG_IO is trusted to transfer at most `dxfer_len` bytes in the announced direction, to write at most
  `mx_sb_len` bytes of sense data and to touch no other memory.
* Concurrency: the library starts no goroutines and shares no state between handles. Goroutines with their own handles
  are modelled as interleavings of system calls (`Model/Concurrent.lean`). Operations on one handle are modelled
  sequentially, except that TCG operations of several goroutines on one drive are modelled as interleavings of their exchanges
  with the drive (`Model/SharedDrive.lean`). Calling `Close` (or anything that stores into a handle) while another goroutine
  uses the same handle is a data race in Go and not modelled.

* Kernel and system contracts, stated where they are used: the NVMe admin ioctl moves at most the announced length
  (`Model/Nvme.lean`), `DeviceIoControl` fills at most the output buffer (`Model/Win.lean`, `Model/WinFactory.lean`),
  `StringFromGUID2` and UTF-16 conversion as documented (`Model/WinFactory.lean`, `Model/Utf16.lean`).
* The conforming drive of C127-C131 (`Spec/Tper.lean`, `Spec/TperLinux.lean`, `Spec/TperScsi.lean`) is a specification: what a
  TCG Opal drive answers to the session, authentication, revert and MSID calls. The theorems assume it of the drive; they
  do not say that any drive on the market is one. An ideal drive is built in the model to show the assumption can be met.

## Layers of the model

| Layer | Go code | Model | Requests it makes |
|---|---|---|---|
| TCG objects | tcg/*.go | Token, Command, Response, Session, Device | security send, security receive, clock, sleep |
| Drive handle | common/drive_handle.go, ata_util, common/nvme | DriveHandle, Discovery, AtaUtil, Utils, Struc, Layout | driver calls |
| Linux drivers | plat_linux/{nvme_driver,sg_driver,ioctl_utils}.go | Nvme, Sg, Cdb, Ioctl | ioctl |
| Linux factory, volumes | plat_linux/{drive_factory,volume,utils}.go, internal/direct_mbr | Factory, Volume, Mbr | open, close, ioctl, directory and file reads, go-diskfs |
| Linux, all layers | the above composed | LinuxSystem, HandleSystem, TcgSystem | system calls only |
| Linux client | any sequence of calls of the API | Client | system calls, clock, sleep |
| Windows client | any sequence of calls of the API | WinClient | Windows calls, buffer placement, clock, sleep |
| goroutines on one drive | RevertTPer and GetDefaultPassword called at the same time on one drive | SharedDrive | security send, security receive, clock, sleep |
| goroutines | any number of clients at the same time, any schedule of their system calls | Concurrent | system calls, tagged with the goroutine |
| Windows drivers | plat_win/{ata,scsi,nvme_win,windows_nvme}_driver.go, nvme_scsi.go | Win, WinNvme | DeviceIoControl |
| Windows factory, volumes | plat_win/{drive_factory,volume,utils,setupapi}.go | WinFactory, WinVolume | CreateFile, CloseHandle, DeviceIoControl, SetupAPI, volume search |
| Windows, all layers | the above composed | WinTcg | Windows calls only |

Layers are composed by `OutT.interp` (every request of the upper layer is answered by running the lower layer's program),
so the end-to-end theorems (C116-C119, C124-C126, C130-C133, C135-C142) speak about system calls made for an API call.

## Not modelled

`test/`, what `cmd/develop` prints (its calls are modelled: C156, C158), `plat_linux/samsung_nvme_driver.go` (its driver is never registered), unused helpers
(`copyFromAsciiToBuffer`, `zerofill`, `GetSizeOf_DRIVE_LAYOUT_INFORMATION`), trivial constructors and getters, log output, the text
of formatted error messages beyond what callers compare (`"not supported"`), DLL loading, performance, concurrent use of
one handle, and physical crash behaviour of an out-of-bounds read (it is modelled as reading arbitrary bytes).

## FINDINGS: disagreements between the code and what its users would expect

These are properties of the code as it is; the theorems state the actual behaviour (see the cited ids).

1. Commands longer than 512 bytes are cut on the wire (C08).
2. `AddStringToken` loses strings of 2048 bytes or more without an error and encodes "" as a one-byte string (C03).
3. The response parser can hand out tokens extending beyond the received data and beyond its buffer (C12).
4. `Type` inverts the sign of tiny atoms (C15); `GetUint64` accepts byte strings and drops high bytes (C16).
5. `SendCommand` panics on responses of one to four tokens (C19).
6. The hashed credential is double-wrapped: the drive sees a 34-byte challenge that includes an atom header (C23).
7. Sessions are never closed (C25); Enterprise drives are never talked to (C30).
8. Discovery panics on a descriptor that overruns the buffer (C37) and starts at offset 32, not 48 (C40).
9. ATA/SCSI pass-through writes send zeros (C58), on Windows also the TCG security send (C73).
10. The SG retry path discards sense data and read data (C60); the Windows ATA retry path judges the opcode (C74).
11. `SetMultipleCount` writes the wrong byte (C66); `TfInit` has no effect (C56); `IOR` encodes read-write (C65).
12. `DoNvmeIoPassthru` drops the data length (C64); log pages are always fetched from offset 0 (C62).
13. File descriptors leak when no driver matches (C67, C142); `OpenDriveByVolumePath` depends on map order (C70).
14. `Authenticate` reports the opposite of the TCG boolean it receives (C77).
15. On Linux the ATA fallback of a TCG send transmits zeros (C78, a consequence of C44 and C58).
16. Integers of the NVMe identity record are decoded in the wrong byte order (C79).
17. An ATA drive that does not report its rotation rate (value 0) counts as an SSD (C49).
18. A locking descriptor that is too short is read together with what follows it (C35).
19. `SetExtend` changes the transfer-length field instead of the EXTEND bit (C66).
20. `ReadSmart` reuses an uncleared buffer for the thresholds (C81).
21. The SG security command never sees sense data, so rejected commands count as successful (C82).
22. SG taskfile timeouts are 1000 times too short (C83).
23. SG taskfile errors in descriptor-format sense with additional sense code x0h are reported as success (C84).
24. NVMe log pages: the retry loop repeats one full-size command at offset 0 instead of reading in 4096-byte pieces (C62);
    sizes below 4 bytes ask for 16 GiB (C63).
25. `DoNvmeIoPassthru` never sets the data length, so no data can be transferred (C64).
26. `IOR` encodes read and write (C65). NVMe statuses and error numbers are indistinguishable (C86).
27. On Linux NVMe the caller's security command timeout is ignored (C88).
28. Linux: if reading the geometry fails the capacity is lost too (C89); one unreadable link empties the by-id table (C90);
    every volume line leaks a descriptor (C92); the size of a partition is its start (C91); partition number 0 panics (C93);
    a mount table line over 64 KiB ends the list without error (C95).
29. Linux ATA pass-through writes also zero the caller's buffer (C58, C132); an empty, non-nil buffer panics (C132).
30. `ReadSmart`: 16-bit SMART fields (`Flags`, `RevNumber`) come out byte-swapped (C81).
31. Init again on a handle forgets the raw features but keeps the flags, so the device keeps its kind with ComID 0 (C134).
32. `GetDefaultPassword` leaves a session open on the drive each time; after as many calls as the drive has sessions even
    the right PSID fails with error 7 (C129).
33. A SID revert works only on a drive whose SID credential is the 34 bytes D0 20 and the derived key: never on a drive
    in factory state whose MSID has another length, never on one whose credential is the key itself (C128).
34. A SECURITY PROTOCOL command that ends with CHECK CONDITION counts as success (C82); a failed one is repeated as an ATA
    TRUSTED SEND of zeros (C126).
35. Windows: writes are zeroed (C73, C102), the NVMe miniport completion and return code are ignored and its direction is
    always from the device (C99), the handle opened on the miniport is never closed (C100), log pages ignore namespace and
    retain flag (C101), the ATA fallback judges the command byte (C74).
36. Windows: a driver layout shorter than 48 bytes, or of mixed style, panics (C103, C104); an unknown drive number is reported as
    0 (C105); without accepting driver the handle leaks (C106); a SetupAPI error ends the enumeration silently (C107); more
    than 171 extents panic (C109); only the first mount point of a volume is seen (C76).
37. Windows: on a panic while opening, the handle of the drive being opened leaks (C113, C114).
