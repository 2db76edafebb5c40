# go-dparm in Lean 4: design

This file is generated by `tools/props.py` from `tools/design_head.md` and `tools/props_data.py`
(the same source produces `properties.jsonl` and `MANIFEST.json`).

## What is modelled

The model lives in `lean/Verif/Model/`, one file per part of the code; each definition cites the Go
file and lines. Specifications that a reader can check without the model are in `lean/Verif/Spec/`
(token grammar, big/little-endian numbers, cursor buffers, descriptor walks, group-by, SAT/NVMe field
positions). Property theorems are in `lean/Verif/Props/`, helper lemmas in `lean/Verif/Lemmas/`.

* **Values.** Bytes are `BitVec 8`, Go's fixed-width integers are `BitVec n` wherever wrap-around or
  truncation can matter; `int` quantities that stay small are `Nat` (or `Int` where negative values are
  reachable, e.g. `GetToken`). Slices are lists; aliasing is modelled by returning the new contents.
* **Outcomes.** A Go call either returns (value and error are ordinary values) or panics; panics are an
  explicit outcome, never totalised away.
* **Devices, kernel, clock.** Code that performs I/O is a tree of requests (`Prog`), run against an
  arbitrary *environment*, a function from the complete history of exchanges to the next reply. A theorem
  "for every environment" therefore covers every drive, firmware, kernel or clock behaviour, including
  adversarial ones, and traces are the observable effects.
* **Unsafe memory.** Where the code reads through `unsafe.Slice` beyond an allocation, the memory
  behind the buffer is an arbitrary function supplied by the environment, so results that
  hold for every such function cannot depend on it, and over-reads are visible as dependence.
* **Host.** 64-bit little-endian (the library's targets: linux/amd64, windows/amd64).

## Trusted base

* Lean 4.33.0's kernel; the axioms allowed are `propext`, `Classical.choice` and `Quot.sound` (what each
  property theorem uses is reported by the gate; no axiom is declared by this project, no
  `native_decide`, no `bv_decide`).
* The reading of the Go code: the model is written by hand from the pinned commit, nothing in /repo is
  executed.
* External code, represented by its documented behaviour: `struc` packs and unpacks fixed-layout
  records field by field, big-endian unless the options or tags say otherwise, failing on short input;
  `pbkdf2` is an arbitrary function of password and salt; `strings.Cut/Trim/LastIndex`,
  `binary.BigEndian`, `copy`, `append` as specified by Go. go-diskfs and the operating system are
  environment. SG_IO is trusted to transfer at most `dxfer_len` bytes in the announced direction, to write at most
  `mx_sb_len` bytes of sense data and to touch no other memory.
* Concurrency: the library starts no goroutines and shares no state between handles. Goroutines with their own handles
  are modelled as interleavings of system calls (`Model/Concurrent.lean`). Operations on one handle are modelled
  sequentially, except that TCG operations of several goroutines on one drive are modelled as interleavings of their exchanges
  with the drive (`Model/SharedDrive.lean`). Calling `Close` (or anything that stores into a handle) while another goroutine
  uses the same handle is a data race in Go and not modelled.

* Kernel and system contracts, stated where they are used: the NVMe admin ioctl moves at most the announced length
  (`Model/Nvme.lean`), `DeviceIoControl` fills at most the output buffer (`Model/Win.lean`, `Model/WinFactory.lean`),
  `StringFromGUID2` and UTF-16 conversion as documented (`Model/WinFactory.lean`, `Model/Utf16.lean`).
* The conforming drive of C127-C131 (`Spec/Tper.lean`, `Spec/TperLinux.lean`, `Spec/TperScsi.lean`) is a specification: what a
  TCG Opal drive answers to the session, authentication, revert and MSID calls. The theorems assume it of the drive; they
  do not say that any drive on the market is one. An ideal drive is built in the model to show the assumption can be met.

## Layers of the model

| Layer | Go code | Model | Requests it makes |
|---|---|---|---|
| TCG objects | tcg/*.go | Token, Command, Response, Session, Device | security send, security receive, clock, sleep |
| Drive handle | common/drive_handle.go, ata_util, common/nvme | DriveHandle, Discovery, AtaUtil, Utils, Struc, Layout | driver calls |
| Linux drivers | plat_linux/{nvme_driver,sg_driver,ioctl_utils}.go | Nvme, Sg, Cdb, Ioctl | ioctl |
| Linux factory, volumes | plat_linux/{drive_factory,volume,utils}.go, internal/direct_mbr | Factory, Volume, Mbr | open, close, ioctl, directory and file reads, go-diskfs |
| Linux, all layers | the above composed | LinuxSystem, HandleSystem, TcgSystem | system calls only |
| Linux client | any sequence of calls of the API | Client | system calls, clock, sleep |
| Windows client | any sequence of calls of the API | WinClient | Windows calls, buffer placement, clock, sleep |
| goroutines on one drive | RevertTPer and GetDefaultPassword called at the same time on one drive | SharedDrive | security send, security receive, clock, sleep |
| goroutines | any number of clients at the same time, any schedule of their system calls | Concurrent | system calls, tagged with the goroutine |
| Windows drivers | plat_win/{ata,scsi,nvme_win,windows_nvme}_driver.go, nvme_scsi.go | Win, WinNvme | DeviceIoControl |
| Windows factory, volumes | plat_win/{drive_factory,volume,utils,setupapi}.go | WinFactory, WinVolume | CreateFile, CloseHandle, DeviceIoControl, SetupAPI, volume search |
| Windows, all layers | the above composed | WinTcg | Windows calls only |

Layers are composed by `OutT.interp` (every request of the upper layer is answered by running the lower layer's program),
so the end-to-end theorems (C116-C119, C124-C126, C130-C133, C135-C142) speak about system calls made for an API call.

## Not modelled

`test/`, what `cmd/develop` prints (its calls are modelled: C156, C158), `plat_linux/samsung_nvme_driver.go` (its driver is never registered), unused helpers
(`copyFromAsciiToBuffer`, `zerofill`, `GetSizeOf_DRIVE_LAYOUT_INFORMATION`), trivial constructors and getters, log output, the text
of formatted error messages beyond what callers compare (`"not supported"`), DLL loading, performance, concurrent use of
one handle, and physical crash behaviour of an out-of-bounds read (it is modelled as reading arbitrary bytes).

## FINDINGS: disagreements between the code and what its users would expect

These are properties of the code as it is; the theorems state the actual behaviour (see the cited ids).

1. Commands longer than 512 bytes are cut on the wire (C08).
2. `AddStringToken` loses strings of 2048 bytes or more without an error and encodes "" as a one-byte string (C03).
3. The response parser can hand out tokens extending beyond the received data and beyond its buffer (C12).
4. `Type` inverts the sign of tiny atoms (C15); `GetUint64` accepts byte strings and drops high bytes (C16).
5. `SendCommand` panics on responses of one to four tokens (C19).
6. The hashed credential is double-wrapped: the drive sees a 34-byte challenge that includes an atom header (C23).
7. Sessions are never closed (C25); Enterprise drives are never talked to (C30).
8. Discovery panics on a descriptor that overruns the buffer (C37) and starts at offset 32, not 48 (C40).
9. ATA/SCSI pass-through writes send zeros (C58), on Windows also the TCG security send (C73).
10. The SG retry path discards sense data and read data (C60); the Windows ATA retry path judges the opcode (C74).
11. `SetMultipleCount` writes the wrong byte (C66); `TfInit` has no effect (C56); `IOR` encodes read-write (C65).
12. `DoNvmeIoPassthru` drops the data length (C64); log pages are always fetched from offset 0 (C62).
13. File descriptors leak when no driver matches (C67, C142); `OpenDriveByVolumePath` depends on map order (C70).
14. `Authenticate` reports the opposite of the TCG boolean it receives (C77).
15. On Linux the ATA fallback of a TCG send transmits zeros (C78, a consequence of C44 and C58).
16. Integers of the NVMe identity record are decoded in the wrong byte order (C79).
17. An ATA drive that does not report its rotation rate (value 0) counts as an SSD (C49).
18. A locking descriptor that is too short is read together with what follows it (C35).
19. `SetExtend` changes the transfer-length field instead of the EXTEND bit (C66).
20. `ReadSmart` reuses an uncleared buffer for the thresholds (C81).
21. The SG security command never sees sense data, so rejected commands count as successful (C82).
22. SG taskfile timeouts are 1000 times too short (C83).
23. SG taskfile errors in descriptor-format sense with additional sense code x0h are reported as success (C84).
24. NVMe log pages: the retry loop repeats one full-size command at offset 0 instead of reading in 4096-byte pieces (C62);
    sizes below 4 bytes ask for 16 GiB (C63).
25. `DoNvmeIoPassthru` never sets the data length, so no data can be transferred (C64).
26. `IOR` encodes read and write (C65). NVMe statuses and error numbers are indistinguishable (C86).
27. On Linux NVMe the caller's security command timeout is ignored (C88).
28. Linux: if reading the geometry fails the capacity is lost too (C89); one unreadable link empties the by-id table (C90);
    every volume line leaks a descriptor (C92); the size of a partition is its start (C91); partition number 0 panics (C93);
    a mount table line over 64 KiB ends the list without error (C95).
29. Linux ATA pass-through writes also zero the caller's buffer (C58, C132); an empty, non-nil buffer panics (C132).
30. `ReadSmart`: 16-bit SMART fields (`Flags`, `RevNumber`) come out byte-swapped (C81).
31. Init again on a handle forgets the raw features but keeps the flags, so the device keeps its kind with ComID 0 (C134).
32. `GetDefaultPassword` leaves a session open on the drive each time; after as many calls as the drive has sessions even
    the right PSID fails with error 7 (C129).
33. A SID revert works only on a drive whose SID credential is the 34 bytes D0 20 and the derived key: never on a drive
    in factory state whose MSID has another length, never on one whose credential is the key itself (C128).
34. A SECURITY PROTOCOL command that ends with CHECK CONDITION counts as success (C82); a failed one is repeated as an ATA
    TRUSTED SEND of zeros (C126).
35. Windows: writes are zeroed (C73, C102), the NVMe miniport completion and return code are ignored and its direction is
    always from the device (C99), the handle opened on the miniport is never closed (C100), log pages ignore namespace and
    retain flag (C101), the ATA fallback judges the command byte (C74).
36. Windows: a driver layout shorter than 48 bytes, or of mixed style, panics (C103, C104); an unknown drive number is reported as
    0 (C105); without accepting driver the handle leaks (C106); a SetupAPI error ends the enumeration silently (C107); more
    than 171 extents panic (C109); only the first mount point of a volume is seen (C76).
37. Windows: on a panic while opening, the handle of the drive being opened leaks (C113, C114).

## Axioms of each property theorem

As printed by `#print axioms` (`tools/axioms.py`).

* none: `nested_error`, `smart_sizes`
* `propext`: `device_kind`, `ioctl_success_iff`, `mountFields_eq`, `nvme_status_looks_like_errno`, `pool_solo_ends`, `win_task_cdb`
* `(not asked yet)`: `history_stopped`
* `propext`, `Quot.sound`: `addRaw_empty`, `addString_too_long`, `admin_passthru_faithful`, `alignedBuffer_aligned_inBounds`, `announced_without_itself`, `ata_strings_unique`, `bus_type_names`, `cdbB01_fields`, `close_unobservable`, `content_cases`, `discovery_support`, `ext_not_fixed`, `getString_addString`, `hash_prefix`, `io_passthru_no_length`, `isAlignedPointer_newAlignedBuffer`, `isDma_spec`, `lba48_decision`, `log_page_negative`, `mbr_accepts_iff`, `mbr_read`, `narrow_accessors`, `nul_text_found`, `nul_text_none`, `nvme_open`, `passFlags_fields`, `readSmart_no_ata`, `recovered_agrees`, `revert_secret`, `satDecode_sgTaskCdb`, `security_fallback`, `sense_accessors`, `setExtend_wrong`, `start_credential`, `swap_kept`, `swap_spec`, `table_unsupported`, `tcg_no_driver`, `tfInit_no_effect`, `tiny_sign_inverted`, `type_of_encoded`, `type_total`, `user_io_faithful`, `volume_list`, `wcslen_spec`, `win_find_unknown`, `win_find_volumes`, `win_first_mount_only`, `win_partition_style`, `win_volumes_end`, `win_volumes_read_only`, `wrappedBuffer_confined`
* `propext`, `Classical.choice`, `Quot.sound`: `ABuf.step_refines`, `accessors_never_panic`, `addNumber_atom`, `addRaw_silent_cut`, `addString_atom`, `addString_empty`, `addString_explicit`, `alignedBuffer_read_after_write`, `alignedBuffer_refines_cursor`, `all_closed`, `ata_capabilities`, `ata_command`, `ata_identity`, `ata_record_map`, `ata_security_registers`, `authenticate_sends`, `authenticate_verdict`, `basic_info`, `build_content`, `build_exact`, `call_ends`, `call_modeless`, `call_recovered`, `client_budget`, `client_crash`, `client_ends`, `client_never_crashes`, `close_final`, `close_once`, `com_ids`, `command_history_safe`, `commit_decision`, `commit_inside_when_complete`, `commit_leaks_adjacent_memory`, `commit_not_a_function_of_response`, `commit_of_encoded`, `commit_overread`, `commit_tiles`, `complete_lengths`, `concurrent_as_alone`, `concurrent_leak_free`, `concurrent_own_descriptors`, `defaultPassword_spec`, `default_password_conforming`, `default_password_nvme`, `default_password_on_miniport`, `default_password_on_nvme`, `default_password_on_scsi`, `default_password_on_windows_only`, `default_password_repeated`, `default_password_scsi`, `descriptor_census`, `develop_leaves_open`, `develop_log_page`, `develop_needs_nvme`, `develop_reads_only`, `develop_returns`, `device_kind_of_response`, `discovery_flags`, `discovery_flags_fresh`, `discovery_outcome`, `discovery_raw`, `discovery_vendor_nonzero`, `discovery_vendor_zero`, `drive_protected`, `ended_object_is_useless`, `enum_drives`, `enum_drives_panic`, `enum_opens_named`, `enum_volumes_grouping`, `enum_volumes_opens`, `enum_volumes_panic`, `enum_volumes_panic_iff`, `enum_volumes_partitions`, `enum_volumes_read_error`, `enum_volumes_scanner`, `error_mode_one_enumerator`, `error_mode_one_of_two`, `error_mode_race`, `error_mode_restored`, `exec_bounded`, `exec_counts`, `exec_exchanges`, `factory_state_stays`, `find_volumes_by_drive`, `fixAtaStringOrder_even`, `fixAtaStringOrder_odd`, `getCmdSize_roundUp`, `getToken_exact`, `getUint64_addNumber`, `getUint64_exact`, `getUint8_is_last_byte`, `guess_keyless`, `guesses_move_nothing`, `handle_crash_iff`, `held_handles_open`, `history_credentials`, `history_ledger`, `history_ledger_opened`, `history_ledger_opened_win`, `history_numbers`, `id_info`, `id_info_order`, `ignored_iff`, `init_outcome`, `init_short`, `init_tcg`, `ioctl_directions`, `ioctl_number_injective`, `ioctl_number_recoverable`, `leak_free`, `linux_close`, `linux_enum`, `linux_enum_reads_only`, `linux_open`, `linux_open_kinds`, `linux_open_reads_only`, `linux_partition_view`, `linux_send_fallback_zeros`, `lock_state`, `lock_state_short`, `log_page_command`, `log_page_fields`, `log_page_retries`, `log_page_small`, `looking_client_reads_only`, `looking_reads_only`, `msid_on_miniport`, `msid_opened_win`, `namesDrive_unique`, `no_use_after_close`, `number_roundtrip`, `nvmeWin_handle_leak`, `nvmeWin_open`, `nvme_identity`, `nvme_identity_any`, `nvme_named_fields`, `nvme_record_big_endian`, `nvme_record_map`, `nvme_records`, `nvme_security_end_to_end`, `nvme_security_fields`, `one_session_opened`, `one_session_opened_win`, `one_session_per_object`, `opal_device_sends`, `open_by_partition`, `open_by_path_drivers`, `open_by_path_error_iff`, `open_by_volume_path`, `open_by_volume_path_order`, `open_conforming_miniport`, `open_conforming_nvme`, `open_conforming_scsi`, `open_succeeds_miniport`, `open_succeeds_nvme`, `open_succeeds_scsi`, `open_then_close`, `opened_basic_info`, `parse_own_command`, `parsed_token_shape`, `partitionMatch_iff`, `passFlags_roundtrip`, `psid_revert_conforming`, `psid_revert_miniport`, `psid_revert_nvme`, `psid_revert_opened_win`, `psid_revert_scsi`, `readSmart_spec`, `recovered_history_comes_back`, `recovered_history_credentials`, `recovered_history_numbers`, `recovered_panic`, `recovered_uninitialised`, `rediscovery_never_forgets`, `reported_partition`, `revert_after_default_password`, `revert_blind_on_opened`, `revert_blind_on_windows`, `revert_by_hand`, `revert_by_hand_opened`, `revert_by_hand_opened_win`, `revert_conforming_safe`, `revert_on_miniport`, `revert_on_nvme`, `revert_on_scsi`, `revert_on_windows_only`, `revert_order`, `revert_safe_miniport`, `revert_safe_nvme`, `revert_safe_opened_win`, `revert_safe_scsi`, `revert_start_error`, `revert_success`, `reverts_counted`, `scan_fuel`, `sendCommand_panics_iff`, `sendCommand_stamped`, `sendCommand_status`, `sendCommand_success_iff`, `session_numbers_echoed`, `setMultipleCount_wrong`, `settings_unobservable`, `sgOpen_spec`, `sgSec_cdb`, `sgSec_data`, `sgSec_ignores_sense`, `sgSec_ioctl_count`, `sg_cdb_faithful`, `sg_ioctl_count`, `sg_read_buffer`, `sg_security_records`, `sg_sense`, `sg_task_records`, `sg_timeouts`, `sg_verdict_by_format`, `sg_write_zeros`, `shared_drive_protected`, `shared_drive_states`, `shared_password_exclusive`, `shared_password_false`, `shared_revert_exclusive`, `shared_revert_false_success`, `shared_revert_wrong_password`, `sid_revert_conforming`, `sid_revert_miniport`, `sid_revert_never`, `sid_revert_nvme`, `sid_revert_opened_win`, `sid_revert_scsi`, `smart_disk_read`, `smart_disk_read_windows`, `smart_linux`, `smart_windows`, `soleDev_spec`, `stamping_frame`, `stamping_keeps_tokens`, `start_outcome`, `start_outcome_opened`, `start_outcome_opened_win`, `start_recovered`, `start_sends`, `start_sends_fresh`, `start_succeeds_on_numbers`, `string_roundtrip`, `swap16_spec`, `swap32_spec`, `table_conforming`, `table_named_range`, `table_outcome_opened`, `table_outcome_opened_win`, `table_range`, `tcg_on_miniport`, `tcg_on_nvme`, `tcg_on_scsi`, `tcg_on_windows_only`, `tcg_unbound_on_windows`, `text_distinct`, `text_given`, `text_received`, `text_round_trip`, `tfInitLocal_address`, `tfInit_param`, `tiles_meaning`, `trimSpace_spec`, `union_decoders`, `unsupported_device_silent`, `version_field`, `volume_by_name`, `win_all_closed`, `win_ata_command`, `win_ata_open`, `win_ata_records`, `win_ata_result`, `win_basic_info`, `win_call_ends`, `win_client_crash`, `win_client_ends`, `win_client_never_crashes`, `win_concurrent_as_alone`, `win_concurrent_leak_free`, `win_concurrent_own_handles`, `win_develop_leaves_open`, `win_develop_reads_only`, `win_develop_without_drives`, `win_drive_partition_view`, `win_drive_protected`, `win_driver_order`, `win_enum_drives`, `win_enum_ends`, `win_enum_handles`, `win_enum_panic`, `win_enum_reads_only`, `win_enum_volumes`, `win_first_driver`, `win_guesses_move_nothing`, `win_handle_census`, `win_handle_crash_iff`, `win_held_handles_open`, `win_leak_free`, `win_log_page_command`, `win_looking_client_reads_only`, `win_looking_reads_only`, `win_miniport_admin`, `win_miniport_status_unseen`, `win_no_use_after_close`, `win_open_by_handle`, `win_open_by_partition`, `win_open_by_volume`, `win_open_handles`, `win_open_kinds`, `win_open_reads_only`, `win_partition_view`, `win_reads`, `win_requests`, `win_scsi_open`, `win_scsi_records`, `win_scsi_result`, `win_sec_cdb`, `win_security_miniport`, `win_send_zeros`, `win_storage_query`, `win_volumes_handles`, `win_volumes_panic`, `win_volumes_return`, `win_volumes_unwind`, `win_writes_are_zeros`, `windowsNvme_open`, `windows_log_page`, `wire_after_complete`, `wrappedBuffer_refines_cursor`

## Properties: what is modelled and how it is proved

### C01 Number tokens survive the wire

For every 64-bit value v, the bytes AddNumberToken(v) appends to a command are one atom: a single byte when v < 64, otherwise 0x81/0x82/0x84/0x88 followed by 1/2/4/8 big-endian bytes, the shortest of those that fits. When such an atom arrives in a response, the parser yields exactly one token for it and GetUint64 on that token returns v without error.

*Plan.* Model AddNumberToken and GetUint64 over BitVec 64; prove the encoder equals an independent big-endian specification and that decode after encode is the identity.

*Theorems.* `Dparm.addNumber_atom`, `Dparm.getUint64_addNumber`, `Dparm.number_roundtrip` (proved).

### C02 Byte-string tokens of 1 to 2047 bytes survive the wire

For every string of 1 to 2047 bytes, AddStringToken appends one byte-string atom (short form below 16 bytes, medium form from 16) whose length field is the string's length, and when it arrives in a response GetString and GetBytes on the resulting token return exactly the original bytes.

*Plan.* Encoder equals the specification's short/medium atom; length field arithmetic on bits; decode by dropping the header.

*Theorems.* `Dparm.addString_atom`, `Dparm.getString_addString`, `Dparm.string_roundtrip` (proved).

### C03 Byte-string tokens outside 1..2047 bytes do not survive, and no error is reported

AddStringToken("") appends the atom A1 00, which decodes to a one-byte string holding NUL, not to the empty string. For every string of 2048 bytes or more AddStringToken appends nothing at all and still returns a nil error. With an explicit length argument that differs from the text's length, the header announces the argument and the payload is still the whole text.

*Plan.* Exact characterisation of the model for all lengths, with a negative round-trip theorem.

*Theorems.* `Dparm.addString_empty`, `Dparm.addString_too_long`, `Dparm.addString_explicit` (proved).

### C04 A command buffer holds exactly the tokens added, in order

After Init and any sequence of AddToken/AddRawToken/AddStringToken/AddNumberToken calls whose total size fits the buffer and none of which adds an empty raw token, the command buffer contains a zero header of 56 bytes followed by the concatenation, in call order, of each call's own encoding, and every call returned nil. (AddRawToken of an empty slice returns io.EOF and changes nothing.)

*Plan.* Induction over the call list; each call is an append of its encoding on the abstract cursor buffer.

*Theorems.* `Dparm.build_exact`, `Dparm.addRaw_empty` (proved).

### C05 A full command buffer truncates silently but never writes out of bounds

For every sequence of add calls, without any size limit, no byte outside the 61440-byte command window changes, the write position never passes 61440, and no call panics; a non-empty write that does not fit entirely stores the prefix that fits and still reports success (the token is cut), and only a write at position 61440 exactly reports EOF.

*Plan.* Invariant over operations on the buffer model with an explicit surrounding allocation.

*Theorems.* `Dparm.build_content`, `Dparm.command_history_safe`, `Dparm.addRaw_silent_cut` (proved).

### C06 Finished commands carry consistent length fields

For every command whose payload plus trailer fits, after Complete the sub-packet length equals the number of token bytes (trailer F9 F0 00 00 00 F1 included unless it was suppressed), the packet length is that plus 12 rounded up with the padding to a multiple of 4, the com-packet length is the packet length plus 24, padding bytes are zero, all other header bytes and all token bytes are unchanged, and all three are big-endian at offsets 52, 40 and 16.

*Plan.* Model Complete through the struct codec, prove field values, padding and frame.

*Theorems.* `Dparm.complete_lengths` (proved).

### C07 Our own parser reads back our own commands

For every sequence of add calls made of well-formed single tokens that fits a response buffer, parsing the finished command bytes yields exactly the sequence of token encodings followed by the trailer tokens F9 F0 00 00 00 F1.

*Plan.* Compose C04, C06 and the parser theorem C13.

*Theorems.* `Dparm.parse_own_command` (proved).

### C08 Only the first 512 bytes of a command are transmitted

GetCmdSize is always a multiple of 512 and at least the write position; after Complete succeeded it is 512 whatever the command's length, so the buffer handed to the drive is the first 512 bytes: a finished command of at most 512 bytes is transmitted entirely (zero padded), a longer one loses every byte from offset 512 on.

*Plan.* Theorem on the size, the exact transmitted prefix, and a theorem that two different long commands with the same prefix are indistinguishable on the wire.

*Theorems.* `Dparm.getCmdSize_roundUp`, `Dparm.wire_after_complete` (proved).

### C09 Stamping a command touches only its header fields

SetComId, SetTSN and SetHSN change only bytes 4..7, 20..23 and 24..27 of the command respectively; they commute with one another and never change a token byte. The ComID is stored big-endian in the first two of its four bytes with zeros after.

*Plan.* Byte-level frame theorem on the buffer model.

*Theorems.* `Dparm.stamping_frame`, `Dparm.stamping_keeps_tokens` (proved).

### C10 Response parsing always terminates and rejects exactly over-long sub-packets

For every 2048-byte response, parsing terminates; it returns an error exactly when 56 plus the announced sub-packet length exceeds 2048, and then leaves the token list from before untouched; otherwise it succeeds.

*Plan.* Well-founded scan function; theorem on the decision.

*Theorems.* `Dparm.commit_decision`, `Dparm.scan_fuel` (proved).

### C11 Parsed tokens tile the payload

When parsing succeeds, the tokens together with the skipped empty atoms (single byte FF) cover the payload from offset 56 contiguously, in order, without gap or overlap, up to or past the announced end; no token is empty, none begins at or past the end, and only the last one can extend past it.

*Plan.* Induction over the scan with a cut-list specification.

*Theorems.* `Dparm.commit_tiles`, `Dparm.tiles_meaning` (proved).

### C12 Token bytes stay inside the payload exactly when the last token is complete

If the payload is a concatenation of complete tokens, every token lies inside the announced payload, so nothing outside the received sub-packet is ever exposed. If the last atom announces more bytes than remain, the token handed to the caller includes bytes beyond the announced end, and beyond the 2048-byte buffer for suitable responses; its content then depends on memory that the drive never sent.

*Plan.* Model memory after the buffer as an arbitrary function; containment theorem for well-formed payloads, over-read theorem for cut ones.

*Theorems.* `Dparm.commit_inside_when_complete`, `Dparm.commit_overread`, `Dparm.commit_leaks_adjacent_memory`, `Dparm.commit_not_a_function_of_response` (proved).

### C13 The parser inverts the token grammar

For every list of tokens of the TCG grammar (tiny, short, medium, long atoms and control tokens) whose encoding fits, parsing a response carrying that encoding returns exactly these tokens in order, with empty atoms removed.

*Plan.* Independent inductive grammar with its encoder; parse-after-encode by induction.

*Theorems.* `Dparm.commit_of_encoded` (proved).

### C14 Token lookup is total for non-negative indexes

GetToken(i) returns nil exactly when i is at least the token count, the i-th token for 0 <= i < count, and panics exactly for negative i.

*Plan.* Direct characterisation on Int indexes.

*Theorems.* `Dparm.getToken_exact` (proved).

### C15 Token classification is total, and tiny atoms are classified with the wrong sign

For every token whose first byte is b, Type is byte-string, signed or unsigned for atoms according to b's flag bits, and b itself for control tokens F0..FF. For short, medium and long atoms the flags follow the TCG encoding. For tiny atoms the sign is inverted: Type says signed for exactly those bytes whose value GetUint64 returns as unsigned, and says unsigned for exactly those that GetUint64 rejects as signed.

*Plan.* Specification by the TCG table, kernel-checked over all bytes, lifted to tokens.

*Theorems.* `Dparm.type_total`, `Dparm.type_of_encoded`, `Dparm.tiny_sign_inverted` (proved).

### C16 Numeric accessors: exact value, exact rejections, silent truncation

GetUint64 returns the low six bits for unsigned tiny atoms; for short atoms without the sign bit (byte strings included) the big-endian value of the payload modulo 2^64; and an error for signed tiny or short atoms, medium atoms, long atoms and control tokens. GetUint32/16/8 return the same value modulo 2^32/2^16/2^8 with the same error.

*Plan.* BitVec 64 model of the shift loop; theorem against a big-endian fold.

*Theorems.* `Dparm.getUint64_exact`, `Dparm.narrow_accessors`, `Dparm.getUint8_is_last_byte` (proved).

### C17 Accessors never panic on parsed tokens

For every response, on every token the parser returned, Type, GetUint64, GetString and GetBytes do not panic; GetString and GetBytes return the same bytes, namely the token without its 1/2/4-byte header, an error for tiny atoms and an empty result with nil error for control tokens.

*Plan.* Invariant of parsed tokens (non-empty and at least header-sized), then totality.

*Theorems.* `Dparm.parsed_token_shape`, `Dparm.accessors_never_panic` (proved).

### C18 SendCommand succeeds exactly on a success status (or end of session)

SendCommand returns a nil error exactly when the exchange succeeded, the three length fields of the response are non-zero, at least one token was parsed, and either the first token is ENDOFSESSION or there are at least five tokens, the last is ENDLIST, the fifth from the end is STARTLIST and the fourth from the end is an unsigned number whose low byte is 0. A non-zero low byte yields a TCG error carrying exactly that status.

*Plan.* Decision-logic theorem (iff) over the session model with an arbitrary device.

*Theorems.* `Dparm.sendCommand_success_iff`, `Dparm.sendCommand_status` (proved).

### C19 SendCommand panics exactly on short responses

SendCommand panics exactly when the exchange succeeded, the length fields are non-zero and the response has one to four tokens of which the first is not ENDOFSESSION; no other response panics.

*Plan.* Exact panic condition on the model.

*Theorems.* `Dparm.sendCommand_panics_iff` (proved).

### C20 Every session command carries the session numbers and the device's ComID

For every session and every command, the bytes handed to the drive have the session's host and TPer session numbers in bytes 24..27 and 20..23, the device's base ComID big-endian in bytes 4..5 followed by two zero bytes, and the security command itself uses security protocol 1 and the same ComID.

*Plan.* Trace theorem on the first I/O of SendCommand.

*Theorems.* `Dparm.sendCommand_stamped` (proved).

### C21 Session numbers are echoed exactly as the drive assigned them

After Start returned without error on a non-enterprise device and the drive's reply carried host session number h and TPer session number t (as unsigned atoms, modulo 2^32), every later command of that session carries h and t as big-endian 32-bit values in its packet header.

*Plan.* Byte-swap algebra on BitVec 32 and a little-endian host; trace theorem.

*Theorems.* `Dparm.session_numbers_echoed`, `Dparm.start_succeeds_on_numbers` (proved).

### C22 Opening a session sends exactly the StartSession call for the requested SP

On a non-enterprise SSC device Start sends exactly one command: a CALL of method StartSession on the session manager with a list of the number 105, the SP's UID, the number 1, and, only when a challenge was given, two named values: 0 with the challenge and 3 with the signing authority. Its session numbers are those of the session before the call (zero for a fresh session).

*Plan.* Payload theorem against a grammar-level specification of the call.

*Theorems.* `Dparm.start_sends`, `Dparm.start_sends_fresh` (proved).

### C23 Which credential bytes leave the host

With hashing disabled the challenge value on the wire is the challenge's own bytes. With hashing enabled it is the 34-byte string D0 20 followed by the 32-byte derived key (the atom header is included in the value, so the drive sees a 34-byte challenge), and the command does not otherwise depend on the challenge. With an empty challenge neither challenge nor authority appears.

*Plan.* Key derivation as an arbitrary function; payload equality theorems.

*Theorems.* `Dparm.start_credential` (proved).

### C24 Password hashing ignores everything past 32 bytes

TcgHashPassword depends only on the first 32 bytes of the password and on the drive serial: any two passwords that agree on their first 32 bytes produce the same credential; the unhashed form is D0, the truncated length, and at most 32 bytes of the password.

*Plan.* Non-interference theorem with an arbitrary key derivation.

*Theorems.* `Dparm.hash_prefix` (proved).

### C25 Closing a session never talks to the drive

In every history of session operations, Close performs no I/O, because no operation ever marks a session as open; sessions opened on the drive are never closed by the library.

*Plan.* Invariant sessionOpened = false over operation lists; trace unchanged by Close.

*Theorems.* `Dparm.close_unobservable` (proved).

### C26 RevertTPer issues the revert only after authentication succeeded

For every device behaviour, RevertTPer on an Opal drive sends at most two commands; the first is StartSession on the Admin SP with the given password and authority SID (or PSID), and the Revert call on the Admin SP is sent only if the first exchange returned a success status and both session numbers were readable. If starting the session fails, nothing destructive is sent and the same error is returned.

*Plan.* Trace theorem on the interaction model.

*Theorems.* `Dparm.revert_order`, `Dparm.revert_start_error` (proved).

### C27 RevertTPer reports success only if the drive reported success twice

If RevertTPer returns nil, then the drive answered both StartSession and Revert with accepted responses (status 0 or end-of-session).

*Plan.* Inversion on the interaction model.

*Theorems.* `Dparm.revert_success` (proved).

### C28 PSID reverts are unhashed, SID reverts are hashed

RevertTPer with the PSID flag uses the PSID authority and sends the password bytes unhashed; without the flag it uses the SID authority and sends only the derived key; the isAdminSp argument never changes what an Opal drive receives.

*Plan.* First-command payload theorem per flag.

*Theorems.* `Dparm.revert_secret` (proved).

### C29 Reading the default password sends no secret and returns the drive's string verbatim

GetDefaultPassword on an Opal drive opens an anonymous session on the Admin SP and issues one Get on C_PIN_MSID restricted to the PIN column; when it succeeds the result is the payload of the fifth token of the reply, and it errors if there is no such token.

*Plan.* Trace and result theorem.

*Theorems.* `Dparm.defaultPassword_spec` (proved).

### C30 Enterprise and generic devices never receive a command

On an Enterprise device and on a generic device, RevertTPer, GetDefaultPassword, session Start, Authenticate and SendCommand perform no I/O at all and fail with "not supported"; the Enterprise code paths are unreachable.

*Plan.* Exec refuses before I/O because the enterprise type does not override the SSC test.

*Theorems.* `Dparm.unsupported_device_silent`, `Dparm.opal_device_sends` (proved).

### C31 One send, then receives, all on the same protocol and ComID

For every device behaviour, Exec on an SSC device performs exactly one security send carrying the command's transmitted bytes, then (if the send succeeded) at least one security receive of 2048 bytes, and nothing else; all use the given protocol and the device's base ComID with a 5 second timeout.

*Plan.* Trace shape theorem by induction over the polling loop.

*Theorems.* `Dparm.exec_exchanges`, `Dparm.exec_counts` (proved).

### C32 Polling continues exactly while the drive says more is pending

Exec polls again exactly when the last receive succeeded, the timeout had not expired and the response has a non-zero outstanding count and zero minimum transfer; the response it parses is the last one received, into a buffer that was zeroed beforehand, so no byte of an earlier response survives.

*Plan.* Induction over the loop; final response equals last reply.

*Theorems.* `Dparm.exec_exchanges` (proved).

### C33 Polling is bounded in time

If each 25 ms sleep advances the clock by at least 25 ms, Exec performs at most 402 receives and returns; when the clock passed 10 seconds before a receive, that receive's data is discarded with error "timeout". Any send or receive error is returned unchanged at once.

*Plan.* Fuel-indexed loop with a clock oracle; the fuel is proved sufficient.

*Theorems.* `Dparm.exec_bounded`, `Dparm.exec_exchanges` (proved).

### C34 Device kind selection

NewTcgDevice chooses Opal 1 if the drive advertises SSC V1.00, else Opal 2 if V2.00, else Enterprise, else generic; never fails; and depends only on the discovery information and serial at that moment.

*Plan.* Decision theorem.

*Theorems.* `Dparm.device_kind`, `Dparm.device_kind_of_response` (proved).

### C35 Lock-state queries report exactly the locking descriptor's bits

IsLockingEnabled, IsLocked, IsMediaEncryption, IsMBREnabled and IsMBRDone return bits 1, 2, 3, 4 and 5 of byte 4 of the last locking descriptor (of at least five bytes) found by discovery, and false whenever discovery did not report locking; for a locking descriptor without body they report the byte that happens to follow it.

*Plan.* Compose discovery walk and getter; bit-level theorem.

*Theorems.* `Dparm.lock_state`, `Dparm.lock_state_short` (proved).

### C36 Base ComID and ComID count come from the SSC descriptor

GetBaseComId and GetNumComIds return the big-endian 16-bit values at bytes 4 and 6 of the last descriptor (of at least eight bytes) for the device's own SSC, and 0 for a generic device.

*Plan.* Byte-level theorem per device kind.

*Theorems.* `Dparm.com_ids` (proved).

### C37 Discovery terminates and panics exactly on an overrunning descriptor

For every 2048-byte discovery response, TcgDiscovery0 terminates; it reports "length overflow" exactly when the announced length exceeds 2048; it panics exactly when some visited descriptor's announced size runs past 2048; otherwise it returns nil.

*Plan.* Well-founded walk with explicit panic outcome and an exact characterisation through the descriptor walk specification.

*Theorems.* `Dparm.discovery_outcome` (proved).

### C38 Feature flags mirror the descriptors

After a successful discovery on a fresh handle, each of the eight feature flags is true exactly when the walk visited a descriptor with that feature's code.

*Plan.* Induction over the walk.

*Theorems.* `Dparm.discovery_flags`, `Dparm.discovery_flags_fresh` (proved).

### C39 The raw feature table keeps the last descriptor of each code, complete

After a successful discovery on a fresh handle, the raw feature for code c is present exactly when a descriptor with code c was visited and is then the full descriptor (header included, length byte plus 4 bytes) of the last such descriptor.

*Plan.* Induction over the walk with a last-wins specification.

*Theorems.* `Dparm.discovery_raw` (proved).

### C40 Starting the walk at byte 32 instead of 48 is harmless for compliant drives

The walk starts at offset 32 although the specification's header has 48 bytes. If bytes 32..47 are zero, the walk visits four empty descriptors of code 0 and then continues at 48, so flags and raw features other than code 0 are those of a walk from 48; with non-zero vendor bytes there it misreads them as descriptors.

*Plan.* Four unfoldings of the walk plus the accumulation theorem; a witness for the other case.

*Theorems.* `Dparm.discovery_vendor_zero`, `Dparm.discovery_vendor_nonzero` (proved).

### C41 TCG support indicator

Discovery sets the support indicator to -1 exactly when the security command failed with "not supported", to 0 when it failed with any other error, and to 1 whenever it succeeded (even if the response is then rejected); on failure no flag and no raw feature changes.

*Plan.* Case theorem.

*Theorems.* `Dparm.discovery_support` (proved).

### C42 Rediscovery never forgets

Across any sequence of discoveries on one handle, a feature flag once set stays set, and a raw feature once present stays present; so a feature the drive no longer reports is still reported.

*Plan.* Monotonicity by induction over discoveries.

*Theorems.* `Dparm.rediscovery_never_forgets` (proved).

### C43 Typed descriptor decoders: which can succeed

On the 16-byte feature union ToBasic, ToOpalSscV100, ToSingleUserMode and ToDataStoreTable always succeed with every field the big-endian number at its offset in the TCG descriptor and GetVersion the high nibble; ToTper, ToLocking, ToGeometry, ToOpalSscV200 and ToEnterpriseSSC fail for every content, since their records are longer than the union.

*Plan.* Struct codec with layouts taken from the type declarations.

*Theorems.* `Dparm.union_decoders` (proved).

### C44 Security commands: driver first, one fallback at most

DriveHandle.SecurityCommand first asks the driver; on success it stops. On failure an ATA driver gets exactly one taskfile command and an NVMe driver exactly one admin command, whose result is the final result; any other driver's error is returned as is. After Close it fails with "not supported" without I/O.

*Plan.* Interaction-tree theorem.

*Theorems.* `Dparm.security_fallback` (proved).

### C45 ATA trusted send/receive registers

The ATA fallback uses opcode 5E/5F for sending (PIO/DMA) and 5C/5D for receiving, the security protocol in the feature register, the ComID little-endian across LBA mid/high, and the buffer length in 512-byte blocks modulo 256 in the sector count: the count matches the buffer exactly for multiples of 512 below 131072, and is wrong otherwise.

*Plan.* Register theorem and exact characterisation of the count.

*Theorems.* `Dparm.ata_security_registers` (proved).

### C46 NVMe security send/receive encoding is faithful

The NVMe fallback uses opcode 81h to send and 82h to receive, with protocol, ComID and length recoverable from CDW10 bits 31..24, 23..8 and CDW11, for every protocol and ComID and every length below 2^32.

*Plan.* BitVec field-extraction theorem.

*Theorems.* `Dparm.nvme_security_fields` (proved).

### C47 Close is idempotent and final

In any sequence of operations on a drive handle the driver is closed at most once, and after Close no operation reaches the driver: SecurityCommand and discovery fail with "not supported", taskfile and log-page calls with "not supported in this driver", while GetDrivingType and GetDriverName panic.

*Plan.* State machine over operations, invariant over histories.

*Theorems.* `Dparm.close_once`, `Dparm.close_final` (proved).

### C48 Identity strings are trimmed, word-swapped copies of the identity data

After Init on an ATA drive, model (bytes 54..93), firmware (46..53) and serial (20..39) are the identity bytes with each pair swapped and with all leading and trailing space, tab, CR, LF and NUL removed; the raw serial is the swapped, untrimmed 20 bytes. On NVMe they are bytes 24..63, 64..71 and 4..23 unswapped.

*Plan.* Layout codec plus trim specification (maximal, both ends).

*Theorems.* `Dparm.ata_identity`, `Dparm.nvme_identity`, `Dparm.ata_strings_unique` (proved).

### C49 SMART and SSD flags

On ATA, SMART is reported enabled exactly when bit 0 of word 82 and bit 0 of word 85 are set; the SSD weight is 1 for form factor 5 plus 1 for rotation rate 0 or 1, and the drive counts as SSD exactly when the weight is positive. On NVMe both flags are true.

*Plan.* Bit-level theorem through the layout.

*Theorems.* `Dparm.ata_identity`, `Dparm.nvme_identity` (proved).

### C50 Init succeeds whenever the identity block is complete

Init never panics and returns nil for every driver whose identity has at least 512 (ATA) or 4096 (NVMe) bytes, whatever the drive answers to discovery unless a descriptor overruns; with a shorter identity it returns an error, leaves the handle without discovery, and still records the identity bytes as they came.

*Plan.* Totality theorem through the struct codec.

*Theorems.* `Dparm.init_outcome`, `Dparm.init_short` (proved).

### C51 Aligned buffers are aligned and in bounds

For every allocation address, every alignment of at least 1 and every size, the buffer's data pointer is a multiple of the alignment and the size bytes from it lie inside the allocation.

*Plan.* Arithmetic theorem.

*Theorems.* `Dparm.alignedBuffer_aligned_inBounds`, `Dparm.isAlignedPointer_newAlignedBuffer` (proved).

### C52 Buffers behave as a fixed-size array with two cursors

Every sequence of Write, WriteByte, Read, Reset, ResetRead, ResetWrite and in-range position and limit changes on an AlignedBuffer returns the same results and data as a plain byte array with a read and a write cursor; reads after writes return the written bytes; nothing outside the window changes. A WrappedBuffer does the same on its slice, and as long as its limit is not raised above the slice's length it neither touches nor looks at what lies between length and capacity.

*Plan.* Refinement to an abstract array with cursors, by induction.

*Theorems.* `Dparm.ABuf.step_refines`, `Dparm.alignedBuffer_refines_cursor`, `Dparm.alignedBuffer_read_after_write`, `Dparm.wrappedBuffer_refines_cursor`, `Dparm.wrappedBuffer_confined` (proved).

### C53 ATA byte swapping

AtaSwapWordEndian swaps the two bytes of each word for every even length, is its own inverse, and panics exactly for odd lengths, leaving all whole words swapped and the last byte as it was; AtaSwap16 and AtaSwap32 reverse byte order and are involutions.

*Plan.* List and BitVec theorems.

*Theorems.* `Dparm.swap_spec`, `Dparm.swap_kept`, `Dparm.swap16_spec`, `Dparm.swap32_spec` (proved).

### C54 FixAtaStringOrder

For even lengths FixAtaStringOrder returns the word-swapped bytes up to (not including) the first NUL of the swapped data, with trailing spaces removed exactly when asked; it does not modify its input; on odd lengths it panics exactly if no NUL was met before the last byte.

*Plan.* Loop model against takeWhile/dropTrailing specification.

*Theorems.* `Dparm.fixAtaStringOrder_even`, `Dparm.fixAtaStringOrder_odd` (proved).

### C55 LBA48 decision

IsNeedsLba48 is true for the ten EXT/DSM opcodes, false for the four fixed opcodes, and for any other opcode true exactly when the sector count exceeds 255, or the start sector or the last sector of the transfer is at least 2^28 - 1; no arithmetic wrap-around occurs in that decision.

*Plan.* Unsigned wrap-around arithmetic modelled in BitVec 64.

*Theorems.* `Dparm.lba48_decision`, `Dparm.ext_not_fixed`, `Dparm.isDma_spec` (proved).

### C56 TfInit has no effect for its caller

TfInit takes the taskfile by value, so for every argument the caller's taskfile is unchanged; the registers it computes locally would decode (by the Linux driver's address computation) to the LBA modulo 2^48 when LBA48 is used and otherwise to the LBA modulo 2^28, which is the LBA itself unless the opcode is one of the four fixed 28-bit ones.

*Plan.* Model both the callee's local copy and the caller's view.

*Theorems.* `Dparm.tfInit_no_effect`, `Dparm.tfInit_param`, `Dparm.tfInitLocal_address` (proved).

### C57 SG taskfile CDBs are faithful

For every taskfile the CDB sent to the kernel is ATA PASS-THROUGH(16) with the EXTEND bit if LBA48 is set and (12) otherwise, and all registers used by the respective form can be read back from it; protocol, transfer-length, byte-block, direction and check-condition fields match the data presence, direction and DMA flag.

*Plan.* CDB byte theorem and decoder specification after SAT.

*Theorems.* `Dparm.sg_cdb_faithful`, `Dparm.satDecode_sgTaskCdb` (proved).

### C58 Linux taskfile writes always send zeros

For every write (rw) with data, the caller's buffer is zeroed before the first ioctl and the bytes transferred are zeros, whatever the caller supplied; reads do not zero the buffer first.

*Plan.* Trace theorem: request data equals zeros.

*Theorems.* `Dparm.sg_write_zeros`, `Dparm.sg_read_buffer` (proved).

### C59 At most two ioctls per command, the second only after a failure

doTaskFileCmd and scsiSecurityCommand issue one SG_IO, and a second one exactly if the first failed; the second carries the same CDB and length; the result is nil only if one of them succeeded.

*Plan.* Interaction theorem.

*Theorems.* `Dparm.sg_ioctl_count`, `Dparm.sgSec_ioctl_count` (proved).

### C60 Sense data becomes an error; registers are reported back otherwise

When the first ioctl succeeds, a non-zero sense key yields an error carrying the status and sense data and leaves the taskfile unchanged; a zero key updates the taskfile from the descriptor bytes and returns nil. After a successful second ioctl the sense data of that ioctl is discarded and nothing it returned reaches the caller's read buffer.

*Plan.* Case theorem on the model.

*Theorems.* `Dparm.sg_sense`, `Dparm.sg_read_buffer` (proved).

### C61 SCSI security CDBs are faithful

The SG security command uses opcode B5 to send and A2 to receive, protocol in byte 1, ComID big-endian in bytes 2..3 and the length big-endian in bytes 6..9; sends transmit the caller's bytes unchanged and receives start from a zeroed buffer.

*Plan.* CDB theorem through the struct codec, trace theorem.

*Theorems.* `Dparm.sgSec_cdb`, `Dparm.sgSec_data` (proved).

### C62 NVMe log pages: one identical command retried

NvmeGetLogPageByAdminPassthru issues the same full-size Get Log Page command at offset 0 until it first succeeds, at most ceil(size/4096) times and not at all for size 0; it returns nil error exactly if size is 0 or some attempt succeeded.

*Plan.* Loop induction with a device oracle.

*Theorems.* `Dparm.log_page_retries` (proved).

### C63 NVMe log page command fields

For a log id of 8 bits and a size from 4 bytes up to 2^34, every Get Log Page command names exactly that log id and retain flag, log specific fields 0, offset 0, and asks for floor(size/4) dwords (zero-based count split over CDW10 and CDW11), with the size as data length; sizes 1 to 3 ask for 2^32 dwords, and a negative size panics before any command.

*Plan.* Decoding specification of the command dwords; arithmetic on disjoint bit fields.

*Theorems.* `Dparm.log_page_fields`, `Dparm.log_page_small`, `Dparm.log_page_negative` (proved).

### C64 NVMe passthrough copies every command field

DoNvmeAdminPassthru hands the kernel a record equal to the caller's in all 18 fields; DoNvmeIoPassthru copies all but the data length, which is always 0.

*Plan.* Record equality theorem.

*Theorems.* `Dparm.admin_passthru_faithful`, `Dparm.io_passthru_no_length`, `Dparm.user_io_faithful` (proved).

### C65 ioctl numbers

IOC packs direction, type, number and size so that each is recoverable when in range, and distinct in-range inputs give distinct numbers; IOR encodes the read-write direction instead of read.

*Plan.* BitVec theorem.

*Theorems.* `Dparm.ioctl_number_recoverable`, `Dparm.ioctl_number_injective`, `Dparm.ioctl_directions` (proved).

### C66 CDB bit-field setters

Every setter except SetMultipleCount and SetExtend stores its value so that its getter reads it back and no other field of the CDB changes. SetMultipleCount instead overwrites the second flag byte and leaves the multiple count unchanged; SetExtend changes the low bit of the transfer-length field and never the EXTEND bit of the command.

*Plan.* BitVec 8 theorems, kernel-checked over all bytes.

*Theorems.* `Dparm.passFlags_fields`, `Dparm.passFlags_roundtrip`, `Dparm.setMultipleCount_wrong`, `Dparm.setExtend_wrong`, `Dparm.cdbB01_fields` (proved).

### C67 Drive opening on Linux: last matching driver wins; opening never fails after the device opened

OpenByPath returns an error exactly when the device node cannot be opened; otherwise the handle uses the last driver in list order that accepted it (or none), and Init ran once per accepting driver. If none accepted, the file descriptor is owned by nobody: Close on the handle does not release it.

*Plan.* Fold model with descriptor ownership.

*Theorems.* `Dparm.open_by_path_error_iff`, `Dparm.open_by_path_drivers`, `Dparm.open_then_close` (proved). A panic of Init (short identity data or a malformed discovery answer) propagates; the statement about drivers is for calls that return.

### C68 Drive enumeration filter

EnumDrives opens exactly the block devices of /sys/block whose name contains neither "loop" nor "sr", in directory order, and reports one record per device that could be opened.

*Plan.* List filter theorem.

*Theorems.* `Dparm.enum_drives` (proved). For calls that return; C113 is about calls that panic.

### C69 Volume enumeration groups mounts by device

EnumVolumes yields one volume per distinct device field of /proc/mounts; its mount points are exactly the mount fields of that device's lines in order, and its file system is the one on the first such line (lines with an empty device field keep the last one). It fails if the table cannot be opened.

*Plan.* Refinement to group-by specification by induction on lines.

*Theorems.* `Dparm.enum_volumes_grouping`, `Dparm.mountFields_eq` (proved). Errors that come with a line are covered by C91's specification.

### C70 Opening a drive by volume path depends on map order

OpenDriveByVolumePath looks only at the first entry in map iteration order: it opens the drive if that entry matches and otherwise returns nil without error, so with two or more volumes there is an iteration order in which an existing volume is not found.

*Plan.* Model iteration order as an arbitrary permutation.

*Theorems.* `Dparm.open_by_volume_path`, `Dparm.open_by_volume_path_order` (proved). The map's iteration order is the order of the list; the second theorem exhibits a bad order for every path.

### C71 MBR table reading

The MBR reader accepts exactly 512-byte sectors ending in 55 AA and returns the little-endian 32-bit identifier at offset 440.

*Plan.* Byte theorem.

*Theorems.* `Dparm.mbr_accepts_iff`, `Dparm.mbr_read` (proved).

### C72 Null-terminated text extraction

readNullTerminatedAscii returns the bytes from the offset up to the first NUL, and the empty string when the offset is not positive or no NUL follows, and panics exactly if the offset exceeds the buffer; wcslen returns the index of the first zero or the length.

*Plan.* List theorems.

*Theorems.* `Dparm.nul_text_found`, `Dparm.nul_text_none`, `Dparm.wcslen_spec` (proved).

### C73 Windows drivers zero every outgoing buffer

On Windows, ATA and SCSI taskfile writes and SCSI security sends transmit zeros whatever the caller supplied (for security sends this erases the TCG command), and receives do not clear the buffer.

*Plan.* Trace theorem.

*Theorems.* `Dparm.win_writes_are_zeros`, `Dparm.win_reads` (proved). PassOp ranges over the three commands; payload reads what Windows is given.

### C74 Windows ATA fallback judges the command byte instead of the status

When the direct ATA ioctl fails and the buffered one succeeds, the driver tests bits 0 and 3 of the command opcode it had put in the register image (the image is not copied back), so the outcome is decided by the opcode and is independent of the drive's status; for IDENTIFY DEVICE (EC) it always fails.

*Plan.* Interaction theorem.

*Theorems.* `Dparm.win_ata_result`, `Dparm.win_ata_open` (proved). win_ata_open covers the sentence on IDENTIFY DEVICE.

### C75 Windows: first matching driver wins

OpenByHandle uses the first driver in list order that accepts the handle and does not try later ones.

*Plan.* Fold theorem.

*Theorems.* `Dparm.win_first_driver`, `Dparm.win_driver_order`, `Dparm.win_open_by_handle` (proved). Spec/WinFactory.lean: FirstAccepted, NoneAccepted.

### C76 Windows volume mount points stop after the first

For every multi-string of mount points the enumeration records at most one: the first string.

*Plan.* Loop model on the UTF-16 buffer.

*Theorems.* `Dparm.win_first_mount_only` (proved). Spec/WinVolume.lean: multiString.

### C77 Authenticate succeeds exactly when the drive's result has low byte 0

For every device behaviour Authenticate sends one Authenticate call (authority as given; the hashed or plain challenge only if non-empty) and returns nil exactly when that command was answered by an accepted response whose second token carries a number with low byte 0. An accepted response carrying TRUE (1) is therefore reported as a failure and FALSE (0) as success.

*Plan.* Verdict theorem (iff) on the interaction model; payload theorem.

*Theorems.* `Dparm.authenticate_verdict`, `Dparm.authenticate_sends` (proved). The verdict is inverted with respect to the TCG boolean; see FINDINGS in DESIGN.md.

### C78 On Linux the ATA fallback of a TCG send transmits zeros

When the SG driver's own SCSI security command fails for a send, the handle falls back to the ATA trusted send through the SG taskfile path, and the data phase of that command consists of zeros whatever the caller (for instance a TCG session) supplied.

*Plan.* Compose the handle model with the SG driver model and inspect the transferred bytes.

*Theorems.* `Dparm.linux_send_fallback_zeros` (proved).

### C79 The NVMe identity record in DriveInfo is decoded big-endian

After Init on an NVMe drive every multi-byte integer of the decoded identity record is the big-endian value of its bytes, while NVMe stores them little-endian; strings and raw data are unaffected.

*Plan.* Field theorem on the unpacked record.

*Theorems.* `Dparm.nvme_record_big_endian`, `Dparm.nvme_named_fields`, `Dparm.nvme_identity_any` (proved).

### C80 Discovery's use of the length field

The announced length of a discovery response does not count its own four bytes, yet the walk treats it as the end of the data. A response whose descriptors end exactly at announced length plus four is nevertheless visited completely, unless its last descriptor has an empty body, which is then skipped.

*Plan.* Theorem on cuts of the buffer into descriptors.

*Theorems.* `Dparm.announced_without_itself` (proved).

### C81 ReadSmart reads values, then thresholds, into one buffer

ReadSmart issues a SMART READ DATA (D0) and, only if it succeeded, a SMART READ THRESHOLDS (D1) taskfile on the same 512-byte buffer, which is not cleared in between, so bytes the second command does not deliver show the first one's data; it returns the first error it meets, otherwise both decoded records, whose fields are the bytes at the offsets of ATA's SMART tables, except that the 16-bit revision and attribute flags come out with their two bytes exchanged; it never panics on an open or closed handle.

*Plan.* Interaction theorem over the handle model.

*Theorems.* `Dparm.readSmart_spec`, `Dparm.readSmart_no_ata` (proved).

### C82 A rejected SG security command counts as success

The SG driver's security command asks the kernel for 0 bytes of sense data and decides by the ioctl result alone: it returns nil exactly if one of its (at most two) ioctls returned nil, whatever SCSI status and sense data the drive produced.

*Plan.* Interaction theorem under the SG_IO contract (at most mx_sb_len sense bytes are written).

*Theorems.* `Dparm.sgSec_ignores_sense` (proved).

### C83 SG timeouts: seconds passed as milliseconds

Every ioctl of a taskfile command carries the caller's number of seconds in the header's millisecond field (modulo 2^32), while every ioctl of a security command carries 1000 times that number (modulo 2^32).

*Plan.* Request theorem.

*Theorems.* `Dparm.sg_timeouts` (proved).

### C84 SG verdict and the sense format

When the ioctl succeeds, a taskfile command on Linux returns nil exactly if the sense key is 0, provided the sense data is in fixed format; for descriptor format (the format that carries ATA registers) the verdict is instead decided by the low half of the additional sense code, so for instance an aborted command is reported as success.

*Plan.* Case theorem against a specification of both sense formats.

*Theorems.* `Dparm.sg_verdict_by_format` (proved).

### C85 Opening a drive through the SG driver

Opening sends IDENTIFY DEVICE once, and once more only if the ioctl failed; it succeeds exactly if an ioctl succeeded and the first one's sense area shows key 0 in fixed format; the identity then is what the first ioctl delivered (even if that ioctl failed) followed by zeros; it never panics.

*Plan.* Composition of the taskfile theorems with the aligned buffer model.

*Theorems.* `Dparm.sgOpen_spec` (proved).

### C86 ioctl results: device status and system error share one namespace

The Linux ioctl wrapper reports nil exactly if the system call's return value and error number are both zero; a positive return value n (the NVMe status) and the error number n give the same error value.

*Plan.* Case theorem.

*Theorems.* `Dparm.ioctl_success_iff`, `Dparm.nvme_status_looks_like_errno` (proved).

### C87 Opening a drive through the Linux NVMe driver

Opening issues exactly one Identify Controller command for 4096 bytes, succeeds exactly if that ioctl succeeds, and the identity is then what the device delivered into a zeroed 4096-byte buffer.

*Plan.* Interaction theorem.

*Theorems.* `Dparm.nvme_open` (proved).

### C88 Security commands through the handle on Linux NVMe

On the Linux NVMe driver SecurityCommand becomes exactly one ioctl: an NVMe Security Send (81h) or Receive (82h) with the caller's protocol and ComID, the buffer length as transfer length and data length, and the buffer exactly as supplied; the result is the ioctl's and delivered bytes are found in the buffer. The caller's timeout and DMA flag have no effect.

*Plan.* Composition (interp) of the handle model with the driver model.

*Theorems.* `Dparm.nvme_security_end_to_end` (proved).

### C89 Capacity and partition data of an opened drive on Linux

A drive opened by path reports the capacity, partition style, GPT id and MBR signature found by ReadBasicInfo on the opened descriptor; ReadBasicInfo succeeds exactly if the partition library opens the device and HDIO_GETGEO succeeds, whatever the size ioctl said. If HDIO_GETGEO fails (as on NVMe devices) the record shows capacity 0 and style raw although both are known. The drivers tried afterwards never change these fields.

*Plan.* Case analysis of the probe program; invariance of the fields through the driver loop.

*Theorems.* `Dparm.basic_info`, `Dparm.opened_basic_info` (proved).

### C90 Model and serial from /dev/disk/by-id

For every directory content and every iteration order of the map, the model and serial reported before a driver answers are those carried by the name of some not-ignored link that resolves to the device path and contains an underscore (serial after the last underscore, model between the first hyphen and it), empty if there is none; one link that cannot be resolved empties all four texts, whichever drive it belongs to; if two links qualify either can be reported. When no driver accepts, these are the final texts.

*Plan.* Induction over the directory; permutation-invariant statement; declarative reading of the regular expression and of LastIndex/Cut.

*Theorems.* `Dparm.id_info`, `Dparm.ignored_iff`, `Dparm.namesDrive_unique`, `Dparm.id_info_order`, `Dparm.soleDev_spec`, `Dparm.trimSpace_spec`, `Dparm.opened_basic_info` (proved).

### C91 Partition information of mounted volumes

For every mount table and system behaviour, a volume carries partition information exactly if some line for its device ("/dev/…<digit>p<number>") led to an inquiry that opened the parent drive, read its partition table and geometry, and found an entry with that number (from 1); it is that entry of the last such inquiry: style, type, identifiers and start of the entry, and the parent path from the name. The reported size is always the start of the partition, never its size.

*Plan.* Trace specification (inquiries per line) proved by induction on the lines; soundness theorem for the reported values.

*Theorems.* `Dparm.enum_volumes_partitions`, `Dparm.reported_partition`, `Dparm.partitionMatch_iff` (proved). Spec/Volume.lean: Probe, Look, ScanSpec.

### C92 Enumerating volumes leaks one descriptor per partition line

A successful EnumVolumes opens the parent drive once for each mount line whose device is a partition — again for every further line on the same drive — and closes none of these descriptors.

*Plan.* Trace theorem (list of opens, no close).

*Theorems.* `Dparm.enum_volumes_opens` (proved).

### C93 Partition number 0 crashes volume enumeration

EnumVolumes panics only when a mounted device is named …p0 (00, …) and its drive has a partition table; when all drives are readable it panics exactly if such a device is mounted. Without such a name it always returns.

*Plan.* Corollaries of the trace specification.

*Theorems.* `Dparm.enum_volumes_panic`, `Dparm.enum_volumes_panic_iff` (proved).

### C94 Finding volumes of a drive

FindVolumesByDrive returns the volume whose device field equals the drive's path: exactly one if the drive itself is mounted, none otherwise, even if partitions of the drive are mounted. GetList reports every volume once: for each device of the mount table its path, the file system and mount points of its lines, and the partition found for it, if any.

*Plan.* From the grouping specification.

*Theorems.* `Dparm.find_volumes_by_drive`, `Dparm.volume_list` (proved). Hypothesis Grouped is what C69 proves of every enumeration.

### C95 Errors that end the scan of the mount table are lost

If reading /proc/mounts fails after a complete line, or a line has 65536 bytes or more, EnumVolumes succeeds with the lines before that point and drops the rest silently; a read error in the middle of a line is reported.

*Plan.* Model of the line scanner; equality of the enumerations.

*Theorems.* `Dparm.enum_volumes_scanner`, `Dparm.enum_volumes_read_error`, `Dparm.content_cases` (proved). bufio.Scanner modelled on file content.

### C96 Windows pass-through: one direct request, one buffered retry

Every ATA/SCSI taskfile command and SCSI security command on Windows sends the direct control code once, with a 512-aligned data area of exactly the caller's length; only if that fails, the buffered code once with record and data in one buffer; nothing else. SCSI results are judged by the sense key Windows left in the record of whichever request succeeded; if both fail the second error is returned. For reads the caller's buffer afterwards is the delivered data over the old content (over zeros if an aligned copy was used). An empty buffer panics before any request.

*Plan.* Interaction model shared by the three functions; trace theorems.

*Theorems.* `Dparm.win_requests`, `Dparm.win_reads`, `Dparm.win_scsi_result` (proved).

### C97 Windows pass-through records carry the caller's command

The records handed to Windows, decoded by offset (ntddscsi.h): ATA registers, direction and 48-bit flags, lengths, timeout, data pointer or offset are those of the call in both requests; the SCSI record announces the CDB and 32 bytes of sense data at offset 60. The security CDB is SECURITY PROTOCOL IN/OUT with protocol, ComID and transfer length. The taskfile CDB has the right registers but protocol 0, no transfer length, no direction and no EXTEND bit, whatever the command.

*Plan.* Record layouts as byte images; decoding specification.

*Theorems.* `Dparm.win_ata_records`, `Dparm.win_scsi_records`, `Dparm.win_task_cdb`, `Dparm.win_sec_cdb` (proved). Spec/Win.lean: ataView, scsiView.

### C98 When the Windows ATA and SCSI drivers accept a drive

The ATA driver accepts exactly if the direct IDENTIFY DEVICE succeeds and the status it leaves shows neither ERR nor DRQ; after a failed direct request it always refuses. The SCSI driver accepts exactly if a request succeeds and leaves sense key 0. The identity is the data delivered over 512 zero bytes. Neither panics.

*Plan.* Corollaries of C96 and C97.

*Theorems.* `Dparm.win_ata_open`, `Dparm.win_scsi_open` (proved).

### C99 Windows miniport: admin commands and what is dropped

An NVMe admin command through the miniport driver with more than 4096 bytes is refused without a request. Otherwise one record goes out with opcode, namespace, dwords 10-15 and the caller's bytes, but always with direction device-to-host, a 40 s timeout, no flags, no dwords 2-3 and no metadata. The completion status and the return code the drive leaves in the record are never looked at: if DeviceIoControl itself succeeds, the call reports success and copies the data area over the caller's memory.

*Plan.* Record as byte image, decoded by offset; two-run theorem for the ignored status.

*Theorems.* `Dparm.win_miniport_admin`, `Dparm.win_miniport_status_unseen` (proved). Spec/WinNvme.lean: miniportView, miniportOf, referredTo.

### C100 Windows miniport: how a drive is opened, and the handle that is never closed

The miniport driver asks the handle for its SCSI address, opens \\.\SCSI<port>: (port in decimal) and sends Identify Controller; it accepts exactly if all three succeed, with the 4096 bytes of the answer as identity. A failed open closes what it opened; a successful one holds a second handle that Close never closes.

*Plan.* Interaction model; trace theorem on handles opened and closed.

*Theorems.* `Dparm.nvmeWin_open`, `Dparm.nvmeWin_handle_leak` (proved). Spec/WinNvme.lean: handlesOpened, handlesClosed, DecimalOf.

### C101 Windows inbox NVMe driver: identity and log pages

The inbox driver accepts exactly if Windows answers its storage query; the identity is 4096 bytes. A log page is read with one query that names the page and the size but neither the namespace nor the retain flag; an answer whose version and size are not both 48 is an error, otherwise the bytes after the header are returned, exactly as many as requested.

*Plan.* Query as byte image, decoded by offset.

*Theorems.* `Dparm.windowsNvme_open`, `Dparm.windows_log_page` (proved). Spec/WinNvme.lean: queryView.

### C102 Windows: what a security send hands to the drive

A send through a drive handle on Windows hands the system only zeros, in the first attempt and in every fallback, if the driver is the ATA, the SCSI or the inbox NVMe driver; the caller's buffer is zeroed. With the miniport driver one admin command 81h carries the caller's bytes but is marked device-to-host; more than 4096 bytes are refused.

*Plan.* Composition of the handle with the driver models.

*Theorems.* `Dparm.win_send_zeros`, `Dparm.win_security_miniport` (proved).

### C103 Windows: what is known of a drive before a driver is tried

Opening a drive on Windows asks for device number, size and partition layout independently: number and size are known exactly if their inquiry succeeded, a layout that cannot be read leaves the drive without partition style. A readable layout must have 48 bytes and list only entries of its own style, otherwise the call panics; the partitions are the completely returned entries among those announced, in order, with start, length and identifiers as stored (GPT identifiers in braces and upper case, the disk identifier in lower case without braces), on the disk of that number.

*Plan.* Decoder model on bytes; independent layout specification.

*Theorems.* `Dparm.win_basic_info` (proved). Spec/WinFactory.lean: Fetched, layoutItems, itemPart, uuidUpper, uuidLower.

### C104 Windows storage query

ReadStorageQuery asks for the device property and decodes the descriptor returned: vendor, product, revision and serial are the texts at the stored offsets up to their NUL, without spaces at the ends (empty for offset 0 or if no NUL follows). It panics exactly if no bytes come back (or Windows names buffer size 0, or claims more bytes than asked for), or if an offset lies behind the bytes returned.

*Plan.* Decoder model; independent text specification.

*Theorems.* `Dparm.win_storage_query` (proved). Spec/WinFactory.lean: Describes, CString, TrimmedBy, BadOffset.

### C105 Windows: how an opened drive is described

The drive reports the path, style, partitions, capacity and number learned before; an unknown number is reported as 0, as that of the first disk. With a driver it carries that driver's name, kind, interfaces and identity, and no storage query is made. Without one it is still opened without error, and model, serial, vendor, revision, removable flag and type come from the storage query if that succeeds.

*Plan.* Trace theorem over the driver list.

*Theorems.* `Dparm.win_open_by_handle` (proved). For any list of drivers.

### C106 Windows: handles of an opened drive

A failed OpenByPath leaves no handle open. A successful one leaves open the device's handle and what the driver keeps (the miniport driver's second handle, nothing for the others). Close closes the device's handle once and nothing else; if no driver accepted the drive it closes nothing, so the device stays open.

*Plan.* Trace theorem on handles opened and closed.

*Theorems.* `Dparm.win_open_handles` (proved). Spec/WinEnum.lean: keptOf.

### C107 Windows: enumerating drives

EnumDrives lists the drives of Windows' device list in order. A device without disk interface, with unreadable details or that cannot be opened is left out; the first interface error other than "no more items" ends the list without an error. It ends when Windows' list ends; then all listed drives that have a driver are closed once, last first, and the device list is given back. Every handle opened on the way is closed exactly once, except those the drivers keep and those of drives without a driver.

*Plan.* Inductive specification of the enumeration; refinement, termination and permutation theorems.

*Theorems.* `Dparm.win_enum_drives`, `Dparm.win_enum_ends`, `Dparm.win_enum_handles` (proved). Spec/WinEnum.lean: Devices.

### C108 Windows: enumerating volumes

EnumVolumes lists the volumes of Windows' search in order, ending when the search ends (any failure of the next search ends the list without error; a failure of the first is returned). Each volume carries its name without trailing backslashes, the file system (empty if the inquiry failed), the drive type and, if it can be opened, its extents and the partition at the first one (start and length those of the extent, style and identifiers as Windows reports); a volume that cannot be opened is still listed, without extents. The error mode is set for the duration and the one found is restored.

*Plan.* Inductive specification of the search; refinement and termination theorems.

*Theorems.* `Dparm.win_enum_volumes`, `Dparm.win_volumes_end` (proved). Spec/WinVolume.lean: Volumes, VolumeSeen, ExtentsSeen.

### C109 Windows: when enumerating volumes panics

EnumVolumes panics only if Windows' list of mount points has no end within 4096 characters, or if a volume announces more than 171 extents (more than the buffer holds); and an enumeration that returns has seen neither.

*Plan.* Panic characterisation over the trace, in both directions.

*Theorems.* `Dparm.win_volumes_panic`, `Dparm.win_volumes_return` (proved). Spec/WinVolume.lean: BadAnswer.

### C110 Windows: handles of the volume enumeration

An EnumVolumes that returns has closed every volume it opened, exactly once and last one first, and opened no other device.

*Plan.* Trace theorem on handles opened and closed.

*Theorems.* `Dparm.win_volumes_handles` (proved). Spec/WinVolume.lean: volumesOpened.

### C111 Windows: volumes of a drive

GetList returns all volumes in order; FindVolumesByDrive those whose first extent lies on the disk with the drive's number, in order: a volume spanning disks is found from its first disk only. A drive whose number Windows did not tell is given the volumes of disk 0.

*Plan.* Filter theorem, composed with what an opened drive reports.

*Theorems.* `Dparm.win_find_volumes`, `Dparm.win_find_unknown`, `Dparm.win_partition_style` (proved). Spec/WinVolume.lean: BeginsOn, volumeReported.

### C112 Windows: opening the drive of a volume or partition

OpenDriveByVolumePath opens \\.\PhysicalDrive<n>, n in decimal, for the disk n of the first extent of the first listed volume with that path (compared up to one trailing backslash), and returns what opening it returns; without such a volume, or if it has no extents, it returns neither a drive nor an error and opens nothing. OpenDriveByPartition opens the physical drive of the partition's disk number.

*Plan.* Search theorem over the list; the open itself is a parameter.

*Theorems.* `Dparm.win_open_by_volume`, `Dparm.win_open_by_partition` (proved). Spec/WinVolume.lean: SamePath.

### C113 Enumeration of drives: after a panic

If EnumDrives panics (a drive's answer makes its Init panic; on Windows also a detail size that becomes 0), the panic comes from one entry, and all drives opened for earlier entries have been closed, each exactly once and the last first, when it reaches the caller; on Windows the device list is given back too. The drive being opened itself is not closed.

*Plan.* Deferred calls as a program combinator that runs them on return and on panic; trace theorem for panicking runs.

*Theorems.* `Dparm.enum_drives_panic`, `Dparm.win_enum_panic` (proved). BrokenOff in Props/Factory.lean; Spec/WinEnum.lean: DevicesPanic.

### C114 Windows: the volume enumeration after a panic

If EnumVolumes panics, the search for volumes broke off at one bad answer, and before the panic reaches the caller every volume opened, that one included, is closed exactly once and last first, the search is closed and the error mode restored.

*Plan.* Deferred calls as a program combinator; trace theorem for panicking runs.

*Theorems.* `Dparm.win_volumes_unwind`, `Dparm.win_volumes_handles` (proved). Spec/WinVolume.lean: VolumesPanic.

### C115 Linux: opening the drive of a partition

For every volume of a successful EnumVolumes that reports a partition, OpenDriveByPartition on it behaves as OpenByPath on the drive its device name belongs to (/dev/…<digit> without p<number>), the drive whose partition table was read; nothing else is opened first.

*Plan.* Composition with the partition theorem of the enumeration.

*Theorems.* `Dparm.open_by_partition` (proved). A partition of another implementation panics in the type assertion; not modelled.

### C116 Linux: opening and enumerating drives only reads from them

Whatever the system answers, every ioctl that OpenByPath and EnumDrives of the system drive factory send to a drive only reads: NVMe Identify, ATA IDENTIFY DEVICE, or receiving the level 0 discovery data with security protocol 1 and ComID 1 (NVMe Security Receive, SECURITY PROTOCOL IN, TRUSTED RECEIVE); every SG request has data direction from the device, and no NVMe I/O command is sent.

*Plan.* Factory, handle and both drivers composed into one program over system calls; refinement theorem from that program to the factory model; per-call facts.

*Theorems.* `Dparm.linux_open_reads_only`, `Dparm.linux_enum_reads_only` (proved). Spec/LinuxSystem.lean: ReadsOnly.

### C117 Linux: what an opened drive is

OpenByPath of the system drive factory opens the node first; if that fails it returns this error and does nothing else; if it succeeds it never returns an error. When it returns a drive, the node was opened once and nothing was closed; one NVMe Identify and one IDENTIFY DEVICE (two if the first did not go through) were sent, to the new descriptor; the drive is an ATA drive with model, serial, firmware, SMART and SSD information from the 512 bytes the drive delivered if IDENTIFY DEVICE was accepted, even if the NVMe Identify was accepted too; otherwise an NVMe drive described by its 4096 identity bytes if that was accepted; otherwise it has no driver.

*Plan.* Refinement of the composed program; statement in terms of the answers to the identify commands on the wire.

*Theorems.* `Dparm.linux_open` (proved). OpenedAs, DescribesAta, DescribesNvme in Props/LinuxSystem.lean; NvmeAccepts, SgAccepts in Spec/LinuxSystem.lean.

### C118 Linux: descriptors of opened and enumerated drives

Close on an opened drive closes its descriptor exactly once if a driver accepted the drive and makes no system call otherwise. When EnumDrives returns, each record is what OpenByPath gave for its node at that point, and the descriptors closed are exactly those of the opened drives with a driver, each once, last opened first; drives without a driver keep their descriptor.

*Plan.* Refinement of the composed program; parts of the upper run are parts of the lower run.

*Theorems.* `Dparm.linux_close`, `Dparm.linux_enum` (proved). Enumerated in Props/Factory.lean.

### C119 Windows: opening and enumerating drives only reads from them

Whatever Windows and the drives answer, every control request that OpenByPath, EnumDrives and EnumVolumes of the Windows drive factory send only reads: inquiries about the device, standard property queries, and pass-through records with direction from the device whose command is ATA IDENTIFY DEVICE, NVMe Identify, or receiving the level 0 discovery data with security protocol 1 and ComID 1. (The protocol field of the ATA pass-through CDBs is 0; only their registers say what is meant, see C97.)

*Plan.* Invariant over all requests of the program, from the record theorems of the pass-through functions; records decoded by the independent views.

*Theorems.* `Dparm.win_open_reads_only`, `Dparm.win_enum_reads_only`, `Dparm.win_volumes_read_only` (proved). Spec/WinSystem.lean: WinReadsOnly.

### C120 Fields of the decoded ATA identity

After Init on an ATA drive with a complete identity block, every one of the 111 fields of AtaIdentity holds the bytes of the word(s) ATA8-ACS assigns to it (integers little-endian); SerialNumber, FirmwareRevision and ModelNumber hold theirs with each byte pair exchanged.

*Plan.* Table of words in the specification; layout sums checked by kernel computation, record theorem for all blocks.

*Theorems.* `Dparm.ata_record_map` (proved). Spec/IdentityMap.lean: ataFields111, ataTexts.

### C121 Capability questions on the ATA identity

IsSanitizeFeatureSetSupported, IsOverwriteExtSupported, IsCryptoScrambleExtSupported, IsBlockEraseExtSupported, IsSanitizeAntifreezeLockExtSupported, IsSanitizeOperationStandardCompliant, IsMultiSectorSettingValid, both GetSmartCommands and GetTrim on the record of an initialised drive answer exactly the bits 12, 14, 13, 15, 10, 11 and 8 of word 59, bit 0 of words 82 and 85 and bit 0 of word 169.

*Plan.* From C120 and bit lemmas.

*Theorems.* `Dparm.ata_capabilities` (proved). Spec/IdentityMap.lean: wordBit.

### C122 Fields of the decoded NVMe identity

After Init on an NVMe drive with a complete identity block, every field of NvmeIdentity holds the bytes at the offset NVMe 1.4 gives it: the 85 fields below 2048, the 15 fields of each of the 32 power states from 2048, the vendor area from 3072. (Integers of more than one byte are decoded big-endian, see C79.)

*Plan.* Table of offsets in the specification; record theorem for all blocks.

*Theorems.* `Dparm.nvme_record_map` (proved). Spec/IdentityMap.lean: nvmeFields85, powerFields.

### C123 Small accessors

The accessors of a sense record read response code, valid bit, sense key, ILI, EOM and filemark where SPC puts them; SetVersion and GetVersion store and read the upper four bits only; NewNestedError joins message and cause with ': ' and keeps the cause, and panics on a nil cause; StorageBusTypeToString gives the table's name and is empty for other values.

*Plan.* Arithmetic specifications; for bytes by kernel computation over all 256 values.

*Theorems.* `Dparm.sense_accessors`, `Dparm.version_field`, `Dparm.nested_error`, `Dparm.bus_type_names` (proved). All values of the domain.

### C124 TCG on Linux: one NVMe command per security command, on the drive that was opened

Every drive the Linux factory returns is bound to the descriptor opened for its path, by the NVMe driver, by the SCSI generic driver, or by none. On a drive bound by the NVMe driver, every TCG operation (any program of TCG sends, receives, waits) acts, whatever the kernel answers, as a conversation with some drive, and each security command of it is exactly one NVMe admin ioctl on that descriptor: Security Send or Security Receive with the same protocol, ComID, length and buffer; its error is the ioctl's error number or status, its data what the ioctl delivered.

*Plan.* The TCG programs are interpreted in the handle, the handle in the driver, the driver in system calls; refinement by chunks of the trace.

*Theorems.* `Dparm.linux_open_kinds`, `Dparm.tcg_on_nvme` (proved). Spec/TcgSystem.lean: OnNvme, IsNvmeSecurity, TcgOnNvmeOnly. The hypothesis Asks (TcgAsk …) is shown for every TCG operation in Lemmas/TcgSystem.lean.

### C125 TCG on Linux: RevertTPer and GetDefaultPassword on an NVMe drive, in system calls

On an Opal NVMe drive opened by the factory, RevertTPer sends nothing but Security Send and Security Receive of protocol 1 on the base ComID to that drive; the payloads sent are the StartSession command for the given password (PSID or SID, or anonymous) and then, only after an accepted answer with both session numbers, the Revert call in that session; success is reported only after an accepted answer to it. GetDefaultPassword sends the anonymous StartSession and then at most the Get of the MSID PIN, and returns a password only from an accepted answer to it.

*Plan.* C124 with the trace theorems of C36-C40 carried over to system calls.

*Theorems.* `Dparm.revert_on_nvme`, `Dparm.default_password_on_nvme` (proved). Spec/TcgSystem.lean: nvmeSent, AnsweredOnNvme.

### C126 TCG on Linux: security commands on a SCSI generic drive or on none

On a drive bound by the SCSI generic driver, each security command of a TCG operation is a SECURITY PROTOCOL OUT or IN command on the drive's descriptor with the same protocol, ComID and buffer, repeated at most once (with the number 128 as data address) when the ioctl fails, and followed by ATA TRUSTED SEND or RECEIVE of the same protocol and ComID only if both failed; nothing else reaches the drive; TRUSTED SEND carries only zeros. RevertTPer and GetDefaultPassword have the guarantees of C125. On a drive without driver a security command is 'not supported' without a system call.

*Plan.* As C124, with all runs of the driver functions (C57-C61).

*Theorems.* `Dparm.tcg_on_scsi`, `Dparm.revert_on_scsi`, `Dparm.default_password_on_scsi`, `Dparm.tcg_no_driver` (proved). Spec/TcgSystem.lean: ScsiSecurity, OnScsi, TcgOnScsiOnly.

### C127 PSID revert on a conforming drive

On an Opal drive that behaves as TCG Core and Opal prescribe, with a session to spare and answering within 10 s, RevertTPer with the PSID printed on the drive returns nil and leaves the drive in factory state (SID credential = MSID, no sessions, one revert more); with any other password, including none, it returns the TCG error 1 (not authorized) and the drive is neither reverted nor has another credential.

*Plan.* Reference drive in Spec/Tper.lean that decodes packets by the token grammar; the library's run against it is computed symbolically.

*Theorems.* `Dparm.psid_revert_conforming`, `Dparm.revert_conforming_safe` (proved). Spec/Tper.lean: Drive, Conforming, Prompt. Non-vacuity: ideal_conforming (a conforming drive for every parameter).

### C128 SID revert on a conforming drive

On such a drive RevertTPer with a SID password succeeds exactly when the drive's SID credential is the 34 bytes D0 20 followed by the PBKDF2 key of the password's first 32 bytes (the encoded form, header included, is sent as the value); on every other drive, so on each whose credential is the key itself or has a length other than 34 bytes (such as an unowned drive with an MSID of other length), it returns error 1 whatever the password. At any clock, timeouts included: a revert that reports success has taken place with the right password, and with a wrong one the drive is not reverted.

*Plan.* Same reference drive.

*Theorems.* `Dparm.sid_revert_conforming`, `Dparm.sid_revert_never`, `Dparm.revert_conforming_safe` (proved). Spec/Tper.lean.

### C129 GetDefaultPassword on a conforming drive, and running out of sessions

On such a drive with a session to spare GetDefaultPassword returns the MSID byte for byte and leaves one more session open on the drive; it changes neither credential nor factory state. Of n calls in a row exactly the first (sessions to spare) return the MSID, all later ones fail with TCG error 7 (no sessions available), and then RevertTPer fails with error 7 too, even with the right PSID.

*Plan.* Same reference drive; induction on the number of calls.

*Theorems.* `Dparm.default_password_conforming`, `Dparm.default_password_repeated`, `Dparm.revert_after_default_password` (proved). Spec/Tper.lean.

### C130 TCG operations from opening the node on, on a conforming NVMe drive

On Linux, take a descriptor behind which the kernel answers NVMe Security Send and Receive as a conforming Opal drive with base ComID c would (and level 0 discovery with descriptors naming c). If the node opens as that descriptor, NVMe Identify succeeds on it and SG_IO is refused, OpenByPath returns a drive bound to it by the NVMe driver. Whenever it does, NewTcgDevice on it finds an Opal device with base ComID c, opening did not change the drive's TCG state, and from then on at any time, whatever else was asked in between: RevertTPer with the PSID succeeds and leaves factory state, with another password fails with error 1 and reverts nothing; RevertTPer with the SID succeeds exactly when the SID credential is D0 20 and the derived key; GetDefaultPassword returns the MSID while a session is left. Without any assumption on the clock, success is never reported unless the drive is in factory state.

*Plan.* Contract of the kernel and drive in Spec/TperLinux.lean; refinement through factory, handle, driver and system calls down to the reference drive of C127-C129.

*Theorems.* `Dparm.open_succeeds_nvme`, `Dparm.open_conforming_nvme`, `Dparm.psid_revert_nvme`, `Dparm.sid_revert_nvme`, `Dparm.revert_safe_nvme`, `Dparm.default_password_nvme` (proved). Spec/TperLinux.lean: NvmeConforming, NvmeNode, AnnouncesOpal, PromptSystem. Non-vacuity: idealNvme_conforming, opens_owned.

### C131 TCG operations from opening the node on, on a conforming drive behind SCSI generic

As C130 for a descriptor on which NVMe ioctls fail and SG_IO executes SECURITY PROTOCOL IN and OUT as a conforming Opal drive with base ComID c would. If the node opens as that descriptor and ATA IDENTIFY DEVICE succeeds on it without sense data, OpenByPath returns a drive bound to it by the SCSI generic driver. Whenever it does, NewTcgDevice on it finds an Opal device with base ComID c, opening did not change the drive's TCG state, and from then on at any time: RevertTPer with the PSID succeeds and leaves factory state, with another password fails with error 1 and reverts nothing; RevertTPer with the SID succeeds exactly when the SID credential is D0 20 and the derived key; GetDefaultPassword returns the MSID while a session is left. Without any assumption on the clock, success is never reported unless the drive is in factory state.

*Plan.* Contract of the kernel and drive in Spec/TperScsi.lean; refinement through factory, handle, driver and system calls down to the reference drive of C127-C129.

*Theorems.* `Dparm.open_succeeds_scsi`, `Dparm.open_conforming_scsi`, `Dparm.psid_revert_scsi`, `Dparm.sid_revert_scsi`, `Dparm.revert_safe_scsi`, `Dparm.default_password_scsi` (proved). Spec/TperScsi.lean: ScsiConforming, ScsiNode. Non-vacuity: idealScsi_conforming, opens_owned_scsi.

### C132 ATA commands through an opened Linux drive

AtaDoTaskFileCmd (any registers, direction, DMA flag, timeout; buffer nil or not) on a drive the Linux factory opened. On an NVMe drive or without driver: no system call, error "not supported in this driver", registers and buffer untouched. On a SCSI generic drive: an empty non-nil buffer panics before any ioctl; otherwise one SG_IO on that drive's descriptor carries exactly the registers given as ATA PASS-THROUGH (12 bytes, 16 for 48-bit commands), in the direction and for the length of the buffer, with one repetition (data address 128) only if it failed; the error is the second ioctl's if both failed, else decided by the first answer's sense key, the registers returned are those the sense area reports, a read delivers the device's bytes, and a write sends zeros instead of the caller's bytes and zeroes his buffer.

*Plan.* Vocabulary in Spec/HandleSystem.lean; the driver theorem lifted through handle and system calls.

*Theorems.* `Dparm.ata_command` (proved). Spec/HandleSystem.lean: AtaOnScsi, AtaData, AtaResult.

### C133 Log pages through an opened Linux drive

NvmeGetLogPage on a drive the Linux factory opened. On a SCSI generic drive or without driver: no system call, error "not supported in this driver", no bytes. On an NVMe drive (log identifier of 8 bits, size from 4 bytes to 4 GiB): only Get Log Page admin ioctls on that drive's descriptor, each for the namespace, log and retain flag given, at offset 0 and for the whole size, all into one zeroed buffer of that size; each but the last failed, there are at most one per 4096 bytes and exactly that many if none succeeds. The buffer is returned, with the last attempt's error or nil.

*Plan.* Induction over the loop; vocabulary in Spec/HandleSystem.lean.

*Theorems.* `Dparm.log_page_command` (proved). Spec/HandleSystem.lean: IsGetLogPage, LogReads.

### C134 What initialising a handle learns about TCG

Init on any handle with a complete identity block, whatever it knew before, sends the level 0 discovery command, nothing else, and returns no error whatever became of it. All raw features known before are forgotten while feature flags stay: if the command failed, no raw feature is known, the flags are the old ones and the support indicator is -1 for "not supported", else 0; if the response announces more than 2048 bytes, the same with indicator 1; if a descriptor does not fit, Init panics; otherwise the raw features are exactly the response's descriptors (the last of each code) and a flag is set if it was set before or the response reports its feature.

*Plan.* Composition of the identity theorems with the discovery theorems.

*Theorems.* `Dparm.init_tcg` (proved).

### C135 RevertTPer is blind to the password on Windows

On a drive the Windows factory opened with any driver but the vendor NVMe miniport one (so the ATA, the SCSI and the inbox NVMe driver), RevertTPer does exactly the same whatever password, PSID flag and administrator flag are given: the same requests with the same bytes in the same order and the same result, whatever the system answers. No such revert can therefore depend on the right password.

*Plan.* Relational argument: two runs stay alike as long as requests differ only in the bytes of sends; the Windows drivers turn these into equal requests.

*Theorems.* `Dparm.revert_blind_on_windows`, `Dparm.revert_blind_on_opened` (proved). Spec/WinTcg.lean: WinBound, OnMiniport.

### C136 What TCG operations ask of Windows

Every drive the Windows factory returns is bound by one of its four drivers to the handle opened for it, or has no driver. RevertTPer and GetDefaultPassword (and every TCG operation) on it make no other requests of Windows than security commands: of protocol 1 and the device's own ComID, in the record type of that driver, on its own handle, for 512 to 61440 bytes in the direction of the command; through every driver but the miniport one each byte sent is 0. On a drive without driver no request reaches Windows.

*Plan.* Request invariant pushed through handle and driver; vocabulary in Spec/WinTcg.lean.

*Theorems.* `Dparm.win_open_kinds`, `Dparm.tcg_on_windows_only`, `Dparm.revert_on_windows_only`, `Dparm.default_password_on_windows_only`, `Dparm.tcg_unbound_on_windows` (proved). Spec/WinTcg.lean: TcgOnWindowsOnly.

### C137 TCG operations through the Windows NVMe miniport driver

On a drive of the vendor NVMe miniport driver a TCG operation behaves as in a conversation with some drive in which each security command of up to 4096 bytes is exactly one miniport request on the adapter's handle (Security Send or Receive with that protocol, ComID and those bytes), whose result and data are the answer; longer ones fail with "too long data" without a request. RevertTPer sends the StartSession command with the credential and then, only after an accepted answer with both session numbers, the Revert call in that session, and reports success only after an accepted answer to it; GetDefaultPassword sends an anonymous StartSession and at most the Get of C_PIN_MSID, and returns a password only from an accepted answer to that.

*Plan.* Refinement of the run to a conversation of the TCG layer, whose theorems then apply; vocabulary in Spec/WinTcg.lean.

*Theorems.* `Dparm.tcg_on_miniport`, `Dparm.revert_on_miniport`, `Dparm.default_password_on_miniport` (proved). Spec/WinTcg.lean: OnWinNvme, miniportSent, AnsweredOnMiniport.

### C138 ATA commands through an opened Windows drive

AtaDoTaskFileCmd (any registers, direction, DMA flag, timeout; buffer nil or not) on a drive the Windows factory opened. On an NVMe drive or without driver: no request, error "not supported in this driver", registers and buffer untouched. On a drive of the ATA or SCSI driver: a nil or empty buffer panics before any request; otherwise the taskfile comes back unchanged (no register of the drive reaches the caller), one request carries the registers, direction, length and timeout given, with one repetition only if it failed; the error is the second request's if both failed, else decided by the status byte (ATA) or sense key (SCSI); a read delivers what Windows stored, and a write sends zeros instead of the caller's bytes and zeroes his buffer.

*Plan.* The driver theorems (C71-C74, C97) lifted through the handle; vocabulary in Spec/WinTcg.lean.

*Theorems.* `Dparm.win_ata_command` (proved). Spec/WinTcg.lean: AtaOnWindows, CarriesTask, AtaJudged.

### C139 Log pages through an opened Windows drive

NvmeGetLogPage on a drive the Windows factory opened. On a drive of the ATA or SCSI driver or without driver: no request, error "not supported in this driver". Through the miniport driver: no request, error "not supported". Through the inbox NVMe driver, for every size up to 4 GiB: one property query on the drive's handle for that log and size, but neither for the namespace nor with the retain flag given; the bytes after its 48-byte header are returned, unless Windows reports an error (that error, no bytes) or the header is not as expected ("invalid response header").

*Plan.* The driver theorem lifted through the handle.

*Theorems.* `Dparm.win_log_page_command` (proved). Spec/WinTcg.lean: IsLogQuery.

### C140 No descriptor is used after it was closed (Linux)

A client may call OpenByPath, EnumDrives, EnumVolumes, OpenDriveByVolumePath, OpenDriveByPartition and, on any handle it was given, open or closed, Close, GetDrivingType, GetDriverName, AtaDoTaskFileCmd, NvmeGetLogPage, SecurityCommand, TcgDiscovery0, RevertTPer, GetDefaultPassword and the calls on sessions (Start, Authenticate, SendCommand and Exec with commands of the caller's own making, OpalGetTable, EnterpriseGetTable, Close), in any order and number, and recover from panics. Provided the operating system never returns from open a descriptor that is still open, every system call of the library that works on a descriptor or closes it is made while that descriptor is open: nothing is used after closing and nothing is closed twice. At every moment each handle with a driver has a descriptor of its own, which is open and which no other handle has.

*Plan.* A protocol over the set of open descriptors, kept by every call (weakest-precondition rules in Lemmas/Policy.lean), then induction over the calls; vocabulary in Spec/Client.lean.

*Theorems.* `Dparm.no_use_after_close`, `Dparm.held_handles_open` (proved). Model/Client.lean; Spec/Client.lean: openFds, usesFd, FreshFds, HoldsFd.

### C141 What stays open (Linux)

In any such sequence of calls without EnumVolumes in which the calls that open drives did not panic and every drive they reported was accepted by a driver, the open descriptors are exactly those of the handles the client holds and has not closed: enumerations and failed openings leave nothing open, and Close gives the descriptor back. After closing every handle nothing is open.

*Plan.* The same protocol with an exact account of the open set.

*Theorems.* `Dparm.leak_free`, `Dparm.all_closed` (proved). Spec/Client.lean: WentWell.

### C142 A drive nobody accepts costs a descriptor (Linux)

In any such sequence of calls in which no call that opens drives, EnumVolumes apart, panicked, the number of open descriptors is the number of handles with a driver the client holds, plus the number of drives without a driver ever reported, plus the number of devices that calls of EnumVolumes opened: each opening or enumeration of a drive that no driver accepts, and each device EnumVolumes looks at, leaves one descriptor open that no later call, Close included, gives back.

*Plan.* Counting along the protocol of C140.

*Theorems.* `Dparm.descriptor_census` (proved). Spec/Client.lean: Finished, driven, driverless, opensIn, volumeOpens; clientSteps (Model/Client.lean) cuts the trace into the exchanges of each call. Both leaks are defects of the code.

### C143 No handle is used after it was closed (Windows)

A client may call OpenByPath, EnumDrives, EnumVolumes, OpenDriveByVolumePath, OpenDriveByPartition and, on any handle it was given, open or closed, Close, GetDrivingType, GetDriverName, AtaDoTaskFileCmd, NvmeGetLogPage, SecurityCommand, TcgDiscovery0, RevertTPer, GetDefaultPassword and the calls on sessions (Start, Authenticate, SendCommand and Exec with commands of the caller's own making, OpalGetTable, EnterpriseGetTable, Close), in any order and number, and recover from panics. Provided Windows never hands out a handle that is still open, every call of Windows that works on a device handle, a device information list or a volume search, or gives it back, is made while that is open. At every moment each drive handle with a driver has Windows handles of its own, all open, and no other drive handle has them.

*Plan.* As C140, over three kinds of resources; vocabulary in Spec/WinClient.lean.

*Theorems.* `Dparm.win_no_use_after_close`, `Dparm.win_held_handles_open` (proved). Model/WinClient.lean; Spec/WinClient.lean: openRes, winUses, FreshHandles, HoldsRes.

### C144 What stays open (Windows)

In any such sequence of calls in which the calls that open drives or volumes returned and every drive they reported was accepted by a driver other than the vendor miniport driver, what is open is exactly the handles of the drive handles the client holds and has not closed; after closing every handle nothing is open.

*Plan.* The same protocol with an exact account of the open set.

*Theorems.* `Dparm.win_leak_free`, `Dparm.win_all_closed` (proved). Spec/WinClient.lean: WinWentWell.

### C145 What leaks (Windows)

In any such sequence of calls in which the calls that open drives or volumes returned, every device information list and every volume search is given back, and the number of open handles is the number of drive handles with a driver the client holds, plus one for every drive without a driver and one for every drive of the vendor miniport driver that was ever reported: those handles are never given back, by Close neither.

*Plan.* Counting along the protocol of C143.

*Theorems.* `Dparm.win_handle_census` (proved). Spec/WinClient.lean: WinFinished, winDriven, winDriverless, winMiniports. The leaks are defects of the code.

### C146 Goroutines with their own handles do not touch each other's drives

Any number of goroutines that share no handle, each making any sequence of calls of the API, under any schedule of their system calls: every system call that works on a descriptor (Linux) or on a device, volume, device list or search handle (Windows), or closes it, works on one that the same goroutine has obtained and not closed, and that no other goroutine has.

*Plan.* Pool of programs, one system call per step; invariant over all schedules that combines the handle protocols of C140 and C143 of the goroutines.

*Theorems.* `Dparm.concurrent_own_descriptors`, `Dparm.win_concurrent_own_handles` (proved). Model/Concurrent.lean; Spec/Concurrent.lean: SysFreshFds, SysFreshHandles, Pool.Ended.

### C147 Goroutines do not influence each other

Under any schedule, what a goroutine does and obtains is what it would do and obtain alone on a system that gives the same answers: the same system calls in the same order, the same results, the same handles. No schedule can keep a goroutine from ending: given enough steps it ends.

*Plan.* The exchanges of the goroutine replayed to the sequential program.

*Theorems.* `Dparm.concurrent_as_alone`, `Dparm.win_concurrent_as_alone`, `Dparm.pool_solo_ends` (proved). The system of the sequential run is existential: it gives the answers of the concurrent run.

### C148 What stays open when goroutines have ended

When all goroutines have ended and the calls that open drives went well (as in C141 and C144), what is open in the process is exactly the handles of the drive handles that the goroutines hold and have not closed, each held by one goroutine only.

*Plan.* C141 and C144 through C147, and disjointness from C146.

*Theorems.* `Dparm.concurrent_leak_free`, `Dparm.win_concurrent_leak_free` (proved). WentWell and WinWentWell of Spec/Client.lean and Spec/WinClient.lean.

### C149 The error mode of the process (Windows)

EnumVolumes changes the error mode of the whole process while it runs; no other call does. A client alone: when its calls have ended, also with errors or panics, the error mode is what it was before. Goroutines, at any time under any schedule: the error mode is the one before or SEM_FAILCRITICALERRORS; if only one goroutine enumerates volumes and it has ended, the mode is the one before, whatever the others do. Two goroutines that enumerate volumes at the same time can leave the process with SEM_FAILCRITICALERRORS, on every Windows.

*Plan.* Changes of the mode come in pairs along a client; invariant over schedules; the race by an explicit schedule in which both goroutines change the mode before one restores it.

*Theorems.* `Dparm.error_mode_restored`, `Dparm.error_mode_one_of_two`, `Dparm.error_mode_one_enumerator`, `Dparm.call_modeless`, `Dparm.error_mode_race` (proved). Spec/ErrorMode.lean: errorMode, TellsMode, SysTellsMode. error_mode_race states a defect of the code.

### C150 Who can revert a drive that several clients use at once

Any number of goroutines (or programs), each making any sequence of RevertTPer and GetDefaultPassword calls on one conforming Opal drive, under any schedule of their exchanges with the drive and stopped at any point: if nobody calls RevertTPer with a right password and no session of SID or PSID was open before, then at every moment the drive was not reverted and its password is unchanged. In any case at every moment the drive has its old password and was not reverted, or it has its MSID and was reverted, at most once per call of RevertTPer; and never more sessions are open than it allows or had at the start.

*Plan.* Pool of programs on the drive of C127; every request is a StartSession with the caller's credentials, a Get of the MSID or a Revert with arbitrary session numbers, and each RevertTPer makes at most one Revert; invariant over schedules with the number of Reverts left.

*Theorems.* `Dparm.shared_drive_protected`, `Dparm.shared_drive_states` (proved). Model/SharedDrive.lean; Spec/SharedDrive.lean: SharedDrive, sameDrive, Privileged, Fits; RightPassword as in C127.

### C151 RevertTPer and GetDefaultPassword are truthful when they are not disturbed

After anything any goroutines did, also if they were stopped in the middle: when a goroutine calls RevertTPer and nobody else uses the drive until it returns, it returns nil only if the password was right and the drive is now in factory state; with a wrong password it returns an error and the drive keeps its password and was not reverted; with a right password it returns nil if the drive has a session left and nothing takes longer than 10 s. In the same way GetDefaultPassword returns the MSID if the drive has a session left and otherwise an error, and changes neither password nor factory state.

*Plan.* C127 from an arbitrary state of the drive; a goroutine alone runs as its sequential program.

*Theorems.* `Dparm.shared_revert_exclusive`, `Dparm.shared_password_exclusive` (proved). hi says what the goroutine is about to do: the call, then anything.

### C152 TCG operations are not safe for concurrent use on one drive (limit)

There are schedules of two goroutines on a conforming drive in which RevertTPer with a wrong password returns nil although the drive was never reverted, and schedules in which RevertTPer with a wrong password reverts the drive, in the session another goroutine has opened with the right password but not yet used, and schedules in which GetDefaultPassword returns, without error, the number of another goroutine's session in place of the MSID. Callers have to serialise.

*Plan.* Explicit schedules on a drive with room for three sessions, evaluated in the kernel.

*Theorems.* `Dparm.shared_revert_false_success`, `Dparm.shared_revert_wrong_password`, `Dparm.shared_password_false` (proved). States a defect of the code, on a drive that satisfies SharedDrive.

### C153 Any history of calls on one session object

A TcgSession can be used for any sequence of Start, Authenticate, SendCommand, Close, NoAutoClose, SetTimeout, SetNoHashPassword and IsNoHashPassword calls. SetTimeout, NoAutoClose and Close have no effect: leaving them out changes neither the conversation with the drive nor any result. The credential a Start or Authenticate sends is hashed unless the last SetNoHashPassword turned that off, and IsNoHashPassword tells which. Before the first Start everything is sent with session numbers 0 and 0; after a Start that returned nil, and until the next Start is answered, everything (also a second Start) is sent with the two numbers of its reply.

*Plan.* Calls as programs over the drive, histories as their composition; simulation between histories with and without the settings; invariants on the object along a history.

*Theorems.* `Dparm.settings_unobservable`, `Dparm.history_credentials`, `Dparm.history_numbers` (proved).

### C154 A session object is good for one session (limit)

On a conforming Opal drive where nothing takes longer than 10 s, every history of Start calls (Admin SP), reads of the MSID, Close and settings on one new session object opens at most one session. The Starts before it fail and change nothing on the drive; after the one that returned nil, every further Start on the same object fails with TCG status 12, also with the right password and also after Close, because it is sent inside the old session, while reads of the MSID succeed. When that session has ended on the drive (after a Revert), no call on the object has any effect on the drive. Callers need a new object for every session.

*Plan.* Conforming drive of C127; invariant: the object has numbers 0 and 0, or those of an open session; a StartSession in an open session is refused by the drive.

*Theorems.* `Dparm.one_session_per_object`, `Dparm.ended_object_is_useless` (proved). Reference drive of C127: only the methods RevertTPer and GetDefaultPassword use have a meaning there, so Authenticate and other user-built commands are not among the calls.

### C155 Calls that only look write to no drive (Linux)

In any sequence of calls a client makes (as in C140: all orders, closed handles, recovered panics), every call other than AtaDoTaskFileCmd, SecurityCommand, RevertTPer, GetDefaultPassword and the calls on sessions makes system calls only, and each one that reaches a drive reads: NVMe Identify, Get Log Page or Security Receive of protocol 1 for ComID 1, or, through the SCSI generic driver, IDENTIFY DEVICE, TRUSTED RECEIVE or SECURITY PROTOCOL IN of protocol 1 for ComID 1 with the transfer from the device. So a client that makes no other calls writes to no drive.

*Plan.* An invariant of the handles a client holds (the driver of a handle is one of the two, on its descriptor), C116 for the programs of the factory, and the requests of the methods; vocabulary in Spec/Looking.lean.

*Theorems.* `Dparm.looking_reads_only`, `Dparm.looking_client_reads_only` (proved). Spec/Looking.lean: looks, LooksOnly; clientSteps (Model/Client.lean) gives the exchanges of each call.

### C156 The development tool (Linux)

However it ends, the tool cmd/develop only reads from drives. It crashes whenever /dev/nvme0n1 cannot be opened, and returns if that works and the stages before return. When it returns, its last system call on a drive of the NVMe driver was one Get Log Page for the SMART log of all namespaces, of 129 dwords into a 516-byte buffer (unsafe.Sizeof counts padding; the log has 512 bytes), and it shows that buffer and the error; on other drives it shows the error "not supported in this driver". It closes nothing: open at its end are /dev/sda if it could be opened, /dev/nvme0n1, one descriptor for every enumerated drive without driver and one for every device EnumVolumes opened.

*Plan.* The run cut into its five stages; C155's lemmas, C133 and C142 for the stages.

*Theorems.* `Dparm.develop_reads_only`, `Dparm.develop_needs_nvme`, `Dparm.develop_returns`, `Dparm.develop_log_page`, `Dparm.develop_leaves_open`, `Dparm.smart_sizes` (proved). Its output is modelled as the values it shows, not as text. The crash, the 516 bytes and the open descriptors are defects of the tool.

### C157 Calls that only look write to no drive (Windows)

In any sequence of calls a client makes on Windows (as in C143), every call other than AtaDoTaskFileCmd, SecurityCommand, RevertTPer, GetDefaultPassword and the calls on sessions makes Windows calls only, and every control request among them reads: an inquiry, a property query with query type 0, an ATA or SCSI pass-through that transfers from the device with IDENTIFY DEVICE, TRUSTED RECEIVE or SECURITY PROTOCOL IN of protocol 1 for ComID 1, or a miniport request with Identify or Security Receive. EnumVolumes, and no other of these calls, changes the process's error mode. So a client that makes no other calls writes to no drive.

*Plan.* As C155, with C119 for the factory; a property query of any size, also one over 4 GiB whose length wraps around, has query type 0.

*Theorems.* `Dparm.win_looking_reads_only`, `Dparm.win_looking_client_reads_only` (proved). Spec/WinLooking.lean: winLooks, WinLooksOnly; WinReadsOnly is that of C119 (Spec/WinSystem.lean).

### C158 The development tool (Windows)

However it ends, the tool cmd/develop only reads from drives (and changes the process's error mode). It needs no drive: where nothing can be opened or enumerated it returns after five calls of Windows. When it returns, the error mode is what it was, device lists and searches are given back, and nothing is closed of what it opened itself: open are the drive it opened, if it could, every enumerated drive without driver, and the second handle of every drive of the miniport driver.

*Plan.* The tool is a client with three calls; C145, C149 and the lemmas of C157.

*Theorems.* `Dparm.win_develop_reads_only`, `Dparm.win_develop_without_drives`, `Dparm.win_develop_leaves_open` (proved). Its output is not modelled. The open handles are a defect of the tool (and of the factory, C145).

### C159 Without the password, nothing the API offers moves the drive (Linux)

Any number of goroutines make any calls of the API in any order (opening, enumerating, closing, task files, log pages, SecurityCommand, TCG operations, sessions; closed handles and recovered panics included), and may stop anywhere. If no packet the caller makes itself, sent by SecurityCommand or through a session, is a StartSession for the drive's ComID that presents the PSID as PSID or the SID credential as SID, and RevertTPer is called only with wrong passwords (as PSID: not the PSID; as SID: the derived key is not the SID credential), however long, and no session of SID or PSID was open at the start, then the drive is not reverted, its SID credential is not changed and no session of SID or PSID is opened. The drive may lose or refuse packets; AtaDoTaskFileCmd with a TRUSTED SEND command is harmless only because the driver overwrites the data with zeros (C58).

*Plan.* A drive observed through the history of system calls (Spec/Protected.lean): each call leaves it or hands it a packet it performs as the reference drive. Every packet the library sends is shown to parse, for any password, as nothing, as a StartSession with the presented credential, or as a method a session without authority may not use; induction over the schedule.

*Theorems.* `Dparm.drive_protected` (proved). Spec/Protected.lean: Guarded, Hands, Unprivileged. The drive's packet processing is the reference drive of Spec/Tper.lean. Examples: a drive and two goroutines that guess; with the PSID the same calls revert it.

### C160 Without the password, nothing the API offers moves the drive (Windows)

C159 on Windows, with the calls of C143: any number of goroutines, any calls, schedules and answers of Windows. If no packet the caller makes itself (shorter than 4 GiB) presents the PSID or the SID credential to the drive, RevertTPer is called only with wrong passwords and no session of SID or PSID was open at the start, then the drive is not reverted, its SID credential is not changed and no session of SID or PSID is opened. (Through every driver but the miniport one nothing but zeros is sent at all, C73.)

*Plan.* As C159, with the requests to Windows decoded by offset (Spec/WinProtected.lean); C73 and C97 for pass-through requests, C99 for the miniport.

*Theorems.* `Dparm.win_drive_protected` (proved). Spec/WinProtected.lean: WinHands, WinGuarded, Unprivileged. Examples: a drive behind the miniport under every behaviour of Windows; the same packets with the PSID revert it.

### C161 Partitions through the Partition interface

For every partition of a volume that EnumVolumes reported, on both platforms, and of an opened drive on Windows: GetMbrInfo is non-nil exactly if GetPartitionStyle is MBR, GetGptInfo exactly if it is GPT, and its two identifiers are in braces and without small letters. A volume has at most one partition. On Linux the style is never raw, and GetSize equals GetStart (C91); on Windows start and size are those of the volume's first extent, and the partitions of a drive all have the style of the drive, which is then not raw.

*Plan.* Consequences of C91, C103, C105 and C108 for the five accessors (Model/Partition.lean).

*Theorems.* `Dparm.linux_partition_view`, `Dparm.win_partition_view`, `Dparm.win_drive_partition_view` (proved). Spec/Partition.lean: SoundView, GuidForm. Capital letters: ASCII identifiers.

### C162 What can crash a program on Linux

After any calls, whatever the system and the drives answer, a call of the API panics only for one of these reasons: opening, enumerating or TcgDiscovery0 meets a drive whose discovery data announces at most 2048 bytes but whose descriptors run over the announced end; EnumVolumes meets a mounted partition with number 0 on a drive with a partition table; GetDrivingType or GetDriverName of a handle without driver (closed, or no driver accepted the drive); AtaDoTaskFileCmd or SecurityCommand with a buffer of no bytes (not nil) on a SCSI generic drive, before anything is sent; RevertTPer, GetDefaultPassword, Start, Authenticate, SendCommand, OpalGetTable or EnterpriseGetTable for an Opal device whose last answer from the drive is too short. Close never panics, nor NvmeGetLogPage with a size that is not negative, nor Close of a session, nor Exec. For the methods of a handle the reasons are exact. Every call other than RevertTPer, GetDefaultPassword and those on sessions ends.

*Plan.* Per call: a program logic with the exchanges of a panic as postcondition (Lemmas/Crash.lean: Sane), over the composed model down to system calls; induction over the calls for the shape of held handles; C27, C29, C93 and C124-C126 for the TCG operations and volumes.

*Theorems.* `Dparm.client_crash`, `Dparm.client_never_crashes`, `Dparm.handle_crash_iff` (proved). Spec/Crash.lean: CrashCause. NvmeGetLogPage with a negative size panics in Go (make); sizes are natural numbers in the client model, see C63 (log_page_negative) for the negative case. Examples: six panics on a sample system.

### C163 What can crash a client on Windows

After whatever sequence of library calls on Windows, and whatever Windows and the drives answer, a further call panics only for a reason of a closed list that names the answer or argument at fault: an open (by path, volume or partition, or within the enumeration, which still closes what it opened) panics only on a partition layout or storage descriptor that cannot be fetched, is too short, mixes styles or has an offset behind its end, or on malformed discovery data; the enumeration also on a device detail size that is 0 when rounded up; enumerating volumes only on a mount point text without end or more than 171 extents; GetDrivingType and GetDriverName exactly on a handle without driver; an ATA command exactly with nil or empty data on a drive of an ATA-capable driver; SecurityCommand exactly with an empty buffer on a driver other than the miniport one; reading discovery data again exactly when the data read is malformed; RevertTPer, GetDefaultPassword and the calls on sessions only on Opal devices after an accepted answer of the drive, read with a TCG request, that is too short. Close, NvmeGetLogPage, Close of a session and Exec never panic. Every call but EnumDrives, EnumVolumes, RevertTPer, GetDefaultPassword and those on sessions ends.

*Plan.* As C162: the program logic Sane over the composed model down to DeviceIoControl (Lemmas/WinCrash.lean); induction over the calls for the shape of held handles; C27, C29, C107-C109 for the TCG operations and enumerations.

*Theorems.* `Dparm.win_client_crash`, `Dparm.win_client_never_crashes`, `Dparm.win_handle_crash_iff` (proved). Spec/WinCrash.lean: WinCrashCause, OpenFatal, Received. Log page sizes are natural numbers in the client model (negative: see windowsLogPage in Model/WinNvme.lean). Examples: five panics on a sample Windows; malformed discovery data.

### C164 Every call ends within a known number of system calls (Linux)

On a system whose clock does not run backwards and whose sleeps last as long as asked, every call of the Linux API, on whatever handles and after whatever history, comes to an end, and makes at most: to open a drive 17 system calls and one for each name listed in /dev/disk/by-id; to enumerate drives 1, 19 for each name in /sys/block and one for each name listed in /dev/disk/by-id; to enumerate volumes 6 for each line of the mount table; Close 1; GetDrivingType and GetDriverName none; AtaDoTaskFileCmd 2; NvmeGetLogPage one per 4096 bytes begun; SecurityCommand and TcgDiscovery0 4; RevertTPer and GetDefaultPassword 2 exchanges of at most 403 security commands; a call on a session one such exchange, Close of a session none. A program comes to the end of any sequence of calls, and its system calls add up to at most the sum.

*Plan.* An amortized cost logic over program trees (Lemmas/Cost.lean: Pays; listings bring in what they cost), composed through the layers (Lemmas/Budget.lean); for polling, an induction over the rounds with the clock as variant (Lemmas/Clockwork.lean).

*Theorems.* `Dparm.call_ends`, `Dparm.client_ends`, `Dparm.client_budget` (proved). Spec/Budget.lean: budget, SystemClock. The polling bound of the model (any bound of 402 rounds or more) is never used up. A go-diskfs call and filepath.EvalSymlinks count as one system call; reading /proc/mounts is not counted (the mount table is an input). Example: costs of a sample client.

### C165 Every call ends within a known number of API calls (Windows)

On a Windows whose clock does not run backwards and whose sleeps last as long as asked, with at most n disks and n volumes, every call of the Windows API of the library, on whatever handles and after whatever history, comes to an end, and makes at most: to open a drive 16 calls of the Windows API; to enumerate drives 3 + 21 n; to enumerate volumes 4 + 8 n; Close 1; GetDrivingType and GetDriverName none; AtaDoTaskFileCmd 2; NvmeGetLogPage 1; SecurityCommand and TcgDiscovery0 4; RevertTPer and GetDefaultPassword 2 exchanges of at most 403 security commands; a call on a session one such exchange, Close of a session none. A program comes to the end of any sequence of calls, and its API calls add up to at most the sum.

*Plan.* The cost logic of C164 (Lemmas/WinBudget.lean) and inductions over the rounds of the enumerations, with the number of devices and volumes left as variant.

*Theorems.* `Dparm.win_call_ends`, `Dparm.win_client_ends` (proved). Spec/WinBudget.lean: winBudget, WinClock, ListsAtMost, enoughRounds (the round bounds of the model exceed n). The conversions of texts are not API calls. Example: costs of a sample client.

### C166 Reading a table asks for exactly the range named

OpalGetTable on an Opal device, with any session, table UID and pair of column numbers, sends exactly one command, to the drive the session belongs to (whatever device the method is called on), which a drive reads as Get of exactly that table and exactly those columns under the session's numbers; EnterpriseGetTable likewise with non-empty column names that fit into the packet. What is returned is the drive's accepted answer as parsed; otherwise an error, or a panic on an accepted message too short for a status. Generic and Enterprise devices refuse OpalGetTable, and nothing is ever sent in a session of a device that is not Opal. On a conforming drive, in an open session, the PIN column of C_PIN_MSID can be read (the fifth token of the answer is the drive's MSID), every other range is refused with the drive's status, and the drive is left as it was.

*Plan.* The encoder against the token grammar, then the packet reader of the reference drive (Spec/Tper.lean) applied to the wire image; C27 for the outcome; the step of the reference drive for the conforming case.

*Theorems.* `Dparm.table_range`, `Dparm.table_named_range`, `Dparm.table_unsupported`, `Dparm.table_conforming` (proved). Spec/Table.lean: columnRange, namedRange, getCall. The table argument is the atom 0xa8 + UID, as the library builds it; column names of 381 bytes and more in total are cut by the 512-byte packet (C08).

### C167 Guessing in sessions moves nothing

A caller without the key uses the ready-made session calls: Start for any SP with a UID as authority and any challenge that is not, as presented (raw, or as derived key), the PSID for PSID or the SID credential for SID; Authenticate with any authority below 20000 bytes and any challenge; OpalGetTable and EnterpriseGetTable of any table UID; Close; and SendCommand and Exec with commands of its own for other ComIDs or protocols. Whatever state the session objects are in and whatever the drive answers, no packet sent is one a drive reads as StartSession with its key. So with C159 and C160: any number of goroutines that make such calls, and whatever other calls of the API (SecurityCommand not with protocol 1 to the drive's ComID, RevertTPer with wrong passwords), under any schedule, do not revert the drive, change its SID credential or get a session of SID or PSID.

*Plan.* The wire image of each call read by the packet reader of the reference drive: its first tokens are the invoking UID and the method; for Start also the credentials, in the three cases fitting, cut off and challenge omitted. Then C159 and C160.

*Theorems.* `Dparm.guess_keyless`, `Dparm.guesses_move_nothing`, `Dparm.win_guesses_move_nothing` (proved). Spec/Keyless.lean: Guesses, Guessing; Spec/Protected.lean: ShowsKey, Keyless. Raw authorities (not UIDs) for Start are outside this criterion, but inside C159 as long as what is sent shows no key. Examples: a wrong guess under every schedule, on Linux and Windows; with the PSID the same calls open a session of PSID.

### C168 Sessions on a conforming drive, from opening it on

On a conforming Opal drive where nothing takes longer than 10 s, Start of the Admin SP on a new session object, with any password and authority UID: while the drive has a session left it returns nil exactly if nothing is presented (empty password), or what is presented (the password itself, or the derived key) is the PSID under the PSID authority, or the SID credential under the SID authority; then exactly one session was opened, writing, for that authority, and the object speaks in it. Otherwise TCG error 1 (7 if no session is left) and the drive is unchanged. In an open session OpalGetTable of the PIN column of C_PIN_MSID returns the MSID and every other range is refused, and a Revert command the caller builds and sends resets the drive exactly in a session of SID or PSID, otherwise TCG error 1 and the drive is unchanged. All this, and C154, holds on Linux from opening the node on, over the NVMe driver and over the SCSI generic driver, at any later time.

*Plan.* start_conforming and send_fetched of the reference drive; opened drives by the simulation of C130 and C131: an operation on an opened drive is a run on the reference drive.

*Theorems.* `Dparm.start_outcome`, `Dparm.revert_by_hand`, `Dparm.start_outcome_opened`, `Dparm.table_outcome_opened`, `Dparm.revert_by_hand_opened`, `Dparm.one_session_opened` (proved). Spec/Sessions.lean: shown, LetsIn, OpenedOn; Spec/Tper.lean, TperLinux.lean, TperScsi.lean: the drive. Examples: an owner's session with a Revert in it and the lack of a second session on NVMe; a refused PSID and an anonymous session on SCSI.

### C169 SMART data through an opened drive

ReadSmart on a drive the Linux or Windows factory opened, for any timeout and any system: on an NVMe drive and on a drive without driver it returns the error "not supported in this driver" without any request. On a SCSI generic drive (Linux) and on a drive of the ATA or SCSI driver (Windows) it sends SMART READ DATA (B0h/D0h, one sector, key 4Fh/C2h) as one ATA command as C132/C138 say, and only if that succeeded SMART READ THRESHOLDS (D1h); the first error is returned and nothing else is sent after it; otherwise the 30 attribute values are those of the first sector and the 30 thresholds those of the second. It never panics. If the drive answers both commands with success, ReadSmart succeeds after exactly two requests with exactly the attributes in the drive's two sectors.

*Plan.* ReadSmart as two commands over any interpretation of a handle (readSmart_on), the commands by C132 and C138, the sectors by C81.

*Theorems.* `Dparm.smart_linux`, `Dparm.smart_disk_read`, `Dparm.smart_windows`, `Dparm.smart_disk_read_windows` (proved). Spec/SmartSystem.lean: smartCommand, SmartOutcome, SmartOnScsi, SmartOnWindows, AnswersSmart, AnswersSmartWin; Spec/AtaUtil.lean: SmartValuesOf, SmartThresholdsOf. Examples: any two sectors, read through SCSI generic and the Windows ATA driver.

### C170 The records the Linux drivers hand the kernel, byte for byte

The memory the library hands to its ioctls on Linux is what the kernel's own C records say: read by include/uapi/linux/nvme_ioctl.h, with the record size in the ioctl number, the 72 bytes of an admin or I/O command are exactly the caller's command and buffer address (and, for I/O commands, a data length 0), and the 48 bytes of DoNvmeIo are exactly the caller's request; read by include/scsi/sg.h, every round of an ATA or SCSI security command is interface 'S', no scatter list, no flags, the direction, CDB, data memory, length, timeout and pack id C132 speaks of, and a sense buffer inside the same record, so that whatever status, sense bytes and other output fields the kernel writes there, after the first and after the second round, the library reads back exactly status and sense data.

*Plan.* A second model of the same functions on bytes (Model/Records.lean): the assignments in order at the offsets of the Go struct; a kernel that reads the C record (Spec/Records.lean) turns it into the model of C64, C65 and C132, equal as programs.

*Theorems.* `Dparm.nvme_records`, `Dparm.sg_task_records`, `Dparm.sg_security_records` (proved). Spec/Records.lean: num, passthruAt, userIoAt, kernelNv, SgHeader, sgHeaderAt, kernelSg; Model/Records.lean is the byte model. Layout of 64-bit little-endian platforms. Examples: the bytes of an IDENTIFY DEVICE header and of an NVMe identify record, a refused record, both rounds after an error.

### C171 What a recovered panic leaves behind

A caller recovers from a panic of TcgDiscovery0, Start, Authenticate, SendCommand or Close and looks at the object. Under recover every one of these sends and returns exactly what it does otherwise, with the same object. Where discovery panics because a descriptor does not fit into the buffer, the handle reports TCG support, exactly the flags it had or the complete descriptors before that one report, for each of their codes the complete last descriptor, and is otherwise as before, so it can be used on; on a handle without a table of raw features exactly the flag of the first descriptor is left and no raw feature. Where a call on a session panics, the session object is exactly as it was before the call: in particular Start never leaves one new session number beside an old one by a panic.

*Plan.* A second model of the calls that returns the object at the panic (Model/Recover.lean), compared with the model without recover: the walk by induction on the bytes left, Start by the shape of parsed tokens (C22), which do not let the number conversions panic.

*Theorems.* `Dparm.recovered_agrees`, `Dparm.recovered_panic`, `Dparm.recovered_uninitialised`, `Dparm.start_recovered`, `Dparm.call_recovered` (proved). Props/Recover.lean: recovered (what a caller sees under recover); Spec/Discovery.lean: IsDescriptor, Reports, lastWith, flags. Sessions: the unexported opened mark, which no method sets, is down. Examples: seven vendor descriptors and one too long, on a handle with and without table; Start and SendCommand answered with one token.

### C172 A session object used on after recovered panics

Any sequence of calls is made on a new session object, each under recover, whatever the drive answers. The sequence does not end in a panic. As long as every Start panicked, everything sent carries the session numbers 0 and 0; after a Start that returned nil everything sent carries the two numbers of its reply, until another Start returns, whatever panics in between. A Start or Authenticate sends one packet, with the password unhashed exactly if the last SetNoHashPassword, panics or not, turned hashing off, and IsNoHashPassword tells.

*Plan.* Induction on the history with C171 at each call and C153 at the calls that return.

*Theorems.* `Dparm.recovered_history_comes_back`, `Dparm.recovered_history_numbers`, `Dparm.recovered_history_credentials` (proved). Props/RecoverHistory.lean: StartsPanicked. The histories that come back, i.e. the drive ends its polling (fuel, C17). Example: a start, two panics, the numbers of the session in every later packet.

### C173 Texts between Go and Windows

A text that Windows delivers (device paths, volume names, drive letters, file systems) arrives as its UTF-8, up to the NUL that ends it; a text given to Windows, in UTF-8 without NUL, is seen there as its UTF-16, and a text with a NUL is refused. A text received and given back is the same text, character for character, and two different texts stay different. So EnumDrives opens each device under exactly the name its detail record has, and OpenDriveByVolumePath of a name EnumVolumes listed, with or without a backslash, is about the first volume Windows listed under that name, and no other. The exception: unpaired surrogates, which NTFS names may contain, are replaced by Go versions before 1.21; from 1.21 on the statements hold for them, too.

*Plan.* Go's conversions are functions on bytes and 16-bit characters (Model/Utf16.lean), the specification is UTF-8 and UTF-16 by arithmetic; induction on the text by scalar values and unpaired surrogates, and C107, C109, C112 for the calls.

*Theorems.* `Dparm.text_received`, `Dparm.text_given`, `Dparm.text_round_trip`, `Dparm.text_distinct`, `Dparm.enum_opens_named`, `Dparm.volume_by_name` (proved). Spec/Utf16.lean: Scalar, utf16, WellFormed; Spec/DriveInfo.lean: utf8. wtf distinguishes Go 1.21 and later from earlier versions. Trusted: the transcription of Go's syscall, utf8 and utf16 packages in Model/Utf16.lean. Examples: three characters of one, two and four bytes; an unpaired surrogate in both versions; the sample machines of C107 and C109.

### C174 TCG operations on a conforming drive through the Windows miniport driver

The reference drive of C127 behind the SCSI miniport of Windows: the factory's miniport driver drives it, and it was recognised as an Opal device with the drive's own ComID. RevertTPer with the PSID succeeds exactly if the password is the drive's PSID, with the SID exactly if the drive's SID credential is the hash of the non-empty password; after success the drive is in factory state, after failure (TCG error 1) credential and content are unchanged. However slow the drive and however many sessions are open, success is only reported in factory state with the right password, and a wrong password never reverts it. GetDefaultPassword returns the MSID while a session is left, and uses one up for good. Every packet the drive has to understand fits into the 4096 bytes a miniport request carries.

*Plan.* C99 and C137 for the single requests; a drive behind the driver is a conforming drive for the TCG layer (Spec/Tper.lean asks nothing of sends above 4096 bytes: a packet that can be read was sent in 512 bytes, Lemmas/WireShort.lean), then C127 to C129.

*Theorems.* `Dparm.psid_revert_miniport`, `Dparm.sid_revert_miniport`, `Dparm.revert_safe_miniport`, `Dparm.msid_on_miniport` (proved). Spec/TperWin.lean: MiniportConforming, PromptWindows, MiniportDrive (Spec/WinTcg.lean). The miniport is assumed to execute a Security Send although the record's direction field says device to host (C99). Non-vacuity: idealWin_conforming and an example with all outcomes.

### C175 TCG operations from opening the path on, on a conforming drive behind the Windows miniport

As C130 on Windows: take an adapter on which the SCSI miniport answers NVMe Security Send and Receive as a conforming Opal drive with base ComID c would, and level 0 discovery with descriptors naming c. If the path opens as a disk at that adapter (whatever port number Windows names), its drive layout is refused or complete with entries of the table's own style, and the miniport executes Identify, then whatever the rest of the system answers OpenByPath returns a drive of the miniport driver on the adapter's handle. Whenever it returns one, NewTcgDevice on it finds an Opal device with base ComID c, opening did not change the drive's TCG state, and from then on, at any time and whatever else was asked in between: RevertTPer with the PSID succeeds and leaves factory state, with another password fails with error 1 and reverts nothing; RevertTPer with the SID succeeds exactly when the SID credential is D0 20 and the key derived from the non-empty password and the opened drive's serial; GetDefaultPassword returns the MSID while a session is left, then error 7. Without any assumption on the clock, success is never reported unless the drive is in factory state and the password was right.

*Plan.* Contract in Spec/TperWin.lean; opening by C100, C103 and C105, discovery through the miniport record of C99 and the handle of C134, opening reads only (C119), then C174.

*Theorems.* `Dparm.open_conforming_miniport`, `Dparm.open_succeeds_miniport`, `Dparm.psid_revert_opened_win`, `Dparm.sid_revert_opened_win`, `Dparm.revert_safe_opened_win`, `Dparm.msid_opened_win` (proved). Spec/TperWin.lean: MiniportConforming, MiniportAnnounces, MiniportNode, PromptWindows. The miniport is assumed to execute a Security Send although the record's direction field says device to host (C99). Non-vacuity: idealWin_conforming, idealWin_announces, idealWin_node, win_opens_owned and an example with all outcomes.

### C176 Sessions on a conforming drive behind the Windows miniport, from opening it on

As C168 on Windows: on a drive the Windows factory opened, at some time and under some path, on a conforming Opal drive behind the miniport driver, where nothing takes longer than 10 s, at any later time: Start of the Admin SP on a new session object, with any password and authority UID, while the drive has a session left returns nil exactly if nothing is presented (empty password), or what is presented is the PSID under the PSID authority, or the SID credential under the SID authority; then exactly one session was opened, writing, for that authority, and the object speaks in it. Otherwise TCG error 1 (7 if no session is left) and the drive is unchanged. In an open session OpalGetTable of the PIN column of C_PIN_MSID returns the MSID and every other range is refused; a Revert command the caller sends resets the drive exactly in a session of SID or PSID, otherwise TCG error 1 and the drive is unchanged; and any history of calls on one session object opens at most one session, after which every further Start fails (C154).

*Plan.* start_conforming and send_fetched of the reference drive; opened drives by the simulation of C175: an operation on an opened drive is a run on the reference drive.

*Theorems.* `Dparm.start_outcome_opened_win`, `Dparm.table_outcome_opened_win`, `Dparm.revert_by_hand_opened_win`, `Dparm.one_session_opened_win` (proved). Spec/Sessions.lean: shown, LetsIn; Spec/TperWin.lean: OpenedOnWin. Examples: an owner's session with a Revert in it and the lack of a second session; a refused PSID and an anonymous session.

### C177 Any history of operations on a conforming drive

On a conforming Opal drive where nothing takes longer than 10 s, any sequence of RevertTPer and GetDefaultPassword calls, with any passwords, returns call by call what a ledger of three numbers says (SID credential, open sessions, reverts), and leaves the drive as it says: with no session left every call returns TCG error 7; a revert with the right password returns nil, sets the credential to the MSID and frees all sessions; with a wrong one it returns error 1 and costs nothing, with an empty one error 1 and a session for good; GetDefaultPassword returns the MSID and costs a session. If the program is stopped after any exchange (on a drive that a fetch without a waiting answer does not change), credential and number of reverts are what the ledger says after some number of the calls. So the drive was reverted exactly as often as RevertTPer returned nil, and once it is in factory state with an MSID not of 34 bytes, no history without the PSID reverts it again, though the MSID is then its SID credential. The ledger also holds on Linux and Windows from opening on, over the NVMe, SCSI generic and Windows miniport drivers.

*Plan.* The ledger is a ten line function (Spec/TperHistory.lean); simulation by induction on the sequence, with the outcome of one call from C127 to C129 and the number of sessions it leaves open; opened drives by the simulations of C168 and C176.

*Theorems.* `Dparm.history_ledger`, `Dparm.history_ledger_opened`, `Dparm.history_ledger_opened_win`, `Dparm.history_stopped`, `Dparm.reverts_counted`, `Dparm.factory_state_stays` (proved). Spec/TperHistory.lean: Ledger.steps. Limit shown: after reverting, the MSID that GetDefaultPassword returns does not revert the drive again; an empty password costs a session. Examples: an owner's four calls, a careless owner on Linux and Windows.

