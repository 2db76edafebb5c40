{
 "claims": [
  {
   "property": "C01",
   "status": "proved",
   "theorems": [
    "Dparm.addNumber_atom",
    "Dparm.getUint64_addNumber",
    "Dparm.number_roundtrip"
   ],
   "note": ""
  },
  {
   "property": "C02",
   "status": "proved",
   "theorems": [
    "Dparm.addString_atom",
    "Dparm.getString_addString",
    "Dparm.string_roundtrip"
   ],
   "note": ""
  },
  {
   "property": "C03",
   "status": "proved",
   "theorems": [
    "Dparm.addString_empty",
    "Dparm.addString_too_long",
    "Dparm.addString_explicit"
   ],
   "note": ""
  },
  {
   "property": "C04",
   "status": "proved",
   "theorems": [
    "Dparm.build_exact",
    "Dparm.addRaw_empty"
   ],
   "note": ""
  },
  {
   "property": "C05",
   "status": "proved",
   "theorems": [
    "Dparm.build_content",
    "Dparm.command_history_safe",
    "Dparm.addRaw_silent_cut"
   ],
   "note": ""
  },
  {
   "property": "C06",
   "status": "proved",
   "theorems": [
    "Dparm.complete_lengths"
   ],
   "note": ""
  },
  {
   "property": "C07",
   "status": "proved",
   "theorems": [
    "Dparm.parse_own_command"
   ],
   "note": ""
  },
  {
   "property": "C08",
   "status": "proved",
   "theorems": [
    "Dparm.getCmdSize_roundUp",
    "Dparm.wire_after_complete"
   ],
   "note": ""
  },
  {
   "property": "C09",
   "status": "proved",
   "theorems": [
    "Dparm.stamping_frame",
    "Dparm.stamping_keeps_tokens"
   ],
   "note": ""
  },
  {
   "property": "C10",
   "status": "proved",
   "theorems": [
    "Dparm.commit_decision",
    "Dparm.scan_fuel"
   ],
   "note": ""
  },
  {
   "property": "C11",
   "status": "proved",
   "theorems": [
    "Dparm.commit_tiles",
    "Dparm.tiles_meaning"
   ],
   "note": ""
  },
  {
   "property": "C12",
   "status": "proved",
   "theorems": [
    "Dparm.commit_inside_when_complete",
    "Dparm.commit_overread",
    "Dparm.commit_leaks_adjacent_memory",
    "Dparm.commit_not_a_function_of_response"
   ],
   "note": ""
  },
  {
   "property": "C13",
   "status": "proved",
   "theorems": [
    "Dparm.commit_of_encoded"
   ],
   "note": ""
  },
  {
   "property": "C14",
   "status": "proved",
   "theorems": [
    "Dparm.getToken_exact"
   ],
   "note": ""
  },
  {
   "property": "C15",
   "status": "proved",
   "theorems": [
    "Dparm.type_total",
    "Dparm.type_of_encoded",
    "Dparm.tiny_sign_inverted"
   ],
   "note": ""
  },
  {
   "property": "C16",
   "status": "proved",
   "theorems": [
    "Dparm.getUint64_exact",
    "Dparm.narrow_accessors",
    "Dparm.getUint8_is_last_byte"
   ],
   "note": ""
  },
  {
   "property": "C17",
   "status": "proved",
   "theorems": [
    "Dparm.parsed_token_shape",
    "Dparm.accessors_never_panic"
   ],
   "note": ""
  },
  {
   "property": "C18",
   "status": "proved",
   "theorems": [
    "Dparm.sendCommand_success_iff",
    "Dparm.sendCommand_status"
   ],
   "note": ""
  },
  {
   "property": "C19",
   "status": "proved",
   "theorems": [
    "Dparm.sendCommand_panics_iff"
   ],
   "note": ""
  },
  {
   "property": "C20",
   "status": "proved",
   "theorems": [
    "Dparm.sendCommand_stamped"
   ],
   "note": ""
  },
  {
   "property": "C21",
   "status": "proved",
   "theorems": [
    "Dparm.session_numbers_echoed",
    "Dparm.start_succeeds_on_numbers"
   ],
   "note": ""
  },
  {
   "property": "C22",
   "status": "proved",
   "theorems": [
    "Dparm.start_sends",
    "Dparm.start_sends_fresh"
   ],
   "note": ""
  },
  {
   "property": "C23",
   "status": "proved",
   "theorems": [
    "Dparm.start_credential"
   ],
   "note": ""
  },
  {
   "property": "C24",
   "status": "proved",
   "theorems": [
    "Dparm.hash_prefix"
   ],
   "note": ""
  },
  {
   "property": "C25",
   "status": "proved",
   "theorems": [
    "Dparm.close_unobservable"
   ],
   "note": ""
  },
  {
   "property": "C26",
   "status": "proved",
   "theorems": [
    "Dparm.revert_order",
    "Dparm.revert_start_error"
   ],
   "note": ""
  },
  {
   "property": "C27",
   "status": "proved",
   "theorems": [
    "Dparm.revert_success"
   ],
   "note": ""
  },
  {
   "property": "C28",
   "status": "proved",
   "theorems": [
    "Dparm.revert_secret"
   ],
   "note": ""
  },
  {
   "property": "C29",
   "status": "proved",
   "theorems": [
    "Dparm.defaultPassword_spec"
   ],
   "note": ""
  },
  {
   "property": "C30",
   "status": "proved",
   "theorems": [
    "Dparm.unsupported_device_silent",
    "Dparm.opal_device_sends"
   ],
   "note": ""
  },
  {
   "property": "C31",
   "status": "proved",
   "theorems": [
    "Dparm.exec_exchanges",
    "Dparm.exec_counts"
   ],
   "note": ""
  },
  {
   "property": "C32",
   "status": "proved",
   "theorems": [
    "Dparm.exec_exchanges"
   ],
   "note": ""
  },
  {
   "property": "C33",
   "status": "proved",
   "theorems": [
    "Dparm.exec_bounded",
    "Dparm.exec_exchanges"
   ],
   "note": ""
  },
  {
   "property": "C34",
   "status": "proved",
   "theorems": [
    "Dparm.device_kind",
    "Dparm.device_kind_of_response"
   ],
   "note": ""
  },
  {
   "property": "C35",
   "status": "proved",
   "theorems": [
    "Dparm.lock_state",
    "Dparm.lock_state_short"
   ],
   "note": ""
  },
  {
   "property": "C36",
   "status": "proved",
   "theorems": [
    "Dparm.com_ids"
   ],
   "note": ""
  },
  {
   "property": "C37",
   "status": "proved",
   "theorems": [
    "Dparm.discovery_outcome"
   ],
   "note": ""
  },
  {
   "property": "C38",
   "status": "proved",
   "theorems": [
    "Dparm.discovery_flags",
    "Dparm.discovery_flags_fresh"
   ],
   "note": ""
  },
  {
   "property": "C39",
   "status": "proved",
   "theorems": [
    "Dparm.discovery_raw"
   ],
   "note": ""
  },
  {
   "property": "C40",
   "status": "proved",
   "theorems": [
    "Dparm.discovery_vendor_zero",
    "Dparm.discovery_vendor_nonzero"
   ],
   "note": ""
  },
  {
   "property": "C41",
   "status": "proved",
   "theorems": [
    "Dparm.discovery_support"
   ],
   "note": ""
  },
  {
   "property": "C42",
   "status": "proved",
   "theorems": [
    "Dparm.rediscovery_never_forgets"
   ],
   "note": ""
  },
  {
   "property": "C43",
   "status": "proved",
   "theorems": [
    "Dparm.union_decoders"
   ],
   "note": ""
  },
  {
   "property": "C44",
   "status": "proved",
   "theorems": [
    "Dparm.security_fallback"
   ],
   "note": ""
  },
  {
   "property": "C45",
   "status": "proved",
   "theorems": [
    "Dparm.ata_security_registers"
   ],
   "note": ""
  },
  {
   "property": "C46",
   "status": "proved",
   "theorems": [
    "Dparm.nvme_security_fields"
   ],
   "note": ""
  },
  {
   "property": "C47",
   "status": "proved",
   "theorems": [
    "Dparm.close_once",
    "Dparm.close_final"
   ],
   "note": ""
  },
  {
   "property": "C48",
   "status": "proved",
   "theorems": [
    "Dparm.ata_identity",
    "Dparm.nvme_identity",
    "Dparm.ata_strings_unique"
   ],
   "note": ""
  },
  {
   "property": "C49",
   "status": "proved",
   "theorems": [
    "Dparm.ata_identity",
    "Dparm.nvme_identity"
   ],
   "note": ""
  },
  {
   "property": "C50",
   "status": "proved",
   "theorems": [
    "Dparm.init_outcome",
    "Dparm.init_short"
   ],
   "note": ""
  },
  {
   "property": "C51",
   "status": "proved",
   "theorems": [
    "Dparm.alignedBuffer_aligned_inBounds",
    "Dparm.isAlignedPointer_newAlignedBuffer"
   ],
   "note": ""
  },
  {
   "property": "C52",
   "status": "proved",
   "theorems": [
    "Dparm.ABuf.step_refines",
    "Dparm.alignedBuffer_refines_cursor",
    "Dparm.alignedBuffer_read_after_write",
    "Dparm.wrappedBuffer_refines_cursor",
    "Dparm.wrappedBuffer_confined"
   ],
   "note": ""
  },
  {
   "property": "C53",
   "status": "proved",
   "theorems": [
    "Dparm.swap_spec",
    "Dparm.swap_kept",
    "Dparm.swap16_spec",
    "Dparm.swap32_spec"
   ],
   "note": ""
  },
  {
   "property": "C54",
   "status": "proved",
   "theorems": [
    "Dparm.fixAtaStringOrder_even",
    "Dparm.fixAtaStringOrder_odd"
   ],
   "note": ""
  },
  {
   "property": "C55",
   "status": "proved",
   "theorems": [
    "Dparm.lba48_decision",
    "Dparm.ext_not_fixed",
    "Dparm.isDma_spec"
   ],
   "note": ""
  },
  {
   "property": "C56",
   "status": "proved",
   "theorems": [
    "Dparm.tfInit_no_effect",
    "Dparm.tfInit_param",
    "Dparm.tfInitLocal_address"
   ],
   "note": ""
  },
  {
   "property": "C57",
   "status": "proved",
   "theorems": [
    "Dparm.sg_cdb_faithful",
    "Dparm.satDecode_sgTaskCdb"
   ],
   "note": ""
  },
  {
   "property": "C58",
   "status": "proved",
   "theorems": [
    "Dparm.sg_write_zeros",
    "Dparm.sg_read_buffer"
   ],
   "note": ""
  },
  {
   "property": "C59",
   "status": "proved",
   "theorems": [
    "Dparm.sg_ioctl_count",
    "Dparm.sgSec_ioctl_count"
   ],
   "note": ""
  },
  {
   "property": "C60",
   "status": "proved",
   "theorems": [
    "Dparm.sg_sense",
    "Dparm.sg_read_buffer"
   ],
   "note": ""
  },
  {
   "property": "C61",
   "status": "proved",
   "theorems": [
    "Dparm.sgSec_cdb",
    "Dparm.sgSec_data"
   ],
   "note": ""
  },
  {
   "property": "C62",
   "status": "proved",
   "theorems": [
    "Dparm.log_page_retries"
   ],
   "note": ""
  },
  {
   "property": "C63",
   "status": "proved",
   "theorems": [
    "Dparm.log_page_fields",
    "Dparm.log_page_small",
    "Dparm.log_page_negative"
   ],
   "note": ""
  },
  {
   "property": "C64",
   "status": "proved",
   "theorems": [
    "Dparm.admin_passthru_faithful",
    "Dparm.io_passthru_no_length",
    "Dparm.user_io_faithful"
   ],
   "note": ""
  },
  {
   "property": "C65",
   "status": "proved",
   "theorems": [
    "Dparm.ioctl_number_recoverable",
    "Dparm.ioctl_number_injective",
    "Dparm.ioctl_directions"
   ],
   "note": ""
  },
  {
   "property": "C66",
   "status": "proved",
   "theorems": [
    "Dparm.passFlags_fields",
    "Dparm.passFlags_roundtrip",
    "Dparm.setMultipleCount_wrong",
    "Dparm.setExtend_wrong",
    "Dparm.cdbB01_fields"
   ],
   "note": ""
  },
  {
   "property": "C67",
   "status": "proved",
   "theorems": [
    "Dparm.open_by_path_error_iff",
    "Dparm.open_by_path_drivers",
    "Dparm.open_then_close"
   ],
   "note": "A panic of Init (short identity data or a malformed discovery answer) propagates; the statement about drivers is for calls that return."
  },
  {
   "property": "C68",
   "status": "proved",
   "theorems": [
    "Dparm.enum_drives"
   ],
   "note": "For calls that return; C113 is about calls that panic."
  },
  {
   "property": "C69",
   "status": "proved",
   "theorems": [
    "Dparm.enum_volumes_grouping",
    "Dparm.mountFields_eq"
   ],
   "note": "Errors that come with a line are covered by C91's specification."
  },
  {
   "property": "C70",
   "status": "proved",
   "theorems": [
    "Dparm.open_by_volume_path",
    "Dparm.open_by_volume_path_order"
   ],
   "note": "The map's iteration order is the order of the list; the second theorem exhibits a bad order for every path."
  },
  {
   "property": "C71",
   "status": "proved",
   "theorems": [
    "Dparm.mbr_accepts_iff",
    "Dparm.mbr_read"
   ],
   "note": ""
  },
  {
   "property": "C72",
   "status": "proved",
   "theorems": [
    "Dparm.nul_text_found",
    "Dparm.nul_text_none",
    "Dparm.wcslen_spec"
   ],
   "note": ""
  },
  {
   "property": "C73",
   "status": "proved",
   "theorems": [
    "Dparm.win_writes_are_zeros",
    "Dparm.win_reads"
   ],
   "note": "PassOp ranges over the three commands; payload reads what Windows is given."
  },
  {
   "property": "C74",
   "status": "proved",
   "theorems": [
    "Dparm.win_ata_result",
    "Dparm.win_ata_open"
   ],
   "note": "win_ata_open covers the sentence on IDENTIFY DEVICE."
  },
  {
   "property": "C75",
   "status": "proved",
   "theorems": [
    "Dparm.win_first_driver",
    "Dparm.win_driver_order",
    "Dparm.win_open_by_handle"
   ],
   "note": "Spec/WinFactory.lean: FirstAccepted, NoneAccepted."
  },
  {
   "property": "C76",
   "status": "proved",
   "theorems": [
    "Dparm.win_first_mount_only"
   ],
   "note": "Spec/WinVolume.lean: multiString."
  },
  {
   "property": "C77",
   "status": "proved",
   "theorems": [
    "Dparm.authenticate_verdict",
    "Dparm.authenticate_sends"
   ],
   "note": "The verdict is inverted with respect to the TCG boolean; see FINDINGS in DESIGN.md."
  },
  {
   "property": "C78",
   "status": "proved",
   "theorems": [
    "Dparm.linux_send_fallback_zeros"
   ],
   "note": ""
  },
  {
   "property": "C79",
   "status": "proved",
   "theorems": [
    "Dparm.nvme_record_big_endian",
    "Dparm.nvme_named_fields",
    "Dparm.nvme_identity_any"
   ],
   "note": ""
  },
  {
   "property": "C80",
   "status": "proved",
   "theorems": [
    "Dparm.announced_without_itself"
   ],
   "note": ""
  },
  {
   "property": "C81",
   "status": "proved",
   "theorems": [
    "Dparm.readSmart_spec",
    "Dparm.readSmart_no_ata"
   ],
   "note": ""
  },
  {
   "property": "C82",
   "status": "proved",
   "theorems": [
    "Dparm.sgSec_ignores_sense"
   ],
   "note": ""
  },
  {
   "property": "C83",
   "status": "proved",
   "theorems": [
    "Dparm.sg_timeouts"
   ],
   "note": ""
  },
  {
   "property": "C84",
   "status": "proved",
   "theorems": [
    "Dparm.sg_verdict_by_format"
   ],
   "note": ""
  },
  {
   "property": "C85",
   "status": "proved",
   "theorems": [
    "Dparm.sgOpen_spec"
   ],
   "note": ""
  },
  {
   "property": "C86",
   "status": "proved",
   "theorems": [
    "Dparm.ioctl_success_iff",
    "Dparm.nvme_status_looks_like_errno"
   ],
   "note": ""
  },
  {
   "property": "C87",
   "status": "proved",
   "theorems": [
    "Dparm.nvme_open"
   ],
   "note": ""
  },
  {
   "property": "C88",
   "status": "proved",
   "theorems": [
    "Dparm.nvme_security_end_to_end"
   ],
   "note": ""
  },
  {
   "property": "C89",
   "status": "proved",
   "theorems": [
    "Dparm.basic_info",
    "Dparm.opened_basic_info"
   ],
   "note": ""
  },
  {
   "property": "C90",
   "status": "proved",
   "theorems": [
    "Dparm.id_info",
    "Dparm.ignored_iff",
    "Dparm.namesDrive_unique",
    "Dparm.id_info_order",
    "Dparm.soleDev_spec",
    "Dparm.trimSpace_spec",
    "Dparm.opened_basic_info"
   ],
   "note": ""
  },
  {
   "property": "C91",
   "status": "proved",
   "theorems": [
    "Dparm.enum_volumes_partitions",
    "Dparm.reported_partition",
    "Dparm.partitionMatch_iff"
   ],
   "note": "Spec/Volume.lean: Probe, Look, ScanSpec."
  },
  {
   "property": "C92",
   "status": "proved",
   "theorems": [
    "Dparm.enum_volumes_opens"
   ],
   "note": ""
  },
  {
   "property": "C93",
   "status": "proved",
   "theorems": [
    "Dparm.enum_volumes_panic",
    "Dparm.enum_volumes_panic_iff"
   ],
   "note": ""
  },
  {
   "property": "C94",
   "status": "proved",
   "theorems": [
    "Dparm.find_volumes_by_drive",
    "Dparm.volume_list"
   ],
   "note": "Hypothesis Grouped is what C69 proves of every enumeration."
  },
  {
   "property": "C95",
   "status": "proved",
   "theorems": [
    "Dparm.enum_volumes_scanner",
    "Dparm.enum_volumes_read_error",
    "Dparm.content_cases"
   ],
   "note": "bufio.Scanner modelled on file content."
  },
  {
   "property": "C96",
   "status": "proved",
   "theorems": [
    "Dparm.win_requests",
    "Dparm.win_reads",
    "Dparm.win_scsi_result"
   ],
   "note": ""
  },
  {
   "property": "C97",
   "status": "proved",
   "theorems": [
    "Dparm.win_ata_records",
    "Dparm.win_scsi_records",
    "Dparm.win_task_cdb",
    "Dparm.win_sec_cdb"
   ],
   "note": "Spec/Win.lean: ataView, scsiView."
  },
  {
   "property": "C98",
   "status": "proved",
   "theorems": [
    "Dparm.win_ata_open",
    "Dparm.win_scsi_open"
   ],
   "note": ""
  },
  {
   "property": "C99",
   "status": "proved",
   "theorems": [
    "Dparm.win_miniport_admin",
    "Dparm.win_miniport_status_unseen"
   ],
   "note": "Spec/WinNvme.lean: miniportView, miniportOf, referredTo."
  },
  {
   "property": "C100",
   "status": "proved",
   "theorems": [
    "Dparm.nvmeWin_open",
    "Dparm.nvmeWin_handle_leak"
   ],
   "note": "Spec/WinNvme.lean: handlesOpened, handlesClosed, DecimalOf."
  },
  {
   "property": "C101",
   "status": "proved",
   "theorems": [
    "Dparm.windowsNvme_open",
    "Dparm.windows_log_page"
   ],
   "note": "Spec/WinNvme.lean: queryView."
  },
  {
   "property": "C102",
   "status": "proved",
   "theorems": [
    "Dparm.win_send_zeros",
    "Dparm.win_security_miniport"
   ],
   "note": ""
  },
  {
   "property": "C103",
   "status": "proved",
   "theorems": [
    "Dparm.win_basic_info"
   ],
   "note": "Spec/WinFactory.lean: Fetched, layoutItems, itemPart, uuidUpper, uuidLower."
  },
  {
   "property": "C104",
   "status": "proved",
   "theorems": [
    "Dparm.win_storage_query"
   ],
   "note": "Spec/WinFactory.lean: Describes, CString, TrimmedBy, BadOffset."
  },
  {
   "property": "C105",
   "status": "proved",
   "theorems": [
    "Dparm.win_open_by_handle"
   ],
   "note": "For any list of drivers."
  },
  {
   "property": "C106",
   "status": "proved",
   "theorems": [
    "Dparm.win_open_handles"
   ],
   "note": "Spec/WinEnum.lean: keptOf."
  },
  {
   "property": "C107",
   "status": "proved",
   "theorems": [
    "Dparm.win_enum_drives",
    "Dparm.win_enum_ends",
    "Dparm.win_enum_handles"
   ],
   "note": "Spec/WinEnum.lean: Devices."
  },
  {
   "property": "C108",
   "status": "proved",
   "theorems": [
    "Dparm.win_enum_volumes",
    "Dparm.win_volumes_end"
   ],
   "note": "Spec/WinVolume.lean: Volumes, VolumeSeen, ExtentsSeen."
  },
  {
   "property": "C109",
   "status": "proved",
   "theorems": [
    "Dparm.win_volumes_panic",
    "Dparm.win_volumes_return"
   ],
   "note": "Spec/WinVolume.lean: BadAnswer."
  },
  {
   "property": "C110",
   "status": "proved",
   "theorems": [
    "Dparm.win_volumes_handles"
   ],
   "note": "Spec/WinVolume.lean: volumesOpened."
  },
  {
   "property": "C111",
   "status": "proved",
   "theorems": [
    "Dparm.win_find_volumes",
    "Dparm.win_find_unknown",
    "Dparm.win_partition_style"
   ],
   "note": "Spec/WinVolume.lean: BeginsOn, volumeReported."
  },
  {
   "property": "C112",
   "status": "proved",
   "theorems": [
    "Dparm.win_open_by_volume",
    "Dparm.win_open_by_partition"
   ],
   "note": "Spec/WinVolume.lean: SamePath."
  },
  {
   "property": "C113",
   "status": "proved",
   "theorems": [
    "Dparm.enum_drives_panic",
    "Dparm.win_enum_panic"
   ],
   "note": "BrokenOff in Props/Factory.lean; Spec/WinEnum.lean: DevicesPanic."
  },
  {
   "property": "C114",
   "status": "proved",
   "theorems": [
    "Dparm.win_volumes_unwind",
    "Dparm.win_volumes_handles"
   ],
   "note": "Spec/WinVolume.lean: VolumesPanic."
  },
  {
   "property": "C115",
   "status": "proved",
   "theorems": [
    "Dparm.open_by_partition"
   ],
   "note": "A partition of another implementation panics in the type assertion; not modelled."
  },
  {
   "property": "C116",
   "status": "proved",
   "theorems": [
    "Dparm.linux_open_reads_only",
    "Dparm.linux_enum_reads_only"
   ],
   "note": "Spec/LinuxSystem.lean: ReadsOnly."
  },
  {
   "property": "C117",
   "status": "proved",
   "theorems": [
    "Dparm.linux_open"
   ],
   "note": "OpenedAs, DescribesAta, DescribesNvme in Props/LinuxSystem.lean; NvmeAccepts, SgAccepts in Spec/LinuxSystem.lean."
  },
  {
   "property": "C118",
   "status": "proved",
   "theorems": [
    "Dparm.linux_close",
    "Dparm.linux_enum"
   ],
   "note": "Enumerated in Props/Factory.lean."
  },
  {
   "property": "C119",
   "status": "proved",
   "theorems": [
    "Dparm.win_open_reads_only",
    "Dparm.win_enum_reads_only",
    "Dparm.win_volumes_read_only"
   ],
   "note": "Spec/WinSystem.lean: WinReadsOnly."
  },
  {
   "property": "C120",
   "status": "proved",
   "theorems": [
    "Dparm.ata_record_map"
   ],
   "note": "Spec/IdentityMap.lean: ataFields111, ataTexts."
  },
  {
   "property": "C121",
   "status": "proved",
   "theorems": [
    "Dparm.ata_capabilities"
   ],
   "note": "Spec/IdentityMap.lean: wordBit."
  },
  {
   "property": "C122",
   "status": "proved",
   "theorems": [
    "Dparm.nvme_record_map"
   ],
   "note": "Spec/IdentityMap.lean: nvmeFields85, powerFields."
  },
  {
   "property": "C123",
   "status": "proved",
   "theorems": [
    "Dparm.sense_accessors",
    "Dparm.version_field",
    "Dparm.nested_error",
    "Dparm.bus_type_names"
   ],
   "note": "All values of the domain."
  },
  {
   "property": "C124",
   "status": "proved",
   "theorems": [
    "Dparm.linux_open_kinds",
    "Dparm.tcg_on_nvme"
   ],
   "note": "Spec/TcgSystem.lean: OnNvme, IsNvmeSecurity, TcgOnNvmeOnly. The hypothesis Asks (TcgAsk \u2026) is shown for every TCG operation in Lemmas/TcgSystem.lean."
  },
  {
   "property": "C125",
   "status": "proved",
   "theorems": [
    "Dparm.revert_on_nvme",
    "Dparm.default_password_on_nvme"
   ],
   "note": "Spec/TcgSystem.lean: nvmeSent, AnsweredOnNvme."
  },
  {
   "property": "C126",
   "status": "proved",
   "theorems": [
    "Dparm.tcg_on_scsi",
    "Dparm.revert_on_scsi",
    "Dparm.default_password_on_scsi",
    "Dparm.tcg_no_driver"
   ],
   "note": "Spec/TcgSystem.lean: ScsiSecurity, OnScsi, TcgOnScsiOnly."
  },
  {
   "property": "C127",
   "status": "proved",
   "theorems": [
    "Dparm.psid_revert_conforming",
    "Dparm.revert_conforming_safe"
   ],
   "note": "Spec/Tper.lean: Drive, Conforming, Prompt. Non-vacuity: ideal_conforming (a conforming drive for every parameter)."
  },
  {
   "property": "C128",
   "status": "proved",
   "theorems": [
    "Dparm.sid_revert_conforming",
    "Dparm.sid_revert_never",
    "Dparm.revert_conforming_safe"
   ],
   "note": "Spec/Tper.lean."
  },
  {
   "property": "C129",
   "status": "proved",
   "theorems": [
    "Dparm.default_password_conforming",
    "Dparm.default_password_repeated",
    "Dparm.revert_after_default_password"
   ],
   "note": "Spec/Tper.lean."
  },
  {
   "property": "C130",
   "status": "proved",
   "theorems": [
    "Dparm.open_succeeds_nvme",
    "Dparm.open_conforming_nvme",
    "Dparm.psid_revert_nvme",
    "Dparm.sid_revert_nvme",
    "Dparm.revert_safe_nvme",
    "Dparm.default_password_nvme"
   ],
   "note": "Spec/TperLinux.lean: NvmeConforming, NvmeNode, AnnouncesOpal, PromptSystem. Non-vacuity: idealNvme_conforming, opens_owned."
  },
  {
   "property": "C131",
   "status": "proved",
   "theorems": [
    "Dparm.open_succeeds_scsi",
    "Dparm.open_conforming_scsi",
    "Dparm.psid_revert_scsi",
    "Dparm.sid_revert_scsi",
    "Dparm.revert_safe_scsi",
    "Dparm.default_password_scsi"
   ],
   "note": "Spec/TperScsi.lean: ScsiConforming, ScsiNode. Non-vacuity: idealScsi_conforming, opens_owned_scsi."
  },
  {
   "property": "C132",
   "status": "proved",
   "theorems": [
    "Dparm.ata_command"
   ],
   "note": "Spec/HandleSystem.lean: AtaOnScsi, AtaData, AtaResult."
  },
  {
   "property": "C133",
   "status": "proved",
   "theorems": [
    "Dparm.log_page_command"
   ],
   "note": "Spec/HandleSystem.lean: IsGetLogPage, LogReads."
  },
  {
   "property": "C134",
   "status": "proved",
   "theorems": [
    "Dparm.init_tcg"
   ],
   "note": ""
  },
  {
   "property": "C135",
   "status": "proved",
   "theorems": [
    "Dparm.revert_blind_on_windows",
    "Dparm.revert_blind_on_opened"
   ],
   "note": "Spec/WinTcg.lean: WinBound, OnMiniport."
  },
  {
   "property": "C136",
   "status": "proved",
   "theorems": [
    "Dparm.win_open_kinds",
    "Dparm.tcg_on_windows_only",
    "Dparm.revert_on_windows_only",
    "Dparm.default_password_on_windows_only",
    "Dparm.tcg_unbound_on_windows"
   ],
   "note": "Spec/WinTcg.lean: TcgOnWindowsOnly."
  },
  {
   "property": "C137",
   "status": "proved",
   "theorems": [
    "Dparm.tcg_on_miniport",
    "Dparm.revert_on_miniport",
    "Dparm.default_password_on_miniport"
   ],
   "note": "Spec/WinTcg.lean: OnWinNvme, miniportSent, AnsweredOnMiniport."
  },
  {
   "property": "C138",
   "status": "proved",
   "theorems": [
    "Dparm.win_ata_command"
   ],
   "note": "Spec/WinTcg.lean: AtaOnWindows, CarriesTask, AtaJudged."
  },
  {
   "property": "C139",
   "status": "proved",
   "theorems": [
    "Dparm.win_log_page_command"
   ],
   "note": "Spec/WinTcg.lean: IsLogQuery."
  },
  {
   "property": "C140",
   "status": "proved",
   "theorems": [
    "Dparm.no_use_after_close",
    "Dparm.held_handles_open"
   ],
   "note": "Model/Client.lean; Spec/Client.lean: openFds, usesFd, FreshFds, HoldsFd."
  },
  {
   "property": "C141",
   "status": "proved",
   "theorems": [
    "Dparm.leak_free",
    "Dparm.all_closed"
   ],
   "note": "Spec/Client.lean: WentWell."
  },
  {
   "property": "C142",
   "status": "proved",
   "theorems": [
    "Dparm.descriptor_census"
   ],
   "note": "Spec/Client.lean: Finished, driven, driverless, opensIn, volumeOpens; clientSteps (Model/Client.lean) cuts the trace into the exchanges of each call. Both leaks are defects of the code."
  },
  {
   "property": "C143",
   "status": "proved",
   "theorems": [
    "Dparm.win_no_use_after_close",
    "Dparm.win_held_handles_open"
   ],
   "note": "Model/WinClient.lean; Spec/WinClient.lean: openRes, winUses, FreshHandles, HoldsRes."
  },
  {
   "property": "C144",
   "status": "proved",
   "theorems": [
    "Dparm.win_leak_free",
    "Dparm.win_all_closed"
   ],
   "note": "Spec/WinClient.lean: WinWentWell."
  },
  {
   "property": "C145",
   "status": "proved",
   "theorems": [
    "Dparm.win_handle_census"
   ],
   "note": "Spec/WinClient.lean: WinFinished, winDriven, winDriverless, winMiniports. The leaks are defects of the code."
  },
  {
   "property": "C146",
   "status": "proved",
   "theorems": [
    "Dparm.concurrent_own_descriptors",
    "Dparm.win_concurrent_own_handles"
   ],
   "note": "Model/Concurrent.lean; Spec/Concurrent.lean: SysFreshFds, SysFreshHandles, Pool.Ended."
  },
  {
   "property": "C147",
   "status": "proved",
   "theorems": [
    "Dparm.concurrent_as_alone",
    "Dparm.win_concurrent_as_alone",
    "Dparm.pool_solo_ends"
   ],
   "note": "The system of the sequential run is existential: it gives the answers of the concurrent run."
  },
  {
   "property": "C148",
   "status": "proved",
   "theorems": [
    "Dparm.concurrent_leak_free",
    "Dparm.win_concurrent_leak_free"
   ],
   "note": "WentWell and WinWentWell of Spec/Client.lean and Spec/WinClient.lean."
  },
  {
   "property": "C149",
   "status": "proved",
   "theorems": [
    "Dparm.error_mode_restored",
    "Dparm.error_mode_one_of_two",
    "Dparm.error_mode_one_enumerator",
    "Dparm.call_modeless",
    "Dparm.error_mode_race"
   ],
   "note": "Spec/ErrorMode.lean: errorMode, TellsMode, SysTellsMode. error_mode_race states a defect of the code."
  },
  {
   "property": "C150",
   "status": "proved",
   "theorems": [
    "Dparm.shared_drive_protected",
    "Dparm.shared_drive_states"
   ],
   "note": "Model/SharedDrive.lean; Spec/SharedDrive.lean: SharedDrive, sameDrive, Privileged, Fits; RightPassword as in C127."
  },
  {
   "property": "C151",
   "status": "proved",
   "theorems": [
    "Dparm.shared_revert_exclusive",
    "Dparm.shared_password_exclusive"
   ],
   "note": "hi says what the goroutine is about to do: the call, then anything."
  },
  {
   "property": "C152",
   "status": "proved",
   "theorems": [
    "Dparm.shared_revert_false_success",
    "Dparm.shared_revert_wrong_password",
    "Dparm.shared_password_false"
   ],
   "note": "States a defect of the code, on a drive that satisfies SharedDrive."
  },
  {
   "property": "C153",
   "status": "proved",
   "theorems": [
    "Dparm.settings_unobservable",
    "Dparm.history_credentials",
    "Dparm.history_numbers"
   ],
   "note": ""
  },
  {
   "property": "C154",
   "status": "proved",
   "theorems": [
    "Dparm.one_session_per_object",
    "Dparm.ended_object_is_useless"
   ],
   "note": "Reference drive of C127: only the methods RevertTPer and GetDefaultPassword use have a meaning there, so Authenticate and other user-built commands are not among the calls."
  },
  {
   "property": "C155",
   "status": "proved",
   "theorems": [
    "Dparm.looking_reads_only",
    "Dparm.looking_client_reads_only"
   ],
   "note": "Spec/Looking.lean: looks, LooksOnly; clientSteps (Model/Client.lean) gives the exchanges of each call."
  },
  {
   "property": "C156",
   "status": "proved",
   "theorems": [
    "Dparm.develop_reads_only",
    "Dparm.develop_needs_nvme",
    "Dparm.develop_returns",
    "Dparm.develop_log_page",
    "Dparm.develop_leaves_open",
    "Dparm.smart_sizes"
   ],
   "note": "Its output is modelled as the values it shows, not as text. The crash, the 516 bytes and the open descriptors are defects of the tool."
  },
  {
   "property": "C157",
   "status": "proved",
   "theorems": [
    "Dparm.win_looking_reads_only",
    "Dparm.win_looking_client_reads_only"
   ],
   "note": "Spec/WinLooking.lean: winLooks, WinLooksOnly; WinReadsOnly is that of C119 (Spec/WinSystem.lean)."
  },
  {
   "property": "C158",
   "status": "proved",
   "theorems": [
    "Dparm.win_develop_reads_only",
    "Dparm.win_develop_without_drives",
    "Dparm.win_develop_leaves_open"
   ],
   "note": "Its output is not modelled. The open handles are a defect of the tool (and of the factory, C145)."
  },
  {
   "property": "C159",
   "status": "proved",
   "theorems": [
    "Dparm.drive_protected"
   ],
   "note": "Spec/Protected.lean: Guarded, Hands, Unprivileged. The drive's packet processing is the reference drive of Spec/Tper.lean. Examples: a drive and two goroutines that guess; with the PSID the same calls revert it."
  },
  {
   "property": "C160",
   "status": "proved",
   "theorems": [
    "Dparm.win_drive_protected"
   ],
   "note": "Spec/WinProtected.lean: WinHands, WinGuarded, Unprivileged. Examples: a drive behind the miniport under every behaviour of Windows; the same packets with the PSID revert it."
  },
  {
   "property": "C161",
   "status": "proved",
   "theorems": [
    "Dparm.linux_partition_view",
    "Dparm.win_partition_view",
    "Dparm.win_drive_partition_view"
   ],
   "note": "Spec/Partition.lean: SoundView, GuidForm. Capital letters: ASCII identifiers."
  },
  {
   "property": "C162",
   "status": "proved",
   "theorems": [
    "Dparm.client_crash",
    "Dparm.client_never_crashes",
    "Dparm.handle_crash_iff"
   ],
   "note": "Spec/Crash.lean: CrashCause. NvmeGetLogPage with a negative size panics in Go (make); sizes are natural numbers in the client model, see C63 (log_page_negative) for the negative case. Examples: six panics on a sample system."
  },
  {
   "property": "C163",
   "status": "proved",
   "theorems": [
    "Dparm.win_client_crash",
    "Dparm.win_client_never_crashes",
    "Dparm.win_handle_crash_iff"
   ],
   "note": "Spec/WinCrash.lean: WinCrashCause, OpenFatal, Received. Log page sizes are natural numbers in the client model (negative: see windowsLogPage in Model/WinNvme.lean). Examples: five panics on a sample Windows; malformed discovery data."
  },
  {
   "property": "C164",
   "status": "proved",
   "theorems": [
    "Dparm.call_ends",
    "Dparm.client_ends",
    "Dparm.client_budget"
   ],
   "note": "Spec/Budget.lean: budget, SystemClock. The polling bound of the model (any bound of 402 rounds or more) is never used up. A go-diskfs call and filepath.EvalSymlinks count as one system call; reading /proc/mounts is not counted (the mount table is an input). Example: costs of a sample client."
  },
  {
   "property": "C165",
   "status": "proved",
   "theorems": [
    "Dparm.win_call_ends",
    "Dparm.win_client_ends"
   ],
   "note": "Spec/WinBudget.lean: winBudget, WinClock, ListsAtMost, enoughRounds (the round bounds of the model exceed n). The conversions of texts are not API calls. Example: costs of a sample client."
  },
  {
   "property": "C166",
   "status": "proved",
   "theorems": [
    "Dparm.table_range",
    "Dparm.table_named_range",
    "Dparm.table_unsupported",
    "Dparm.table_conforming"
   ],
   "note": "Spec/Table.lean: columnRange, namedRange, getCall. The table argument is the atom 0xa8 + UID, as the library builds it; column names of 381 bytes and more in total are cut by the 512-byte packet (C08)."
  },
  {
   "property": "C167",
   "status": "proved",
   "theorems": [
    "Dparm.guess_keyless",
    "Dparm.guesses_move_nothing",
    "Dparm.win_guesses_move_nothing"
   ],
   "note": "Spec/Keyless.lean: Guesses, Guessing; Spec/Protected.lean: ShowsKey, Keyless. Raw authorities (not UIDs) for Start are outside this criterion, but inside C159 as long as what is sent shows no key. Examples: a wrong guess under every schedule, on Linux and Windows; with the PSID the same calls open a session of PSID."
  },
  {
   "property": "C168",
   "status": "proved",
   "theorems": [
    "Dparm.start_outcome",
    "Dparm.revert_by_hand",
    "Dparm.start_outcome_opened",
    "Dparm.table_outcome_opened",
    "Dparm.revert_by_hand_opened",
    "Dparm.one_session_opened"
   ],
   "note": "Spec/Sessions.lean: shown, LetsIn, OpenedOn; Spec/Tper.lean, TperLinux.lean, TperScsi.lean: the drive. Examples: an owner's session with a Revert in it and the lack of a second session on NVMe; a refused PSID and an anonymous session on SCSI."
  },
  {
   "property": "C169",
   "status": "proved",
   "theorems": [
    "Dparm.smart_linux",
    "Dparm.smart_disk_read",
    "Dparm.smart_windows",
    "Dparm.smart_disk_read_windows"
   ],
   "note": "Spec/SmartSystem.lean: smartCommand, SmartOutcome, SmartOnScsi, SmartOnWindows, AnswersSmart, AnswersSmartWin; Spec/AtaUtil.lean: SmartValuesOf, SmartThresholdsOf. Examples: any two sectors, read through SCSI generic and the Windows ATA driver."
  },
  {
   "property": "C170",
   "status": "proved",
   "theorems": [
    "Dparm.nvme_records",
    "Dparm.sg_task_records",
    "Dparm.sg_security_records"
   ],
   "note": "Spec/Records.lean: num, passthruAt, userIoAt, kernelNv, SgHeader, sgHeaderAt, kernelSg; Model/Records.lean is the byte model. Layout of 64-bit little-endian platforms. Examples: the bytes of an IDENTIFY DEVICE header and of an NVMe identify record, a refused record, both rounds after an error."
  },
  {
   "property": "C171",
   "status": "proved",
   "theorems": [
    "Dparm.recovered_agrees",
    "Dparm.recovered_panic",
    "Dparm.recovered_uninitialised",
    "Dparm.start_recovered",
    "Dparm.call_recovered"
   ],
   "note": "Props/Recover.lean: recovered (what a caller sees under recover); Spec/Discovery.lean: IsDescriptor, Reports, lastWith, flags. Sessions: the unexported opened mark, which no method sets, is down. Examples: seven vendor descriptors and one too long, on a handle with and without table; Start and SendCommand answered with one token."
  },
  {
   "property": "C172",
   "status": "proved",
   "theorems": [
    "Dparm.recovered_history_comes_back",
    "Dparm.recovered_history_numbers",
    "Dparm.recovered_history_credentials"
   ],
   "note": "Props/RecoverHistory.lean: StartsPanicked. The histories that come back, i.e. the drive ends its polling (fuel, C17). Example: a start, two panics, the numbers of the session in every later packet."
  },
  {
   "property": "C173",
   "status": "proved",
   "theorems": [
    "Dparm.text_received",
    "Dparm.text_given",
    "Dparm.text_round_trip",
    "Dparm.text_distinct",
    "Dparm.enum_opens_named",
    "Dparm.volume_by_name"
   ],
   "note": "Spec/Utf16.lean: Scalar, utf16, WellFormed; Spec/DriveInfo.lean: utf8. wtf distinguishes Go 1.21 and later from earlier versions. Trusted: the transcription of Go's syscall, utf8 and utf16 packages in Model/Utf16.lean. Examples: three characters of one, two and four bytes; an unpaired surrogate in both versions; the sample machines of C107 and C109."
  },
  {
   "property": "C174",
   "status": "proved",
   "theorems": [
    "Dparm.psid_revert_miniport",
    "Dparm.sid_revert_miniport",
    "Dparm.revert_safe_miniport",
    "Dparm.msid_on_miniport"
   ],
   "note": "Spec/TperWin.lean: MiniportConforming, PromptWindows, MiniportDrive (Spec/WinTcg.lean). The miniport is assumed to execute a Security Send although the record's direction field says device to host (C99). Non-vacuity: idealWin_conforming and an example with all outcomes."
  },
  {
   "property": "C175",
   "status": "proved",
   "theorems": [
    "Dparm.open_conforming_miniport",
    "Dparm.open_succeeds_miniport",
    "Dparm.psid_revert_opened_win",
    "Dparm.sid_revert_opened_win",
    "Dparm.revert_safe_opened_win",
    "Dparm.msid_opened_win"
   ],
   "note": "Spec/TperWin.lean: MiniportConforming, MiniportAnnounces, MiniportNode, PromptWindows. The miniport is assumed to execute a Security Send although the record's direction field says device to host (C99). Non-vacuity: idealWin_conforming, idealWin_announces, idealWin_node, win_opens_owned and an example with all outcomes."
  },
  {
   "property": "C176",
   "status": "proved",
   "theorems": [
    "Dparm.start_outcome_opened_win",
    "Dparm.table_outcome_opened_win",
    "Dparm.revert_by_hand_opened_win",
    "Dparm.one_session_opened_win"
   ],
   "note": "Spec/Sessions.lean: shown, LetsIn; Spec/TperWin.lean: OpenedOnWin. Examples: an owner's session with a Revert in it and the lack of a second session; a refused PSID and an anonymous session."
  },
  {
   "property": "C177",
   "status": "proved",
   "theorems": [
    "Dparm.history_ledger",
    "Dparm.history_ledger_opened",
    "Dparm.history_ledger_opened_win",
    "Dparm.history_stopped",
    "Dparm.reverts_counted",
    "Dparm.factory_state_stays"
   ],
   "note": "Spec/TperHistory.lean: Ledger.steps. Limit shown: after reverting, the MSID that GetDefaultPassword returns does not revert the drive again; an empty password costs a session. Examples: an owner's four calls, a careless owner on Linux and Windows."
  }
 ]
}
