# id -> (theorem names inside namespace Dparm, status or None, note)
T = {
"C01": (["addNumber_atom", "getUint64_addNumber", "number_roundtrip"], None, ""),
"C02": (["addString_atom", "getString_addString", "string_roundtrip"], None, ""),
"C03": (["addString_empty", "addString_too_long", "addString_explicit"], None, ""),
"C04": (["build_exact", "addRaw_empty"], None, ""),
"C05": (["build_content", "command_history_safe", "addRaw_silent_cut"], None, ""),
"C06": (["complete_lengths"], None, ""),
"C07": (["parse_own_command"], None, ""),
"C08": (["getCmdSize_roundUp", "wire_after_complete"], None, ""),
"C09": (["stamping_frame", "stamping_keeps_tokens"], None, ""),
"C10": (["commit_decision", "scan_fuel"], None, ""),
"C11": (["commit_tiles", "tiles_meaning"], None, ""),
"C12": (["commit_inside_when_complete", "commit_overread", "commit_leaks_adjacent_memory", "commit_not_a_function_of_response"], None, ""),
"C13": (["commit_of_encoded"], None, ""),
"C14": (["getToken_exact"], None, ""),
"C15": (["type_total", "type_of_encoded", "tiny_sign_inverted"], None, ""),
"C16": (["getUint64_exact", "narrow_accessors", "getUint8_is_last_byte"], None, ""),
"C17": (["parsed_token_shape", "accessors_never_panic"], None, ""),
"C51": (["alignedBuffer_aligned_inBounds", "isAlignedPointer_newAlignedBuffer"], None, ""),
"C52": (["ABuf.step_refines", "alignedBuffer_refines_cursor", "alignedBuffer_read_after_write", "wrappedBuffer_refines_cursor", "wrappedBuffer_confined"], None, ""),
"C18": (["sendCommand_success_iff", "sendCommand_status"], None, ""),
"C19": (["sendCommand_panics_iff"], None, ""),
"C20": (["sendCommand_stamped"], None, ""),
"C21": (["session_numbers_echoed", "start_succeeds_on_numbers"], None, ""),
"C22": (["start_sends", "start_sends_fresh"], None, ""),
"C23": (["start_credential"], None, ""),
"C24": (["hash_prefix"], None, ""),
"C25": (["close_unobservable"], None, ""),
"C26": (["revert_order", "revert_start_error"], None, ""),
"C27": (["revert_success"], None, ""),
"C28": (["revert_secret"], None, ""),
"C29": (["defaultPassword_spec"], None, ""),
"C30": (["unsupported_device_silent", "opal_device_sends"], None, ""),
"C31": (["exec_exchanges", "exec_counts"], None, ""),
"C32": (["exec_exchanges"], None, ""),
"C33": (["exec_bounded", "exec_exchanges"], None, ""),
"C77": (["authenticate_verdict", "authenticate_sends"], None, "The verdict is inverted with respect to the TCG boolean; see FINDINGS in DESIGN.md."),
"C34": (["device_kind", "device_kind_of_response"], None, ""),
"C35": (["lock_state", "lock_state_short"], None, ""),
"C36": (["com_ids"], None, ""),
"C37": (["discovery_outcome"], None, ""),
"C38": (["discovery_flags", "discovery_flags_fresh"], None, ""),
"C39": (["discovery_raw"], None, ""),
"C40": (["discovery_vendor_zero", "discovery_vendor_nonzero"], None, ""),
"C41": (["discovery_support"], None, ""),
"C42": (["rediscovery_never_forgets"], None, ""),
"C43": (["union_decoders"], None, ""),
"C80": (["announced_without_itself"], None, ""),
"C44": (["security_fallback"], None, ""),
"C45": (["ata_security_registers"], None, ""),
"C46": (["nvme_security_fields"], None, ""),
"C47": (["close_once", "close_final"], None, ""),
"C53": (["swap_spec", "swap_kept", "swap16_spec", "swap32_spec"], None, ""),
"C48": (["ata_identity", "nvme_identity", "ata_strings_unique"], None, ""),
"C49": (["ata_identity", "nvme_identity"], None, ""),
"C50": (["init_outcome", "init_short"], None, ""),
"C79": (["nvme_record_big_endian", "nvme_named_fields", "nvme_identity_any"], None, ""),
"C54": (["fixAtaStringOrder_even", "fixAtaStringOrder_odd"], None, ""),
"C55": (["lba48_decision", "ext_not_fixed", "isDma_spec"], None, ""),
"C56": (["tfInit_no_effect", "tfInit_param", "tfInitLocal_address"], None, ""),
"C66": (["passFlags_fields", "passFlags_roundtrip", "setMultipleCount_wrong", "setExtend_wrong", "cdbB01_fields"], None, ""),
"C81": (["readSmart_spec", "readSmart_no_ata"], None, ""),
"C57": (["sg_cdb_faithful", "satDecode_sgTaskCdb"], None, ""),
"C58": (["sg_write_zeros", "sg_read_buffer"], None, ""),
"C59": (["sg_ioctl_count", "sgSec_ioctl_count"], None, ""),
"C60": (["sg_sense", "sg_read_buffer"], None, ""),
"C61": (["sgSec_cdb", "sgSec_data"], None, ""),
"C78": (["linux_send_fallback_zeros"], None, ""),
"C82": (["sgSec_ignores_sense"], None, ""),
"C83": (["sg_timeouts"], None, ""),
"C84": (["sg_verdict_by_format"], None, ""),
"C85": (["sgOpen_spec"], None, ""),
"C62": (["log_page_retries"], None, ""),
"C63": (["log_page_fields", "log_page_small", "log_page_negative"], None, ""),
"C64": (["admin_passthru_faithful", "io_passthru_no_length", "user_io_faithful"], None, ""),
"C65": (["ioctl_number_recoverable", "ioctl_number_injective", "ioctl_directions"], None, ""),
"C86": (["ioctl_success_iff", "nvme_status_looks_like_errno"], None, ""),
"C87": (["nvme_open"], None, ""),
"C88": (["nvme_security_end_to_end"], None, ""),
"C71": (["mbr_accepts_iff", "mbr_read"], None, ""),
"C72": (["nul_text_found", "nul_text_none", "wcslen_spec"], None, ""),
"C67": (["open_by_path_error_iff", "open_by_path_drivers", "open_then_close"], None, "A panic of Init (short identity data or a malformed discovery answer) propagates; the statement about drivers is for calls that return."),
"C68": (["enum_drives"], None, "For calls that return; C113 is about calls that panic."),
"C89": (["basic_info", "opened_basic_info"], None, ""),
"C90": (["id_info", "ignored_iff", "namesDrive_unique", "id_info_order", "soleDev_spec", "trimSpace_spec", "opened_basic_info"], None, ""),
    "C69": (["enum_volumes_grouping", "mountFields_eq"], None, "Errors that come with a line are covered by C91's specification."),
    "C70": (["open_by_volume_path", "open_by_volume_path_order"], None, "The map's iteration order is the order of the list; the second theorem exhibits a bad order for every path."),
    "C91": (["enum_volumes_partitions", "reported_partition", "partitionMatch_iff"], None, "Spec/Volume.lean: Probe, Look, ScanSpec."),
    "C92": (["enum_volumes_opens"], None, ""),
    "C93": (["enum_volumes_panic", "enum_volumes_panic_iff"], None, ""),
    "C94": (["find_volumes_by_drive", "volume_list"], None, "Hypothesis Grouped is what C69 proves of every enumeration."),
    "C95": (["enum_volumes_scanner", "enum_volumes_read_error", "content_cases"], None, "bufio.Scanner modelled on file content."),
    "C73": (["win_writes_are_zeros", "win_reads"], None, "PassOp ranges over the three commands; payload reads what Windows is given."),
    "C74": (["win_ata_result", "win_ata_open"], None, "win_ata_open covers the sentence on IDENTIFY DEVICE."),
    "C96": (["win_requests", "win_reads", "win_scsi_result"], None, ""),
    "C97": (["win_ata_records", "win_scsi_records", "win_task_cdb", "win_sec_cdb"], None, "Spec/Win.lean: ataView, scsiView."),
    "C98": (["win_ata_open", "win_scsi_open"], None, ""),
    "C99": (["win_miniport_admin", "win_miniport_status_unseen"], None, "Spec/WinNvme.lean: miniportView, miniportOf, referredTo."),
    "C100": (["nvmeWin_open", "nvmeWin_handle_leak"], None, "Spec/WinNvme.lean: handlesOpened, handlesClosed, DecimalOf."),
    "C101": (["windowsNvme_open", "windows_log_page"], None, "Spec/WinNvme.lean: queryView."),
    "C102": (["win_send_zeros", "win_security_miniport"], None, ""),
    "C75": (["win_first_driver", "win_driver_order", "win_open_by_handle"], None, "Spec/WinFactory.lean: FirstAccepted, NoneAccepted."),
    "C103": (["win_basic_info"], None, "Spec/WinFactory.lean: Fetched, layoutItems, itemPart, uuidUpper, uuidLower."),
    "C104": (["win_storage_query"], None, "Spec/WinFactory.lean: Describes, CString, TrimmedBy, BadOffset."),
    "C105": (["win_open_by_handle"], None, "For any list of drivers."),
    "C106": (["win_open_handles"], None, "Spec/WinEnum.lean: keptOf."),
    "C107": (["win_enum_drives", "win_enum_ends", "win_enum_handles"], None, "Spec/WinEnum.lean: Devices."),
    "C76": (["win_first_mount_only"], None, "Spec/WinVolume.lean: multiString."),
    "C108": (["win_enum_volumes", "win_volumes_end"], None, "Spec/WinVolume.lean: Volumes, VolumeSeen, ExtentsSeen."),
    "C109": (["win_volumes_panic", "win_volumes_return"], None, "Spec/WinVolume.lean: BadAnswer."),
    "C110": (["win_volumes_handles"], None, "Spec/WinVolume.lean: volumesOpened."),
    "C111": (["win_find_volumes", "win_find_unknown", "win_partition_style"], None, "Spec/WinVolume.lean: BeginsOn, volumeReported."),
    "C112": (["win_open_by_volume", "win_open_by_partition"], None, "Spec/WinVolume.lean: SamePath."),
    "C113": (["enum_drives_panic", "win_enum_panic"], None, "BrokenOff in Props/Factory.lean; Spec/WinEnum.lean: DevicesPanic."),
    "C114": (["win_volumes_unwind", "win_volumes_handles"], None, "Spec/WinVolume.lean: VolumesPanic."),
    "C115": (["open_by_partition"], None, "A partition of another implementation panics in the type assertion; not modelled."),
    "C116": (["linux_open_reads_only", "linux_enum_reads_only"], None, "Spec/LinuxSystem.lean: ReadsOnly."),
    "C117": (["linux_open"], None, "OpenedAs, DescribesAta, DescribesNvme in Props/LinuxSystem.lean; NvmeAccepts, SgAccepts in Spec/LinuxSystem.lean."),
    "C118": (["linux_close", "linux_enum"], None, "Enumerated in Props/Factory.lean."),
    "C119": (["win_open_reads_only", "win_enum_reads_only", "win_volumes_read_only"], None, "Spec/WinSystem.lean: WinReadsOnly."),
    "C120": (["ata_record_map"], None, "Spec/IdentityMap.lean: ataFields111, ataTexts."),
    "C121": (["ata_capabilities"], None, "Spec/IdentityMap.lean: wordBit."),
    "C122": (["nvme_record_map"], None, "Spec/IdentityMap.lean: nvmeFields85, powerFields."),
    "C123": (["sense_accessors", "version_field", "nested_error", "bus_type_names"], None, "All values of the domain."),
    "C124": (["linux_open_kinds", "tcg_on_nvme"], None, "Spec/TcgSystem.lean: OnNvme, IsNvmeSecurity, TcgOnNvmeOnly. The hypothesis Asks (TcgAsk …) is shown for every TCG operation in Lemmas/TcgSystem.lean."),
    "C125": (["revert_on_nvme", "default_password_on_nvme"], None, "Spec/TcgSystem.lean: nvmeSent, AnsweredOnNvme."),
    "C126": (["tcg_on_scsi", "revert_on_scsi", "default_password_on_scsi", "tcg_no_driver"], None, "Spec/TcgSystem.lean: ScsiSecurity, OnScsi, TcgOnScsiOnly."),
    "C127": (["psid_revert_conforming", "revert_conforming_safe"], None, "Spec/Tper.lean: Drive, Conforming, Prompt. Non-vacuity: ideal_conforming (a conforming drive for every parameter)."),
    "C128": (["sid_revert_conforming", "sid_revert_never", "revert_conforming_safe"], None, "Spec/Tper.lean."),
    "C129": (["default_password_conforming", "default_password_repeated", "revert_after_default_password"], None, "Spec/Tper.lean."),
    "C130": (["open_succeeds_nvme", "open_conforming_nvme", "psid_revert_nvme", "sid_revert_nvme", "revert_safe_nvme", "default_password_nvme"], None, "Spec/TperLinux.lean: NvmeConforming, NvmeNode, AnnouncesOpal, PromptSystem. Non-vacuity: idealNvme_conforming, opens_owned."),
    "C131": (["open_succeeds_scsi", "open_conforming_scsi", "psid_revert_scsi", "sid_revert_scsi", "revert_safe_scsi", "default_password_scsi"], None, "Spec/TperScsi.lean: ScsiConforming, ScsiNode. Non-vacuity: idealScsi_conforming, opens_owned_scsi."),
    "C132": (["ata_command"], None, "Spec/HandleSystem.lean: AtaOnScsi, AtaData, AtaResult."),
    "C133": (["log_page_command"], None, "Spec/HandleSystem.lean: IsGetLogPage, LogReads."),
    "C134": (["init_tcg"], None, ""),
    "C135": (["revert_blind_on_windows", "revert_blind_on_opened"], None, "Spec/WinTcg.lean: WinBound, OnMiniport."),
    "C136": (["win_open_kinds", "tcg_on_windows_only", "revert_on_windows_only", "default_password_on_windows_only", "tcg_unbound_on_windows"], None, "Spec/WinTcg.lean: TcgOnWindowsOnly."),
    "C137": (["tcg_on_miniport", "revert_on_miniport", "default_password_on_miniport"], None, "Spec/WinTcg.lean: OnWinNvme, miniportSent, AnsweredOnMiniport."),
    "C138": (["win_ata_command"], None, "Spec/WinTcg.lean: AtaOnWindows, CarriesTask, AtaJudged."),
    "C139": (["win_log_page_command"], None, "Spec/WinTcg.lean: IsLogQuery."),
    "C140": (["no_use_after_close", "held_handles_open"], None, "Model/Client.lean; Spec/Client.lean: openFds, usesFd, FreshFds, HoldsFd."),
    "C141": (["leak_free", "all_closed"], None, "Spec/Client.lean: WentWell."),
    "C142": (["descriptor_census"], None, "Spec/Client.lean: Finished, driven, driverless, opensIn, volumeOpens; clientSteps (Model/Client.lean) cuts the trace into the exchanges of each call. Both leaks are defects of the code."),
    "C143": (["win_no_use_after_close", "win_held_handles_open"], None, "Model/WinClient.lean; Spec/WinClient.lean: openRes, winUses, FreshHandles, HoldsRes."),
    "C144": (["win_leak_free", "win_all_closed"], None, "Spec/WinClient.lean: WinWentWell."),
    "C145": (["win_handle_census"], None, "Spec/WinClient.lean: WinFinished, winDriven, winDriverless, winMiniports. The leaks are defects of the code."),
    "C146": (["concurrent_own_descriptors", "win_concurrent_own_handles"], None, "Model/Concurrent.lean; Spec/Concurrent.lean: SysFreshFds, SysFreshHandles, Pool.Ended."),
    "C147": (["concurrent_as_alone", "win_concurrent_as_alone", "pool_solo_ends"], None, "The system of the sequential run is existential: it gives the answers of the concurrent run."),
    "C148": (["concurrent_leak_free", "win_concurrent_leak_free"], None, "WentWell and WinWentWell of Spec/Client.lean and Spec/WinClient.lean."),
    "C149": (["error_mode_restored", "error_mode_one_of_two", "error_mode_one_enumerator", "call_modeless", "error_mode_race"], None, "Spec/ErrorMode.lean: errorMode, TellsMode, SysTellsMode. error_mode_race states a defect of the code."),
    "C150": (["shared_drive_protected", "shared_drive_states"], None, "Model/SharedDrive.lean; Spec/SharedDrive.lean: SharedDrive, sameDrive, Privileged, Fits; RightPassword as in C127."),
    "C151": (["shared_revert_exclusive", "shared_password_exclusive"], None, "hi says what the goroutine is about to do: the call, then anything."),
    "C152": (["shared_revert_false_success", "shared_revert_wrong_password", "shared_password_false"], None, "States a defect of the code, on a drive that satisfies SharedDrive."),
    "C153": (["settings_unobservable", "history_credentials", "history_numbers"], None, ""),
    "C154": (["one_session_per_object", "ended_object_is_useless"], None, "Reference drive of C127: only the methods RevertTPer and GetDefaultPassword use have a meaning there, so Authenticate and other user-built commands are not among the calls."),
    "C155": (["looking_reads_only", "looking_client_reads_only"], None, "Spec/Looking.lean: looks, LooksOnly; clientSteps (Model/Client.lean) gives the exchanges of each call."),
    "C156": (["develop_reads_only", "develop_needs_nvme", "develop_returns", "develop_log_page", "develop_leaves_open", "smart_sizes"], None, "Its output is modelled as the values it shows, not as text. The crash, the 516 bytes and the open descriptors are defects of the tool."),
    "C157": (["win_looking_reads_only", "win_looking_client_reads_only"], None, "Spec/WinLooking.lean: winLooks, WinLooksOnly; WinReadsOnly is that of C119 (Spec/WinSystem.lean)."),
    "C158": (["win_develop_reads_only", "win_develop_without_drives", "win_develop_leaves_open"], None, "Its output is not modelled. The open handles are a defect of the tool (and of the factory, C145)."),
    "C159": (["drive_protected"], None, "Spec/Protected.lean: Guarded, Hands, Unprivileged. The drive's packet processing is the reference drive of Spec/Tper.lean. Examples: a drive and two goroutines that guess; with the PSID the same calls revert it."),
    "C160": (["win_drive_protected"], None, "Spec/WinProtected.lean: WinHands, WinGuarded, Unprivileged. Examples: a drive behind the miniport under every behaviour of Windows; the same packets with the PSID revert it."),
    "C161": (["linux_partition_view", "win_partition_view", "win_drive_partition_view"], None, "Spec/Partition.lean: SoundView, GuidForm. Capital letters: ASCII identifiers."),
    "C162": (["client_crash", "client_never_crashes", "handle_crash_iff"], None, "Spec/Crash.lean: CrashCause. NvmeGetLogPage with a negative size panics in Go (make); sizes are natural numbers in the client model, see C63 (log_page_negative) for the negative case. Examples: six panics on a sample system."),
    "C163": (["win_client_crash", "win_client_never_crashes", "win_handle_crash_iff"], None, "Spec/WinCrash.lean: WinCrashCause, OpenFatal, Received. Log page sizes are natural numbers in the client model (negative: see windowsLogPage in Model/WinNvme.lean). Examples: five panics on a sample Windows; malformed discovery data."),
    "C164": (["call_ends", "client_ends", "client_budget"], None, "Spec/Budget.lean: budget, SystemClock. The polling bound of the model (any bound of 402 rounds or more) is never used up. A go-diskfs call and filepath.EvalSymlinks count as one system call; reading /proc/mounts is not counted (the mount table is an input). Example: costs of a sample client."),
    "C165": (["win_call_ends", "win_client_ends"], None, "Spec/WinBudget.lean: winBudget, WinClock, ListsAtMost, enoughRounds (the round bounds of the model exceed n). The conversions of texts are not API calls. Example: costs of a sample client."),
    "C166": (["table_range", "table_named_range", "table_unsupported", "table_conforming"], None, "Spec/Table.lean: columnRange, namedRange, getCall. The table argument is the atom 0xa8 + UID, as the library builds it; column names of 381 bytes and more in total are cut by the 512-byte packet (C08)."),
    "C167": (["guess_keyless", "guesses_move_nothing", "win_guesses_move_nothing"], None, "Spec/Keyless.lean: Guesses, Guessing; Spec/Protected.lean: ShowsKey, Keyless. Raw authorities (not UIDs) for Start are outside this criterion, but inside C159 as long as what is sent shows no key. Examples: a wrong guess under every schedule, on Linux and Windows; with the PSID the same calls open a session of PSID."),
    "C168": (["start_outcome", "revert_by_hand", "start_outcome_opened", "table_outcome_opened", "revert_by_hand_opened", "one_session_opened"], None, "Spec/Sessions.lean: shown, LetsIn, OpenedOn; Spec/Tper.lean, TperLinux.lean, TperScsi.lean: the drive. Examples: an owner's session with a Revert in it and the lack of a second session on NVMe; a refused PSID and an anonymous session on SCSI."),
    "C169": (["smart_linux", "smart_disk_read", "smart_windows", "smart_disk_read_windows"], None, "Spec/SmartSystem.lean: smartCommand, SmartOutcome, SmartOnScsi, SmartOnWindows, AnswersSmart, AnswersSmartWin; Spec/AtaUtil.lean: SmartValuesOf, SmartThresholdsOf. Examples: any two sectors, read through SCSI generic and the Windows ATA driver."),
    "C170": (["nvme_records", "sg_task_records", "sg_security_records"], None, "Spec/Records.lean: num, passthruAt, userIoAt, kernelNv, SgHeader, sgHeaderAt, kernelSg; Model/Records.lean is the byte model. Layout of 64-bit little-endian platforms. Examples: the bytes of an IDENTIFY DEVICE header and of an NVMe identify record, a refused record, both rounds after an error."),
    "C171": (["recovered_agrees", "recovered_panic", "recovered_uninitialised", "start_recovered", "call_recovered"], None, "Props/Recover.lean: recovered (what a caller sees under recover); Spec/Discovery.lean: IsDescriptor, Reports, lastWith, flags. Sessions: the unexported opened mark, which no method sets, is down. Examples: seven vendor descriptors and one too long, on a handle with and without table; Start and SendCommand answered with one token."),
    "C172": (["recovered_history_comes_back", "recovered_history_numbers", "recovered_history_credentials"], None, "Props/RecoverHistory.lean: StartsPanicked. The histories that come back, i.e. the drive ends its polling (fuel, C17). Example: a start, two panics, the numbers of the session in every later packet."),
    "C173": (["text_received", "text_given", "text_round_trip", "text_distinct", "enum_opens_named", "volume_by_name"], None, "Spec/Utf16.lean: Scalar, utf16, WellFormed; Spec/DriveInfo.lean: utf8. wtf distinguishes Go 1.21 and later from earlier versions. Trusted: the transcription of Go's syscall, utf8 and utf16 packages in Model/Utf16.lean. Examples: three characters of one, two and four bytes; an unpaired surrogate in both versions; the sample machines of C107 and C109."),
    "C174": (["psid_revert_miniport", "sid_revert_miniport", "revert_safe_miniport", "msid_on_miniport"], None, "Spec/TperWin.lean: MiniportConforming, PromptWindows, MiniportDrive (Spec/WinTcg.lean). The miniport is assumed to execute a Security Send although the record's direction field says device to host (C99). Non-vacuity: idealWin_conforming and an example with all outcomes."),
    "C175": (["open_conforming_miniport", "open_succeeds_miniport", "psid_revert_opened_win", "sid_revert_opened_win", "revert_safe_opened_win", "msid_opened_win"], None, "Spec/TperWin.lean: MiniportConforming, MiniportAnnounces, MiniportNode, PromptWindows. The miniport is assumed to execute a Security Send although the record's direction field says device to host (C99). Non-vacuity: idealWin_conforming, idealWin_announces, idealWin_node, win_opens_owned and an example with all outcomes."),
    "C176": (["start_outcome_opened_win", "table_outcome_opened_win", "revert_by_hand_opened_win", "one_session_opened_win"], None, "Spec/Sessions.lean: shown, LetsIn; Spec/TperWin.lean: OpenedOnWin. Examples: an owner's session with a Revert in it and the lack of a second session; a refused PSID and an anonymous session."),
    "C177": (["history_ledger", "history_ledger_opened", "history_ledger_opened_win", "history_stopped", "reverts_counted", "factory_state_stays"], None, "Spec/TperHistory.lean: Ledger.steps. Limit shown: after reverting, the MSID that GetDefaultPassword returns does not revert the drive again; an empty password costs a session. Examples: an owner's four calls, a careless owner on Linux and Windows."),
}
