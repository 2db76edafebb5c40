{
"Dparm.ABuf.step_refines": [
"propext",
"Classical.choice",
"Quot.sound"
],
"Dparm.accessors_never_panic": [
"propext",
"Classical.choice",
"Quot.sound"
],
"Dparm.addNumber_atom": [
"propext",
"Classical.choice",
"Quot.sound"
],
"Dparm.addRaw_empty": [
"propext",
"Quot.sound"
],
"Dparm.addRaw_silent_cut": [
"propext",
"Classical.choice",
"Quot.sound"
],
"Dparm.addString_atom": [
"propext",
"Classical.choice",
"Quot.sound"
],
"Dparm.addString_empty": [
"propext",
"Classical.choice",
"Quot.sound"
],
"Dparm.addString_explicit": [
"propext",
"Classical.choice",
"Quot.sound"
],
"Dparm.addString_too_long": [
"propext",
"Quot.sound"
],
"Dparm.admin_passthru_faithful": [
"propext",
"Quot.sound"
],
"Dparm.alignedBuffer_aligned_inBounds": [
"propext",
"Quot.sound"
],
"Dparm.alignedBuffer_read_after_write": [
"propext",
"Classical.choice",
"Quot.sound"
],
"Dparm.alignedBuffer_refines_cursor": [
"propext",
"Classical.choice",
"Quot.sound"
],
"Dparm.all_closed": [
"propext",
"Classical.choice",
"Quot.sound"
],
"Dparm.announced_without_itself": [
"propext",
"Quot.sound"
],
"Dparm.ata_capabilities": [
"propext",
"Classical.choice",
"Quot.sound"
],
"Dparm.ata_command": [
"propext",
"Classical.choice",
"Quot.sound"
],
"Dparm.ata_identity": [
"propext",
"Classical.choice",
"Quot.sound"
],
"Dparm.ata_record_map": [
"propext",
"Classical.choice",
"Quot.sound"
],
"Dparm.ata_security_registers": [
"propext",
"Classical.choice",
"Quot.sound"
],
"Dparm.ata_strings_unique": [
"propext",
"Quot.sound"
],
"Dparm.authenticate_sends": [
"propext",
"Classical.choice",
"Quot.sound"
],
"Dparm.authenticate_verdict": [
"propext",
"Classical.choice",
"Quot.sound"
],
"Dparm.basic_info": [
"propext",
"Classical.choice",
"Quot.sound"
],
"Dparm.build_content": [
"propext",
"Classical.choice",
"Quot.sound"
],
"Dparm.build_exact": [
"propext",
"Classical.choice",
"Quot.sound"
],
"Dparm.bus_type_names": [
"propext",
"Quot.sound"
],
"Dparm.call_ends": [
"propext",
"Classical.choice",
"Quot.sound"
],
"Dparm.call_modeless": [
"propext",
"Classical.choice",
"Quot.sound"
],
"Dparm.call_recovered": [
"propext",
"Classical.choice",
"Quot.sound"
],
"Dparm.cdbB01_fields": [
"propext",
"Quot.sound"
],
"Dparm.client_budget": [
"propext",
"Classical.choice",
"Quot.sound"
],
"Dparm.client_crash": [
"propext",
"Classical.choice",
"Quot.sound"
],
"Dparm.client_ends": [
"propext",
"Classical.choice",
"Quot.sound"
],
"Dparm.client_never_crashes": [
"propext",
"Classical.choice",
"Quot.sound"
],
"Dparm.close_final": [
"propext",
"Classical.choice",
"Quot.sound"
],
"Dparm.close_once": [
"propext",
"Classical.choice",
"Quot.sound"
],
"Dparm.close_unobservable": [
"propext",
"Quot.sound"
],
"Dparm.com_ids": [
"propext",
"Classical.choice",
"Quot.sound"
],
"Dparm.command_history_safe": [
"propext",
"Classical.choice",
"Quot.sound"
],
"Dparm.commit_decision": [
"propext",
"Classical.choice",
"Quot.sound"
],
"Dparm.commit_inside_when_complete": [
"propext",
"Classical.choice",
"Quot.sound"
],
"Dparm.commit_leaks_adjacent_memory": [
"propext",
"Classical.choice",
"Quot.sound"
],
"Dparm.commit_not_a_function_of_response": [
"propext",
"Classical.choice",
"Quot.sound"
],
"Dparm.commit_of_encoded": [
"propext",
"Classical.choice",
"Quot.sound"
],
"Dparm.commit_overread": [
"propext",
"Classical.choice",
"Quot.sound"
],
"Dparm.commit_tiles": [
"propext",
"Classical.choice",
"Quot.sound"
],
"Dparm.complete_lengths": [
"propext",
"Classical.choice",
"Quot.sound"
],
"Dparm.concurrent_as_alone": [
"propext",
"Classical.choice",
"Quot.sound"
],
"Dparm.concurrent_leak_free": [
"propext",
"Classical.choice",
"Quot.sound"
],
"Dparm.concurrent_own_descriptors": [
"propext",
"Classical.choice",
"Quot.sound"
],
"Dparm.content_cases": [
"propext",
"Quot.sound"
],
"Dparm.defaultPassword_spec": [
"propext",
"Classical.choice",
"Quot.sound"
],
"Dparm.default_password_conforming": [
"propext",
"Classical.choice",
"Quot.sound"
],
"Dparm.default_password_nvme": [
"propext",
"Classical.choice",
"Quot.sound"
],
"Dparm.default_password_on_miniport": [
"propext",
"Classical.choice",
"Quot.sound"
],
"Dparm.default_password_on_nvme": [
"propext",
"Classical.choice",
"Quot.sound"
],
"Dparm.default_password_on_scsi": [
"propext",
"Classical.choice",
"Quot.sound"
],
"Dparm.default_password_on_windows_only": [
"propext",
"Classical.choice",
"Quot.sound"
],
"Dparm.default_password_repeated": [
"propext",
"Classical.choice",
"Quot.sound"
],
"Dparm.default_password_scsi": [
"propext",
"Classical.choice",
"Quot.sound"
],
"Dparm.descriptor_census": [
"propext",
"Classical.choice",
"Quot.sound"
],
"Dparm.develop_leaves_open": [
"propext",
"Classical.choice",
"Quot.sound"
],
"Dparm.develop_log_page": [
"propext",
"Classical.choice",
"Quot.sound"
],
"Dparm.develop_needs_nvme": [
"propext",
"Classical.choice",
"Quot.sound"
],
"Dparm.develop_reads_only": [
"propext",
"Classical.choice",
"Quot.sound"
],
"Dparm.develop_returns": [
"propext",
"Classical.choice",
"Quot.sound"
],
"Dparm.device_kind": [
"propext"
],
"Dparm.device_kind_of_response": [
"propext",
"Classical.choice",
"Quot.sound"
],
"Dparm.discovery_flags": [
"propext",
"Classical.choice",
"Quot.sound"
],
"Dparm.discovery_flags_fresh": [
"propext",
"Classical.choice",
"Quot.sound"
],
"Dparm.discovery_outcome": [
"propext",
"Classical.choice",
"Quot.sound"
],
"Dparm.discovery_raw": [
"propext",
"Classical.choice",
"Quot.sound"
],
"Dparm.discovery_support": [
"propext",
"Quot.sound"
],
"Dparm.discovery_vendor_nonzero": [
"propext",
"Classical.choice",
"Quot.sound"
],
"Dparm.discovery_vendor_zero": [
"propext",
"Classical.choice",
"Quot.sound"
],
"Dparm.drive_protected": [
"propext",
"Classical.choice",
"Quot.sound"
],
"Dparm.ended_object_is_useless": [
"propext",
"Classical.choice",
"Quot.sound"
],
"Dparm.enum_drives": [
"propext",
"Classical.choice",
"Quot.sound"
],
"Dparm.enum_drives_panic": [
"propext",
"Classical.choice",
"Quot.sound"
],
"Dparm.enum_opens_named": [
"propext",
"Classical.choice",
"Quot.sound"
],
"Dparm.enum_volumes_grouping": [
"propext",
"Classical.choice",
"Quot.sound"
],
"Dparm.enum_volumes_opens": [
"propext",
"Classical.choice",
"Quot.sound"
],
"Dparm.enum_volumes_panic": [
"propext",
"Classical.choice",
"Quot.sound"
],
"Dparm.enum_volumes_panic_iff": [
"propext",
"Classical.choice",
"Quot.sound"
],
"Dparm.enum_volumes_partitions": [
"propext",
"Classical.choice",
"Quot.sound"
],
"Dparm.enum_volumes_read_error": [
"propext",
"Classical.choice",
"Quot.sound"
],
"Dparm.enum_volumes_scanner": [
"propext",
"Classical.choice",
"Quot.sound"
],
"Dparm.error_mode_one_enumerator": [
"propext",
"Classical.choice",
"Quot.sound"
],
"Dparm.error_mode_one_of_two": [
"propext",
"Classical.choice",
"Quot.sound"
],
"Dparm.error_mode_race": [
"propext",
"Classical.choice",
"Quot.sound"
],
"Dparm.error_mode_restored": [
"propext",
"Classical.choice",
"Quot.sound"
],
"Dparm.exec_bounded": [
"propext",
"Classical.choice",
"Quot.sound"
],
"Dparm.exec_counts": [
"propext",
"Classical.choice",
"Quot.sound"
],
"Dparm.exec_exchanges": [
"propext",
"Classical.choice",
"Quot.sound"
],
"Dparm.ext_not_fixed": [
"propext",
"Quot.sound"
],
"Dparm.factory_state_stays": [
"propext",
"Classical.choice",
"Quot.sound"
],
"Dparm.find_volumes_by_drive": [
"propext",
"Classical.choice",
"Quot.sound"
],
"Dparm.fixAtaStringOrder_even": [
"propext",
"Classical.choice",
"Quot.sound"
],
"Dparm.fixAtaStringOrder_odd": [
"propext",
"Classical.choice",
"Quot.sound"
],
"Dparm.getCmdSize_roundUp": [
"propext",
"Classical.choice",
"Quot.sound"
],
"Dparm.getString_addString": [
"propext",
"Quot.sound"
],
"Dparm.getToken_exact": [
"propext",
"Classical.choice",
"Quot.sound"
],
"Dparm.getUint64_addNumber": [
"propext",
"Classical.choice",
"Quot.sound"
],
"Dparm.getUint64_exact": [
"propext",
"Classical.choice",
"Quot.sound"
],
"Dparm.getUint8_is_last_byte": [
"propext",
"Classical.choice",
"Quot.sound"
],
"Dparm.guess_keyless": [
"propext",
"Classical.choice",
"Quot.sound"
],
"Dparm.guesses_move_nothing": [
"propext",
"Classical.choice",
"Quot.sound"
],
"Dparm.handle_crash_iff": [
"propext",
"Classical.choice",
"Quot.sound"
],
"Dparm.hash_prefix": [
"propext",
"Quot.sound"
],
"Dparm.held_handles_open": [
"propext",
"Classical.choice",
"Quot.sound"
],
"Dparm.history_credentials": [
"propext",
"Classical.choice",
"Quot.sound"
],
"Dparm.history_ledger": [
"propext",
"Classical.choice",
"Quot.sound"
],
"Dparm.history_ledger_opened": [
"propext",
"Classical.choice",
"Quot.sound"
],
"Dparm.history_ledger_opened_win": [
"propext",
"Classical.choice",
"Quot.sound"
],
"Dparm.history_numbers": [
"propext",
"Classical.choice",
"Quot.sound"
],
"Dparm.id_info": [
"propext",
"Classical.choice",
"Quot.sound"
],
"Dparm.id_info_order": [
"propext",
"Classical.choice",
"Quot.sound"
],
"Dparm.ignored_iff": [
"propext",
"Classical.choice",
"Quot.sound"
],
"Dparm.init_outcome": [
"propext",
"Classical.choice",
"Quot.sound"
],
"Dparm.init_short": [
"propext",
"Classical.choice",
"Quot.sound"
],
"Dparm.init_tcg": [
"propext",
"Classical.choice",
"Quot.sound"
],
"Dparm.io_passthru_no_length": [
"propext",
"Quot.sound"
],
"Dparm.ioctl_directions": [
"propext",
"Classical.choice",
"Quot.sound"
],
"Dparm.ioctl_number_injective": [
"propext",
"Classical.choice",
"Quot.sound"
],
"Dparm.ioctl_number_recoverable": [
"propext",
"Classical.choice",
"Quot.sound"
],
"Dparm.ioctl_success_iff": [
"propext"
],
"Dparm.isAlignedPointer_newAlignedBuffer": [
"propext",
"Quot.sound"
],
"Dparm.isDma_spec": [
"propext",
"Quot.sound"
],
"Dparm.lba48_decision": [
"propext",
"Quot.sound"
],
"Dparm.leak_free": [
"propext",
"Classical.choice",
"Quot.sound"
],
"Dparm.linux_close": [
"propext",
"Classical.choice",
"Quot.sound"
],
"Dparm.linux_enum": [
"propext",
"Classical.choice",
"Quot.sound"
],
"Dparm.linux_enum_reads_only": [
"propext",
"Classical.choice",
"Quot.sound"
],
"Dparm.linux_open": [
"propext",
"Classical.choice",
"Quot.sound"
],
"Dparm.linux_open_kinds": [
"propext",
"Classical.choice",
"Quot.sound"
],
"Dparm.linux_open_reads_only": [
"propext",
"Classical.choice",
"Quot.sound"
],
"Dparm.linux_partition_view": [
"propext",
"Classical.choice",
"Quot.sound"
],
"Dparm.linux_send_fallback_zeros": [
"propext",
"Classical.choice",
"Quot.sound"
],
"Dparm.lock_state": [
"propext",
"Classical.choice",
"Quot.sound"
],
"Dparm.lock_state_short": [
"propext",
"Classical.choice",
"Quot.sound"
],
"Dparm.log_page_command": [
"propext",
"Classical.choice",
"Quot.sound"
],
"Dparm.log_page_fields": [
"propext",
"Classical.choice",
"Quot.sound"
],
"Dparm.log_page_negative": [
"propext",
"Quot.sound"
],
"Dparm.log_page_retries": [
"propext",
"Classical.choice",
"Quot.sound"
],
"Dparm.log_page_small": [
"propext",
"Classical.choice",
"Quot.sound"
],
"Dparm.looking_client_reads_only": [
"propext",
"Classical.choice",
"Quot.sound"
],
"Dparm.looking_reads_only": [
"propext",
"Classical.choice",
"Quot.sound"
],
"Dparm.mbr_accepts_iff": [
"propext",
"Quot.sound"
],
"Dparm.mbr_read": [
"propext",
"Quot.sound"
],
"Dparm.mountFields_eq": [
"propext"
],
"Dparm.msid_on_miniport": [
"propext",
"Classical.choice",
"Quot.sound"
],
"Dparm.msid_opened_win": [
"propext",
"Classical.choice",
"Quot.sound"
],
"Dparm.namesDrive_unique": [
"propext",
"Classical.choice",
"Quot.sound"
],
"Dparm.narrow_accessors": [
"propext",
"Quot.sound"
],
"Dparm.nested_error": [],
"Dparm.no_use_after_close": [
"propext",
"Classical.choice",
"Quot.sound"
],
"Dparm.nul_text_found": [
"propext",
"Quot.sound"
],
"Dparm.nul_text_none": [
"propext",
"Quot.sound"
],
"Dparm.number_roundtrip": [
"propext",
"Classical.choice",
"Quot.sound"
],
"Dparm.nvmeWin_handle_leak": [
"propext",
"Classical.choice",
"Quot.sound"
],
"Dparm.nvmeWin_open": [
"propext",
"Classical.choice",
"Quot.sound"
],
"Dparm.nvme_identity": [
"propext",
"Classical.choice",
"Quot.sound"
],
"Dparm.nvme_identity_any": [
"propext",
"Classical.choice",
"Quot.sound"
],
"Dparm.nvme_named_fields": [
"propext",
"Classical.choice",
"Quot.sound"
],
"Dparm.nvme_open": [
"propext",
"Quot.sound"
],
"Dparm.nvme_record_big_endian": [
"propext",
"Classical.choice",
"Quot.sound"
],
"Dparm.nvme_record_map": [
"propext",
"Classical.choice",
"Quot.sound"
],
"Dparm.nvme_records": [
"propext",
"Classical.choice",
"Quot.sound"
],
"Dparm.nvme_security_end_to_end": [
"propext",
"Classical.choice",
"Quot.sound"
],
"Dparm.nvme_security_fields": [
"propext",
"Classical.choice",
"Quot.sound"
],
"Dparm.nvme_status_looks_like_errno": [
"propext"
],
"Dparm.one_session_opened": [
"propext",
"Classical.choice",
"Quot.sound"
],
"Dparm.one_session_opened_win": [
"propext",
"Classical.choice",
"Quot.sound"
],
"Dparm.one_session_per_object": [
"propext",
"Classical.choice",
"Quot.sound"
],
"Dparm.opal_device_sends": [
"propext",
"Classical.choice",
"Quot.sound"
],
"Dparm.open_by_partition": [
"propext",
"Classical.choice",
"Quot.sound"
],
"Dparm.open_by_path_drivers": [
"propext",
"Classical.choice",
"Quot.sound"
],
"Dparm.open_by_path_error_iff": [
"propext",
"Classical.choice",
"Quot.sound"
],
"Dparm.open_by_volume_path": [
"propext",
"Classical.choice",
"Quot.sound"
],
"Dparm.open_by_volume_path_order": [
"propext",
"Classical.choice",
"Quot.sound"
],
"Dparm.open_conforming_miniport": [
"propext",
"Classical.choice",
"Quot.sound"
],
"Dparm.open_conforming_nvme": [
"propext",
"Classical.choice",
"Quot.sound"
],
"Dparm.open_conforming_scsi": [
"propext",
"Classical.choice",
"Quot.sound"
],
"Dparm.open_succeeds_miniport": [
"propext",
"Classical.choice",
"Quot.sound"
],
"Dparm.open_succeeds_nvme": [
"propext",
"Classical.choice",
"Quot.sound"
],
"Dparm.open_succeeds_scsi": [
"propext",
"Classical.choice",
"Quot.sound"
],
"Dparm.open_then_close": [
"propext",
"Classical.choice",
"Quot.sound"
],
"Dparm.opened_basic_info": [
"propext",
"Classical.choice",
"Quot.sound"
],
"Dparm.parse_own_command": [
"propext",
"Classical.choice",
"Quot.sound"
],
"Dparm.parsed_token_shape": [
"propext",
"Classical.choice",
"Quot.sound"
],
"Dparm.partitionMatch_iff": [
"propext",
"Classical.choice",
"Quot.sound"
],
"Dparm.passFlags_fields": [
"propext",
"Quot.sound"
],
"Dparm.passFlags_roundtrip": [
"propext",
"Classical.choice",
"Quot.sound"
],
"Dparm.pool_solo_ends": [
"propext"
],
"Dparm.psid_revert_conforming": [
"propext",
"Classical.choice",
"Quot.sound"
],
"Dparm.psid_revert_miniport": [
"propext",
"Classical.choice",
"Quot.sound"
],
"Dparm.psid_revert_nvme": [
"propext",
"Classical.choice",
"Quot.sound"
],
"Dparm.psid_revert_opened_win": [
"propext",
"Classical.choice",
"Quot.sound"
],
"Dparm.psid_revert_scsi": [
"propext",
"Classical.choice",
"Quot.sound"
],
"Dparm.readSmart_no_ata": [
"propext",
"Quot.sound"
],
"Dparm.readSmart_spec": [
"propext",
"Classical.choice",
"Quot.sound"
],
"Dparm.recovered_agrees": [
"propext",
"Quot.sound"
],
"Dparm.recovered_history_comes_back": [
"propext",
"Classical.choice",
"Quot.sound"
],
"Dparm.recovered_history_credentials": [
"propext",
"Classical.choice",
"Quot.sound"
],
"Dparm.recovered_history_numbers": [
"propext",
"Classical.choice",
"Quot.sound"
],
"Dparm.recovered_panic": [
"propext",
"Classical.choice",
"Quot.sound"
],
"Dparm.recovered_uninitialised": [
"propext",
"Classical.choice",
"Quot.sound"
],
"Dparm.rediscovery_never_forgets": [
"propext",
"Classical.choice",
"Quot.sound"
],
"Dparm.reported_partition": [
"propext",
"Classical.choice",
"Quot.sound"
],
"Dparm.revert_after_default_password": [
"propext",
"Classical.choice",
"Quot.sound"
],
"Dparm.revert_blind_on_opened": [
"propext",
"Classical.choice",
"Quot.sound"
],
"Dparm.revert_blind_on_windows": [
"propext",
"Classical.choice",
"Quot.sound"
],
"Dparm.revert_by_hand": [
"propext",
"Classical.choice",
"Quot.sound"
],
"Dparm.revert_by_hand_opened": [
"propext",
"Classical.choice",
"Quot.sound"
],
"Dparm.revert_by_hand_opened_win": [
"propext",
"Classical.choice",
"Quot.sound"
],
"Dparm.revert_conforming_safe": [
"propext",
"Classical.choice",
"Quot.sound"
],
"Dparm.revert_on_miniport": [
"propext",
"Classical.choice",
"Quot.sound"
],
"Dparm.revert_on_nvme": [
"propext",
"Classical.choice",
"Quot.sound"
],
"Dparm.revert_on_scsi": [
"propext",
"Classical.choice",
"Quot.sound"
],
"Dparm.revert_on_windows_only": [
"propext",
"Classical.choice",
"Quot.sound"
],
"Dparm.revert_order": [
"propext",
"Classical.choice",
"Quot.sound"
],
"Dparm.revert_safe_miniport": [
"propext",
"Classical.choice",
"Quot.sound"
],
"Dparm.revert_safe_nvme": [
"propext",
"Classical.choice",
"Quot.sound"
],
"Dparm.revert_safe_opened_win": [
"propext",
"Classical.choice",
"Quot.sound"
],
"Dparm.revert_safe_scsi": [
"propext",
"Classical.choice",
"Quot.sound"
],
"Dparm.revert_secret": [
"propext",
"Quot.sound"
],
"Dparm.revert_start_error": [
"propext",
"Classical.choice",
"Quot.sound"
],
"Dparm.revert_success": [
"propext",
"Classical.choice",
"Quot.sound"
],
"Dparm.reverts_counted": [
"propext",
"Classical.choice",
"Quot.sound"
],
"Dparm.satDecode_sgTaskCdb": [
"propext",
"Quot.sound"
],
"Dparm.scan_fuel": [
"propext",
"Classical.choice",
"Quot.sound"
],
"Dparm.security_fallback": [
"propext",
"Quot.sound"
],
"Dparm.sendCommand_panics_iff": [
"propext",
"Classical.choice",
"Quot.sound"
],
"Dparm.sendCommand_stamped": [
"propext",
"Classical.choice",
"Quot.sound"
],
"Dparm.sendCommand_status": [
"propext",
"Classical.choice",
"Quot.sound"
],
"Dparm.sendCommand_success_iff": [
"propext",
"Classical.choice",
"Quot.sound"
],
"Dparm.sense_accessors": [
"propext",
"Quot.sound"
],
"Dparm.session_numbers_echoed": [
"propext",
"Classical.choice",
"Quot.sound"
],
"Dparm.setExtend_wrong": [
"propext",
"Quot.sound"
],
"Dparm.setMultipleCount_wrong": [
"propext",
"Classical.choice",
"Quot.sound"
],
"Dparm.settings_unobservable": [
"propext",
"Classical.choice",
"Quot.sound"
],
"Dparm.sgOpen_spec": [
"propext",
"Classical.choice",
"Quot.sound"
],
"Dparm.sgSec_cdb": [
"propext",
"Classical.choice",
"Quot.sound"
],
"Dparm.sgSec_data": [
"propext",
"Classical.choice",
"Quot.sound"
],
"Dparm.sgSec_ignores_sense": [
"propext",
"Classical.choice",
"Quot.sound"
],
"Dparm.sgSec_ioctl_count": [
"propext",
"Classical.choice",
"Quot.sound"
],
"Dparm.sg_cdb_faithful": [
"propext",
"Classical.choice",
"Quot.sound"
],
"Dparm.sg_ioctl_count": [
"propext",
"Classical.choice",
"Quot.sound"
],
"Dparm.sg_read_buffer": [
"propext",
"Classical.choice",
"Quot.sound"
],
"Dparm.sg_security_records": [
"propext",
"Classical.choice",
"Quot.sound"
],
"Dparm.sg_sense": [
"propext",
"Classical.choice",
"Quot.sound"
],
"Dparm.sg_task_records": [
"propext",
"Classical.choice",
"Quot.sound"
],
"Dparm.sg_timeouts": [
"propext",
"Classical.choice",
"Quot.sound"
],
"Dparm.sg_verdict_by_format": [
"propext",
"Classical.choice",
"Quot.sound"
],
"Dparm.sg_write_zeros": [
"propext",
"Classical.choice",
"Quot.sound"
],
"Dparm.shared_drive_protected": [
"propext",
"Classical.choice",
"Quot.sound"
],
"Dparm.shared_drive_states": [
"propext",
"Classical.choice",
"Quot.sound"
],
"Dparm.shared_password_exclusive": [
"propext",
"Classical.choice",
"Quot.sound"
],
"Dparm.shared_password_false": [
"propext",
"Classical.choice",
"Quot.sound"
],
"Dparm.shared_revert_exclusive": [
"propext",
"Classical.choice",
"Quot.sound"
],
"Dparm.shared_revert_false_success": [
"propext",
"Classical.choice",
"Quot.sound"
],
"Dparm.shared_revert_wrong_password": [
"propext",
"Classical.choice",
"Quot.sound"
],
"Dparm.sid_revert_conforming": [
"propext",
"Classical.choice",
"Quot.sound"
],
"Dparm.sid_revert_miniport": [
"propext",
"Classical.choice",
"Quot.sound"
],
"Dparm.sid_revert_never": [
"propext",
"Classical.choice",
"Quot.sound"
],
"Dparm.sid_revert_nvme": [
"propext",
"Classical.choice",
"Quot.sound"
],
"Dparm.sid_revert_opened_win": [
"propext",
"Classical.choice",
"Quot.sound"
],
"Dparm.sid_revert_scsi": [
"propext",
"Classical.choice",
"Quot.sound"
],
"Dparm.smart_disk_read": [
"propext",
"Classical.choice",
"Quot.sound"
],
"Dparm.smart_disk_read_windows": [
"propext",
"Classical.choice",
"Quot.sound"
],
"Dparm.smart_linux": [
"propext",
"Classical.choice",
"Quot.sound"
],
"Dparm.smart_sizes": [],
"Dparm.smart_windows": [
"propext",
"Classical.choice",
"Quot.sound"
],
"Dparm.soleDev_spec": [
"propext",
"Classical.choice",
"Quot.sound"
],
"Dparm.stamping_frame": [
"propext",
"Classical.choice",
"Quot.sound"
],
"Dparm.stamping_keeps_tokens": [
"propext",
"Classical.choice",
"Quot.sound"
],
"Dparm.start_credential": [
"propext",
"Quot.sound"
],
"Dparm.start_outcome": [
"propext",
"Classical.choice",
"Quot.sound"
],
"Dparm.start_outcome_opened": [
"propext",
"Classical.choice",
"Quot.sound"
],
"Dparm.start_outcome_opened_win": [
"propext",
"Classical.choice",
"Quot.sound"
],
"Dparm.start_recovered": [
"propext",
"Classical.choice",
"Quot.sound"
],
"Dparm.start_sends": [
"propext",
"Classical.choice",
"Quot.sound"
],
"Dparm.start_sends_fresh": [
"propext",
"Classical.choice",
"Quot.sound"
],
"Dparm.start_succeeds_on_numbers": [
"propext",
"Classical.choice",
"Quot.sound"
],
"Dparm.string_roundtrip": [
"propext",
"Classical.choice",
"Quot.sound"
],
"Dparm.swap16_spec": [
"propext",
"Classical.choice",
"Quot.sound"
],
"Dparm.swap32_spec": [
"propext",
"Classical.choice",
"Quot.sound"
],
"Dparm.swap_kept": [
"propext",
"Quot.sound"
],
"Dparm.swap_spec": [
"propext",
"Quot.sound"
],
"Dparm.table_conforming": [
"propext",
"Classical.choice",
"Quot.sound"
],
"Dparm.table_named_range": [
"propext",
"Classical.choice",
"Quot.sound"
],
"Dparm.table_outcome_opened": [
"propext",
"Classical.choice",
"Quot.sound"
],
"Dparm.table_outcome_opened_win": [
"propext",
"Classical.choice",
"Quot.sound"
],
"Dparm.table_range": [
"propext",
"Classical.choice",
"Quot.sound"
],
"Dparm.table_unsupported": [
"propext",
"Quot.sound"
],
"Dparm.tcg_no_driver": [
"propext",
"Quot.sound"
],
"Dparm.tcg_on_miniport": [
"propext",
"Classical.choice",
"Quot.sound"
],
"Dparm.tcg_on_nvme": [
"propext",
"Classical.choice",
"Quot.sound"
],
"Dparm.tcg_on_scsi": [
"propext",
"Classical.choice",
"Quot.sound"
],
"Dparm.tcg_on_windows_only": [
"propext",
"Classical.choice",
"Quot.sound"
],
"Dparm.tcg_unbound_on_windows": [
"propext",
"Classical.choice",
"Quot.sound"
],
"Dparm.text_distinct": [
"propext",
"Classical.choice",
"Quot.sound"
],
"Dparm.text_given": [
"propext",
"Classical.choice",
"Quot.sound"
],
"Dparm.text_received": [
"propext",
"Classical.choice",
"Quot.sound"
],
"Dparm.text_round_trip": [
"propext",
"Classical.choice",
"Quot.sound"
],
"Dparm.tfInitLocal_address": [
"propext",
"Classical.choice",
"Quot.sound"
],
"Dparm.tfInit_no_effect": [
"propext",
"Quot.sound"
],
"Dparm.tfInit_param": [
"propext",
"Classical.choice",
"Quot.sound"
],
"Dparm.tiles_meaning": [
"propext",
"Classical.choice",
"Quot.sound"
],
"Dparm.tiny_sign_inverted": [
"propext",
"Quot.sound"
],
"Dparm.trimSpace_spec": [
"propext",
"Classical.choice",
"Quot.sound"
],
"Dparm.type_of_encoded": [
"propext",
"Quot.sound"
],
"Dparm.type_total": [
"propext",
"Quot.sound"
],
"Dparm.union_decoders": [
"propext",
"Classical.choice",
"Quot.sound"
],
"Dparm.unsupported_device_silent": [
"propext",
"Classical.choice",
"Quot.sound"
],
"Dparm.user_io_faithful": [
"propext",
"Quot.sound"
],
"Dparm.version_field": [
"propext",
"Classical.choice",
"Quot.sound"
],
"Dparm.volume_by_name": [
"propext",
"Classical.choice",
"Quot.sound"
],
"Dparm.volume_list": [
"propext",
"Quot.sound"
],
"Dparm.wcslen_spec": [
"propext",
"Quot.sound"
],
"Dparm.win_all_closed": [
"propext",
"Classical.choice",
"Quot.sound"
],
"Dparm.win_ata_command": [
"propext",
"Classical.choice",
"Quot.sound"
],
"Dparm.win_ata_open": [
"propext",
"Classical.choice",
"Quot.sound"
],
"Dparm.win_ata_records": [
"propext",
"Classical.choice",
"Quot.sound"
],
"Dparm.win_ata_result": [
"propext",
"Classical.choice",
"Quot.sound"
],
"Dparm.win_basic_info": [
"propext",
"Classical.choice",
"Quot.sound"
],
"Dparm.win_call_ends": [
"propext",
"Classical.choice",
"Quot.sound"
],
"Dparm.win_client_crash": [
"propext",
"Classical.choice",
"Quot.sound"
],
"Dparm.win_client_ends": [
"propext",
"Classical.choice",
"Quot.sound"
],
"Dparm.win_client_never_crashes": [
"propext",
"Classical.choice",
"Quot.sound"
],
"Dparm.win_concurrent_as_alone": [
"propext",
"Classical.choice",
"Quot.sound"
],
"Dparm.win_concurrent_leak_free": [
"propext",
"Classical.choice",
"Quot.sound"
],
"Dparm.win_concurrent_own_handles": [
"propext",
"Classical.choice",
"Quot.sound"
],
"Dparm.win_develop_leaves_open": [
"propext",
"Classical.choice",
"Quot.sound"
],
"Dparm.win_develop_reads_only": [
"propext",
"Classical.choice",
"Quot.sound"
],
"Dparm.win_develop_without_drives": [
"propext",
"Classical.choice",
"Quot.sound"
],
"Dparm.win_drive_partition_view": [
"propext",
"Classical.choice",
"Quot.sound"
],
"Dparm.win_drive_protected": [
"propext",
"Classical.choice",
"Quot.sound"
],
"Dparm.win_driver_order": [
"propext",
"Classical.choice",
"Quot.sound"
],
"Dparm.win_enum_drives": [
"propext",
"Classical.choice",
"Quot.sound"
],
"Dparm.win_enum_ends": [
"propext",
"Classical.choice",
"Quot.sound"
],
"Dparm.win_enum_handles": [
"propext",
"Classical.choice",
"Quot.sound"
],
"Dparm.win_enum_panic": [
"propext",
"Classical.choice",
"Quot.sound"
],
"Dparm.win_enum_reads_only": [
"propext",
"Classical.choice",
"Quot.sound"
],
"Dparm.win_enum_volumes": [
"propext",
"Classical.choice",
"Quot.sound"
],
"Dparm.win_find_unknown": [
"propext",
"Quot.sound"
],
"Dparm.win_find_volumes": [
"propext",
"Quot.sound"
],
"Dparm.win_first_driver": [
"propext",
"Classical.choice",
"Quot.sound"
],
"Dparm.win_first_mount_only": [
"propext",
"Quot.sound"
],
"Dparm.win_guesses_move_nothing": [
"propext",
"Classical.choice",
"Quot.sound"
],
"Dparm.win_handle_census": [
"propext",
"Classical.choice",
"Quot.sound"
],
"Dparm.win_handle_crash_iff": [
"propext",
"Classical.choice",
"Quot.sound"
],
"Dparm.win_held_handles_open": [
"propext",
"Classical.choice",
"Quot.sound"
],
"Dparm.win_leak_free": [
"propext",
"Classical.choice",
"Quot.sound"
],
"Dparm.win_log_page_command": [
"propext",
"Classical.choice",
"Quot.sound"
],
"Dparm.win_looking_client_reads_only": [
"propext",
"Classical.choice",
"Quot.sound"
],
"Dparm.win_looking_reads_only": [
"propext",
"Classical.choice",
"Quot.sound"
],
"Dparm.win_miniport_admin": [
"propext",
"Classical.choice",
"Quot.sound"
],
"Dparm.win_miniport_status_unseen": [
"propext",
"Classical.choice",
"Quot.sound"
],
"Dparm.win_no_use_after_close": [
"propext",
"Classical.choice",
"Quot.sound"
],
"Dparm.win_open_by_handle": [
"propext",
"Classical.choice",
"Quot.sound"
],
"Dparm.win_open_by_partition": [
"propext",
"Classical.choice",
"Quot.sound"
],
"Dparm.win_open_by_volume": [
"propext",
"Classical.choice",
"Quot.sound"
],
"Dparm.win_open_handles": [
"propext",
"Classical.choice",
"Quot.sound"
],
"Dparm.win_open_kinds": [
"propext",
"Classical.choice",
"Quot.sound"
],
"Dparm.win_open_reads_only": [
"propext",
"Classical.choice",
"Quot.sound"
],
"Dparm.win_partition_style": [
"propext",
"Quot.sound"
],
"Dparm.win_partition_view": [
"propext",
"Classical.choice",
"Quot.sound"
],
"Dparm.win_reads": [
"propext",
"Classical.choice",
"Quot.sound"
],
"Dparm.win_requests": [
"propext",
"Classical.choice",
"Quot.sound"
],
"Dparm.win_scsi_open": [
"propext",
"Classical.choice",
"Quot.sound"
],
"Dparm.win_scsi_records": [
"propext",
"Classical.choice",
"Quot.sound"
],
"Dparm.win_scsi_result": [
"propext",
"Classical.choice",
"Quot.sound"
],
"Dparm.win_sec_cdb": [
"propext",
"Classical.choice",
"Quot.sound"
],
"Dparm.win_security_miniport": [
"propext",
"Classical.choice",
"Quot.sound"
],
"Dparm.win_send_zeros": [
"propext",
"Classical.choice",
"Quot.sound"
],
"Dparm.win_storage_query": [
"propext",
"Classical.choice",
"Quot.sound"
],
"Dparm.win_task_cdb": [
"propext"
],
"Dparm.win_volumes_end": [
"propext",
"Quot.sound"
],
"Dparm.win_volumes_handles": [
"propext",
"Classical.choice",
"Quot.sound"
],
"Dparm.win_volumes_panic": [
"propext",
"Classical.choice",
"Quot.sound"
],
"Dparm.win_volumes_read_only": [
"propext",
"Quot.sound"
],
"Dparm.win_volumes_return": [
"propext",
"Classical.choice",
"Quot.sound"
],
"Dparm.win_volumes_unwind": [
"propext",
"Classical.choice",
"Quot.sound"
],
"Dparm.win_writes_are_zeros": [
"propext",
"Classical.choice",
"Quot.sound"
],
"Dparm.windowsNvme_open": [
"propext",
"Classical.choice",
"Quot.sound"
],
"Dparm.windows_log_page": [
"propext",
"Classical.choice",
"Quot.sound"
],
"Dparm.wire_after_complete": [
"propext",
"Classical.choice",
"Quot.sound"
],
"Dparm.wrappedBuffer_confined": [
"propext",
"Quot.sound"
],
"Dparm.wrappedBuffer_refines_cursor": [
"propext",
"Classical.choice",
"Quot.sound"
]
}