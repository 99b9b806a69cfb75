{
 "claims": [
  {
   "property": "C01",
   "status": "proved",
   "theorems": [
    "Insteon.address_text_format",
    "Insteon.address_text_length",
    "Insteon.address_text_roundtrip",
    "Insteon.address_text_roundtrip_valid",
    "Insteon.address_text_injective",
    "Insteon.address_text_variants"
   ],
   "note": "all 2^32 address values and all receivers; text also pinned to a digit-table specification"
  },
  {
   "property": "C02",
   "status": "proved",
   "theorems": [
    "Insteon.address_parse_total",
    "Insteon.address_parse_bounded"
   ],
   "note": "all byte strings, all receivers"
  },
  {
   "property": "C03",
   "status": "partial",
   "theorems": [
    "Insteon.address_parse_accepts_partial",
    "Insteon.address_parse_strict",
    "Insteon.address_parse_strict_refuted",
    "Insteon.address_parse_trailing_witness"
   ],
   "note": "false of the code: trailing text and single digits are accepted (refuted). Proved instead: exact characterisation of the accepted texts, and every well-formed text is accepted with its value"
  },
  {
   "property": "C04",
   "status": "proved",
   "theorems": [
    "Insteon.address_bytes_roundtrip",
    "Insteon.address_bytes_roundtrip_valid",
    "Insteon.address_bytes_big_endian",
    "Insteon.address_put_bytes",
    "Insteon.address_put_short"
   ],
   "note": "all addresses, all buffers"
  },
  {
   "property": "C05",
   "status": "proved",
   "theorems": [
    "Insteon.command_bytes",
    "Insteon.subCommand_replaces",
    "Insteon.subCommand_int",
    "Insteon.subCommand_last",
    "Insteon.command_set"
   ],
   "note": "all 64-bit commands and arguments"
  },
  {
   "property": "C06",
   "status": "proved",
   "theorems": [
    "Insteon.from_components",
    "Insteon.ofWire_value",
    "Insteon.from_ignores_hops"
   ],
   "note": "all flag and command bytes"
  },
  {
   "property": "C07",
   "status": "partial",
   "theorems": [
    "Insteon.matches_first_byte_partial",
    "Insteon.matches_equivalence",
    "Insteon.matches_class_refuted"
   ],
   "note": "false of the code: the class is ignored (refuted). Proved: matching is exactly equality of the first command byte"
  },
  {
   "property": "C08",
   "status": "proved",
   "theorems": [
    "Insteon.flag_components",
    "Insteon.flag_invalid_hops",
    "Insteon.flag_injective"
   ],
   "note": "all types, lengths and hop values"
  },
  {
   "property": "C09",
   "status": "proved",
   "theorems": [
    "Insteon.flag_classification",
    "Insteon.type_classification",
    "Insteon.flag_type_documented",
    "Insteon.ack_not_broadcast"
   ],
   "note": "all 256 flag bytes"
  },
  {
   "property": "C10",
   "status": "proved",
   "theorems": [
    "Insteon.setTTL_value",
    "Insteon.setMaxTTL_value",
    "Insteon.hop_setters_independent"
   ],
   "note": "all flag bytes and hop values"
  },
  {
   "property": "C100",
   "status": "proved",
   "theorems": [
    "Insteon.add_links_stored",
    "Insteon.add_links_succeeds",
    "Insteon.add_links_error_refuted"
   ],
   "note": "devices with a list of records; add_links_error_refuted records that an arbitrary device can lose the error of an earlier append"
  },
  {
   "property": "C101",
   "status": "partial",
   "theorems": [
    "Insteon.fix_crosslinks_exact_partial",
    "Insteon.fix_crosslinks_room_partial",
    "Insteon.fix_crosslinks_keeps",
    "Insteon.fix_crosslinks_partial",
    "Insteon.fix_crosslinks_refuted"
   ],
   "note": "false of the code: an append starts again from the original list (refuted). Proved: exactly which of the missing crosslinks the list contains; all of them if there are enough free records; records in use are always kept"
  },
  {
   "property": "C102",
   "status": "proved",
   "theorems": [
    "Insteon.link_modem_stale"
   ],
   "note": "all responders and histories, databases that do not change while Link looks at them"
  },
  {
   "property": "C103",
   "status": "proved",
   "theorems": [
    "Insteon.write_end_to_end"
   ],
   "note": "from bytes on the serial line to the result; an entry of the line ends at the end of a packet"
  },
  {
   "property": "C104",
   "status": "partial",
   "theorems": [
    "Insteon.write_ack_fresh_partial",
    "Insteon.write_ack_fresh_refuted"
   ],
   "note": "false of the code: an acknowledgement left over from an earlier command is returned (refuted). Proved: true when none is left over"
  },
  {
   "property": "C105",
   "status": "partial",
   "theorems": [
    "Insteon.late_reply_refuted",
    "Insteon.exchanges_in_sync_partial"
   ],
   "note": "false of the code: after one late reply every later write fails, for every sequence of messages whose neighbours differ (refuted). Proved: any sequence of prompt exchanges stays in step"
  },
  {
   "property": "C106",
   "status": "proved",
   "theorems": [
    "Insteon.writes_any_line",
    "Insteon.command_on_the_line"
   ],
   "note": "all bytes, all finite futures of the line; serial port open and accepting writes"
  },
  {
   "property": "C107",
   "status": "proved",
   "theorems": [
    "Insteon.serial_links_complete",
    "Insteon.serial_rewrite",
    "Insteon.serial_links_flooded_refuted"
   ],
   "note": "byte-level modem refines the packet-level one of C35/C36; serial_links_flooded_refuted shows the bound of eight reports is needed (ten lose the record)"
  },
  {
   "property": "C108",
   "status": "partial",
   "theorems": [
    "Insteon.snoop_once_partial",
    "Insteon.snoop_reports_partial",
    "Insteon.snoop_once_refuted"
   ],
   "note": "false of the code: a refused request is reported twice (refuted), and host commands other than 0x61-0x64 are misframed (C27). Proved: exactly once and in order for every schedule otherwise, with refused requests accounted for in snoop_reports_partial"
  },
  {
   "property": "C109",
   "status": "partial",
   "theorems": [
    "Insteon.snoop_read_progress_partial",
    "Insteon.snoop_end_refuted"
   ],
   "note": "false of the code: the channel is never closed, so a read after the end blocks forever (refuted for every pair of streams). Proved: exactly when a read completes"
  },
  {
   "property": "C11",
   "status": "proved",
   "theorems": [
    "Insteon.message_wire_roundtrip",
    "Insteon.message_wire_roundtrip_exact",
    "Insteon.message_wire_length"
   ],
   "note": "all messages, any payload length, any receiver"
  },
  {
   "property": "C110",
   "status": "partial",
   "theorems": [
    "Insteon.command_text_partial",
    "Insteon.command_text_refuted"
   ],
   "note": "false of the code: the ramp commands of older and newer dimmers share their names (refuted). Proved for all other pairs of three-byte commands"
  },
  {
   "property": "C111",
   "status": "proved",
   "theorems": [
    "Insteon.plm_command_text",
    "Insteon.packet_hex"
   ],
   "note": "all 256 commands, payloads of any length"
  },
  {
   "property": "C112",
   "status": "proved",
   "theorems": [
    "Insteon.flags_text"
   ],
   "note": "all pairs of flag bytes"
  },
  {
   "property": "C113",
   "status": "partial",
   "theorems": [
    "Insteon.message_text_partial",
    "Insteon.message_text_refuted"
   ],
   "note": "false of the code: an all-link broadcast is shown without the upper two bytes of its destination (refuted). Proved: everything else can be read off, up to the ramp commands of C110"
  },
  {
   "property": "C114",
   "status": "proved",
   "theorems": [
    "Insteon.Monitor.monitor_transparent"
   ],
   "note": "as long as the writer below does not panic or return neither message nor error; error texts are assumed to have no line break"
  },
  {
   "property": "C115",
   "status": "partial",
   "theorems": [
    "Insteon.Monitor.monitor_ack_partial",
    "Insteon.Monitor.monitor_ack_refuted"
   ],
   "note": "false of the code: a third party's request to the same device is taken for the acknowledged one (refuted). Proved when nothing else was sent to the device since and at most eight messages lie between"
  },
  {
   "property": "C116",
   "status": "partial",
   "theorems": [
    "Insteon.thermostat_info_partial",
    "Insteon.thermostat_info_refuted"
   ],
   "note": "false of the code: a repeated reply is taken for the other data set (refuted). Proved: questions, errors, and all fields when the replies are data sets 0 and 1"
  },
  {
   "property": "C117",
   "status": "proved",
   "theorems": [
    "Insteon.status_report"
   ],
   "note": "all answers and message streams"
  },
  {
   "property": "C118",
   "status": "proved",
   "theorems": [
    "Insteon.flag_bits"
   ],
   "note": "all flag bytes"
  },
  {
   "property": "C119",
   "status": "partial",
   "theorems": [
    "Insteon.Ic.command_argument_partial",
    "Insteon.Ic.command_argument_refuted",
    "Insteon.Ic.command_argument_accepts",
    "Insteon.Ic.command_argument_sign"
   ],
   "note": "false of the code: bytes from 80 up are rejected (refuted), and signs are accepted. Proved: exactly which texts are accepted and what they mean"
  },
  {
   "property": "C12",
   "status": "proved",
   "theorems": [
    "Insteon.wire_message_roundtrip"
   ],
   "note": "all byte strings, any receiver"
  },
  {
   "property": "C120",
   "status": "proved",
   "theorems": [
    "Insteon.Ic.address_arguments",
    "Insteon.Ic.address_list_roundtrip"
   ],
   "note": "all lists of texts and of addresses"
  },
  {
   "property": "C121",
   "status": "partial",
   "theorems": [
    "Insteon.Ic.data_arguments_partial",
    "Insteon.Ic.data_arguments_refuted",
    "Insteon.Ic.data_roundtrip"
   ],
   "note": "false of the code: text after a hex byte is ignored (refuted). Proved: what is accepted and what it means, errors, and the round trip"
  },
  {
   "property": "C122",
   "status": "proved",
   "theorems": [
    "Insteon.Ic.flag_command",
    "Insteon.Ic.monitor_switches_on"
   ],
   "note": "all configurations and fates"
  },
  {
   "property": "C123",
   "status": "partial",
   "theorems": [
    "Insteon.Ic.link_command_partial",
    "Insteon.Ic.link_command_refuted",
    "Insteon.Ic.link_command_unreachable"
   ],
   "note": "false of the code: only the first device that can be opened is linked (refuted). Proved for that one, after any number of unreachable ones: linked as asked or an error that happened, no other database touched and no link lost; unreachable devices are passed over without an error"
  },
  {
   "property": "C124",
   "status": "partial",
   "theorems": [
    "Insteon.Ic.unlink_command_partial",
    "Insteon.Ic.unlink_command_refuted",
    "Insteon.Ic.unlink_loop_partial"
   ],
   "note": "false of the code: the command looks at a list nothing fills, so it does nothing and reports success (refuted, and proved for all arguments). Proved too: what its loop would do with a list that had been filled"
  },
  {
   "property": "C125",
   "status": "partial",
   "theorems": [
    "Insteon.Ic.edit_links_partial",
    "Insteon.Ic.edit_links_refuted"
   ],
   "note": "false of the code: a record whose line is left alone loses the flags its text does not show (refuted). Proved: all four outcomes with the records as far as the text tells them, for every lawful modem"
  },
  {
   "property": "C126",
   "status": "partial",
   "theorems": [
    "Insteon.Ic.edit_unreadable_partial",
    "Insteon.Ic.edit_failed_refuted",
    "Insteon.Ic.edit_links_partial"
   ],
   "note": "false of the code: the records are deleted before the new ones are stored, so a refused record leaves an empty database (refuted). Proved: nothing is written when the links cannot be read, the editor fails or the text does not parse"
  },
  {
   "property": "C127",
   "status": "partial",
   "theorems": [
    "Insteon.Ic.anonymize_file_partial",
    "Insteon.Ic.anonymize_unknown",
    "Insteon.Ic.anonymize_unparsed",
    "Insteon.Ic.anonymize_file_refuted"
   ],
   "note": "false of the code: addresses in comments remain (refuted). Proved: the records keep order and all fields but the consistently replaced addresses; comments are kept; a file that does not parse is not touched"
  },
  {
   "property": "C128",
   "status": "partial",
   "theorems": [
    "Insteon.Ic.monitor_command_partial",
    "Insteon.Ic.monitor_command_refuted"
   ],
   "note": "false of the code: one garbled message ends the monitor (refuted). Proved: through any sequence of messages and quiet periods everything is shown"
  },
  {
   "property": "C129",
   "status": "proved",
   "theorems": [
    "Insteon.device_links_serial"
   ],
   "note": "from the bytes on the serial line to the list of records, for every lawful line"
  },
  {
   "property": "C13",
   "status": "partial",
   "theorems": [
    "Insteon.duplicate_iff_partial",
    "Insteon.duplicate_equivalence",
    "Insteon.retransmission_duplicate",
    "Insteon.duplicate_needs_max_hops",
    "Insteon.duplicate_exact_refuted"
   ],
   "note": "false of the code: ack/nak/type bits are not compared (refuted). Proved: exact characterisation, equivalence relation, retransmissions are duplicates"
  },
  {
   "property": "C130",
   "status": "partial",
   "theorems": [
    "Insteon.lossy_links_partial",
    "Insteon.lossy_links_refuted"
   ],
   "note": "false of the code: a record that is lost is silently missing from the result (refuted). Proved: the result is exactly the records heard at least once, in order, when the end record arrives, and an error otherwise"
  },
  {
   "property": "C131",
   "status": "proved",
   "theorems": [
    "Insteon.device_rewrite_serial"
   ],
   "note": "a refinement: the device behind modem, serial line, reader and queues behaves as the device with memory of C55-C58"
  },
  {
   "property": "C132",
   "status": "proved",
   "theorems": [
    "Insteon.device_rewrite_succeeds"
   ],
   "note": "for link lists not shorter than the cached one; the other case is C57"
  },
  {
   "property": "C133",
   "status": "proved",
   "theorems": [
    "Insteon.Isnoop.isnoop_unaltered"
   ],
   "note": "all inputs, chunkings and schedules of five goroutines"
  },
  {
   "property": "C134",
   "status": "partial",
   "theorems": [
    "Insteon.Isnoop.isnoop_delivers_partial",
    "Insteon.Isnoop.isnoop_stalls_refuted",
    "Insteon.Isnoop.isnoop_hangup_refuted"
   ],
   "note": "false of the code: a garbled message ends the printing, after which the copying blocks for ever, and when the standard input ends the program ends with the modem's bytes undelivered (refuted). Proved: with whole messages and the standard input open every maximal run, which is finite, delivers and prints everything"
  },
  {
   "property": "C135",
   "status": "proved",
   "theorems": [
    "Insteon.dump_links_text",
    "Insteon.dump_links_identify",
    "Insteon.dump_database"
   ],
   "note": ""
  },
  {
   "property": "C136",
   "status": "proved",
   "theorems": [
    "Insteon.print_links",
    "Insteon.print_database",
    "Insteon.sorts_exists"
   ],
   "note": "for every function with sort.Sort's contract; such functions exist"
  },
  {
   "property": "C137",
   "status": "partial",
   "theorems": [
    "Insteon.device_text_partial",
    "Insteon.device_text_identifies_partial",
    "Insteon.thermostat_text_refuted",
    "Insteon.device_dump_identifies"
   ],
   "note": "false of the code: every thermostat's text has the address 00.00.00 (refuted). Proved: all other devices, and the longer text for all devices"
  },
  {
   "property": "C138",
   "status": "proved",
   "theorems": [
    "Insteon.mode_names",
    "Insteon.unit_names",
    "Insteon.fan_names",
    "Insteon.state_names"
   ],
   "note": ""
  },
  {
   "property": "C139",
   "status": "proved",
   "theorems": [
    "Insteon.thermostat_info_shown",
    "Insteon.ints_fit_decoded"
   ],
   "note": "the temperature is shown to a tenth of a degree; C188 says which tenth"
  },
  {
   "property": "C14",
   "status": "proved",
   "theorems": [
    "Insteon.equals_iff",
    "Insteon.equals_consequences"
   ],
   "note": "all pairs of messages"
  },
  {
   "property": "C140",
   "status": "partial",
   "theorems": [
    "Insteon.open_unasked",
    "Insteon.open_declined",
    "Insteon.open_linked_partial",
    "Insteon.open_asked_partial",
    "Insteon.open_linked_kind_refuted",
    "Insteon.open_link_lost_refuted"
   ],
   "note": "false of the code: a device linked on request has no category, so the switch, dimmer and thermostat commands reject it (refuted), and if it cannot be reached at the second attempt no error is reported (refuted). Proved: no question unless not linked, nothing done on no, exactly one linking session on yes"
  },
  {
   "property": "C141",
   "status": "partial",
   "theorems": [
    "Insteon.kind_checked_partial",
    "Insteon.dimmer_commands_partial",
    "Insteon.switch_commands_refuted"
   ],
   "note": "false of the code: on, off, backlight and loadsense of the switch command panic (refuted). Proved: the check of the kind, and all control subcommands for dimmers"
  },
  {
   "property": "C142",
   "status": "partial",
   "theorems": [
    "Insteon.device_commands_partial",
    "Insteon.esend_refuted",
    "Insteon.version_shown",
    "Insteon.info_shown",
    "Insteon.dump_shown"
   ],
   "note": "false of the code: an extended send without data is a standard message and the fourteenth byte of data is lost for devices with checksums (refuted). Proved: all others, and data of 1 to 13 bytes"
  },
  {
   "property": "C143",
   "status": "partial",
   "theorems": [
    "Insteon.light_status_shown",
    "Insteon.switch_config_shown",
    "Insteon.therm_status_partial",
    "Insteon.therm_status_refuted",
    "Insteon.dimmer_config_partial",
    "Insteon.dimmer_config_refuted"
   ],
   "note": "false of the code: the thermostat status sets the unit to Fahrenheit first (refuted), an unreadable dimmer configuration is reported as success (refuted). Proved: switch and dimmer status in full, and what is shown when the answers arrive"
  },
  {
   "property": "C144",
   "status": "proved",
   "theorems": [
    "Insteon.walk_visits",
    "Insteon.walk_notes"
   ],
   "note": "for walks that end; addresses in the modem's links are not zero"
  },
  {
   "property": "C145",
   "status": "proved",
   "theorems": [
    "Insteon.timed_keeps",
    "Insteon.command_time"
   ],
   "note": "the clock advances only while waiting, sleeping and writing"
  },
  {
   "property": "C146",
   "status": "partial",
   "theorems": [
    "Insteon.write_time_partial",
    "Insteon.write_time_refuted"
   ],
   "note": "false of the code: as long as any device sends something within each timeout the call does not return (refuted). Proved: one timeout per message received"
  },
  {
   "property": "C147",
   "status": "partial",
   "theorems": [
    "Insteon.options_timeout_partial",
    "Insteon.write_delay_refuted",
    "Insteon.reset_time"
   ],
   "note": "false of the code: WriteDelay has no effect (refuted). Proved: Timeout, and the longer timeout of a reset"
  },
  {
   "property": "C148",
   "status": "proved",
   "theorems": [
    "Insteon.Shared.concurrent_call"
   ],
   "note": "goroutines interleave at their accesses to the port and the channels"
  },
  {
   "property": "C149",
   "status": "proved",
   "theorems": [
    "Insteon.Shared.concurrent_once"
   ],
   "note": ""
  },
  {
   "property": "C15",
   "status": "proved",
   "theorems": [
    "Insteon.link_flag_attributes",
    "Insteon.link_flag_setters"
   ],
   "note": "all flag bytes, all sequences of setter calls"
  },
  {
   "property": "C150",
   "status": "partial",
   "theorems": [
    "Insteon.Shared.concurrent_success_partial",
    "Insteon.Shared.concurrent_answers_refuted",
    "Insteon.Shared.concurrent_replies_refuted"
   ],
   "note": "false of the code: a call can be handed, and discard, the answer to another (refuted twice). Proved: success is reported only after the call itself was given its own confirmation and an acknowledgement of its device"
  },
  {
   "property": "C151",
   "status": "proved",
   "theorems": [
    "Insteon.Shared.concurrent_writes",
    "Insteon.Shared.concurrent_returns"
   ],
   "note": "a panic of one goroutine ends the program"
  },
  {
   "property": "C152",
   "status": "proved",
   "theorems": [
    "Insteon.modem_command_bytes"
   ],
   "note": "reset's longer timeout is C147"
  },
  {
   "property": "C153",
   "status": "proved",
   "theorems": [
    "Insteon.modem_command_success",
    "Insteon.modem_command_confirmed",
    "Insteon.modem_command_refused"
   ],
   "note": ""
  },
  {
   "property": "C154",
   "status": "partial",
   "theorems": [
    "Insteon.modem_info",
    "Insteon.modem_info_total",
    "Insteon.modem_config",
    "Insteon.modem_address_partial",
    "Insteon.modem_address_refuted"
   ],
   "note": "false of the code for the address: if the question fails the address is 00.00.00 without an error (refuted). Proved: a non-zero address is the one reported, and stays"
  },
  {
   "property": "C155",
   "status": "proved",
   "theorems": [
    "Insteon.plm_info_shown"
   ],
   "note": "the order of links that compare equal is that of sort.Sort"
  },
  {
   "property": "C156",
   "status": "proved",
   "theorems": [
    "Insteon.info_wire",
    "Insteon.wire_info",
    "Insteon.request_wire"
   ],
   "note": "fewer than six bytes crash Info.UnmarshalBinary; frames of the modem always have them (C154)"
  },
  {
   "property": "C157",
   "status": "proved",
   "theorems": [
    "Insteon.Team.team_alone",
    "Insteon.Team.team_transfer",
    "Insteon.Team.team_transfer_loop",
    "Insteon.Team.write_concurrent",
    "Insteon.commands_are_programs",
    "Insteon.loops_are_programs"
   ],
   "note": "programs that never end are left out; the longer timeout of Reset is C159; the links kept from before are an argument of the link calls"
  },
  {
   "property": "C158",
   "status": "partial",
   "theorems": [
    "Insteon.Team.links_concurrent_partial",
    "Insteon.Team.links_concurrent_refuted"
   ],
   "note": "false of the code: the readers share the modem's position in its database, and one may miss records without an error (refuted). Proved: what is returned without an error is a sublist of the records given to this call, in order"
  },
  {
   "property": "C159",
   "status": "partial",
   "theorems": [
    "Insteon.ResetSt.reset_timeout_partial",
    "Insteon.ResetSt.reset_timeout_range",
    "Insteon.ResetSt.reset_timeout_refuted"
   ],
   "note": "false of the code for resets at the same time, which can leave the timeout at twenty seconds for good (refuted). Proved: resets one after the other restore it; it is never anything but the old value or twenty seconds"
  },
  {
   "property": "C16",
   "status": "proved",
   "theorems": [
    "Insteon.link_flag_text",
    "Insteon.link_flag_text_roundtrip",
    "Insteon.link_flag_text_accepts",
    "Insteon.link_flag_text_rest"
   ],
   "note": "all flag bytes, receivers and byte strings"
  },
  {
   "property": "C160",
   "status": "partial",
   "theorems": [
    "Insteon.House.message_once_partial",
    "Insteon.House.command_once_partial",
    "Insteon.House.ic_command_once_partial",
    "Insteon.House.command_once_refuted",
    "Insteon.House.command_done_refuted"
   ],
   "note": "false of the code when replies are late: a late refusal by the modem makes a later call send its command twice, a late acknowledgement makes a later call report success for a command that was not carried out (both refuted). Proved for modems that reply in time or not at all, with no acknowledgement waiting from before; port errors are not those of the modem"
  },
  {
   "property": "C161",
   "status": "proved",
   "theorems": [
    "Insteon.House.commands_in_order"
   ],
   "note": "lines on which nothing is late or doubled are an assumption; C160 refutes it without"
  },
  {
   "property": "C162",
   "status": "proved",
   "theorems": [
    "Insteon.log_transparent",
    "Insteon.log_readable"
   ],
   "note": "the time of day in front of each line is left out"
  },
  {
   "property": "C163",
   "status": "partial",
   "theorems": [
    "Insteon.quiet_partial",
    "Insteon.quiet_refuted"
   ],
   "note": "false of the code: the flag is bound to the variable for debug logs, so it switches them on, and no command line silences ic (refuted). Proved: without it and without the debug flag there are no debug logs"
  },
  {
   "property": "C164",
   "status": "partial",
   "theorems": [
    "Insteon.readWithTimeout_partial",
    "Insteon.readWithTimeout_refuted"
   ],
   "note": "false of the code for a closed channel, for which neither a message nor an error is returned (refuted). Proved for channels that are not closed and carry no nil"
  },
  {
   "property": "C165",
   "status": "partial",
   "theorems": [
    "Insteon.write_list_reusable_partial",
    "Insteon.update_list_after_partial",
    "Insteon.update_list_kept_partial",
    "Insteon.list_reusable_refuted",
    "Insteon.add_list_reusable_partial",
    "Insteon.buffer_reusable_partial",
    "Insteon.buffer_calls_partial",
    "Insteon.buffer_second_send",
    "Insteon.buffer_reusable_refuted"
   ],
   "note": "false of the code: UpdateLinks moves links within the caller's list and leaves copies of the last one, and a buffer of 14 or more bytes keeps its checksum, so that the next one is zero (both refuted). Proved: what each call leaves in the list and buffer, for every outcome of WriteLinks and AddLinks and every successful UpdateLinks, and when nothing changes"
  },
  {
   "property": "C166",
   "status": "partial",
   "theorems": [
    "Insteon.link_logs_silent_partial",
    "Insteon.modem_text_quiet",
    "Insteon.modem_text_asks",
    "Insteon.force_link_modem_calls",
    "Insteon.unlink_modem_calls",
    "Insteon.link_logs_silent_refuted"
   ],
   "note": "false of the code: with formatted debug logs the modem is asked for its address before linking (refuted). Proved whenever showing the devices does nothing, which is so for all devices but a modem whose address is not known yet"
  },
  {
   "property": "C167",
   "status": "proved",
   "theorems": [
    "Insteon.interrupted_modem_rewrite",
    "Insteon.bearable_rewrite"
   ],
   "note": "all databases, lists of links the modem can tell apart and fates of the commands; the database was read before (C36 says why)"
  },
  {
   "property": "C168",
   "status": "partial",
   "theorems": [
    "Insteon.rewrite_again_refuted",
    "Insteon.rewrite_other_refuted",
    "Insteon.rewrite_stuck_partial",
    "Insteon.doubtful_link_partial",
    "Insteon.rewrite_after_reading_partial"
   ],
   "note": "false of the code: after one lost answer every further attempt is refused, or a link of the failed attempt stays (refuted). Proved: exactly when an attempt is stuck, what stays, and that reading the database first always helps"
  },
  {
   "property": "C169",
   "status": "partial",
   "theorems": [
    "Insteon.read_on_faulty_line_partial",
    "Insteon.read_on_faulty_line_refuted"
   ],
   "note": "false of the code: one refused get-next command ends the list without an error (refuted). Proved: an error with the links known before, or the first few records in order; all of them if no command is refused"
  },
  {
   "property": "C17",
   "status": "proved",
   "theorems": [
    "Insteon.link_wire_roundtrip",
    "Insteon.link_wire_roundtrip_valid",
    "Insteon.wire_link_roundtrip"
   ],
   "note": "all records and byte strings"
  },
  {
   "property": "C170",
   "status": "proved",
   "theorems": [
    "Insteon.rewrite_after_failures",
    "Insteon.rewrite_again",
    "Insteon.rewrite_in_the_end"
   ],
   "note": "all devices, lists and sequences of mishaps; lists of fewer than 512 links none of which looks like an end record"
  },
  {
   "property": "C171",
   "status": "proved",
   "theorems": [
    "Insteon.edit_on_faulty_line"
   ],
   "note": "all databases, editors and fates of the commands; the program starts without cached links, as ic does; the edited links and the records not shown can be told apart by the modem"
  },
  {
   "property": "C172",
   "status": "partial",
   "theorems": [
    "Insteon.device_edit_partial",
    "Insteon.device_edit_refuted",
    "Insteon.device_edit_unheard_refuted"
   ],
   "note": "false of the code: a removed line leaves its record in the device, and a record whose message was lost while reading is overwritten without an error (both refuted). Proved: when every record is heard, the edited links come first and are followed by the old records behind them, or there is an error and the first few are stored; unchanged memory without a change, with a mistake or with a failing editor"
  },
  {
   "property": "C173",
   "status": "partial",
   "theorems": [
    "Insteon.delay_spaced_partial",
    "Insteon.delay_read",
    "Insteon.delay_unread_refuted",
    "Insteon.delay_unused_refuted"
   ],
   "note": "false of the code: before anything was read the second message is held back for 292 years, and used as a packet writer it does not wait at all (both refuted; nothing in the program makes such a writer). Proved: once a packet was read, counted from the call"
  },
  {
   "property": "C174",
   "status": "partial",
   "theorems": [
    "Insteon.group_set_partial",
    "Insteon.group_set_error",
    "Insteon.group_set_roundtrip",
    "Insteon.group_set_refuted",
    "Insteon.group_set_file_refuted"
   ],
   "note": "false of the code: text after the number is ignored, so 12abc is group 12 (refuted), and +7, which a link file may contain, is refused (refuted). Proved: exactly which texts are accepted and as what, nothing changes on an error, round trip"
  },
  {
   "property": "C175",
   "status": "partial",
   "theorems": [
    "Insteon.print_keeps_partial",
    "Insteon.print_keeps_refuted"
   ],
   "note": "false of the code: the caller's list is sorted in place (refuted). Proved: it holds the same links in the order shown, and is unchanged if it was strictly in that order"
  },
  {
   "property": "C176",
   "status": "proved",
   "theorems": [
    "Insteon.packet_text",
    "Insteon.packet_name",
    "Insteon.request_text"
   ],
   "note": "all packets; requests with addresses of three bytes"
  },
  {
   "property": "C177",
   "status": "proved",
   "theorems": [
    "Insteon.reset_command",
    "Insteon.reset_confirmed"
   ],
   "note": "all modems; the question itself is asked by a library that is not part of the repository"
  },
  {
   "property": "C178",
   "status": "proved",
   "theorems": [
    "Insteon.new_links"
   ],
   "note": "all groups and three-byte addresses"
  },
  {
   "property": "C179",
   "status": "partial",
   "theorems": [
    "Insteon.refusal_reported_partial",
    "Insteon.refusal_reasons_partial",
    "Insteon.refusal_reason_refuted"
   ],
   "note": "false of the code: the table of reasons is used by tests only and every refusal is reported alike (refuted). Proved: a refused command is an error, always the same one, and the table is the documented one"
  },
  {
   "property": "C18",
   "status": "partial",
   "theorems": [
    "Insteon.link_equal_iff_partial",
    "Insteon.link_equal_ignores_data",
    "Insteon.link_equal_id",
    "Insteon.link_equal_equivalence",
    "Insteon.link_equal_availability_refuted",
    "Insteon.link_nil_id"
   ],
   "note": "the documented claim that availability is compared is false of the code (refuted). Proved: exact characterisation and equivalence"
  },
  {
   "property": "C180",
   "status": "proved",
   "theorems": [
    "Insteon.database_text",
    "Insteon.database_text_unique",
    "Insteon.saved_text"
   ],
   "note": "all texts, with JSON syntax as a separate grammar (Spec/Json.lean), which the reader of the model is proved to accept exactly; the reader itself models encoding/json, which is not part of the repository"
  },
  {
   "property": "C181",
   "status": "partial",
   "theorems": [
    "Insteon.store_returns_partial",
    "Insteon.store_returns_refuted"
   ],
   "note": "false of the code: a file that is just null is loaded without error and leaves a nil map, so that storing a device panics (refuted, for every such text and device). Proved: without such a text no history panics"
  },
  {
   "property": "C182",
   "status": "proved",
   "theorems": [
    "Insteon.runs_remember"
   ],
   "note": "all histories of runs; the calls of a run are those it makes before it ends, the file system works, addresses have three bytes"
  },
  {
   "property": "C183",
   "status": "proved",
   "theorems": [
    "Insteon.damaged_file"
   ],
   "note": "all files that are not databases (as specified for C180) and all histories of runs"
  },
  {
   "property": "C184",
   "status": "partial",
   "theorems": [
    "Insteon.first_use_partial",
    "Insteon.first_use_refuted"
   ],
   "note": "false of the code: a missing file is an error at start, and no program creates the file (refuted for all histories of runs). Proved: an empty object made by hand is enough"
  },
  {
   "property": "C185",
   "status": "partial",
   "theorems": [
    "Insteon.together_partial",
    "Insteon.together_refuted"
   ],
   "note": "false of the code: each program writes only what it knows itself, so what the other one learnt is lost (refuted). Proved: for all interleavings of calls the file stays a database and says what one of the two knows. Calls are atomic; for a write cut short see C70"
  },
  {
   "property": "C186",
   "status": "partial",
   "theorems": [
    "Insteon.kills_partial",
    "Insteon.kills_refuted"
   ],
   "note": "false of the code: the file is truncated before it is written, and with a torn file no program starts any more (refuted). Proved: for all histories of runs ended or killed at any point, every run knows what the one before knew before or after the call it was killed in, until a torn file stops all of them; no program ever reads anything else"
  },
  {
   "property": "C187",
   "status": "partial",
   "theorems": [
    "Insteon.port_failure_partial",
    "Insteon.port_failure_cut_partial",
    "Insteon.port_failure_swallowed",
    "Insteon.port_failure_spins",
    "Insteon.port_failure_refuted"
   ],
   "note": "false of the code: an error just after a start byte is overwritten by that of UnreadByte: a passing error is swallowed and with a lasting one the loop never ends (refuted). Proved: everywhere else, for all packets, noise, points of failure and errors"
  },
  {
   "property": "C188",
   "status": "proved",
   "theorems": [
    "Insteon.temperature_shown",
    "Insteon.temperature_distinct",
    "Insteon.nearest_tenths"
   ],
   "note": "all data sets, both units; float32 rounding modelled"
  },
  {
   "property": "C189",
   "status": "proved",
   "theorems": [
    "Insteon.open_serial",
    "Insteon.open_serial_unlinked"
   ],
   "note": "all traffic, noise and refusals up to the retry count; messages must be read before a timeout and before more than ten pile up, which is the code's buffer"
  },
  {
   "property": "C19",
   "status": "proved",
   "theorems": [
    "Insteon.link_text_roundtrip",
    "Insteon.link_text_roundtrip_recv",
    "Insteon.link_text_roundtrip_exact"
   ],
   "note": "all link records"
  },
  {
   "property": "C190",
   "status": "partial",
   "theorems": [
    "Insteon.IsnoopF.isnoop_failures_partial",
    "Insteon.IsnoopF.isnoop_failing_host_ends",
    "Insteon.IsnoopF.isnoop_port_failure_refuted",
    "Insteon.IsnoopF.isnoop_write_failure_refuted"
   ],
   "note": "false of the code: the results of io.Copy are dropped, so a failing port goes unnoticed (refuted) and a failing write ends the program without a word (refuted). Proved: for all schedules and points of failure, what is passed on is the beginning of what went in and what is printed is the messages seen"
  },
  {
   "property": "C191",
   "status": "partial",
   "theorems": [
    "Insteon.linking_mode_time",
    "Insteon.linking_unhurried_partial",
    "Insteon.linking_unhurried_refuted",
    "Insteon.linking_mode_untimed"
   ],
   "note": "false of the code if the modem is the controller: it does not wait (refuted). Proved for two devices: all answers, durations and outcomes"
  },
  {
   "property": "C192",
   "status": "proved",
   "theorems": [
    "Insteon.message_named",
    "Insteon.documented_shown"
   ],
   "note": "all messages; the specification is the table of COMMANDS.md and the fourteen convenience commands"
  },
  {
   "property": "C193",
   "status": "partial",
   "theorems": [
    "Insteon.calls_return_partial",
    "Insteon.calls_crash_refuted"
   ],
   "note": "false of the code: reading links crashes if meanwhile any device asks the modem for its links (nil link dereferenced), WriteLink with a negative index crashes, and UpdateLinks crashes after WriteLink has cut the list short, the index being out of date (all refuted with concrete lines). Proved for everything else: all lines, all sequences of all calls"
  },
  {
   "property": "C194",
   "status": "partial",
   "theorems": [
    "Insteon.read_ends_partial",
    "Insteon.await_ends_partial",
    "Insteon.download_ends_partial",
    "Insteon.download_ends_refuted"
   ],
   "note": "false of the code: every message of any device starts the timer again (refuted: a download with no bound). Proved: the wait ends at the latest one timeout after the line has fallen silent"
  },
  {
   "property": "C195",
   "status": "proved",
   "theorems": [
    "Insteon.modem_calls_return",
    "Insteon.mixed_calls_return"
   ],
   "note": "all lines, all sequences of calls on the modem; mixed with calls on devices under the exceptions named at C193, which concern the calls on devices only"
  },
  {
   "property": "C196",
   "status": "partial",
   "theorems": [
    "Insteon.walk_ends_partial",
    "Insteon.walk_crash_refuted"
   ],
   "note": "false of the code: the walk crashes if meanwhile any device asks the modem for its links, and with a database file that contains null (both refuted with concrete lines). Proved for everything else; the pause of 100 ms between devices is not modelled"
  },
  {
   "property": "C197",
   "status": "partial",
   "theorems": [
    "Insteon.ic_ends_partial",
    "Insteon.ic_asked_ends_partial",
    "Insteon.ic_crash_refuted"
   ],
   "note": "false of the code: `ic switch on`, `off`, `backlight` and `loadsense` always crash (C141), and the commands that read links crash if meanwhile any device asks the modem for its links (refuted with a concrete line), or with a database file that contains null (C196). Proved for everything else, also when the user is asked and has the device linked first"
  },
  {
   "property": "C198",
   "status": "partial",
   "theorems": [
    "Insteon.failure_reported_partial",
    "Insteon.success_means_success",
    "Insteon.failure_renamed_refuted",
    "Insteon.report_run"
   ],
   "note": "false of the code: when appending a link fails, UpdateLinks goes on with the next one and reports that its index is out of range instead of the failure (refuted). Proved for all calls: nothing is exchanged after the first failure, and a failure is never reported as success; and for all but UpdateLinks with several links, that the error reported is the failure"
  },
  {
   "property": "C199",
   "status": "proved",
   "theorems": [
    "Insteon.call_traffic"
   ],
   "note": "all calls, all message writers; that the vocabulary of a call is the documented one is by the Insteon command tables as in C90 and C91; whether raising the temperature sends 68 or 69 is C94"
  },
  {
   "property": "C20",
   "status": "proved",
   "theorems": [
    "Insteon.link_file_parse",
    "Insteon.links_text_roundtrip",
    "Insteon.links_text_roundtrip_exact"
   ],
   "note": "all lists, both heading settings, any blank and comment lines"
  },
  {
   "property": "C200",
   "status": "partial",
   "theorems": [
    "Insteon.line_link",
    "Insteon.line_unlink",
    "Insteon.linked_network",
    "Insteon.unlinked_network",
    "Insteon.crosslink_partial",
    "Insteon.next_call",
    "Insteon.crosslink_refuted",
    "Insteon.next_call_refuted",
    "Insteon.next_message_refuted"
   ],
   "note": "linking and unlinking succeed and make exactly the links for all parties, groups and databases (line_link, line_unlink, linked_network, unlinked_network); in step afterwards if the modem does not report or is not concerned (line_link), and then crosslinking works (crosslink_partial) and calls get their answers (next_call); false with a modem that reports (crosslink_refuted, next_call_refuted, next_message_refuted: for every device, group and database). The pauses are C191; calls that fail on the way are C80 and C99"
  },
  {
   "property": "C201",
   "status": "partial",
   "theorems": [
    "Insteon.plm_ends_partial",
    "Insteon.plm_crash_refuted"
   ],
   "note": "all commands of ic plm; false of the code if the database file contains null (plm_crash_refuted). The line stays open: reading from a line that is closed is C33"
  },
  {
   "property": "C202",
   "status": "partial",
   "theorems": [
    "Insteon.ic_failure_partial",
    "Insteon.ic_success_partial",
    "Insteon.dimmer_config_status_refuted",
    "Insteon.edit_renamed_refuted"
   ],
   "note": "false of the code for ic dimmer config (dimmer_config_status_refuted) and, as to which error is reported, for ic device edit (edit_renamed_refuted); proved for all other commands and all message writers. The four commands of ic switch that crash are C141; the user declines to link a device that is not linked (C140)"
  },
  {
   "property": "C203",
   "status": "proved",
   "theorems": [
    "Insteon.device_calls_shared"
   ],
   "note": "all calls on devices, all teams of goroutines and schedules; the answers a goroutine gets can still belong to another call on the same device, see C150"
  },
  {
   "property": "C204",
   "status": "proved",
   "theorems": [
    "Insteon.calls_same_answers",
    "Insteon.calls_crash"
   ],
   "note": ""
  },
  {
   "property": "C205",
   "status": "proved",
   "theorems": [
    "Insteon.line_transparent",
    "Insteon.line_start",
    "Insteon.line_calls"
   ],
   "note": "the bytes arrive when the host looks for them; bytes that arrive while the program does something else are in Network only as messages before the next answer; a line that closes is C33"
  },
  {
   "property": "C206",
   "status": "partial",
   "theorems": [
    "Insteon.modem_failure_partial",
    "Insteon.address_failure_refuted"
   ],
   "note": "false for the address and the text of the modem, which drop the error: refuted. The theorem is for errors other than the three values the library uses itself for a refusal, a time out and a wrong payload"
  },
  {
   "property": "C207",
   "status": "proved",
   "theorems": [
    "Insteon.modem_writes",
    "Insteon.links_requests"
   ],
   "note": "the number of requests for further links is bounded when reading the links succeeds, by the number of links returned"
  },
  {
   "property": "C208",
   "status": "proved",
   "theorems": [
    "Insteon.ic_same_answers",
    "Insteon.ic_over_line"
   ],
   "note": "the commands of ic for the modem are C194 and C206; as in C205 the bytes arrive when the host looks for them"
  },
  {
   "property": "C209",
   "status": "proved",
   "theorems": [
    "Insteon.modem_calls_shared"
   ],
   "note": "a call is over or has done what it does with fewer than `fuel` steps of the run; the links kept from the last reading are an argument of the call, not shared between the goroutines (C210's refutation is one where both have looked at them before either changes them)"
  },
  {
   "property": "C21",
   "status": "partial",
   "theorems": [
    "Insteon.link_line_partial",
    "Insteon.link_file_partial",
    "Insteon.link_file_error_partial",
    "Insteon.link_text_accepts_partial",
    "Insteon.link_text_malformed_refuted",
    "Insteon.link_string_reparse_loses_data"
   ],
   "note": "false of the code: 0x1c is read as 0 (refuted). Proved: exactly when a line is accepted and as which record, with Unicode white space; exactly which files are read and as what, and what is returned for the others"
  },
  {
   "property": "C210",
   "status": "partial",
   "theorems": [
    "Insteon.concurrent_rewrites_refuted",
    "Insteon.concurrent_links_partial"
   ],
   "note": "false: WriteLinks holds no lock, so two of them on an empty modem both succeed and leave the links of both: refuted. What holds: no record is made up or mixed from several, each was there before or was given to one of the calls"
  },
  {
   "property": "C211",
   "status": "partial",
   "theorems": [
    "Insteon.error_text_refuted",
    "Insteon.error_text_partial"
   ],
   "note": "false of the code: insteon.ErrReadTimeout and devices.ErrReadTimeout are different errors with the same text (refuted; telling them apart by identity is what breaks the retry filter, C51). Proved for all other pairs. Texts with numbers (C212) and texts of the system are left out"
  },
  {
   "property": "C212",
   "status": "partial",
   "theorems": [
    "Insteon.length_error_refuted",
    "Insteon.length_error_partial",
    "Insteon.length_text_reads"
   ],
   "note": "false of the code for requests about links: the text asks for six bytes where five are enough, and for a cut-off record counts only the bytes of the record (refuted). Proved: all others, with messages cut off before their flags as far as their kind is known; and for records in requests what is missing. The decoders of switch and dimmer configurations give no numbers"
  },
  {
   "property": "C213",
   "status": "proved",
   "theorems": [
    "Insteon.links_output",
    "Insteon.device_links_output"
   ],
   "note": "text/template is modelled by the pieces it writes for these templates; the lines ic prints itself with fmt.Printf are not covered, its errors being dropped there"
  },
  {
   "property": "C214",
   "status": "partial",
   "theorems": [
    "Insteon.generated_constants",
    "Insteon.generated_names_partial",
    "Insteon.generated_rows_partial",
    "Insteon.generated_names_refuted",
    "Insteon.generated_here"
   ],
   "note": "false of the code: the templates are html/template, so that a name with an ampersand, a plus or the like comes out escaped (refuted). Proved: the constants always, names and rows where no text has such a character, as is the case in the table of the project; format.Source is not modelled"
  },
  {
   "property": "C215",
   "status": "partial",
   "theorems": [
    "Insteon.devcats_names_partial",
    "Insteon.devcats_stops",
    "Insteon.devcats_once",
    "Insteon.devcats_constants",
    "Insteon.devcats_constants_once",
    "Insteon.devcats_names_refuted",
    "Insteon.devcats_here"
   ],
   "note": "false of the code: the template is html/template, so that a name with an ampersand or the like comes out escaped (refuted). Proved: everything else, and the names where no text has such a character, as is the case in the table of the project; format.Source is not modelled; numbers in other forms than 0x and digits are in C217, the theorems here hold whatever they are read as"
  },
  {
   "property": "C216",
   "status": "proved",
   "theorems": [
    "Insteon.Csv.csv_reads",
    "Insteon.Csv.csv_uneven",
    "Insteon.Csv.csv_ends",
    "Insteon.devcats_file_reads",
    "Insteon.devcats_from_file"
   ],
   "note": "rows of at least two fields; a carriage return within quotes, where encoding/csv itself drops it, is left out of the specification"
  },
  {
   "property": "C217",
   "status": "proved",
   "theorems": [
    "Insteon.Num.number_read",
    "Insteon.Num.number_read_here",
    "Insteon.DevCats.devcats_made"
   ],
   "note": "the domains of the generator are a table with numbers below 2^63, as those of the project are"
  },
  {
   "property": "C22",
   "status": "proved",
   "theorems": [
    "Insteon.group_text_accepts",
    "Insteon.group_text_rejects",
    "Insteon.group_text_roundtrip"
   ],
   "note": "all byte strings and groups"
  },
  {
   "property": "C23",
   "status": "proved",
   "theorems": [
    "Insteon.modem_echo_decode",
    "Insteon.modem_echo_lengths"
   ],
   "note": "all host commands, payloads and status bytes; lengths from the specification's table"
  },
  {
   "property": "C24",
   "status": "proved",
   "theorems": [
    "Insteon.stream_framing"
   ],
   "note": "all packet sequences, all quiet noise strings, any tail"
  },
  {
   "property": "C25",
   "status": "proved",
   "theorems": [
    "Insteon.reader_safe"
   ],
   "note": "all byte streams, both reader modes"
  },
  {
   "property": "C26",
   "status": "partial",
   "theorems": [
    "Insteon.reader_terminates_partial",
    "Insteon.reader_eof_partial",
    "Insteon.reader_terminates_refuted"
   ],
   "note": "false of the code: a stream ending in a lone start byte loops forever (refuted). Proved: every stream not ending in a start byte ends after finitely many steps"
  },
  {
   "property": "C27",
   "status": "partial",
   "theorems": [
    "Insteon.snoop_framing_partial",
    "Insteon.snoop_misframed",
    "Insteon.snoop_framing_refuted"
   ],
   "note": "false of the code: host commands outside 0x61-0x64 are read one byte too long (refuted). Proved: exact framing for commands 0x61-0x64 and what happens for the others"
  },
  {
   "property": "C28",
   "status": "proved",
   "theorems": [
    "Insteon.routing_order",
    "Insteon.routing_drops"
   ],
   "note": "all event sequences"
  },
  {
   "property": "C29",
   "status": "proved",
   "theorems": [
    "Insteon.writePacket_success",
    "Insteon.writePacket_nak",
    "Insteon.writePacket_no_panic",
    "Insteon.writePacket_echo"
   ],
   "note": "all packets, all modem behaviours"
  },
  {
   "property": "C30",
   "status": "proved",
   "theorems": [
    "Insteon.retry_bounded",
    "Insteon.retry_negative"
   ],
   "note": "all retry counts, all writers"
  },
  {
   "property": "C31",
   "status": "partial",
   "theorems": [
    "Insteon.modem_timeout_single_attempt",
    "Insteon.modem_timeout_retried_refuted",
    "Insteon.plain_timeout_retried_partial"
   ],
   "note": "false of the code: the modem timeout is wrapped and compared by identity (refuted). Proved: a bare timeout error is retried"
  },
  {
   "property": "C32",
   "status": "proved",
   "theorems": [
    "Insteon.plm_write_ack_source",
    "Insteon.plm_write_answer",
    "Insteon.plm_write_modem_error"
   ],
   "note": "all messages, all receive histories"
  },
  {
   "property": "C33",
   "status": "partial",
   "theorems": [
    "Insteon.closed_port_partial",
    "Insteon.closed_port_error_refuted"
   ],
   "note": "false of the code: reading or writing on a closed port panics on a nil packet once the buffered packets are used up (refuted). Proved: exactly what read and write return"
  },
  {
   "property": "C34",
   "status": "proved",
   "theorems": [
    "Insteon.config_switches",
    "Insteon.config_wire",
    "Insteon.config_text",
    "Insteon.config_short"
   ],
   "note": "all configuration bytes"
  },
  {
   "property": "C35",
   "status": "proved",
   "theorems": [
    "Insteon.modem_links_complete",
    "Insteon.modem_links_errors"
   ],
   "note": "all databases, chatter and retry counts; any modem for the error half"
  },
  {
   "property": "C36",
   "status": "partial",
   "theorems": [
    "Insteon.modem_rewrite_partial",
    "Insteon.modem_read_rewrite_read_partial",
    "Insteon.modem_rewrite_cache",
    "Insteon.modem_rewrite_refuted"
   ],
   "note": "false of the code when the database was not read first (refuted). Proved: after reading it, for all databases and all lists of links the modem can tell apart"
  },
  {
   "property": "C37",
   "status": "partial",
   "theorems": [
    "Insteon.corrupted_write_recovery_partial",
    "Insteon.corrupted_write_recovery_refuted"
   ],
   "note": "false of the code: the echoed record is decoded one byte off (refuted). Proved: exactly which delete is sent"
  },
  {
   "property": "C38",
   "status": "proved",
   "theorems": [
    "Insteon.iterate_devices"
   ],
   "note": "all databases"
  },
  {
   "property": "C39",
   "status": "proved",
   "theorems": [
    "Insteon.device_write_framing",
    "Insteon.prepare_standard",
    "Insteon.prepare_extended",
    "Insteon.prepare_i2cs"
   ],
   "note": "all messages, engine versions and link layers"
  },
  {
   "property": "C40",
   "status": "partial",
   "theorems": [
    "Insteon.device_max_hops_partial",
    "Insteon.device_max_hops_refuted"
   ],
   "note": "false of the code: the maximum is or-ed into the flags (refuted). Proved: exactly the flags sent"
  },
  {
   "property": "C41",
   "status": "partial",
   "theorems": [
    "Insteon.i2cs_checksum_partial",
    "Insteon.i2cs_short_checksum_partial",
    "Insteon.i2cs_checksum_refuted"
   ],
   "note": "false of the code for payloads whose last byte is not zero (refuted). Proved: all others, and shorter payloads"
  },
  {
   "property": "C42",
   "status": "proved",
   "theorems": [
    "Insteon.read_first_match",
    "Insteon.read_first_match_stream",
    "Insteon.devRead_mono"
   ],
   "note": "all receive histories and matchers"
  },
  {
   "property": "C43",
   "status": "proved",
   "theorems": [
    "Insteon.engine_version",
    "Insteon.engine_version_sound"
   ],
   "note": "all devices and answers"
  },
  {
   "property": "C44",
   "status": "partial",
   "theorems": [
    "Insteon.id_request_partial",
    "Insteon.id_request_refuted",
    "Insteon.id_request_own_partial"
   ],
   "note": "false of the code: a broadcast of another device is taken as the answer (refuted). Proved: which message is taken, and correct when only the device itself broadcasts"
  },
  {
   "property": "C45",
   "status": "proved",
   "theorems": [
    "Insteon.open_device",
    "Insteon.filters_order"
   ],
   "note": "all devices, link layers and filter lists"
  },
  {
   "property": "C46",
   "status": "proved",
   "theorems": [
    "Insteon.cache_lookup",
    "Insteon.cache_zero_panics"
   ],
   "note": "all capacities above 0, histories and predicates"
  },
  {
   "property": "C47",
   "status": "proved",
   "theorems": [
    "Insteon.duplicate_filter",
    "Insteon.dedupRead_spec",
    "Insteon.duplicate_filter_order"
   ],
   "note": "all incoming sequences and interleavings of reads and writes"
  },
  {
   "property": "C48",
   "status": "partial",
   "theorems": [
    "Insteon.second_press_delivered_partial",
    "Insteon.second_press_delivered_refuted"
   ],
   "note": "false of the code: the second press is swallowed (refuted). Proved: delivered once no duplicate is among the last nine messages"
  },
  {
   "property": "C49",
   "status": "proved",
   "theorems": [
    "Insteon.ttl_filter"
   ],
   "note": "all messages and TTL values"
  },
  {
   "property": "C50",
   "status": "proved",
   "theorems": [
    "Insteon.retry_filter"
   ],
   "note": "all try counts and writers"
  },
  {
   "property": "C51",
   "status": "partial",
   "theorems": [
    "Insteon.retry_filter_plm_partial",
    "Insteon.retry_filter_plm_refuted"
   ],
   "note": "false of the code: the modem's timeouts are other errors (refuted). Proved: a write through the filter over a modem is exactly one write"
  },
  {
   "property": "C52",
   "status": "proved",
   "theorems": [
    "Insteon.matcher_algebra",
    "Insteon.matcher_basic"
   ],
   "note": "all matchers and messages"
  },
  {
   "property": "C53",
   "status": "proved",
   "theorems": [
    "Insteon.read_request_roundtrip",
    "Insteon.link_request_roundtrip",
    "Insteon.link_request_accepts"
   ],
   "note": "all requests and all byte strings"
  },
  {
   "property": "C54",
   "status": "proved",
   "theorems": [
    "Insteon.device_links_complete",
    "Insteon.device_links_cached",
    "Insteon.fresh_read"
   ],
   "note": "all databases, retransmission patterns and unrelated messages"
  },
  {
   "property": "C55",
   "status": "partial",
   "theorems": [
    "Insteon.write_link_slot_partial",
    "Insteon.write_link_range",
    "Insteon.slots_disjoint",
    "Insteon.slots_in_memory",
    "Insteon.write_link_slot_refuted",
    "Insteon.write_link_negative"
   ],
   "note": "false of the code from index 8192 on, where the 16-bit address wraps (refuted); a negative index panics or writes above the database. Proved: indexes below 8192"
  },
  {
   "property": "C56",
   "status": "partial",
   "theorems": [
    "Insteon.cache_coherence_partial",
    "Insteon.cache_coherence_seq_partial",
    "Insteon.cache_coherence_refuted",
    "Insteon.agrees_iff",
    "Insteon.fresh_read"
   ],
   "note": "false of the code: a record appended over old memory is cached alone (refuted). Proved: sequences of in-place writes, end records and appends before an end record"
  },
  {
   "property": "C57",
   "status": "partial",
   "theorems": [
    "Insteon.write_links_partial",
    "Insteon.write_links_refuted",
    "Insteon.writeLinks_dev"
   ],
   "note": "false of the code when fewer links are written than cached (refuted). Proved: for lists at least as long as the cached one"
  },
  {
   "property": "C58",
   "status": "proved",
   "theorems": [
    "Insteon.interrupted_rewrite"
   ],
   "note": "all failure points and fates of writes"
  },
  {
   "property": "C59",
   "status": "partial",
   "theorems": [
    "Insteon.update_links_partial",
    "Insteon.update_links_all_partial",
    "Insteon.update_flags_slot_zero",
    "Insteon.update_links_refuted",
    "Insteon.fill_in_use",
    "Insteon.fill_adds"
   ],
   "note": "false of the code: changed flags are written to the wrong slot (refuted; update_flags_slot_zero says which). Proved: the whole property when no known link's flags change; and for all lists which in-use records survive (update_links_all_partial)"
  },
  {
   "property": "C60",
   "status": "partial",
   "theorems": [
    "Insteon.add_links_partial",
    "Insteon.add_links_refuted"
   ],
   "note": "false of the code: links are skipped for each record passed (refuted). Proved: exactly which slots change, for all databases and lists"
  },
  {
   "property": "C61",
   "status": "proved",
   "theorems": [
    "Insteon.set_mode_valid",
    "Insteon.set_mode_invalid",
    "Insteon.modes_distinct",
    "Insteon.mode_valid_iff",
    "Insteon.set_fan_speed",
    "Insteon.set_temp_unit",
    "Insteon.set_status_message"
   ],
   "note": "all modes, fan speeds and units"
  },
  {
   "property": "C62",
   "status": "partial",
   "theorems": [
    "Insteon.temperature_commands_partial",
    "Insteon.temperature_roundtrip_partial",
    "Insteon.temperature_roundtrip_refuted"
   ],
   "note": "false of the code from 128 degrees on, where the doubled value wraps (refuted). Proved: the commands for all values, and recovery of 0 to 127"
  },
  {
   "property": "C63",
   "status": "partial",
   "theorems": [
    "Insteon.thermostat_flags_partial",
    "Insteon.thermostat_flags_refuted"
   ],
   "note": "false of the code for the time format (refuted). Proved: the other flags, for all bytes"
  },
  {
   "property": "C64",
   "status": "proved",
   "theorems": [
    "Insteon.ramp_commands",
    "Insteon.ramp_recover",
    "Insteon.ramp_nibbles"
   ],
   "note": "all levels and ramps"
  },
  {
   "property": "C65",
   "status": "proved",
   "theorems": [
    "Insteon.switch_config_roundtrip",
    "Insteon.dimmer_config_roundtrip",
    "Insteon.light_config_short",
    "Insteon.config_fields"
   ],
   "note": "all configurations and byte strings"
  },
  {
   "property": "C66",
   "status": "partial",
   "theorems": [
    "Insteon.product_data_roundtrip_partial",
    "Insteon.product_data_roundtrip_refuted"
   ],
   "note": "false of the code: seven bytes are written, fourteen wanted (refuted). Proved: with padding"
  },
  {
   "property": "C67",
   "status": "partial",
   "theorems": [
    "Insteon.database_map_partial",
    "Insteon.database_sequence_partial",
    "Insteon.database_map_refuted"
   ],
   "note": "false of the code for the info that is all zero, which is not stored (refuted). Proved: for every other info and database, if the call returns (when it does not: C181)"
  },
  {
   "property": "C68",
   "status": "partial",
   "theorems": [
    "Insteon.clean_is_saved_partial",
    "Insteon.clean_is_saved_refuted",
    "Insteon.change_needs_saving"
   ],
   "note": "false of the code: a failed load empties a clean database (refuted). Proved: all histories without failed loads"
  },
  {
   "property": "C69",
   "status": "proved",
   "theorems": [
    "Insteon.save_load",
    "Insteon.save_deterministic",
    "Insteon.save_load_refuted"
   ],
   "note": "all histories; byte level for what Save writes. Addresses beyond three bytes are cut by the text form (save_load_refuted)"
  },
  {
   "property": "C70",
   "status": "partial",
   "theorems": [
    "Insteon.crash_save_partial",
    "Insteon.crash_save_refuted",
    "Insteon.failed_save_states"
   ],
   "note": "false of the code: the file is truncated first (refuted). Proved: a torn file is always detected when it is loaded"
  },
  {
   "property": "C71",
   "status": "partial",
   "theorems": [
    "Insteon.open_known",
    "Insteon.open_unknown_partial",
    "Insteon.open_unknown_refuted"
   ],
   "note": "false of the code for the all-zero info of address 0, which is not stored (refuted, see C67). Proved: all other databases, filters and link layers"
  },
  {
   "property": "C72",
   "status": "partial",
   "theorems": [
    "Insteon.database_filters_partial",
    "Insteon.database_filters_refuted"
   ],
   "note": "false of the code for known devices and for file databases (refuted, for all filters). Proved: memory database, unknown device"
  },
  {
   "property": "C73",
   "status": "proved",
   "theorems": [
    "Insteon.database_filter"
   ],
   "note": "all histories and domains"
  },
  {
   "property": "C74",
   "status": "proved",
   "theorems": [
    "Insteon.find_link_record"
   ],
   "note": "all databases, keys and devices"
  },
  {
   "property": "C75",
   "status": "proved",
   "theorems": [
    "Insteon.find_duplicates",
    "Insteon.find_duplicates_count"
   ],
   "note": "all lists and relations"
  },
  {
   "property": "C76",
   "status": "proved",
   "theorems": [
    "Insteon.anonymize_links",
    "Insteon.anonymize_distinct"
   ],
   "note": "all lists, replacements and random sources"
  },
  {
   "property": "C77",
   "status": "proved",
   "theorems": [
    "Insteon.missing_crosslinks_sound"
   ],
   "note": "all lists and addresses"
  },
  {
   "property": "C78",
   "status": "partial",
   "theorems": [
    "Insteon.missing_crosslinks_partial",
    "Insteon.missing_crosslinks_complete_partial",
    "Insteon.missing_crosslinks_complete_refuted",
    "Insteon.missing_crosslinks_deleted_refuted"
   ],
   "note": "false of the code: only the first in-use record of each address is examined and deleted records count as counterparts (both refuted). Proved: exactly what is reported, and completeness when each address has one record"
  },
  {
   "property": "C79",
   "status": "partial",
   "theorems": [
    "Insteon.remove_links_unreadable",
    "Insteon.remove_links_write_partial",
    "Insteon.remove_links_update",
    "Insteon.remove_links_others",
    "Insteon.remove_links_exact",
    "Insteon.remove_links_refuted",
    "Insteon.remove_links_network_refuted"
   ],
   "note": "false of the code: on devices with WriteLink the error of a failed write is dropped (refuted). Proved: the calls made, and on a network that nothing else changes whatever fails, and that exactly the listed records are freed when nothing fails"
  },
  {
   "property": "C80",
   "status": "proved",
   "theorems": [
    "Insteon.force_link_session",
    "Insteon.unlink_session"
   ],
   "note": "all outcomes of all calls"
  },
  {
   "property": "C81",
   "status": "proved",
   "theorems": [
    "Insteon.link_both",
    "Insteon.link_neither",
    "Insteon.link_stale_controller",
    "Insteon.link_stale_responder",
    "Insteon.link_unreadable",
    "Insteon.link_one_session",
    "Insteon.already_linked_not_reported",
    "Insteon.force_link_net",
    "Insteon.link_network",
    "Insteon.link_keeps",
    "Insteon.link_again"
   ],
   "note": "devices that answer anything, and networks with lost and unconfirmed calls"
  },
  {
   "property": "C82",
   "status": "proved",
   "theorems": [
    "Insteon.cross_link_all_order",
    "Insteon.cross_link_order",
    "Insteon.pairs_all",
    "Insteon.cross_link_network",
    "Insteon.cross_link_all_network"
   ],
   "note": "all device lists, all call outcomes"
  },
  {
   "property": "C83",
   "status": "partial",
   "theorems": [
    "Insteon.unlink_all_sessions_partial",
    "Insteon.unlink_all_error_partial",
    "Insteon.unlink_all_error_refuted",
    "Insteon.unlink_all_network"
   ],
   "note": "false of the code: the error of the last session replaces earlier ones (refuted). Proved: which sessions run, that the last error is the one reported, and on a network without failures that no link is left"
  },
  {
   "property": "C84",
   "status": "proved",
   "theorems": [
    "Insteon.link_sort_order",
    "Insteon.link_sort_strict"
   ],
   "note": "all records with 24-bit addresses"
  },
  {
   "property": "C85",
   "status": "partial",
   "theorems": [
    "Insteon.propagationDelay_partial",
    "Insteon.propagationDelay_mono_partial",
    "Insteon.propagationDelay_mono_refuted"
   ],
   "note": "false at 255 hops (8-bit wrap, refuted); proved below 255"
  },
  {
   "property": "C86",
   "status": "partial",
   "theorems": [
    "Insteon.i2cs_resend_partial",
    "Insteon.i2cs_attempts_partial",
    "Insteon.i2cs_resend_refuted"
   ],
   "note": "false of the code: the checksum of the first attempt is summed in (refuted). Proved, for any number of attempts: which of them carry a right checksum, namely every second one"
  },
  {
   "property": "C87",
   "status": "partial",
   "theorems": [
    "Insteon.device_links_source_partial",
    "Insteon.device_links_source_refuted"
   ],
   "note": "false of the code: the sender is not checked (refuted). Proved: every record returned was received in a database message, so it is correct if only this device sends such messages"
  },
  {
   "property": "C88",
   "status": "partial",
   "theorems": [
    "Insteon.device_links_again_partial",
    "Insteon.device_links_again_refuted"
   ],
   "note": "false of the code: a second copy of the end record ends the next download (refuted). Proved: if nothing is left over"
  },
  {
   "property": "C89",
   "status": "partial",
   "theorems": [
    "Insteon.update_links_again_partial",
    "Insteon.update_links_again_refuted"
   ],
   "note": "false of the code: the index misses added links (refuted). Proved: links known to the index, with equal flags, cause no traffic"
  },
  {
   "property": "C90",
   "status": "proved",
   "theorems": [
    "Insteon.lighting_commands"
   ],
   "note": "all levels, link layers and states"
  },
  {
   "property": "C91",
   "status": "proved",
   "theorems": [
    "Insteon.single_queries",
    "Insteon.operating_flags_queries",
    "Insteon.zone_info_queries"
   ],
   "note": "all link layers and answers"
  },
  {
   "property": "C92",
   "status": "partial",
   "theorems": [
    "Insteon.config_source_partial",
    "Insteon.config_source_refuted"
   ],
   "note": "false of the code: the sender is not checked (refuted). Proved: the answer is decoded from a received message with the expected command"
  },
  {
   "property": "C93",
   "status": "proved",
   "theorems": [
    "Insteon.thermostat_info_decode",
    "Insteon.thermostat_info_rejects"
   ],
   "note": "all byte strings; the temperature is a float32, within 1/500 of the exact one"
  },
  {
   "property": "C94",
   "status": "partial",
   "theorems": [
    "Insteon.temperature_direction_refuted",
    "Insteon.temperature_commands_partial"
   ],
   "note": "false of the code: the two methods use opposite commands (refuted). Proved: which command each one sends"
  },
  {
   "property": "C95",
   "status": "partial",
   "theorems": [
    "Insteon.setpoint_zone_refuted",
    "Insteon.setpoint_zone_partial"
   ],
   "note": "false of the code for SetCoolSetpoint and SetHeatSetpoint (refuted). Proved for the zone methods"
  },
  {
   "property": "C96",
   "status": "partial",
   "theorems": [
    "Insteon.failed_load_partial",
    "Insteon.failed_load_refuted"
   ],
   "note": "false of the code: the content is dropped before the text is parsed (refuted for every malformed text). Proved: a reader that fails changes nothing"
  },
  {
   "property": "C97",
   "status": "partial",
   "theorems": [
    "Insteon.missing_file_partial",
    "Insteon.missing_file_refuted"
   ],
   "note": "false of the code: a missing file is an error (refuted). Proved: the database returned with it works and creates the file"
  },
  {
   "property": "C98",
   "status": "proved",
   "theorems": [
    "Insteon.file_follows"
   ],
   "note": "all sequences of calls and failures of the file, addresses of three bytes"
  },
  {
   "property": "C99",
   "status": "partial",
   "theorems": [
    "Insteon.force_link_leaves_partial",
    "Insteon.unlink_leaves_partial",
    "Insteon.force_link_leaves_refuted"
   ],
   "note": "false of the code: a controller whose confirmation is lost stays in linking mode and is not told to leave it (refuted). Proved for any calls lost or unconfirmed: exactly when a device is left in linking mode, and that it is the controller"
  }
 ]
}