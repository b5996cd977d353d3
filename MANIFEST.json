{
 "claims": [
  {
   "property": "C01",
   "status": "proved",
   "theorems": [
    "Verif.Props.header_faithful",
    "Verif.Props.header_every_input",
    "Verif.Props.header_json"
   ],
   "note": "Round trip of every header field through every accessor and through get_json."
  },
  {
   "property": "C02",
   "status": "proved",
   "theorems": [
    "Verif.Props.constructor_outcome",
    "Verif.Props.layout_isSome",
    "Verif.Props.cut_unique"
   ],
   "note": "the outcome is given exactly, in terms of the section layout and the cut of the extra data"
  },
  {
   "property": "C03",
   "status": "proved",
   "theorems": [
    "Verif.Props.link_flags_exact",
    "Verif.Props.link_flags_mem",
    "Verif.Props.set_bits_sublist",
    "Verif.Props.link_flags_nodup",
    "Verif.Props.link_flags_eq_iff"
   ],
   "note": ""
  },
  {
   "property": "C04",
   "status": "proved",
   "theorems": [
    "Verif.Props.file_flags_exact",
    "Verif.Props.file_flags_mem",
    "Verif.Props.set_bits_sublist",
    "Verif.Props.file_flags_eq_iff"
   ],
   "note": ""
  },
  {
   "property": "C05",
   "status": "proved",
   "theorems": [
    "Verif.Props.guid_text",
    "Verif.Props.guid_every_16_bytes",
    "Verif.Props.guid_lossless",
    "Verif.Props.guid_shape",
    "Verif.Props.guid_short"
   ],
   "note": ""
  },
  {
   "property": "C06",
   "status": "proved",
   "theorems": [
    "Verif.Props.filetime_seconds_exact",
    "Verif.Props.filetime_zero"
   ],
   "note": ""
  },
  {
   "property": "C07",
   "status": "proved",
   "theorems": [
    "Verif.Props.filetime_error",
    "Verif.Props.filetime_error_near"
   ],
   "note": ""
  },
  {
   "property": "C08",
   "status": "proved",
   "theorems": [
    "Verif.Props.filetime_monotone"
   ],
   "note": ""
  },
  {
   "property": "C09",
   "status": "proved",
   "theorems": [
    "Verif.Props.filetime_total",
    "Verif.Props.filetime_reported",
    "Verif.Props.filetime_rejected",
    "Verif.Props.filetime_wrong_length",
    "Verif.Props.filetime_signed"
   ],
   "note": "filetime_reported and filetime_rejected leave the 16 microseconds on either side of the year range open; C79 settles them. filetime_signed records that values with the top bit set are read as negative."
  },
  {
   "property": "C10",
   "status": "proved",
   "theorems": [
    "Verif.Props.dostime_total",
    "Verif.Props.dostime_roundtrip",
    "Verif.Props.dostime_wrong_length"
   ],
   "note": ""
  },
  {
   "property": "C11",
   "status": "proved",
   "theorems": [
    "Verif.Props.sections_located"
   ],
   "note": ""
  },
  {
   "property": "C12",
   "status": "proved",
   "theorems": [
    "Verif.Props.link_roundtrip"
   ],
   "note": "times are reported as TimeRead says (whole seconds exactly, see C06-C09 for the rest); blocks of equal name: the last one is reported, but all unknown blocks"
  },
  {
   "property": "C13",
   "status": "proved",
   "theorems": [
    "Verif.Props.trailer_ignored",
    "Verif.Props.walk_links"
   ],
   "note": ""
  },
  {
   "property": "C14",
   "status": "proved",
   "theorems": [
    "Verif.Props.appended_data",
    "Verif.Props.appended_data_present"
   ],
   "note": ""
  },
  {
   "property": "C15",
   "status": "proved",
   "theorems": [
    "Verif.Props.string_data_roundtrip",
    "Verif.Props.string_data_accessors",
    "Verif.Props.string_data_dict"
   ],
   "note": ""
  },
  {
   "property": "C16",
   "status": "proved",
   "theorems": [
    "Verif.Props.string_data_cut_prefix",
    "Verif.Props.string_data_cut_text",
    "Verif.Props.string_data_cuts",
    "Verif.Props.string_data_total",
    "Verif.Props.string_data_total_default"
   ],
   "note": ""
  },
  {
   "property": "C17",
   "status": "proved",
   "theorems": [
    "Verif.Props.string_data_limit",
    "Verif.Props.string_data_limited_texts",
    "Verif.Props.default_codepage_length"
   ],
   "note": "For a caller-chosen code page the 260 character bound assumes that the codec yields at most one character per byte, as every Python code page codec does."
  },
  {
   "property": "C18",
   "status": "proved",
   "theorems": [
    "Verif.Props.ansi_stops_at_nul",
    "Verif.Props.ansi_nul_cases",
    "Verif.Props.ansi_pieces"
   ],
   "note": ""
  },
  {
   "property": "C19",
   "status": "proved",
   "theorems": [
    "Verif.Props.wide_stops_at_nul",
    "Verif.Props.wide_nul_cases",
    "Verif.Props.wide_odd_byte"
   ],
   "note": ""
  },
  {
   "property": "C20",
   "status": "proved",
   "theorems": [
    "Verif.Props.ansi_codepage",
    "Verif.Props.ansi_utf8",
    "Verif.Props.ansi_replace",
    "Verif.Props.ansi_other_error",
    "Verif.Props.ansi_default",
    "Verif.Props.ansi_default_total"
   ],
   "note": ""
  },
  {
   "property": "C21",
   "status": "proved",
   "theorems": [
    "Verif.Props.wide_roundtrip",
    "Verif.Props.wide_decode",
    "Verif.Props.wide_lenient_unique",
    "Verif.Props.wide_total",
    "Verif.Props.wide_length"
   ],
   "note": ""
  },
  {
   "property": "C22",
   "status": "proved",
   "theorems": [
    "Verif.Props.id_list_init",
    "Verif.Props.id_list_iterates",
    "Verif.Props.id_list_iterates_raw",
    "Verif.Props.id_list_terminates"
   ],
   "note": "well-formed items, items with arbitrary contents (network locations excepted: their strings are read by the constructor, see C25), and termination on arbitrary bytes"
  },
  {
   "property": "C23",
   "status": "proved",
   "theorems": [
    "Verif.Props.item_dispatch",
    "Verif.Props.item_dispatch_end",
    "Verif.Props.item_class_reported"
   ],
   "note": ""
  },
  {
   "property": "C24",
   "status": "proved",
   "theorems": [
    "Verif.Props.id_list_report",
    "Verif.Props.item_report"
   ],
   "note": "all item kinds the parser implements; texts are Spec.Text.Valid (code page text or UTF-16LE without NUL)"
  },
  {
   "property": "C25",
   "status": "proved",
   "theorems": [
    "Verif.Props.id_list_outcome",
    "Verif.Props.malformed_item_raises",
    "Verif.Props.network_too_few_strings"
   ],
   "note": ""
  },
  {
   "property": "C26",
   "status": "proved",
   "theorems": [
    "Verif.Props.info_kind",
    "Verif.Props.info_kind_short",
    "Verif.Props.info_processed"
   ],
   "note": "info_processed adds that a link info of neither kind is omitted without being skipped."
  },
  {
   "property": "C27",
   "status": "proved",
   "theorems": [
    "Verif.Props.local_info_report",
    "Verif.Props.local_info_encode",
    "Verif.Props.local_info_roundtrip"
   ],
   "note": "local_info_report: any placement of the parts; local_info_roundtrip: the usual arrangement. The Unicode suffix is the text four bytes after its offset, see C47."
  },
  {
   "property": "C28",
   "status": "proved",
   "theorems": [
    "Verif.Props.network_info_report",
    "Verif.Props.network_info_encode",
    "Verif.Props.network_info_roundtrip"
   ],
   "note": "as C27; a device name must be present in the code page form, see C51 for what happens without one"
  },
  {
   "property": "C29",
   "status": "proved",
   "theorems": [
    "Verif.Props.provider_reported",
    "Verif.Props.provider_letter",
    "Verif.Props.provider_sound",
    "Verif.Props.provider_reachable"
   ],
   "note": "the violation, characterised: the exact set of reported names"
  },
  {
   "property": "C30",
   "status": "proved",
   "theorems": [
    "Verif.Props.extra_cut",
    "Verif.Props.extra_blocks",
    "Verif.Props.extra_blocks_roundtrip"
   ],
   "note": "extra_blocks holds for all bytes, relative to the unique cut of extra_cut (a piece with fewer than 8 bytes left has no signature and is skipped with a warning; a size of 1-7 takes its signature from beyond the block)"
  },
  {
   "property": "C31",
   "status": "proved",
   "theorems": [
    "Verif.Props.extra_report",
    "Verif.Props.extra_report_escape",
    "Verif.Props.extra_block_exceptions"
   ],
   "note": "extra_report_escape: IndexError (Darwin) and RuntimeError (shell items) do hide the others"
  },
  {
   "property": "C32",
   "status": "proved",
   "theorems": [
    "Verif.Props.extra_block_report",
    "Verif.Props.extra_section_report"
   ],
   "note": ""
  },
  {
   "property": "C33",
   "status": "proved",
   "theorems": [
    "Verif.Props.darwin_report",
    "Verif.Props.darwin_short",
    "Verif.Props.darwin_truncated"
   ],
   "note": ""
  },
  {
   "property": "C34",
   "status": "proved",
   "theorems": [
    "Verif.Props.property_store_report",
    "Verif.Props.property_store_terminates",
    "Verif.Props.property_store_unreportable"
   ],
   "note": "property_store_unreportable also covers types without a name"
  },
  {
   "property": "C35",
   "status": "proved",
   "theorems": [
    "Verif.Props.shell_item_block"
   ],
   "note": "for block contents below 65536 bytes, the most a target list can hold"
  },
  {
   "property": "C36",
   "status": "proved",
   "theorems": [
    "Verif.Props.command_both",
    "Verif.Props.command_path",
    "Verif.Props.command_arguments",
    "Verif.Props.command_missing",
    "Verif.Props.command_program",
    "Verif.Props.link_command"
   ],
   "note": ""
  },
  {
   "property": "C37",
   "status": "proved",
   "theorems": [
    "Verif.Props.print_json_tells",
    "Verif.Props.print_json_raises",
    "Verif.Props.json_text_tells",
    "Verif.Props.tells_get",
    "Verif.Props.isoText_inj",
    "Verif.Props.shortcut_target_json"
   ],
   "note": ""
  },
  {
   "property": "C38",
   "status": "proved",
   "theorems": [
    "Verif.Props.reduced_json",
    "Verif.Props.reduced_json_raises"
   ],
   "note": "as equality of the whole computation, warnings included. The modification time is removed from the listed items only, not from a file entry nested in a users files folder item."
  },
  {
   "property": "C39",
   "status": "proved",
   "theorems": [
    "Verif.Props.must_be",
    "Verif.Props.header_faithful",
    "Verif.Props.report_warnings",
    "Verif.Props.header_announced",
    "Verif.Props.tracker_announced"
   ],
   "note": ""
  },
  {
   "property": "C40",
   "status": "proved",
   "theorems": [
    "Verif.Props.get_json_exceptions",
    "Verif.Props.get_json_exception_source"
   ],
   "note": ""
  },
  {
   "property": "C41",
   "status": "proved",
   "theorems": [
    "Verif.Props.show_command",
    "Verif.Props.hot_key"
   ],
   "note": ""
  },
  {
   "property": "C42",
   "status": "proved",
   "theorems": [
    "Verif.Props.flag_summary",
    "Verif.Props.flag_summary_inj"
   ],
   "note": ""
  },
  {
   "property": "C43",
   "status": "proved",
   "theorems": [
    "Verif.Props.readable_output",
    "Verif.Props.documented_shown",
    "Verif.Props.shown_kept",
    "Verif.Props.plain_wins",
    "Verif.Props.readable_raises"
   ],
   "note": "The tree given to the YAML printer; the YAML text itself is not modelled."
  },
  {
   "property": "C44",
   "status": "proved",
   "theorems": [
    "Verif.Props.unknown_codepage",
    "Verif.Props.known_codepage",
    "Verif.Props.default_codepage"
   ],
   "note": ""
  },
  {
   "property": "C45",
   "status": "proved",
   "theorems": [
    "Verif.Props.terminal_one_to_three",
    "Verif.Props.link_terminal_one_to_three"
   ],
   "note": "the violation; for the extra data section and for whole files"
  },
  {
   "property": "C46",
   "status": "proved",
   "theorems": [
    "Verif.Props.never_hangs",
    "Verif.Props.iterations_bounded",
    "Verif.Props.id_list_terminates",
    "Verif.Props.property_store_terminates",
    "Verif.Props.store_bounded"
   ],
   "note": ""
  },
  {
   "property": "C47",
   "status": "proved",
   "theorems": [
    "Verif.Props.suffix_unicode_shifted",
    "Verif.Props.suffix_unicode_loses_two"
   ],
   "note": "the violation"
  },
  {
   "property": "C48",
   "status": "proved",
   "theorems": [
    "Verif.Props.item_window",
    "Verif.Props.item_window_leak",
    "Verif.Props.unknown_size"
   ],
   "note": ""
  },
  {
   "property": "C49",
   "status": "proved",
   "theorems": [
    "Verif.Props.json_shape",
    "Verif.Props.json_documented",
    "Verif.Props.documented_keys_nodup"
   ],
   "note": "json_documented adds the keys of all nested dictionaries"
  },
  {
   "property": "C50",
   "status": "proved",
   "theorems": [
    "Verif.Props.size_accounting",
    "Verif.Props.size_is_length",
    "Verif.Props.size_stops_at_terminal"
   ],
   "note": ""
  },
  {
   "property": "C51",
   "status": "proved",
   "theorems": [
    "Verif.Props.device_name_from_size"
   ],
   "note": "the violation"
  },
  {
   "property": "C52",
   "status": "proved",
   "theorems": [
    "Verif.Props.shim_layer_unicode"
   ],
   "note": "the violation"
  },
  {
   "property": "C54",
   "status": "proved",
   "theorems": [
    "Verif.Props.sections_independent"
   ],
   "note": "Link info: all bytes to the end of the file count, see C57."
  },
  {
   "property": "C57",
   "status": "proved",
   "theorems": [
    "Verif.Props.base_path_runs_on",
    "Verif.Props.suffix_runs_on"
   ],
   "note": "violation of the format, characterised"
  },
  {
   "property": "C58",
   "status": "proved",
   "theorems": [
    "Verif.Props.both_locations"
   ],
   "note": "violation of the format, characterised"
  },
  {
   "property": "C59",
   "status": "proved",
   "theorems": [
    "Verif.Props.filetime_top_bit",
    "Verif.Props.filetime_signed"
   ],
   "note": "violation of the format, characterised"
  },
  {
   "property": "C60",
   "status": "proved",
   "theorems": [
    "Verif.Props.color_table_lost"
   ],
   "note": "violation of the format, characterised"
  },
  {
   "property": "C53",
   "status": "proved",
   "theorems": [
    "Verif.Props.tool_silent_on_error",
    "Verif.Props.tool_exceptions",
    "Verif.Props.tool_default_code_page",
    "Verif.Props.tool_target",
    "Verif.Props.tool_json"
   ],
   "note": "how the arguments come about is C81; a standard output that cannot encode the text is not modelled; yaml.dump is a parameter"
  },
  {
   "property": "C55",
   "status": "proved",
   "theorems": [
    "Verif.Props.code_page_irrelevant",
    "Verif.Props.ascii_link",
    "Verif.Props.ascii_compatible_default"
   ],
   "note": ""
  },
  {
   "property": "C56",
   "status": "proved",
   "theorems": [
    "Verif.Props.readable_text",
    "Verif.Props.indent_lines",
    "Verif.Props.lines_exist",
    "Verif.Props.readable_lines",
    "Verif.Props.indent_injective",
    "Verif.Props.placeholder_never_shown"
   ],
   "note": "yaml.dump is a parameter"
  },
  {
   "property": "C61",
   "status": "proved",
   "theorems": [
    "Verif.Props.store_bounded",
    "Verif.Props.store_overlap"
   ],
   "note": "violation characterised"
  },
  {
   "property": "C62",
   "status": "proved",
   "theorems": [
    "Verif.Props.damaged_tail",
    "Verif.Props.damaged_extra",
    "Verif.Props.damaged_strings",
    "Verif.Props.damaged_blocks"
   ],
   "note": ""
  },
  {
   "property": "C63",
   "status": "proved",
   "theorems": [
    "Verif.Props.cut_link_accepted",
    "Verif.Props.cut_link_keeps",
    "Verif.Props.cut_anywhere",
    "Verif.Props.cut_header_unreported"
   ],
   "note": ""
  },
  {
   "property": "C64",
   "status": "proved",
   "theorems": [
    "Verif.Props.header_guid",
    "Verif.Props.category_signature",
    "Verif.Props.users_files_accessors",
    "Verif.Props.extension_block_raises",
    "Verif.Props.store_size_is_signature"
   ],
   "note": "two violations characterised"
  },
  {
   "property": "C65",
   "status": "proved",
   "theorems": [
    "Verif.Props.file_entry_kind",
    "Verif.Props.network_kind"
   ],
   "note": "violation characterised"
  },
  {
   "property": "C66",
   "status": "proved",
   "theorems": [
    "Verif.Props.report_determines",
    "Verif.Props.report_determined",
    "Verif.Props.extra_same",
    "Verif.Props.info_objects_same",
    "Verif.Props.target_objects_same",
    "Verif.Props.strings_object_same"
   ],
   "note": "the sameness relation is defined in Spec/Visible"
  },
  {
   "property": "C67",
   "status": "proved",
   "theorems": [
    "Verif.Props.ordinary_silent",
    "Verif.Props.silent_ordinary"
   ],
   "note": "OutOfCalendar (Spec/Double) says which times are no dates; C79 proves it exact"
  },
  {
   "property": "C68",
   "status": "proved",
   "theorems": [
    "Verif.Props.report_bounded",
    "Verif.Props.default_frugal",
    "Verif.Props.block_cubic",
    "Verif.Props.report_cubic",
    "Verif.Props.printed_weight",
    "Verif.Props.printed_cubic",
    "Verif.Props.printed_bounded"
   ],
   "note": "size of the report: number of values plus number of characters of texts; digests are taken to have at most 64 digits"
  },
  {
   "property": "C69",
   "status": "proved",
   "theorems": [
    "Verif.Props.json_dated",
    "Verif.Props.print_json_same",
    "Verif.Props.print_determines",
    "Verif.Props.print_determined"
   ],
   "note": "the relations SameShown and SamePrinted are defined in Spec/Printed"
  },
  {
   "property": "C70",
   "status": "proved",
   "theorems": [
    "Verif.Props.report_outcome",
    "Verif.Props.report_returns",
    "Verif.Props.print_outcome"
   ],
   "note": "the faults are defined on the bytes in Spec/Outcome"
  },
  {
   "property": "C71",
   "status": "proved",
   "theorems": [
    "Verif.Props.blocks_reported",
    "Verif.Props.blocks_announced"
   ],
   "note": "readability of blocks is defined on the bytes in Spec/Reported"
  },
  {
   "property": "C72",
   "status": "proved",
   "theorems": [
    "Verif.Props.construction_warnings",
    "Verif.Props.report_warnings",
    "Verif.Props.header_announced",
    "Verif.Props.tracker_announced"
   ],
   "note": "item warnings are described by kind here and tied to their items in C73; texts of decode warnings are not described"
  },
  {
   "property": "C73",
   "status": "proved",
   "theorems": [
    "Verif.Props.report_notices"
   ],
   "note": "decode warnings are left out (their texts depend on the code page), block warnings are exact in C71; if a shell item block cannot be reported the warnings of its first items are not described"
  },
  {
   "property": "C74",
   "status": "proved",
   "theorems": [
    "Verif.Props.report_values"
   ],
   "note": "the full report; the reduced one leaves out fixed keys (C38); SHA-256 and the code page tables are parameters"
  },
  {
   "property": "C75",
   "status": "proved",
   "theorems": [
    "Verif.Props.values_determine_report"
   ],
   "note": "strengthens C74: together they say that the report is the one meeting the description"
  },
  {
   "property": "C76",
   "status": "proved",
   "theorems": [
    "Verif.Props.messages_true",
    "Verif.Props.messages_distinct",
    "Verif.Props.decode_message"
   ],
   "note": "texts of quoted exceptions are arbitrary; the message about an undecodable text does not delimit it"
  },
  {
   "property": "C77",
   "status": "proved",
   "theorems": [
    "Verif.Props.code_page_outcome",
    "Verif.Props.code_page_texts",
    "Verif.Props.code_page_warnings",
    "Verif.Props.alike_under_one"
   ],
   "note": "the relation Alike is defined in Spec/Alike; the reduced report leaves out fixed keys of the full one (C38); without the condition on empty texts a network link may have net_name or device_name under one code page only"
  },
  {
   "property": "C78",
   "status": "proved",
   "theorems": [
    "Verif.Props.table_usable",
    "Verif.Props.table_string",
    "Verif.Props.table_total",
    "Verif.Props.table_ascii",
    "Verif.Props.default_table"
   ],
   "note": "a codec that decodes by a table is described by IsTable in Spec/Alike"
  },
  {
   "property": "C79",
   "status": "proved",
   "theorems": [
    "Verif.Props.filetime_date",
    "Verif.Props.filetime_ends"
   ],
   "note": "Rounded, Microseconds and Stamp in Spec/Double describe IEEE 754 rounding without the model; exponents are not limited (the values that occur are far from overflow and subnormals)"
  },
  {
   "property": "C80",
   "status": "proved",
   "theorems": [
    "Verif.Props.construction_logged",
    "Verif.Props.report_logged",
    "Verif.Props.tool_logged",
    "Verif.Props.log_determined"
   ],
   "note": "Spec/Log describes the warnings and the final exception by the layout of the bytes alone; a code page may be unknown or fail in any way that is not itself handled (Tame); strengthens C40, C53, C72 and C73, which describe the outcome and the set of warnings"
  },
  {
   "property": "C81",
   "status": "proved",
   "theorems": [
    "Verif.Props.command_line_read",
    "Verif.Props.command_line_help",
    "Verif.Props.command_line_refused",
    "Verif.Props.command_line_written",
    "Verif.Props.command_line_order",
    "Verif.Props.script_outcome",
    "Verif.Props.script_one_file"
   ],
   "note": "the grammar is in Spec/Args; the characters that \\d matches are a parameter; argparse as of Python 3.11"
  },
  {
   "property": "C82",
   "status": "proved",
   "theorems": [
    "Verif.Props.brief_report",
    "Verif.Props.brief_printed"
   ],
   "note": "equivalences; the relation BriefLink is defined in Spec/Brief; well-formed links only, as in C66"
  },
  {
   "property": "C83",
   "status": "proved",
   "theorems": [
    "Verif.Props.json_characters",
    "Verif.Props.json_target_line",
    "Verif.Props.readable_characters",
    "Verif.Props.target_characters"
   ],
   "note": "target_characters is the violation; a standard output that cannot encode the text, or translates line feeds, is not modelled; yaml.dump is a parameter"
  },
  {
   "property": "C84",
   "status": "proved",
   "theorems": [
    "Verif.Props.readable_tells",
    "Verif.Props.readable_tells_all"
   ],
   "note": "readableTree is defined in Spec/Told; the text yaml.dump makes of the tree is a parameter; the lost drive type number is a finding"
  },
  {
   "property": "C85",
   "status": "proved",
   "theorems": [
    "Verif.Props.report_schema",
    "Verif.Props.report_numbers"
   ],
   "note": "the schema is Spec/Schema; derived from C74; the digests are texts of the parameter sha256hex"
  },
  {
   "property": "C86",
   "status": "proved",
   "theorems": [
    "Verif.Props.report_depth",
    "Verif.Props.readable_depth"
   ],
   "note": "levels are counted by Spec.Deep; Python's recursion limit itself is not modelled"
  },
  {
   "property": "C87",
   "status": "proved",
   "theorems": [
    "Verif.Props.construction_warnings_bounded",
    "Verif.Props.report_warnings_bounded",
    "Verif.Props.tool_warnings_bounded",
    "Verif.Props.block_warnings",
    "Verif.Props.report_warnings_quadratic"
   ],
   "note": "calls of warnings.warn are counted; which of them are shown is up to the filters of the warnings module, which is not modelled"
  },
  {
   "property": "C88",
   "status": "proved",
   "theorems": [
    "Verif.Props.terminal_option_construction",
    "Verif.Props.terminal_option_report"
   ],
   "note": "withAppended is defined in Spec/Appended; the digest is the parameter sha256hex; well-formed links are C13 and C14"
  },
  {
   "property": "C89",
   "status": "proved",
   "theorems": [
    "Verif.Props.trailing_bytes_ignored",
    "Verif.Props.complete_size",
    "Verif.Props.walk_files",
    "Verif.Props.link_complete"
   ],
   "note": "completeness is defined in Spec/Complete; an example shows that a link info text that starts where the file ends is read from the trailer"
  },
  {
   "property": "C90",
   "status": "proved",
   "theorems": [
    "Verif.Props.open_end",
    "Verif.Props.later_block_counts",
    "Verif.Props.next_link_swallowed"
   ],
   "note": "for arbitrary files that end with a whole block of extra data; the report of the file and of the bytes behind a bare header determine that of the concatenation"
  },
  {
   "property": "C91",
   "status": "proved",
   "theorems": [
    "Verif.Props.messages_harmless",
    "Verif.Props.object_messages_harmless",
    "Verif.Props.message_hostile"
   ],
   "note": "the text of the exception a message quotes is a parameter"
  },
  {
   "property": "C92",
   "status": "proved",
   "theorems": [
    "Verif.Props.stderr_exact",
    "Verif.Props.stderr_silent_iff",
    "Verif.Props.stderr_distinct",
    "Verif.Props.stderr_items",
    "Verif.Props.stderr_repeated",
    "Verif.Props.stderr_forged"
   ],
   "note": "with the warning filters Python starts with; the text of the exception a message quotes is a parameter"
  },
  {
   "property": "C93",
   "status": "proved",
   "theorems": [
    "Verif.Props.strict_parts",
    "Verif.Props.strict_tool",
    "Verif.Props.strict_outcome",
    "Verif.Props.strict_link"
   ],
   "note": "that each construct behaves as in strict_parts is modelled; no except clause of the package handles UserWarning"
  },
  {
   "property": "C94",
   "status": "proved",
   "theorems": [
    "Verif.Props.block_order"
   ],
   "note": "which exception a failing report raises may depend on the order"
  },
  {
   "property": "C95",
   "status": "proved",
   "theorems": [
    "Verif.Props.behind_id_list",
    "Verif.Props.behind_link_info",
    "Verif.Props.link_info_gaps",
    "Verif.Props.behind_block_fields",
    "Verif.Props.block_gaps",
    "Verif.Props.behind_header"
   ],
   "note": ""
  },
  {
   "property": "C96",
   "status": "proved",
   "theorems": [
    "Verif.Props.last_block_counts"
   ],
   "note": "warnings of get_json may differ; blocks with a fault that is not caught (C70) are excepted"
  },
  {
   "property": "C97",
   "status": "proved",
   "theorems": [
    "Verif.Props.item_gaps",
    "Verif.Props.opaque_items"
   ],
   "note": ""
  },
  {
   "property": "C98",
   "status": "proved",
   "theorems": [
    "Verif.Props.string_gaps"
   ],
   "note": ""
  },
  {
   "property": "C99",
   "status": "proved",
   "theorems": [
    "Verif.Props.property_gaps",
    "Verif.Props.item_block_gaps"
   ],
   "note": ""
  },
  {
   "property": "C100",
   "status": "proved",
   "theorems": [
    "Verif.Props.file_gaps"
   ],
   "note": ""
  },
  {
   "property": "C101",
   "status": "proved",
   "theorems": [
    "Verif.Props.header_reported",
    "Verif.Props.header_seen"
   ],
   "note": ""
  },
  {
   "property": "C102",
   "status": "proved",
   "theorems": [
    "Verif.Props.size_final_iff",
    "Verif.Props.complete_iff",
    "Verif.Props.size_never_final"
   ],
   "note": ""
  },
  {
   "property": "C103",
   "status": "proved",
   "theorems": [
    "Verif.Props.size_tells"
   ],
   "note": ""
  },
  {
   "property": "C104",
   "status": "proved",
   "theorems": [
    "Verif.Props.final_iff",
    "Verif.Props.lettered_default"
   ],
   "note": ""
  },
  {
   "property": "C105",
   "status": "proved",
   "theorems": [
    "Verif.Props.info_told"
   ],
   "note": ""
  },
  {
   "property": "C106",
   "status": "proved",
   "theorems": [
    "Verif.Props.block_told"
   ],
   "note": ""
  },
  {
   "property": "C107",
   "status": "proved",
   "theorems": [
    "Verif.Props.store_told"
   ],
   "note": ""
  },
  {
   "property": "C108",
   "status": "proved",
   "theorems": [
    "Verif.Props.items_told"
   ],
   "note": ""
  },
  {
   "property": "C109",
   "status": "proved",
   "theorems": [
    "Verif.Props.header_told"
   ],
   "note": ""
  },
  {
   "property": "C110",
   "status": "proved",
   "theorems": [
    "Verif.Props.reports_same"
   ],
   "note": ""
  }
 ]
}