# Design: a Lean 4 model of LnkParse3 and what is proved about it

Subject: Matmaus/LnkParse3 at the pinned commit (source in `/repo`, Python).  Nothing of it was built or run; the
model was written from the text.  `properties.jsonl` lists the properties, `MANIFEST.json` the theorems for each,
`seeded/LOG.jsonl` the wrong programs the theorems were tried against.

## Layout

* `lean/Verif/Py/*`    - the part of Python the code uses: exceptions and warnings, bytes, `struct.unpack`,
  slices, `hex`/`%X` formatting, doubles, `datetime`, codecs (cp1252, UTF-8, UTF-16LE, ASCII), ordered dicts,
  `json.dumps`, `subprocess.list2cmdline`, `textwrap.indent`, `str.replace`.
* `lean/Verif/Model/*` - LnkParse3 itself, one definition per method, each citing file and lines.
* `lean/Verif/Spec/*`  - small independent specifications: serializers written field by field from the
  [MS-SHLLINK] tables, section layout, civil calendar, JSON grammar, Microsoft argument splitting, UTF-16/UTF-8
  encoders, documented shape of the tree.  They use nothing of the model (only the data types of `Py`).
* `lean/Verif/Lemmas/*` - helper lemmas.
* `lean/Verif/Props/*` - the property theorems named in MANIFEST.json, each with examples that its hypotheses are met.

## Modelling decisions

* A Python computation is a value of `Py a`: the list of `warnings.warn` calls made, in order, and either a
  result or an exception (`PyErr`).  `try/except` is matching on the exception.
* Bytes are `List UInt8`; `raw[a:b]` is `slice`; `struct.unpack` raises `structError` unless the length is exact.
* Integers are Lean's `Nat`/`Int` (Python's are unbounded too).  A Python `str` is a list of Unicode scalar values:
  every codec used here yields such (a code page parameter is assumed to).
* Loops are well-founded recursions.  A loop iteration that would not make progress yields the pseudo
  exception `diverge`; termination is the theorem that `diverge` is never an outcome (C46).
* Python objects are structures holding the same raw bytes; methods are functions on them.  Methods are pure in the
  source (no attribute is written after `__init__`), so no state is needed.
* Generators are modelled by lists of suspended computations (only the demanded ones emit warnings or raise), and
  a `StopIteration` raised inside a generator body becomes `RuntimeError` (PEP 479).
* Codec lookup, the codecs of code pages other than the four named, and SHA-256 are parameters (`Env`); theorems
  hold for every value of the parameters, some under the stated hypothesis that the chosen code page is usable
  (`UsableCodePage`: its decoder returns or raises `UnicodeDecodeError`).
* `datetime.fromtimestamp` on a float is modelled with exact IEEE-754 binary64 round-to-nearest-even over rationals. C79 proves that this rounding is the one IEEE 754 describes.
* A warning carries the data its text is made of (kind, field, values); `Warn.text` (Model/Messages) is the text, with the text of a
  quoted exception as a parameter.
* Standard output is a list of the strings written (`Out`); reading the file is a parameter (contents or none).

## Per property plan

| id | modelled | proof |
|---|---|---|
| C01 | LnkHeader accessors | round trip against a concatenation-style serializer |
| C02 | LnkFile.__init__/process | case analysis over the exception monad, loop induction |
| C03, C04 | flag tables | finite table lifted to all words by bit lemmas |
| C05 | parse_uuid | hex digit lemmas, explicit inverse |
| C06-C09 | parse_filetime, float division, fromtimestamp, gmtime | rational rounding lemmas, calendar inverse |
| C10 | parse_dostime | bit-field arithmetic, calendar validity |
| C11 | process | refinement to an offset specification (Spec/Layout) |
| C12-C14 | whole file | composition of the section round trips |
| C15-C17 | StringData | round trip; truncation by case analysis |
| C18-C21 | TextProcessor, codecs | list induction |
| C22-C25 | LnkTargets, TargetFactory, target/* | well-founded induction, per kind round trip |
| C26-C29 | InfoFactory, LnkInfo, Local, Network | round trip; hex-string table analysis |
| C30-C32 | ExtraData, ExtraFactory, extra/* | loop induction, per kind round trip |
| C33 | parse_packed_uuid, Darwin | base-85 inverse |
| C34 | metadata.py | loop induction |
| C35 | ShellItem | equality of the two loops |
| C36 | lnk_command, list2cmdline | automaton simulation |
| C37 | print_json, json.dumps | parser/printer round trip |
| C38 | get_json | dictionary algebra; the whole computation commutes with the reduction |
| C39 | must_be | direct |
| C40 | get_json | exception-set lemmas for every method (`Py.Only`) |
| C41, C42 | hot_key, window_style, format_*Flags | tables, decimal printing |
| C43 | make_keys_nice, nice_id | induction over the tree (YAML dump itself not modelled) |
| C44 | decode by name | direct |
| C45, C47, C48, C51, C52, C57-C60 | deviations from [MS-SHLLINK] | exact characterisation for all inputs and a concrete witness |
| C46 | all loops | `diverge` unreachable; bounds on the numbers of iterations |
| C49, C50 | get_json, process | shape framework (`Py.Ret`), dictionary and arithmetic lemmas |
| C53 | main() | case analysis over arguments and outcome, on top of C02, C12, C36, C37, C40 |
| C54 | all sections | each accessor depends on its own slice only, given the layout |
| C55 | TextProcessor under two code pages | monotonicity of well-formedness in the code page |
| C56 | print_lnk_file | `textwrap.indent` and `str.replace` as list functions, induction over lines |
| C61 | Metadata.property_store | induction over the size chain (upper bound); a family of stores of repeated words (lower bound) |
| C62 | LnkFile.process with arbitrary bytes after a section | the parse of a prefix is fixed by the prefix; the remaining loop only appends |
| C63 | LnkFile.process on a prefix of a link | case analysis where the cut falls: header, ID list, link info (its bytes then read as strings and blocks), strings, blocks, terminal block |
| C64 | Model/Accessors | round trip of header and items; `store_size` reads the bytes `init` dispatched on |
| C65 | flags of items | case analysis of the low nibble, computed for all sixteen values |
| C66 | get_json of whole links | the report of each part is an injective function of its visible contents (case analysis over items, blocks, LinkInfo; lookups in the objects) |
| C67 | all warnings of a report | the warnings of the parse theorem `parses_link` are empty exactly for ordinary links |
| C68 | get_json, print_json, property stores | upper bound: lengths of all texts by those of the bytes they come from, numbers of items by sizes; superadditivity over the blocks; lower bound: a chain of records each of which is also read as a name |
| C69 | print_json | equal texts decode to equal JSON values; sorting keys loses only their order; dates are only under four keys, so a date is never confused with a text; for links, a single order of all keys makes equality up to order plain equality |
| C70 | get_json, print_json on arbitrary bytes | every step returns under an explicit condition on lengths and raises `struct.error` otherwise (`Py.When`); induction over the items; first block whose exception is not caught |
| C71 | extra section on arbitrary bytes | every block object returns exactly under a condition on its bytes (`Py.OkIff`); what it raises otherwise is caught; the last report of a name wins |
| C72 | LnkFile(...), get_json | every step emits only warnings of a given kind (`Py.Warned`); induction over strings, items and blocks; the constructor's list is computed exactly |
| C73 | get_json on arbitrary bytes | if a step returns, its warnings are exactly those given (`Py.Says`); induction over the ID list and the blocks |
| C74 | get_json(True) on arbitrary bytes | inversion: what a step returned determines its value (`bind_ok_iff`); induction over items, strings, records and blocks |
| C75 | get_json(True) on arbitrary bytes | each condition of the description holds for at most one value (`Sole`), by structural composition and induction |
| C76 | texts of the warnings (Model/Messages) | a reader written from the sentence patterns inverts the formatting (prefix conflicts computed, digits by induction), then C72 |
| C77 | LnkFile(...), get_json under two code pages | C02, C70-C74 for both; the two descriptions of the report are compared entry by entry (`Pairs`), with induction over items, strings and blocks |
| C78 | TextProcessor with a table codec | by cases on the bytes of the string, with C18 and C20 |
| C79 | parse_filetime, datetime.fromtimestamp | the rounding of the model meets the description of IEEE 754 rounding (nearest, ties to even), which has at most one solution; acceptance is monotone and its four boundary values are computed |
| C80 | LnkFile(...), get_json, print_json, print_lnk_file, print_shortcut_target, main | every function of the model is shown to have the log of its part of the description (`Logs`), composed along the binds; the description has at most one solution (`Sole`) |
| C81 | main (argument parser) | the loop is shown equal to one that takes a string at a time; a word is classified by cases on its first characters; options, command lines and requests for help are matched with the grammar by induction on the number of words |
| C82 | LnkFile.get_json(False), print_json without -a | the reduced tree of a link is computed from that of C12; each part is shown to be equal for two links just when the relation of the specification holds |
| C83 | main() | each literal and escape of the JSON encoder is printable; replacing and indenting add only line feeds and blanks; the violation is a family of links with arguments only, run by C53 |
| C84 | LnkFile.print_lnk_file | labels of the keys other than those of header and LinkInfo have a left inverse, so the renaming is injective by induction on the tree; header and LinkInfo are compared entry by entry; the raw hot key and raw flags are read back from the texts |
| C85 | LnkFile.get_json | every entry of the description by bytes (C74) is weakened to the kind of value the schema asks for; the reduced schema is that of the full one after the removal of keys; numbers by induction on the schema |
| C86 | LnkFile.get_json, LnkFile.print_lnk_file | levels of each kind of value of the schema (C85), a dictionary with a class counted once for the report and twice for the readable output; the bounds are reached by a link with a property store and a shell item block |
| C87 | LnkFile, LnkFile.get_json, main | the log of everything said (C80) is weighed part by part: constants for header, strings, link info and items; a store has one storage for each suffix at most, and each at most two warnings for each byte; the lower bound by records that are storages and values at the same time, like those of C61 and C68, with half a surrogate pair as text |
| C88 | ExtraData, LnkFile.process, LnkFile.get_json | the log of the construction (C80) does not mention the option; the parts of the two objects differ in the last block and the size only; a report of blocks none of which is terminal has no such key, so that the entry is appended |
| C89 | LnkFile.process, LnkFile.get_json, LnkInfo | every read of a complete file is a read of bytes it has, so that `process` of the longer file is `process` of the shorter one with the unread tails extended; the report does not read the tails |
| C90 | LnkFile.process, LnkFile.get_json, ExtraData, ExtraFactory | `process` of the longer file runs `process` of the file and then that of a bare header with the bytes behind; the dictionary of the blocks is the fold of `set`, so that it merges block by block |
| C91 | warnings of every class, main | every warning of the log (C80) is one of 14 forms, each of which is made of fixed texts, digits and names; a file with broken arguments is followed through the log |
| C92 | warnings.warn (Model/Stderr), main | the registry holds exactly the keys of the calls so far; messages from different lines differ because a reader tells them apart (C76); counting distinct numbers; two families of files followed through the log (C80) |
| C93 | main under -W error (Model/Strict) | cutting a computation at its first warning commutes with sequencing and handlers (case analysis); all warnings come before all output; then C67, C80 |
| C94 | ExtraData.as_dict, print_json | the dictionary holds per kind what the blocks of that kind give (C31), and the blocks of a kind are the same; permuted lists give permuted warnings; C90 carries it to the whole file, C69 to the printed text |
| C95 | LnkTargets, link info, extra blocks | `process` of the changed file is that of the other one with the raw sections replaced (`process_elsewhere`); the id loop stops at the terminal id, a complete link info and the fields of a block read nothing behind them; `infoUsed` lists the ranges that are read in any link info, `blockUsed` those of a block, and equal bytes there give equal reads |
| C96 | ExtraData.as_dict, print_json | the entry of a kind is the last good block of it (C31); which blocks are good is C71, which raise is C70; C90 carries it to the whole file, C69 to the printed text |
| C97 | LnkTargets, shell items | `itemUsed` lists the ranges read for each type; equal bytes there give an equal `as_item` (`item_gap`), induction along the list (`items_gap`), then as for C95 |
| C98 | StringData, link info | `stringsUsed` lists the ranges read for the announced strings; equal bytes there give the same loop (`loop_gap`) and the same places (`layout_texts`), then as for C95 |
| C99 | Metadata, ShellItem | `storeUsed` lists the ranges read in a property store; the places of the records are the same in both (`chain_gap`), each record is read the same; for items as for C97 |
| C100 | whole file | `fileUsed` lists the ranges read in all sections; each section is read the same from equal bytes there (`list_gap`, `info_gap`, `init_gap`, `extras_gap`), the places are the same (`layout_gap`) |
| C101 | LnkHeader, must_be, parse_filetime | the header object and its warnings are computed from the fields (`header_said`); the object is injective up to `SameHeader`; the rest of the report does not depend on the header but for size and flags (`swapped_json`), so that its warnings cancel |
| C102 | LnkFile.process, ExtraData | the size is a function of the places of the sections and of the pieces (`size_counted`); enough zeros make it larger, by induction over the pieces (`zeros_count`) or the announced strings (`strings_grow`); the other direction is C89's `process_more'` |
| C103 | LnkFile.process, ExtraData | induction over the pieces: one that is cut off is the last one and nothing is left, otherwise the declared sizes and what is not counted add up to the length (`counts`) |
| C104 | LnkFile.process, get_json, link info, texts | C102 gives the terminal block and the signatures, the warnings (C72) give the flags of the link info; the report's values (C74) are the same for every trailer, and a text without an end would end in A with one trailer and in B with another (`narrow_pinned`, `wide_pinned`) |
| C105 | LnkInfo, Local, Network | by C74 the two entries fit descriptions read off the bytes; keys that are in both give the same numbers and texts (`both_nat`, `both_hex`, `sameWide_value`), keys that are in one only a contradiction (`only_one`); the other way the descriptions are equal (`info_eq`) and leave nothing open (C75) |
| C106 | blocks with fields at fixed places | by C74 both entries fit the fields of the block; lists with the same keys agree entry by entry (`each`), which gives the bytes of every number, signed number and identifier and the texts (`fields_told`); the other way the fields are equal (`fields_eq`) and leave nothing open (`block_unique`) |
| C107 | property stores | as C106, record by record: one list of reports for two lists of records pairs them up (`fitsEach_same`), names of types are different (`typeName_inj`); the other way the entries leave no choice (`all_eq`, `fitsEach_only`) |
| C108 | shell items, in the ID list and in a block | every entry of an item comes with what it pins down (`Pin`), lists of entries with the same keys pin down the conjunction (`Pins.told`); class by class (`fields_told`), then along the two lists (`list_told`) |
| C109 | LnkHeader | as C108, with what each entry of the header pins down: times by `stamp_unique` and `instant_inj` (`pin_time`), the show command by its three names (`pin_show`) |
| C110 | LnkFile.get_json | part by part: C105, C108, C109 and, for the strings (`map_told`) and the extra data (`extra_told`: names, last readable block of a kind, unknown kinds, rest), the same from `report_values`; the parts together by `dict_ext` |

## Trusted base

* Lean 4.33.0's kernel.
* The axioms named below, all Lean's own: `propext`, `Classical.choice`, `Quot.sound`.  There is no axiom of
  this project, no `sorry`, no `native_decide`, no `bv_decide`.  Where a table is checked by computation the kernel
  does it (`decide`, `decide +kernel`).
* That the definitions under `Model` say what the cited lines of Python do.
* That the definitions under `Py` say what CPython's `struct`, slices, codecs, `datetime`, `json.dumps`,
  `subprocess.list2cmdline` and `textwrap.indent` do.
* That the definitions under `Spec` say what [MS-SHLLINK] and the property statements mean.

### Axioms of each theorem

By `#print axioms`, for the 312 theorems of MANIFEST.json (names without `Verif.Props.`):

* `propext`, `Classical.choice`, `Quot.sound` (272 theorems):
  alike_under_one, ansi_default, ansi_default_total, ansi_replace, ansi_utf8, appended_data,
  appended_data_present, ascii_compatible_default, ascii_link, base_path_runs_on, behind_block_fields,
  behind_header, behind_id_list, behind_link_info, block_cubic, block_gaps, block_order, block_told,
  block_warnings, blocks_announced, blocks_reported, both_locations, brief_printed, brief_report,
  category_signature, code_page_irrelevant, code_page_outcome, code_page_texts, code_page_warnings,
  color_table_lost, command_line_help, command_line_order, command_line_read, command_line_refused,
  command_line_written, complete_iff, complete_size, construction_logged, construction_warnings,
  construction_warnings_bounded, constructor_outcome, cut_anywhere, cut_header_unreported, cut_link_accepted,
  cut_link_keeps, cut_unique, damaged_blocks, damaged_extra, damaged_strings, damaged_tail, darwin_report,
  darwin_short, darwin_truncated, decode_message, default_codepage_length, default_table,
  device_name_from_size, documented_shown, dostime_roundtrip, dostime_total, extra_block_exceptions,
  extra_block_report, extra_blocks, extra_blocks_roundtrip, extra_cut, extra_report, extra_report_escape,
  extra_same, extra_section_report, file_entry_kind, file_gaps, filetime_date, filetime_ends, filetime_error,
  filetime_error_near, filetime_monotone, filetime_rejected, filetime_reported, filetime_seconds_exact,
  filetime_signed, filetime_top_bit, filetime_total, filetime_wrong_length, filetime_zero, final_iff,
  flag_summary, flag_summary_inj, get_json_exception_source, get_json_exceptions, guid_every_16_bytes,
  guid_lossless, guid_shape, guid_text, header_announced, header_every_input, header_faithful, header_guid,
  header_json, header_reported, header_seen, header_told, hot_key, id_list_init, id_list_iterates,
  id_list_iterates_raw, id_list_outcome, id_list_report, indent_injective, indent_lines, info_kind_short,
  info_objects_same, info_told, isoText_inj, item_block_gaps, item_class_reported, item_gaps, item_report,
  item_window, item_window_leak, items_told, iterations_bounded, json_characters, json_dated, json_documented,
  json_shape, json_target_line, json_text_tells, last_block_counts, later_block_counts, layout_isSome,
  lettered_default, lines_exist, link_command, link_complete, link_info_gaps, link_roundtrip,
  link_terminal_one_to_three, local_info_encode, local_info_report, local_info_roundtrip, log_determined,
  malformed_item_raises, message_hostile, messages_distinct, messages_harmless, messages_true,
  network_info_report, network_info_roundtrip, network_kind, network_too_few_strings, never_hangs,
  next_link_swallowed, object_messages_harmless, opaque_items, open_end, ordinary_silent,
  placeholder_never_shown, plain_wins, print_determined, print_determines, print_json_raises, print_json_same,
  print_json_tells, print_outcome, printed_bounded, printed_cubic, printed_weight, property_gaps,
  property_store_report, property_store_terminates, property_store_unreportable, provider_reported,
  readable_characters, readable_depth, readable_lines, readable_output, readable_raises, readable_tells,
  readable_tells_all, readable_text, reduced_json, reduced_json_raises, report_bounded, report_cubic,
  report_depth, report_determined, report_determines, report_logged, report_notices, report_numbers,
  report_outcome, report_returns, report_schema, report_values, report_warnings, report_warnings_bounded,
  report_warnings_quadratic, reports_same, script_one_file, script_outcome, sections_independent,
  sections_located, shell_item_block, shim_layer_unicode, shortcut_target_json, show_command, shown_kept,
  silent_ordinary, size_accounting, size_final_iff, size_is_length, size_never_final, size_stops_at_terminal,
  size_tells, stderr_distinct, stderr_exact, stderr_forged, stderr_items, stderr_repeated, stderr_silent_iff,
  store_bounded, store_overlap, store_size_is_signature, store_told, strict_link, strict_outcome, strict_tool,
  string_data_accessors, string_data_cut_prefix, string_data_cut_text, string_data_cuts, string_data_limit,
  string_data_limited_texts, string_data_roundtrip, string_data_total, string_data_total_default, string_gaps,
  strings_object_same, suffix_runs_on, suffix_unicode_loses_two, suffix_unicode_shifted, table_string,
  table_total, target_characters, target_objects_same, tells_get, terminal_one_to_three,
  terminal_option_construction, terminal_option_report, tool_default_code_page, tool_exceptions, tool_json,
  tool_logged, tool_silent_on_error, tool_target, tool_warnings_bounded, tracker_announced, trailer_ignored,
  trailing_bytes_ignored, unknown_size, users_files_accessors, values_determine_report, walk_files,
  walk_links, wide_decode, wide_length, wide_lenient_unique, wide_nul_cases, wide_odd_byte, wide_roundtrip,
  wide_stops_at_nul, wide_total.
* `propext`, `Quot.sound` (32 theorems):
  ansi_codepage, ansi_other_error, ansi_pieces, ansi_stops_at_nul, command_arguments, command_both,
  command_missing, command_path, command_program, default_codepage, dostime_wrong_length, file_flags_eq_iff,
  file_flags_exact, file_flags_mem, guid_short, id_list_terminates, info_kind, info_processed, item_dispatch,
  item_dispatch_end, known_codepage, link_flags_eq_iff, link_flags_exact, link_flags_mem, link_flags_nodup,
  must_be, network_info_encode, provider_letter, set_bits_sublist, strict_parts, string_data_dict,
  unknown_codepage.
* `propext` (6 theorems):
  ansi_nul_cases, default_frugal, documented_keys_nodup, provider_sound, table_ascii, table_usable.
* no axiom (2 theorems):
  extension_block_raises, provider_reachable.

## Exactly which code is modelled

All of `LnkParse3/*.py`, `LnkParse3/extra/*.py`, `LnkParse3/info/*.py`, `LnkParse3/target/*.py` - every function that
is reachable from the constructor, `get_json`, `print_json`, `print_lnk_file`, `print_shortcut_target`, `lnk_command` or
`main()` - except what is listed under "Not modelled".  Each definition cites its lines.  The constructors that only
store their arguments, and `as_item` methods that only call `super()`, have no definition of their own.

Public methods nothing calls have definitions in Model/Accessors. Only methods whose body is `pass` have none:
`LnkInfo.common_network_relative_link`, `ShellFSFolder.secondary_name`, `ShellFSFolder.shell_folder_identifier`.

| module | source |
|---|---|
| Model/Utils | utils.py, decorators.py |
| Model/Text | text_processor.py |
| Model/Header | lnk_header.py |
| Model/Targets | lnk_targets.py, target_factory.py, target/*.py |
| Model/Info | lnk_info.py, info_factory.py, info/*.py |
| Model/StringData | string_data.py |
| Model/Extra | extra_data.py, extra_factory.py, extra/*.py |
| Model/Metadata | extra/metadata.py |
| Model/Accessors | public methods of the above that nothing calls |
| Model/File | lnk_file.py (LnkFile), exceptions.py |
| Model/Main | lnk_file.py (print methods, main after the argument parser) |
| Model/Args | lnk_file.py (main: the argument parser, with the parts of argparse it uses) |
| Model/Messages | the texts of the warnings |
| Model/Strict | `main()` and `print_lnk_file` once more, under `-W error` |
| Model/Stderr | the calls of `warnings.warn`: where they are, and what they write (with the parts of `warnings` they use) |

## Not modelled

* the texts argparse prints (help, usage, errors), argparse of other Python versions than 3.11, and arguments that are not
  Unicode text (lone surrogates);
* the text `yaml.dump` makes of a tree (a parameter of `print_lnk_file`);
* opening and reading the file beyond "contents" or "cannot be opened"; the encoding of standard output;
* warning filters other than Python's initial ones and `-W error`; elsewhere `warnings.warn` is assumed to return; tracebacks;
* memory exhaustion, recursion limits (but see C86), signals; running time (only numbers of iterations);
* texts of exceptions (arbitrary parameters where a warning quotes one);
* codecs other than cp1252, UTF-8, UTF-16LE and ASCII, and SHA-256: parameters;
* codecs that do not map bytes to `str`, and code pages whose decoder yields lone surrogates.

## Validation of the model

* An executable copy of the model's definitions was evaluated on the 34 sample files whose expected JSON is in the
  repository's tests: 34 of 34 outputs are identical.  (The repository's code itself was not run.)
* The definitions under `Py` (struct, slices, codecs, datetime, float division, json, list2cmdline) were compared with
  the local Python interpreter's standard library on 48000 random cases: no difference.
* The model of the argument parser was compared with the local interpreter's argparse on 120000 random command lines: no
  difference.
* Wrong programs: see `seeded/LOG.jsonl`. `failed_declarations` are those that no longer compile with the edit,
  `theorems_failed` the claimed theorems about the broken claim that rest on them.

## Findings about the code

Construction
* `LnkFile(indata=b"")` raises AttributeError, an empty file LnkParserError; fewer than 4 bytes struct.error.
* 24 header bytes, declared and present, suffice to construct; `get_json` needs all 76, else struct.error escapes.
* The header size check warns three times (constructor, `process`, `get_json`).
* A terminal block of value 1-3 followed by four or more bytes makes the constructor raise struct.error (C45).
* The extra data loop stops only at size 0; a declared size of 1-7 takes the signature from beyond the block.
* A link info of neither kind is left out but not skipped: strings are then read from it (C26).

Text
* The limit of 260 characters for name, relative path and working directory also limits how much is consumed (C17).
* `common_path_suffix_unicode` reads four bytes late (C47).
* Link info strings are not bounded by LinkInfoSize (C57).
* A shim layer name (Unicode) is cut to its first character (C52).
* A warning that a text cannot be decoded carries the text unescaped: any text of the file reaches standard error, even with `-j` (C91),
  also as lines that look like other warnings (C92).
* Warnings with the same message are shown once per process: a second damaged block, or a second damaged file, may be silent (C92).

Items and blocks
* The window of a shell item is two bytes too long (C48).
* A damaged shell item makes `get_json` raise; a damaged extra block does not, except IndexError (Darwin descriptor of
  fewer than 20 characters, or cut) and RuntimeError (network location in a shell item block) (C25, C31, C40).
* A property of type VT_I2, or of a type without a name, drops the whole property store (C34).
* Storages and values of a property store may overlap, so the work is quadratic in the size of the block (C61)
  and the report cubic (C68): 640 kB are enough for a report of 13 GB.  The number of warnings is quadratic (C87): 640 kB,
  200 million calls of `warnings.warn`.
* Only the first of 16 colors of a console block is reported (C60).
* 18 of the 41 network provider names are unreachable (C29).
* Link info with both locations: the network one is lost (C58); a missing device name is made up of the bytes of the
  size field (C51).
* A share with a Unicode name is reported as a Unicode directory (C65).
* `Metadata.store_size` returns the block signature, `RootFolder.extension_block` raises AttributeError (C64).
* Hot keys with several modifiers are not decoded (C41).
* FILETIME values from 2^63 on are read as negative (C59).
* An invalid time of the header is reported as null, like a zero one; the warning names its value, but not which of the
  three times it is (C101).
* `size` tells where a file ends only if it has a terminal block; without one, or with allow_terminal_blocks=True, it
  depends on what follows (C102).

Output
* `lnk_command` raises TypeError when an announced string is missing; a relative path with blanks that ends in a
  backslash is quoted in the form for arguments, not for program names (C36).
* `get_json(False)` keeps the modification time of a file entry nested in a users files folder item (C38).
* `r_` keys and plain keys collide in the readable output, the plain one wins (C43). A drive type without a name is shown
  as null and its number is lost; nothing else is (C84).
* `print_lnk_file` replaces the text EMPTY_LINE_PLACEHOLDER wherever it occurs (C56).
* `-t` without `-j` writes escape sequences and line feeds in the arguments to the terminal as they are (C83).
