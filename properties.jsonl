{"id": "C01", "title": "Header fields are reported faithfully", "statement": "If the input starts with a serialized ShellLinkHeader, every header accessor (and the 'header' object of get_json) reports exactly the value that was serialized: sizes, class id, raw flags, file size, signed icon index, show command, hot key, the three reserved words - whatever bytes follow the header.", "quantifier": "all header field values of their integer width, all trailing bytes", "why_tests_cant": "2^600 header contents times unbounded trailers; a wrong offset or signedness shows only on particular values", "anchors": ["LnkParse3/lnk_header.py LnkHeader", "LnkParse3/lnk_file.py LnkFile.get_json"]}
{"id": "C02", "title": "Outcome of the constructor on arbitrary bytes", "statement": "LnkFile(...) on arbitrary bytes with a usable code page succeeds exactly if: at least 24 header bytes are declared and the first 24 are present; the declared header and the IDListSize field lie in the file when an ID list is announced; and no block of the extra data that has a signature declares a size of 1, 2 or 3. Otherwise it raises AttributeError (empty indata), LnkParserError (empty file handle) or struct.error (anything else); no other exception escapes.", "quantifier": "all byte strings, both values of allow_terminal_blocks", "why_tests_cant": "malformed files are unboundedly many; fuzzing only samples them", "anchors": ["LnkParse3/lnk_file.py LnkFile.__init__", "LnkParse3/lnk_file.py LnkFile.process", "LnkParse3/lnk_header.py LnkHeader.__init__"]}
{"id": "C03", "title": "link_flags lists exactly the set bits", "statement": "link_flags() contains a flag name exactly when the corresponding LinkFlags bit is set, in increasing bit order, without duplicates; two headers give the same list iff their raw flags agree on the 27 defined bits.", "quantifier": "all 2^32 flag words", "why_tests_cant": "2^32 words", "anchors": ["LnkParse3/lnk_header.py LnkHeader.link_flags", "LnkParse3/lnk_header.py LINK_FLAG_MASK"]}
{"id": "C04", "title": "file_flags lists exactly the set bits", "statement": "file_flags() contains an attribute name exactly when the corresponding FileAttributes bit is set, in increasing bit order; undefined bits contribute nothing.", "quantifier": "all 2^32 attribute words", "why_tests_cant": "2^32 words", "anchors": ["LnkParse3/lnk_header.py LnkHeader.file_flags", "LnkParse3/lnk_header.py FILE_FLAG_MASK"]}
{"id": "C05", "title": "GUIDs are rendered canonically and losslessly", "statement": "Every 16-byte GUID is rendered as the 36-character upper-case 8-4-4-4-12 form with Microsoft's mixed endianness, and the bytes can be recovered from the text (distinct GUIDs print differently); only the first 16 bytes of a longer field count; fewer than 16 bytes raise struct.error.", "quantifier": "all byte strings", "why_tests_cant": "2^128 GUIDs", "anchors": ["LnkParse3/utils.py parse_uuid", "LnkParse3/decorators.py uuid"]}
{"id": "C06", "title": "FILETIME: whole seconds are exact", "statement": "For every calendar date and time of day (years 1-9999) other than 1601-01-01T00:00:00, the FILETIME encoding of that instant is reported as exactly that UTC datetime with microsecond 0.", "quantifier": "all valid civil date-times", "why_tests_cant": "3*10^11 seconds and floating-point rounding", "anchors": ["LnkParse3/utils.py parse_filetime", "LnkParse3/decorators.py filetime"]}
{"id": "C07", "title": "FILETIME: bounded rounding error", "statement": "A reported datetime differs from the exact instant denoted by the FILETIME by at most 16 microseconds (years 1..9999), and by at most 1 microsecond for instants within 2^32 seconds of 1970.", "quantifier": "all 64-bit FILETIME values that yield a datetime", "why_tests_cant": "2^64 values through floating point", "anchors": ["LnkParse3/utils.py parse_filetime"]}
{"id": "C08", "title": "FILETIME: order is preserved", "statement": "If two FILETIME values are both reported as datetimes then the numerically smaller one is reported no later than the larger one.", "quantifier": "all pairs of 64-bit FILETIME values", "why_tests_cant": "2^128 pairs through floating point", "anchors": ["LnkParse3/utils.py parse_filetime"]}
{"id": "C09", "title": "FILETIME: total and honest on 8 bytes", "statement": "For every 8-byte field parse_filetime returns without raising: None without warning for zero, None with an 'Invalid filetime' warning when the instant rounds outside years 1-9999, otherwise a valid datetime and no warning. A field of another length raises struct.error.", "quantifier": "all byte strings", "why_tests_cant": "2^64 values, overflow boundaries", "anchors": ["LnkParse3/utils.py parse_filetime"]}
{"id": "C10", "title": "DOS time: exact and total", "statement": "For every 4-byte field parse_dostime returns without raising: None silently for zero, None with a warning when the packed fields are not a calendar date/time, otherwise exactly the packed date/time (UTC, even seconds); encoding any valid date-time 1980-2107 with even seconds and parsing it back is the identity.", "quantifier": "all byte strings; all valid date-times", "why_tests_cant": "2^32 values", "anchors": ["LnkParse3/utils.py parse_dostime", "LnkParse3/target/shell_fs_folder.py ShellFSFolder.modification_time"]}
{"id": "C11", "title": "Sections are parsed at the right offsets and only when announced", "statement": "The ID list is parsed iff HasTargetIDList, at the declared end of the header; LinkInfo iff HasLinkInfo and not ForceNoLinkInfo and its flags select a kind, right after the ID list; string data and extra data follow immediately after the preceding declared sizes.", "quantifier": "all inputs on which construction succeeds", "why_tests_cant": "all flag combinations times all declared sizes", "anchors": ["LnkParse3/lnk_file.py LnkFile.process"]}
{"id": "C12", "title": "Whole-file round trip", "statement": "For every well-formed shell link (header, optional ID list, optional link info, any subset of strings, any list of extra blocks, terminal block) the parser accepts its serialization, size equals the file length and every section is reported with the encoded contents.", "quantifier": "all well-formed abstract shell links of any size", "why_tests_cant": "unbounded structures", "anchors": ["LnkParse3/lnk_file.py LnkFile.process", "LnkParse3/lnk_file.py LnkFile.get_json"]}
{"id": "C13", "title": "Concatenated links can be walked", "statement": "With allow_terminal_blocks=False, parsing a well-formed link followed by arbitrary bytes reports size equal to the link's own length and the same sections as without the trailer, so lnk.size can be used to step to the next link; stepping over a concatenation of any number of links visits exactly each of them.", "quantifier": "all well-formed links, all trailers, all list lengths", "why_tests_cant": "unbounded concatenations and trailers", "anchors": ["LnkParse3/lnk_file.py LnkFile.process", "LnkParse3/extra_data.py ExtraData.process"]}
{"id": "C14", "title": "Appended data is never silently dropped", "statement": "With allow_terminal_blocks=True, data following a zero terminal block is reported as TERMINAL_BLOCK whose size counts it and whose digest is that of exactly the appended bytes, and the link size then equals the input length.", "quantifier": "all well-formed links, all non-empty trailers", "why_tests_cant": "unbounded trailers", "anchors": ["LnkParse3/extra_data.py ExtraData.process", "LnkParse3/extra/terminal.py Terminal"]}
{"id": "C15", "title": "String data round trip", "statement": "Each announced string (name, relative path, working dir, arguments, icon location) is reported under its own key with exactly the encoded text, in Unicode or code page form, whatever subset of the five is present; strings that are not announced are absent.", "quantifier": "all texts, all 32 subsets, both encodings", "why_tests_cant": "unbounded texts", "anchors": ["LnkParse3/string_data.py StringData"]}
{"id": "C16", "title": "Truncated string data never raises", "statement": "If the string data section is cut anywhere, construction still succeeds, the fields decoded before the cut are kept, and one warning is issued exactly when a length prefix is missing.", "quantifier": "all byte strings", "why_tests_cant": "all cut points", "anchors": ["LnkParse3/string_data.py StringData.__init__"]}
{"id": "C17", "title": "260-character limit", "statement": "Name, relative path and working directory never yield more than 260 characters nor consume more than 260 character units; arguments and icon location are not limited and are consumed in full.", "quantifier": "all declared counts", "why_tests_cant": "65536 counts times contents", "anchors": ["LnkParse3/string_data.py StringData.read"]}
{"id": "C18", "title": "Code page strings end at the first NUL", "statement": "read_string returns the decoding of the bytes before the first NUL byte (or of all bytes if there is none); bytes after the NUL influence neither the result nor the warnings.", "quantifier": "all byte strings, all code pages", "why_tests_cant": "unbounded strings", "anchors": ["LnkParse3/text_processor.py TextProcessor.read_string"]}
{"id": "C19", "title": "Unicode strings end at the first aligned NUL unit", "statement": "read_unicode_string returns the decoding of the 2-byte units before the first zero unit at even offset; an odd trailing byte is kept as an incomplete unit; later bytes have no influence.", "quantifier": "all byte strings", "why_tests_cant": "unbounded strings", "anchors": ["LnkParse3/text_processor.py TextProcessor.read_unicode_string", "LnkParse3/text_processor.py _2bytes_each"]}
{"id": "C20", "title": "Code page decoding falls back in order and does not raise", "statement": "A string is decoded by the code page if possible; otherwise as UTF-8 if it is valid UTF-8; otherwise by the code page with replacement characters plus one warning. With the default code page this never raises, and one output character per byte is produced in the replacement case.", "quantifier": "all byte strings", "why_tests_cant": "unbounded strings", "anchors": ["LnkParse3/text_processor.py TextProcessor.read_strings"]}
{"id": "C21", "title": "UTF-16 decoding is total and inverse to encoding", "statement": "read_unicode_string never raises; for every text without NUL it inverts UTF-16LE encoding with no warning; a warning is issued exactly when the units are not well-formed UTF-16.", "quantifier": "all byte strings; all Unicode texts", "why_tests_cant": "unbounded strings", "anchors": ["LnkParse3/text_processor.py TextProcessor.read_unicode_strings"]}
{"id": "C22", "title": "ID list iteration visits exactly the encoded items", "statement": "Iterating the targets of an encoded ID list yields one target per item in order, each built from the bytes starting at its own item, stopping at the terminal id; it always terminates.", "quantifier": "all item lists of any length, all byte strings for termination", "why_tests_cant": "unbounded lists", "anchors": ["LnkParse3/lnk_targets.py LnkTargets._id_lists"]}
{"id": "C23", "title": "Shell item dispatch", "statement": "The reported class of an item is determined by its type byte: 0x20/0x30/0x40 families after masking with 0x70, otherwise by the exact byte; every other byte is reported as Unknown with a warning; size 0 means end of list.", "quantifier": "all type bytes and item contents", "why_tests_cant": "256 bytes times contents", "anchors": ["LnkParse3/target_factory.py TargetFactory.target_class"]}
{"id": "C24", "title": "Shell item fields are reported faithfully", "statement": "For each implemented shell item kind, as_item() of the serialized item reports exactly the serialized fields (names, sizes, times, GUIDs, categories, descriptions).", "quantifier": "all field values and texts", "why_tests_cant": "unbounded texts", "anchors": ["LnkParse3/target/shell_fs_folder.py", "LnkParse3/target/root_folder.py", "LnkParse3/target/my_computer.py", "LnkParse3/target/network_location.py", "LnkParse3/target/control_panel.py", "LnkParse3/target/control_panel_category.py", "LnkParse3/target/control_panel_cpl.py", "LnkParse3/target/users_files_folder.py"]}
{"id": "C25", "title": "Malformed ID lists", "statement": "On arbitrary bytes, listing the targets either succeeds or raises struct.error or RuntimeError; nothing else. (That a malformed item is skipped like a malformed extra block, as 'process even malformed files' suggests, is false.)", "quantifier": "all byte strings", "why_tests_cant": "unbounded malformed inputs", "anchors": ["LnkParse3/lnk_targets.py LnkTargets.as_list", "LnkParse3/target/network_location.py NetworkLocation.__init__"]}
{"id": "C26", "title": "Link info kind selection", "statement": "Bit 0 of LinkInfoFlags selects Local, otherwise bit 1 selects Network, otherwise link info is omitted; fewer than 12 bytes give a warning and no link info, never an exception. An omitted link info is not skipped: the string data is then read from the place where the link info stands.", "quantifier": "all byte strings", "why_tests_cant": "unbounded", "anchors": ["LnkParse3/info_factory.py InfoFactory.info_class"]}
{"id": "C27", "title": "Local link info is reported faithfully", "statement": "For every well-formed LinkInfo with VolumeID and LocalBasePath, the size, flags, offsets, drive type and serial, volume label, local base path and common path suffix reported are the encoded ones, independent of bytes after the structure.", "quantifier": "all field values, texts and trailers", "why_tests_cant": "unbounded", "anchors": ["LnkParse3/info/local.py Local", "LnkParse3/lnk_info.py LnkInfo"]}
{"id": "C28", "title": "Network link info is reported faithfully", "statement": "For every well-formed LinkInfo with CommonNetworkRelativeLink, the reported sizes, flags, offsets, net name and device name (code page or Unicode form) are the encoded ones.", "quantifier": "all field values, texts and trailers", "why_tests_cant": "unbounded", "anchors": ["LnkParse3/info/network.py Network"]}
{"id": "C29", "title": "Network provider names", "statement": "network_provider_type, when the flag says it is valid, reports the MS-SHLLINK name of the provider code exactly for the codes of the table whose hexadecimal form consists of decimal digits (23 of 41); every name reported is the right one; a code with a letter among its hexadecimal digits is never named (violation: 18 codes, among them WNNC_NET_DAV, are reported without a name).", "quantifier": "all 2^32 provider codes and flags", "why_tests_cant": "2^64", "anchors": ["LnkParse3/info/network.py Network.network_provider_type"]}
{"id": "C30", "title": "Extra blocks tile the extra data and are dispatched by signature", "statement": "The extra data is cut into consecutive blocks of their declared size up to the terminal block; each block object holds exactly its own bytes and its kind is determined by the 32-bit signature (eleven known values, all others Unknown).", "quantifier": "all block lists of any length; all signatures", "why_tests_cant": "unbounded", "anchors": ["LnkParse3/extra_data.py ExtraData.process", "LnkParse3/extra_factory.py ExtraFactory.extra_class"]}
{"id": "C31", "title": "A bad extra block does not hide the others", "statement": "as_dict of the extra data reports each block under its name independently of whether other blocks fail with struct.error/ValueError; failing blocks are dropped with one warning each; among several good blocks with one name the last is reported, except Unknown blocks which are all kept in order.", "quantifier": "all lists of blocks", "why_tests_cant": "unbounded lists, all failure patterns", "anchors": ["LnkParse3/extra_data.py ExtraData.as_dict"]}
{"id": "C32", "title": "Extra block fields are reported faithfully", "statement": "For every extra block kind, as_dict() of the serialized block reports exactly the serialized fields.", "quantifier": "all field values and texts", "why_tests_cant": "unbounded", "anchors": ["LnkParse3/extra/console.py", "LnkParse3/extra/distributed_tracker.py", "LnkParse3/extra/environment.py", "LnkParse3/extra/icon.py", "LnkParse3/extra/known_folder.py", "LnkParse3/extra/special_folder.py", "LnkParse3/extra/code_page.py", "LnkParse3/extra/shim_layer.py", "LnkParse3/extra/unknown.py"]}
{"id": "C33", "title": "Darwin descriptors", "statement": "For every product GUID, feature name and component GUID, the packed descriptor in a Darwin block is reported as exactly those three values in all four descriptor variants; a descriptor shorter than 20 characters raises IndexError.", "quantifier": "all GUIDs, all feature names without < and >", "why_tests_cant": "2^256 GUID pairs, unbounded names", "anchors": ["LnkParse3/extra/darwin.py Darwin", "LnkParse3/utils.py parse_packed_uuid", "LnkParse3/utils.py _quad_to_hex"]}
{"id": "C34", "title": "Property store", "statement": "A well-formed property store (any number of storages with any number of values, integer-named or string-named) is reported with all its storages and values in order; parsing terminates on every input; a property of type VT_I2 makes the block unreportable.", "quantifier": "all stores of any size; all byte strings for termination", "why_tests_cant": "unbounded", "anchors": ["LnkParse3/extra/metadata.py"]}
{"id": "C35", "title": "Shell item identifier block", "statement": "The id_list of a SHELL_ITEM_IDENTIFIER block equals what the target list reports for the same ID list bytes.", "quantifier": "all block contents below 65536 bytes (more does not fit an ID list)", "why_tests_cant": "unbounded", "anchors": ["LnkParse3/extra/shell_item.py ShellItem"]}
{"id": "C36", "title": "The command line is quoted reversibly", "statement": "lnk_command of a link with a relative path, split by the Microsoft C argument rules, has exactly the relative path as its first argument, and the arguments string follows verbatim after one space; announced but missing strings raise TypeError.", "quantifier": "all paths and argument strings", "why_tests_cant": "unbounded texts", "anchors": ["LnkParse3/lnk_file.py LnkFile.lnk_command"]}
{"id": "C37", "title": "print_json emits valid JSON for the same tree", "statement": "Whenever get_json returns, the text printed by print_json is valid ASCII JSON which decodes to the same tree (keys sorted, datetimes as ISO-8601 to the second).", "quantifier": "all trees get_json can return", "why_tests_cant": "unbounded texts and nesting", "anchors": ["LnkParse3/lnk_file.py LnkFile.print_json"]}
{"id": "C38", "title": "get_json(False) is get_json(True) minus the documented keys", "statement": "The reduced output differs from the full output exactly by the listed size/offset/reserved keys and the modification time of targets; it raises exactly when the full output raises.", "quantifier": "all inputs", "why_tests_cant": "unbounded", "anchors": ["LnkParse3/lnk_file.py LnkFile.get_json"]}
{"id": "C39", "title": "MUST-be checks warn exactly on violation and never change the value", "statement": "For each checked field a warning is issued iff the value differs from the required one, and the reported value is the raw one in both cases.", "quantifier": "all field values", "why_tests_cant": "2^128 values", "anchors": ["LnkParse3/decorators.py must_be", "LnkParse3/lnk_header.py", "LnkParse3/extra/distributed_tracker.py"]}
{"id": "C40", "title": "Exceptions of get_json", "statement": "With a usable code page, get_json on any successfully constructed link returns or raises struct.error, IndexError or RuntimeError; nothing else.", "quantifier": "all inputs", "why_tests_cant": "unbounded", "anchors": ["LnkParse3/lnk_file.py LnkFile.get_json"]}
{"id": "C41", "title": "Hot key and show command tables", "statement": "The show command is SW_SHOWNORMAL for every value other than 3 and 7; the hot key is decoded for exactly the documented key codes with a single (or no) modifier and printed as raw hex otherwise.", "quantifier": "all 2^32 and 2^16 values", "why_tests_cant": "tables sampled only", "anchors": ["LnkParse3/lnk_header.py LnkHeader.window_style", "LnkParse3/lnk_header.py LnkHeader.hot_key"]}
{"id": "C42", "title": "Textual flag summary", "statement": "format_linkFlags/format_fileFlags show the flag names joined by ' | ' followed by the decimal raw value in parentheses, from which the raw value can be recovered.", "quantifier": "all flag words", "why_tests_cant": "2^32", "anchors": ["LnkParse3/lnk_file.py LnkFile.format_linkFlags"]}
{"id": "C43", "title": "Readable output keeps every leaf", "statement": "The tree handed to the YAML printer contains every key of get_json under its prettified name; keys are lost only when an r_ key and its plain key are both present, and then the plain one wins.", "quantifier": "all trees", "why_tests_cant": "unbounded", "anchors": ["LnkParse3/lnk_file.py LnkFile.print_lnk_file"]}
{"id": "C44", "title": "Unknown code page", "statement": "An unknown code page name raises LookupError as soon as a non-empty code page string has to be decoded, and never otherwise.", "quantifier": "all names and byte strings", "why_tests_cant": "unbounded", "anchors": ["LnkParse3/text_processor.py TextProcessor"]}
{"id": "C45", "title": "Terminal block values 1-3", "statement": "MS-SHLLINK allows any terminal block value below 4. The parser treats a zero terminal as end; values 1-3 followed by at least four bytes make construction raise struct.error (violation, witnessed), fewer bytes are tolerated.", "quantifier": "all trailers", "why_tests_cant": "unbounded trailers", "anchors": ["LnkParse3/extra_data.py ExtraData.process", "LnkParse3/extra/lnk_extra_base.py LnkExtraBase.size"]}
{"id": "C46", "title": "The parser never hangs", "statement": "Constructing a link and producing its JSON perform finitely many loop iterations on every input (each loop makes progress), and the number of iterations of each single loop run is bounded by the length of the bytes it reads.", "quantifier": "all byte strings", "why_tests_cant": "non-termination cannot be observed by testing", "anchors": ["LnkParse3/extra_data.py", "LnkParse3/lnk_targets.py", "LnkParse3/extra/metadata.py", "LnkParse3/extra/shell_item.py", "LnkParse3/text_processor.py"]}
{"id": "C47", "title": "Unicode common path suffix", "statement": "common_path_suffix_unicode should report the string stored at CommonPathSuffixOffsetUnicode; in fact it reports the string starting 4 bytes later (violation, characterised exactly).", "quantifier": "all LinkInfo structures", "why_tests_cant": "unbounded", "anchors": ["LnkParse3/lnk_info.py LnkInfo.common_path_suffix_unicode"]}
{"id": "C48", "title": "Shell item window", "statement": "An item's fields are read only from the item's own bytes and at most the two following bytes (the window is two bytes too long); the reported 'size' of an Unknown item is two more than its encoded size.", "quantifier": "all items and successors", "why_tests_cant": "unbounded", "anchors": ["LnkParse3/target/lnk_target_base.py LnkTargetBase.__init__", "LnkParse3/target/unknown.py Unknown.as_item"]}
{"id": "C49", "title": "Shape of the JSON tree", "statement": "get_json always has the keys size, header, link_info, data, extra; 'target' is present iff HasTargetIDList; 'data' has only the five documented keys, each a string; 'extra' has only the documented block names.", "quantifier": "all inputs", "why_tests_cant": "unbounded", "anchors": ["LnkParse3/lnk_file.py LnkFile.get_json"]}
{"id": "C50", "title": "Size accounting", "statement": "size equals the sum of the declared section sizes plus at most four bytes of terminal block actually present; if the declared sizes stay within the input and no block lacks a signature, size with allow_terminal_blocks=True equals the input length.", "quantifier": "all inputs on which construction succeeds", "why_tests_cant": "unbounded", "anchors": ["LnkParse3/lnk_file.py LnkFile.process", "LnkParse3/extra_data.py ExtraData.size"]}
{"id": "C51", "title": "Device name of a network link without one", "statement": "A CommonNetworkRelativeLink in code page form whose DeviceNameOffset is 0 (no device) should have no device name; in fact device_name is the text made by the first bytes of the structure, its own size field (violation, characterised).", "quantifier": "all network links with NetNameOffset <= 0x14, DeviceNameOffset 0 and size below 256", "why_tests_cant": "unbounded", "anchors": ["LnkParse3/info/network.py Network.device_name"]}
{"id": "C52", "title": "Unicode layer names of shim blocks are cut to one character", "statement": "[MS-SHLLINK] 2.5.8 stores LayerName as a Unicode string. The parser reads it as a code page string, so for every name starting with an ASCII character only that first character is reported (violation, proved for all names).", "quantifier": "all layer names that start with an ASCII character, all following bytes", "why_tests_cant": "A test shows one name; that no Unicode name survives, whatever its length, needs a proof.", "anchors": ["LnkParse3/extra/shim_layer.py ShimLayer.layer_name", "LnkParse3/text_processor.py TextProcessor.read_string"]}
{"id": "C54", "title": "Sections do not influence each other", "statement": "If two files have their sections at the same places, each section is reported the same by get_json when its own bytes are the same, whatever the bytes of the other sections are (header, target list, string data, extra data; for link info all bytes up to the end of the file count, because its strings may run on).", "quantifier": "all pairs of byte strings that parse, with equal layout; all code pages that are usable; both sources; both values of get_all", "why_tests_cant": "It is a statement about pairs of files (non-interference); tests look at one file at a time.", "anchors": ["LnkParse3/lnk_file.py LnkFile.process", "LnkParse3/lnk_file.py LnkFile.get_json"]}
{"id": "C57", "title": "Link info strings are not bounded by LinkInfoSize", "statement": "[MS-SHLLINK] 2.3: LinkInfoSize is the size of the structure, all offsets lie within it. The parser searches the terminator of the local base path and of the common path suffix beyond the structure: a string that is not ended within it is reported together with the bytes that follow LinkInfo up to the next NUL (violation, characterised).", "quantifier": "all link info structures whose string is not terminated within, all following bytes", "why_tests_cant": "Samples are well formed; the claim is about every unterminated string and every continuation.", "anchors": ["LnkParse3/lnk_info.py LnkInfo.local_base_path", "LnkParse3/lnk_info.py LnkInfo.common_path_suffix", "LnkParse3/lnk_file.py LnkFile.process"]}
{"id": "C58", "title": "A link info with both locations loses the network one", "statement": "[MS-SHLLINK] 2.3 allows VolumeIDAndLocalBasePath and CommonNetworkRelativeLinkAndPathSuffix together. The parser reports such a link info as a local one only: location_info is that of the volume, whatever the network link says, and none of the network link's keys is in the result (violation, proved for all).", "quantifier": "all link info structures with both bits set and both structures present", "why_tests_cant": "No sample has both; the claim is that nothing of the network link is ever reported.", "anchors": ["LnkParse3/info_factory.py InfoFactory.info_class", "LnkParse3/lnk_file.py LnkFile.get_json"]}
{"id": "C59", "title": "FILETIME values with the top bit set", "statement": "FILETIME is unsigned. Values from 2^63 on are read as negative: the largest ones are reported, without a warning, as dates before 1601, the rest is rejected with a warning (violation, characterised exactly up to rounding).", "quantifier": "all 64-bit values >= 2^63", "why_tests_cant": "2^63 values; the boundary between wrong date and rejection is at no round number.", "anchors": ["LnkParse3/utils.py parse_filetime", "LnkParse3/decorators.py filetime"]}
{"id": "C60", "title": "The color table of a console block", "statement": "[MS-SHLLINK] 2.5.1: ColorTable holds 16 colors. Only the first is reported: two console blocks that differ in the other 15 colors give the same report (violation, proved for all tables).", "quantifier": "all console blocks, all pairs of color tables with the same first color", "why_tests_cant": "A statement about all pairs of tables.", "anchors": ["LnkParse3/extra/console.py Console.color_table"]}
{"id": "C53", "title": "The command line tool", "statement": "main(): (1) when it fails it has written nothing to standard output; (2) it can only end with OSError (file cannot be opened), LnkParserError (exactly for an empty file), struct.error (not acceptable, or damaged), TypeError (only with -t: an announced string is missing), IndexError or RuntimeError (only without -t); (3) the default code page is the library's, an empty -c means the same; (4) with -t it writes, for every well-formed link and without a warning, exactly the command line, or with -j a JSON object holding it, and a line feed, whatever -a says; (5) with -j it writes ASCII JSON that tells exactly the contents of the link, all with -a, else the reduced ones.", "quantifier": "all file contents (or none), all argument combinations, all usable code pages; (4),(5) all well-formed links", "why_tests_cant": "Tests run the tool on a few files; which exceptions can occur at all and that output is all or nothing is a claim about every file.", "anchors": ["LnkParse3/lnk_file.py main", "LnkParse3/lnk_file.py LnkFile.print_shortcut_target", "LnkParse3/lnk_file.py LnkFile.print_json", "LnkParse3/lnk_file.py LnkFile.print_lnk_file"]}
{"id": "C55", "title": "What does not depend on the code page", "statement": "A link that is well formed for two code pages (its code page texts are the same in both, as Unicode texts always are) is reported identically with both: same size, command line, tree and warnings. A link whose code page texts are ASCII is well formed for every code page that reads ASCII as ASCII, hence reported the same with all of them.", "quantifier": "all well-formed links, all pairs of code pages, all appended data", "why_tests_cant": "Tests use one code page per sample; the claim is over all pairs of code pages.", "anchors": ["LnkParse3/text_processor.py TextProcessor", "LnkParse3/lnk_file.py LnkFile.process"]}
{"id": "C56", "title": "The readable text", "statement": "print_lnk_file writes a title line and the YAML text in which each placeholder became a line break, indented by three blanks on every line that is not blank; nothing else is changed and the indentation is reversible. Consequence (violation): the text EMPTY_LINE_PLACEHOLDER is never written, so names and paths that contain it are not shown as they are.", "quantifier": "all objects, all YAML texts (yaml.dump is a parameter)", "why_tests_cant": "A test shows one text; that a string can never be shown is a universal claim.", "anchors": ["LnkParse3/lnk_file.py LnkFile.print_lnk_file"]}
{"id": "C61", "title": "Overlapping records in a property store", "statement": "A property store of n bytes is reported with at most n storages of at most n values each, and no better bound than quadratic holds: a metadata block of 40 + 4n bytes exists for every n whose report has n storages and (n - 6)(n - 5) / 2 values, because a record may be smaller than its own contents and the parser reads on in the next record (violation: small inputs give large reports).", "quantifier": "all metadata block contents (upper bound); all n with 40 + 4n < 2^32 (lower bound)", "why_tests_cant": "A growth rate is a statement about infinitely many inputs; each single test shows one size.", "anchors": ["LnkParse3/extra/metadata.py SerializedPropertyStorage", "LnkParse3/extra/metadata.py Metadata.property_store"]}
{"id": "C62", "title": "Damage behind a section leaves the sections before it alone", "statement": "Take a well-formed link and replace everything after its link info, after some of its strings, after its string data, or after some of its extra blocks by arbitrary bytes. If the object is constructed, the header, ID list and link info are reported as for the undamaged link with the same warnings, the strings and blocks before the damage are kept in order, and get_json raises only what the extra data raises.", "quantifier": "all well-formed links, all replacement bytes, all code pages", "why_tests_cant": "The replaced bytes are arbitrary and unbounded; tests can only try some corruptions.", "anchors": ["LnkParse3/lnk_file.py LnkFile.process", "LnkParse3/string_data.py StringData", "LnkParse3/extra_data.py ExtraData"]}
{"id": "C63", "title": "A link cut anywhere", "statement": "A well-formed link that is cut to its first n bytes is accepted (with a usable code page, and unless its LinkInfoHeaderSize is a multiple of 65536) exactly if n >= 24 and, when an ID list is announced, n >= 78; otherwise the constructor raises the exception for unacceptable bytes. What is cut after the link info is accepted whatever LinkInfoHeaderSize is, and every string and every extra block that ends before the cut is kept in order with its own contents. An object made from a link cut within its header (n < 76) exists but get_json raises struct.error.", "quantifier": "all well-formed links, all cut positions, all environments and code pages, both modes", "why_tests_cant": "Every cut position of every link is meant.", "anchors": ["LnkParse3/lnk_file.py LnkFile.process", "LnkParse3/string_data.py StringData", "LnkParse3/extra_data.py ExtraData"]}
{"id": "C64", "title": "Public methods nothing calls", "statement": "guid() of a header is the class identifier stored in the file; signature() of a control panel category item and of a users files folder item, and file_entry_size() of the latter, are the stored values. extension_block() of a root folder item always raises AttributeError, and store_size() of a metadata block is always 0xA0000009, the signature of the block instead of the size of its property store (both violations).", "quantifier": "all well-formed headers and items; all bytes for store_size and extension_block", "why_tests_cant": "No test calls these methods, and two of them are wrong for every input.", "anchors": ["LnkParse3/lnk_header.py LnkHeader.guid", "LnkParse3/extra/metadata.py Metadata.store_size", "LnkParse3/target/root_folder.py RootFolder.extension_block", "LnkParse3/target/control_panel_category.py", "LnkParse3/target/users_files_folder.py"]}
{"id": "C65", "title": "Kinds of file entries and network locations", "statement": "The flags of a file entry, and of a network location, are the documented name of the low three bits of its type byte, except that a Unicode share is reported as \"Is Unicode directory\" (violation); \"Is Unicode share\" and \"Has CLSID\" are reported for no file entry and no network location whatever its bytes.", "quantifier": "all item bytes", "why_tests_cant": "Absence of two values from all outputs is not a statement about samples.", "anchors": ["LnkParse3/target/lnk_target_base.py", "LnkParse3/target/shell_fs_folder.py ShellFSFolder.flags", "LnkParse3/target/network_location.py"]}
{"id": "C66", "title": "What the report says about the file", "statement": "Two well-formed links whose get_json trees are equal have the same header (times that are both no dates or give the same microsecond in binary64 arithmetic, hence within 320 ticks, show commands other than 3 and 7 not told apart), the same items, LinkInfo, strings, last block of each known kind, unknown blocks up to their digest, and data after them of the same length and digest - whatever the code pages and flags they were parsed with. Conversely links with these contents and the same sizes have equal trees: unused bytes, bytes after terminators, low type bits and earlier blocks of a repeated kind never show.", "quantifier": "all pairs of well-formed links, all trailing bytes, all code pages", "why_tests_cant": "Injectivity of the report is a statement about all pairs of files.", "anchors": ["LnkParse3/lnk_file.py LnkFile.get_json", "LnkParse3/extra_data.py ExtraData.as_dict", "LnkParse3/lnk_targets.py", "LnkParse3/lnk_info.py"]}
{"id": "C67", "title": "When a well-formed link is warned about", "statement": "A well-formed link whose required values are as required, whose codes are all known and whose times lie in the years 1 to 9999 is constructed and reported, in both variants of get_json, without any warning. Conversely a well-formed link that is reported without a warning has all these properties.", "quantifier": "all well-formed links, all trailing bytes, all code pages", "why_tests_cant": "Silence is claimed for all links of an infinite family, and the converse for all silent ones.", "anchors": ["LnkParse3/lnk_file.py LnkFile.get_json", "LnkParse3/decorators.py", "LnkParse3/lnk_header.py", "LnkParse3/lnk_targets.py"]}
{"id": "C68", "title": "Growth of the report", "statement": "The report of an accepted file of n bytes has at most 2(n+20)^3 values and characters of text, for every code page that decodes to at most one character per byte (cp1252 does), and the text print_json prints has at most 263(n+20)^3 characters. The order of growth is attained: any well-formed link can be given a metadata block of at most 640k+303 bytes so that it is still accepted and the report, and the text print_json prints, have a size of at least 13(k^3-k). 640 kB thus suffice for 13 GB.", "quantifier": "all files, all code pages with at most one character per byte, all k with a block size below 2^32", "why_tests_cant": "The bound is about all files; files that attain it are too expensive to test.", "anchors": ["LnkParse3/lnk_file.py LnkFile.get_json", "LnkParse3/extra/metadata.py Metadata.property_store", "LnkParse3/extra/metadata.py SerializedPropertyStorage", "LnkParse3/lnk_targets.py", "LnkParse3/extra_data.py"]}
{"id": "C69", "title": "What the printed report determines", "statement": "In every tree get_json returns, the keys creation_time, accessed_time, modified_time and modification_time hold None or a real calendar date, and no other key or list holds a date. Hence two accepted files give the same print_json text exactly when their trees agree up to the order of dictionary entries and the sub-second part of dates. For well-formed links the full printed text determines the header (the second of each time), all items, link info, string texts, the last block of each known kind, all unknown blocks, and length and digest of appended data; only the order of blocks of different kinds is lost compared with the tree. Conversely links with the same contents and sizes print the same text, whatever the order of blocks of different kinds.", "quantifier": "all pairs of accepted files with any options; all pairs of well-formed links, code pages and trailing data", "why_tests_cant": "It compares all pairs of files; a collision of two reports is not found by sampling.", "anchors": ["LnkParse3/lnk_file.py LnkFile.print_json", "LnkParse3/lnk_file.py LnkFile.get_json", "LnkParse3/utils.py parse_filetime", "LnkParse3/extra_data.py ExtraData.as_dict"]}
{"id": "C70", "title": "When get_json returns, and what it raises otherwise", "statement": "For every constructed object, get_json returns, in both modes, exactly if: the header has 76 bytes and the file is as long; no item of the ID list is too short for the fields of its class and no network location lacks the NUL-terminated strings its flags announce; the fields of the link info, of its volume id or of its network link and the announced optional ones lie in the file; no Darwin block has a Unicode descriptor of fewer than 20 characters, or fewer than 20 behind its first '>'; no shell item block contains a network location without its strings. Otherwise it raises what belongs to the first of these faults in the order header, items, link info, blocks: struct.error, RuntimeError for network locations, IndexError for Darwin blocks. print_json raises the same.", "quantifier": "all byte strings accepted by the constructor, all usable code pages, both modes", "why_tests_cant": "It is an exact condition on all byte strings; each of the conditions can be met or missed in infinitely many ways.", "anchors": ["LnkParse3/lnk_file.py LnkFile.get_json", "LnkParse3/lnk_targets.py LnkTargets.as_list", "LnkParse3/target/network_location.py", "LnkParse3/info/local.py", "LnkParse3/info/network.py", "LnkParse3/extra/darwin.py", "LnkParse3/extra_data.py ExtraData.as_dict"]}
{"id": "C71", "title": "Which extra blocks are reported, and which are announced as missing", "statement": "For every file whose report exists: a name of a known block is a key of extra exactly if some block of that name has the fields its kind needs (console properties 144 bytes, tracker 96, code page 12, special folder 16, known folder 28; a property store whose records end with a zero size and whose values have named types; a shell item list without fault; a Darwin block whose descriptor is long enough), and the entry is the report of the last such block. Unknown blocks are all listed in file order. TERMINAL_BLOCK is there exactly if appended data was allowed and there are more than four bytes. Each block that is left out gives exactly one warning with its name, in file order, and no other block gives one.", "quantifier": "all byte strings accepted by the constructor, all usable code pages, both modes, both values of allow_terminal_block", "why_tests_cant": "The condition is exact on all byte strings; tests try a few truncations of a few blocks.", "anchors": ["LnkParse3/extra_data.py ExtraData.as_dict", "LnkParse3/extra_factory.py", "LnkParse3/extra/metadata.py", "LnkParse3/extra/console.py", "LnkParse3/extra/distributed_tracker.py"]}
{"id": "C72", "title": "What a warning says about the file", "statement": "The warnings of the constructor are, in order: twice that the header size is not 76; that the flags of the announced link info are missing; texts of the string data; that the count of an announced string is missing; one for each block without signature; that the size of the last block is incomplete; each exactly if that is so. Every warning of get_json, even if it raises, says something true: a header field is not what it must be or a header time is outside the years 1 to 9999; a number in an item has no name or a time is none; a text could not be decoded; a tracker field is not what it must be; a block cannot be reported. Conversely wrong header fields, header times outside the years 1 to 9999 (C79 says exactly which) and wrong tracker fields are always announced.", "quantifier": "all byte strings accepted by the constructor, all usable code pages, both modes", "why_tests_cant": "It speaks about all warnings on all inputs; a test sees only the warnings of its samples.", "anchors": ["LnkParse3/lnk_file.py LnkFile.process", "LnkParse3/lnk_header.py", "LnkParse3/decorators.py", "LnkParse3/string_data.py", "LnkParse3/extra_factory.py", "LnkParse3/extra_data.py"]}
{"id": "C73", "title": "All warnings of a report, in order", "statement": "For every file whose report exists and whose shell item blocks can be reported, the warnings of get_json other than undecodable texts and unreportable blocks are exactly, in this order and with these values: the class id if it is not the shell link class; each header time that is neither zero nor a date; header size and the three reserved fields, each if it is not what it must be; for each item of the ID list in order, its type byte if no class has it, then the category, sort index or kind without name and the time that is no date; for each extra block in file order, length and version of a tracker block if they are not what they must be, and the items of a shell item block.", "quantifier": "all byte strings accepted by the constructor whose report exists, all usable code pages, both modes", "why_tests_cant": "It fixes the whole list of warnings for every input; a test compares the warnings of a few files.", "anchors": ["LnkParse3/lnk_file.py LnkFile.get_json", "LnkParse3/target_factory.py", "LnkParse3/target/lnk_target_base.py", "LnkParse3/target/shell_fs_folder.py", "LnkParse3/target/root_folder.py", "LnkParse3/target/control_panel_category.py", "LnkParse3/extra/distributed_tracker.py", "LnkParse3/extra/shell_item.py", "LnkParse3/decorators.py"]}
{"id": "C74", "title": "Every value of the report, read off the bytes", "statement": "For every file whose full report exists, its entries are exactly those described on the bytes: the size read; the header's 17 entries, each number, GUID, time (the microsecond IEEE 754 arithmetic gives), name or list of bit names from its offset; if an ID list is announced, its size, index and one dictionary per item with the entries of the item's class, each from its place in the item (numbers, GUIDs, DOS times, code page or Unicode texts, network location pieces, control panel strings, embedded file entries); of the link info the numbers, the texts whose offsets are not zero, and the volume or network part; the announced strings within their lengths; of every extra block its size and fields (console, tracker, Darwin descriptor with unpacked GUIDs, property stores, folders, shell items, digests), of a name the last reportable block, all unknown blocks in order, and the bytes behind the terminal block iff asked for.", "quantifier": "all byte strings accepted by the constructor whose report exists, all usable code pages, with and without terminal blocks", "why_tests_cant": "It ties every value of every report to the bytes it comes from, for malformed files as well; tests compare a few files.", "anchors": ["LnkParse3/lnk_file.py LnkFile.get_json", "LnkParse3/lnk_header.py", "LnkParse3/lnk_targets.py", "LnkParse3/target", "LnkParse3/info", "LnkParse3/string_data.py", "LnkParse3/extra", "LnkParse3/extra_data.py", "LnkParse3/utils.py", "LnkParse3/text_processor.py"]}
{"id": "C75", "title": "The description of the report leaves nothing open", "statement": "A dictionary meets the description of the report of a file (C74) if and only if it is the report get_json returns: same keys in the same order, same values, header times to the microsecond included.", "quantifier": "all byte strings accepted by the constructor whose report exists, all usable code pages, with and without terminal blocks, all dictionaries", "why_tests_cant": "It says that no freedom is left in the description for any file: a parser with a different report on some file violates C74 there; tests can only compare samples.", "anchors": ["LnkParse3/lnk_file.py LnkFile.get_json", "LnkParse3/extra_data.py", "LnkParse3/lnk_header.py"]}
{"id": "C76", "title": "What the message of a warning tells", "statement": "The text of every warning of the constructor and of get_json can be read back without knowing the file: a reader that knows only the sentence patterns finds the kind of the warning, the field with required and actual value, the bytes of the invalid time, the number without a name, or the name of the block; and what it finds is true of the bytes of the file (that field is there and has that other value, those eight bytes are a header time outside the years 1 to 9999, that block cannot be reported, ...). Two warnings with the same text, of one file or of two, are the same up to the text that could not be decoded and the exception that is quoted. This holds whatever text the quoted exceptions have.", "quantifier": "all byte strings accepted by the constructor, all usable code pages, both modes, all exception texts", "why_tests_cant": "It compares the texts of all possible warnings of all files with each other and with the bytes; tests of messages look at single sentences.", "anchors": ["LnkParse3/decorators.py must_be", "LnkParse3/utils.py parse_filetime, parse_dostime", "LnkParse3/target_factory.py", "LnkParse3/target/lnk_target_base.py", "LnkParse3/target/root_folder.py", "LnkParse3/target/control_panel_category.py", "LnkParse3/extra_data.py", "LnkParse3/extra_factory.py", "LnkParse3/info_factory.py", "LnkParse3/string_data.py", "LnkParse3/text_processor.py", "LnkParse3/lnk_targets.py"]}
{"id": "C77", "title": "What another code page changes", "statement": "For one file and any two usable code pages: the constructor accepts or raises the same; size is the same; get_json returns under both or raises the same exception under both, in either mode. If no non-empty byte string is read as the empty text, the full reports have the same keys in the same order everywhere and the same values, except for texts under the keys of code page texts, and two such texts are what the one and what the other code page makes of the same bytes of the file. The warnings are the same except for those about undecodable texts (those of get_json other than about unreportable blocks: provided the shell item blocks can be reported).", "quantifier": "all byte strings, all pairs of usable code pages, both modes, with and without terminal blocks", "why_tests_cant": "It compares runs under all pairs of code pages on all files; tests use one code page per sample.", "anchors": ["LnkParse3/text_processor.py TextProcessor", "LnkParse3/lnk_file.py LnkFile", "LnkParse3/lnk_info.py", "LnkParse3/info/network.py"]}
{"id": "C78", "title": "Code pages of one byte per character", "statement": "A code page that decodes each byte by a table (some bytes possibly undefined) meets the conditions on code pages of the other claims: usable, at most one character per byte, nothing non-empty read as empty. A string is read by the table; if a byte is undefined, as UTF-8 if it is that; otherwise by the table with U+FFFD for undefined bytes and one warning quoting the result. If the table is total, every string is read by it up to the first NUL, never as UTF-8, and without warning. A table with the ASCII characters in their places reads ASCII as ASCII. Windows-1252 is such a table.", "quantifier": "all tables, all byte strings", "why_tests_cant": "All tables and all strings; tests use cp1252 and a few others on samples.", "anchors": ["LnkParse3/text_processor.py TextProcessor.read_string, read_strings"]}
{"id": "C79", "title": "Which date a FILETIME is, to the microsecond", "statement": "Every 64-bit FILETIME v other than zero stands for exactly one instant: the microsecond obtained by rounding (v - 1970)/10^7 to the nearest binary64 number (ties to even), splitting off whole seconds, rounding the product of the rest with 10^6 to binary64 and then to the nearest integer (ties to even). If this lies in the years 1 to 9999 the date reported is that instant, without warning; otherwise nothing is reported and the eight bytes are quoted in a warning. The latter happens exactly for v below 0001-01-01 minus 38 ticks and from 10000-01-01 minus 152 ticks on: the last 152 ticks of the year 9999 are rejected, the 38 ticks before the year 1 are reported as 0001-01-01T00:00:00.", "quantifier": "all 64-bit values", "why_tests_cant": "2^64 values; the four values at which acceptance changes are found only by analysing the rounding.", "anchors": ["LnkParse3/utils.py parse_filetime", "datetime.fromtimestamp"]}
{"id": "C80", "title": "Everything that is said and raised, in order", "statement": "For arbitrary bytes, the exact sequence of warnings and the exception, if any, that ends the work are those listed by a description that walks through the bytes in the order of the format: the header size twice, the announced strings, the extra data; then, for a report, class id, times, size and reserved fields of the header, the target items, the link info and each block of the extra data. Every text that is read appears at its place, with its warning if it is not decodable, as often as it is read; an exception ends the work, and within a block struct.error and ValueError become a warning. This holds for the constructor, get_json, print_json, the readable form and the command-line tool with any options (with -t: TypeError exactly if the announced relative path or arguments string is cut off). The sequence does not depend on the reduction of the report.", "quantifier": "all byte sequences, all code pages (known, unknown or failing with an exception the parser does not handle itself), all options", "why_tests_cant": "The sequence depends on the joint state of all sections; a repeated, missing or reordered warning shows only for inputs with several defects at once.", "anchors": ["LnkParse3/lnk_file.py process, get_json, print_json, print_lnk_file, print_shortcut_target, main", "LnkParse3/text_processor.py", "LnkParse3/extra_data.py as_dict", "LnkParse3/decorators.py"]}
{"id": "C81", "title": "What a command line means", "statement": "The tool accepts a command line exactly if it consists of recognized options and one file name, which stands between them, behind a final '--', or directly before one. Options are long names or any non-empty beginning of them, clusters of letters, and a code page attached, after '=', or as the next word; a word is an argument if it does not start with a dash, is a single dash, or looks like no option and is a negative number or contains a blank. What is then asked for is what the options set, the last code page counting, cp1252 if there is none. The help is printed (status 0) exactly if a request for it is reached with no ambiguous word before '--' and only complete options and arguments before the request; every other command line is refused (status 2). Every file name and every combination of arguments can be asked for. No file but the named one is read, and none if the command line is not accepted.", "quantifier": "all lists of strings, all file systems", "why_tests_cant": "Infinitely many command lines; abbreviations, clusters, attached values, negative numbers and double dashes interact.", "anchors": ["LnkParse3/lnk_file.py main", "argparse (Python 3.11)"]}
{"id": "C82", "title": "What the default (reduced) report tells", "statement": "Two well-formed links have the same get_json(False) tree exactly when: their headers agree except for the size and the reserved fields (times as in C66); their items agree except for the date of file entries (a file entry inside a users files item keeps it); their LinkInfo has the same flags, texts, Unicode offsets, drive type, serial number and label, or network flags, provider and names, wherever these stand - names in code page form that are empty are not told from missing Unicode ones; strings, last block of each known kind, unknown blocks and order of block names agree; the links have the same size and what follows has the same length and digest. The size of the ID list, all other offsets and sizes, and unused bytes never show. print_json() without -a gives the same text exactly under the same conditions with times to the second and blocks of different kinds in any order.", "quantifier": "all pairs of well-formed links, all trailing bytes, all code pages", "why_tests_cant": "An equivalence over all pairs of files: neither a collision nor a hidden dependence on left out fields is found by sampling.", "anchors": ["LnkParse3/lnk_file.py LnkFile.get_json", "LnkParse3/lnk_file.py LnkFile.print_json"]}
{"id": "C83", "title": "Which characters reach the terminal", "statement": "(1) With -j the tool writes printable ASCII (0x20-0x7E) and line feeds only, whatever the file and the other options; with -t -j it writes nothing, or exactly one line of printable ASCII. (2) Without -t and -j it writes no other character unless yaml.dump does. (3) With -t and without -j nothing is escaped: for every text without NUL of at most 65535 UTF-16 units there is a file for which the tool writes exactly that text and a line feed, so escape sequences and extra lines in the arguments reach the terminal (violation of the expectation that a parser for hostile files prints safely).", "quantifier": "all file contents, all code pages, all option combinations, all results of yaml.dump; (3) all texts without NUL that fit", "why_tests_cant": "That no control character is ever written is a claim about every file and every nested value; tests look at the output of a few files.", "anchors": ["LnkParse3/lnk_file.py main", "LnkParse3/lnk_file.py LnkFile.print_shortcut_target", "LnkParse3/lnk_file.py LnkFile.print_json", "LnkParse3/lnk_file.py LnkFile.print_lnk_file"]}
{"id": "C84", "title": "What the readable output tells", "statement": "For any two accepted files and either report (with or without -a), the trees handed to yaml.dump by print_lnk_file are equal exactly when the get_json trees are equal after removing r_drive_type from a location whose drive_type is None. So renaming keys, replacing flags by texts, dropping r_ entries and the raw hot key, and moving class names to the front lose nothing but the number of a drive type that has no name; two files whose drive types have names have the same readable tree exactly when they have the same JSON tree.", "quantifier": "all pairs of file contents whose construction and get_json return, both report modes, all usable code pages", "why_tests_cant": "Injectivity over all pairs of files: a sample never shows that two different trees collide, nor that none do.", "anchors": ["LnkParse3/lnk_file.py LnkFile.print_lnk_file", "LnkParse3/lnk_file.py LnkFile.get_json", "LnkParse3/lnk_file.py LnkFile.format_linkFlags"]}
{"id": "C85", "title": "Schema of the report", "statement": "Every dictionary returned by get_json - full or reduced, for any file that is accepted - follows one fixed schema: the entries it must have, may have (alone or in pairs) and their order; for each entry its kind of value: unsigned 8, 16 or 32 bit number, signed 16 or 32 bit number, text, one of a given list of texts, identifier in the form 8-4-4-4-12, hexadecimal number, date of the years 1 to 9999, DOS date of 1980 to 2107 with an even second, null where null is possible; eleven forms of items told apart by class; two forms of network links; thirteen kinds of extra blocks, each at most once. Only the size of the file and of a terminal block have no fixed bound: they are at most 2^34 more than the length of the file. So every number in the report is from -2^31 to 2^34 plus the length of the file.", "quantifier": "all file contents whose construction and get_json return, both report modes, terminal blocks allowed or not, all usable code pages", "why_tests_cant": "A schema is a claim about every report; tests see the kinds of values their few files happen to have (a null drive type, a missing offset, a nested file entry may never occur in them).", "anchors": ["LnkParse3/lnk_file.py LnkFile.get_json", "LnkParse3/lnk_targets.py LnkTargets.as_list", "LnkParse3/extra_data.py ExtraData.as_dict", "LnkParse3/lnk_info.py", "LnkParse3/lnk_header.py"]}
{"id": "C86", "title": "Nesting of the report", "statement": "In every dictionary returned by get_json (full or reduced, any accepted file) at most seven lists and dictionaries are one in the other, the report itself included; in the dictionary print_lnk_file hands to yaml.dump at most eight. Both bounds are reached. So the recursive functions that walk the report (json.dumps, make_keys_nice, yaml.dump) recurse to a depth that no file can raise, although ID lists occur in blocks and file entries in items.", "quantifier": "all file contents whose construction and get_json return, both report modes, terminal blocks allowed or not, all usable code pages; every value at every position in the tree", "why_tests_cant": "That no file nests deeper is a claim about all files; a test can only show how deep its own are.", "anchors": ["LnkParse3/lnk_file.py LnkFile.get_json", "LnkParse3/lnk_file.py LnkFile.print_lnk_file", "LnkParse3/extra/metadata.py", "LnkParse3/extra/shell_item.py", "LnkParse3/target/users_files_folder.py"]}
{"id": "C87", "title": "How many warnings", "statement": "Making the object calls warnings.warn at most 13 times, whatever the bytes. Making the report calls it at most n^2 + 6 n + 16 times for a file of n bytes, and at most 6 n + 16 times if no extra block has the signature of a property store; the command-line tool at most n^2 + 6 n + 29 and 6 n + 29 times. The square is not an artefact: to the extra data of every well-formed link a block of 32 k + 16 bytes can be written with which the file is accepted and its report warns at least k (k - 1) / 2 times (640 kB, 200 million warnings).", "quantifier": "all byte strings, all arguments, both report modes, all code pages whose exceptions are not handled (Spec.Log.Tame); lower bound: all well-formed links, all k for which the size of the block can be written", "why_tests_cant": "The upper bound is about every file; the lower bound is about a family of files of any size, of which a test can run only small members.", "anchors": ["LnkParse3/text_processor.py TextProcessor.read_unicode_string", "LnkParse3/extra/metadata.py", "LnkParse3/extra_factory.py", "LnkParse3/lnk_file.py LnkFile.get_json", "LnkParse3/decorators.py"]}
{"id": "C88", "title": "What allow_terminal_blocks changes", "statement": "For arbitrary bytes, LnkFile(..., allow_terminal_blocks=True) and LnkFile(..., allow_terminal_blocks=False) give the same warnings and the same exception, if any. If both return, the two objects give the same command; they are equal in every respect unless a terminal block of value zero ends the extra data and at least one byte follows it. In that case size is the length of the file with the option; without it, it is less by the number of bytes behind the terminal block (and by up to two more bytes when a block without signature precedes it); and in both modes get_json gives the same warnings and the same exception, and the report with the option is the report without it in which size is replaced and TERMINAL_BLOCK, with the number of bytes from the terminal block on and the digest of those behind it, is the last entry of extra.", "quantifier": "all byte strings, both sources, all code pages whose exceptions are not handled (Spec.Log.Tame), both report modes", "why_tests_cant": "That an option changes nothing else is a statement about all other entries of all reports and about all warnings and exceptions; a test compares the two on its own files.", "anchors": ["LnkParse3/extra_data.py ExtraData.process", "LnkParse3/extra_data.py ExtraData.size", "LnkParse3/lnk_file.py LnkFile.process", "LnkParse3/lnk_file.py LnkFile.get_json", "LnkParse3/extra/terminal.py"]}
{"id": "C89", "title": "More bytes behind a complete file change nothing", "statement": "A file is complete if it has a terminal block, every block of extra data has a signature, and the numbers and texts the link info points to end within the file (wherever they are, overlapping or not). With allow_terminal_blocks=False, appending arbitrary bytes to a complete file changes neither the warnings nor the exception of the constructor; if it returns, the two objects have the same size, which is where the terminal block ends, give the same command, and get_json, print_json and nice_json do the same on both, warnings and exceptions included. So stepping by size over a concatenation of complete accepted files that end with their terminal blocks visits exactly each of them, in order, each reported as on its own. Every well-formed link is a complete file.", "quantifier": "all complete byte strings (well-formed or not), all trailers, both sources, all code pages whose exceptions are not handled (Spec.Log.Tame), both report modes, lists of any length", "why_tests_cant": "Arbitrary bytes, arbitrary trailers and unbounded lists; a read beyond the end shows only with the right bytes behind it.", "anchors": ["LnkParse3/lnk_file.py LnkFile.process", "LnkParse3/lnk_file.py LnkFile.get_json", "LnkParse3/extra_data.py ExtraData.process", "LnkParse3/lnk_info.py", "LnkParse3/info/local.py", "LnkParse3/info/network.py"]}
{"id": "C90", "title": "Bytes behind a file without terminal block become blocks of it", "statement": "When a file ends exactly with a block of extra data, or without such blocks with the last string it announces (no terminal block), and nothing of its link info is cut off, any bytes t behind it are read as if they came behind a 76-byte header that announces nothing. The constructor warns and raises what it does for the file and then what it does for that header with t; the size is the sum of both minus 76; the command is that of the file; the report is that of the file except for its size and its extra data, where the blocks of t are added: of two blocks of a known kind the later one is reported, unknown blocks are listed one after another. In particular the header of a following link is taken for an unknown block of 76 bytes, so the next link is never found.", "quantifier": "all files that end with a block of extra data or with the last announced string, all byte strings behind them, both values of allow_terminal_blocks, all code pages whose codec is well behaved", "why_tests_cant": "The tests contain no file without terminal block that is followed by other bytes; the claim covers every such file and everything that can follow it.", "anchors": ["LnkParse3/lnk_file.py LnkFile.process", "LnkParse3/extra_data.py ExtraData", "LnkParse3/extra_factory.py ExtraFactory"]}
{"id": "C91", "title": "Which characters the messages of warnings are made of", "statement": "(1) Whatever the file and the options, every warning except the one that a text cannot be decoded has a message of printable ASCII characters (0x20-0x7E) and of the characters of the exception it quotes; this holds for the command line tool, the constructor and get_json. (2) The exception quotes the text unescaped (violation of the expectation that a parser for hostile files prints safely): for every text without NUL of at most 65534 UTF-16 units there is a file for which the tool, with every combination of options (-j included), ends normally and issues exactly one warning whose message contains that text as it is, escape sequences and line feeds included.", "quantifier": "all file contents, all options, all code pages whose codec is well behaved, all exception texts; (2) all texts without NUL that fit", "why_tests_cant": "That no message but one kind carries a control character is a claim about every file; that any text at all can be put into a message is a claim about every text.", "anchors": ["LnkParse3/text_processor.py TextProcessor.read_strings", "LnkParse3/text_processor.py TextProcessor.read_unicode_strings", "LnkParse3/decorators.py must_be", "LnkParse3/lnk_file.py main"]}
{"id": "C92", "title": "What is seen of the warnings on standard error", "statement": "With Python's initial warning filters: (1) each call of warnings.warn writes the line it comes from and its message, unless an earlier call in the same process, for this file or another, had the same message on the same line; so a file is silent exactly if all its messages were written before. (2) The command line tool writes every message it issues and no message twice, except that a text that cannot be decoded may be named once by each of the two functions that decode. (3) However many items a file has, at most 256 messages are written about types of items, 16 about kinds of file entries, 256 about sort indices. (4) Violations of the expectation that standard error shows the damage: for every n > 0 there is a file with n console blocks, none of them reported, for which the tool warns n times and writes one message, the same for all n; and for every text without NUL of at most 65533 UTF-16 units there is a file for which the tool issues one warning and writes that text as lines of its own, for instance as messages about blocks the file does not have.", "quantifier": "all sequences of calls, all file contents, all options, all code pages whose codec is well behaved, all exception texts; (4) all n, all texts that fit", "why_tests_cant": "Tests capture the warnings of one file with all filters off; what a reader of standard error sees depends on everything the process warned about before, over all files.", "anchors": ["LnkParse3/decorators.py must_be", "LnkParse3/extra_data.py ExtraData.as_dict", "LnkParse3/text_processor.py TextProcessor.read_unicode_strings", "LnkParse3/target_factory.py TargetFactory", "LnkParse3/lnk_file.py main"]}
{"id": "C93", "title": "Warnings as errors", "statement": "Under python -W error (warnings.warn raises, and no except clause of the package handles UserWarning) the outcome of every computation is put together from those of its parts: it is the computation up to its first warning. The command line tool then does the same as otherwise if it has nothing to warn about; otherwise it writes nothing to standard output and ends with its first warning, even where another exception would follow. How it ends is read off the file by the list of C80; a well-formed link is reported exactly if it is ordinary in the sense of C67.", "quantifier": "all computations built from return, raise, warn, sequence and try; all file contents, all options, all code pages whose codec is well behaved; all well-formed links with anything behind them", "why_tests_cant": "Tests do not run with warnings as errors; that no partial output is ever written and which warning comes first is a claim about every file.", "anchors": ["LnkParse3/lnk_file.py main", "LnkParse3/lnk_file.py LnkFile.print_lnk_file", "LnkParse3/extra_data.py ExtraData.as_dict", "LnkParse3/text_processor.py TextProcessor"]}
{"id": "C94", "title": "The order of blocks of different kinds", "statement": "Take a file that ends with a block of extra data or with the last string it announces, and put two lists of whole blocks behind it, followed by the same bytes that end the list, such that both lists have the same blocks of every kind in the same order within the kind. Then the constructor warns and raises the same for both, size and command are the same, and print_json either fails for both or gives the same text for both, with the same warnings in possibly another order. get_json itself may return the entries of extra in another order.", "quantifier": "all such files, all lists of blocks (damaged contents included), all bytes that end the list, both values of allow_terminal_blocks, both values of get_all, all usable code pages", "why_tests_cant": "Tests have a few files with blocks in one order; the claim is about every rearrangement of the blocks of every file.", "anchors": ["LnkParse3/extra_data.py ExtraData.as_dict", "LnkParse3/extra_factory.py ExtraFactory", "LnkParse3/lnk_file.py LnkFile.print_json"]}
{"id": "C95", "title": "Where bytes can hide in an accepted file", "statement": "Places in a file can hold any bytes of the same number without anything being different: (1) what the size of the header counts behind its 76 bytes of fields, and what the size of an ID list counts behind its terminal id, (2) every byte of a link info that belongs to none of the numbers and texts that are read, so the stretches between and around its texts, and what its size counts behind the last of them, (3) every byte of a block of a kind with fields at fixed places that belongs to no number, no GUID and no text that is reported: what its size counts behind the last such field, for example everything from byte 144 of a console block on, where 60 bytes of the colour table are, and what follows the zero of a text in its field of 260 or 520 bytes. The constructor warns and raises the same, and size, command, get_json, print_json and the dictionary and text of print_lnk_file are the same, with the same warnings. So not everything in a file is shown, and no warning says so.", "quantifier": "all such files (ID lists with any items, any link info, complete or not, any block of the nine kinds with fields behind any file that ends with a block or a string, any bytes behind it), all contents of the stretch, both kinds of input, both values of allow_terminal_blocks and get_all, all code pages that decode without an error of their own", "why_tests_cant": "A test compares files with one or two contents of such a stretch; the claim is that none of all contents is seen by any part of the program.", "anchors": ["LnkParse3/lnk_targets.py LnkTargets._id_lists", "LnkParse3/lnk_info.py LnkInfo", "LnkParse3/extra/console.py Console.color_table", "LnkParse3/extra/code_page.py CodePage", "LnkParse3/lnk_file.py LnkFile.process"]}
{"id": "C96", "title": "Of several blocks of one kind only the last readable one is shown", "statement": "Take a file that ends with a block of extra data or with the last string it announces, and put two lists of whole blocks of the same number of bytes behind it, followed by the same bytes that end the list, none of them one of the blocks for which get_json itself fails. If the blocks of unknown kinds are the same, in the same order, and of every other kind the last block that can be reported is the same, then the constructor does the same, size and command are the same, and print_json gives the same text or raises the same exception. So what an earlier block of the same kind says is never shown, whatever it is and wherever it stands; at most a warning tells that a block could not be read.", "quantifier": "all such files, all pairs of such lists of blocks, all bytes that end the list, both values of allow_terminal_blocks and get_all, all usable code pages", "why_tests_cant": "Tests may have a file with two blocks of a kind; the claim is about every content of every block but the last, for all kinds.", "anchors": ["LnkParse3/extra_data.py ExtraData.as_dict", "LnkParse3/lnk_file.py LnkFile.print_json"]}
{"id": "C97", "title": "What of a shell item is not looked at", "statement": "Of a shell item only these bytes are looked at: its type; for a volume its name up to the zero (or its GUID); for a file entry size, date, attributes and the name up to its zero, so nothing of the extension behind the name, where the long name and more dates are; for a control panel file its signature, offsets and the three texts; for a category its number; for a root folder sort index and GUID; for a control panel item its GUID; for a users files folder its signature, sizes, the inner file entry (as above) and two GUIDs; for a network location its flags, the location and the texts announced by the flags, each up to its zero. Of every other item, with or without a known type, only the size. Two files whose items differ in other bytes cannot be told apart: the constructor warns and raises the same, and size, command, get_json, print_json and the dictionary and text of print_lnk_file are the same, with the same warnings.", "quantifier": "all files with an ID list of any items, all changes of any number of its items outside the bytes named, both kinds of input, both values of allow_terminal_blocks and get_all, all code pages that decode without an error of their own", "why_tests_cant": "A test compares a few contents of one item; the claim is about every content of every unread byte of every item, and about all outputs at once.", "anchors": ["LnkParse3/target/shell_fs_folder.py ShellFSFolder.as_item", "LnkParse3/target/lnk_target_base.py LnkTargetBase", "LnkParse3/target/control_panel_cpl.py ControlPanelCPL", "LnkParse3/target/users_files_folder.py UsersFilesFolder", "LnkParse3/target/my_computer.py MyComputer", "LnkParse3/target/unknown.py Unknown", "LnkParse3/lnk_targets.py LnkTargets.as_list", "LnkParse3/target/network_location.py NetworkLocation"]}
{"id": "C98", "title": "What of the strings is not looked at", "statement": "Of each string that the link flags announce only its count and its characters up to the first zero are looked at, although it takes as many bytes as the count says (at most 260 characters for the first three). The bytes behind that zero can be anything, and so can every other byte between the end of the ID list and the start of the extra data that neither the strings nor the link info (whose texts may lie among the strings) go over: the constructor warns and raises the same, and size, command, get_json, print_json and the dictionary and text of print_lnk_file are the same, with the same warnings. So a command line can have characters that no output shows.", "quantifier": "all files whose sections can be located, truncated or not, all changes of any number of unread bytes from the link info to the end of the strings, both kinds of input, both values of allow_terminal_blocks and get_all, all code pages that decode without an error of their own", "why_tests_cant": "A test compares a few contents; the claim is about every content of every unread byte in every file, including files whose link info points into the strings, and about all outputs at once.", "anchors": ["LnkParse3/string_data.py StringData.read", "LnkParse3/string_data.py StringData.__init__", "LnkParse3/text_processor.py TextProcessor.read_string", "LnkParse3/text_processor.py TextProcessor.read_unicode_string", "LnkParse3/lnk_file.py LnkFile.process"]}
{"id": "C99", "title": "What of a property store, and of shell items in a block, is not looked at", "statement": "In a property store block only the sizes, versions and format ids of the storages, the sizes, ids and names (up to the first zero) of the properties, the types of their values, and the texts of values of type VT_LPWSTR (up to the first zero) are looked at. The values of every other type - numbers, times, GUIDs, vectors, binary data -, the reserved byte of each property, what is behind the zero of a text and what is behind the records can be anything. In a shell item identifier block, of the items as much is looked at as in the ID list (C97), and nothing behind their terminal id. Two files that differ only in such bytes cannot be told apart: the constructor warns and raises the same, and size, command, get_json, print_json and the dictionary and text of print_lnk_file are the same, with the same warnings.", "quantifier": "all files in which such a block follows sections and blocks that are complete, all contents of the block (well formed or not, overlapping records included, for the property store), whatever follows it, all changes of any number of unread bytes, both kinds of input, both values of allow_terminal_blocks and get_all, all code pages that decode without an error of their own", "why_tests_cant": "A test compares a few contents of one store; the claim is about every content of every unread byte in every store, and about all outputs at once.", "anchors": ["LnkParse3/extra/metadata.py TypedPropertyValue.value", "LnkParse3/extra/metadata.py SerializedPropertyStorage.as_dict", "LnkParse3/extra/metadata.py Metadata.as_dict", "LnkParse3/extra/shell_item.py ShellItem.as_dict"]}
{"id": "C100", "title": "All bytes of a file that are looked at", "statement": "A list of byte ranges, read off the file alone, contains every byte that can matter: the header; the size of the ID list, and of each item its size and the bytes named in C97 up to the terminal id; of the link info its first fields and the fields and texts its flags and offsets lead to, texts up to their zeros; the counts of the announced strings and their characters as far as they are read; the size and signature of every block and the bytes of it that its kind needs, including stores and item lists, up to the terminal block (what is behind it only with allow_terminal_blocks). Two files of the same length that are equal in these ranges cannot be told apart, wherever else and however often they differ, in all sections at once: the constructor warns and raises the same, and size, command, get_json, print_json and the dictionary and text of print_lnk_file are the same, with the same warnings.", "quantifier": "all files whose sections have places (the sizes of header, ID list, link info and strings can be read), complete or damaged inside them, all pairs of byte strings of one length that agree on the ranges, both kinds of input, both values of allow_terminal_blocks and get_all, all code pages that decode without an error of their own", "why_tests_cant": "A test compares a few pairs of files that differ in one place; the claim is about every set of unread bytes of every file and all values for them, in all sections at once, and about all outputs.", "anchors": ["LnkParse3/lnk_file.py LnkFile.process", "LnkParse3/lnk_targets.py LnkTargets.as_list", "LnkParse3/lnk_info.py LnkInfo", "LnkParse3/string_data.py StringData", "LnkParse3/extra_data.py ExtraData", "LnkParse3/extra/lnk_extra_base.py LnkExtraBase"]}
{"id": "C101", "title": "Which changes of the header are seen", "statement": "Take two files that differ in their 76 bytes of header fields only, one of which has a full report. The reports are the same exactly if the headers are equal in every field, except that (1) a time may differ as far as its precision in the report loses it (the same microsecond after rounding), (2) times without a date - zero, or outside the years 1 to 9999 - are not told apart, (3) show commands other than 3 and 7 are not told apart. Nothing at all tells the two files apart - constructor, size, command, get_json, print_json, print_lnk_file, and all warnings - exactly if moreover the invalid times, which only warnings name, are the same values in the same order; in which of the three fields they stand is not seen. So every other change of any bit of the header, reserved fields and undefined flag bits included, is seen.", "quantifier": "all pairs of headers (any values of all fields, sizes above 76 included), all bytes behind them with which the first file has a full report, both kinds of input, both values of allow_terminal_blocks, all code pages", "why_tests_cant": "A test shows that some changes are seen; that every one of the 2^608 headers is told from every other one but for the named exceptions is a statement about all pairs.", "anchors": ["LnkParse3/lnk_header.py LnkHeader", "LnkParse3/decorators.py must_be", "LnkParse3/utils.py parse_filetime", "LnkParse3/lnk_file.py LnkFile.get_json"]}
{"id": "C102", "title": "Whether the size of a file is the same whatever follows it", "statement": "With allow_terminal_blocks=False, the size of an accepted file stays the same, and the file accepted, whatever bytes are put behind it, exactly if it has a terminal block and every block of extra data has a signature. So stepping by size over files one behind the other is safe for exactly these. For a file that announces no link info, the warnings of the constructor, the command and the reports in all their forms, too, stay the same whatever follows exactly if the file is complete (C89). With allow_terminal_blocks=True the size is never less than the number of bytes by more than 7 (of a block without signature), so that no file has a size that stays the same whatever follows.", "quantifier": "all accepted byte strings whose link info, if announced, has its flags, all byte strings behind them, all code pages whose exceptions are not handled (Spec.Log.Tame)", "why_tests_cant": "The claim is an equivalence: for every file without terminal block some bytes behind it must be found that change the size, and for the others none may exist.", "anchors": ["LnkParse3/lnk_file.py LnkFile.process", "LnkParse3/extra_data.py ExtraData", "LnkParse3/extra_factory.py ExtraFactory", "LnkParse3/string_data.py StringData"]}
{"id": "C103", "title": "What the size tells about where the file ends", "statement": "The reported size is larger than the file exactly if the file ends before its extra data begin (a declared header, ID list, link info or string runs over the end) or within a block of extra data that has a signature. It is smaller exactly if more than four bytes are left behind the blocks that have a signature: blocks without one and what is behind the terminal block (the latter not with allow_terminal_blocks=True, which counts it). In all other cases the size is that of the file.", "quantifier": "all accepted byte strings, both kinds of input, both values of allow_terminal_blocks, all code pages whose exceptions are not handled (Spec.Log.Tame)", "why_tests_cant": "An equivalence over all accepted files; the tests have no file that is cut or continued.", "anchors": ["LnkParse3/lnk_file.py LnkFile.process", "LnkParse3/extra_data.py ExtraData", "LnkParse3/extra_factory.py ExtraFactory", "LnkParse3/extra/terminal.py Terminal.size"]}
{"id": "C104", "title": "Whether anything said about a file depends on what follows it", "statement": "With allow_terminal_blocks=False and a code page that decodes byte by byte and has the letters A and B where ASCII has them (the default code page does), take an accepted file whose report can be made. The constructor's warnings, the size, the command and the reports in all their forms (get_json, print_json, nice_json) are the same whatever bytes are put behind the file exactly if the file is complete in the sense of C89: it has a terminal block, every block of extra data has a signature, and every number and every text the link info points to ends within the file. So the condition of C89 cannot be weakened: for every file that misses one of its parts there are bytes behind it that are seen.", "quantifier": "all accepted byte strings whose report returns, all byte strings behind them, all code pages that are tables of one-byte characters with A and B at 0x41 and 0x42", "why_tests_cant": "An equivalence: for every incomplete file a trailer that changes something has to be found, for the complete ones none may exist; texts of unbounded length at any offset, in the code page (with its fall-back to UTF-8 and to replacements) and in UTF-16.", "anchors": ["LnkParse3/lnk_file.py LnkFile.process", "LnkParse3/lnk_file.py LnkFile.get_json", "LnkParse3/lnk_info.py", "LnkParse3/info/local.py", "LnkParse3/info/network.py", "LnkParse3/text_processor.py TextProcessor.read_string", "LnkParse3/text_processor.py TextProcessor.read_unicode_string"]}
{"id": "C105", "title": "What the report tells about the link info", "statement": "The link_info entries of the reports of two accepted files (well-formed or not) are the same exactly if neither file has link info of a known kind, or both have link info of the same kind (local or network) with the same 28 bytes of fixed fields (and the next 8 if the header size calls for Unicode offsets), the same fields of the VolumeID (16 bytes, or 20 with a Unicode label) or the CommonNetworkRelativeLink (20 bytes, or 28 with Unicode names), and the same texts at the offsets that are not zero. So every change of a number of the link info is seen, wherever it is, and of the texts exactly the characters up to the first zero.", "quantifier": "all pairs of accepted byte strings whose reports return, both kinds of input, both values of allow_terminal_blocks, all usable code pages", "why_tests_cant": "An equivalence over all pairs of files: no two different link infos may be reported alike, except in bytes that are no number and no character of a text.", "anchors": ["LnkParse3/lnk_info.py LnkInfo", "LnkParse3/info/local.py Local", "LnkParse3/info/network.py Network", "LnkParse3/info_factory.py InfoFactory", "LnkParse3/lnk_file.py LnkFile.get_json"]}
{"id": "C106", "title": "What the report tells about a block of extra data", "statement": "If two accepted files (well-formed or not) both have a readable block of one of the nine kinds with fields at fixed places (all known kinds but the property store and the shell item block), the reports say the same about the last such block of each exactly if the declared sizes are the same and the parts that are looked at are: bytes 8-24, 32-44 and 108-144 and the font name (44-108) of a console block, bytes 8-16 and 32-96 and the machine name of a tracker block, bytes 8-12 of a code page block, 8-16 of a special folder block, 8-28 of a known folder block, the two texts at 8 and 268 of environment, icon and Darwin blocks, the text from 8 of a shim block. So every change of a field is seen, of the texts exactly the characters up to the first zero, and nothing else of the block.", "quantifier": "all pairs of accepted byte strings whose reports return, all pairs of last readable blocks of one such kind, both kinds of input, both values of allow_terminal_blocks, all usable code pages", "why_tests_cant": "An equivalence over all pairs of blocks in all pairs of files: no two blocks with different fields may be reported alike, and no byte outside the parts may matter.", "anchors": ["LnkParse3/extra_factory.py ExtraFactory", "LnkParse3/extra/console.py Console", "LnkParse3/extra/distributed_tracker.py DistributedTracker", "LnkParse3/extra/environment.py Environment", "LnkParse3/extra/darwin.py Darwin", "LnkParse3/lnk_file.py LnkFile.get_json"]}
{"id": "C107", "title": "What the report tells about a property store", "statement": "If two accepted files (well-formed or not) both have a readable property store block, the reports say the same about the last such block of each exactly if the declared sizes are the same and the stores have the same number of storages, each with the same first 24 bytes (size, version, format) and the same number of properties, each with the same first 8 bytes (size, and identifier or name size), the same name if it is named, and the same type; and where the type is VT_LPWSTR, either both or neither has a padding of zero and, if both, the texts are the same up to the first zero. Of the values of all other types, of the reserved byte, of the length of a text and of a padding other than zero nothing is said.", "quantifier": "all pairs of accepted byte strings whose reports return, all pairs of last readable property stores with any number of storages and properties, both kinds of input, both values of allow_terminal_blocks, all usable code pages", "why_tests_cant": "An equivalence over all pairs of stores with any number of records: no two stores that differ in a reported field may be reported alike, and the value of no other type may matter.", "anchors": ["LnkParse3/extra/metadata.py Metadata", "LnkParse3/extra/metadata.py SerializedPropertyStorage", "LnkParse3/extra/metadata.py TypedPropertyValue", "LnkParse3/lnk_file.py LnkFile.get_json"]}
{"id": "C108", "title": "What the report tells about shell items", "statement": "The target entries of the reports of two accepted files (well-formed or not) are the same exactly if both or neither announce an ID list and, if they do, it stands at the same place, states the same size and has the same items, one by one: the same class, and for the class: category id; sort index and GUID of a root folder; low four type bits and name or GUID of a volume; kind, size, date, attributes and name of a file entry (words that are no date are not told apart); kind, content flags and the texts of a network location; signature and the three texts of a control panel file; GUID of a control panel; signature, file entry and the two GUIDs of a users files folder; the stated size of an item of unknown kind; nothing more for the other classes. The same holds for the last readable shell item block of each file, with its declared size.", "quantifier": "all pairs of accepted byte strings whose reports return, any number of items of any class, both kinds of input, both values of allow_terminal_blocks, all usable code pages", "why_tests_cant": "An equivalence over all pairs of lists of any length: no two lists that differ in a reported part may be reported alike, and no other byte may matter.", "anchors": ["LnkParse3/lnk_targets.py LnkTargets", "LnkParse3/target_factory.py TargetFactory", "LnkParse3/target/shell_fs_folder.py ShellFSFolder", "LnkParse3/target/root_folder.py RootFolder", "LnkParse3/extra/shell_item.py ShellItem", "LnkParse3/lnk_file.py LnkFile.get_json"]}
{"id": "C109", "title": "What the report tells about the header of any accepted file", "statement": "The header entries of the reports of two accepted files (well-formed or not) are the same exactly if bytes 0-28, 52-60 and 64-76 are the same, each of the three times is without a date in both or the same microsecond in both (by way of binary64), and the show commands are the same or neither is 3 or 7.", "quantifier": "all pairs of accepted byte strings whose reports return, whatever follows the headers, both kinds of input, both values of allow_terminal_blocks, all usable code pages", "why_tests_cant": "An equivalence over all pairs of headers, of 2^608 each; which pairs of times are shown alike depends on rounding.", "anchors": ["LnkParse3/lnk_header.py LnkHeader", "LnkParse3/utils.py parse_filetime", "LnkParse3/lnk_file.py LnkFile.get_json"]}
{"id": "C110", "title": "When two files have the same report", "statement": "The full reports of two accepted files (well-formed or not) are the same exactly if the number of bytes read is the same and they are the same in each part: the header (C109), the ID list (C108), the link info (C105), the strings (the same ones found, up to the first whose count is cut off, with the same texts, in whichever of the two ways they are stored) and the extra data: readable blocks of the same kinds, first met in the same order; of every known kind, the same declared size and contents (C106-C108) of the last readable one; as many blocks of unknown kinds, one by one with the same declared size and digest; and, if terminal blocks are allowed, the same length and digest of what follows. No other byte of a file shows.", "quantifier": "all pairs of accepted byte strings whose reports return, both kinds of input, both values of allow_terminal_blocks for each, all usable code pages", "why_tests_cant": "An equivalence over all pairs of files of any length: it says of each byte of each file whether and how it shows in the report.", "anchors": ["LnkParse3/lnk_file.py LnkFile.get_json", "LnkParse3/extra_factory.py ExtraFactory", "LnkParse3/extra_data.py ExtraData", "LnkParse3/string_data.py StringData", "LnkParse3/lnk_header.py LnkHeader", "LnkParse3/lnk_info.py LnkInfo", "LnkParse3/lnk_targets.py LnkTargets"]}
