{
 "C07": "The English property is false for ACK frames (verify accepts every ACK-type frame whose start byte is NOT 0xE5; C07_ack_violation). Proved for every other frame type.",
 "C08": "C08_pack_oversized_payload records what happens for data_size > 252.",
 "C100": "Violation: over TCP the bytes read before a timeout are consumed but never reported (mbus-tcp.c:219-231 returns before the callback). Everything else is proved: `C100_recv_events_partial` is the sound part (no invention, no duplication, order), `C100_serial_recv_complete` the completeness for serial lines without read errors. Programs that end with undefined behaviour are covered by C99.",
 "C101": "Blocks and contents in an explicit heap with an arbitrary list of allocation answers. Violations: text of a record with VIF 0x7B/0x7D is lost; record without unit after a failed strdup.",
 "C102": "Partial like C79: the Terse restriction keeps each record within 1024 bytes. C102_exact: the same without any bound on the lengths of the texts, with the outcome (complete, cut, overflow) determined by those lengths; C102_overflow_violation: the overflow happens.",
 "C103": "Heap with an arbitrary list of allocator answers; frames are blocks.",
 "C104": "Violations: a failing write, or a refused selection frame, leaks the copy of the mask. What holds: nothing but mask copies is ever left, and nothing at all if writes succeed and allocations are granted.",
 "C105": "For orderly meters (C46); others double free already with plentiful memory (C46_double_free_violation). Violations: leaked records after a parse error; -2 (refused record) treated as success.",
 "C106": "Doubles are binary64, round to nearest even, exponent unbounded (C106_range: never matters); pow(10,k) is assumed to return the nearest double. Violation: 2^53+1 is delivered as 2^53.",
 "C107": "Proved without VIFE correction for scales 10^-6..10^9 and values that are whole numbers of at most 53 bits or fractions up to 1500000000 (all counters of at most 32 bits are such); counterexamples outside.",
 "C108": "The catalogue (Spec/Products.lean) lists one entry per product, independent of the order of the code.",
 "C109": "C109_frame_partial: NULL with an unchanged heap or exactly one new block with a closed document of the first records of each telegram (restriction on record texts as in C56). False in full: C109_cut_violation (a refused record makes mbus_data_variable_parse return -2, which mbus_frame_xml does not treat as an error: the remaining records of the telegram are missing without notice), C109_leak_violation (with a malformed later telegram the text buffer and records leak, as in C78). C109_granted: with every allocation granted the heap model agrees with the model of C56-C58, C76-C78 for every chain. C109_frame_exact: mbus_frame_xml on the heap for records of any length, with the outcome determined by the lengths of the texts; C109_overflow_violation: the overflow happens with every allocation granted.",
 "C110": "C110_line_partial: by induction over histories. C110_codes: the return codes. C110_others_partial: other devices are left alone, if the descriptor field of the new handle is negative. False in full: C110_connect_violation (the result of tcsetattr is not looked at when connecting, success is reported with the line unset), C110_uninitialised_violation (a rate set before the first connection goes to whatever descriptor the uninitialised field names).",
 "C111": "C111_label_partial, C111_unambiguous, C111_all_named, C111_quantity_partial, C111_custom, C111_prefix. False in full: C111_label_violation (codes 0x79 and 0x7E are labelled Unknown), C111_quantity_violation (quantity of 0xFD 0x30 is Reserved), C111_correction_violation (the label ignores a correcting VIFE: 5 kWh and 5 * 1000 kWh are shown alike).",
 "C112": "C112_stateless, C112_lifetime (the table invalidatedBy is the documentation a caller needs), C112_needed (the table cannot be shortened; XML functions and the address aside).",
 "C113": "C113_variable, C113_frame, C113_normalized give the exact outcome for all lengths (no restriction as in C56/C79 beyond the storage number of C33); C113_complete, C113_frame_complete, C113_limits: when it is complete; C113_uncut, C113_readout: the texts are those of C56 if shorter than 762. C113_cut: a telegram whose document is cut without notice. C113_wellFormed: well-formed (with its final line feed) exactly if complete. C113_normalized_wellFormed: the normalised text is well-formed exactly if complete.",
 "C114": "C114_text, C114_record, C114_xml (end to end with C113, without hypotheses on the texts of time stamps), C114_unique, C114_order; C114_late, C114_late_content: after year 9999. gmtime and strftime of the C library are part of the model (by repeated subtraction of years and months); the specification is the POSIX formula for seconds since the Epoch.",
 "C115": "Each theorem is an equivalence between acceptance with a certain result and the documented form. mbus-serial-scan-secondary: C115_serial_scan_secondary_partial (documented lines are accepted), C115_serial_scan_secondary_only (what is accepted), C115_scan_secondary_violation (anything in place of -b).",
 "C116": "One theorem per tool, in terms of Spec.Usable, Spec.report; the tool with option -d is that of C118. C116_leak_violation, C116_status_violation. What a failing program holds when it ends is not stated (the operating system reclaims it).",
 "C117": "End to end: composes C115, C116 and the theorems on connected tools (C87-C95, C118); the text includes the output of option -d. C117_raw_send_no_file: a file that cannot be opened is noticed only after the meter was selected. C117_searched_violation, C117_cut_violation.",
 "C118": "C118_*_same: both versions of each tool related over an arbitrary link (Spec.Alike, Spec.Verbose). C118_*_wire: the exact text; C117 states it for the programs. The dumps of every telegram on standard error (C100) are not part of it. The other tools print nothing more on standard output with -d.",
 "C119": "Spec.Wrong, Spec.Faulty, Spec.Broken, Spec.NotParsed: which defect has which message. Each theorem also says that the function with its message has the result of the function without it (Model/Frame etc.). C119_serial_recv_partial, C119_serial_violation, C119_serial_timeout_violation: the serial line.",
 "C120": "Whole programs; composes C98, C119 and C96/C118 (dump). C120_binary_partial: files that are telegrams. C120_checksum_violation, C120_start_violation, C120_error_violation. Diagnostics the library writes on standard error during normalisation are not included.",
 "C121": {
  "note": "Client loops over mbus_read_slave on a bus whose answers may be late. C121_late_violation: for every address list the replies are shifted by one. C121_punctual, C121_purge_resync and C121_secondary are the parts that hold.",
  "status": "proved"
 },
 "C122": {
  "note": "The session functions again with their stderr lines and error_str; C122_same relates them to Model/Session. C122_stale_violation, C122_broken_violation: diagnostics that mislead; C122_scan_only_stderr: a failure only stderr shows. Not modelled: lines printed by the serial transport itself, lines for NULL arguments and failed allocations.",
  "status": "proved"
 },
 "C123": "Spec/Crash: a meter's persistent state and how telegrams change it, independent of the model. Kill points are the prefixes of the log of calls; a telegram cut off in the middle of a write is not understood by any meter (checksum), so these are all. Identification numbers with the digits A..E are excluded in the statement because the selection telegram then names other meters (C50_hex_digit_violation).",
 "C124": {
  "note": "Model/Process runs the functions with diagnostics (Model/Diag) over handles that share error_str; Spec/Process is one handle without it. Schedules are at the granularity of calls: the library has no locks and makes no claim for concurrent threads (two probes in parallel share the static buffer of mbus_frame_get_secondary_address). C124_stderr_violation: the diagnostics are not independent.",
  "status": "proved"
 },
 "C125": {
  "status": "proved",
  "note": "Spec/Lossy: the bus answers a selection like a faithful bus or not at all. C125_scan and C125_scan_all are the analogues of C74_exact and C48, C125_tool of C94. C125_data_lost_violation proves the last sentence of the statement. Answers that arrive damaged count as collisions (C75) and are not covered."
 },
 "C126": {
  "status": "proved",
  "note": "Model/Reads: the receive functions with a count of their reads (C126_receive: nothing else changes). C126_program by a potential: reads + 7*pending - 7*arrived - 12*sent. C126_silent is exact. The three _violation theorems prove the last sentence of the statement: endless lines are approximated by their beginnings (Spec/Reads `Settles`), which C126_lookahead justifies."
 },
 "C127": {
  "status": "proved",
  "note": "Model/Threads spells the functions of Model/Statics out as sequences of single byte loads and stores (exec_call: alone they do the same); Spec/Threads interleaves them. C127_apart covers every schedule; freedom from data races justifies the sequentially consistent interleaving (C11 5.1.2.4). C127_race and C127_swapped prove the last two sentences. mbus_vib_unit_lookup is excepted in C127_swapped because it may return a constant. Not modelled: error_str and parse_debug."
 },
 "C128": {
  "status": "proved",
  "note": "The statement contains the false part (a scan reports the meters that are there) as what happens instead; the positive case d = 0 is included in C128_shifted (and C88, C89, C94 for prompt buses). One meter per address for the primary scan; retries only for a delay of one transmission."
 },
 "C129": {
  "status": "proved",
  "note": "The statement contains the false part (a value is a decimal numeral in every locale). iscntrl and the decimal point are parameters; other functions that look at the locale (isspace in mbus_hex2bin, strtod is not used) are taken in the C locale."
 },
 "C130": {
  "status": "proved",
  "note": "The statement contains the false part (the same numbers everywhere). int has 32 and long long 64 bits; size_t and time_t are not varied."
 },
 "C131": {
  "status": "proved",
  "note": "The statement is restricted to readouts whose records fit (the restriction of C56 and C79), where the document is complete; without it C56 and C79 are false."
 },
 "C132": {
  "status": "proved",
  "note": "The statement leaves out code 0x279 and the fixed units of C38 where table and documentation disagree."
 },
 "C133": {
  "status": "proved",
  "note": "The statement says where control characters do pass (C133_raw, C133_values). Documents: under the conditions of C113 (storage numbers that fit an int). For the parse tools: telegrams of variable data under the hypotheses of the C98 theorems; for the request tools under those of the C117 theorems (Props/TameMain.lean). Bytes from 0x80 on are not restricted."
 },
 "C134": {
  "status": "proved",
  "note": "The statement lists the exceptions (C134_medium, C134_error, C134_fixed, C134_normalized, C134_wrong_reading) and the failing telegram (C134_neither). The source files' own encoding is read from /repo: they are UTF-8. C134_unit leaves out custom VIFs (0x7C, 0xFC), whose text is the meter's."
 },
 "C135": {
  "status": "proved",
  "note": "The order is that of the decoded fields (C18), whether or not there is such a day in the calendar. C135_summer is about 4-byte times; C135_summer_instance is a pair of records in which the later has the smaller text."
 },
 "C136": {
  "status": "proved",
  "note": "The statement includes the exception (C136_turkish, C136_witness). The locale is a parameter of the model (Model/Ctype.lean); C136_c_locale proves that in the C locale it is the model the other properties are about. Negative arguments of isalpha and toupper (bytes from 128 on) are taken as glibc takes them."
 },
 "C14": "False as stated (byte order, C14_roundtrip_violation; the sign overwrites a digit, C14_negative_violation); what the encoder does write is proved exactly.",
 "C25": "False as stated: '5G', '-1', '+5' are converted (C25_invalid_pair_violation). Proved: every other invalid pair stops the conversion.",
 "C27": "False as stated: three kinds of out-of-bounds access, each with a witness (C27_*_violation). Proved: no fault up to 142 payload bytes, no read fault up to 250, and these three are the only faults for any payload.",
 "C28": "Proved for payloads up to 250 bytes including faults, and for all sizes up to undefined behaviour; with 251 bytes a stale byte decides whether the parse is undefined (C28_violation).",
 "C30": "False as stated (C30_violation). C30_pack_emits gives the exact packed bytes for every parsed telegram; identity proved for fixed data, one-byte errors and variable data without fillers, manufacturer blocks and plain-text units.",
 "C33": "Tariff and device proved in full. Storage number: exact iff at most 8 DIFEs and below 2^31; otherwise the int shift is undefined (C33_storage_violation).",
 "C36": "Width table proved in full; LVAR 0xC1-0xC9 and 0xD1-0xD9 take twice the bytes of EN 13757-3 (C36_lvar_violation).",
 "C37": "False as stated for the VIF-extension code 0x79 of table FD (scale) and for 0x208/0x209/0x230/0x231 (unit): C37_scale_violation, C37_unit_violation. Every other entry proved against the specification table.",
 "C38": "Text and normalised unit disagree for codes 0D,0E,15-1C,2F,30 (C38_violation); agreement proved for every other plain code.",
 "C45": "False for max_frames = 0, documented as no limit: at most one telegram is read (C45_no_limit_violation). Proved for positive limits.",
 "C46": "False for a meter that announces more records and then sends an error or fixed telegram (C46_double_free_violation: double free) and for telegrams with a broken record (C46_leak_violation). Proved for orderly meters and for single-telegram requests on any bus.",
 "C47": "Classification for every handle behaviour, wire-level classification for every chunking. False as stated for garbage: with the default purge mode a damaged telegram whose direction bit says 'master' is taken for an echo and a second receive follows, so the outcome is NOTHING (violation theorem). That SINGLE implies a successful receive of an acknowledge needs purge mode other than S2M.",
 "C49": "Termination for every bus on both transports (up to the C27 memory errors when an address is read), refinement, bound, recursion only after a collision and always after one, completeness while no probe fails. 'Never the same mask twice' is false when the last mask character is fixed and an earlier one is a wildcard: a collided mask is probed again at position 15 (violation theorem); proved otherwise.",
 "C50": "False for identification numbers with a nibble A..E (the packer subtracts '0'): C50_hex_digit_violation. Proved for decimal digits and the wildcard F.",
 "C54": "Proved in full for five commands; mbus_send_select_frame always sends one legal selection telegram or refuses, its content is proved for decimal/F identification digits (C50_hex_digit_violation for the rest). C54_select_violation: with identification digits A..E the selection telegram names another identification number.",
 "C55": "False for the reserved addresses 251 and 252, which are transmitted although the documented range is 0..250 (C55_reserved_address_violation).",
 "C56": "False: a single 252-byte telegram makes mbus_frame_xml write behind its buffer (C56_overflow_violation: 1024 bytes are reserved per record but a record's XML can have about 1850), and texts whose escaped form exceeds 767 bytes are cut (C56_truncate_violation). Proved complete when the escaped unit and value of each record have together at most 671 characters, for any number of records and telegrams.",
 "C57": "False: a fixed-data or error telegram after a telegram with records makes mbus_frame_xml print the freed records (C57_violation; general form C57_error_violation). Proved for all chains without such later telegrams.",
 "C58": "Proved under the restrictions of C56 (escaped texts fit, storage numbers fit an int). C58_overflow_violation: a telegram of 33 proper records whose document is written outside the buffer (C113 says exactly when this happens).",
 "C61": "Heap model: append, list release, frame chain release, all append histories with arbitrary malloc addresses, and mbus_frame_data_free. Recursion depth (stack) is not modelled.",
 "C62": "Entries as byte ranges of the register.",
 "C63": "All histories of set/reset calls. The message must not be the error string itself (overlapping snprintf).",
 "C64": "Proved for every lookup; record_unit truncates a 127+ character text for VIF 0x7C/0xFC custom units with multiplier (C64_*violation), everything else partial theorem.",
 "C66": "Proved for the configuration with IEEE floats on little-endian hosts; the portable variant is wrong for subnormal numbers, infinities and NaNs, and the memcpy variant on big-endian hosts (C66_*_violation).",
 "C69": "Storage numbers for which the library's own computation is undefined (C33) are excluded by StorageOk. double arithmetic is modelled by exact rationals.",
 "C70": "False: an ordinary text record with VIF 0x7B or 0x7D loses its allocated text (C70_leak_violation); these are the only cases.",
 "C71": "False for non-empty raw blocks: size is 3n, the text has 3n-1 characters (C71_size_violation). Proved for every other text.",
 "C74": "Proved for masks that leave at least one digit of the identification number open. A mask that fixes the whole identification number finds nothing (violation theorem), because manufacturer digits are enumerated in decimal nibble by nibble although they are compared as bytes. C74_exact: for every mask and every set of meters, exactly which meters are reported; C74_full_address: a complete address reports its meter if it is the only one.",
 "C76": "Proved under the restrictions of C56. C76_violation: a telegram of 33 proper records whose document is cut and so not well formed.",
 "C78": "False: a refused later telegram loses the text buffer, a defect inside a telegram loses the records read before it (violation theorems). Proved for every call that returns a document.",
 "C79": "C79_partial: complete document for every list of delivered records whose normalised texts are at most 671 (745 without tariff) escaped characters; C79_plain_partial: when that holds; C79_overflow_violation: a 250-byte telegram whose normalised XML is written behind the 8192-byte buffer; C79_other_types: dispatch on fixed/error data.",
 "C81": "False: the library prints the last byte first (C81_order_violation), unlike the XML recorded in test/test-frames (52 of the 162 recorded files differ from what the code prints, only in this). Proved: no byte is lost, the order is exactly reversed, and it equals the transmission order only for palindromes.",
 "C82": "False for fixed units 0x0D and 0x0E (labels exchanged against the documented table, C82_fixed_unit_violation); everything else proved.",
 "C83": "False in three ways: after a refused TCP connection the number of the closed socket is kept and mbus_disconnect closes whatever has this number (C83_stale_violation); before the first attempt the field is uninitialised (C83_uninitialised_violation); connecting twice loses a descriptor (C83_reconnect_violation). Proved for all histories that avoid these.",
 "C86": "Proved for finite values below 2^31 with the arithmetic of binary64; larger values, infinity and NaN make the conversion to int undefined (C86_timeout_violation).",
 "C87": "Proved for every handle on which a failing receive does not fake an acknowledge; C87_transports shows that both transports are such.",
 "C88": "Proved over the byte-level transports with meters that answer in arbitrary chunks.",
 "C89": "Proved as stated for the telegrams; \"texts that are not an address are refused\" is false: atoi takes any text as a number (C89_malformed_violation).",
 "C90": "False as stated: the reply object is not initialised, so a noise byte can be reported as success (C90_junk_violation) and any other reply makes mbus_frame_print follow an uninitialised pointer (C90_pointer_violation). The partial theorems assume the stack content is benign; the wire theorems hold without that.",
 "C91": "The log theorem C91_request holds for every handle; the completeness on the wire inherits the restrictions of C56 (bounded texts, storage numbers), hence partial. C91_wire_exact: the exact outcome for texts of any length (document, beginning of it, or a write outside the buffer, by C113); C91_cut_violation: a telegram for which the tool prints a document without its end and reports success.",
 "C92": "The log theorem C92_multi holds for every sound handle; the completeness on the wire inherits the restrictions of C56 (bounded texts, storage numbers), hence partial. C92_wire_exact: the exact outcome for texts of any length. C92_cut_violation: a bus on which the tool prints only the first 8191 characters of the document and reports success (C92_wire_exact says exactly when).",
 "C93": "Refusal of non-hexadecimal text is false (C93_not_hex_violation: a character that is not a hexadecimal digit is skipped with C25, and the rest is sent). Everything else is proved; a file longer than 4096 characters is cut off (part of the model).",
 "C94": "Exactness on the wire is proved for masks on the identification number with a wildcard; for a mask that fixes the whole identification number it is false (inherits C74_fixed_id_violation). C94_wire_exact: for every mask and every set of meters, exactly which lines are printed (by C74_exact). C94_fixed_id_violation: a mask that fixes the identification number: the selected meter is not listed.",
 "C95": "Table of all runs proved when the uninitialised frame does not look like an acknowledge; exact on the wire for none or one matching meter. False for two meters acknowledging one after the other (exit 0), for answers without an address (NULL printed with %s) and for non-acknowledge answers (uninitialised next pointer followed): violation theorems.",
 "C96": "Exact text proved for telegrams of at most 256 bytes on the wire; false for longer ones (buffer of 256 bytes in mbus_frame_print, error of mbus_frame_pack not noticed): C96_long_violation.",
 "C97": "Exact text proved for all accepted data with the names the code uses (dumpFunctions, dumpUnits); with the correct names for instantaneous and error-state values only: maximum/minimum values are called error state (C97_function_violation).",
 "C98": "Proved end to end for records whose texts fit (C56); outcome table for every file. mbus_parse is false: it ignores the error of mbus_frame_data_parse and prints a document of the records before the fault with status 0 (C98_binary_violation). C98_hex_exact, C98_binary_exact: the exact outcome for texts of any length. C98_hex_normalized_exact, C98_binary_normalized_exact: the same with the option -n.",
 "C99": "Programs are values of `Call` run one after the other on the model of the handle (Model/Calls.lean); the proof lifts a per-call invariant to histories by induction on the program."
}