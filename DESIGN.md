# Formal model of rscada/libmbus in Lean 4

## 1. Trusted base

* Lean 4.33.0's kernel. No axioms are added. Every theorem listed in MANIFEST.json depends on at most
  `propext`, `Classical.choice`, `Quot.sound` (checked with `#print axioms`; the list per theorem is in section 6).
  No `native_decide`, no `bv_decide`, no compiled evaluation. `decide +kernel` is evaluated by the kernel.
* The reading of the C source. The model was written by reading `/repo/mbus/*.c` as text; each definition cites file
  and lines. Nothing links the model to the compiled program except that reading (plus a comparison of the model
  against the telegrams with recorded XML shipped in `/repo/test/test-frames`, section 7).
* The C semantics assumed: LP64 (`int` 32 bit, `long`, `long long`, `size_t` 64 bit), two's complement, C locale for
  `ctype.h` (except in C129 and C136, where what the code sees of the locale is a parameter: `Model/Locale.lean`, `Model/Ctype.lean`),
  UTF-8 execution character set.
* The numbers behind the constants that theorem statements use by name are fixed in `Props/Header.lean` (`header_values`,
  `termios_values`).

## 2. Modelling conventions

* A byte is `UInt8`. A fixed-size C array `unsigned char a[n]` is a `List UInt8` whose length is part of the type
  (`Buf n`); caller buffers are plain `List UInt8` and their length is the allocation size.
* A C function that can have undefined behaviour is a function into `C α = Except Fault α`. Every array access goes
  through a bounds-checked accessor; out-of-bounds access, signed overflow, oversized shift, double free, use after
  free and NULL dereference are *distinct outcomes* (`Fault`), never silently totalised.
* Loops whose bound is not structurally evident take fuel; exhaustion is the outcome `outOfFuel` and a theorem shows it
  is unreachable - that theorem is the termination proof.
* Environment calls (`read`, `write`, `select`, the handle's `send`/`recv` function pointers) are parameters: scripts of
  events for the receive loops, an arbitrary state machine `Link` for the protocol layer. All theorems quantify over
  all of them.
* `double` is modelled by `Flt` (`Model/Double.lean`): signed finite values with an exact rational magnitude, infinities and NaNs with
  sign; constants, conversions, products and sums are rounded to 53 significant bits, ties to even. The exponent is unbounded:
  `C106_range` shows that no value comes near the limits of binary64. `pow(10, k)` for -6 <= k <= 1 is taken as the `double` nearest to
  10^k (glibc documents < 1 ulp; for these arguments it is correctly rounded). A NaN made by an operation has the sign bit set, as on
  x86. `%f` prints the decimal nearest to the exact value, ties to even (glibc).
* Callbacks: the `found` and `progress` callbacks of the scan are operations of the handle (`Ops.found`, `Ops.progress`); the
  send and receive event callbacks are modelled in `Model/Events.lean` (C100). `MBUS_DEBUG` output is dropped.
* Memory: the functions that compute are modelled without a heap (allocation succeeds); the functions that own memory are
  modelled a second time on an explicit heap of blocks where every allocation may fail (`Model/Lifecycle`, `Model/Owned`,
  `Model/SessionMem`, `Model/XmlMem`), and theorems `..._same` and `..._granted` tie both models together. Simplification there: the bytes of frame objects,
  records and of the copy of the address mask are not stored in their blocks (only ownership is tracked); texts are.

## 3. Files

| file | contents |
|---|---|
| `Verif/Base.lean` | faults, buffers, C helper semantics |
| `Verif/Model/*.lean` | the model, function by function, each with file:lines |
| `Verif/Spec/*.lean` | small independent specifications used in theorem statements |
| `Verif/Lemmas/*.lean` | helper lemmas |
| `Verif/Props/*.lean` | property theorems and, beside each, an example that its hypotheses are met |

## 4. Plan per property

Status words: *full* = the English statement is proved; *false* = the code violates it: negation proved on a concrete
witness and the strongest true part proved with suffix `_partial`.

| id | model | proof plan |
|---|---|---|
| C01-C10 | `mbus_parse`, `mbus_frame_verify/pack/calc_*` byte for byte | grammar as separate inductive/`def`; full functional characterisation of parse, corollaries. C07 *false* for ACK. |
| C11-C12 | int/long/long long en/decode with explicit 32/64-bit bounds | induction over byte lists, closed form `twosComp` |
| C13-C15 | BCD | induction; C14 *false* (encode is big-endian, decode little-endian) |
| C16-C17 | manufacturer | 5-bit field arithmetic |
| C18-C19 | `mbus_data_tm_decode`, sprintf of dates | bit-field spec by `/`,`%`; decide over finite byte ranges |
| C20-C25 | str/bin/xml/hex | list induction; C25 *false* |
| C26-C32 | `mbus_data_variable_parse` over a 252-byte buffer with stale bytes | refinement to a record grammar; C27 *false* for data_size >= 143, proved below; C30 *false* for custom VIF / 0x0F,0x1F |
| C33 | storage/tariff/device with 32-bit shifts | bit assembly; *false* (UB) from the 8th DIFE |
| C34-C36 | fixed parse, dispatch, length table | direct / finite tables |
| C37-C39 | vif_table, fixed_table, normalisation in double arithmetic | table exhaustively against spec formula; C37, C38 *false* for listed codes |
| C40-C42 | the two receive loops over event scripts | induction over scripts; refinement to "first frame of the stream" |
| C43-C46 | `mbus_sendrecv_request` over arbitrary handle operations with a passive call log (`C43_log_passive`), pointer state of the record list | loop invariants over the log; C45 *false* for `max_frames = 0`, C46 *false* (double free, leak) |
| C73 | the same on a bus with a meter that follows the FCB rule and loses exchanges | induction over telegrams and lost exchanges |
| C47, C59, C60 | select / recv_frame / read_slave over `Link` | case analysis |
| C48, C49, C74, C75 | scan / probe over `Ops` with a log; scan over an arbitrary faithful bus (`Spec/Scan.lean`) | induction over the position; the log is a passive observer |
| C50-C52 | secondary address functions | C50 *false* for A-E identification nibbles |
| C53-C55 | options and commands | invariants; C55 *false* for 251,252 |
| C56-C58 | XML generation over growing buffer with explicit size_t | C56, C57 *false*; partial for telegrams with bounded text |
| C76-C78, C80 | the same XML model; `Spec/Xml.lean` defines documents as data and well-formedness inductively | buffer invariants; C78 *false* |
| C79 | `mbus_data_variable_xml_normalized` | same buffer invariant; *false* for long texts |
| C61-C63 | list/heap operations, slave table, error string | induction |
| C64-C65 | lookup tables | finite case analysis lifted to all arguments |
| C66-C68 | `Model/Value`: float_decode (three variants), record_decode, record_value, variable_value_decode | `Spec.meaning`/`Spec.shown`/`Spec.Decoded` give the intended meaning of a record; case analysis on the DIF nibble, buffers of arbitrary previous content; reals are signed dyadic values, infinities and NaNs |
| C69-C72 | parse_variable_record, parse_fixed_record | composed from C33, C37, C39, C67; leak is an explicit output of the model |
| C81 | `mbus_data_bin_decode` as called by `mbus_data_record_decode` | the dump is injective and complete (`_partial`); its byte order is the reverse of the recorded XML (*false*, witness) |
| C82 | the label look-up functions against tables written separately in `Spec/Labels.lean` | equality for all codes, distinctness of assigned codes; fixed unit codes alias (*false*, witness) |
| C83 | `mbus_connect`/`mbus_disconnect`, serial and TCP, over a descriptor table shared with other code (`Model/Lifecycle.lean`) | invariant over histories; *false* after failed connects and stale descriptors (witnesses) |
| C84 | `mbus_context_serial/tcp`, `mbus_context_free` over a heap of blocks with failing allocations | case analysis over allocation outcomes, induction over histories |
| C85 | `mbus_serial_set_baudrate`, `mbus_serial_connect` against the table of `mbus_send_switch_baudrate_frame` | equality of tables for all longs; arithmetic for timeouts |
| C86 | `mbus_tcp_set_timeout_set`, the port `snprintf` | rational arithmetic with the two roundings of the code; *false* for values needing rounding, witness |
| C87, C88 | the main loops of `mbus-serial-scan`/`mbus-tcp-scan` on a connected handle (`Model/Tools.lean`), output as a list of lines | log of the handle against the table `Pinging` for arbitrary `Ops`; then over the byte-level transports with a faithful bus |
| C89 | `mbus-serial-set-address` incl. `atoi` | log of an arbitrary handle; wire-level run; *false* for texts that are not numbers, witness |
| C90 | `mbus-serial-switch-baudrate`, `mbus-tcp-application-reset`; the uninitialised reply object is an arbitrary input | case analysis; *false* for unlucky stack contents, witnesses |
| C91, C92 | the request-data and multi-reply tools on a connected handle, composed from selection, request, receive, parse and XML | log of an arbitrary handle; wire-level run composed from C56, C73 and a simulation lemma that shifts the bus history (`bus_simulates`) |
| C93 | the raw-send tool: hexadecimal conversion, parse, send, receive | log of an arbitrary handle; wire-level run from C24/C25, C05 and the bus lemmas |
| C94 | the scan-secondary tools; the printing callbacks of the scan as a handle that collects lines (`Ops.printing`) | simulation: the printed lines are a function of the log (`Lemmas/ToolScan.lean`), then C49, C74, C75 |
| C95 | the select-secondary tools, with the uninitialised frame object as an arbitrary input | table of runs over an arbitrary handle; wire-level runs from the bus lemmas; counterexamples |
| C96, C97 | the print functions (`Model/Print.lean`) as functions to bytes | exact text against a line-by-line specification (`Spec/Print.lean`), from C05/C29/C34; *false* for telegrams over 256 bytes and for the names of maximum/minimum values, witnesses |
| C98 | `test/mbus_parse.c`, `test/mbus_parse_hex.c` after option parsing (`Model/ParseTools.lean`) | composed from C24, C05, C56, C96; *false* for `mbus_parse`, witness |
| C99 | a program is a list of API calls (`Model/Calls.lean`: 16 kinds of calls) on a handle of either kind | per-call invariant over an arbitrary link (`Lemmas/Calls.lean`), lifted to histories by induction |
| C100 | a handle with both event callbacks registered is a link that also collects the calls of the callbacks (`Model/Events.lean`); the dump callbacks are functions to bytes | simulation (callbacks change nothing), the same per-call invariant for the reports, injectivity of the trace; completeness of the receive reports *false* over TCP, witness |
| C101 | an explicit heap of blocks with contents and an arbitrary list of answers of `malloc` (`Model/Owned.lean`); the record is a structure of pointers | case analysis over every allocation, the new blocks are a permutation of the record's own blocks; freeing them restores the heap; *false* for unassigned VIFs and for completeness, witnesses |
| C102 | the same heap around the XML loop with `realloc` | loop invariant: the new blocks are the buffer and lost texts; equal to C79's text when every allocation is granted |
| C103 | the commands with `mbus_frame_new` that may fail and `mbus_frame_free` (Model/SessionMem) | one lemma for the common shape (allocate, act, release), then each command |
| C104 | probe and scan with frames, parsed records and the copy of the mask on the same heap | `Frugal`: faults, blocks left behind and equality with the heap-free model, composed along the loops; induction over the position |
| C105 | `mbus_sendrecv_request` with request frame, record lists and the chain of replies on the heap | well-founded induction as for C46 with the invariant that the new blocks are exactly the chain |
| C106 | IEEE binary64 rounding in every step of the normalisation (`Model/Double.lean`) | `dbl` is a nearest 53-bit number; relative error calculus (`Lemmas/Rel.lean`); range by lower and upper bounds through every operation; *false* above 53 bits, witness |
| C107 | the same composed with `%f` in the normalised XML | the total error stays below half a unit of the sixth decimal; *false* for more than 32 bits or scales below 10^-6, witnesses |
| C108 | `mbus_data_product_name` as rules in code order (`Model/Products.lean`) | against an unordered catalogue; reduction to one key and four classes of media, then evaluation over the codes of every entry and every rule |
| C109 | `mbus_frame_xml`, `mbus_frame_data_xml`, `mbus_data_variable_xml` with every allocation, release and refusal (`Model/XmlMem.lean`) | induction over records and telegrams with the invariant that exactly the buffer and the records of the current telegram are live; agreement with `Model/Xml.lean` by simultaneous induction |
| C110 | `mbus_serial_connect`, `mbus_serial_set_baudrate`, `mbus_serial_disconnect` on full `struct termios` values with the Linux flag values (`Model/Termios.lean`) | induction over histories with the invariant that the handle's settings differ from 8E1 raw in the speed only |
| C111 | the label functions of `Model/Unit.lean` | documented names, multiples and unit words as an independent table (`Spec/VifNames.lean`); the kernel evaluates every code, lifted to all records by the mask lemmas |
| C112 | `Model/Statics.lean`: the static arrays as memory, nested lookups write theirs and `snprintf` reads them | per function: which buffers it writes, where its result may point, what it shows; framing over histories by induction; table checked by cases |
| C113 | `Model/Xml.lean` as for C56; `Spec/XmlExact.lean`: an account of the room in the buffer by lengths only | simulation of the memory buffer by the account (`Shows`), piece by piece, through records, telegrams and chains; arithmetic on the account for the limits |
| C114 | `Model/Stamp.lean`: `gmtime`, `strftime`, the 22-byte array, the test `timestamp > 0`; `Spec/Stamp.lean`: the POSIX formula for seconds since the Epoch, ISO 8601 texts | induction over years and months against the POSIX formula; monotonicity of the formula and of fixed-width digits for the order; C113 for the document |
| C115 | `Model/Main.lean`: option parsing of the 14 tools, `atol`; `Spec/Main.lean`: the documented forms | case analysis on the number of arguments; induction on the argument list for the option loops; *false* for one tool, witness |
| C116 | `Model/Main.lean`: `main` of the 14 tools around the connected tools of `Model/Tools.lean` and the handle life cycle of `Model/Lifecycle.lean` | composition of the life-cycle functions (C83-C85) with the tool as a black box, for any process state; *false* for leak and status, witnesses |
| C117 | the same with the bus of `Model/Bus.lean` behind each target, and the text of each line of output | composition of C115, C116 with C87-C95; *false* in two cases, witnesses |
| C118 | `Model/Debug.lean`: the tools with the output under `if (debug)`; `Spec/Debug.lean` | relation between the two programs by induction on their structure, for any link; exact lines by counting the pings transmitted |
| C119 | `Model/Messages.lean`: the functions that fail, with the text they store in `error_str`; `Spec/Messages.lean` | each function equals its silent version when the text is dropped; inversion of every failing path into a described defect; witnesses for the serial line |
| C120 | `Model/ParseMain.lean`: both programs from the command line to exit status, standard output and standard error; `Spec/ParseMain.lean` | case analysis over the parser's result, with C119 for the messages and C98 for the documents; for every wrong checksum the two runs are compared |
| C121 | client loops over `readSlave` (`Spec/Poll.lean`) on `busLink`; a late answer is data already on the line | induction over the address list with the content of the line as invariant; three line states (user data, acknowledge, clean) for the secondary case |
| C122 | `Model/Diag.lean` (session functions with stderr lines), `Model/DiagLink.lean` (handles with `error_str`); `Spec/Diag.lean` derives the lines from the calls on the handle | case analysis of each function, induction over retries, mask positions and the request loop; simulation onto `Model/Session`; inversion for the silence theorems |
| C123 | `Spec/Crash.lean`: meters (address, secondary address, selection, baud rate), what telegrams do to them, what was heard of a prefix of the log | from the logs of C87, C89–C92, C94, C95: every telegram but one command is harmless; the prefix either contains that command or not; for a secondary address the selection before it determines who listens |
| C124 | `Model/Process.lean`: several handles sharing `error_str`, schedules of calls; `Spec/Process.lean`: one handle alone | the text in `error_str` does not matter to any call (simulation of C122); induction over the schedule |
| C125 | the scan of C48/C74 over a bus that loses selections (`Spec/Lossy.lean`) | invariant of the retry loop: the identical selections at the end of what was sent, plus the tries left, exceed the losses; then the induction of C48/C74 |
| C126 | the receive functions of both transports with a count of their reads (`Model/Reads.lean`), the link with that count (`Model/ReadsLink.lean`) | bounds by induction over the script; programs by a potential function through every session function; silence by the same with equalities; endless lines: what a call does with n results waiting is unchanged by more if it made at most n reads |
| C127 | the text functions as sequences of byte accesses (`Model/Threads.lean`), threads, schedules and data races (`Spec/Threads.lean`) | refinement of Model/Statics by each function; footprint of each function; invariant over schedules with a ghost memory per thread; races and the swap by driving the threads one after the other to the access in question |
| C128 | a bus with delayed answers (`Spec/Late.lean`), the tools of Model/Tools on it | induction over the addresses with the last transmission as invariant; the secondary scan by an invariant that a request is always met by the answer to the selection before it |
| C129 | `Model/Locale.lean`: the functions that print values and XML with the decimal point and `iscntrl` as parameters; `Locale.c` gives the functions of Model/Value and Model/Xml | a simulation between the two runs that keeps the position since the last tag; the exact documents by the proofs of C113 with blanked texts |
| C130 | `Model/Platform.lean`: the functions that use `long` or plain `char`, with the width and the signedness as parameters; `Machine.lp64` gives the functions of the other modules | exact value or overflow of the accumulating loop; the other results by showing that every conversion keeps its value |
| C131 | the documents of C56, C77 and C79; `Spec/XmlInject.lean` says what a reader of the document learns | the text of a document determines its elements (names end at the first non-letter, texts contain no `<`), the elements determine numbers and texts (numerals and escaping are injective) |
| C132 | the normalised values of C106 and the printed numbers of C107; `Spec/Order.lean` reads a printed number | rounding to the nearest `double` and to the nearest millionth is monotone; so is each operation with a positive factor |
| C133 | the documents of C113, C57 and the dumps of C96, C97 as texts; `Spec/Tame.lean` says which bytes are harmless | every piece of a document or dump is a numeral, a label or an escaped text, and each of these is made of printable characters; a cut text is a beginning |
| C134 | the documents of C113 and all label functions; `Spec/Charset.lean` has the two readings of a text | a text reads the same in both sets iff it is ASCII; every label is checked, and a document is ASCII iff its pieces are; for the witness, a byte 0x80-0xBF after an ASCII byte cannot occur in UTF-8 |
| C135 | the texts of C19 and the fields of C18; `Spec/DateOrder.lean` has the order of days and times | every field is printed with a fixed number of digits, most significant field first; three cases (before, same, after) give the equivalences |
| C136 | `Model/Ctype.lean`: both functions with `isalpha`, `isspace`, `toupper` as a parameter; `Spec/Ctype.lean` says what locales have in common | for ASCII text the parameter's values are those of the C locale, except for `toupper('i')`; the exception by arithmetic on the three digits of the number |

## 5. Not modelled

* Socket options (the calls appear as nondeterministic answers only), real time. Terminal settings are modelled in `Model/Termios` (C110);
  the other models of the serial handle have speed and timeout only.
* Allocation failure is modelled in `Model/Lifecycle` (C84), `Model/Owned` (C101, C102), `Model/SessionMem` (C103-C105) and `Model/XmlMem` (C109); elsewhere
  allocation is assumed to succeed.
* Command-line tools in `bin/`: messages on standard error, what a failing program has not released when it ends. In
  `Model/Tools.lean` the dump of an unexpected reply is an abstract line (the dump itself is C96); `Model/Main.lean` gives every line its text.
* Rounding modes other than to nearest, excess precision (x87), subnormal doubles (never reached, C106_range).

## 6. Axioms

`#print axioms` for the 636 theorems of MANIFEST.json (written by `tools/axioms.py`).

* no axiom (2): C65_prefix_unambiguous, C130_int_violation.
* propext (28): C17_other, C23_unescape_escape, C23_injective, C25_invalid_pair_violation, C61_append_null, C64_product, C82_fixed_unit_violation, C82_medium, C82_medium_distinct, C108_makers, C115_serial_request, C115_tcp_request, C115_serial_scan, C115_tcp_scan, C115_serial_select, C115_tcp_select, C115_set_address, C115_switch_baudrate, C115_tcp_optional, C115_tcp_scan_secondary, C115_serial_scan_secondary_partial, C115_serial_scan_secondary_only, C115_scan_secondary_violation, C134_medium, C136_hex, C136_c, C136_turkish_utf8, C136_witness.
* Quot.sound, propext (105): C08_pack_bounds, C08_pack_oversized_payload, C10_calc_idempotent, C12_int_decode, C12_long_decode, C12_long_long_decode, C12_size_zero, C13_bcd_decode, C13_any_digits, C14_roundtrip_violation, C14_bcd_negative_partial, C15_bcd_hex, C15_hex_text, C18_type_G, C18_type_F, C18_type_I, C18_other_size, C20_str_decode, C20_str_decode_twice, C23_no_markup, C24_bounds, C24_inverse, C24_inverts_dumps, C25_stops_partial, C27_read_violation, C27_text_violation, C27_special_violation, C28_violation, C30_error, C30_violation, C34_fixed_iff, C34_fixed_roundtrip, C35_refuse, C35_error, C35_dispatch, C36_width, C36_lvar_partial, C36_lvar_violation, C43_log_passive, C47_purge_result, C49_passive, C49_limits, C50_select_pack_partial, C50_hex_digit_violation, C52_address_validation, C61_append, C61_free, C61_frame_free, C61_built, C61_history, C63_error_string, C64_prefix, C64_vif, C64_record_unit_violation, C75_outcomes, C75_mask_length, C82_fixed_medium, C82_fixed_unit_partial, C83_descriptors_partial, C83_stale_violation, C83_uninitialised_violation, C83_reconnect_violation, C84_handle_memory, C86_port, C87_refused, C87_passive, C88_lines, C89_numeral, C89_negative, C89_refused, C93_primary_unused, C96_frame_print_partial, C96_long_violation, C96_type_violation, C96_none, C97_function_violation, C104_scan_refused, C110_others_partial, C110_connect_violation, C111_prefix, C111_label_violation, C113_limits, C113_uncut, C115_serial_multi, C115_tcp_multi, C116_serial_scan, C116_switch_baudrate, C116_status_violation, C118_scan_same, C118_set_address_same, C118_scan_secondary_same, C119_read_back, C119_select, C119_tcp_connect, C122_command_silent, C126_interrupted_violation, C130_storage_tariff, C130_secondary_address, C130_number, C133_dumps, C134_ascii, C134_only_ascii, C134_error, C134_wrong_reading, C136_c_locale.
* Classical.choice, Quot.sound, propext (501): C01_pack_parse_roundtrip, C02_parse_pack_roundtrip, C03_parse_accepts_iff, C03_parse_delivers, C04_need_more_lower_bound, C04_need_more_exact, C05_prefix_not_rejected, C06_single_byte_corruption, C07_verify_iff_wellformed_partial, C07_ack_violation, C09_parse_safe, C09_parse_stale_independent, C10_calc_then_verify, C11_encode_decode, C11_decode_encode, C13_bcd_decode_negative, C14_bcd_reversed_roundtrip_partial, C14_bcd_one_byte_partial, C14_bcd_negative_digit_partial, C14_negative_violation, C15_bcd_hex_injective, C16_encode_decode, C16_decode_encode, C17_letters, C17_agrees_with_encode, C18_ranges, C19_date, C19_date_time, C21_bin_decode, C21_bin_decode_lossless, C22_xml_bounds, C22_xml_complete, C23_output_unescapes, C26_terminates, C26_count, C27_safe_partial, C28_payload_only_partial, C29_tiles, C29_accepts, C30_pack_emits, C30_variable_partial, C30_fixed, C31_more_iff, C31_special_last, C32_bounds, C33_tariff_device, C33_storage_partial, C33_storage_violation, C37_scale_partial, C37_extension_bit, C37_unknown, C37_unique, C37_scale_violation, C37_unit_violation, C38_agree_partial, C38_time, C38_violation, C39_multiplicative, C39_additive, C39_thousand, C39_other, C39_no_extension, C39_unknown, C39_missing, C39_extension, C39_custom, C40_tcp_recv_delivers, C40_tcp_recv_outcome, C41_serial_recv_delivers, C41_serial_recv_outcome, C41_serial_silent_timeout, C41_serial_third_empty_invalid, C42_recv_bounded, C43_fcb_alternates, C44_retries_bounded, C44_ending, C44_exhausted_fails, C45_max_frames_partial, C45_no_limit_violation, C46_records_freed_partial, C46_single_telegram_partial, C46_double_free_violation, C46_leak_violation, C47_classification, C47_single_acknowledged, C47_wire, C47_echo_like_garbage_violation, C48_scan_finds_all, C49_terminates, C49_refines, C49_bound, C49_only_after_collision, C49_after_collision, C49_complete, C49_probes, C49_once_partial, C49_repeated_mask_violation, C50_select_reported_address_partial, C51_secondary_address_format, C51_secondary_address_exists, C51_secondary_address_injective, C53_options_stay_legal, C53_option_effect, C54_request, C54_ping, C54_baudrate, C54_application_reset, C54_user_data, C54_select_partial, C54_receiver_accepts, C54_not_a_terminal, C54_select_violation, C55_set_primary_partial, C55_reserved_address_violation, C56_variable_partial, C56_frame_partial, C56_plain_partial, C56_overflow_violation, C56_truncate_violation, C57_partial, C57_error_violation, C57_violation, C58_overflow_violation, C58_partial, C59_second_receive, C59_echo, C60_read_slave, C60_wire, C62_slave_register, C64_fixed, C64_medium_error, C64_vib, C64_record_unit_partial, C65_prefix, C65_prefix_fd, C66_ieee_partial, C66_ieee_value, C66_portable_partial, C66_portable_violation, C66_host_violation, C67_safe, C68_text, C68_integer, C68_bcd, C68_real, C68_string, C69_accepts, C69_labels, C69_number, C69_not_finite, C69_reserved, C69_words, C70_no_leak_partial, C70_leak_violation, C71_size_partial, C71_size_violation, C72_fixed, C73_lossy_readout, C74_scan_mask_partial, C74_fixed_id_violation, C74_exact, C74_full_address, C75_probe, C76_violation, C76_wellFormed_partial, C77_fixed, C77_error, C77_frame, C78_returned_partial, C78_buffer_violation, C78_violation, C78_records_violation, C79_plain_partial, C79_partial, C79_other_types, C79_overflow_violation, C80_single, C80_single_other, C81_raw_partial, C81_order_violation, C82_error, C82_error_distinct, C82_function, C85_baudrate, C85_connect, C86_timeout_partial, C86_timeout_violation, C87_scan, C87_transports, C88_scan_wire, C89_set_address, C89_wire, C89_malformed_violation, C90_baud_partial, C90_reset_partial, C90_baud_wire, C90_reset_wire, C90_junk_violation, C90_pointer_violation, C91_wire_exact, C91_cut_violation, C91_request, C91_wire_partial, C92_cut_violation, C92_wire_exact, C92_multi, C92_wire_partial, C93_raw_send, C93_wire, C93_not_hex_violation, C94_fixed_id_violation, C94_scan, C94_wire_partial, C94_all_wire, C94_wire_exact, C95_select_partial, C95_wire, C95_two_meters_violation, C95_null_violation, C95_pointer_violation, C97_variable_print, C97_functions_partial, C97_fixed_print, C97_frame_data_print, C98_hex_normalized_exact, C98_binary_normalized_exact, C98_hex_partial, C98_binary_partial, C98_outcome, C98_binary_violation, C98_hex_exact, C98_binary_exact, C99_history, C99_history_safe, C99_accepted, C99_master, C100_transparent, C100_send_events, C100_send_events_all, C100_recv_events_partial, C100_serial_recv_complete, C100_recv_events_violation, C100_dump_line, C100_dump_readable, C101_variable_partial, C101_granting, C101_fixed, C101_leak_violation, C101_incomplete_violation, C102_partial, C102_clean_partial, C102_exact, C102_overflow_violation, C103_commands_release, C103_granted, C103_refused, C104_probe_releases, C104_probe_same, C104_scan_leaves_masks_partial, C104_scan_same, C104_scan_releases_partial, C104_write_violation, C104_memory_violation, C105_request_memory_partial, C105_chain_released_partial, C105_same, C105_truncated_violation, C105_request_refused, C105_next_refused, C105_leak_violation, C106_nearest, C106_ties, C106_signs, C106_special, C106_accuracy, C106_whole_partial, C106_whole_violation, C106_range, C106_fixed_range, C106_fixed_accuracy, C107_text_partial, C107_fixed_partial, C107_digits_violation, C107_small_violation, C108_named, C108_unnamed, C108_unambiguous, C109_frame_partial, C109_cut_violation, C109_granted, C109_leak_violation, C109_variable_partial, C109_buffer, C109_frame_exact, C109_overflow_violation, C110_line_partial, C110_codes, C110_uninitialised_violation, C111_label_partial, C111_unambiguous, C111_all_named, C111_quantity_partial, C111_custom, C111_quantity_violation, C111_correction_violation, C112_stateless, C112_lifetime, C112_needed, C113_normalized_wellFormed, C113_variable, C113_frame, C113_wellFormed, C113_normalized, C113_complete, C113_start, C113_frame_complete, C113_readout, C113_cut, C114_text, C114_unique, C114_order, C114_late, C114_late_content, C114_record, C114_xml, C115_number, C115_no_number, C116_serial_request, C116_tcp_request, C116_serial_multi, C116_tcp_multi, C116_tcp_scan, C116_reset, C116_set_address, C116_raw_send, C116_serial_scan_secondary_partial, C116_tcp_scan_secondary, C116_serial_select, C116_tcp_select, C116_leak_violation, C117_serial_scan, C117_tcp_scan, C117_set_address, C117_switch_baudrate, C117_reset, C117_raw_send, C117_serial_select_partial, C117_tcp_select, C117_tcp_scan_secondary, C117_serial_scan_secondary_partial, C117_serial_request, C117_tcp_request, C117_serial_multi, C117_tcp_multi, C117_raw_send_no_file, C117_decimal, C117_searched_violation, C117_cut_violation, C118_request_same, C118_multi_same, C118_scan_wire, C118_request_wire, C118_multi_wire, C119_parse, C119_parse_error_str, C119_wrong_iff, C119_wrong_unique, C119_verify, C119_data_parse, C119_secondary_address, C119_tcp_recv, C119_serial_recv_partial, C119_serial_violation, C119_serial_timeout_violation, C119_tcp_send, C119_frame_xml, C120_usage, C120_no_file, C120_hex, C120_hex_document, C120_error_violation, C120_binary_partial, C120_checksum_violation, C120_start_violation, C120_binary_document, C121_punctual, C121_late_violation, C121_purge_resync, C121_secondary, C122_request, C122_ping, C122_baud, C122_reset, C122_data, C122_set_address, C122_select, C122_read, C122_sendrecv, C122_probe, C122_scan, C122_same, C122_scan_silent, C122_probe_silent, C122_read_silent, C122_stale_violation, C122_tcp_quote, C122_broken_violation, C122_scan_only_stderr, C123_request, C123_multi, C123_scan, C123_primary_scan, C123_select, C123_baud, C123_reset, C123_set_address, C123_success, C123_distinct, C124_independent, C124_defined, C124_transmits, C124_order, C124_lines, C124_stderr_violation, C125_scan, C125_scan_all, C125_tool, C125_data_lost_violation, C126_receive, C126_lookahead, C126_receive_settles, C126_purge_violation, C126_select_violation, C126_program, C126_silent, C126_silent_probe, C126_silent_scan, C126_silent_sendrecv, C127_apart, C127_swapped, C127_race_always, C127_race, C128_shifted, C128_ghosts, C128_set_address, C128_secondary_finds_nothing, C129_c_locale, C129_xml, C129_data, C129_normalized, C129_value, C129_other_values, C129_comma, C129_frame, C129_variable, C129_normalized_frame, C129_fixed_error, C130_same_model, C130_long_decode, C130_long_decode_same, C130_portable_float, C130_record, C130_fixed_record, C130_port_baud, C130_int, C131_document, C131_readouts, C131_integers, C131_fixed, C131_error, C131_normalised, C132_order, C132_coding, C132_fixed, C133_frame, C133_normalized, C133_fixed, C133_error, C133_values, C133_raw, C133_parse, C133_serial_request, C133_tcp_request, C133_serial_multi, C133_tcp_multi, C134_fixed, C134_unit, C134_names, C134_normalized, C134_document, C134_neither, C135_dates, C135_times, C135_mixed, C135_bytes, C135_invalid, C135_summer, C135_summer_instance, C136_codes, C136_others, C136_turkish.

## 7. Fidelity

`tools/fidelity.sh` evaluates the model (not the C code) on every telegram in `/repo/test` and compares the XML with the
recorded output shipped there: 110 documents are equal, 52 differ only in the byte order of binary values (the recorded
output is older than the code, see C81), 42 telegrams are refused by the model and have no recorded output. This is a test of
the reading of the source and no part of any proof.

## 8. Coverage

`tools/coverage.py --list` lists the functions of `mbus/*.c` with the model files that cite them. Of 131 functions these are not
modelled as functions of their own: `mbus_register_scan_progress`, `mbus_register_found_event` (assignments; the callbacks are
operations of the handle), `mbus_parse_set_debug`, `mbus_init` and `mbus_get_current_version` (no behaviour),
`mbus_frame_type` (a field access).  `mbus_serial_data_free` and `mbus_tcp_data_free` are part of `contextFree`.
