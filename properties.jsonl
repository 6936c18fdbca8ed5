{"id": "C01", "title": "Frame -> bytes -> frame round trip", "statement": "Take any short, control or long frame with a legal control byte and at most 252 payload bytes (at least one for a long frame), fill in whatever stale values in its length and checksum fields, call mbus_frame_pack with a large enough buffer and mbus_parse the bytes it wrote into any other frame object: mbus_parse returns 0 and the control, address, control-information, type and payload are those of the original frame.", "quantifier": "all frames of the three types, all payloads of 0..252 bytes, all stale field contents, all target frame objects", "why_tests_cant": "the payload space is 256^252; tests sample a few telegrams", "anchors": ["mbus/mbus-protocol.c:mbus_frame_pack", "mbus/mbus-protocol.c:mbus_parse", "mbus/mbus-protocol.c:mbus_frame_calc_length", "mbus/mbus-protocol.c:mbus_frame_calc_checksum"]}
{"id": "C02", "title": "Bytes -> frame -> bytes round trip", "statement": "Whenever mbus_parse returns 0 on a byte string that is not an ACK, mbus_frame_pack of the resulting frame reproduces exactly that byte string.", "quantifier": "all byte strings of any length", "why_tests_cant": "every byte string, including ones no meter ever sent", "anchors": ["mbus/mbus-protocol.c:mbus_parse", "mbus/mbus-protocol.c:mbus_frame_pack"]}
{"id": "C03", "title": "mbus_parse accepts exactly the M-Bus link-layer grammar", "statement": "mbus_parse returns 0 iff the input starts with 0xE5, or is a 5-byte short frame 10 C A CS 16 with a legal short control code and CS = C+A mod 256, or is 68 L L 68 C A CI data CS 16 with L = 3+|data|, 3 <= L <= 255, a legal SND_UD/RSP_UD control code and CS the byte sum of C A CI data mod 256.", "quantifier": "all byte strings", "why_tests_cant": "the accepted set is infinite-ish and its complement cannot be sampled", "anchors": ["mbus/mbus-protocol.c:mbus_parse", "mbus/mbus-protocol.c:mbus_frame_verify", "mbus/mbus-protocol.c:calc_checksum"]}
{"id": "C04", "title": "'Need n more bytes' answers are exact", "statement": "When mbus_parse returns n > 0, the input is not yet a whole frame, and no continuation shorter than n bytes is accepted; once the length byte is known, every accepted continuation is exactly n bytes long; input length plus n never exceeds 261.", "quantifier": "all byte strings and all continuations", "why_tests_cant": "quantifies over all continuations of all prefixes", "anchors": ["mbus/mbus-protocol.c:mbus_parse"]}
{"id": "C05", "title": "Prefixes of a valid frame are never rejected", "statement": "Every non-empty proper prefix of a byte string that mbus_parse accepts as a short/control/long frame makes mbus_parse return a positive count that does not exceed the number of bytes still missing.", "quantifier": "all accepted frames and all their prefixes", "why_tests_cant": "all prefixes of all frames", "anchors": ["mbus/mbus-protocol.c:mbus_parse"]}
{"id": "C06", "title": "Single-byte corruption is detected", "statement": "If exactly one byte of an accepted short/control/long frame is replaced by a different value, mbus_parse does not accept the result (returns non-zero) - unless the first byte became 0xE5, in which case the string is taken as an ACK.", "quantifier": "all accepted frames, all positions, all replacement values", "why_tests_cant": "3-way product of all frames, positions and byte values", "anchors": ["mbus/mbus-protocol.c:mbus_parse", "mbus/mbus-protocol.c:calc_checksum", "mbus/mbus-protocol.c:mbus_frame_verify"]}
{"id": "C07", "title": "mbus_frame_verify returns 0 exactly for valid frames", "statement": "For every frame object, mbus_frame_verify returns 0 iff the frame is a valid frame of its type (start/stop bytes, legal control code, consistent lengths, correct checksum), for every one of the four frame types.", "quantifier": "all frame objects", "why_tests_cant": "all field combinations", "anchors": ["mbus/mbus-protocol.c:mbus_frame_verify"]}
{"id": "C08", "title": "mbus_frame_pack stays inside the caller's buffer", "statement": "mbus_frame_pack either returns a negative code and leaves the buffer untouched, or returns the exact wire length n <= data_size of the frame, changes only the first n bytes, and never accesses memory outside the buffer or the frame's payload array.", "quantifier": "all frame objects with data_size <= 252, all buffers", "why_tests_cant": "buffer size x frame product is unbounded", "anchors": ["mbus/mbus-protocol.c:mbus_frame_pack"]}
{"id": "C09", "title": "mbus_parse is memory safe and ignores stale state", "statement": "For every input and every prior content of the frame object, mbus_parse reads only inside the given bytes and writes only inside the frame; on return 0 the parsed fields depend on the input bytes alone.", "quantifier": "all byte strings, all prior frame contents", "why_tests_cant": "prior contents are arbitrary", "anchors": ["mbus/mbus-protocol.c:mbus_parse"]}
{"id": "C10", "title": "Length/checksum recomputation", "statement": "mbus_frame_calc_length followed by mbus_frame_calc_checksum turns any frame of type short/control/long that has correct start/stop bytes, legal control code and (for long) at most 252 payload bytes into one that mbus_frame_verify accepts; both are idempotent, and unknown frame types are refused with -1 and no change.", "quantifier": "all frame objects", "why_tests_cant": "all payloads", "anchors": ["mbus/mbus-protocol.c:mbus_frame_calc_length", "mbus/mbus-protocol.c:mbus_frame_calc_checksum", "mbus/mbus-protocol.c:calc_length", "mbus/mbus-protocol.c:calc_checksum"]}
{"id": "C11", "title": "Integer encode/decode round trip", "statement": "For n in 1..4, mbus_data_int_decode of the n bytes written by mbus_data_int_encode(v) returns v for every int v representable in n bytes two's complement, and mbus_data_int_encode of the decoded value restores the n bytes for every byte string of length n.", "quantifier": "all ints, all byte strings of 1..4 bytes", "why_tests_cant": "2^32 values", "anchors": ["mbus/mbus-protocol.c:mbus_data_int_encode", "mbus/mbus-protocol.c:mbus_data_int_decode"]}
{"id": "C12", "title": "Integer decoding is little-endian two's complement without overflow", "statement": "mbus_data_int_decode (1..4 bytes), mbus_data_long_decode and mbus_data_long_long_decode (1..8 bytes) return 0 and deliver the two's-complement value of the little-endian byte string, with no signed overflow in any intermediate step; size 0 returns -1.", "quantifier": "all byte strings up to the width of the C type", "why_tests_cant": "2^64 inputs", "anchors": ["mbus/mbus-protocol.c:mbus_data_int_decode", "mbus/mbus-protocol.c:mbus_data_long_decode", "mbus/mbus-protocol.c:mbus_data_long_long_decode"]}
{"id": "C13", "title": "BCD decoding yields the decimal value", "statement": "For every non-empty little-endian byte string of at most 9 bytes all of whose nibbles are decimal digits, mbus_data_bcd_decode returns the decimal number; if the most significant nibble is 0xF it returns minus the number formed by the remaining digits. Digits A-F elsewhere count as 0 in the upper half of a byte and as 10 to 15 in the lower half.", "quantifier": "all byte strings", "why_tests_cant": "10^18 values", "anchors": ["mbus/mbus-protocol.c:mbus_data_bcd_decode"]}
{"id": "C14", "title": "BCD encode/decode round trip", "statement": "mbus_data_bcd_decode applied to what mbus_data_bcd_encode wrote for a non-negative value that fits in 2n digits returns that value.", "quantifier": "all values and sizes n >= 1", "why_tests_cant": "all ints and all sizes", "anchors": ["mbus/mbus-protocol.c:mbus_data_bcd_encode", "mbus/mbus-protocol.c:mbus_data_bcd_decode"]}
{"id": "C15", "title": "Hexadecimal BCD decoding preserves every nibble", "statement": "mbus_data_bcd_decode_hex of up to 7 bytes returns the little-endian value of the bytes without overflow, so printing it in hex with 2n digits shows exactly the bytes from most to least significant and distinct identification numbers stay distinct.", "quantifier": "all byte strings of up to 7 bytes", "why_tests_cant": "2^56 inputs", "anchors": ["mbus/mbus-protocol.c:mbus_data_bcd_decode_hex"]}
{"id": "C16", "title": "Manufacturer code round trip", "statement": "mbus_decode_manufacturer of the two bytes written by mbus_data_manufacturer_encode(c) is c for every code c of three letters A..Z, and encoding the decoded three characters restores the two bytes whenever the top bit of the 16-bit code is clear.", "quantifier": "all 3-letter codes, all 2^15 numeric codes", "why_tests_cant": "exhaustive product", "anchors": ["mbus/mbus-protocol.c:mbus_data_manufacturer_encode", "mbus/mbus-protocol.c:mbus_decode_manufacturer"]}
{"id": "C17", "title": "mbus_manufacturer_id", "statement": "mbus_manufacturer_id returns the FLAG code ((c0-64)*1024+(c1-64)*32+(c2-64), upper-cased) in 0x0421..0x6B5A for any string whose first three characters are letters, ignores what follows, and returns 0 for every other string; its 16-bit value is the one the encode/decode pair uses.", "quantifier": "all strings", "why_tests_cant": "unbounded strings", "anchors": ["mbus/mbus-protocol.c:mbus_manufacturer_id"]}
{"id": "C18", "title": "Date/time decoding extracts the CP16/CP32/CP48 fields", "statement": "mbus_data_tm_decode fills every field from exactly the bit positions of types G (2 bytes), F (4 bytes) and I (6 bytes), applies the circular two-digit-year rule only for type F, leaves everything zero when the invalid bit is set or the size is different, and all fields stay within their bit widths.", "quantifier": "all byte strings", "why_tests_cant": "2^48 inputs", "anchors": ["mbus/mbus-protocol.c:mbus_data_tm_decode"]}
{"id": "C19", "title": "Date strings always fit", "statement": "The date strings 'YYYY-MM-DD' and 'YYYY-MM-DDThh:mm:ss[Z]' produced for any 2-, 4- or 6-byte record are exactly 10 and 19/20 characters long, so the 11- and 21-byte buffers of mbus_variable_value_decode never truncate.", "quantifier": "all byte strings", "why_tests_cant": "2^48 inputs", "anchors": ["mbus/mbus-protocol-aux.c:mbus_variable_value_decode", "mbus/mbus-protocol.c:mbus_data_record_decode", "mbus/mbus-protocol.c:mbus_data_tm_decode"]}
{"id": "C20", "title": "String decoding reverses and terminates", "statement": "mbus_data_str_decode writes exactly len+1 bytes: the source in reverse order followed by NUL; applying it twice restores the source; it never touches memory outside dst[0..len] and src[0..len).", "quantifier": "all byte strings, all destination buffers", "why_tests_cant": "all lengths", "anchors": ["mbus/mbus-protocol.c:mbus_data_str_decode"]}
{"id": "C21", "title": "Binary decoding prints every byte it has room for", "statement": "mbus_data_bin_decode never writes outside max_len bytes (max_len >= 1), always NUL-terminates, and prints the source bytes most-significant-last-first as two upper-case hex digits separated by single spaces; if max_len >= 3*len+1 no byte is lost.", "quantifier": "all byte strings and buffer sizes >= 1", "why_tests_cant": "length x size product", "anchors": ["mbus/mbus-protocol.c:mbus_data_bin_decode"]}
{"id": "C22", "title": "XML escaping stays inside the buffer", "statement": "mbus_str_xml_encode called with max_len >= 1 writes at most max_len bytes including the NUL, never cuts an entity in half, and stops reading at the source's NUL.", "quantifier": "all source strings and all max_len", "why_tests_cant": "unbounded strings", "anchors": ["mbus/mbus-protocol.c:mbus_str_xml_encode"]}
{"id": "C23", "title": "XML escaping is injective and removes markup", "statement": "The output contains no '<', '>', '\"' and no control character, every '&' begins one of the four entities, and un-escaping the output gives the source with control characters replaced by spaces (or a prefix of it if the buffer was too small).", "quantifier": "all source strings", "why_tests_cant": "unbounded strings", "anchors": ["mbus/mbus-protocol.c:mbus_str_xml_encode"]}
{"id": "C24", "title": "hex2bin: bounded and inverse of a hex dump", "statement": "mbus_hex2bin never writes more than dst_len bytes, returns the number of bytes converted, zero-fills the rest, and converting the hex text of any byte string (two hex digits per byte, any letter case, any white space between bytes) returns that byte string.", "quantifier": "all byte strings, all separators, all buffer sizes", "why_tests_cant": "unbounded strings", "anchors": ["mbus/mbus-protocol-aux.c:mbus_hex2bin"]}
{"id": "C25", "title": "hex2bin stops at the first invalid character", "statement": "'invalid character stops conversion': mbus_hex2bin never produces a byte from a pair of characters that is not two hex digits.", "quantifier": "all input texts", "why_tests_cant": "all character pairs at all positions", "anchors": ["mbus/mbus-protocol-aux.c:mbus_hex2bin"]}
{"id": "C26", "title": "Record parsing terminates and counts", "statement": "mbus_data_variable_parse terminates for every frame, and on return 0 nrecords equals the number of records in the list, which is at most data_size-12.", "quantifier": "all frames", "why_tests_cant": "loop over attacker-controlled lengths", "anchors": ["mbus/mbus-protocol.c:mbus_data_variable_parse"]}
{"id": "C27", "title": "Record parsing is memory safe", "statement": "mbus_data_variable_parse never reads outside the 252-byte payload array or writes outside a record's fixed-size arrays, whatever the payload.", "quantifier": "all frames with data_size <= 252", "why_tests_cant": "attacker-controlled lengths, all payloads", "anchors": ["mbus/mbus-protocol.c:mbus_data_variable_parse", "mbus/mbus-protocol.c:mbus_data_str_decode", "mbus/mbus-protocol.h:mbus_data_record", "mbus/mbus-protocol.h:mbus_value_information_block"]}
{"id": "C28", "title": "Bytes beyond data_size have no influence", "statement": "The return value and the records delivered by mbus_data_variable_parse depend only on the data_size payload bytes, not on whatever an earlier telegram left in the rest of the frame's buffer.", "quantifier": "all pairs of frames agreeing on the payload", "why_tests_cant": "two-run (hyper)property", "anchors": ["mbus/mbus-protocol.c:mbus_data_variable_parse"]}
{"id": "C29", "title": "Records tile the payload in order", "statement": "On return 0 the payload after the 12-byte header is exactly the concatenation, in order, of 0x2F fillers and the encodings of the delivered records (DIF, DIFEs, VIF, custom VIF, VIFEs, data; or DIF and all remaining bytes for 0x0F/0x1F): no byte is lost, duplicated or attributed to two records; conversely every concatenation of well-formed encodings is accepted and yields those records.", "quantifier": "all payloads, all record sequences", "why_tests_cant": "all sequences of records", "anchors": ["mbus/mbus-protocol.c:mbus_data_variable_parse"]}
{"id": "C30", "title": "Parse -> pack of the application layer", "statement": "mbus_frame_internal_pack of the structure obtained from mbus_frame_data_parse reproduces the frame's payload.", "quantifier": "all frames that parse", "why_tests_cant": "all payloads", "anchors": ["mbus/mbus-protocol.c:mbus_frame_internal_pack", "mbus/mbus-protocol.c:mbus_frame_data_parse"]}
{"id": "C31", "title": "more_records_follow is exact", "statement": "After a successful parse more_records_follow is set iff the last delivered record has DIF 0x1F; 0x0F and 0x1F can only be the last record.", "quantifier": "all frames", "why_tests_cant": "all payloads", "anchors": ["mbus/mbus-protocol.c:mbus_data_variable_parse"]}
{"id": "C32", "title": "Delivered records respect the structure bounds", "statement": "Every record delivered by a successful parse has at most 10 DIFEs and 10 VIFEs, data_len <= 239, and at least 1 data byte when its data field is 'variable length', so the data_len-1 arithmetic in the value decoders cannot wrap.", "quantifier": "all frames", "why_tests_cant": "all payloads", "anchors": ["mbus/mbus-protocol.c:mbus_data_variable_parse", "mbus/mbus-protocol.c:mbus_data_record_decode", "mbus/mbus-protocol-aux.c:mbus_variable_value_decode"]}
{"id": "C33", "title": "Storage number, tariff and device assembly", "statement": "For every record a parse can deliver, mbus_data_record_storage_number / _tariff / _device return the bits of the DIF and DIFEs assembled least-significant first (storage 1+4 per DIFE, tariff 2 per DIFE, device 1 per DIFE), and tariff/device are -1 without DIFE.", "quantifier": "all records with up to 10 DIFEs", "why_tests_cant": "2^88 records", "anchors": ["mbus/mbus-protocol.c:mbus_data_record_storage_number", "mbus/mbus-protocol.c:mbus_data_record_tariff", "mbus/mbus-protocol.c:mbus_data_record_device"]}
{"id": "C34", "title": "Fixed data structure round trip", "statement": "mbus_data_fixed_parse succeeds iff the payload is 16 bytes, and mbus_frame_internal_pack restores the 16 bytes; each field comes from its documented offset.", "quantifier": "all frames", "why_tests_cant": "all payloads", "anchors": ["mbus/mbus-protocol.c:mbus_data_fixed_parse", "mbus/mbus-protocol.c:mbus_frame_internal_pack"]}
{"id": "C35", "title": "Application-layer dispatch", "statement": "mbus_frame_data_parse refuses every master-to-slave frame and every CI other than 0x70/0x72/0x73, and otherwise delivers the error / variable / fixed type that matches the CI; an error frame without payload reports error 0.", "quantifier": "all frames", "why_tests_cant": "all headers", "anchors": ["mbus/mbus-protocol.c:mbus_frame_data_parse"]}
{"id": "C36", "title": "DIF data length table", "statement": "mbus_dif_datalength_lookup gives the EN1434-3 field width for every DIF and ignores every bit but the low nibble; variable-length records take LVAR's documented byte count plus one.", "quantifier": "all 256 DIFs and LVARs", "why_tests_cant": "spec conformance of whole table", "anchors": ["mbus/mbus-protocol.c:mbus_dif_datalength_lookup", "mbus/mbus-protocol.c:mbus_data_variable_parse"]}
{"id": "C37", "title": "Normalised unit/scale equals the documented VIF scale", "statement": "For every primary VIF and every 0xFD/0xFB extension code, mbus_vif_unit_normalize multiplies (in double arithmetic) by the power of ten (or seconds per unit) that the code's documented formula gives, never matches two rows, and reports -1 with value 0 for codes not in the table.", "quantifier": "all VIF codes and all values", "why_tests_cant": "all values; table is long and hand written", "anchors": ["mbus/mbus-protocol-aux.c:vif_table", "mbus/mbus-protocol-aux.c:mbus_vif_unit_normalize"]}
{"id": "C38", "title": "Fixed-format scaling agrees with the unit label", "statement": "For every fixed-format unit code, the normalised value equals the raw counter times the scale that the unit label printed by mbus_data_fixed_unit names.", "quantifier": "all unit codes, all counters", "why_tests_cant": "all counters; two hand written tables", "anchors": ["mbus/mbus-protocol-aux.c:fixed_table", "mbus/mbus-protocol-aux.c:mbus_fixed_normalize", "mbus/mbus-protocol.c:mbus_data_fixed_unit"]}
{"id": "C39", "title": "VIF extension corrections", "statement": "mbus_vib_unit_normalize applies 10^(nnn-6), +10^(nn-3) or 10^3 exactly when a primary VIF with extension bit is followed by the corresponding first VIFE, and leaves the value unchanged by any other VIFE; a 0xFD/0xFB VIF without VIFE is refused.", "quantifier": "all VIBs and all values", "why_tests_cant": "all VIB combinations", "anchors": ["mbus/mbus-protocol-aux.c:mbus_vib_unit_normalize"]}
{"id": "C40", "title": "TCP receive delivers exactly one frame under any chunking", "statement": "Whatever way the socket splits the byte stream into reads and wherever EINTR strikes, if the stream starts with a valid frame mbus_tcp_recv_frame returns OK with that frame and leaves exactly the following bytes unread; for any stream it never reads a byte past the end of the first frame.", "quantifier": "all byte streams, all chunkings, all EINTR placements", "why_tests_cant": "all schedules", "anchors": ["mbus/mbus-tcp.c:mbus_tcp_recv_frame"]}
{"id": "C41", "title": "Serial receive delivers exactly one frame under any chunking", "statement": "With at most two empty reads inside a frame, mbus_serial_recv_frame returns OK with the first valid frame of the stream under any chunking and leaves the following bytes unread; a silent line gives TIMEOUT, a third empty read inside a frame gives INVALID.", "quantifier": "all byte streams, chunkings and placements of empty reads", "why_tests_cant": "all schedules", "anchors": ["mbus/mbus-serial.c:mbus_serial_recv_frame"]}
{"id": "C42", "title": "Receive buffers cannot overflow", "statement": "Neither receive loop ever asks the OS for bytes beyond its 2048-byte buffer, the buffered length never exceeds 261 bytes, and every iteration either stores at least one byte, or counts a timeout, or ends.", "quantifier": "all byte streams and schedules", "why_tests_cant": "all schedules", "anchors": ["mbus/mbus-serial.c:mbus_serial_recv_frame", "mbus/mbus-tcp.c:mbus_tcp_recv_frame"]}
{"id": "C43", "title": "FCB alternates per telegram, not per retry", "statement": "In one mbus_sendrecv_request call every request frame carries REQ_UD2 with FCV to the requested address, the first has FCB set, the FCB bit flips exactly after a telegram was accepted with more to follow, and a retransmission after timeout or garbage repeats the same FCB.", "quantifier": "all reply/timeout/garbage histories", "why_tests_cant": "all histories of the bus", "anchors": ["mbus/mbus-protocol-aux.c:mbus_sendrecv_request"]}
{"id": "C44", "title": "Retries are bounded", "statement": "mbus_sendrecv_request transmits at most max_data_retry+1 requests in a row without an accepted reply, then returns 1; any accepted telegram resets the budget; the total number of transmissions is at most frames*(max_data_retry+1).", "quantifier": "all histories, all retry settings", "why_tests_cant": "all histories", "anchors": ["mbus/mbus-protocol-aux.c:mbus_sendrecv_request", "mbus/mbus-protocol-aux.c:mbus_context_set_option"]}
{"id": "C45", "title": "max_frames limits the readout; 0 means no limit", "statement": "mbus_sendrecv_request collects at most max_frames telegrams when max_frames > 0, and with max_frames = 0 it keeps reading as long as the meter announces more records.", "quantifier": "all histories and limits", "why_tests_cant": "all histories", "anchors": ["mbus/mbus-protocol-aux.c:mbus_sendrecv_request", "mbus/mbus-protocol-aux.h:mbus_sendrecv_request"]}
{"id": "C46", "title": "sendrecv frees every record list exactly once", "statement": "mbus_sendrecv_request never frees a record list twice and never touches a freed record, whatever sequence of reply types the meter sends.", "quantifier": "all reply sequences", "why_tests_cant": "all histories", "anchors": ["mbus/mbus-protocol-aux.c:mbus_sendrecv_request", "mbus/mbus-protocol.c:mbus_data_record_free", "mbus/mbus-protocol.c:mbus_frame_data_parse"]}
{"id": "C47", "title": "Selection outcome classification", "statement": "mbus_select_secondary_address returns SINGLE only after receiving an ACK followed by silence, COLLISION if anything else follows or garbage arrives, NOTHING on timeout, ERROR without any transmission for a malformed mask.", "quantifier": "all bus behaviours", "why_tests_cant": "all histories", "anchors": ["mbus/mbus-protocol-aux.c:mbus_select_secondary_address", "mbus/mbus-protocol-aux.c:mbus_purge_frames", "mbus/mbus-protocol-aux.c:mbus_recv_frame"]}
{"id": "C48", "title": "Secondary scan finds exactly the devices present", "statement": "On a bus that answers selections faithfully, mbus_scan_2nd_address_range(handle, 0, all wildcards) reports every device exactly once and reports nothing else, for any finite set of devices whose 8-digit identification numbers are decimal and pairwise distinct.", "quantifier": "all finite sets of devices", "why_tests_cant": "10^8 addresses, all subsets", "anchors": ["mbus/mbus-protocol-aux.c:mbus_scan_2nd_address_range", "mbus/mbus-protocol-aux.c:mbus_probe_secondary_address"]}
{"id": "C49", "title": "Secondary scan is bounded, complete and only refines masks", "statement": "mbus_scan_2nd_address_range terminates for every bus behaviour that terminates, probes only masks that refine the given mask at wildcard positions with digits 0..9, never probes the same mask twice, recurses only after a collision, stops below position 15, and as long as no probe fails leaves nothing out: all ten restrictions of the given mask and of every mask that collides are probed.", "quantifier": "all masks, start positions and bus behaviours", "why_tests_cant": "recursion tree of up to 10^16 leaves", "anchors": ["mbus/mbus-protocol-aux.c:mbus_scan_2nd_address_range"]}
{"id": "C50", "title": "Selecting the address a meter reported selects that meter", "statement": "If mbus_frame_get_secondary_address(f) = s for a variable-data response f, then mbus_frame_select_secondary_pack(g, s) succeeds and puts in g the eight header bytes (ID, manufacturer, version, medium) of f.", "quantifier": "all frames", "why_tests_cant": "2^64 headers", "anchors": ["mbus/mbus-protocol.c:mbus_frame_get_secondary_address", "mbus/mbus-protocol.c:mbus_frame_select_secondary_pack"]}
{"id": "C51", "title": "Secondary address text format", "statement": "mbus_frame_get_secondary_address returns either NULL or exactly 16 upper-case hex digits that mbus_is_secondary_address accepts and that spell the header bytes in documented order; different headers give different strings.", "quantifier": "all frames", "why_tests_cant": "2^64 headers", "anchors": ["mbus/mbus-protocol.c:mbus_frame_get_secondary_address", "mbus/mbus-protocol.c:mbus_is_secondary_address"]}
{"id": "C52", "title": "Address validation", "statement": "mbus_is_secondary_address accepts exactly the strings of 16 hexadecimal digits; mbus_is_primary_address accepts exactly 0..255.", "quantifier": "all strings, all ints", "why_tests_cant": "unbounded strings", "anchors": ["mbus/mbus-protocol.c:mbus_is_secondary_address", "mbus/mbus-protocol.c:mbus_is_primary_address"]}
{"id": "C53", "title": "Options cannot put the handle in an illegal state", "statement": "After any sequence of mbus_context_set_option calls the retry limits stay in 0..9 and the purge mode in {NONE,M2S,S2M}; a refused call returns -1 and changes nothing, an accepted call changes only its own option.", "quantifier": "all call sequences and values", "why_tests_cant": "all histories", "anchors": ["mbus/mbus-protocol-aux.c:mbus_context_set_option", "mbus/mbus-protocol-aux.c:mbus_context_serial", "mbus/mbus-protocol-aux.c:mbus_context_tcp"]}
{"id": "C54", "title": "Commands put only valid frames on the wire", "statement": "mbus_send_request_frame, _ping_frame, _user_data_frame, _application_reset_frame, _switch_baudrate_frame and _select_frame either refuse the arguments without transmitting or transmit exactly one frame, whose bytes mbus_parse accepts and which carries the given address and content.", "quantifier": "all arguments", "why_tests_cant": "all addresses x payloads", "anchors": ["mbus/mbus-protocol-aux.c:mbus_send_request_frame", "mbus/mbus-protocol-aux.c:mbus_send_ping_frame", "mbus/mbus-protocol-aux.c:mbus_send_user_data_frame", "mbus/mbus-protocol-aux.c:mbus_send_application_reset_frame", "mbus/mbus-protocol-aux.c:mbus_send_switch_baudrate_frame", "mbus/mbus-protocol-aux.c:mbus_send_select_frame"]}
{"id": "C55", "title": "Primary address assignment is safe", "statement": "mbus_set_primary_address transmits only for new addresses 0..250 as documented, and the frame it sends carries 01 7A new_address to the old address.", "quantifier": "all int arguments", "why_tests_cant": "all ints", "anchors": ["mbus/mbus-protocol-aux.c:mbus_set_primary_address", "mbus/mbus-protocol-aux.h:mbus_set_primary_address"]}
{"id": "C56", "title": "XML output buffer never overflows", "statement": "mbus_data_variable_xml and mbus_frame_xml never write past the allocated buffer and never truncate, whatever the records contain.", "quantifier": "all record lists / telegram chains", "why_tests_cant": "unbounded record lists", "anchors": ["mbus/mbus-protocol.c:mbus_data_variable_xml", "mbus/mbus-protocol.c:mbus_frame_xml", "mbus/mbus-protocol.c:mbus_data_variable_record_xml"]}
{"id": "C57", "title": "mbus_frame_xml touches no freed record", "statement": "Rendering a chain of telegrams never follows a pointer to a record freed while rendering an earlier telegram.", "quantifier": "all telegram chains", "why_tests_cant": "all chains of frame types", "anchors": ["mbus/mbus-protocol.c:mbus_frame_xml"]}
{"id": "C58", "title": "Record ids in XML are consecutive", "statement": "The XML for a chain of variable-data telegrams contains one DataRecord element per parsed record, in order, with ids 0,1,2,... across telegrams and the telegram index as frame attribute iff there is more than one telegram.", "quantifier": "all telegram chains", "why_tests_cant": "unbounded chains", "anchors": ["mbus/mbus-protocol.c:mbus_frame_xml", "mbus/mbus-protocol.c:mbus_data_variable_record_xml"]}
{"id": "C59", "title": "Echo suppression", "statement": "mbus_recv_frame performs a second receive exactly when the direction of the frame object after the first one matches the configured purge mode, and returns the result of the last receive.", "quantifier": "all link behaviours, purge modes", "why_tests_cant": "all histories", "anchors": ["mbus/mbus-protocol-aux.c:mbus_recv_frame", "mbus/mbus-protocol.c:mbus_frame_direction"]}
{"id": "C60", "title": "mbus_read_slave succeeds only on an accepted reply", "statement": "mbus_read_slave returns 0 only if a request was transmitted - to the primary address, or to 0xFD after the secondary selection answered SINGLE - and the following receive returned OK; otherwise -1.", "quantifier": "all link behaviours", "why_tests_cant": "all histories", "anchors": ["mbus/mbus-protocol-aux.c:mbus_read_slave"]}
{"id": "C61", "title": "Record list operations", "statement": "mbus_data_record_append adds the record at the end of the list and keeps the others, in order; mbus_data_record_free / mbus_frame_free release every element of a chain exactly once.", "quantifier": "all lists", "why_tests_cant": "unbounded lists and heaps", "anchors": ["mbus/mbus-protocol.c:mbus_data_record_append", "mbus/mbus-protocol.c:mbus_data_record_free", "mbus/mbus-protocol.c:mbus_frame_free"]}
{"id": "C62", "title": "Slave register bounds", "statement": "mbus_slave_data_get returns a pointer into the 250-entry register exactly for indices below 250, distinct indices give distinct entries, and NULL otherwise.", "quantifier": "all indices", "why_tests_cant": "2^64 indices", "anchors": ["mbus/mbus-protocol.c:mbus_slave_data_get"]}
{"id": "C63", "title": "Error string is always a terminated prefix", "statement": "After mbus_error_str_set(m), mbus_error_str() is the longest prefix of m of at most 511 characters; NULL leaves it unchanged.", "quantifier": "all messages", "why_tests_cant": "unbounded strings", "anchors": ["mbus/mbus-protocol.c:mbus_error_str_set", "mbus/mbus-protocol.c:mbus_error_reset", "mbus/mbus-protocol.c:mbus_error_str"]}
{"id": "C64", "title": "Lookup strings fit their static buffers", "statement": "Every string produced by the medium, unit, VIF, error, function and product-name lookups is shorter than the static buffer it is formatted into, for every argument, so no label is ever truncated or overflows (strcpy).", "quantifier": "all arguments", "why_tests_cant": "all code points of every table", "anchors": ["mbus/mbus-protocol.c:mbus_data_product_name", "mbus/mbus-protocol.c:mbus_vif_unit_lookup", "mbus/mbus-protocol.c:mbus_data_fixed_unit", "mbus/mbus-protocol.c:mbus_data_variable_medium_lookup", "mbus/mbus-protocol.c:mbus_vib_unit_lookup"]}
{"id": "C65", "title": "Printed unit prefix agrees with the normalised scale", "statement": "For every primary VIF with a decimal scale, the exponent in the label printed by mbus_vif_unit_lookup equals the exponent used by mbus_vif_unit_normalize.", "quantifier": "all VIFs", "why_tests_cant": "two independent hand-written tables", "anchors": ["mbus/mbus-protocol.c:mbus_vif_unit_lookup", "mbus/mbus-protocol.c:mbus_unit_prefix", "mbus/mbus-protocol-aux.c:vif_table"]}
{"id": "C66", "title": "32-bit reals are decoded as IEEE 754 binary32", "statement": "mbus_data_float_decode yields the IEEE 754 single-precision value of the four data bytes, least significant byte first, and reads nothing behind them, in every build configuration and on every host.", "quantifier": "all 2^32 bit patterns, all hosts and both build variants", "why_tests_cant": "2^32 patterns times host byte orders", "anchors": ["mbus/mbus-protocol.c:mbus_data_float_decode"]}
{"id": "C67", "title": "Decoding the value of a delivered record is memory safe and deterministic", "statement": "For every record a successful parse can deliver, mbus_data_record_decode, mbus_data_record_value and mbus_variable_value_decode neither read nor write out of bounds, leave a terminated text, and their result depends on the record only, not on stale buffer or heap contents.", "quantifier": "all records of all telegrams, all previous buffer and heap contents", "why_tests_cant": "unbounded telegrams and memory contents", "anchors": ["mbus/mbus-protocol.c:mbus_data_record_decode", "mbus/mbus-protocol.c:mbus_data_record_value", "mbus/mbus-protocol-aux.c:mbus_variable_value_decode"]}
{"id": "C68", "title": "The printed value of a record is its value", "statement": "The text of mbus_data_record_value is the decimal numeral of the signed integer, the digits of the packed decimal, the real rounded to six decimals, the characters of a string in reading order, or the hexadecimal dump of raw bytes, as the DIF says.", "quantifier": "all delivered records", "why_tests_cant": "all data bytes of all DIF/VIF combinations", "anchors": ["mbus/mbus-protocol.c:mbus_data_record_decode", "mbus/mbus-protocol.c:mbus_data_record_value"]}
{"id": "C69", "title": "The normalised record describes the data record", "statement": "For every delivered record mbus_parse_variable_record returns a record with the storage number, tariff, device and function label of the data record and with its value: a number scaled to the base unit of the VIF, or the text the record carries; NULL exactly for records without value or without known unit.", "quantifier": "all delivered records with a representable storage number", "why_tests_cant": "all DIF/DIFE/VIF/VIFE/data combinations", "anchors": ["mbus/mbus-protocol-aux.c:mbus_parse_variable_record", "mbus/mbus-protocol-aux.c:mbus_variable_value_decode", "mbus/mbus-protocol-aux.c:mbus_vib_unit_normalize"]}
{"id": "C70", "title": "Normalising loses no memory", "statement": "Every text allocated while mbus_parse_variable_record runs is owned by the returned record or freed.", "quantifier": "all delivered records", "why_tests_cant": "leaks are invisible to functional tests, all error paths", "anchors": ["mbus/mbus-protocol-aux.c:mbus_parse_variable_record"]}
{"id": "C71", "title": "The size of a text value is its length", "statement": "The size stored with the text value of a normalised record is the number of characters before its terminator.", "quantifier": "all delivered records with a text value", "why_tests_cant": "all lengths and kinds of text", "anchors": ["mbus/mbus-protocol-aux.c:mbus_variable_value_decode"]}
{"id": "C72", "title": "Fixed-format counters are normalised", "statement": "mbus_parse_fixed_record yields the counter (packed decimal or signed binary as the status byte says) scaled by its unit byte, labelled stored or actual by status bit 6, without address fields, and NULL exactly when the unit cannot be normalised.", "quantifier": "all status bytes, unit bytes and counters", "why_tests_cant": "2^48 inputs", "anchors": ["mbus/mbus-protocol-aux.c:mbus_parse_fixed_record", "mbus/mbus-protocol-aux.c:mbus_fixed_normalize"]}
{"id": "C73", "title": "Complete readout on a lossy bus", "statement": "If a meter repeats its telegram on an unchanged FCB and advances on a toggled one, and among any max_data_retry+1 consecutive exchanges at least one is not lost or garbled, mbus_sendrecv_request (with a limit of at least the number of telegrams) returns 0 with exactly the meter's telegrams, each once and in order, and frees every parsed record list.", "quantifier": "all multi-telegram readouts, all patterns of lost requests, lost replies and noise with that fairness, both transports", "why_tests_cant": "unbounded loss patterns and readout lengths", "anchors": ["mbus/mbus-protocol-aux.c:mbus_sendrecv_request", "mbus/mbus-protocol-aux.c:mbus_recv_frame", "mbus/mbus-tcp.c:mbus_tcp_recv_frame", "mbus/mbus-serial.c:mbus_serial_recv_frame"]}
{"id": "C74", "title": "Secondary scan with a mask finds exactly the selected devices", "statement": "On a bus that answers selections faithfully, mbus_scan_2nd_address_range(handle, pos, mask) reports exactly the devices that the mask selects (digits or wildcards for the identification number, wildcards for manufacturer, version and medium), each exactly once.", "quantifier": "all finite sets of devices with distinct decimal identification numbers, all masks and start positions", "why_tests_cant": "all subsets of 10^8 addresses times all masks", "anchors": ["mbus/mbus-protocol-aux.c:mbus_scan_2nd_address_range", "mbus/mbus-protocol.c:mbus_frame_select_secondary_pack"]}
{"id": "C75", "title": "Probe outcome classification", "statement": "mbus_probe_secondary_address selects at most max_search_retry+1 times and repeats only silent selections; after a single answer it requests the data once; it returns SINGLE (and reports the device, with the address taken from the response) only for one long telegram with nothing after it, COLLISION exactly if garbage or more data arrived last, NOTHING on silence or an unusable answer, ERROR if sending failed or the mask is malformed.", "quantifier": "all handles, bus behaviours and retry limits", "why_tests_cant": "all histories of the bus", "anchors": ["mbus/mbus-protocol-aux.c:mbus_probe_secondary_address"]}
{"id": "C76", "title": "XML of variable data is well-formed", "statement": "The text mbus_frame_xml returns for a chain of variable-data telegrams is a well-formed XML document: one root, properly nested elements, all texts escaped, whatever bytes the records contain.", "quantifier": "all telegram chains", "why_tests_cant": "all byte contents of units and values, unbounded chains", "anchors": ["mbus/mbus-protocol.c:mbus_frame_xml", "mbus/mbus-protocol.c:mbus_data_variable_record_xml", "mbus/mbus-protocol.c:mbus_str_xml_encode"]}
{"id": "C77", "title": "XML of fixed data and application errors", "statement": "mbus_data_fixed_xml and mbus_data_error_xml return, for every content, the complete well-formed document with the identification, medium, counters, units (or the error label); mbus_frame_xml returns it for a readout starting with such a telegram.", "quantifier": "all fixed data structures, all error codes", "why_tests_cant": "2^128 fixed data contents", "anchors": ["mbus/mbus-protocol.c:mbus_data_fixed_xml", "mbus/mbus-protocol.c:mbus_data_error_xml", "mbus/mbus-protocol.c:mbus_frame_xml"]}
{"id": "C78", "title": "mbus_frame_xml releases what it does not return", "statement": "When mbus_frame_xml returns, the text buffer is returned or freed and every record parsed on the way is freed.", "quantifier": "all telegram chains, including defective telegrams", "why_tests_cant": "all defects at all places of a chain", "anchors": ["mbus/mbus-protocol.c:mbus_frame_xml", "mbus/mbus-protocol.c:mbus_frame_data_parse"]}
{"id": "C79", "title": "Normalised XML is complete", "statement": "mbus_data_variable_xml_normalized returns, for every record list, one DataRecord element per record, numbered from 0, with function, storage number, tariff and device (if present), unit, quantity and value of the normalised record, and a closed root element, without writing outside the buffer.", "quantifier": "all record lists", "why_tests_cant": "unbounded record lists", "anchors": ["mbus/mbus-protocol-aux.c:mbus_data_variable_xml_normalized"]}
{"id": "C80", "title": "Two ways to XML agree", "statement": "For a readout of one variable-data telegram mbus_frame_xml returns exactly what mbus_frame_data_parse followed by mbus_frame_data_xml returns.", "quantifier": "all telegrams", "why_tests_cant": "all telegram contents", "anchors": ["mbus/mbus-protocol.c:mbus_frame_xml", "mbus/mbus-protocol.c:mbus_frame_data_xml"]}
{"id": "C81", "title": "Binary values are shown in the order the meter sent them", "statement": "The value text of a manufacturer block (DIF 0x0F/0x1F) and of a variable-length binary record is the two-digit hexadecimal dump of its bytes in transmission order, as in the XML recorded in test/test-frames, with no byte lost.", "quantifier": "all records delivered by a parse whose value is binary", "why_tests_cant": "every block length and content", "anchors": ["mbus/mbus-protocol.c:mbus_data_bin_decode", "mbus/mbus-protocol.c:mbus_data_record_decode", "test/test-frames/siemens_water.xml"]}
{"id": "C82", "title": "Labels name the coded medium, unit, function and error", "statement": "The medium, fixed unit, function and application-error labels are the ones of the documented code tables for every code, different assigned codes get different labels, and unassigned codes are shown as reserved or with their hexadecimal code.", "quantifier": "all codes (all bytes, all ints)", "why_tests_cant": "every code of every table and no aliasing between entries", "anchors": ["mbus/mbus-protocol.c:mbus_data_fixed_medium", "mbus/mbus-protocol.c:mbus_data_fixed_unit", "mbus/mbus-protocol.c:mbus_data_variable_medium_lookup", "mbus/mbus-protocol.c:mbus_data_error_lookup", "mbus/mbus-protocol.c:mbus_data_record_function", "mbus/mbus-protocol.c:mbus_data_fixed_function"]}
{"id": "C83", "title": "Connecting and disconnecting owns exactly one descriptor", "statement": "A connected handle holds exactly one descriptor, a handle that is not connected holds none; mbus_disconnect closes the descriptor of a connected handle and returns 0, and on a handle that is not connected it returns -1 without effect; the library never closes a descriptor opened by other code.", "quantifier": "all histories of connection attempts with any operating-system answers, disconnections, and activity of other code in the process", "why_tests_cant": "needs every interleaving with other code reusing descriptor numbers", "anchors": ["mbus/mbus-protocol-aux.c:mbus_connect", "mbus/mbus-protocol-aux.c:mbus_disconnect", "mbus/mbus-tcp.c:mbus_tcp_connect", "mbus/mbus-tcp.c:mbus_tcp_disconnect", "mbus/mbus-serial.c:mbus_serial_connect", "mbus/mbus-serial.c:mbus_serial_disconnect"]}
{"id": "C84", "title": "Creating and freeing a handle balances memory", "statement": "mbus_context_serial / mbus_context_tcp either return NULL with every block released, whichever allocation fails, or a handle with 3 data retries, 1 search retry and master-echo purging; mbus_context_free after any use releases exactly the blocks of the handle, each once.", "quantifier": "all allocation outcomes, all uninitialised contents, all histories in between", "why_tests_cant": "allocation failures at every point combined with every history", "anchors": ["mbus/mbus-protocol-aux.c:mbus_context_serial", "mbus/mbus-protocol-aux.c:mbus_context_tcp", "mbus/mbus-protocol-aux.c:mbus_context_free", "mbus/mbus-serial.c:mbus_serial_data_free", "mbus/mbus-tcp.c:mbus_tcp_data_free"]}
{"id": "C85", "title": "Local baud rates match the ones meters can be switched to", "statement": "mbus_serial_set_baudrate accepts exactly the rates mbus_send_switch_baudrate_frame accepts, refuses all others without changing anything, and sets a receive timeout that covers the specified answer time of a meter at that rate (341 bit times + 150 ms).", "quantifier": "all baud rates (all longs), all previous settings, success or failure of tcsetattr", "why_tests_cant": "all long values; two tables in different files must agree", "anchors": ["mbus/mbus-serial.c:mbus_serial_set_baudrate", "mbus/mbus-serial.c:mbus_serial_connect", "mbus/mbus-protocol-aux.c:mbus_send_switch_baudrate_frame"]}
{"id": "C86", "title": "The TCP timeout is stored exactly", "statement": "mbus_tcp_set_timeout_set refuses negative values without effect and otherwise stores whole seconds and microseconds (0..999999) that differ from the requested value by less than a microsecond (up to one rounding of a double); the port text handed to getaddrinfo is the whole port number.", "quantifier": "all timeouts and all ports", "why_tests_cant": "continuum of values", "anchors": ["mbus/mbus-tcp.c:mbus_tcp_set_timeout_set", "mbus/mbus-tcp.c:mbus_tcp_connect"]}
{"id": "C87", "title": "A primary scan pings each address in order and prints what it found", "statement": "mbus-serial-scan / mbus-tcp-scan with a legal retry count ping the primary addresses 0..250 in ascending order, each at most 1+retries times and again only after silence; for each address exactly \"Found\" (one acknowledge, nothing after it), \"Collision\" (garbage, or an acknowledge followed by more) or nothing is printed. An illegal retry count stops the tool before anything is sent.", "quantifier": "all behaviours of the bus and transport, all retry counts", "why_tests_cant": "adversarial bus behaviour for each of 251 addresses", "anchors": ["bin/mbus-serial-scan.c:ping_address", "bin/mbus-serial-scan.c:main", "bin/mbus-tcp-scan.c:ping_address", "bin/mbus-tcp-scan.c:main", "mbus/mbus-protocol-aux.c:mbus_send_ping_frame"]}
{"id": "C88", "title": "A primary scan finds all meters", "statement": "On a bus that answers pings faithfully, a scan prints \"Found\" for exactly the addresses with one meter and \"Collision\" for exactly the addresses with several, in ascending order, and transmits exactly one ping per occupied address and 1+retries per free one.", "quantifier": "all sets of meters, all chunkings of the answers, both transports, all retry counts", "why_tests_cant": "all bus populations and chunkings", "anchors": ["bin/mbus-serial-scan.c:main", "bin/mbus-tcp-scan.c:main", "mbus/mbus-protocol-aux.c:mbus_recv_frame", "mbus/mbus-protocol-aux.c:mbus_purge_frames"]}
{"id": "C89", "title": "Setting an address changes one meter to a free address", "statement": "mbus-serial-set-address sends at most one command with user data (and otherwise only link layer resets, pings of the new address and the selection of the named meter); it assigns the requested address (0..252) to the meter the user named, only after a ping to the new address was not answered and (for a secondary address) a selection found exactly one meter; success is printed exactly if it was acknowledged. Texts that are not an address are refused.", "quantifier": "all arguments, all bus behaviours", "why_tests_cant": "all argument strings and adversarial bus behaviour", "anchors": ["bin/mbus-serial-set-address.c:main", "bin/mbus-serial-set-address.c:init_slaves", "mbus/mbus-protocol-aux.c:mbus_set_primary_address", "mbus/mbus-protocol-aux.c:mbus_select_secondary_address"]}
{"id": "C90", "title": "Baud switch and application reset report success only when acknowledged", "statement": "mbus-serial-switch-baudrate and mbus-tcp-application-reset send exactly the requested command to the named meter and print success exactly if it was acknowledged.", "quantifier": "all arguments, all bus behaviours, all contents of uninitialised memory", "why_tests_cant": "stack contents and adversarial replies", "anchors": ["bin/mbus-serial-switch-baudrate.c:main", "bin/mbus-tcp-application-reset.c:main", "mbus/mbus-protocol-aux.c:mbus_send_switch_baudrate_frame", "mbus/mbus-protocol-aux.c:mbus_send_application_reset_frame"]}
{"id": "C91", "title": "A readout prints the telegram of the named meter", "statement": "mbus-serial-request-data / mbus-tcp-request-data send nothing but link layer resets, the selection of the meter named by the argument and requests for data to it; they either print nothing and exit with status 1, or have reached the meter named by the argument (primary number, or a secondary address selected uniquely), sent it one request and print the complete XML document of exactly the telegram received.", "quantifier": "all arguments, all bus behaviours, all telegrams and chunkings", "why_tests_cant": "all telegram contents and adversarial bus behaviour", "anchors": ["bin/mbus-serial-request-data.c:main", "bin/mbus-serial-request-data.c:init_slaves", "bin/mbus-tcp-request-data.c:main", "mbus/mbus-protocol-aux.c:mbus_send_request_frame", "mbus/mbus-protocol.c:mbus_frame_data_xml"]}
{"id": "C92", "title": "A multi-telegram readout prints all telegrams of the named meter", "statement": "mbus-*-request-data-multi-reply send nothing but link layer resets, the selection of the meter named by the argument and requests for data to it; they either print nothing and exit with status 1, or print the XML document of exactly the telegrams accepted from the named meter, in order; if fewer than max_data_retry+1 exchanges in a row get lost, the document is complete.", "quantifier": "all arguments, all bus behaviours, all patterns of lost exchanges, all readouts", "why_tests_cant": "interleavings of losses with frame count bits over arbitrarily long readouts", "anchors": ["bin/mbus-serial-request-data-multi-reply.c:main", "bin/mbus-tcp-request-data-multi-reply.c:main", "mbus/mbus-protocol-aux.c:mbus_sendrecv_request", "mbus/mbus-protocol.c:mbus_frame_xml"]}
{"id": "C93", "title": "Raw-send transmits exactly the telegram in the file", "statement": "mbus-tcp-raw-send prints nothing; it sends nothing beyond the selection unless the named meter could be reached and the file is the hexadecimal text of exactly one well-formed telegram, which it then transmits byte for byte, once; the exit status is 0 iff an answer arrived. A text that is not hexadecimal is refused.", "quantifier": "all file contents up to 4096 characters, all arguments, all telegrams, all bus behaviours and chunkings", "why_tests_cant": "all texts, telegrams and adversarial answers", "anchors": ["bin/mbus-tcp-raw-send.c:main", "mbus/mbus-protocol.c:mbus_hex2bin", "mbus/mbus-protocol.c:mbus_parse"]}
{"id": "C94", "title": "The scan-secondary tools list exactly the meters", "statement": "mbus-serial-scan-secondary / mbus-tcp-scan-secondary send nothing but link resets, selections and data requests; they refuse a mask that is not 16 hexadecimal digits without sending anything; otherwise each printed line names the address in a telegram that was received and a mask that refines the given one, at most one per probe. On a bus of meters with distinct decimal identification numbers exactly the meters the mask selects are listed, each once.", "quantifier": "all masks, all bus behaviours; all sets of meters and chunkings", "why_tests_cant": "recursion over an unbounded number of meters and adversarial answers", "anchors": ["bin/mbus-serial-scan-secondary.c:main", "bin/mbus-serial-scan-secondary.c:init_slaves", "bin/mbus-tcp-scan-secondary.c:main", "mbus/mbus-protocol-aux.c:mbus_scan_2nd_address_range"]}
{"id": "C95", "title": "The select-secondary tools report exactly the selected meter", "statement": "mbus-*-select-secondary send nothing for a text that is not 16 hexadecimal digits; they send one selection, request data only after it was acknowledged, and print the address contained in the telegram that answers the request; if exactly one meter matches its address is printed with exit status 0, if none or several match nothing is printed and the exit status is 1.", "quantifier": "all arguments, all bus behaviours; all sets of meters and chunkings; all contents of uninitialised stack objects", "why_tests_cant": "adversarial answers and uninitialised memory", "anchors": ["bin/mbus-serial-select-secondary.c:main", "bin/mbus-tcp-select-secondary.c:main", "mbus/mbus-protocol-aux.c:mbus_send_select_frame", "mbus/mbus-protocol.c:mbus_frame_get_secondary_address"]}
{"id": "C96", "title": "The frame dump shows every byte of every frame", "statement": "mbus_frame_print prints, for each frame of a chain, one line naming the type and length of the telegram followed by all its bytes in hexadecimal and in order; it returns 0, and -1 without output when there is no frame.", "quantifier": "all chains of frames of legal telegrams (any length), all contents of the local buffer", "why_tests_cant": "chains and payloads are unbounded in number; a fixed buffer inside the function is only exceeded by some lengths", "anchors": ["mbus/mbus-protocol.c:mbus_frame_print"]}
{"id": "C97", "title": "The data dump shows every decoded field", "statement": "mbus_frame_data_print / mbus_data_*_print of data obtained from a telegram prints the header fields and, record by record, every DIF, DIFE, VIF, VIFE and data byte of the telegram with the function, unit and medium names the standard gives them; fixed-length and error data likewise.", "quantifier": "all telegrams whose data are accepted by mbus_frame_data_parse", "why_tests_cant": "arbitrarily many records with arbitrarily long extension lists; all 256 values of each coded field", "anchors": ["mbus/mbus-protocol.c:mbus_frame_data_print", "mbus/mbus-protocol.c:mbus_data_variable_print", "mbus/mbus-protocol.c:mbus_data_variable_header_print", "mbus/mbus-protocol.c:mbus_data_fixed_print", "mbus/mbus-protocol.c:mbus_data_error_print"]}
{"id": "C98", "title": "The parse tools show the telegram in the file, or fail", "statement": "mbus_parse_hex (hexadecimal text) and mbus_parse (binary file) print the XML document of exactly the telegram contained in the file and exit with status 0; if the file contains no telegram, or one whose data are refused, no document is printed and the exit status is not 0.", "quantifier": "all files (all layouts of the hexadecimal text, all telegrams), all contents of uninitialised buffers", "why_tests_cant": "arbitrary files, lengths and payloads; the composition of conversion, parsing and formatting", "anchors": ["test/mbus_parse_hex.c:main", "test/mbus_parse.c:main", "mbus/mbus-protocol.c:mbus_hex2bin", "mbus/mbus-protocol.c:mbus_parse", "mbus/mbus-protocol.c:mbus_frame_data_xml"]}
{"id": "C99", "title": "Everything a program transmits is a legal telegram of one of its calls", "statement": "For every program on a handle (any finite sequence of calls of the sending, receiving, selecting, probing, scanning, reading and option functions with proper arguments, on a TCP or serial handle and on a bus that answers arbitrarily): the byte strings written to the descriptor are, in the order of the calls, legal telegrams each of which the respective call is documented to send (request, link reset, baud rate, application reset, user data, address change, selection of the given mask); every one of them is accepted by mbus_parse and delivers that telegram; a program that does not hand frames to mbus_send_frame itself transmits master telegrams only; the options of the handle stay legal; and undefined behaviour occurs at most in the calls that parse replies (probe, scan, multi-telegram request).", "quantifier": "all programs (call sequences of any length and any arguments), both transports, all behaviours of bus and operating system", "why_tests_cant": "a test runs one sequence of calls against one simulated bus; the claim is about every interleaving of calls and answers", "anchors": ["mbus/mbus-protocol-aux.c: mbus_send_frame, mbus_recv_frame, mbus_purge_frames, mbus_send_request_frame, mbus_send_ping_frame, mbus_send_switch_baudrate_frame, mbus_send_application_reset_frame, mbus_send_user_data_frame, mbus_set_primary_address, mbus_send_select_frame, mbus_select_secondary_address, mbus_probe_secondary_address, mbus_scan_2nd_address_range, mbus_read_slave, mbus_sendrecv_request, mbus_context_set_option", "mbus/mbus-tcp.c", "mbus/mbus-serial.c"]}
{"id": "C100", "title": "The event callbacks report the traffic and change nothing", "statement": "Registering the send and receive event callbacks does not change what any program does or transmits. After every program the send callback has been called exactly once, in order and with exactly the written bytes, for each byte string the operating system took completely; each call of the receive callback carries one whole telegram or bytes that do not start with a telegram, the reported bytes arrived in this order and none is reported twice; on a serial line without read errors the reports together are everything that was read. (Over TCP, bytes read before a timeout, error or connection end are consumed without being reported: the completeness claim is false there.) With mbus_dump_send_event and mbus_dump_recv_event each event is one line on standard error from which time, direction and bytes can be read back, so the trace determines the events.", "quantifier": "all programs, both transports, all behaviours of bus and operating system, all event sequences", "why_tests_cant": "a test compares the callback log of one session; the claim is about all sessions, all chunkings and all failures", "anchors": ["mbus/mbus-protocol-aux.c: mbus_register_send_event, mbus_register_recv_event", "mbus/mbus-tcp.c: mbus_tcp_send_frame, mbus_tcp_recv_frame", "mbus/mbus-serial.c: mbus_serial_send_frame, mbus_serial_recv_frame", "mbus/mbus-protocol.c: mbus_hex_dump, mbus_dump_send_event, mbus_dump_recv_event"]}
{"id": "C101", "title": "A normalised record owns exactly its own memory", "statement": "mbus_parse_variable_record and mbus_parse_fixed_record return NULL or a record; what they allocated and did not release is exactly the record with its texts, the texts read as the documented ones, and one mbus_record_free gives back exactly these blocks. This holds whichever of the allocations inside fail: nothing is freed twice, nothing freed is used, and after NULL nothing is left behind. (False in the code for records with an unassigned VIF, whose text stays allocated when NULL is returned; and when the allocation of the unit or quantity text fails, a record without it is returned.)", "quantifier": "all records the parser can deliver, all fixed-format counters, all heaps, all patterns of failing allocations", "why_tests_cant": "a test makes one chosen allocation fail for one record; the claim is about every pattern of failures and every record", "anchors": ["mbus/mbus-protocol-aux.c: mbus_record_new, mbus_record_free, mbus_parse_fixed_record, mbus_parse_variable_record, mbus_variable_value_decode, mbus_vib_unit_normalize, mbus_data_fixed_normalize"]}
{"id": "C102", "title": "Normalised XML survives allocation failures", "statement": "mbus_data_variable_xml_normalized, whichever allocations fail, never frees twice or uses freed memory; it returns NULL or a block holding the complete, terminated document with one DataRecord per record, where a record whose normalisation failed appears empty; all memory it allocated apart from the returned block is released (except the texts of records with an unassigned VIF). If no allocation fails the text is the document of C79.", "quantifier": "all variable-data telegrams within C79's restriction, all heaps, all patterns of failing allocations", "why_tests_cant": "the buffer is reallocated in the middle of the record loop with a live record; a test cannot try every failure position of every telegram", "anchors": ["mbus/mbus-protocol-aux.c: mbus_data_variable_xml_normalized, mbus_parse_variable_record, mbus_record_free"]}
{"id": "C103", "title": "Every command gives its memory back", "statement": "mbus_send_request_frame, mbus_send_ping_frame, mbus_send_switch_baudrate_frame, mbus_send_application_reset_frame, mbus_send_user_data_frame, mbus_set_primary_address and mbus_send_select_frame leave the heap exactly as they found it on every path, whatever the link does. If the operating system refuses the allocation of the frame, nothing is transmitted, the state of the handle is unchanged and the command returns -1 (or the code for illegal arguments); otherwise the command behaves as with plentiful memory.", "quantifier": "all commands with all arguments, all links, all heaps, all answers of the allocator", "why_tests_cant": "the release must happen on every path, including failing writes and refused allocations, for every argument", "anchors": ["mbus/mbus-protocol-aux.c: mbus_send_request_frame, mbus_send_ping_frame, mbus_send_switch_baudrate_frame, mbus_send_application_reset_frame, mbus_send_user_data_frame, mbus_set_primary_address, mbus_send_select_frame"]}
{"id": "C104", "title": "Probing and scanning give their memory back", "statement": "mbus_probe_secondary_address leaves the heap exactly as it found it, for every mask, every bus and every pattern of refused allocations. mbus_scan_2nd_address_range does so too. (False in the code: when a probe fails - the write fails or an allocation is refused - the local copy of the address mask is never freed.)", "quantifier": "all masks, positions, buses, heaps and patterns of refused allocations", "why_tests_cant": "the scan recurses over up to 10^16 masks; leaks on single branches show only under failing writes or allocations at particular points", "anchors": ["mbus/mbus-protocol-aux.c: mbus_probe_secondary_address, mbus_select_secondary_address, mbus_scan_2nd_address_range", "mbus/mbus-protocol.c: mbus_frame_get_secondary_address, mbus_data_variable_parse"]}
{"id": "C105", "title": "A request accounts for all its memory", "statement": "After mbus_sendrecv_request the heap is the old one plus exactly the frames linked to the caller's reply frame; releasing these gives the old heap back. This holds for every number of telegrams and retries and every pattern of refused allocations; without refused allocations the request behaves as with unlimited memory; with refused allocations it does not report success for an incomplete readout. (False in the code: the records of a telegram that fails to parse half-way are leaked, and a refused allocation of a record is taken for success, so that a multi-telegram readout ends early with return code 0.)", "quantifier": "all orderly meters, numbers of telegrams, heaps and patterns of refused allocations", "why_tests_cant": "which blocks are alive depends on the whole history of the request and on the point where memory ran out", "anchors": ["mbus/mbus-protocol-aux.c: mbus_sendrecv_request", "mbus/mbus-protocol.c: mbus_frame_data_parse, mbus_data_variable_parse, mbus_data_record_free, mbus_frame_new, mbus_frame_free"]}
{"id": "C106", "title": "Normalised values are accurate", "statement": "For every delivered record with a documented scale, the number that mbus_parse_variable_record returns differs from the exact physical value (the whole number or real in the data times the documented power of ten, with the correction of the first VIFE) by at most 6*2^-53 of its size; the same within 4*2^-53 for the counters of the fixed data structure (mbus_parse_fixed_record). Whole numbers in scale 1 are returned exactly. No intermediate result overflows or underflows. (False in the code for whole numbers of more than 53 bits: every value goes through a double, so 64-bit counters lose their low digits.)", "quantifier": "all delivered records with a documented scale, all data bytes; all counters and unit codes of the fixed structure", "why_tests_cant": "rounding errors depend on every bit of the 64-bit values and differ per scale; a sample shows nothing about the worst case", "anchors": ["mbus/mbus-protocol-aux.c:mbus_parse_variable_record", "mbus/mbus-protocol-aux.c:mbus_variable_value_decode", "mbus/mbus-protocol-aux.c:mbus_vif_unit_normalize", "mbus/mbus-protocol-aux.c:mbus_vib_unit_normalize", "mbus/mbus-protocol-aux.c:mbus_parse_fixed_record"]}
{"id": "C107", "title": "The normalised XML shows the exact decimal value", "statement": "The value of a whole-number record or fixed counter in the normalised XML output is the exact decimal expansion of number times scale, no digit more and no digit wrong. (False in the code for counters of more than 32 bits, e.g. 123456789012 * 0.1 Wh is printed 12345678901.200001, and for scales below 10^-6, where different flows are all printed 0.000000.)", "quantifier": "all whole-number records of up to 32 bits with decimal scales 10^-6..10^9; all fixed counters", "why_tests_cant": "each of 2^32 counters times 16 scales passes through two roundings of a double and one of printf", "anchors": ["mbus/mbus-protocol-aux.c:mbus_data_variable_xml_normalized", "mbus/mbus-protocol-aux.c:mbus_parse_variable_record", "mbus/mbus-protocol-aux.c:mbus_vib_unit_normalize"]}
{"id": "C108", "title": "The product name identifies the device", "statement": "mbus_data_product_name returns the name of a product exactly when the manufacturer, the medium and the version (for some makers: the top digits of the identification number) of the header are those of an entry in the product catalogue; every entry is reachable, no header matches entries of different names, and all other headers get the empty name.", "quantifier": "all headers (all manufacturer numbers, versions, media and identification numbers)", "why_tests_cant": "2^40 headers; earlier branches of the if chain and earlier cases may hide later ones", "anchors": ["mbus/mbus-protocol.c:mbus_data_product_name", "mbus/mbus-protocol.c:mbus_manufacturer_id"]}
{"id": "C109", "title": "XML output when memory runs out", "statement": "mbus_frame_xml either returns NULL and leaves the heap as it was, or returns one newly allocated text: the complete, closed document of all records of all telegrams. No allocation failure leads to a use after release, a double release, a leak or a document that lacks records. mbus_data_variable_xml, mbus_data_fixed_xml and mbus_data_error_xml likewise, leaving the caller's records alone.", "quantifier": "all chains of telegrams, all heaps, all patterns of refused allocations, any number of records", "why_tests_cant": "the pattern of refusals ranges over every allocation of every record and every growth of the buffer; tests never refuse an allocation", "anchors": ["mbus/mbus-protocol.c:mbus_frame_xml", "mbus/mbus-protocol.c:mbus_data_variable_xml", "mbus/mbus-protocol.c:mbus_data_variable_parse", "mbus/mbus-protocol.c:mbus_frame_data_xml"]}
{"id": "C110", "title": "Serial line settings", "statement": "While a serial handle is connected the line is set to 8 data bits, even parity, one stop bit, receiver on, raw in both directions, at the rate the application may assume (2400 after connecting, the last accepted rate later), and reads wait long enough for the answer of a meter at that rate. A rate is accepted exactly if it is one of the eight M-Bus rates and the operating system takes the settings; a refused rate changes nothing. No call changes the settings of another device.", "quantifier": "all histories of connect, set-rate and disconnect calls on a handle with any answers of open and tcsetattr, all initial contents of the handle's memory, any activity of other code on other descriptors and devices", "why_tests_cant": "the history and the answers of the operating system are unbounded; a test sees one terminal in one initial state", "anchors": ["mbus/mbus-serial.c:mbus_serial_connect", "mbus/mbus-serial.c:mbus_serial_set_baudrate", "mbus/mbus-serial.c:mbus_serial_disconnect"]}
{"id": "C111", "title": "Record labels and quantity names are the documented ones", "statement": "The unit text of a record (mbus_data_record_unit, mbus_vib_unit_lookup, mbus_vif_unit_lookup) names the quantity the M-Bus documentation assigns to its VIF or VIFE code, with a multiple and a unit that together mean the documented scale, so the text together with the printed number gives the physical value; different codes have different texts. Normalised records carry the documented quantity name. A unit sent as text is shown unchanged, with its power of ten.", "quantifier": "all records (every primary VIF, every VIFE after 0xFD and 0xFB, with and without extension bit, every custom unit text), every exponent", "why_tests_cant": "a test looks at a few codes; labels are computed by masks from ranges of codes, so a wrong mask or boundary changes codes no test contains", "anchors": ["mbus/mbus-protocol.c:mbus_vif_unit_lookup", "mbus/mbus-protocol.c:mbus_vib_unit_lookup", "mbus/mbus-protocol.c:mbus_unit_prefix", "mbus/mbus-protocol-aux.c:mbus_vif_unit_normalize"]}
{"id": "C112", "title": "Returned texts stay valid until a listed call", "statement": "The lookup functions return pointers to memory of the library. Whatever was called before, every call on proper arguments succeeds without undefined behaviour and the pointer shows a text that depends on its arguments alone; the text stays unchanged over every sequence of further text calls, except after the calls listed for its function (e.g. a unit is only overwritten by the next mbus_data_record_unit or mbus_data_variable_record_xml, a VIF label also by mbus_vib_unit_lookup and the reverse).", "quantifier": "all calls, all previous contents of the static buffers, all histories of later calls", "why_tests_cant": "a test keeps one pointer over a few calls; which buffer a function writes or returns depends on the record, and clobbering needs a particular order of calls", "anchors": ["mbus/mbus-protocol.c:mbus_vib_unit_lookup", "mbus/mbus-protocol.c:mbus_data_record_unit", "mbus/mbus-protocol.c:mbus_data_record_value", "mbus/mbus-protocol.c:mbus_data_variable_record_xml", "mbus/mbus-protocol.c:mbus_unit_prefix"]}
{"id": "C113", "title": "What the XML functions do with records of any length", "statement": "For every chain of variable-data telegrams whose storage numbers fit an int, whatever the length of units and texts and whatever the memory contained, the outcome of mbus_frame_xml (also mbus_data_variable_xml and mbus_frame_data_xml_normalized) depends only on the lengths of the printed texts: it writes outside its buffer, or returns the complete document, or exactly its first characters; units and values are escaped and cut to the 768-byte scratch array. The document is complete if every record has at most 1023 characters of XML and the last at most 1011; these limits are exact. The returned text is a well-formed document exactly if it is complete. All three outcomes occur: there is a telegram whose document is returned without its end, with no notice.", "quantifier": "all chains of telegrams, all records, all text lengths, all previous memory contents", "why_tests_cant": "the outcome depends on how the record lengths fall relative to the doubling of the buffer; a cut needs a record that ends within 12 bytes of the buffer end", "anchors": ["mbus/mbus-protocol.c:mbus_frame_xml", "mbus/mbus-protocol.c:mbus_data_variable_xml", "mbus/mbus-protocol.c:mbus_str_xml_encode", "mbus/mbus-protocol-aux.c:mbus_data_variable_xml_normalized"]}
{"id": "C114", "title": "Time stamps of records are UTC times that sort like times", "statement": "For every frame timestamp from 1970 to the end of 9999, the Timestamp element of every record in the document of mbus_frame_xml is the ISO 8601 text (YYYY-MM-DDThh:mm:ssZ, 20 characters) of exactly that time in UTC, whatever the memory contained; timestamps that are zero or negative give no Timestamp element. Different times have different texts, and comparing texts character by character is comparing times; the same holds for the times in the lines of mbus_hex_dump. From year 10000 on the text shown is indeterminate, and from year 2147485548 on a null pointer is dereferenced.", "quantifier": "all times, all chains of telegrams, all previous memory contents", "why_tests_cant": "leap years, centuries and month ends over 8000 years; order over all pairs of times", "anchors": ["mbus/mbus-protocol.c:mbus_data_variable_record_xml", "mbus/mbus-protocol.c:mbus_hex_dump", "mbus/mbus-protocol.c:mbus_data_variable_parse", "mbus/mbus-protocol-aux.c:mbus_recv_frame"]}
{"id": "C115", "title": "The tools accept the documented command lines, with the documented meaning", "statement": "For every list of arguments, each of the fourteen command line tools accepts it exactly if it has the form documented in SYNOPSIS and OPTIONS of the manual page, and takes device or host, port, baud rate (default 9600), retransmissions (default 0), number of frames (default 16), debug flag, addresses and mask (default FFFFFFFFFFFFFFFF) from the documented positions; the options of the multi-reply tools may be mixed and repeated in any order, the last one counts. A numeral with leading white space, an optional sign and any rest is read as its value, saturating at the limits of a 64-bit integer. False of mbus-serial-scan-secondary: with -d and five arguments any word is accepted in the place of -b; and a device named -d cannot be given.", "quantifier": "all argument lists of any length with arguments of any content", "why_tests_cant": "the argument lists are unbounded in number and length; every count of arguments and every option combination interact", "anchors": ["bin/mbus-serial-request-data.c:main", "bin/mbus-serial-request-data-multi-reply.c:main", "bin/mbus-serial-scan.c:main", "bin/mbus-serial-scan-secondary.c:main", "bin/mbus-serial-select-secondary.c:main", "bin/mbus-serial-set-address.c:main", "bin/mbus-serial-switch-baudrate.c:main", "bin/mbus-tcp-application-reset.c:main", "bin/mbus-tcp-raw-send.c:main", "bin/mbus-tcp-request-data.c:main", "bin/mbus-tcp-request-data-multi-reply.c:main", "bin/mbus-tcp-scan.c:main", "bin/mbus-tcp-scan-secondary.c:main", "bin/mbus-tcp-select-secondary.c:main", "bin/libmbus.pod"]}
{"id": "C116", "title": "The tools send and print nothing unless the command line and the target are usable, work on the named target only, and release all resources", "statement": "For every command line, operating system behaviour and bus: a command line that is not accepted, an invalid address mask, new address or port, or a target that cannot be opened or configured ends the program with nothing sent, nothing printed and the documented status; otherwise the program does exactly what the tool does on a handle connected to the target the command line names, with default options, and on success all memory and descriptors taken by the program are released before it ends. False: mbus-serial-scan-secondary never frees the frame object it allocates; twelve of the tools end with status 0 after a usage error.", "quantifier": "all command lines, all answers of the operating system, all worlds behind the targets, all states of the process", "why_tests_cant": "failure points of allocation and connection combine with all command lines; releases must hold for every process state", "anchors": ["bin/mbus-serial-request-data.c:main", "bin/mbus-serial-scan-secondary.c:main", "bin/mbus-serial-set-address.c:main", "bin/mbus-tcp-raw-send.c:main", "bin/mbus-tcp-select-secondary.c:main", "mbus/mbus-protocol-aux.c:mbus_context_serial", "mbus/mbus-protocol-aux.c:mbus_context_tcp", "mbus/mbus-protocol-aux.c:mbus_connect", "mbus/mbus-protocol-aux.c:mbus_disconnect", "mbus/mbus-protocol-aux.c:mbus_context_free"]}
{"id": "C117", "title": "From the command line to the telegrams on the bus and the text on standard output", "statement": "For every accepted command line and every bus with the meters described: the telegrams the program transmits and the complete text it prints are those documented: the scan prints one line per address with meters, set-address, switch-baudrate and reset confirm with the number given, the selection prints the address searched for and the one found, the secondary scan one line per meter, request-data the XML document of the meter's answer, the multi-reply tools one document for the chain. Printed numbers are decimal numerals. False: mbus-serial-select-secondary with -b prints the baud rate as the address searched for; documents of 8192 and more characters are printed cut off with status 0.", "quantifier": "all accepted command lines, all buses with the stated meters, all chunkings of the replies, all uninitialised memory", "why_tests_cant": "composition of option parsing, connection, session, decoding and printing over all buses and lines", "anchors": ["bin/mbus-serial-scan.c:main", "bin/mbus-serial-select-secondary.c:main", "bin/mbus-serial-set-address.c:main", "bin/mbus-serial-switch-baudrate.c:main", "bin/mbus-serial-scan-secondary.c:main", "bin/mbus-serial-request-data.c:main", "bin/mbus-serial-request-data-multi-reply.c:main", "bin/mbus-tcp-application-reset.c:main", "bin/mbus-tcp-raw-send.c:main", "mbus/mbus-protocol-aux.c:mbus_scan_2nd_address_range", "mbus/mbus-protocol.c:mbus_frame_print"]}
{"id": "C118", "title": "Option -d adds lines to the output of the tools and changes nothing else", "statement": "For every bus and every run, a tool with -d transmits the same telegrams and ends with the same status as without it, and its output is the output without it with debug lines inserted (none without -d). The lines: the reset of the meters announces its two pings; the scan prints a heading and each address once per ping sent to it, before its result; request-data and the multi-reply tools print, before the document, the telegrams received in hexadecimal (for a telegram of more than 256 bytes only a line with the length -4).", "quantifier": "all buses and links (also faulty ones), all states, all command line operands; the exact lines for all buses with the meters described and all chunkings", "why_tests_cant": "two programs have to be compared over all histories of the bus; the number of debug lines depends on the whole exchange", "anchors": ["bin/mbus-serial-scan.c:ping_address", "bin/mbus-tcp-scan.c:ping_address", "bin/mbus-serial-request-data.c:init_slaves", "bin/mbus-serial-request-data.c:main", "bin/mbus-tcp-request-data.c:main", "bin/mbus-serial-request-data-multi-reply.c:main", "bin/mbus-tcp-request-data-multi-reply.c:main", "bin/mbus-serial-set-address.c:main", "bin/mbus-serial-scan-secondary.c:main", "mbus/mbus-protocol.c:mbus_frame_print"]}
{"id": "C119", "title": "mbus_error_str() names the defect that made the last call fail", "statement": "A call of mbus_parse, mbus_frame_verify, mbus_frame_data_parse, mbus_frame_get_secondary_address, mbus_frame_select_secondary_pack, mbus_frame_xml, or of the TCP transport, stores a message exactly if it fails, and mbus_error_str() then shows the message, complete, whatever it showed before. The message names the first defect: for mbus_parse each defective input has exactly one message, with the control code or the two checksums in it; for application data it says which block of which record is cut off or has too many extension bytes. On the serial line this fails: a failed read or a telegram that stays incomplete leaves an older message, and a timeout reports a null pointer.", "quantifier": "all byte strings, frame objects, application data, address texts, sequences of read and write results; all old contents of the message buffer", "why_tests_cant": "the message has to match the defect for every defective input, and the order of the checks decides which defect is named", "anchors": ["mbus/mbus-protocol.c:mbus_error_str", "mbus/mbus-protocol.c:mbus_error_str_set", "mbus/mbus-protocol.c:mbus_parse", "mbus/mbus-protocol.c:mbus_frame_verify", "mbus/mbus-protocol.c:mbus_frame_data_parse", "mbus/mbus-protocol.c:mbus_data_variable_parse", "mbus/mbus-protocol.c:mbus_data_fixed_parse", "mbus/mbus-protocol.c:mbus_frame_get_secondary_address", "mbus/mbus-protocol.c:mbus_frame_select_secondary_pack", "mbus/mbus-protocol.c:mbus_frame_xml", "mbus/mbus-tcp.c:mbus_tcp_connect", "mbus/mbus-tcp.c:mbus_tcp_send_frame", "mbus/mbus-tcp.c:mbus_tcp_recv_frame", "mbus/mbus-serial.c:mbus_serial_recv_frame"]}
{"id": "C120", "title": "mbus_parse and mbus_parse_hex: exit status and messages tell what is wrong with the file", "statement": "For every command line and every file: anything but [-n] FILE prints the usage; a file that cannot be opened or read is named; exit status 1. mbus_parse_hex on a hexadecimal text: bytes that are no telegram are refused with the message that names their first defect, an incomplete telegram with the number of bytes it lacks, improper data with the reason behind a dump of the telegram; otherwise exactly the document, exit status 0, no message. False in two places: with -n an application error of the meter gives exit status 1 and an empty message; mbus_parse (binary) shows a telegram with a wrong checksum exactly as if it were correct, and names the wrong reason for garbage.", "quantifier": "all command lines, files, byte strings and uninitialised memory", "why_tests_cant": "the outcome has to be right for every byte string; the order of the checks and the old content of the message buffer decide which message appears", "anchors": ["test/mbus_parse.c:main", "test/mbus_parse_hex.c:main", "mbus/mbus-protocol.c:mbus_parse", "mbus/mbus-protocol.c:mbus_frame_data_parse", "mbus/mbus-protocol.c:mbus_frame_print", "mbus/mbus-protocol.c:mbus_hex2bin"]}
{"id": "C121", "title": "A reply belongs to the meter that was asked", "statement": "A program reads any list of meters one after the other over one handle. By primary address: if every answer arrives in time, each mbus_read_slave returns 0 with the telegram of the meter it names (-1 if there is none). False after one late answer: from then on every call returns 0 with the telegram of the meter asked before it, for ever (only the address field of the reply shows it), until the line is purged with mbus_purge_frames, which restores the correspondence whatever was waiting. By secondary address: a late answer makes at most the next two calls fail; no call ever returns the data of another meter.", "quantifier": "all populations of meters, address lists with repetitions, histories of the bus, chunkings, both transports", "why_tests_cant": "the wrong assignment needs a particular interleaving of answers and time-outs and then persists through an unbounded sequence of calls that all report success", "anchors": ["mbus/mbus-protocol-aux.c:mbus_read_slave", "mbus/mbus-protocol-aux.c:mbus_recv_frame", "mbus/mbus-protocol-aux.c:mbus_purge_frames", "mbus/mbus-protocol-aux.c:mbus_select_secondary_address"]}
{"id": "C122", "title": "Diagnostics tell what happened", "statement": "What the session functions print on stderr (MBUS_ERROR), as a function of the calls they made on their handle: each command prints exactly one line if it fails and none otherwise, naming the function and the offending value or the failed transmission; mbus_select_secondary_address, mbus_read_slave, mbus_probe_secondary_address, mbus_scan_2nd_address_range and mbus_sendrecv_request print the lines of every step in order. mbus_read_slave prints something exactly if it fails; a scan or probe that prints nothing left nothing in doubt (every telegram was taken by the transport, every reply conclusive). Printing changes neither results nor telegrams. False: on the serial line the reason quoted for a failed selection is whatever message an earlier call left; a connection closed during selection is reported as an unexpected reply and as no device with this address; a scan that was given up can return 0, so that only stderr tells.", "quantifier": "all states of a handle, replies, masks, addresses, option values, texts left in error_str, both transports", "why_tests_cant": "the lines depend on every course of an exchange of unbounded length and on global state left by earlier calls", "anchors": ["mbus/mbus-protocol-aux.c:MBUS_ERROR", "mbus/mbus-protocol-aux.c:mbus_select_secondary_address", "mbus/mbus-protocol-aux.c:mbus_probe_secondary_address", "mbus/mbus-protocol-aux.c:mbus_scan_2nd_address_range", "mbus/mbus-protocol-aux.c:mbus_read_slave", "mbus/mbus-protocol-aux.c:mbus_sendrecv_request", "mbus/mbus-protocol.c:mbus_error_str"]}
{"id": "C123", "title": "Killed at any point, a tool leaves no meter half-configured", "statement": "Let a command line tool be killed between any two of its calls on the handle (a transmission that failed may or may not have reached the meters; all others are heard by every meter). mbus-serial-set-address, for a secondary address with an identification number of decimal digits and wildcards or a primary address other than 253 (which is no meter's own): no meter has another baud rate, and either every meter has its old primary address, or exactly the meters the user named (by secondary address: those the address selects; by primary address: those with it, all for 254/255) have the new one and every other meter keeps its own; so pairwise different addresses stay pairwise different; after reported success the named meters have the new address. mbus-serial-switch-baudrate: no address changed, and either no baud rate changed or exactly those of the meters that listen to the given address. request-data, request-data-multi-reply, scan, scan-secondary, select-secondary and reset: no address and no baud rate ever changes.", "quantifier": "all points at which the program can be killed, all buses and meters (address, secondary address, selection, baud rate), arguments, replies and failures of the handle", "why_tests_cant": "a test kills a program at a few points against a few simulated meters; the claim is about every prefix of every run", "anchors": ["bin/mbus-serial-set-address.c:main", "bin/mbus-serial-switch-baudrate.c:main", "bin/mbus-serial-request-data.c:main", "bin/mbus-serial-request-data-multi-reply.c:main", "bin/mbus-serial-scan.c:main", "bin/mbus-serial-scan-secondary.c:main", "bin/mbus-serial-select-secondary.c:main", "bin/mbus-serial-reset.c:main", "mbus/mbus-protocol-aux.c:mbus_set_primary_address"]}
{"id": "C124", "title": "Handles in one process do not disturb each other", "statement": "A program uses any number of handles, on different buses, and calls the session functions on them in any interleaving (calls one at a time). What each call returns (code, reply, matching address, chain of replies), the options of each handle and everything transmitted and received on its bus are exactly those of making just the calls on this handle in a program that has no other; no undefined behaviour arises that would not arise alone; and two schedules with the same calls on each handle give the same results. The lines on stderr about a handle are the same as well, except for the texts they quote after a colon: there independence is false, because the text of the last error is shared, so a line about one handle can quote the failure of another.", "quantifier": "all interleavings of calls on any number of handles, all buses, options, retries, replies and previous contents of the error text", "why_tests_cant": "a test runs one or two interleavings of a few calls; the claim is about all schedules of all histories", "anchors": ["mbus/mbus-protocol.c:error_str", "mbus/mbus-protocol.c:mbus_error_str_set", "mbus/mbus-protocol-aux.h:_mbus_handle", "mbus/mbus-protocol-aux.c:mbus_context_set_option", "mbus/mbus-protocol-aux.c:mbus_sendrecv_request", "mbus/mbus-protocol-aux.c:mbus_select_secondary_address"]}
{"id": "C125", "title": "A secondary scan survives lost selections, but not lost data", "statement": "On a bus that loses telegrams, but never more selections (or their answers) in a row than the search retries of the handle, a secondary scan reports exactly the meters it reports on a bus without losses: each meter that is the only one selected by some mask tried, once, with its address and its response; with decimal, different identification numbers a scan of the whole range reports every meter. The secondary scan tools print one line for each. The retries cover nothing but the selections: if the first data telegram of the only meter on the bus is lost, the scan succeeds and reports no meter, whatever the number of retries.", "quantifier": "all buses that lose at most as many selections in a row as there are retries, all sets of meters, masks, positions, chunkings of the answers, histories of the bus", "why_tests_cant": "a test loses a few telegrams of one scan; the claim is about all patterns of losses in scans of any depth", "anchors": ["mbus/mbus-protocol-aux.c:mbus_probe_secondary_address", "mbus/mbus-protocol-aux.c:mbus_scan_2nd_address_range", "mbus/mbus-protocol-aux.c:mbus_select_secondary_address", "mbus/mbus-protocol-aux.c:mbus_context_set_option", "bin/mbus-serial-scan-secondary.c:main"]}
{"id": "C126", "title": "How long a call can wait", "statement": "Measured in `read` system calls, each of which waits for at most one timeout: one receive makes at most 263 reads on a serial line and 261 plus the interrupted ones on a socket, whatever arrives. A program of any calls on a handle makes at most 12 reads for each of its transmissions, 6 for each receive or purge of its own and 7 for each byte or piece that arrives. When nobody answers, each exchange (ping with purge, selecting, probing, scanning, reading, requesting) waits exactly once for each of its transmissions, twice with the purge option S2M: probing a mask max_search_retry + 1 times, searching a wildcard ten times as many, a request max_data_retry + 1 times. What is not bounded: a purge, and with it selecting, never returns while something keeps arriving, and a receive on a socket never returns while each of its reads is interrupted; every other receive returns even if the line never falls silent.", "quantifier": "all scripts of results of read, all buses, settings and sequences of calls, both transports, all endless lines", "why_tests_cant": "a test runs one exchange with one timing; termination and the number of waits are claims about all that can arrive, including endless streams", "anchors": ["mbus/mbus-serial.c:mbus_serial_recv_frame", "mbus/mbus-tcp.c:mbus_tcp_recv_frame", "mbus/mbus-protocol-aux.c:mbus_recv_frame", "mbus/mbus-protocol-aux.c:mbus_purge_frames", "mbus/mbus-protocol-aux.c:mbus_sendrecv_request", "mbus/mbus-protocol-aux.c:mbus_probe_secondary_address", "mbus/mbus-protocol-aux.c:mbus_scan_2nd_address_range"]}
{"id": "C127", "title": "Threads and the static texts", "statement": "The functions that return a text in static memory fall into families that share memory: manufacturer name and header XML; product name and header XML; medium name and header XML; unit prefix, VIF and VIB labels, unit of a record and record XML; decoded data, value of a record and record XML; function of a record and record XML; and each of the fixed medium, fixed unit, error text, fixed function and secondary address lookups on its own. Threads of which no two use functions of one family may run in parallel without locks: under every interleaving of their memory accesses there is no data race, no undefined behaviour, every thread finishes after a number of its own accesses that does not depend on the others, and gets exactly the texts that its arguments call for. The families cannot be made smaller: for any two functions of one family there are calls and an interleaving with a data race; for a function with itself (but the VIB label), the header XML with the names in it and the decoding functions with each other that is so for all calls. In particular one function in two threads is never safe: for any two calls of it there is an interleaving in which the first thread gets the second thread's text, for the secondary address another meter's address.", "quantifier": "all numbers of threads, all lists of calls on proper arguments, all initial contents of the static memory, all interleavings of single byte accesses", "why_tests_cant": "interleavings cannot be enumerated by tests, and a race that corrupts a text once in a million runs is not seen by them", "anchors": ["mbus/mbus-protocol.c:mbus_decode_manufacturer", "mbus/mbus-protocol.c:mbus_data_product_name", "mbus/mbus-protocol.c:mbus_unit_prefix", "mbus/mbus-protocol.c:mbus_vif_unit_lookup", "mbus/mbus-protocol.c:mbus_vib_unit_lookup", "mbus/mbus-protocol.c:mbus_data_record_unit", "mbus/mbus-protocol.c:mbus_data_record_decode", "mbus/mbus-protocol.c:mbus_data_record_value", "mbus/mbus-protocol.c:mbus_data_variable_header_xml", "mbus/mbus-protocol.c:mbus_data_variable_record_xml", "mbus/mbus-protocol.c:mbus_frame_get_secondary_address"]}
{"id": "C128", "title": "Tools on a bus whose answers come late", "statement": "When every answer arrives only after further transmissions have been made, the tools go on without an error but their results are wrong in a predictable way. A primary scan without retries, answers d transmissions late: exactly one ping to each address, and \"Found\" is printed exactly for the addresses a + d of the meters a (d = 0: the true addresses). With retries and answers one transmission late: exactly for the address of each meter and the address after it. mbus-serial-set-address (for a meter named by its primary address) always sends the command, even if the new address is occupied, and prints success only if it is occupied. The secondary scan tools, answers one transmission late, finish with status 0 and print no meter at all, whatever meters there are and with any number of retries.", "quantifier": "all sets of meters, all delays, all retry counts, all answers of regular meters (with collisions for the secondary scan), both transports, all chunkings", "why_tests_cant": "needs a population of meters and a timing of all answers; every single call reports success", "anchors": ["bin/mbus-serial-scan.c:main", "bin/mbus-serial-scan.c:ping_address", "bin/mbus-tcp-scan.c:main", "bin/mbus-serial-set-address.c:main", "bin/mbus-serial-scan-secondary.c:main", "bin/mbus-tcp-scan-secondary.c:main", "mbus/mbus-protocol-aux.c:mbus_probe_secondary_address", "mbus/mbus-protocol-aux.c:mbus_recv_frame"]}
{"id": "C129", "title": "The locale of the host program", "statement": "The XML functions and the values of records print numbers with %f and ask iscntrl, so they depend on the locale that the host program has set. In every locale that agrees with ASCII on the control characters and whose decimal point is one visible character, each call ends as in the \"C\" locale (NULL, document, loss of memory or undefined behaviour), and the document differs only in this: a full stop inside a Value element may be the decimal point of the locale, and a byte above 7Fh that the locale calls a control character may be a blank. The exact document is known for every locale, also with a decimal point of several bytes: 32-bit reals of the plain form and all numbers of the normalised form carry the decimal point of the locale, everything else is the same. Where the decimal point is a comma, the value of a 32-bit real is therefore no decimal numeral any more, although in the \"C\" locale it always is; all other values of the plain form are the same in every locale.", "quantifier": "all locales of the kind described, all telegrams and chains, records, values and contents of uninitialised memory", "why_tests_cant": "tests run in the C locale; the claim is about every locale and every document", "anchors": ["mbus/mbus-protocol.c:mbus_data_record_decode", "mbus/mbus-protocol.c:mbus_str_xml_encode", "mbus/mbus-protocol.c:mbus_frame_xml", "mbus/mbus-protocol.c:mbus_frame_data_xml", "mbus/mbus-protocol-aux.c:mbus_data_variable_xml_normalized"]}
{"id": "C130", "title": "The data types of the machine", "statement": "On every machine whose long has at least 32 bits, whether plain char is signed or not, libmbus reads the same: mbus_data_long_decode on up to four bytes, the storage number and tariff of any record, its XML element and its normalised form, mbus_parse_fixed_record for any arguments, and the secondary address of any telegram; the tools take any text for the same port and the same baud rate. The machines differ exactly here: mbus_data_long_decode on more bytes has undefined behaviour exactly when the number does not fit into long; the float decoder for machines without IEEE 754 floats has undefined behaviour exactly on machines with 32-bit long for floats with the sign bit set; and numbers of the command line that become an int (addresses, retries) are cut to the nearest int where long has 32 bits, but taken modulo 2^32 where it has 64, so 4294967297 is meter 1 on the one and no address on the other.", "quantifier": "all machines (width of long from 32 bits, signedness of char), all byte arrays, sizes, records, telegrams and texts", "why_tests_cant": "tests run on one machine; the claim is about every machine and every input", "anchors": ["mbus/mbus-protocol.c:mbus_data_long_decode", "mbus/mbus-protocol.c:mbus_data_float_decode", "mbus/mbus-protocol.c:mbus_data_record_storage_number", "mbus/mbus-protocol.c:mbus_data_record_tariff", "mbus/mbus-protocol.c:mbus_data_variable_record_xml", "mbus/mbus-protocol.c:mbus_frame_get_secondary_address", "mbus/mbus-protocol-aux.c:mbus_parse_fixed_record", "mbus/mbus-protocol-aux.c:mbus_parse_variable_record", "bin/mbus-tcp-scan.c:main"]}
{"id": "C131", "title": "What an XML document tells its reader", "statement": "Two readouts for which mbus_frame_xml returns a complete document (see C56) with time stamps that are character data give the same string if and only if they show the same: the same identification number, manufacturer letters, version, access number, status, signature and names of product and medium, and - record by record - the same telegram number (if there are several telegrams), function, value, time stamp and, except for manufacturer specific data, storage number, tariff, device and unit; texts may differ in control characters, which are written as blanks. In particular two records whose values are integers never show the same value unless the integers are equal. Likewise for fixed data (always), for application errors (same label), and for mbus_frame_data_xml_normalized (same header and same normalised records, numbers as printed with six decimals). So no text of a telegram can imitate another element of the document, and nothing else about the telegram - coding and width of a number, the top bit of the manufacturer number - is in the document.", "quantifier": "all pairs of readouts, of fixed data, of application errors and of frame data, with any number of telegrams and records, and all previous contents of the memory", "why_tests_cant": "the claim compares any two of infinitely many readouts", "anchors": ["mbus/mbus-protocol.c:mbus_frame_xml", "mbus/mbus-protocol.c:mbus_data_variable_header_xml", "mbus/mbus-protocol.c:mbus_data_variable_record_xml", "mbus/mbus-protocol.c:mbus_data_fixed_xml", "mbus/mbus-protocol.c:mbus_data_error_xml", "mbus/mbus-protocol.c:mbus_str_xml_encode", "mbus/mbus-protocol-aux.c:mbus_data_variable_xml_normalized"]}
{"id": "C132", "title": "Normalisation keeps the order of readings", "statement": "Of two records with the same documented scale and the same correction - whatever the coding and width of their numbers: binary, packed decimal or real - the one with the larger number never gets the smaller value from mbus_parse_variable_record, and its number in the XML of normalised records, read as a decimal number, is never the smaller one; records with equal numbers get equal values. So rounding never makes a counter appear to run backwards. Likewise for the counters of the fixed data structure with the same unit code (where label and table agree, see C38), whether binary or packed decimal. (VIF extension code 0x79 after 0xFB is left out, see C37.)", "quantifier": "all pairs of records with finite numbers, all scales and corrections; all pairs of fixed counters", "why_tests_cant": "the claim compares any two of infinitely many pairs of readings, through several roundings", "anchors": ["mbus/mbus-protocol-aux.c:mbus_parse_variable_record", "mbus/mbus-protocol-aux.c:mbus_variable_value_decode", "mbus/mbus-protocol-aux.c:mbus_vib_unit_normalize", "mbus/mbus-protocol-aux.c:mbus_vif_unit_normalize", "mbus/mbus-protocol-aux.c:mbus_parse_fixed_record", "mbus/mbus-protocol-aux.c:mbus_data_variable_xml_normalized"]}
{"id": "C133", "title": "No control character reaches the terminal", "statement": "Whatever a meter sends, the XML documents (variable data, fixed data, application errors, normalised; complete or cut at a buffer end) and the dumps mbus_frame_print and mbus_frame_data_print consist of line feeds and bytes that are neither ASCII control characters nor DEL - the former if the caller's time stamps do - and so does the output of mbus_parse and mbus_parse_hex, with and without -n, and that of the request-data and request-data-multi-reply tools, with and without -d: a meter cannot send escape sequences to the terminal of the user. Value strings of mbus_data_record_value that are no text records have this property too; those of text records, and custom unit labels of mbus_data_record_unit, are the bytes the meter sent up to a NUL, control characters included (an application that prints them itself is not protected). Bytes from 0x80 on, including the C1 controls of ISO 8859-1, pass everywhere.", "quantifier": "all telegrams, records, frames, data, buffers' previous contents", "why_tests_cant": "every byte of every possible telegram would have to be tried at every place it can reach the output from", "anchors": ["mbus/mbus-protocol.c:mbus_str_xml_encode", "mbus/mbus-protocol.c:mbus_frame_xml", "mbus/mbus-protocol.c:mbus_data_fixed_xml", "mbus/mbus-protocol.c:mbus_data_error_xml", "mbus/mbus-protocol-aux.c:mbus_frame_data_xml_normalized", "mbus/mbus-protocol.c:mbus_frame_print", "mbus/mbus-protocol.c:mbus_frame_data_print", "mbus/mbus-protocol.c:mbus_data_record_value", "mbus/mbus-protocol.c:mbus_data_record_unit", "test/mbus_parse.c:main", "test/mbus_parse_hex.c:main", "bin/mbus-serial-request-data.c:main", "bin/mbus-tcp-request-data.c:main", "bin/mbus-serial-request-data-multi-reply.c:main", "bin/mbus-tcp-request-data-multi-reply.c:main"]}
{"id": "C134", "title": "The declared character set", "statement": "Every XML document declares ISO-8859-1. The library passes the text of a meter on byte by byte (whatever character set the meter uses), and its own labels are ASCII, with these exceptions: the names of the media 0x06 and 0x15, the texts of the application errors 5 and 6, the fixed-data unit 0x38, and the normalised units of temperatures in degrees. The exceptions are UTF-8: a reader that believes the declaration sees an extra character before the degree sign or accent. A variable-data document therefore reads the same in ISO-8859-1 and in UTF-8 exactly if its medium is neither 0x06 nor 0x15 and its records' texts are ASCII; otherwise the two readings differ, and for some telegrams neither is right: the document is not the UTF-8 form of any text, and as ISO-8859-1 its medium reads 'Warm water (30-90\u00c2\u00b0C)'.", "quantifier": "all telegrams, headers, records, labels, unit texts of meters", "why_tests_cant": "the claim is about every label of the library and every text a meter can send; tests compare documents with files written by the same code", "anchors": ["mbus/mbus-protocol.c:mbus_data_variable_medium_lookup", "mbus/mbus-protocol.c:mbus_data_error_lookup", "mbus/mbus-protocol.c:mbus_data_fixed_unit", "mbus/mbus-protocol.c:mbus_frame_xml", "mbus/mbus-protocol.c:mbus_data_variable_xml", "mbus/mbus-protocol-aux.c:vif_table"]}
{"id": "C135", "title": "The dates of meters sort like dates", "statement": "Compared character by character, the texts mbus_data_record_value gives for two date records (and the value strings of the normalised records) are ordered as year, month and day of the records are, and equal exactly if these are; for two records with date and time, of either width, the same holds for the time to the second; and the text of a day comes before those of all times of that day and of later days and after those of earlier days. Two date records show the same text exactly if their two data bytes are equal: every bit is shown. A time that its meter marks invalid - and no other - is shown as 1900-01-00T00:00:00, before every valid time. The summer-time flag is not shown: 4-byte times that differ only in it have the same text, so that across the end of summer time a later record can have a smaller text - although the normalised record adds a Z, as for UTC.", "quantifier": "all records of all telegrams, all pairs of them, buffers' previous contents", "why_tests_cant": "pairs of records would have to be compared: 2^32 pairs of dates, 2^80 of times", "anchors": ["mbus/mbus-protocol.c:mbus_data_tm_decode", "mbus/mbus-protocol.c:mbus_data_record_value", "mbus/mbus-protocol-aux.c:mbus_variable_value_decode"]}
{"id": "C136", "title": "Manufacturer codes and hexadecimal text in every locale", "statement": "After a program has selected a locale with setlocale(LC_CTYPE, ...), mbus_hex2bin still gives for every text of ASCII characters the bytes and the count it gives without, and mbus_manufacturer_id still gives for every code of three ASCII letters without a small i (so for all codes in capital letters, which the product names rely on) the number of the code in capital letters, and 0 for every ASCII text not beginning with three letters. The small i is the exception: where the locale's capital of it is I the number is the same too, but in Turkish and Azeri locales a code with a small i never gets the number it has elsewhere: it gets 0 or that of another manufacturer (sie that of TIE).", "quantifier": "all locales with the letters and blanks of ASCII (any classification of the other bytes, any capital form of i for the part about hexadecimal text), all texts, all buffers and sizes", "why_tests_cant": "locales and texts would have to be enumerated; the test suite runs in the C locale", "anchors": ["mbus/mbus-protocol.c:mbus_manufacturer_id", "mbus/mbus-protocol-aux.c:mbus_hex2bin"]}
