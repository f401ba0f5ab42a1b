{"id": "C01", "title": "GSM 03.38 strict round trip", "statement": "If text.encode('gsm0338') succeeds then decoding the result with 'gsm0338' gives back exactly the same text, so no two texts share an encoding.", "quantifier": "every unicode text of any length", "why_tests_cant": "The codec is stateful over escape sequences; only an argument about every concatenation of 1- and 2-septet codes rules out ambiguity.", "anchors": ["messaging/sms/gsm0338.py:encode", "messaging/sms/gsm0338.py:decode"]}
{"id": "C02", "title": "is_gsm_text is exact", "statement": "is_gsm_text(t) is True exactly when every character of t is in the GSM 03.38 default alphabet or its extension table (and for byte strings, when additionally every character is ASCII); in that case encoding never raises and yields only 7-bit values.", "quantifier": "every text of any length, over every code point", "why_tests_cant": "Tests sweep single characters of the BMP; they cannot cover all strings or all planes.", "anchors": ["messaging/sms/gsm0338.py:is_gsm_text", "messaging/sms/gsm0338.py:encode"]}
{"id": "C03", "title": "Decoding 7-bit data never fails", "statement": "Decoding any byte string whose bytes are all below 0x80 as gsm0338 succeeds in strict mode, never yields more characters than input bytes, and re-encoding succeeds unless an unassigned or dangling escape (shown as no-break space) is present.", "quantifier": "every string of 7-bit values", "why_tests_cant": "Malformed escapes can appear at any position of any message received from the network.", "anchors": ["messaging/sms/gsm0338.py:decode"]}
{"id": "C04", "title": "Lossy GSM encoding is character-wise", "statement": "With errors='replace' or 'ignore' encoding never raises; 'ignore' gives the strict encoding of the text with unsupported characters removed; 'replace' gives the strict encoding with each unsupported character replaced by its look-alike from the replacement table or '?'. Decoding an octet above 127 outside an escape fails in strict mode, gives '?' with 'replace' and nothing with 'ignore', and affects no other character.", "quantifier": "every text, every octet string, every error mode", "why_tests_cant": "The law relates the outputs of two runs over arbitrary texts.", "anchors": ["messaging/sms/gsm0338.py:encode", "messaging/sms/gsm0338.py:Codec.decode", "messaging/sms/gsm0338.py:def_replace_encode_dict"]}
{"id": "C05", "title": "7-bit packing follows TS 23.038", "statement": "The octets produced for a 7-bit message are exactly the little-endian bit concatenation of its septets, zero padded, using ceil(7n/8) octets, preceded by the septet count n. A header given with the message replaces the first octets of the packing of six zero septets and the message; one that is longer than that raises IndexError, and a count above 255 raises ValueError.", "quantifier": "every septet sequence that fits in one SMS, with headers of any octets and length", "why_tests_cant": "The bit layout depends on position modulo 8 and on every septet value.", "anchors": ["messaging/utils.py:pack_8bits_to_7bits"]}
{"id": "C06", "title": "Unpacking inverts packing", "statement": "Unpacking the packed octets and keeping the first n septets returns the original n septets, including messages whose length is 7 mod 8 and messages ending in '@'.", "quantifier": "every septet sequence of length at most 160 (proved up to the 161 at which the unpacker stops)", "why_tests_cant": "The classic padding ambiguity only shows for some lengths and contents.", "anchors": ["messaging/utils.py:unpack_msg", "messaging/utils.py:unpack_msg2", "messaging/utils.py:pack_8bits_to_7bits"]}
{"id": "C07", "title": "Unpackers agree and only yield septets", "statement": "The hex-string unpacker and the byte unpacker give the same result for the same octets; every produced value is below 128, and the values are the base-128 digits of the little-endian number spelled by the octets (the first 161 of them).", "quantifier": "every octet sequence", "why_tests_cant": "All 256 octet values at all 7 alignments in all combinations.", "anchors": ["messaging/utils.py:unpack_msg", "messaging/utils.py:unpack_msg2"]}
{"id": "C08", "title": "Splitting long texts loses nothing", "statement": "The parts of a long text, concatenated in order, are the text; every part is non-empty and at most 153 septets / 134 octets / 67 UCS2 units; a part of a GSM message never ends with a lone escape, so each part decodes on its own to a piece of the original text.", "quantifier": "every text longer than one SMS, for every coding", "why_tests_cant": "The back-off at an escape shifts all later boundaries; whether it ever loses, repeats or over-fills is a statement about all texts.", "anchors": ["messaging/sms/submit.py:SmsSubmit._split_sms_message"]}
{"id": "C09", "title": "PDU count and numbering", "statement": "to_pdu returns exactly one PDU when the coded text fits (160 septets, 140 octets, 70 UCS2 units) and otherwise the parts in order with seq = 1..n and cnt = n on every PDU; for a GSM or UCS2 text without escapes n is the ceiling of length over the part size.", "quantifier": "every text and coding", "why_tests_cant": "Boundary behaviour at every multiple of the part size.", "anchors": ["messaging/sms/submit.py:SmsSubmit.to_pdu", "messaging/sms/submit.py:SmsSubmit._get_msg_pdu", "messaging/sms/pdu.py:Pdu"]}
{"id": "C10", "title": "SUBMIT PDUs are standards conformant", "statement": "Each PDU returned by to_pdu, read by a TS 23.040 SMS-SUBMIT parser, yields: the SMSC address (if set), message type SUBMIT, the validity format and validity octets of the validity set, the status-report and UDH indicators requested, the message reference, the destination digits and number type, the protocol id, the coding scheme, and a user data length that matches the user data octets.", "quantifier": "every accepted number, SMSC, text, class, validity, reference, flag combination", "why_tests_cant": "The product of all settings with all texts cannot be enumerated.", "anchors": ["messaging/sms/submit.py:SmsSubmit.to_pdu"]}
{"id": "C11", "title": "User data never exceeds an SMS", "statement": "In every PDU produced for 7-bit or UCS2 text the user data field has at most 140 octets and the length octet states it exactly (septets incl. header for 7-bit, octets otherwise).", "quantifier": "every text of any length", "why_tests_cant": "Off-by-one errors show only at specific lengths/escape positions.", "anchors": ["messaging/sms/submit.py:SmsSubmit._split_sms_message", "messaging/utils.py:pack_8bits_to_7bits", "messaging/utils.py:pack_8bits_to_ucs2"]}
{"id": "C12", "title": "End-to-end text delivery, GSM alphabet", "statement": "If each PDU of to_pdu for a GSM text is relayed (its destination/user-data fields copied in an SMS-DELIVER as an SMSC does), SmsDeliver decodes each, and joining .text in seq order gives the original text; multipart PDUs expose the same ref and cnt and seq 1..cnt in udh.concat.", "quantifier": "every GSM text up to 255 parts, every ref, class, number", "why_tests_cant": "Composition of codec, splitting, packing, UDH and decoding over all texts.", "anchors": ["messaging/sms/submit.py:SmsSubmit.to_pdu", "messaging/sms/deliver.py:SmsDeliver"]}
{"id": "C13", "title": "End-to-end text delivery, UCS2", "statement": "Same as the GSM case for texts outside the GSM alphabet: the joined text of the decoded parts equals the original for all 16-bit code units; characters above U+FFFF (wide Python build) raise ValueError instead of producing a corrupt PDU.", "quantifier": "every unicode text up to 255 parts", "why_tests_cant": "Composition over all texts; astral characters and surrogates.", "anchors": ["messaging/sms/submit.py:SmsSubmit.to_pdu", "messaging/utils.py:pack_8bits_to_ucs2", "messaging/sms/deliver.py:SmsDeliver._process_message"]}
{"id": "C14", "title": "End-to-end delivery of 8-bit data", "statement": "With fmt=0x04, relayed parts decode to pieces whose concatenation is the original data.", "quantifier": "every byte string of any length", "why_tests_cant": "Multipart binary messages are not covered by any test.", "anchors": ["messaging/sms/submit.py:SmsSubmit._split_sms_message", "messaging/utils.py:pack_8bits_to_8bit", "messaging/sms/deliver.py:SmsDeliver._process_message"]}
{"id": "C15", "title": "Destination number round trip", "statement": "The address field built for a number decodes to that number: same digits, '+' preserved, for odd and even digit counts.", "quantifier": "every accepted phone number", "why_tests_cant": "Odd/even padding and digit swapping over all digit strings.", "anchors": ["messaging/sms/submit.py:SmsSubmit._get_phone_pdu", "messaging/utils.py:swap_number", "messaging/sms/deliver.py:SmsDeliver._set_pdu"]}
{"id": "C16", "title": "SMSC address round trip", "statement": "The service-centre field built for csca decodes to that csca (None when unset), and its length octet makes the following fields start at the right offset.", "quantifier": "every accepted csca", "why_tests_cant": "As above; a wrong length shifts the rest of the PDU.", "anchors": ["messaging/sms/submit.py:SmsSubmit._get_smsc_pdu", "messaging/sms/deliver.py:SmsDeliver._set_pdu"]}
{"id": "C17", "title": "Reported TPDU length", "statement": "Pdu.pdu is an even-length upper-case hex string and Pdu.length is exactly the number of octets after the SMSC field (what AT+CMGS needs).", "quantifier": "every to_pdu result", "why_tests_cant": "Must hold for every PDU for the modem to accept it.", "anchors": ["messaging/sms/pdu.py:Pdu", "messaging/sms/submit.py:SmsSubmit.to_pdu"]}
{"id": "C18", "title": "Number validation is exact and atomic", "statement": "Setting number or csca is accepted exactly for an empty value or an optional '+' and 3 to 20 digits (one trailing newline tolerated); otherwise ValueError is raised and the previous value stays.", "quantifier": "every string, every prior object state", "why_tests_cant": "Language equality and state preservation over all strings.", "anchors": ["messaging/sms/submit.py:SmsSubmit._set_number", "messaging/sms/submit.py:SmsSubmit._set_csca", "messaging/sms/submit.py:VALID_NUMBER"]}
{"id": "C19", "title": "Class and coding survive", "statement": "For klass in 0..3 the coding scheme sent carries the class bits and the receiver still derives the same coding (7-bit/8-bit/UCS2); any other klass is rejected and leaves the old one.", "quantifier": "every klass, coding and text", "why_tests_cant": "Interaction of class bits with coding bits on both sides.", "anchors": ["messaging/sms/submit.py:SmsSubmit._set_klass", "messaging/sms/submit.py:SmsSubmit._get_msg_pdu", "messaging/sms/deliver.py:SmsDeliver._set_pdu"]}
{"id": "C20", "title": "Relative validity is the floor", "statement": "timedelta_to_relative_validity(t) returns the octet whose TS 23.040 duration is the largest not exceeding t, for every t from 5 minutes to 63 weeks, and raises ValueError outside; hence it is monotone.", "quantifier": "every timedelta at microsecond resolution", "why_tests_cant": "Range boundaries (12h, 24h, 30d) with sub-unit remainders.", "anchors": ["messaging/utils.py:timedelta_to_relative_validity"]}
{"id": "C21", "title": "Absolute validity round trip", "statement": "The seven octets of datetime_to_absolute_validity(d) decode (semi-octet BCD, quarter-hour zone) to the same civil time and the same offset rounded toward zero to 15 minutes.", "quantifier": "every datetime from 1900 on and every utc offset below 24h", "why_tests_cant": "All offsets incl. negative and non-quarter ones.", "anchors": ["messaging/utils.py:datetime_to_absolute_validity", "messaging/utils.py:FixedOffset.from_timezone"]}
{"id": "C22", "title": "Too many parts is an error", "statement": "A text needing more than 255 parts raises ValueError and never yields PDUs with a wrapped part number.", "quantifier": "every over-long text", "why_tests_cant": "Needs arbitrarily long inputs.", "anchors": ["messaging/sms/submit.py:SmsSubmit._split_sms_message"]}
{"id": "C23", "title": "Message ids", "statement": "All parts of one to_pdu call carry the same reference octet (rand_id & 0xFF when given); generated ids are 0..254 in order, cyclically, so any 255 consecutive ones are distinct, for any history of calls.", "quantifier": "every sequence of to_pdu/id requests", "why_tests_cant": "History property.", "anchors": ["messaging/sms/submit.py:SmsSubmit._get_rand_id", "messaging/sms/submit.py:SmsSubmit._split_sms_message"]}
{"id": "C24", "title": "to_pdu is repeatable", "statement": "Calling to_pdu again without changing settings returns the same PDUs (for multipart: when rand_id is set); and after changing the text it returns what a fresh object with that text would.", "quantifier": "every object state and history", "why_tests_cant": "History property about hidden state (cached coding, reference).", "anchors": ["messaging/sms/submit.py:SmsSubmit.to_pdu", "messaging/sms/submit.py:SmsSubmit._get_msg_pdu"]}
{"id": "C25", "title": "Decoder exception contract", "statement": "SmsDeliver(pdu) on any hexadecimal string either returns or raises ValueError (incl. UnicodeError) or IndexError - nothing else; OverflowError only if the string contains '-'; it always terminates.", "quantifier": "every string", "why_tests_cant": "Robustness against every possible malformed PDU.", "anchors": ["messaging/sms/deliver.py:SmsDeliver._set_pdu", "messaging/sms/deliver.py:SmsDeliver._process_message", "messaging/sms/deliver.py:SmsDeliver._decode_status_report_pdu", "messaging/sms/udh.py:UserDataHeader.from_bytes"]}
{"id": "C26", "title": "Odd-length PDUs", "statement": "In strict mode every odd-length PDU raises ValueError and changes nothing; in non-strict mode it decodes exactly like the PDU without its last character.", "quantifier": "every odd-length string", "why_tests_cant": "Universal over inputs.", "anchors": ["messaging/sms/deliver.py:SmsDeliver._set_pdu"]}
{"id": "C27", "title": "Hex case does not matter", "statement": "Decoding a PDU in lower, upper or mixed case hex gives the same result.", "quantifier": "every hex string and every casing", "why_tests_cant": "Universal over inputs.", "anchors": ["messaging/utils.py:to_array", "messaging/sms/deliver.py:SmsDeliver._set_pdu"]}
{"id": "C28", "title": "Timestamps are UTC", "statement": "For a DELIVER PDU with a valid civil timestamp and zone, .date is that local time minus the zone offset (carrying over days, months and years).", "quantifier": "every valid timestamp 1969-2068 and every quarter-hour zone", "why_tests_cant": "Calendar carries at month/year/leap boundaries.", "anchors": ["messaging/sms/deliver.py:SmsDeliver._set_pdu"]}
{"id": "C29", "title": "Status reports", "statement": "A status-report PDU yields recipient, reference, both timestamps (or None when invalid) and the raw status; number is SR-OK for 0, SR-STORED for 0x30, otherwise SR-UNKNOWN, also when the status octet is missing.", "quantifier": "every status report", "why_tests_cant": "All statuses, malformed timestamps, truncation.", "anchors": ["messaging/sms/deliver.py:SmsDeliver._decode_status_report_pdu"]}
{"id": "C30", "title": "User data header parsing", "statement": "For any sequence of information elements, from_bytes returns each element's payload under its id (last one wins) and derives concat (8- and 16-bit) and port (8- and 16-bit) fields exactly, including whether they are 8-bit; a truncated element raises.", "quantifier": "every TLV sequence", "why_tests_cant": "Arbitrary element order and repetition.", "anchors": ["messaging/sms/udh.py:UserDataHeader.from_bytes"]}
{"id": "C31", "title": "Reassigning .pdu equals a fresh decode", "statement": "After sms.pdu = p2 on an object decoded from p1, every attribute is what SmsDeliver(p2) would have.", "quantifier": "every pair of PDUs", "why_tests_cant": "History property.", "anchors": ["messaging/sms/deliver.py:SmsDeliver._set_pdu"]}
{"id": "C32", "title": "Octets after the user data are ignored", "statement": "Appending octets beyond the declared user data length does not change the decoded text.", "quantifier": "every PDU and every suffix", "why_tests_cant": "Universal over suffixes.", "anchors": ["messaging/sms/deliver.py:SmsDeliver._process_message"]}
{"id": "C33", "title": "Coding scheme decoding", "statement": "The coding derived from TP-DCS equals the one TS 23.038 assigns (general, message-class and message-waiting groups).", "quantifier": "every DCS octet", "why_tests_cant": "A finite table, but relative to an independent standard; refuted for some octets.", "anchors": ["messaging/sms/deliver.py:SmsDeliver._set_pdu"]}
{"id": "C34", "title": "FixedOffset.from_timezone", "statement": "from_timezone('+hhmm') / ('-hhmm') yields the offset +(60hh+mm) / -(60hh+mm) minutes.", "quantifier": "every sign, hour and minute", "why_tests_cant": "Only one negative zone is exercised, indirectly.", "anchors": ["messaging/utils.py:FixedOffset.from_timezone"]}
{"id": "C35", "title": "Concatenation references separate messages", "statement": "Two multipart messages built by a program without setting rand_id carry different concatenation references (otherwise the receiver may mix their parts).", "quantifier": "every pair of messages", "why_tests_cant": "Relational property over two objects.", "anchors": ["messaging/sms/submit.py:SmsSubmit.__init__", "messaging/sms/submit.py:SmsSubmit._get_rand_id"]}
{"id": "C36", "title": "PreviewIterator behaves like a list with a cursor", "statement": "For any interleaving of next, preview and reset_preview, next returns the underlying items in order exactly once; preview returns the item after the last next/preview/reset position without consuming; StopIteration exactly at the end.", "quantifier": "every data sequence and every operation sequence", "why_tests_cant": "Interleavings are unbounded.", "anchors": ["messaging/mms/iterator.py:PreviewIterator"]}
{"id": "C37", "title": "uintvar round trip", "statement": "decode_uint_var(encode_uint_var(n) + rest) returns n and leaves exactly rest; the encoding is minimal, has the continue bit on all but the last octet, and all values are octets.", "quantifier": "every natural number, every following data", "why_tests_cant": "Unbounded integers.", "anchors": ["messaging/mms/wsp_pdu.py:Encoder.encode_uint_var", "messaging/mms/wsp_pdu.py:Decoder.decode_uint_var"]}
{"id": "C38", "title": "Short integers and value lengths round trip", "statement": "Short-integer (0..127), short-length (0..30) and value-length (any n) decode to what was encoded, leaving the rest of the data untouched; out-of-range values raise EncodeError.", "quantifier": "every integer, every following data", "why_tests_cant": "Unbounded.", "anchors": ["messaging/mms/wsp_pdu.py:Encoder.encode_short_integer", "messaging/mms/wsp_pdu.py:Encoder.encode_value_length", "messaging/mms/wsp_pdu.py:Decoder.decode_value_length"]}
{"id": "C39", "title": "Long integers round trip", "statement": "decode_long_integer(encode_long_integer(n) + rest) returns n and leaves rest, for all n below 2^63.", "quantifier": "every such n", "why_tests_cant": "Multi-octet values; byte order.", "anchors": ["messaging/mms/wsp_pdu.py:Encoder.encode_long_integer", "messaging/mms/wsp_pdu.py:Decoder.decode_long_integer"]}
{"id": "C40", "title": "Text strings round trip", "statement": "A text value without NUL that does not start with octet 127 survives Text-string encode/decode, and, as a Subject/To/Cc/Bcc/From header value, Encoded-string encode/decode.", "quantifier": "every such byte string, every following data", "why_tests_cant": "All strings incl. empty ones and control characters.", "anchors": ["messaging/mms/wsp_pdu.py:Encoder.encode_text_string", "messaging/mms/wsp_pdu.py:Decoder.decode_text_string", "messaging/mms/mms_pdu.py:MMSDecoder.decode_encoded_string_value", "messaging/mms/mms_pdu.py:MMSEncoder.encode_encoded_string_value", "messaging/mms/mms_pdu.py:MMSEncoder.encode_from_value", "messaging/mms/mms_pdu.py:MMSDecoder.decode_from_value"]}
{"id": "C41", "title": "Version values", "statement": "Version 'major.minor' with major 1-7, minor 0-14 round trips as one octet; every other version string is sent as text and round trips too.", "quantifier": "every version string", "why_tests_cant": "Strings with one, two, three components.", "anchors": ["messaging/mms/wsp_pdu.py:Encoder.encode_version_value", "messaging/mms/wsp_pdu.py:Decoder.decode_version_value"]}
{"id": "C42", "title": "Content types without parameters round trip", "statement": "Every media type string that is well known, or non-empty, NUL-free and starting with a printable character, round trips through the content-type encoding.", "quantifier": "every media type string", "why_tests_cant": "All strings plus whole table.", "anchors": ["messaging/mms/wsp_pdu.py:Encoder.encode_content_type_value", "messaging/mms/wsp_pdu.py:Decoder.decode_content_type_value", "messaging/mms/wsp_pdu.py:well_known_content_types"]}
{"id": "C43", "title": "Content types with parameters round trip", "statement": "A content type with parameters encodes to octets that decode to the same media type and parameters and leave following data untouched.", "quantifier": "every media type and parameter dict", "why_tests_cant": "Length prefix must equal actual length for all sizes.", "anchors": ["messaging/mms/wsp_pdu.py:Encoder.encode_content_general_form", "messaging/mms/wsp_pdu.py:Decoder.decode_content_general_form"]}
{"id": "C44", "title": "MMS header round trip", "statement": "Each MMS header that the encoder accepts decodes to the same name and value and leaves the rest untouched.", "quantifier": "every encodable header name/value, every following data", "why_tests_cant": "All values.", "anchors": ["messaging/mms/mms_pdu.py:MMSEncoder.encode_header", "messaging/mms/mms_pdu.py:MMSDecoder.decode_header"]}
{"id": "C45", "title": "Conformant MMS headers decode faithfully", "statement": "For a WAP-209 conformant sequence of headers ending with Content-Type, in any order, the decoded message has exactly these values (last occurrence wins) on top of the defaults.", "quantifier": "every header sequence, any order", "why_tests_cant": "Orderings and values are unbounded.", "anchors": ["messaging/mms/mms_pdu.py:MMSDecoder.decode_message_header", "messaging/mms/mms_pdu.py:MMSDecoder.decode_mms_header"]}
{"id": "C46", "title": "Conformant multipart bodies decode faithfully", "statement": "For a WAP-230 multipart body with any number of parts, the decoded message's data parts have, in order, exactly the content types, parameters, and data bytes of the body.", "quantifier": "every number and size of parts", "why_tests_cant": "Lengths and counts unbounded.", "anchors": ["messaging/mms/mms_pdu.py:MMSDecoder.decode_message_body"]}
{"id": "C47", "title": "MMS encode/decode round trip", "statement": "Decoding message.encode() gives back the header values set and the SMIL part followed by the parts of the slides, in order, with content types, part headers and data.", "quantifier": "every message", "why_tests_cant": "Composition over all messages.", "anchors": ["messaging/mms/mms_pdu.py:MMSEncoder.encode", "messaging/mms/mms_pdu.py:MMSDecoder.decode_data"]}
{"id": "C48", "title": "Encoding does not alter the message", "statement": "message.encode() leaves the message unchanged, so encoding twice gives the same bytes.", "quantifier": "every message, every number of encodes", "why_tests_cant": "History property.", "anchors": ["messaging/mms/mms_pdu.py:MMSEncoder.encode_message_header"]}
{"id": "C49", "title": "Message-Type selection", "statement": "m-send-req is kept when the message has a To, Cc or Bcc recipient and downgraded to m-retrieve-conf when it has none; other types are kept.", "quantifier": "every header set", "why_tests_cant": "All subsets of headers.", "anchors": ["messaging/mms/mms_pdu.py:MMSEncoder.encode_message_header"]}
{"id": "C50", "title": "MMS decoding terminates", "statement": "Decoding any byte sequence terminates; every header/parameter/part loop iteration consumes input, so the work is bounded by the input length.", "quantifier": "every byte sequence", "why_tests_cant": "Non-termination cannot be tested.", "anchors": ["messaging/mms/mms_pdu.py:MMSDecoder.decode_data", "messaging/mms/wsp_pdu.py:Decoder.decode_content_general_form"]}
{"id": "C51", "title": "MMS decoder exception contract", "statement": "decode_data on any byte sequence returns or raises one of DecodeError, StopIteration, RuntimeError, AttributeError, OverflowError, and never anything else.", "quantifier": "every byte sequence", "why_tests_cant": "All malformed inputs.", "anchors": ["messaging/mms/mms_pdu.py:MMSDecoder"]}
{"id": "C52", "title": "8-bit integers decode exactly", "statement": "decode_uint_8 returns the octet that encode_uint_8 wrote.", "quantifier": "every octet", "why_tests_cant": "Refuted: only the low nibble survives.", "anchors": ["messaging/mms/wsp_pdu.py:Decoder.decode_uint_8", "messaging/mms/wsp_pdu.py:Encoder.encode_uint_8"]}
{"id": "C53", "title": "SMIL presentation mirrors the slides", "statement": "smil() has one par per page in order with that page's duration, containing exactly its image, text and audio with the region and clipped times.", "quantifier": "every list of pages", "why_tests_cant": "Any combination and number of slides.", "anchors": ["messaging/mms/message.py:MMSMessage.smil"]}
{"id": "C54", "title": "Slide timing validation", "statement": "add_text/add_image/add_audio accept begin/end exactly unless 0 < end < begin; rejected calls leave the slide unchanged; set_duration accepts exactly positive values; number_of_parts counts media set; the clipped end never exceeds the duration.", "quantifier": "every int and every call history", "why_tests_cant": "History and all ints.", "anchors": ["messaging/mms/message.py:MMSMessagePage"]}
{"id": "C55", "title": "data_parts lists all parts", "statement": "message.data_parts returns the SMIL, the parts of every slide and the loose parts.", "quantifier": "every message", "why_tests_cant": "Every combination of slides and loose parts; the tests never read data_parts of a message with slides.", "anchors": ["messaging/mms/message.py:MMSMessage.data_parts"]}
{"id": "C56", "title": "DataPart length equals data", "statement": "len(part) equals len(part.data) in every history of set_data/set_text/from_file, file writes and reads.", "quantifier": "every operation history and file content", "why_tests_cant": "History property with external file changes.", "anchors": ["messaging/mms/message.py:DataPart"]}
{"id": "C57", "title": "WAP push extraction", "statement": "For an assembled push (transaction id, 0x06, header length h, h header octets, payload) extract_push_notification decodes exactly the payload; shorter inputs raise ValueError; non pushes raise AssertionError; is_a_wap_push_notification is True exactly when octet 1 is 0x06.", "quantifier": "every byte string", "why_tests_cant": "All header lengths and payloads.", "anchors": ["messaging/sms/wap.py:extract_push_notification", "messaging/sms/wap.py:is_a_wap_push_notification"]}
{"id": "C58", "title": "Unknown status codes", "statement": "Unknown Status / Response-Status octets decode to the documented fallback names, and unknown status names encode to the 'Unrecognised' octet.", "quantifier": "every octet/name", "why_tests_cant": "The tests use known codes only; all 256 octets and all strings matter.", "anchors": ["messaging/mms/mms_pdu.py:MMSDecoder.decode_status_value", "messaging/mms/mms_pdu.py:MMSDecoder.decode_response_status_value", "messaging/mms/mms_pdu.py:MMSEncoder.encode_status_value"]}
{"id": "C59", "title": "Failed decodes do not move the iterator", "statement": "Whenever a documented WSP/MMS primitive raises DecodeError the iterator is unmodified, so the caller may try another alternative.", "quantifier": "every primitive, every data and iterator state", "why_tests_cant": "All byte sequences, positions and alternatives tried before.", "anchors": ["messaging/mms/wsp_pdu.py:Decoder"]}
{"id": "C60", "title": "Encoders emit only octets", "statement": "Every WSP/MMS primitive encoder that succeeds returns values in 0..255.", "quantifier": "every input value", "why_tests_cant": "Unbounded inputs.", "anchors": ["messaging/mms/wsp_pdu.py:Encoder"]}
{"id": "C61", "title": "Decodable headers can be encoded", "statement": "Every header the decoder understands can be set on a message and encoded.", "quantifier": "every MMS header name", "why_tests_cant": "The encoder is chosen by name at run time, so each header and value is a separate path.", "anchors": ["messaging/mms/mms_pdu.py:MMSEncoder.encode_header"]}
{"id": "C62", "title": "Well-known parameter tables", "statement": "For each protocol version the tables contain exactly the assignments of that version and lower; a name encoded by version v is decoded to the same name.", "quantifier": "every version and parameter", "why_tests_cant": "Cross-table consistency.", "anchors": ["messaging/mms/wsp_pdu.py:get_well_known_parameters", "messaging/mms/wsp_pdu.py:get_header_field_names", "messaging/mms/wsp_pdu.py:Encoder.encode_parameter", "messaging/mms/wsp_pdu.py:Decoder.decode_parameter"]}
{"id": "C63", "title": "Well-known content type numbers", "statement": "Every registered WSP content type number decodes to its registered media type, and each such media type is sent with that number.", "quantifier": "every registered number and media type", "why_tests_cant": "A wrong entry in a 76 line table shows only for that entry.", "anchors": ["messaging/mms/wsp_pdu.py:well_known_content_types", "messaging/mms/wsp_pdu.py:Decoder.decode_constrained_media", "messaging/mms/wsp_pdu.py:Encoder.encode_constrained_media"]}
{"id": "C64", "title": "Conformant SMS-DELIVER decodes to its contents", "statement": "Decoding any conformant SMS-DELIVER succeeds and the attributes are exactly its contents: service centre, sender, protocol id, data coding, UTC date, format, text, concatenation fields, ports and header elements.", "quantifier": "every conformant DELIVER: any service centre, sender, coding, time stamp, user data header and text", "why_tests_cant": "The fields are decoded by position from variable-length predecessors; the tests have a dozen captured PDUs.", "anchors": ["messaging/sms/deliver.py:SmsDeliver._set_pdu", "messaging/sms/deliver.py:SmsDeliver._process_message", "messaging/sms/udh.py:UserDataHeader.from_bytes"]}
{"id": "C65", "title": "Sender addresses", "statement": "The sender of a received message is shown as the standard says: digits with '+' for international numbers, keypad characters, or the text of an alphanumeric address.", "quantifier": "every address field", "why_tests_cant": "All lengths, digit values and alphanumeric texts; the tests use two alphanumeric senders with lengths that happen to work.", "anchors": ["messaging/sms/deliver.py:SmsDeliver._set_pdu", "messaging/utils.py:swap_number", "messaging/utils.py:unpack_msg2"]}
{"id": "C66", "title": "WAP pushes in several messages", "statement": "A WAP push whose octets arrive in several concatenated binary messages, in any order, is recognised and decodes to the notification once the texts of the decoded messages are joined by their sequence numbers.", "quantifier": "every push, every way to cut it into fragments, every conformant message around each fragment, every order of arrival", "why_tests_cant": "The cuts, the orders of arrival and the surrounding messages are unbounded; the tests decode one push in two messages in order.", "anchors": ["messaging/sms/deliver.py:SmsDeliver", "messaging/utils.py:unpack_msg", "messaging/sms/wap.py:is_a_wap_push_notification", "messaging/sms/wap.py:extract_push_notification"]}
{"id": "C67", "title": "File contents in encoded messages", "statement": "Each encoding of a message sends, for every part made from a file, the contents the file has at that time with their length, and reading them changes nothing else of the message.", "quantifier": "every message, every number of encodings, every change of the files in between", "why_tests_cant": "The histories of encodings and file changes are unbounded; the tests encode once and never change a file.", "anchors": ["messaging/mms/message.py:DataPart.data", "messaging/mms/message.py:DataPart.__len__", "messaging/mms/mms_pdu.py:MMSEncoder.encode_message_body"]}
{"id": "C68", "title": "Messages in files", "statement": "to_file writes the encoded message to the file, returns it, keeps all other files, and from_file reads the same message back; when it fails, the file is as it was.", "quantifier": "every message, every file name, every state of the file system", "why_tests_cant": "Message, file name and files of the parts may coincide in any way; the tests only read files.", "anchors": ["messaging/mms/message.py:MMSMessage.to_file", "messaging/mms/message.py:MMSMessage.from_file", "messaging/mms/mms_pdu.py:MMSDecoder.decode_file"]}
{"id": "C69", "title": "The SMIL text reads as the presentation", "statement": "The text returned by smil() is an XML document; an XML parser reads from it the layout and one par element per slide, with the duration and the media of the slide, their sources and times, whatever characters texts and file names contain.", "quantifier": "every message, every text and file name", "why_tests_cant": "All characters in texts and names, any number of slides; the tests never look at the SMIL text.", "anchors": ["messaging/mms/message.py:MMSMessage.smil"]}
{"id": "C70", "title": "Order of the headers of an encoded message", "statement": "The octets of an encoded MMS start with the message type, the transaction id and the version, in this order; then every other header set on the message appears exactly once, under its assigned field number or, for a header without one, under its name; the content type is the last header and the body follows it. A transaction id given as a string is the one sent.", "quantifier": "all messages with any headers and parts, all orders in which the header table may be walked, all random numbers, provided encoding succeeds", "why_tests_cant": "The walk order of the header table is not fixed, so a test sees one order for one set of headers.", "anchors": ["messaging/mms/mms_pdu.py:MMSEncoder.encode_message_header", "messaging/mms/mms_pdu.py:MMSEncoder.encode_header", "messaging/mms/message.py:MMSMessage.encode"]}
{"id": "C71", "title": "Accept, Pragma and charset values of part headers", "statement": "A conformant Accept value of a part header is read as its media type and exactly its octets are consumed; a conformant Pragma value is read as the directive and its value; the charset \"any\" is recognised.", "quantifier": "every conformant value, whatever octets follow", "why_tests_cant": "The values nest media types, quality factors and parameters of any number; what follows them decides whether too much is consumed. No test has such a header.", "anchors": ["messaging/mms/wsp_pdu.py:Decoder.decode_accept_value", "messaging/mms/wsp_pdu.py:Decoder.decode_pragma_value", "messaging/mms/wsp_pdu.py:Decoder.decode_well_known_charset", "messaging/mms/wsp_pdu.py:Decoder.decode_header"]}
{"id": "C72", "title": "Defaults of a new message", "statement": "A new message to which only number and text were given is sent without service centre, status report request, validity, class or reply path, with protocol 0 and the coding scheme of its text; the validity can be set to None, a timedelta or a datetime and to nothing else.", "quantifier": "all numbers and texts, all values assigned", "why_tests_cant": "The defaults appear in every PDU of every text length and alphabet.", "anchors": ["messaging/sms/submit.py:SmsSubmit.__init__", "messaging/sms/submit.py:SmsSubmit._set_validity", "messaging/sms/submit.py:SmsSubmit.to_pdu"]}
{"id": "C73", "title": "MMS that arrive cut short", "statement": "An MMS of which the end is missing is never taken for a complete message: decoding it raises, whatever the point of the cut; what decodes with parts is the whole message.", "quantifier": "every message, every point of the cut, and every octet string followed by any other", "why_tests_cant": "The points of the cut and the structures they split are unbounded; no test decodes a truncated message.", "anchors": ["messaging/mms/mms_pdu.py:MMSDecoder.decode_data", "messaging/mms/mms_pdu.py:MMSDecoder.decode_message_header", "messaging/mms/mms_pdu.py:MMSDecoder.decode_message_body"]}
{"id": "C74", "title": "SMS that arrive cut short", "statement": "A received SMS of which the end is missing is refused; if it is accepted, everything shown of it is as in the whole message and the text is the beginning of its text.", "quantifier": "every SMS-DELIVER, every point of the cut, and every string followed by any other", "why_tests_cant": "All cuts of all codings with or without user data header; the tests have one truncated PDU.", "anchors": ["messaging/sms/deliver.py:SmsDeliver._set_pdu", "messaging/sms/deliver.py:SmsDeliver._process_message", "messaging/utils.py:unpack_msg", "messaging/sms/gsm0338.py:Codec.decode"]}
{"id": "C75", "title": "Sending on a received message", "statement": "A message that was received and decoded can be encoded again, and decoding the result gives its headers and its parts.", "quantifier": "every received message: all headers, any number of parts", "why_tests_cant": "The headers and parts of received messages are unbounded; no test encodes a decoded message.", "anchors": ["messaging/mms/mms_pdu.py:MMSDecoder.decode_data", "messaging/mms/mms_pdu.py:MMSEncoder.encode", "messaging/mms/mms_pdu.py:MMSEncoder.encode_message_body", "messaging/mms/message.py:MMSMessage.encode"]}
{"id": "C76", "title": "Part data are octets of the message", "statement": "Whatever octets are decoded: the data of the parts are stretches of them, in order and without overlap, each as long as the length in front of it says, and there are as many as the count says.", "quantifier": "every octet string that decodes", "why_tests_cant": "Any octets, any number of parts, any length fields; the tests decode a handful of well-formed messages.", "anchors": ["messaging/mms/mms_pdu.py:MMSDecoder.decode_message_body", "messaging/mms/wsp_pdu.py:Decoder.decode_uint_var"]}
{"id": "C77", "title": "Assignments to a message", "statement": "A message is sent with the last acceptable value assigned to each attribute; the order of the assignments to different attributes, assignments that were refused and values that were overwritten make no difference.", "quantifier": "every sequence of assignments to number, csca, klass, validity, request_status, ref, rand_id, pid, text and fmt, with any values", "why_tests_cant": "The sequences and values are unbounded; each test assigns a few attributes in one order.", "anchors": ["messaging/sms/submit.py:SmsSubmit._set_number", "messaging/sms/submit.py:SmsSubmit._set_csca", "messaging/sms/submit.py:SmsSubmit._set_klass", "messaging/sms/submit.py:SmsSubmit._set_validity", "messaging/sms/submit.py:SmsSubmit.to_pdu"]}
{"id": "C78", "title": "Slides and parts that several messages share", "statement": "Slides and parts may be used in several messages, or several times in one: encoding a message gives the octets it would give if it owned its slides and parts; it does not change what any other message is encoded to; it changes no object but the headers of the message and the contents kept by the parts in its slides. A change of a slide shows in every message, at every place, where the slide is used, and nowhere else; likewise for parts.", "quantifier": "every set of messages, slides and parts that a program can build with any sequence of the calls of the API, shared in any way; every file system", "why_tests_cant": "The ways objects can be shared are unbounded; tests build one message at a time.", "anchors": ["messaging/mms/message.py:MMSMessage.add_page", "messaging/mms/message.py:MMSMessage.encode", "messaging/mms/message.py:MMSMessagePage.add_text", "messaging/mms/message.py:MMSMessagePage.set_duration", "messaging/mms/message.py:DataPart.data", "messaging/mms/mms_pdu.py:MMSEncoder.encode_message_body"]}
{"id": "C79", "title": "Long messages whose parts arrive in any order", "statement": "When all parts of a long message are in an inbox, in any order and mixed with any other messages, grouping the decoded messages by sender and concatenation reference and joining them by position gives the text that was sent; when a part is missing, no text is given. In full this is expected of any two long messages from one sender.", "quantifier": "every submit object that is ready to encode, every relaying (service centre, time, flags, sender), every set of other messages in the inbox and every permutation of the inbox", "why_tests_cant": "There are unboundedly many texts, inboxes and orders of arrival; tests join the parts of one message in order.", "anchors": ["messaging/sms/submit.py:SmsSubmit.to_pdu", "messaging/sms/deliver.py:SmsDeliver"]}
{"id": "C80", "title": "What a part holds after any history", "statement": "A data part gives the data of the last set_data or set_text, or for the last successful from_file the contents the file had when first read (the present ones if it was not read); its headers are those that call sets, with the assignments made since. A failing from_file changes nothing. Assigning content_type discards parameters and leaves everything else.", "quantifier": "every sequence of set_data, set_text, from_file, header and content_type assignments and reads, with the files changing arbitrarily in between", "why_tests_cant": "The sequences of calls and file changes are unbounded; tests use one call on a new part.", "anchors": ["messaging/mms/message.py:DataPart"]}
{"id": "C81", "title": "What a message holds after any history", "statement": "Whatever is done with a message while it is built: its slides and data parts are those added, in that order; every header is worth what it was last assigned, nothing if it was deleted since, or the default of a new message; adding a slide makes the content type application/vnd.wap.multipart.related, dropping its parameters, unless it is of this type already. A call that fails changes nothing. A slide is refused exactly when the Content-Type header has no first item.", "quantifier": "every sequence of add_page, add_data_part, and assignments and deletions of headers, with any values, on a new message", "why_tests_cant": "The sequences of calls are unbounded; tests add one or two slides to a new message.", "anchors": ["messaging/mms/message.py:MMSMessage.add_page", "messaging/mms/message.py:MMSMessage.add_data_part", "messaging/mms/message.py:MMSMessage.content_type", "messaging/mms/message.py:MMSMessage.pages"]}
{"id": "C82", "title": "From the calls that build a message to what its recipient decodes", "statement": "A program builds a message out of slides, on each of which it makes any calls (accepted or refused, in any order), and headers that it sets and deletes. Encoding succeeds, and the recipient decodes every header as the program left it, the presentation first, and then image, audio and text of every slide in order, each with the contents and the type given by the last accepted call (a file with a separator in its name may get a stray header, made of its name, besides); the presentation shows the slides with their durations and times. If a slide has audio and neither it nor one before it has a text, encoding raises NameError instead.", "quantifier": "every program of any length; every environment (files and guessed types, which may change between the calls); final values of headers that can be sent, file names that do not start with a control character, files still there when the message is encoded", "why_tests_cant": "Programs are unbounded, and no test goes all the way from calls, including refused ones, to the decoded message.", "anchors": ["messaging/mms/message.py:MMSMessagePage.add_image", "messaging/mms/message.py:MMSMessagePage.add_audio", "messaging/mms/message.py:MMSMessagePage.add_text", "messaging/mms/message.py:MMSMessagePage.set_duration", "messaging/mms/message.py:MMSMessage.add_page", "messaging/mms/message.py:MMSMessage.encode", "messaging/mms/message.py:MMSMessage.smil", "messaging/mms/mms_pdu.py:MMSDecoder.decode_data"]}
{"id": "C83", "title": "Which received strings are accepted", "statement": "A string is decoded as a received SMS if and only if it spells octets, two characters each (hexadecimal digits of either case, a blank in place of one of them, + before one, or -0; without strict a last single character is ignored), and these are framed as a service centre, a first octet of type DELIVER (or the reserved type) with an address, a valid time stamp and user data whose header is a sequence of information elements of the right sizes (the last one may be cut), or as a status report down to its address type; everything else raises an exception. What is shown depends on the octets alone.", "quantifier": "every string, of any length", "why_tests_cant": "Octet strings are unbounded, and both directions of the equivalence matter: tests sample a few accepted and a few refused strings.", "anchors": ["messaging/sms/deliver.py:SmsDeliver.__init__", "messaging/sms/deliver.py:SmsDeliver._set_pdu", "messaging/sms/deliver.py:SmsDeliver._decode_deliver_pdu", "messaging/sms/deliver.py:SmsDeliver._decode_status_report_pdu", "messaging/sms/deliver.py:SmsDeliver._process_message", "messaging/sms/udh.py:UserDataHeader.from_bytes"]}
{"id": "C84", "title": "Assigning a PDU that cannot be decoded", "statement": "Assigning to the pdu attribute of a received message a string that cannot be decoded raises and leaves the object as it was; after any sequence of assignments the object shows the last string that could be decoded.", "quantifier": "every object, every sequence of assigned strings", "why_tests_cant": "The histories of assignments, and the points at which decoding may fail, are unbounded; no test assigns twice.", "anchors": ["messaging/sms/deliver.py:SmsDeliver._set_pdu", "messaging/sms/deliver.py:SmsDeliver._decode_deliver_pdu", "messaging/sms/deliver.py:SmsDeliver._process_message", "messaging/sms/deliver.py:SmsDeliver.data"]}
{"id": "C85", "title": "Bits of received messages that do not matter", "statement": "What is shown of a received message does not depend on the more-messages, status-report, loop-prevention and reply-path bits of its first octet, on the numbering plan of its addresses, on fill bits between header and text, nor on the bits after the last septet.", "quantifier": "every DELIVER and status report, every value of those bits", "why_tests_cant": "All combinations of these bits around unboundedly many messages; the tests use recorded messages only.", "anchors": ["messaging/sms/deliver.py:SmsDeliver._set_pdu", "messaging/sms/deliver.py:SmsDeliver._decode_deliver_pdu", "messaging/sms/deliver.py:SmsDeliver._process_message", "messaging/utils.py:unpack_msg"]}
{"id": "C86", "title": "Headers of parts, sent", "statement": "A text put into a part under any header name is read back by the decoder under that name, with that value, and without touching what follows; which names can carry every text is known exactly.", "quantifier": "all token names, all texts without NUL that do not start with the Quote octet, whatever follows", "why_tests_cant": "The names with numbers 1 to 24 in one table are fields of another table; tests try a name or two, and the claim is about all names and all texts.", "anchors": ["messaging/mms/wsp_pdu.py:encode_header, encode_accept_value, decode_well_known_header, decode_application_header", "messaging/mms/mms_pdu.py:decode_header, decode_mms_header, encode_message_body"]}
{"id": "C87", "title": "Labels of received parts", "statement": "A received part that carries Content-ID, Content-Location or Content-Disposition under their assigned numbers is read with its content type and data intact and these headers under their names.", "quantifier": "all content types, identifiers, locations, file names and data, whatever follows the part", "why_tests_cant": "The decoder tries one table after another on octets left over from the previous attempt; what happens depends on all of the octets that follow.", "anchors": ["messaging/mms/mms_pdu.py:decode_message_body, decode_header, decode_mms_header", "messaging/mms/wsp_pdu.py:decode_well_known_header, decode_application_header, decode_token_text"]}
{"id": "C88", "title": "Headers that cannot be sent", "statement": "Whether a header can be sent depends only on its name and value, as documented per field; a message that can be encoded without its headers can be encoded with them exactly when none of them is refused; a refused header is reported as EncodeError.", "quantifier": "every header name and every value of any type; every message, every order of the header table", "why_tests_cant": "The names, the values and their types are unbounded, and each field has its own conversion; tests only set headers that work.", "anchors": ["messaging/mms/mms_pdu.py:MMSEncoder.encode_header", "messaging/mms/mms_pdu.py:MMSEncoder.encode_message_header", "messaging/mms/wsp_pdu.py:Encoder.encode_header, encode_token_text, encode_text_string"]}
{"id": "C89", "title": "Short messages that cannot be sent", "statement": "to_pdu succeeds exactly when there is a number, the protocol identifier is an octet, the validity can be expressed, the coding is known and the text can be carried in it; otherwise it raises: AttributeError without a number, IndexError for an empty number, ValueError for the other settings and for characters outside the basic plane, UnicodeError for texts the coding cannot carry, and ValueError for texts that need more than 255 parts (8-bit: 4351) - except byte strings with a byte above 127 in the first part, where UnicodeError comes first.", "quantifier": "every object the API can build: all numbers, identifiers, validities, codings and texts of any length", "why_tests_cant": "Every combination of settings and texts either is sent or has one exception; tests check a handful of both.", "anchors": ["messaging/sms/submit.py:SmsSubmit.to_pdu, _get_msg_pdu, _get_phone_pdu, _get_tppid_pdu, _split_sms_message"]}
{"id": "C90", "title": "The PDUs of a short message determine it", "statement": "If two SmsSubmit objects with accepted settings produce the same PDUs, then they have the same text, the same coding, class, protocol identifier and report request; their numbers and service centres are equal up to a final newline (an unset service centre equals an empty one); and their validities differ at most in what cannot be expressed: durations between which no expressible duration lies, dates a multiple of 100 years or less than a quarter of an hour of time zone apart.", "quantifier": "all pairs of SmsSubmit objects with accepted settings whose text can be sent, any texts, lengths, references and histories", "why_tests_cant": "injectivity is about all pairs of inputs; tests compare single PDUs with expected strings", "anchors": ["messaging/sms/submit.py:SmsSubmit.to_pdu", "messaging/sms/gsm0338.py:encode", "messaging/utils.py:pack_8bits_to_7bits"]}
{"id": "C91", "title": "A reply to the number of a received message goes to its sender", "statement": "The number that SmsDeliver shows for a numeric sender can be assigned to SmsSubmit.number exactly if it has 3 to 20 digits, and otherwise the assignment raises ValueError and changes nothing; what is then sent goes to exactly the address of the sender (type and digits). With the csca of the received message it goes through the service centre the message came through. Names of senders cannot be assigned, unless they look like numbers.", "quantifier": "all conformant SMS-DELIVER PDUs with numeric or alphanumeric senders, all texts and other settings of the reply", "why_tests_cant": "relates two classes over all addresses and messages", "anchors": ["messaging/sms/deliver.py:SmsDeliver", "messaging/sms/submit.py:SmsSubmit._set_number", "messaging/sms/submit.py:SmsSubmit._get_phone_pdu"]}
{"id": "C92", "title": "The text of a received short message can be sent on", "statement": "If a conformant SMS-DELIVER is decoded, its text assigned to an SmsSubmit with accepted settings, with the coding of the received message or, unless it is 8-bit data, without a coding, then to_pdu gives exactly one PDU, and every receiver decodes it to the same text. Coding octets that are read wrong (C33) are excluded.", "quantifier": "all conformant SMS-DELIVER PDUs with any text in any of the three alphabets and any header elements, all other settings of the second message, all relaying service centres", "why_tests_cant": "a composition of decoder, encoder and decoder for all texts", "anchors": ["messaging/sms/deliver.py:SmsDeliver._process_message", "messaging/sms/submit.py:SmsSubmit.to_pdu"]}
{"id": "C93", "title": "A text is sent in the fewest possible messages", "statement": "Whatever way to cut a text between characters so that each piece fits in a message of the alphabet in use (leaving room for the concatenation header if there are several), SmsSubmit.to_pdu returns at most that many PDUs, and it does return PDUs if some way needs at most 255. With the automatic choice of the alphabet this also holds against sending the same text in the other alphabet (GSM or UCS2).", "quantifier": "all settings that can be sent, all texts of any length, all ways to cut the text", "why_tests_cant": "The alternatives are all divisions of all texts; a test compares with one expected number.", "anchors": ["messaging/sms/submit.py:SmsSubmit.to_pdu", "messaging/sms/submit.py:SmsSubmit._split_sms_message"]}
{"id": "C94", "title": "Leaving characters out never costs more messages", "statement": "If the text of a message is shortened by leaving out any of its characters, to_pdu does not return more PDUs than before, and does not fail if it did not fail before, even if the automatic choice of the alphabet changes.", "quantifier": "all pairs of objects with the same coding setting whose second text is obtained from the first by leaving out characters", "why_tests_cant": "A relation between all pairs of texts, across the limits of messages, escape sequences and alphabets.", "anchors": ["messaging/sms/submit.py:SmsSubmit.to_pdu", "messaging/sms/submit.py:SmsSubmit._split_sms_message", "messaging/sms/submit.py:SmsSubmit._get_msg_pdu"]}
{"id": "C95", "title": "The octets of an MMS determine the message", "statement": "If two messages, each encoded with its own files, give the same octets, they have the same headers, the same SMIL presentation and, part by part, the same data and headers, the names of files included; the same number of loose parts; and the same slides with the same media and times.", "quantifier": "all pairs of messages that can be encoded", "why_tests_cant": "A statement about all pairs of messages.", "anchors": ["messaging/mms/message.py:MMSMessage.encode", "messaging/mms/mms_pdu.py:MMSEncoder"]}
{"id": "C96", "title": "Recipients of a received MMS", "statement": "Every recipient that a received message names in To, Cc and Bcc headers, which may be repeated, is seen in the headers of the decoded message.", "quantifier": "all conformant messages with any number of recipients", "why_tests_cant": "Any number of headers in any order.", "anchors": ["messaging/mms/mms_pdu.py:MMSDecoder.decode_message_header"]}
{"id": "C97", "title": "Content types that cannot be sent", "statement": "Giving a message a content type with parameters makes it raise an exception on encoding exactly when a parameter has a value the library cannot write, and the exception is that of the first such parameter: AttributeError for Q, Charset and Differences; TypeError for texts that are no strings; EncodeError for a Padding or Type out of range and for names with separators; IndexError for an empty Type; otherwise OverflowError if a character is no octet. Without parameters every media type but the empty one can be sent. A header that is no pair of a media type and a dictionary, such as the media type alone, is refused with ValueError or TypeError.", "quantifier": "all media types (byte strings) and all dictionaries of parameters; for messages, all that can be encoded with another content type", "why_tests_cant": "Any number of parameters with any names and values; the order of the refusals matters.", "anchors": ["messaging/mms/wsp_pdu.py:Encoder.encode_content_type_value", "messaging/mms/wsp_pdu.py:Encoder.encode_parameter", "messaging/mms/wsp_pdu.py:Encoder.encode_constrained_encoding", "messaging/mms/mms_pdu.py:MMSEncoder.encode_message_header"]}
{"id": "C98", "title": "Labels of images and audio clips may be of any type", "statement": "A message whose images and audio clips are referred to by values of any type (Content-Location, else Content-ID, else their data) is presented as the same message with str labels, and the text is unicode exactly if one of the labels is a non-empty unicode string. Asking for the presentation raises exactly: the exception of the first medium that cannot be read, or NameError for audio before any text; else the exception of the first label in page order that is neither a string nor false (TypeError for datetime, AttributeError for all others); else UnicodeError if there is a unicode label and anywhere octets that are not ASCII. The whole message is then encoded as with str labels; with characters above 255 it raises OverflowError.", "quantifier": "all messages, environments, labels of every type, texts, meta tags and iteration orders", "why_tests_cant": "depends on the types of values in different pages and on when they are looked at; tests use str labels only", "anchors": ["messaging/mms/message.py: MMSMessage.smil", "messaging/mms/mms_pdu.py: MMSEncoder.encode_message_body"]}
{"id": "C99", "title": "A parameter is written with the number its version assigns, and read back", "statement": "For every name and value encode_parameter gives, in each of the versions 1.1 to 1.4, the number that version assigns to the name (the highest if there are several) and the value in the form that goes with it, or the name as a token and the value as integer or text if the version assigns none; values the form does not allow, forms the library cannot write and names with separators raise the exception determined by the form. Other versions raise ValueError. decode_parameter then gives name and value back. (The last sentence is false for numbers from 12 on, which the decoder does not know: it raises StopIteration, or takes the value for a name.)", "quantifier": "versions, names, values of every type; what follows the octets", "why_tests_cant": "four tables with repeated names times unboundedly many names and values of eleven types; the tests use the default version only", "anchors": ["messaging/mms/wsp_pdu.py: Encoder.encode_parameter, get_well_known_parameters", "messaging/mms/wsp_pdu.py: Decoder.decode_parameter"]}
{"id": "C100", "title": "Parts and messages do not share dictionaries", "statement": "After any sequence of creating parts and messages, receiving messages, set_data, set_text, from_file, assigning content_type or content_type_parameters, adding pages, and setting or deleting headers and parameters in place, every part and every message shows exactly what it would show if each had dictionaries of its own; in particular whatever is done with one part or message leaves all others as they were, and a received message shows what was decoded. Only for a received part are content_type_parameters and the parameters in its Content-Type header one dictionary. (A dictionary a program hands over twice is shared: a header set in one part after part.headers = other.headers is a header of both.)", "quantifier": "all programs of these statements, of any length, with any number of parts and messages, files, octets received, names and values, including statements that raise an exception and after which the program goes on", "why_tests_cant": "aliasing between mutable dictionaries shows only after particular sequences of statements; the tests look at one object at a time", "anchors": ["messaging/mms/message.py: DataPart.__init__, DataPart.set_data, DataPart.set_text, DataPart.from_file, DataPart.content_type, MMSMessage.__init__, MMSMessage.add_page, MMSMessage.from_data", "messaging/mms/mms_pdu.py: MMSDecoder.decode_message_body"]}
{"id": "C101", "title": "content_type_parameters shows the parameters of the Content-Type header", "statement": "The attribute content_type_parameters of a part holds the parameters of its Content-Type header, so that reading it tells, and changing it changes, what is sent with the part. (False: a part whose data was set with parameters has an empty attribute. It holds for received parts until data, file, content type, Content-Type header or the attribute are replaced. encode never looks at the attribute: the octets or the exception do not depend on it.)", "quantifier": "all programs as in C100; all messages, environments and iteration orders", "why_tests_cant": "depends on which of two dictionaries is the other one after a history of statements; that encode ignores an attribute is a statement about all messages", "anchors": ["messaging/mms/message.py: DataPart.content_type_parameters, DataPart.set_data", "messaging/mms/mms_pdu.py: MMSDecoder.decode_message_body, MMSEncoder.encode_message_body"]}
{"id": "C102", "title": "Decoders and encoders can be used again", "statement": "An MMSDecoder can decode any number of messages, also after one that could not be decoded: decode_data and decode_file return a new message equal to the one MMSMessage.from_data and from_file give for the same octets, or raise what those raise, and leave all messages returned before, and all other decoders and encoders, as they were. An MMSEncoder used again gives the octets, or the exception, of MMSMessage.encode and changes no other message. (The documented file name argument of MMSDecoder has no effect: the file is not decoded.)", "quantifier": "all states of all decoders, encoders and messages, all octets and files, all messages, environments and iteration orders", "why_tests_cant": "state left in a decoder by an earlier, possibly failing, call shows only in particular sequences of calls; the tests make a decoder for each message", "anchors": ["messaging/mms/mms_pdu.py: MMSDecoder.__init__, MMSDecoder.decode_file, MMSDecoder.decode_data, MMSDecoder.decode_message_header, MMSDecoder.decode_message_body, MMSEncoder.__init__, MMSEncoder.encode"]}
{"id": "C103", "title": "The codec under its name", "statement": "After the package was imported, once or several times, text.encode and octets.decode use its codec under exactly the spellings of the name gsm0338 in small and capital letters, with strict error handling if none is asked for, whatever other codecs were registered and looked up before and after, and even if the name was looked up in vain before. Under all other names a lookup gives what it gives in the same program without the package. If another package offers a codec of the same name, the one registered first is used.", "quantifier": "all programs that import the module, register search functions and look up names in any order, all names, texts, octets and values of errors", "why_tests_cant": "the registry has a cache, so an answer depends on the whole history; the tests use one spelling in one order", "anchors": ["messaging/sms/gsm0338.py: getregentry, encode, decode"]}
{"id": "C104", "title": "Emoji and other characters above U+FFFF", "statement": "A text of any Unicode characters can be sent and arrives unchanged, and every single message of a long text, read alone, has whole characters. (False: on builds of Python with one unit per character to_pdu raises ValueError for characters above U+FFFF. On narrow builds, where texts are UTF-16 units, every text arrives, but a character may be torn between two messages: exactly when a unit whose position is a multiple of 67 is the first half of a character. Apart from such characters the builds differ only in that a narrow one never returns more than 255 PDUs, for any coding.)", "quantifier": "all texts of Unicode characters up to 254 * 66 UTF-16 units, all settings of the message object, all ways a service centre relays the PDUs; the comparison of the builds: all states of the message object", "why_tests_cant": "whether a character is torn depends on the exact position of every character; the builds cannot be compared by running tests on one of them", "anchors": ["messaging/sms/submit.py: SmsSubmit.to_pdu, SmsSubmit._split_sms_message", "messaging/utils.py: pack_8bits_to_ucs2", "messaging/sms/deliver.py: SmsDeliver"]}
{"id": "C105", "title": "Acknowledging a message", "statement": "The messages that acknowledge a notification (m-notifyresp-ind with Transaction-Id and Status, set as in the tutorial) or a retrieved message (m-acknowledge-ind) are encoded to exactly the PDU of the standard: message type, transaction id, version and status. (False: encode appends a content type and a body with one part, a presentation without slides. What comes before is exactly the PDU of the standard, for every transaction id and status.)", "quantifier": "all transaction ids, all statuses, all environments and iteration orders of dictionaries", "why_tests_cant": "a test compares the first fifty octets for one transaction id and one status", "anchors": ["messaging/mms/mms_pdu.py: MMSEncoder.encode, MMSEncoder.encode_message_header, MMSEncoder.encode_message_body", "messaging/mms/message.py: MMSMessage.encode", "doc/tutorial/mms.rst: Encoding a m-notifyresp-ind PDU"]}
{"id": "C106", "title": "Messages used over and over", "statement": "However assignments to a message and calls of to_pdu alternate, and whether or not they raise: calls never change the number, service centre, class, validity, report request, rand_id, protocol identifier or text; a call fixes the message reference it has used and, if there is a number and the identifier is an octet, the coding it has used, exactly as if they had been assigned; nothing else of the past has an effect on what the next call returns, except how many ids were generated. If the coding and both references are assigned (the concatenation reference only matters for several PDUs), to_pdu returns what it returns for an object that was never called.", "quantifier": "every sequence of assignments (with any values) and calls on every new object", "why_tests_cant": "the interleavings and values are unbounded; tests call to_pdu once or twice on an object", "anchors": ["messaging/sms/submit.py: SmsSubmit.to_pdu, SmsSubmit._get_tpmessref_pdu, SmsSubmit._get_msg_pdu, SmsSubmit._get_rand_id"]}
{"id": "C107", "title": "Status reports lead back to their message", "statement": "A status report a service centre sends about a PDU of a message (the message reference and the destination of the PDU; any times and any status) decodes to the number the message was sent to and, as the reference, to the ref the message has after to_pdu; PDUs of two messages have reports in common exactly when these two agree, so a program can tell which message a report is about. It is about that PDU and no other. (The last is false: the parts of a long message have the same reports, and so have all messages to the same number on which ref was not assigned, whatever else is done with the objects: each gets the reference 0.)", "quantifier": "all messages whose settings are complete, all PDUs of them, all status reports on them, all pairs of messages; for the unassigned reference, all histories of assignments and calls on all new objects", "why_tests_cant": "messages, reports and histories are unbounded; tests decode reports that belong to no message of the suite", "anchors": ["messaging/sms/submit.py: SmsSubmit.to_pdu, SmsSubmit._get_tpmessref_pdu, SmsSubmit._get_rand_id", "messaging/sms/deliver.py: SmsDeliver._decode_status_report_pdu"]}
{"id": "C108", "title": "Parts that hold unicode", "statement": "set_text and set_data of a part accept unicode. The presentation is then unicode (if a text, or the data of an image or audio clip without label, is a non-empty unicode string), and asking for it or sending raises UnicodeError exactly if there are also octets that are not ASCII in another text, a label or a meta tag, and nothing else is wrong with the slides. Otherwise, if all characters are below U+0100, the message is sent with the same octets (or the same exception) as with the Latin-1 octets as str. A message with a character above U+00FF in its unicode data is never sent: OverflowError, if the same message with question marks for those characters can be sent.", "quantifier": "every message, data and labels of both string types in any slide, file contents, meta tags and headers", "why_tests_cant": "Depends on the types of all strings of all slides together.", "anchors": ["messaging/mms/message.py:DataPart.set_text", "messaging/mms/message.py:DataPart.set_data", "messaging/mms/message.py:DataPart.data", "messaging/mms/message.py:MMSMessage.smil", "messaging/mms/mms_pdu.py:MMSEncoder.encode_message_body"]}
{"id": "C109", "title": "PDUs given as unicode", "statement": "A PDU given to SmsDeliver as unicode is decoded as the str of the same characters; a digit of any script counts as that digit, and any Unicode white space as a blank. A character that is none of these and not in Latin-1 is refused with ValueError (UnicodeEncodeError). No other exceptions than with str.", "quantifier": "every unicode object, every object it is assigned to, every table of characters that agrees with ASCII", "why_tests_cant": "Tests use str literals; which of a million characters are accepted, and whether pairs of them change the octets of a message, cannot be sampled.", "anchors": ["messaging/sms/deliver.py:_set_pdu", "messaging/utils.py:to_array"]}
{"id": "C110", "title": "Printed user data headers", "statement": "Printing a user data header shows its elements (number and octets, in the order of the dictionary), its concatenation reference and its ports, each as a decimal number in a fixed text; two received headers that are printed alike are alike in elements, reference and ports. (False for one detail: whether the reference is of 8 or 16 bits is not printed.)", "quantifier": "every user data header, every iteration order of dictionaries, every pair of received headers", "why_tests_cant": "Whether two of infinitely many headers are printed alike cannot be sampled; no test prints a header.", "anchors": ["messaging/sms/udh.py:UserDataHeader.__repr__", "messaging/sms/udh.py:ConcatReference.__repr__", "messaging/sms/udh.py:PortAddress.__repr__", "messaging/sms/udh.py:UserDataHeader.from_bytes"]}
{"id": "C111", "title": "Files that change while a message is encoded", "statement": "Whatever other programs do to the files of a message during encode, a message that is sent is one that could have been sent with nothing changing: for every part there is a moment of the call such that the octets are those of a message whose parts hold what their files contained at these moments. A message with a part whose file can never be read is never sent. After a message was sent every part holds contents that its file had during the call. A call that fails loses no slide and no part, and can be repeated. (The first is false: size and contents are read separately. It holds, for exceptions too, while the sizes of the files stay the same; a file that grows in between arrives cut.)", "quantifier": "every sequence of states of the file system, one for each access to a file; all messages, parts, iteration orders", "why_tests_cant": "depends on what other programs do between two system calls", "anchors": ["messaging/mms/message.py: DataPart.__len__, DataPart.data, MMSMessage.smil", "messaging/mms/mms_pdu.py: MMSEncoder.encode_message_body"]}
{"id": "C112", "title": "Message files that change while they are read", "statement": "Whatever other programs do to the file during from_file, a message that is returned with parts is the one the file contained when it was read, and one without parts has the first headers of the file. Of a file that another program is writing, from_file decodes what was there when it began. A message another program is just writing is therefore read as the message, or an exception is raised. (The last is false: a file that was just emptied, as to_file does before it encodes, is read as an empty message; a conformant message of which a beginning is there is taken for one without parts exactly if the beginning ends between two headers, inside an application header, or in front of the end of the number of parts.)", "quantifier": "every sequence of states of the file system; all files and octets; for the last, all conformant messages", "why_tests_cant": "depends on what other programs do between two system calls; tests read files that are complete", "anchors": ["messaging/mms/mms_pdu.py: MMSDecoder.decode_file", "messaging/mms/message.py: MMSMessage.from_file, MMSMessage.to_file"]}
{"id": "C113", "title": "Files with several names and disks that become full", "statement": "Whatever the links and however little room there is on the disk: to_file raises IOError and changes nothing if the file cannot be opened; otherwise the file holds as much of the message as there was room for, under all its names, IOError is raised if that is not all, and no other file is changed. from_file then gives the message that was to be written, or raises an exception. (The last is false: a message of which nothing fits on the disk is read as a message without parts, and a photo in the message whose file is overwritten under another name is read without contents. A message with parts from other files that from_file returns with parts is the right one.)", "quantifier": "all messages, all file systems with any links, all amounts of free space, all orders of the headers", "why_tests_cant": "tests do not fill the disk at every octet of every message, nor write a message over a photo in it by another name", "anchors": ["messaging/mms/message.py: MMSMessage.to_file, DataPart.data", "messaging/mms/mms_pdu.py: MMSDecoder.decode_file"]}
{"id": "C114", "title": "What is sent is MMS", "statement": "A header that the library accepts and that WAP-209 can express is written in an encoding of WAP-209 for exactly that name and value. A message of such headers, with slides of texts and files, is sent as one WAP-209 message with a WAP-230 multipart body: first Message-Type, Transaction-Id and MMS-Version, then the other headers, each once, the Content-Type last, then as many entries as announced, the presentation first and the parts of the slides in order; nothing set is left out and nothing added. (The first is false, for example for texts that begin with an octet from 128 on, for dates, for numbers that do not read the same backwards and for an empty sender; exactly which headers and media types are written as the standards have them is stated.)", "quantifier": "all header names and values, all media types, all part headers with text values, all messages with headers of this kind and any slides, all orders of dictionaries", "why_tests_cant": "tests compare a few messages with octets recorded from the library itself; that all octets of all messages follow the standards needs the encodings of the standards and all messages", "anchors": ["messaging/mms/mms_pdu.py: MMSEncoder.encode, MMSEncoder.encode_message_header, MMSEncoder.encode_message_body, MMSEncoder.encode_header", "messaging/mms/wsp_pdu.py: Encoder.encode_content_type_value, Encoder.encode_header"]}
{"id": "C115", "title": "What other recipients read", "statement": "A header that is written as WAP-209 has it is read by everyone who keeps to the standard under its name, with the value that was set, and in no other way. A whole message of such headers with slides of texts and files is read by everyone as it was set: headers, content type, presentation and parts in order, with their headers and data; the octets cannot be read as any other message. (The first is false for texts that begin with a control character, which are taken for texts with a character set. A text that begins with an octet from 128 on cannot be read at all, and of a Message-Size the octets are read in reverse order.)", "quantifier": "all header names and values, all messages with headers of this kind, all ways to read the octets that WAP-209 and WAP-230 allow", "why_tests_cant": "tests decode with the library itself; what other implementations read needs all readings that the standards allow", "anchors": ["messaging/mms/mms_pdu.py: MMSEncoder.encode, MMSEncoder.encode_message_header, MMSEncoder.encode_message_body, MMSEncoder.encode_header", "messaging/mms/wsp_pdu.py: Encoder.encode_text_string, Encoder.encode_long_integer, Encoder.encode_content_type_value"]}
{"id": "C116", "title": "Parts are read independently of one another", "statement": "Whatever octets from_data accepts: after the headers and the number of parts they consist of one entry per part, and each entry would be read as the same part if it were the only one. Entries, also of different messages, can be put together in any order and number after any headers that can be read: the message then has exactly these parts. An entry that cannot be read makes decoding raise what it would raise for this entry alone, whatever is in front of it and behind it.", "quantifier": "every octet string that is accepted; all sequences of entries, all headers in front, all octets behind", "why_tests_cant": "That one part has no effect on another is a statement about all pairs of parts, readable or not; tests decode a few complete messages.", "anchors": ["messaging/mms/mms_pdu.py:MMSDecoder.decode_message_body", "messaging/mms/message.py:MMSMessage.from_data"]}
{"id": "C117", "title": "Headers are read independently of what follows", "statement": "Octets that follow conformant headers are read as if they were alone: decoding raises the same exception, or gives the same parts and the same headers, with the headers in front for the names that the octets do not set. Headers with different names can be sent in any order in front of anything. (False for the three forms of headers that are not read, C45: they change what the octets behind them are read as.)", "quantifier": "every octet string, conformant or not; every sequence of conformant headers in front of it", "why_tests_cant": "What follows a header is any octet string, most of which are no messages; a test has one.", "anchors": ["messaging/mms/mms_pdu.py:MMSDecoder.decode_message_header", "messaging/mms/mms_pdu.py:MMSDecoder.decode_header", "messaging/mms/message.py:MMSMessage.from_data"]}
{"id": "C118", "title": "What is decoded is not much larger than what arrived", "statement": "Decoding cannot be made to produce much more than what was received. The data of all parts of a decoded MMS message together with two octets for each part are no longer than the octets decoded, so there are at most half as many parts as octets; the names and values of all headers, of the message and of its parts, have together at most 80 characters for each octet that is not data of a part, besides the 101 of the headers every message object starts with. Service centre, number and text of a received SMS together are no longer than its PDU, those of a status report at most 41 characters longer.", "quantifier": "every octet string that decodes as an MMS message; every PDU string that decodes, strict or not", "why_tests_cant": "an input that makes a decoder allocate without proportion is an adversarial one nobody writes as a test; the bound is about all inputs", "anchors": ["messaging/mms/mms_pdu.py:MMSDecoder.decode_data", "messaging/mms/mms_pdu.py:MMSDecoder.decode_message_body", "messaging/mms/wsp_pdu.py:Decoder", "messaging/sms/deliver.py:SmsDeliver"]}
{"id": "C119", "title": "The size of an encoded message is that of its contents and little more", "statement": "When MMSMessage.encode succeeds, the number of octets it returns is at least that of the generated SMIL presentation and of the data of all parts of the slides taken together, with two more for each of them, and at most that sum with an allowance that depends only on the headers: name and value of each message header with a few octets for lengths, 110 octets for the headers the encoder adds, the number of parts as a variable-length integer, for each part its headers and two variable-length integers, and 55 octets for the headers of the presentation.", "quantifier": "all file systems, all orders of the header dictionary, all random transaction identifiers, all messages whose headers, and whose parts' headers, have strings, integers, truth values, None or content types with such parameters as values, and whose parts have either a file or data of their own, of any size", "why_tests_cant": "operators limit the size of messages, and the bound has to hold for every number of slides and every amount of data; tests measure a few", "anchors": ["messaging/mms/mms_pdu.py:MMSEncoder.encode", "messaging/mms/mms_pdu.py:MMSEncoder.encode_message_body", "messaging/mms/mms_pdu.py:MMSEncoder.encode_message_header", "messaging/mms/wsp_pdu.py:Encoder.encode_uint_var"]}
{"id": "C120", "title": "Damage stays where it is", "statement": "If octets of the data of one part of a multimedia message are replaced by others, from_data gives the same message with these data in this part. If octets of the headers of one part are replaced by others, from_data raises, and then the same exception whatever the data and the other parts are, or it gives the same message but for the headers and the content type of this part. Of received short messages every field (service centre, sender, protocol identifier, coding, date, text with user data header) is read from its own octets: two messages that agree in one field show the same there, however they differ elsewhere, and whether a message is accepted depends on its time stamp alone and on its user data alone.", "quantifier": "all messages made of conformant headers and of any entries of parts that can be read, every replacement of the same length; all pairs of DELIVERs whose addresses and time stamps have their lengths, with any contents", "why_tests_cant": "the damage is arbitrary and may be anywhere in a message of any size; tests change a few octets", "anchors": ["messaging/mms/mms_pdu.py:MMSDecoder.decode_message_body", "messaging/mms/mms_pdu.py:MMSDecoder.decode_data", "messaging/sms/deliver.py:SmsDeliver._set_pdu", "messaging/sms/deliver.py:SmsDeliver._process_message"]}
{"id": "C121", "title": "What an exception of from_data says about the message", "statement": "When MMSMessage.from_data raises something other than DecodeError or StopIteration, the octets responsible can be named. RuntimeError is only raised if some octet of the data lies between 0x81 and 0x98 (a number of an MMS header field). AttributeError is only raised if the data contains 0x07 or 0x87 (the number of the Differences parameter, for which there is no decoder). OverflowError is only raised if nine octets in a row have their high bit set (a length of 2^63 or more). In particular data shorter than nine octets never raises OverflowError, and data in ASCII without the octet 7 raises nothing but DecodeError and StopIteration.", "quantifier": "every sequence of octets given to from_data", "why_tests_cant": "each exception has to be traced back through every nesting of value decoders, parameter loops, part headers and fresh iterators, for input of any length", "anchors": ["messaging/mms/mms_pdu.py:MMSDecoder.decode_data", "messaging/mms/mms_pdu.py:MMSDecoder.decode_message_body", "messaging/mms/mms_pdu.py:MMSDecoder.decode_mms_header", "messaging/mms/wsp_pdu.py:Decoder.decode_content_general_form", "messaging/mms/wsp_pdu.py:Decoder.decode_typed_parameter", "messaging/mms/wsp_pdu.py:Decoder.decode_uint_var", "messaging/mms/wsp_pdu.py:Decoder.decode_q_value"]}
{"id": "C122", "title": "Slides are sent one after the other, each as if it were the only one", "statement": "The octets encode() returns are the headers, the number of entries, the presentation, and then the octets of the slides in their order. The headers are those of the message without slides, and the octets of a slide are those it has as the only slide of the message, whatever the other slides are. If the presentation can be made, a message fails to encode exactly as the message without slides does, or else as the first slide that cannot be sent does on its own. So a message can be sent whenever its presentation can be made and each slide can be sent on its own.", "quantifier": "all messages with any number of slides with any media, headers, loose parts, files, transaction numbers and orders of dictionaries", "why_tests_cant": "A test encodes a few messages; that no slide ever affects the octets of another needs all combinations of slides.", "anchors": ["messaging/mms/mms_pdu.py:MMSEncoder.encode", "messaging/mms/mms_pdu.py:MMSEncoder.encode_message_body", "messaging/mms/message.py:MMSMessage.smil", "messaging/mms/message.py:MMSMessagePage.data_parts"]}
{"id": "C123", "title": "When waiting for more octets can help", "statement": "MMSMessage.from_data on octets that arrived so far tells whether it makes sense to wait for more. DecodeError, AttributeError and OverflowError are final: the same exception is raised whatever octets follow. A message with parts is final too: the same message is returned whatever follows. So the beginning of a message that can be read never raises anything but StopIteration or RuntimeError. These two, and a message without parts, may become a message with parts when more octets arrive.", "quantifier": "every octet string, conformant or not, and every continuation of it", "why_tests_cant": "Quantifies over all inputs and all continuations; tests cut a few messages at a few places.", "anchors": ["messaging/mms/mms_pdu.py:MMSDecoder.decode_data", "messaging/mms/mms_pdu.py:MMSDecoder.decode_message_header", "messaging/mms/mms_pdu.py:MMSDecoder.decode_message_body", "messaging/mms/message.py:MMSMessage.from_data"]}
