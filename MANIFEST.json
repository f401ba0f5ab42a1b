{
 "claims": [
  {
   "property": "C01",
   "status": "proved",
   "theorems": [
    "Verif.Props.C01_roundtrip",
    "Verif.Props.C01_injective"
   ],
   "note": ""
  },
  {
   "property": "C02",
   "status": "proved",
   "theorems": [
    "Verif.Props.C02_encode_exact",
    "Verif.Props.C02_is_gsm_text",
    "Verif.Props.C02_encode_total"
   ],
   "note": ""
  },
  {
   "property": "C03",
   "status": "proved",
   "theorems": [
    "Verif.Props.C03_total",
    "Verif.Props.C03_reencode",
    "Verif.Props.C03_bad_escape"
   ],
   "note": ""
  },
  {
   "property": "C04",
   "status": "proved",
   "theorems": [
    "Verif.Props.C04_ignore",
    "Verif.Props.C04_replace",
    "Verif.Props.C04_str",
    "Verif.Props.C04_decode_concat",
    "Verif.Props.C04_decode_octet",
    "Verif.Props.C04_decode_bad"
   ],
   "note": ""
  },
  {
   "property": "C05",
   "status": "proved",
   "theorems": [
    "Verif.Props.C05_packing",
    "Verif.Props.C05_packing_header",
    "Verif.Props.C05_header_any",
    "Verif.Props.C05_too_long",
    "Verif.Props.C05_unique"
   ],
   "note": ""
  },
  {
   "property": "C06",
   "status": "proved",
   "theorems": [
    "Verif.Props.C06_roundtrip",
    "Verif.Props.C06_roundtrip_any",
    "Verif.Props.C06_roundtrip_bytes",
    "Verif.Props.C06_roundtrip_header"
   ],
   "note": ""
  },
  {
   "property": "C07",
   "status": "proved",
   "theorems": [
    "Verif.Props.C07_agree",
    "Verif.Props.C07_digits"
   ],
   "note": ""
  },
  {
   "property": "C08",
   "status": "proved",
   "theorems": [
    "Verif.Props.C08_lossless",
    "Verif.Props.C08_lossless_8bit",
    "Verif.Props.C08_8bit_accepted"
   ],
   "note": "8-bit data in several parts: whatever to_pdu accepts (ASCII byte strings only) is recovered; unicode text and non-ASCII byte strings raise"
  },
  {
   "property": "C09",
   "status": "proved",
   "theorems": [
    "Verif.Props.C09_count",
    "Verif.Props.C09_count_8bit"
   ],
   "note": ""
  },
  {
   "property": "C10",
   "status": "proved",
   "theorems": [
    "Verif.Props.C10_conformance",
    "Verif.Props.C10_succeeds",
    "Verif.Props.C10_envelope"
   ],
   "note": ""
  },
  {
   "property": "C100",
   "status": "proved",
   "theorems": [
    "Verif.Props.C100_exact",
    "Verif.Props.C100_apart",
    "Verif.Props.C100_received",
    "Verif.Props.C100_shared"
   ],
   "note": "Dictionaries as objects in a store (Model/Dicts), programs as lists of deeds; C100_shared: what happens with a dictionary that is handed over"
  },
  {
   "property": "C101",
   "status": "partial",
   "theorems": [
    "Verif.Props.C101_partial",
    "Verif.Props.C101_refuted",
    "Verif.Props.C101_unsent"
   ],
   "note": "false for parts whose data was set with parameters (C101_refuted); C101_partial is the part that holds, C101_unsent: encode ignores the attribute"
  },
  {
   "property": "C102",
   "status": "proved",
   "theorems": [
    "Verif.Props.C102_decode",
    "Verif.Props.C102_file",
    "Verif.Props.C102_encode",
    "Verif.Props.C102_filename",
    "Verif.Props.C102_new",
    "Verif.Props.C102_left"
   ],
   "note": "Model/Coders: decoders fill a message in place; C102_filename: the documented argument of MMSDecoder has no effect"
  },
  {
   "property": "C103",
   "status": "proved",
   "theorems": [
    "Verif.Props.C103_named",
    "Verif.Props.C103_others",
    "Verif.Props.C103_first"
   ],
   "note": "Model/Codecs: the registry of Python 2.7 (search functions and cache) is part of the model"
  },
  {
   "property": "C104",
   "status": "partial",
   "theorems": [
    "Verif.Props.C104_partial",
    "Verif.Props.C104_whole",
    "Verif.Props.C104_builds",
    "Verif.Props.C104_refuted",
    "Verif.Props.C104_refuted_narrow"
   ],
   "note": "false on wide builds (C104_refuted) and, for the single messages, on narrow ones (C104_refuted_narrow); C104_partial: every text arrives on narrow builds; C104_whole: exactly which texts have no torn character; C104_builds: how the builds differ (Model/Narrow)"
  },
  {
   "property": "C105",
   "status": "partial",
   "theorems": [
    "Verif.Props.C105_partial",
    "Verif.Props.C105_acknowledge",
    "Verif.Props.C105_refuted"
   ],
   "note": "false of the code: a content type and a presentation without slides follow (C105_refuted); C105_partial and C105_acknowledge give all octets exactly, what comes before and what follows"
  },
  {
   "property": "C106",
   "status": "proved",
   "theorems": [
    "Verif.Props.C106_history",
    "Verif.Props.C106_last",
    "Verif.Props.C106_calls",
    "Verif.Props.C106_single"
   ],
   "note": "a call that raises may take up to two generated ids (Amounts106)"
  },
  {
   "property": "C107",
   "status": "partial",
   "theorems": [
    "Verif.Props.C107_partial",
    "Verif.Props.C107_exists",
    "Verif.Props.C107_parts",
    "Verif.Props.C107_common",
    "Verif.Props.C107_unset",
    "Verif.Props.C107_refuted_parts",
    "Verif.Props.C107_refuted_messages",
    "Verif.Props.C107_refuted"
   ],
   "note": "false of the code for the last sentence (C107_refuted_parts, C107_refuted_messages); C107_partial and C107_exists: reports exist and decode to the number and the reference of their message; C107_common: exactly which messages share reports; C107_unset: without assignments of ref every message has reference 0"
  },
  {
   "property": "C108",
   "status": "proved",
   "theorems": [
    "Verif.Props.C108_presented",
    "Verif.Props.C108_sent",
    "Verif.Props.C108_mixed",
    "Verif.Props.C108_latin",
    "Verif.Props.C108_beyond"
   ],
   "note": "exact for presentation; UnicodeError and OverflowError as stated"
  },
  {
   "property": "C109",
   "status": "proved",
   "theorems": [
    "Verif.Props.C109_shown",
    "Verif.Props.C109_new",
    "Verif.Props.C109_ascii",
    "Verif.Props.C109_strings",
    "Verif.Props.C109_default",
    "Verif.Props.C109_refused",
    "Verif.Props.C109_exceptions"
   ],
   "note": "the tables of the interpreter are a parameter, assumed right on ASCII (Spec/UniPdu.Valid)"
  },
  {
   "property": "C11",
   "status": "proved",
   "theorems": [
    "Verif.Props.C11_user_data"
   ],
   "note": ""
  },
  {
   "property": "C110",
   "status": "partial",
   "theorems": [
    "Verif.Props.C110_text",
    "Verif.Props.C110_same",
    "Verif.Props.C110_partial",
    "Verif.Props.C110_refuted"
   ],
   "note": "false of the code for the width of the reference, which is not printed (C110_refuted); C110_text: the text character by character; C110_same: exactly which headers are printed alike"
  },
  {
   "property": "C111",
   "status": "partial",
   "theorems": [
    "Verif.Props.C111_snapshot_partial",
    "Verif.Props.C111_reads",
    "Verif.Props.C111_unreadable",
    "Verif.Props.C111_part",
    "Verif.Props.C111_agrees",
    "Verif.Props.C111_kept",
    "Verif.Props.C111_again",
    "Verif.Props.C111_refuted"
   ],
   "note": "false of the code when the size of a file changes between the two accesses (C111_refuted); C111_snapshot_partial: holds while no size changes, whatever happens to the contents; C111_part: what is sent for a part in any case; C111_kept: what a call leaves, also one that failed; C111_again: calls that are repeated; C111_agrees: with nothing changing this is the encoding of C67"
  },
  {
   "property": "C112",
   "status": "partial",
   "theorems": [
    "Verif.Props.C112_parts",
    "Verif.Props.C112_headers",
    "Verif.Props.C112_growing",
    "Verif.Props.C112_iff",
    "Verif.Props.C112_partial",
    "Verif.Props.C112_agrees",
    "Verif.Props.C112_emptied",
    "Verif.Props.C112_refuted"
   ],
   "note": "false of the code for the last sentence (C112_refuted: a file that was just emptied); C112_iff: exactly which beginnings are taken for a message; C112_partial: then it has no parts"
  },
  {
   "property": "C113",
   "status": "partial",
   "theorems": [
    "Verif.Props.C113_written",
    "Verif.Props.C113_partial",
    "Verif.Props.C113_iff",
    "Verif.Props.C113_self",
    "Verif.Props.C113_unwritable",
    "Verif.Props.C113_lost",
    "Verif.Props.C113_agrees",
    "Verif.Props.C113_refuted"
   ],
   "note": "false of the code (C113_refuted: nothing fits on the disk, and the file is taken for a message without parts; link_lost: a photo under another name); C113_partial: a message with parts is the right one; C113_iff: exactly how much has to fit; C113_written: the file after every call"
  },
  {
   "property": "C114",
   "status": "partial",
   "theorems": [
    "Verif.Props.C114_header",
    "Verif.Props.C114_accepted",
    "Verif.Props.C114_media",
    "Verif.Props.C114_media_accepted",
    "Verif.Props.C114_part_header",
    "Verif.Props.C114_partial",
    "Verif.Props.C114_text",
    "Verif.Props.C114_file",
    "Verif.Props.C114_refuted"
   ],
   "note": "false of the code for some headers that are accepted (C114_refuted: a Subject beginning with an octet from 128 on lacks the Quote octet); C114_header, C114_media and C114_part_header say exactly which headers and media types are written as the standards have them; C114_partial: whole messages of these. Missing: content types with parameters (C43_never), loose parts (C47_loose)"
  },
  {
   "property": "C115",
   "status": "partial",
   "theorems": [
    "Verif.Props.C115_header_partial",
    "Verif.Props.C115_partial",
    "Verif.Props.C115_unquoted",
    "Verif.Props.C115_size",
    "Verif.Props.C115_refuted"
   ],
   "note": "false of the code for texts that begin with a control character (C115_refuted: taken for a text with a character set); C115_header_partial and C115_partial: everything else that C114 calls standard is read by every recipient as it was set, and in no other way; C115_unquoted, C115_size: what is read of two kinds of headers that are accepted but not standard"
  },
  {
   "property": "C116",
   "status": "proved",
   "theorems": [
    "Verif.Props.C116_split",
    "Verif.Props.C116_join",
    "Verif.Props.C116_take",
    "Verif.Props.C116_after",
    "Verif.Props.C116_first_error"
   ],
   "note": ""
  },
  {
   "property": "C117",
   "status": "partial",
   "theorems": [
    "Verif.Props.C117_partial",
    "Verif.Props.C117_order_partial",
    "Verif.Props.C117_refuted"
   ],
   "note": "false of the code for the headers that are not read (C45); C117_partial: all others, whatever follows them"
  },
  {
   "property": "C118",
   "status": "proved",
   "theorems": [
    "Verif.Props.C118_parts",
    "Verif.Props.C118_headers",
    "Verif.Props.C118_sms"
   ],
   "note": "numbers count with their decimal digits, values that are neither strings nor numbers as 1"
  },
  {
   "property": "C119",
   "status": "proved",
   "theorems": [
    "Verif.Props.C119_size"
   ],
   "note": "lower and upper bound for the length of what encode returns; values that are floats, dates or tuples, and parts with both a file and data, are outside the quantifier"
  },
  {
   "property": "C12",
   "status": "proved",
   "theorems": [
    "Verif.Props.C12_gsm",
    "Verif.Props.C12_join"
   ],
   "note": ""
  },
  {
   "property": "C120",
   "status": "proved",
   "theorems": [
    "Verif.Props.C120_damage",
    "Verif.Props.C120_data",
    "Verif.Props.C120_fields",
    "Verif.Props.C120_accepted"
   ],
   "note": "multimedia messages: C120_damage, C120_data; short messages: C120_fields, C120_accepted"
  },
  {
   "property": "C121",
   "status": "proved",
   "theorems": [
    "Verif.Props.C121_origin",
    "Verif.Props.C121_plain"
   ],
   "note": "The conditions are necessary, not sufficient; C51_sharp shows that each exception does occur."
  },
  {
   "property": "C122",
   "status": "proved",
   "theorems": [
    "Verif.Props.C122_slides",
    "Verif.Props.C122_fails",
    "Verif.Props.C122_sent"
   ],
   "note": "The presentation itself is not local: a slide with audio and no text borrows the text of an earlier slide (C53), so on its own it cannot be presented; the theorems speak of the octets after the presentation."
  },
  {
   "property": "C123",
   "status": "proved",
   "theorems": [
    "Verif.Props.C123_fails",
    "Verif.Props.C123_begins",
    "Verif.Props.C123_final",
    "Verif.Props.C123_others"
   ],
   "note": "C123_others: the three answers that are not final do change for one and the same message"
  },
  {
   "property": "C13",
   "status": "proved",
   "theorems": [
    "Verif.Props.C13_ucs2",
    "Verif.Props.C13_too_big",
    "Verif.Props.C12_join"
   ],
   "note": ""
  },
  {
   "property": "C14",
   "status": "partial",
   "theorems": [
    "Verif.Props.C14_partial",
    "Verif.Props.C14_lost",
    "Verif.Props.C14_never",
    "Verif.Props.C14_refuted"
   ],
   "note": "false of the code for 8-bit data in several parts (the header is announced but not sent); proved for single-part data; for several parts, what is left of them is described exactly, and that they never arrive"
  },
  {
   "property": "C15",
   "status": "proved",
   "theorems": [
    "Verif.Props.C15_number"
   ],
   "note": ""
  },
  {
   "property": "C16",
   "status": "proved",
   "theorems": [
    "Verif.Props.C16_csca"
   ],
   "note": ""
  },
  {
   "property": "C17",
   "status": "partial",
   "theorems": [
    "Verif.Props.C17_partial",
    "Verif.Props.C17_refuted",
    "Verif.Props.C17_iff",
    "Verif.Props.C17_announced"
   ],
   "note": "false of the code for fmt=0x04 with characters above U+00FF (odd number of hex digits); everything else is proved, and exactly when it fails"
  },
  {
   "property": "C18",
   "status": "proved",
   "theorems": [
    "Verif.Props.C18_number",
    "Verif.Props.C18_csca",
    "Verif.Props.C18_init"
   ],
   "note": ""
  },
  {
   "property": "C19",
   "status": "proved",
   "theorems": [
    "Verif.Props.C19_class",
    "Verif.Props.C19_coding",
    "Verif.Props.C19_received"
   ],
   "note": ""
  },
  {
   "property": "C20",
   "status": "proved",
   "theorems": [
    "Verif.Props.C20_floor",
    "Verif.Props.C20_range",
    "Verif.Props.C20_monotone"
   ],
   "note": ""
  },
  {
   "property": "C21",
   "status": "partial",
   "theorems": [
    "Verif.Props.C21_partial",
    "Verif.Props.C21_refuted",
    "Verif.Props.C21_far"
   ],
   "note": "false of the code for utc offsets of 20 hours and more; proved below; C21_far says which zone is sent beyond"
  },
  {
   "property": "C22",
   "status": "partial",
   "theorems": [
    "Verif.Props.C22_too_long",
    "Verif.Props.C22_exact",
    "Verif.Props.C22_no_wrap",
    "Verif.Props.C22_partial",
    "Verif.Props.C22_refuted"
   ],
   "note": "false of the code for 8-bit data (34305 octets give 257 PDUs); proved for the other codings, and exactly when it is raised (C22_exact)"
  },
  {
   "property": "C23",
   "status": "proved",
   "theorems": [
    "Verif.Props.C23_history",
    "Verif.Props.C23_distinct"
   ],
   "note": ""
  },
  {
   "property": "C24",
   "status": "partial",
   "theorems": [
    "Verif.Props.C24_repeat",
    "Verif.Props.C24_text_partial",
    "Verif.Props.C24_coding",
    "Verif.Props.C24_gsm_first",
    "Verif.Props.C24_text_iff",
    "Verif.Props.C24_refuted"
   ],
   "note": "repeating is proved; changing the text keeps a stale automatically chosen coding, so that half is false of the code unless the coding is the same; C24_text_iff: exactly when, C24_coding: what is sent otherwise"
  },
  {
   "property": "C25",
   "status": "proved",
   "theorems": [
    "Verif.Props.C25_exceptions",
    "Verif.Props.C25_constructor",
    "Verif.Props.C25_exact",
    "Verif.Props.C25_strings"
   ],
   "note": "C25_exact: which octets are refused with ValueError and which with IndexError; C25_strings: which strings are refused with OverflowError or because they spell no octets."
  },
  {
   "property": "C26",
   "status": "proved",
   "theorems": [
    "Verif.Props.C26_strict",
    "Verif.Props.C26_lenient"
   ],
   "note": ""
  },
  {
   "property": "C27",
   "status": "proved",
   "theorems": [
    "Verif.Props.C27_case"
   ],
   "note": "the stored .pdu string itself keeps its case"
  },
  {
   "property": "C28",
   "status": "proved",
   "theorems": [
    "Verif.Props.C28_utc",
    "Verif.Props.C28_unique",
    "Verif.Props.C28_invalid"
   ],
   "note": ""
  },
  {
   "property": "C29",
   "status": "proved",
   "theorems": [
    "Verif.Props.C29_report"
   ],
   "note": ""
  },
  {
   "property": "C30",
   "status": "partial",
   "theorems": [
    "Verif.Props.C30_partial",
    "Verif.Props.C30_truncated_partial",
    "Verif.Props.C30_any",
    "Verif.Props.C30_reading",
    "Verif.Props.C30_cut",
    "Verif.Props.C30_refuted",
    "Verif.Props.C30_refuted_truncated"
   ],
   "note": "false of the code: 8-bit ports are flagged as 16-bit, and an element of an unknown kind that is cut off does not raise; the rest is proved; C30_any says for any octets, well formed or not, what is returned or raised"
  },
  {
   "property": "C31",
   "status": "partial",
   "theorems": [
    "Verif.Props.C31_partial",
    "Verif.Props.C31_clean",
    "Verif.Props.C31_refuted"
   ],
   "note": "false of the code (stale header, report, type, protocol id, coding scheme); the theorem says exactly what becomes stale"
  },
  {
   "property": "C32",
   "status": "partial",
   "theorems": [
    "Verif.Props.C32_partial",
    "Verif.Props.C32_refuted",
    "Verif.Props.C32_bin",
    "Verif.Props.C32_ucs2",
    "Verif.Props.C32_iff"
   ],
   "note": "false of the code for 8-bit and UCS2 messages, where what follows becomes text; proved exactly for which alphabets"
  },
  {
   "property": "C33",
   "status": "partial",
   "theorems": [
    "Verif.Props.C33_partial",
    "Verif.Props.C33_refuted",
    "Verif.Props.C33_shown"
   ],
   "note": "false of the code for message waiting groups and reserved values; the theorem characterises the octets that are right, C33_shown what the others show"
  },
  {
   "property": "C34",
   "status": "partial",
   "theorems": [
    "Verif.Props.C34_partial",
    "Verif.Props.C34_west",
    "Verif.Props.C34_text_partial",
    "Verif.Props.C34_text_west",
    "Verif.Props.C34_refuted",
    "Verif.Props.C34_exact",
    "Verif.Props.C34_hours"
   ],
   "note": "false of the code for zones west of Greenwich ('-0300' is -21 h); proved east. C34_exact: what every text gives"
  },
  {
   "property": "C35",
   "status": "partial",
   "theorems": [
    "Verif.Props.C35_partial",
    "Verif.Props.C35_same",
    "Verif.Props.C35_refuted"
   ],
   "note": "false of the code between objects (every first long message has reference 1); proved within one object"
  },
  {
   "property": "C36",
   "status": "proved",
   "theorems": [
    "Verif.Props.C36_refines",
    "Verif.Props.C36_cursor",
    "Verif.Props.C36_in_order"
   ],
   "note": ""
  },
  {
   "property": "C37",
   "status": "proved",
   "theorems": [
    "Verif.Props.C37_roundtrip",
    "Verif.Props.C37_minimal",
    "Verif.Props.C37_decode"
   ],
   "note": ""
  },
  {
   "property": "C38",
   "status": "proved",
   "theorems": [
    "Verif.Props.C38_short_integer",
    "Verif.Props.C38_short_integer_range",
    "Verif.Props.C38_short_length",
    "Verif.Props.C38_short_length_range",
    "Verif.Props.C38_value_length",
    "Verif.Props.C38_bool"
   ],
   "note": ""
  },
  {
   "property": "C39",
   "status": "partial",
   "theorems": [
    "Verif.Props.C39_partial",
    "Verif.Props.C39_small_partial",
    "Verif.Props.C39_too_large",
    "Verif.Props.C39_decode",
    "Verif.Props.C39_integer_value",
    "Verif.Props.C39_refuted"
   ],
   "note": "false of the code: the encoder writes the least significant octet first; proved for the values whose octets are a palindrome, decoding of conformant data proved"
  },
  {
   "property": "C40",
   "status": "partial",
   "theorems": [
    "Verif.Props.C40_text",
    "Verif.Props.C40_text_127",
    "Verif.Props.C40_decode",
    "Verif.Props.C40_quoted",
    "Verif.Props.C40_not_quoted",
    "Verif.Props.C40_text_value",
    "Verif.Props.C40_text_value_none",
    "Verif.Props.C40_encoded_partial",
    "Verif.Props.C40_from_partial",
    "Verif.Props.C40_from_empty",
    "Verif.Props.C40_encoded_iff",
    "Verif.Props.C40_encoded_never",
    "Verif.Props.C40_from_iff",
    "Verif.Props.C40_encoded_refuted"
   ],
   "note": "plain text strings proved except a leading 127; encoded strings are false for the empty string and a leading control character, proved otherwise (C40_encoded_iff: exactly which come back)"
  },
  {
   "property": "C41",
   "status": "partial",
   "theorems": [
    "Verif.Props.C41_canonical_partial",
    "Verif.Props.C41_text_partial",
    "Verif.Props.C41_out_of_range_partial",
    "Verif.Props.C41_number_partial",
    "Verif.Props.C41_decode",
    "Verif.Props.C41_major",
    "Verif.Props.C41_major_only",
    "Verif.Props.C41_dots",
    "Verif.Props.C41_exact",
    "Verif.Props.C41_round_trip_iff",
    "Verif.Props.C41_refuted"
   ],
   "note": "false of the code for two or more dots, major only, white space, sign and leading zeros; what is sent for every text and exactly which texts come back: C41_exact, C41_round_trip_iff"
  },
  {
   "property": "C42",
   "status": "proved",
   "theorems": [
    "Verif.Props.C42_known",
    "Verif.Props.C42_other",
    "Verif.Props.C42_iff"
   ],
   "note": "C42_iff: exactly the byte strings without NUL that start with a printable 7-bit character come back"
  },
  {
   "property": "C43",
   "status": "partial",
   "theorems": [
    "Verif.Props.C43_never",
    "Verif.Props.C43_charset",
    "Verif.Props.C43_part",
    "Verif.Props.C43_pair",
    "Verif.Props.C43_message",
    "Verif.Props.C43_lost",
    "Verif.Props.C43_partial",
    "Verif.Props.C43_refuted"
   ],
   "note": "False of the code for every content type with parameters: the announced length counts parameters instead of octets. C43_never proves that none is ever read back, C43_lost the same for whole messages, C43_partial that everything but the length is right."
  },
  {
   "property": "C44",
   "status": "partial",
   "theorems": [
    "Verif.Props.C44_partial",
    "Verif.Props.C44_iff",
    "Verif.Props.C44_size",
    "Verif.Props.C44_unknown_type",
    "Verif.Props.C44_quote",
    "Verif.Props.C44_empty",
    "Verif.Props.C44_unicode",
    "Verif.Props.C44_refuted"
   ],
   "note": "False of the code for most message sizes, unknown message types, a leading Quote octet, empty texts and unicode; each failure is characterised; C44_iff says exactly which headers come back."
  },
  {
   "property": "C45",
   "status": "partial",
   "theorems": [
    "Verif.Props.C45_partial",
    "Verif.Props.C45_no_content_type_partial",
    "Verif.Props.C45_order_partial",
    "Verif.Props.C45_version_major",
    "Verif.Props.C45_empty_subject",
    "Verif.Props.C45_header_iff",
    "Verif.Props.C45_refuted"
   ],
   "note": "false of the code for short relative delivery times, versions without minor number, empty encoded strings; all other headers in all orders proved, and C45_header_iff: a conformant header is read as it is meant exactly if it is none of these"
  },
  {
   "property": "C46",
   "status": "partial",
   "theorems": [
    "Verif.Props.C46_partial",
    "Verif.Props.C46_no_value",
    "Verif.Props.C46_quoted",
    "Verif.Props.C46_differences",
    "Verif.Props.C46_location_lost",
    "Verif.Props.C46_parameter_iff",
    "Verif.Props.C46_parameter_read",
    "Verif.Props.C46_quoted_read",
    "Verif.Props.C46_media_iff",
    "Verif.Props.C46_read",
    "Verif.Props.C46_phone_part",
    "Verif.Props.C46_any_order",
    "Verif.Props.C46_any_order_message",
    "Verif.Props.C46_location_first",
    "Verif.Props.C46_differences_read",
    "Verif.Props.C46_differences_message",
    "Verif.Props.C46_differences_main",
    "Verif.Props.C46_refuted"
   ],
   "note": "false of the code for four parameter forms and the well-known part headers; all other bodies proved; C46_parameter_iff and C46_media_iff: exactly which parameters and media types are read as they are meant; C46_read: what whole messages with the other forms are read as (quoted strings with separators in them are left out); C46_any_order: what is read of plain part headers in any order, those after a Content-Location included"
  },
  {
   "property": "C47",
   "status": "partial",
   "theorems": [
    "Verif.Props.C47_partial",
    "Verif.Props.C47_names_partial",
    "Verif.Props.C47_survive_partial",
    "Verif.Props.C47_named_file",
    "Verif.Props.C47_name_plain",
    "Verif.Props.C47_name_stray",
    "Verif.Props.C47_text",
    "Verif.Props.C47_data",
    "Verif.Props.C47_file",
    "Verif.Props.C47_loose",
    "Verif.Props.C47_loose_survive",
    "Verif.Props.C47_location",
    "Verif.Props.C47_refuted"
   ],
   "note": "False of the code: the Content-Location of files is lost and messages with loose data parts cannot be read. Proved for all messages with faithful headers whose slides are made of texts and files."
  },
  {
   "property": "C48",
   "status": "partial",
   "theorems": [
    "Verif.Props.C48_partial",
    "Verif.Props.C48_deleted",
    "Verif.Props.C48_second",
    "Verif.Props.C48_history",
    "Verif.Props.C48_refuted"
   ],
   "note": "False of the code: six headers are deleted; the theorems say what is kept and what every later encoding gives."
  },
  {
   "property": "C49",
   "status": "partial",
   "theorems": [
    "Verif.Props.C49_partial",
    "Verif.Props.C49_bcc",
    "Verif.Props.C49_missing",
    "Verif.Props.C49_unknown",
    "Verif.Props.C49_unknown_octet",
    "Verif.Props.C49_refuted"
   ],
   "note": "False of the code: Bcc is not a recipient, unknown types become m-send-req; proved for To, Cc and for the other types."
  },
  {
   "property": "C50",
   "status": "proved",
   "theorems": [
    "Verif.Props.C50_terminates",
    "Verif.Props.C50_header_consumes",
    "Verif.Props.C50_parameter_consumes",
    "Verif.Props.C50_part_consumes",
    "Verif.Props.C50_headers",
    "Verif.Props.C50_part_headers",
    "Verif.Props.C50_params",
    "Verif.Props.C50_size"
   ],
   "note": "For every octet string. The step budget of the three unbounded loops is proved irrelevant."
  },
  {
   "property": "C51",
   "status": "proved",
   "theorems": [
    "Verif.Props.C51_contract",
    "Verif.Props.C51_sharp",
    "Verif.Props.C51_header",
    "Verif.Props.C51_mms_value",
    "Verif.Props.C51_file"
   ],
   "note": "For every octet string; each of the five exceptions occurs."
  },
  {
   "property": "C52",
   "status": "partial",
   "theorems": [
    "Verif.Props.C52_partial",
    "Verif.Props.C52_refuted"
   ],
   "note": "false of the code from 16 on; the theorem says what is read"
  },
  {
   "property": "C53",
   "status": "partial",
   "theorems": [
    "Verif.Props.C53_refuted",
    "Verif.Props.C53_text_moves",
    "Verif.Props.C53_audio_without_text",
    "Verif.Props.C53_partial",
    "Verif.Props.C53_iff",
    "Verif.Props.C53_exact",
    "Verif.Props.C53_once",
    "Verif.Props.C53_document_partial",
    "Verif.Props.C53_shown_refuted",
    "Verif.Props.C53_shown_partial",
    "Verif.Props.C53_shown_iff"
   ],
   "note": "False for slides with audio and no text (NameError, or another slide's text moves); proved for all other messages, for the par list and the whole document tree. C53_iff: for no others; C53_exact: the par list of any message; C53_once: no text is lost or shown twice. The documented display interval is also false for a begin without an end."
  },
  {
   "property": "C54",
   "status": "proved",
   "theorems": [
    "Verif.Props.C54_accepts",
    "Verif.Props.C54_rejected",
    "Verif.Props.C54_value_error",
    "Verif.Props.C54_history",
    "Verif.Props.C54_text",
    "Verif.Props.C54_file",
    "Verif.Props.C54_none",
    "Verif.Props.C54_clip"
   ],
   "note": "For every argument, file system and call history."
  },
  {
   "property": "C55",
   "status": "partial",
   "theorems": [
    "Verif.Props.C55_refuted",
    "Verif.Props.C55_never",
    "Verif.Props.C55_partial",
    "Verif.Props.C55_received_partial"
   ],
   "note": "False: with any slide data_parts raises AttributeError; proved for messages without slides, including every received message."
  },
  {
   "property": "C56",
   "status": "partial",
   "theorems": [
    "Verif.Props.C56_refuted",
    "Verif.Props.C56_partial",
    "Verif.Props.C56_set_partial"
   ],
   "note": "False when a file changes after it was read; proved for all histories in which files keep their contents, and for data set directly whatever happens to files."
  },
  {
   "property": "C57",
   "status": "partial",
   "theorems": [
    "Verif.Props.C57_extract",
    "Verif.Props.C57_any",
    "Verif.Props.C57_short",
    "Verif.Props.C57_other",
    "Verif.Props.C57_is_push",
    "Verif.Props.C57_type",
    "Verif.Props.C57_uintvar_refuted",
    "Verif.Props.C57_uintvar_partial",
    "Verif.Props.C57_uintvar_long",
    "Verif.Props.C57_is_notification"
   ],
   "note": "For every octet string. The header length is a uintvar in the standard; the code reads one octet, so headers of 128 octets or more are refuted."
  },
  {
   "property": "C58",
   "status": "partial",
   "theorems": [
    "Verif.Props.C58_status_partial",
    "Verif.Props.C58_response_status_partial",
    "Verif.Props.C58_encode_partial",
    "Verif.Props.C58_status_value",
    "Verif.Props.C58_refuted"
   ],
   "note": "false of the code: the fallbacks are numbers when decoding, and encoding fails; the theorems say what happens for every octet and name"
  },
  {
   "property": "C59",
   "status": "partial",
   "theorems": [
    "Verif.Props.C59_refuted",
    "Verif.Props.C59_refuted_parameter",
    "Verif.Props.C59_refuted_accept",
    "Verif.Props.C59_refuted_pragma",
    "Verif.Props.C59_consequence",
    "Verif.Props.C59_partial",
    "Verif.Props.C59_other_partial",
    "Verif.Props.C59_media_partial",
    "Verif.Props.C59_parameter_partial",
    "Verif.Props.C59_accept_partial",
    "Verif.Props.C59_pragma_partial",
    "Verif.Props.C59_mms_header_preview"
   ],
   "note": "The full claim is false for four of the twelve documented primitives (refuted with witnesses and with its visible consequence); proved for the other eight, for 23 undocumented ones, and with exactly what is consumed for the four."
  },
  {
   "property": "C60",
   "status": "partial",
   "theorems": [
    "Verif.Props.C60_text_partial",
    "Verif.Props.C60_text_iff",
    "Verif.Props.C60_uint8",
    "Verif.Props.C60_uintvar",
    "Verif.Props.C60_short_integer",
    "Verif.Props.C60_long_integer",
    "Verif.Props.C60_version_partial",
    "Verif.Props.C60_integer",
    "Verif.Props.C60_value_length",
    "Verif.Props.C60_constrained_encoding_partial",
    "Verif.Props.C60_parameter_partial",
    "Verif.Props.C60_refuted"
   ],
   "note": "false of the code for unicode text above 255; proved for octet text"
  },
  {
   "property": "C61",
   "status": "partial",
   "theorems": [
    "Verif.Props.C61_partial",
    "Verif.Props.C61_set",
    "Verif.Props.C61_set_iff",
    "Verif.Props.C61_octets",
    "Verif.Props.C61_never",
    "Verif.Props.C61_refuted"
   ],
   "note": "False of the code for eleven headers, which can never be encoded; proved for the others; C61_set_iff: exactly which values of which headers keep a message encodable."
  },
  {
   "property": "C62",
   "status": "proved",
   "theorems": [
    "Verif.Props.C62_parameters",
    "Verif.Props.C62_headers",
    "Verif.Props.C62_invalid",
    "Verif.Props.C62_parameter_name",
    "Verif.Props.C62_other_name",
    "Verif.Props.C62_table38",
    "Verif.Props.C62_table39"
   ],
   "note": ""
  },
  {
   "property": "C63",
   "status": "partial",
   "theorems": [
    "Verif.Props.C63_partial",
    "Verif.Props.C63_encode_partial",
    "Verif.Props.C63_refuted",
    "Verif.Props.C63_fourteen",
    "Verif.Props.C63_unassigned"
   ],
   "note": "false of the code for number 14; proved for the others. C63_fourteen: what number 14 is read as and sent for; C63_unassigned: what happens to the numbers that are not registered"
  },
  {
   "property": "C64",
   "status": "partial",
   "theorems": [
    "Verif.Props.C64_partial",
    "Verif.Props.C64_sender_partial",
    "Verif.Props.C64_iff",
    "Verif.Props.C64_refuted"
   ],
   "note": "False of the code only for the coding octets of C33 and the senders of C65 (C64_iff: exactly for these); proved for everything else, and with such a sender everything but the sender is right."
  },
  {
   "property": "C65",
   "status": "partial",
   "theorems": [
    "Verif.Props.C65_numeric_partial",
    "Verif.Props.C65_keypad",
    "Verif.Props.C65_alphanumeric_partial",
    "Verif.Props.C65_trailing",
    "Verif.Props.C65_iff",
    "Verif.Props.C65_refuted",
    "Verif.Props.C65_refuted_star"
   ],
   "note": "False of the code: alphanumeric senders of 7 septets get an additional '@', and '*', '#' are shown as 'a', 'b'. The theorems say what is shown in every case and exactly when it is right."
  },
  {
   "property": "C66",
   "status": "partial",
   "theorems": [
    "Verif.Props.C66_assemble_partial",
    "Verif.Props.C66_push_partial",
    "Verif.Props.C66_notification_partial",
    "Verif.Props.C66_refuted"
   ],
   "note": "False of the code for headers of 128 octets and more and for the exceptions of C33; proved for everything else."
  },
  {
   "property": "C67",
   "status": "partial",
   "theorems": [
    "Verif.Props.C67_encode",
    "Verif.Props.C67_history_partial",
    "Verif.Props.C67_unchanged_partial",
    "Verif.Props.C67_length",
    "Verif.Props.C67_stale",
    "Verif.Props.C67_refuted"
   ],
   "note": "False of the code when a file changes after it was read: the old contents are sent, announced with the new length (C67_length, C67_stale, C67_refuted). Proved while the files are unchanged."
  },
  {
   "property": "C68",
   "status": "partial",
   "theorems": [
    "Verif.Props.C68_partial",
    "Verif.Props.C68_result",
    "Verif.Props.C68_lost",
    "Verif.Props.C68_unwritable",
    "Verif.Props.C68_self",
    "Verif.Props.C68_refuted",
    "Verif.Props.C68_written_refuted"
   ],
   "note": "False of the code: the result is None (C68_result), a failure empties the file (C68_lost), a part read from the same file is sent empty (C68_self). Proved for messages without such a part."
  },
  {
   "property": "C69",
   "status": "partial",
   "theorems": [
    "Verif.Props.C69_partial",
    "Verif.Props.C69_moved_partial",
    "Verif.Props.C69_normal_partial",
    "Verif.Props.C69_text",
    "Verif.Props.C69_control",
    "Verif.Props.C69_newline",
    "Verif.Props.C69_refuted"
   ],
   "note": "False of the code for control characters (no XML document) and line breaks (read as spaces), as the text of a slide is written into an attribute; proved for all other texts against an independent XML reader. C69_moved_partial: also for slides with audio and no text. C69_text: the text that is returned, character by character."
  },
  {
   "property": "C70",
   "status": "proved",
   "theorems": [
    "Verif.Props.C70_layout"
   ],
   "note": "For every message, walk order and random number for which encoding succeeds."
  },
  {
   "property": "C71",
   "status": "partial",
   "theorems": [
    "Verif.Props.C71_constrained_partial",
    "Verif.Props.C71_general_partial",
    "Verif.Props.C71_extension_partial",
    "Verif.Props.C71_swallowed",
    "Verif.Props.C71_end",
    "Verif.Props.C71_range_params",
    "Verif.Props.C71_refuted",
    "Verif.Props.C71_pragma",
    "Verif.Props.C71_any_charset",
    "Verif.Props.C71_headers"
   ],
   "note": "Accept values with parameters or a quality factor are misread, and the long form fails at the end of the data (C71_refuted, C71_end, C71_swallowed, C71_range_params); the octet 128 for any charset is read as \"0\" (C71_any_charset). Pragma values are proved in full."
  },
  {
   "property": "C72",
   "status": "proved",
   "theorems": [
    "Verif.Props.C72_defaults",
    "Verif.Props.C72_validity"
   ],
   "note": ""
  },
  {
   "property": "C73",
   "status": "partial",
   "theorems": [
    "Verif.Props.C73_partial",
    "Verif.Props.C73_parts_partial",
    "Verif.Props.C73_headers",
    "Verif.Props.C73_body_partial",
    "Verif.Props.C73_no_body",
    "Verif.Props.C73_iff",
    "Verif.Props.C73_between",
    "Verif.Props.C73_application",
    "Verif.Props.C73_first_octet",
    "Verif.Props.C73_inside",
    "Verif.Props.C73_content_type",
    "Verif.Props.C73_count",
    "Verif.Props.C73_refuted"
   ],
   "note": "False of the code: a message cut after its headers is accepted without parts (C73_no_body, C73_refuted). Proved: whatever decodes with parts decodes the same with any octets after it, and a conformant message cut anywhere either raises or has no parts. C73_iff: exactly which cuts are accepted; the theorems for each kind of cut say what is shown or raised."
  },
  {
   "property": "C74",
   "status": "partial",
   "theorems": [
    "Verif.Props.C74_shown_partial",
    "Verif.Props.C74_header_partial",
    "Verif.Props.C74_text_iff",
    "Verif.Props.C74_header_iff",
    "Verif.Props.C74_report_iff",
    "Verif.Props.C74_binary",
    "Verif.Props.C74_refuted"
   ],
   "note": "False of the code: a message cut inside its user data is accepted (C74_refuted, C74_binary). Proved: a cut before the user data raises, and of any accepted cut everything but text and user data header is unchanged, the text being a beginning of the whole text (or a beginning and a no-break space where an escape sequence is split). C74_text_iff, C74_header_iff and C74_report_iff say exactly which cuts are accepted: without user data header, with one, and of a status report."
  },
  {
   "property": "C75",
   "status": "partial",
   "theorems": [
    "Verif.Props.C75_partial",
    "Verif.Props.C75_contents",
    "Verif.Props.C75_unreadable",
    "Verif.Props.C75_unsendable",
    "Verif.Props.C75_charset",
    "Verif.Props.C75_parameters",
    "Verif.Props.C75_refuted"
   ],
   "note": "False of the code: nothing of the parts is sent (C75_contents), what is sent cannot be decoded (C75_unreadable), and a message with a Date, as all retrieved messages have, cannot be encoded (C75_unsendable); a content type with parameters cannot be encoded (C75_charset) or is not read back (C75_parameters). Proved for messages without parts."
  },
  {
   "property": "C76",
   "status": "proved",
   "theorems": [
    "Verif.Props.C76_entries",
    "Verif.Props.C76_verbatim"
   ],
   "note": ""
  },
  {
   "property": "C77",
   "status": "proved",
   "theorems": [
    "Verif.Props.C77_last",
    "Verif.Props.C77_refused",
    "Verif.Props.C77_order"
   ],
   "note": "Between assignments to_pdu is not called; what changes then is C24."
  },
  {
   "property": "C78",
   "status": "proved",
   "theorems": [
    "Verif.Props.C78_encode",
    "Verif.Props.C78_others",
    "Verif.Props.C78_order",
    "Verif.Props.C78_reach",
    "Verif.Props.C78_slide",
    "Verif.Props.C78_slide_elsewhere",
    "Verif.Props.C78_part",
    "Verif.Props.C78_addPage",
    "Verif.Props.C78_addDataPart",
    "Verif.Props.C78_setHeader",
    "Verif.Props.C78_assign",
    "Verif.Props.C78_smil",
    "Verif.Props.C78_new",
    "Verif.Props.C78_newFromFile"
   ],
   "note": "Dictionaries (headers, parameters) are not shared in the model. Encoding the same message again is C48, files that change in between C67."
  },
  {
   "property": "C79",
   "status": "partial",
   "theorems": [
    "Verif.Props.C79_partial",
    "Verif.Props.C79_twice_partial",
    "Verif.Props.C79_refuted"
   ],
   "note": "False of the code: every new object uses the same concatenation reference (C35), so that two long messages from one sender with the same number of parts cannot be told apart (C79_refuted). Proved when no other message in the inbox has the same sender, reference and number of parts; with a part missing nothing is assembled. C79_twice_partial: parts that arrive several times."
  },
  {
   "property": "C80",
   "status": "proved",
   "theorems": [
    "Verif.Props.C80_new",
    "Verif.Props.C80_data",
    "Verif.Props.C80_text",
    "Verif.Props.C80_file",
    "Verif.Props.C80_missing",
    "Verif.Props.C80_content_type"
   ],
   "note": ""
  },
  {
   "property": "C81",
   "status": "proved",
   "theorems": [
    "Verif.Props.C81_accepts",
    "Verif.Props.C81_failed",
    "Verif.Props.C81_parts",
    "Verif.Props.C81_header",
    "Verif.Props.C81_pages",
    "Verif.Props.C81_refused"
   ],
   "note": "That slides are kept in order needs the Content-Type header to keep a first item (C81_pages); otherwise add_page raises and the slide is not added (C81_accepts, C81_failed)."
  },
  {
   "property": "C82",
   "status": "proved",
   "theorems": [
    "Verif.Props.C82_arrives",
    "Verif.Props.C82_headers",
    "Verif.Props.C82_refused",
    "Verif.Props.C82_amounts"
   ],
   "note": "The restrictions on headers and names are needed (C44, C47). That the presentation is readable needs texts and names without control characters (C69)."
  },
  {
   "property": "C83",
   "status": "proved",
   "theorems": [
    "Verif.Props.C83_strings",
    "Verif.Props.C83_octets",
    "Verif.Props.C83_accepted"
   ],
   "note": "For every str: C83_strings; that the result depends only on the octets that are spelt: C83_octets."
  },
  {
   "property": "C84",
   "status": "partial",
   "theorems": [
    "Verif.Props.C84_kept_partial",
    "Verif.Props.C84_last",
    "Verif.Props.C84_mixed",
    "Verif.Props.C84_shortened",
    "Verif.Props.C84_centre",
    "Verif.Props.C84_refuted"
   ],
   "note": "False of the code: fields are set one after the other while decoding, so that after a failure an object may show the sender and the date of the new message with the text of the old one (C84_mixed, C84_refuted), or a number that nobody has, if the new one is cut inside it (C84_shortened, C84_centre). Proved: text, status report and type are kept, so that after any sequence of assignments the text is that of the last string that could be decoded."
  },
  {
   "property": "C85",
   "status": "proved",
   "theorems": [
    "Verif.Props.C85_flags",
    "Verif.Props.C85_plan",
    "Verif.Props.C85_plan_smsc",
    "Verif.Props.C85_fill",
    "Verif.Props.C85_report"
   ],
   "note": ""
  },
  {
   "property": "C86",
   "status": "partial",
   "theorems": [
    "Verif.Props.C86_kept_partial",
    "Verif.Props.C86_exact",
    "Verif.Props.C86_refused",
    "Verif.Props.C86_refuted",
    "Verif.Props.C86_pragma"
   ],
   "note": "false for the names whose WSP number is the number of an MMS field, for Pragma, and for Accept values that are no media types; C86_exact says for which names it holds. Whole messages with such parts: C47_partial, C47_names_partial (PlainPart allows these headers)."
  },
  {
   "property": "C87",
   "status": "partial",
   "theorems": [
    "Verif.Props.C87_id_location_partial",
    "Verif.Props.C87_id_partial",
    "Verif.Props.C87_location_id_partial",
    "Verif.Props.C87_location_partial",
    "Verif.Props.C87_disposition_partial",
    "Verif.Props.C87_split_partial",
    "Verif.Props.C87_refuted"
   ],
   "note": "content type and data are right, but the labels are not found under their names: what is read instead is stated exactly for each layout"
  },
  {
   "property": "C88",
   "status": "partial",
   "theorems": [
    "Verif.Props.C88_exact",
    "Verif.Props.C88_sendable",
    "Verif.Props.C88_field_name",
    "Verif.Props.C88_message",
    "Verif.Props.C88_encode_error_partial",
    "Verif.Props.C88_refuted"
   ],
   "note": "which headers are refused, and with which exception, is exact (C88_exact), also for whole messages (C88_message); that it is always EncodeError is false (AttributeError, TypeError, OverflowError). Byte strings are assumed to hold bytes."
  },
  {
   "property": "C89",
   "status": "proved",
   "theorems": [
    "Verif.Props.C89_exact",
    "Verif.Props.C89_sent"
   ],
   "note": "an Object holds what the attribute checks let through (accepted numbers, classes 0 to 3, real dates); texts of any length, too long ones said by the divisions they have"
  },
  {
   "property": "C90",
   "status": "proved",
   "theorems": [
    "Verif.Props.C90_injective"
   ],
   "note": "what cannot be expressed in a PDU is spelled out in Spec/Same"
  },
  {
   "property": "C91",
   "status": "partial",
   "theorems": [
    "Verif.Props.C91_accepted",
    "Verif.Props.C91_sent",
    "Verif.Props.C91_partial",
    "Verif.Props.C91_centre",
    "Verif.Props.C91_name",
    "Verif.Props.C91_refuted"
   ],
   "note": "the type of the number is reduced to international or unknown: a reply to a national number goes to the same digits with another type (C91_refuted); C91_sent says exactly where it goes"
  },
  {
   "property": "C92",
   "status": "proved",
   "theorems": [
    "Verif.Props.C92_forward"
   ],
   "note": "for messages that are read right, as in C64"
  },
  {
   "property": "C93",
   "status": "partial",
   "theorems": [
    "Verif.Props.C93_partial",
    "Verif.Props.C93_attained",
    "Verif.Props.C93_automatic",
    "Verif.Props.C93_refuted"
   ],
   "note": "false for UCS2 texts with the character ESC (U+001B), where a full part that would end with it is cut one character short (C93_refuted); proved, with the exact minimum, among all ways to send the text in which no full part ends with ESC"
  },
  {
   "property": "C94",
   "status": "proved",
   "theorems": [
    "Verif.Props.C94_monotone"
   ],
   "note": "for texts that can be sent in the sense of C10 (8-bit data in one message)"
  },
  {
   "property": "C95",
   "status": "partial",
   "theorems": [
    "Verif.Props.C95_partial",
    "Verif.Props.C95_determined_partial",
    "Verif.Props.C95_slides_partial",
    "Verif.Props.C95_refuted"
   ],
   "note": "the contents of loose data parts are not sent (C95_refuted), their number is; message headers that come back (C44_iff), parts with any headers that are written down"
  },
  {
   "property": "C96",
   "status": "partial",
   "theorems": [
    "Verif.Props.C96_last",
    "Verif.Props.C96_partial",
    "Verif.Props.C96_refuted"
   ],
   "note": "only the last header of each name is kept; C96_partial says exactly when nobody is lost"
  },
  {
   "property": "C97",
   "status": "proved",
   "theorems": [
    "Verif.Props.C97_exact",
    "Verif.Props.C97_message",
    "Verif.Props.C97_plain",
    "Verif.Props.C97_shape",
    "Verif.Props.C97_pair",
    "Verif.Props.C97_other_exceptions"
   ],
   "note": "exact for every content type; EncodeError is not the only exception (C97_other_exceptions)"
  },
  {
   "property": "C98",
   "status": "proved",
   "theorems": [
    "Verif.Props.C98_exact",
    "Verif.Props.C98_same",
    "Verif.Props.C98_agrees",
    "Verif.Props.C98_message",
    "Verif.Props.C98_beyond",
    "Verif.Props.C98_unsent",
    "Verif.Props.C98_sent"
   ],
   "note": "exact for labels of any type; a unicode label and octets that are not ASCII do not go together (UnicodeError)"
  },
  {
   "property": "C99",
   "status": "partial",
   "theorems": [
    "Verif.Props.C99_exact",
    "Verif.Props.C99_kind",
    "Verif.Props.C99_version",
    "Verif.Props.C99_partial",
    "Verif.Props.C99_newer",
    "Verif.Props.C99_refuted"
   ],
   "note": "C99_exact gives the octets or the exception in each version (Type as float or date from 1.2 on in C99_kind, where the text is left open); reading back (C99_full) is false for numbers from 12 on (C99_refuted, C99_newer), C99_partial is the part that holds"
  }
 ]
}