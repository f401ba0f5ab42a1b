# Formal model of python-messaging in Lean 4

## Approach

* `lean/Verif/Model/*` - executable, total Lean transcription of `/repo/messaging`, function by function;
  every definition cites file and lines. Python exceptions are values (`PyErr`).
* `lean/Verif/Spec/*` - small independent specifications (bit streams, TS 23.040 field parser, conformant WSP and MMS
  encoders, calendar, list with a cursor, ...). They do not use the model's helpers; they share with the model only the
  types of the values a caller sees (header values, messages, PDUs) and the literal macro.
* `lean/Verif/Proofs/*` - lemmas.  `lean/Verif/Props/*` - the property theorems, with `example`s that show that a
  concrete case meets the hypotheses.
* `lean/Verif/Model/Sanity.lean`, `Sanity2.lean` - the model evaluated on the inputs of `/repo/messaging/test`, with the
  expected values written there: all tests of SMS, user data headers, the GSM alphabet and WAP push, and the MMS tests
  with files up to 3000 octets. These are tests of the transcription, not part of any claim. The larger MMS files were
  evaluated once outside the build; all of them give the headers, content types and data the tests expect.
* Properties that are false of the code get the full statement (`Cnn_full`), a theorem refuting it with a concrete
  witness (`Cnn_refuted`), and `_partial` theorems for the part that holds. Wherever possible the partial theorem says
  exactly what happens in the remaining cases as well.
* Unbounded loops of the code (`while True`) are modelled with a step budget computed from the length of the input. The
  budget is proved irrelevant: `PyErr.diverge`, which the model returns when it runs out, never occurs (C50).

## Trusted base

1. Lean 4.33.0: its kernel and the three standard axioms `propext`, `Classical.choice`, `Quot.sound` (list at the end).
   No own axioms, no `sorry`, no `native_decide`, no `bv_decide`, no `implemented_by`, no `unsafe`. Whole finite tables are
   checked by `decide +kernel`, that is, by the kernel.
2. That the model says what the code does. Each definition follows the cited lines branch by branch, but nothing checks
   this mechanically: the code cannot be run here. The assumptions made in reading it are below.
3. That the specifications say what the standards say (3GPP TS 23.038, 23.040; OMA WAP-230-WSP; OMA MMS encapsulation).
   They were written from knowledge of the standards, not from the code.

### Assumptions on Python

* Python 2 (the code uses `str` as bytes, `unichr`, `dict.iteritems`, `raise X, y`), a wide (UCS4) 64-bit build on POSIX.
  `str` is a list of octets, `unicode` a list of code points; both are `List Nat`, with a flag where it matters (`PyStr`).
  `Model/Narrow` has what is different in sending short messages on a narrow build (C104).
* PDUs to decode are `str`; `Model/UniPdu` has the constructor for `unicode` objects, the character tables being a parameter.
* An `int` is a number in the 64-bit range, other integers are `long`. Small values of type `long` are not modelled.
* Dictionaries keep insertion order in the model. Where the code iterates over a dictionary the order is a parameter
  (`ord`), any function that permutes; theorems hold for all of them.
* `random.randint` (transaction ids) is a parameter as well.
* Floating point numbers are exact fractions, without rounding.
* The environment of a message is `Env`: the contents of the regular files (a function from names to contents) and
  `mimetypes.guess_type`. Both are arbitrary.
* Codecs are looked up as in `Python/codecs.c` of Python 2.7 (`Model/Codecs`): list of search functions, cache of successes.
* Date arithmetic follows the proleptic Gregorian calendar of `datetime`, years 1 to 9999; microseconds of dates are not
  modelled (durations have them).

### Simplifications

They are marked `Simplified:` in the comments of the definitions.

* Slides and parts are values in most of the model. `Model/Heap` has them as objects that may be shared and changed later;
  C78 proves that this makes no difference to what is encoded. Dictionaries are values as well; `Model/Dicts` has those of
  parts and messages as objects, and C100 proves that they behave as values unless a program hands one over twice.
* `Model/MmsPdu` and `Model/Message` compute what is sent; that reading a file also stores its contents in the part is
  in `Model/Cache`, and C67 relates the two.
* `str()` of floats, datetimes and tuples in `encode_extension_media` is an arbitrary printable text (`strOther`, an
  `opaque` function: theorems hold whatever it is).
* Two models of `smil()`: in `Model/Message.lean` labels (Content-Location, Content-ID) that are no strings make it fail at
  once and `unicode` ones are not modelled, nor `unicode` data; `Model/SmilExact.lean` has labels of any type, data of
  both string types and the order of the errors.
  C98_agrees and C98_sent: they agree whenever the simpler one succeeds; C98_exact: the exceptions of the other.
* `Env`: file names have no NUL octets (Python raises TypeError for those), and every regular file can be read
  and stays as it is during a call. `Model/Changing` has neither restriction for `encode` and `from_file` (C111, C112).
* `toFile`: a file has one name (no links), and writing does not fail once the file is open. `Model/Links` has neither
  restriction (C113).
* The hexadecimal unpacker is defined on hexadecimal digits only, which is all the library passes.

### Not modelled

* `messaging/test`, packaging, documentation.
* `debug` and the log output of the library; `bytes_to_str` (the identity on Python 2).
* Texts that are neither `str` nor `unicode`; attributes set to values of other types than documented, except where a
  property is about that (C18, C54).

## Testing the theorems

The model was edited as a realistic bug would change it, and rebuilt; `seeded/LOG.jsonl` has one line per edit.
`theorems_failed` are the declarations at which the build reported an error, often a helper lemma. `claims_depending`
are claim theorems that use one of them. The build stopped there, so those claims were not themselves seen to fail: a
broken helper proof shows that the proof of the claim no longer goes through as written, not that the claim is false of
the edited program. Most entries are of this kind (1443 of 1746). Only an entry with a claim theorem (`C..`) in `theorems_failed` saw a
claim's own proof fail, and even that does not show that the statement is unprovable. `status` also tells the edits
after which the model itself did not compile (`model did not compile`); these test nothing. Edits that no theorem
noticed led to stronger theorems (`theorems_tightened`) or are marked as equivalent programs.

## Functions of /repo/messaging and their models

Generated from the citations in the comments of the model. Lambda and nested functions belong to the function that contains them.


### utils.py

| function | line | definitions in `lean/Verif/Model` |
|---|---|---|
| `FixedOffset.__init__` | 10 | `Utils.fromTimezone`, `Utils.FixedOffset`, `Utils.from_` |
| `FixedOffset.from_timezone` | 19 | `Utils.fromTimezone`, `Utils.from_` |
| `FixedOffset.utcoffset` | 37 | `Utils.utcoffset` |
| `FixedOffset.tzname` | 40 | `Utils.tzname` |
| `FixedOffset.dst` | 43 | `Utils.dst` |
| `bytes_to_str` | 47 | `Utils.pack7` |
| `to_array` | 54 | `UniPdu.encodeDecimalChar`, `UniPdu.encodeDecimal`, `UniPdu.pyInt16U`, `UniPdu.parseHexPairsU`, `UniPdu.toArrayU`, `Utils.parseHexPairs`, `Utils.toArray` |
| `to_bytes` | 58 | `Utils.unpackMsg2` |
| `debug` | 65 | not modelled |
| `swap` | 71 | `Utils.swapPairs` |
| `swap_number` | 80 | `Utils.swapNumber` |
| `clean_number` | 85 | `Utils.cleanNumber` |
| `encode_str` | 89 | `Utils.encodeStr` |
| `encode_bytes` | 94 | `Utils.encodeStr` |
| `pack_8bits_to_7bits` | 98 | `Utils.packLoop`, `Utils.overwrite`, `Utils.pack7` |
| `pack_8bits_to_8bit` | 147 | `Utils.pack8` |
| `pack_8bits_to_ucs2` | 157 | `Utils.ucs2Bytes`, `Utils.packUcs2` |
| `unpack_msg` | 173 | `Utils.unpackLoop`, `Utils.unpackHexLoop`, `Utils.unpackMsg` |
| `unpack_msg2` | 198 | `Utils.unpackLoop`, `Utils.unpackMsg2` |
| `timedelta_to_relative_validity` | 222 | `Utils.relativeValidity` |
| `datetime_to_absolute_validity` | 253 | `Utils.absoluteValidity` |

### mms/iterator.py

| function | line | definitions in `lean/Verif/Model` |
|---|---|---|
| `PreviewIterator.__init__` | 30 | `Iter.PIter`, `Iter.new`, `Iter.It`, `Iter.It.new` |
| `PreviewIterator.__iter__` | 35 | `Iter.It` |
| `PreviewIterator.next` | 38 | `Iter.next`, `Iter.It` |
| `PreviewIterator.preview` | 45 | `Iter.preview`, `Iter.It` |
| `PreviewIterator.reset_preview` | 70 | `Iter.resetPreview`, `Iter.It` |

### mms/message.py

| function | line | definitions in `lean/Verif/Model` |
|---|---|---|
| `MMSMessage.__init__` | 30 | `Accessors.Msg.setHeader`, `DictSteps.stepD`, `Dicts.Store`, `Dicts.newMsgD`, `Heap.MsgObj`, `Heap.newMsg`, `Message.Msg`, `Message.new`, `...` |
| `MMSMessage.content_type` | 47 | `DictSteps.stepD`, `Message.contentType`, `WspTables.HVal.first` |
| `MMSMessage.add_page` | 59 | `Accessors.Msg.getPages`, `DictSteps.stepMsg`, `DictSteps.stepD`, `Dicts.addPageD`, `Heap.addPageH`, `Message.addPage` |
| `MMSMessage.pages` | 73 | `Accessors.Msg.getPages` |
| `MMSMessage.add_data_part` | 77 | `Changing.decodeFileT`, `Coders.partLoopO`, `Heap.addDataPartH`, `Message.addDataPart`, `Message.allDataParts` |
| `MMSMessage.data_parts` | 93 | `Message.allDataParts` |
| `MMSMessage.smil` | 107 | `Cache.srcOfC`, `Cache.smilImageC`, `Cache.smilTextC`, `Cache.smilPageC`, `Cache.smilC`, `Changing.srcOfT`, `Changing.smilImageT`, `Changing.smilTextT`, `...` |
| `MMSMessage.encode` | 212 | `Cache.encodeC`, `Changing.encodeT`, `Heap.encodeH`, `MmsPdu.encode`, `SmilExact.encodeU` |
| `MMSMessage.to_file` | 225 | `Cache.toFile`, `Links.FileSys.openW`, `Links.toFileL` |
| `MMSMessage.from_data` | 241 | `DictSteps.stepD`, `DictSteps.received`, `Dicts.receiveD`, `MmsPdu.decodeData` |
| `MMSMessage.from_file` | 255 | `Changing.decodeFileT`, `MmsPdu.decodeFile` |
| `MMSMessagePage.__init__` | 280 | `Heap.PageObj`, `Heap.newPage`, `Message.Page`, `Message.new`, `Message.dataParts` |
| `MMSMessagePage.data_parts` | 287 | `Message.Page`, `Message.dataParts` |
| `MMSMessagePage.number_of_parts` | 292 | `Message.Page`, `Message.numberOfParts` |
| `MMSMessagePage.add_image` | 307 | `Heap.addImageH`, `Message.Page`, `Message.fileSlot`, `Message.addImage` |
| `MMSMessagePage.add_audio` | 343 | `Heap.addAudioH`, `Message.Page`, `Message.fileSlot`, `Message.addAudio` |
| `MMSMessagePage.add_text` | 379 | `Heap.addTextH`, `Message.Page`, `Message.textSlot`, `Message.addText` |
| `MMSMessagePage.set_duration` | 413 | `Heap.setDurationH`, `Message.Page`, `Message.setDuration` |
| `DataPart.__init__` | 447 | `DictSteps.stepPart`, `DictSteps.stepD`, `Dicts.PartRef`, `Dicts.newPartD`, `Dicts.newPartFileD`, `Dicts.setCtParamD`, `Heap.newPart`, `Heap.newPartFromFile`, `...` |
| `DataPart._get_content_type` | 462 | `Accessors.DataPart.contentType`, `DictSteps.stepPart`, `DictSteps.stepD`, `Message.DataPart` |
| `DataPart._set_content_type` | 472 | `Accessors.DataPart.setContentType`, `DictSteps.stepPart`, `DictSteps.stepD`, `Dicts.setContentTypeD`, `Message.DataPart` |
| `DataPart.from_file` | 478 | `DictSteps.stepPart`, `DictSteps.stepD`, `Dicts.fromFileD`, `Message.Env`, `Message.DataPart`, `Message.fromFile` |
| `DataPart.set_data` | 501 | `DictSteps.stepPart`, `DictSteps.stepD`, `Dicts.setDataWith`, `Dicts.setDataD`, `Message.DataPart`, `Message.setData` |
| `DataPart.set_text` | 523 | `DictSteps.stepPart`, `DictSteps.stepD`, `Dicts.setTextD`, `Message.DataPart`, `Message.setText` |
| `DataPart.__len__` | 535 | `Changing.lenT`, `Message.DataPart`, `Message.len` |
| `DataPart.data` | 543 | `Changing.getDataT`, `Message.DataPart`, `Message.readData`, `Message.getData`, `SmilExact.readTyped` |

### mms/mms_pdu.py

| function | line | definitions in `lean/Verif/Model` |
|---|---|---|
| `flatten_list` | 24 | `MmsPdu.MType`, `MmsPdu.mmsFieldNames`, `MmsPdu.flattenList` |
| `MMSDecoder.__init__` | 66 | `Coders.Coders`, `Coders.newDecoder` |
| `MMSDecoder.decode_file` | 76 | `Changing.decodeFileT`, `Coders.decodeFileO`, `MmsPdu.decodeFile` |
| `MMSDecoder.decode_data` | 96 | `Coders.decodeDataO`, `Dicts.decodeDataT`, `MmsPdu.decodeData` |
| `MMSDecoder.decode_message_header` | 112 | `Coders.headerLoopO`, `Coders.headerO`, `MmsPdu.headerLoop`, `MmsPdu.decodeMessageHeader` |
| `MMSDecoder.decode_message_body` | 155 | `Coders.partLoopO`, `Coders.bodyO`, `Dicts.partHeaderLoopT`, `Dicts.partHeadersT`, `Dicts.decodePartT`, `Dicts.partLoopT`, `Dicts.decodeMessageBodyT`, `Dicts.addReceived`, `...` |
| `MMSDecoder.decode_header` | 214 | `MmsPdu.decodeHeader` |
| `MMSDecoder.decode_mms_header` | 245 | `MmsPdu.decodeMmsValue`, `MmsPdu.wrapFatal`, `MmsPdu.decodeMmsHeader` |
| `MMSDecoder.decode_encoded_string_value` | 295 | `MmsPdu.decodeEncodedStringValue` |
| `MMSDecoder.decode_boolean_value` | 329 | `MmsPdu.decodeBooleanValue` |
| `MMSDecoder.decode_delivery_time_value` | 357 | `MmsPdu.decodeDeliveryTimeValue` |
| `MMSDecoder.decode_from_value` | 371 | `MmsPdu.decodeFromValue` |
| `MMSDecoder.decode_message_class_value` | 393 | `MmsPdu.classIdentifiers`, `MmsPdu.decodeMessageClassValue` |
| `MMSDecoder.decode_message_type_value` | 426 | `MmsPdu.messageTypes`, `MmsPdu.decodeMessageTypeValue` |
| `MMSDecoder.decode_priority_value` | 454 | `MmsPdu.priorities`, `MmsPdu.decodePriorityValue` |
| `MMSDecoder.decode_sender_visibility_value` | 478 | `MmsPdu.decodeSenderVisibilityValue` |
| `MMSDecoder.decode_response_status_value` | 506 | `MmsPdu.responseStatusValues`, `MmsPdu.decodeResponseStatusValue` |
| `MMSDecoder.decode_status_value` | 537 | `MmsPdu.statusValues`, `MmsPdu.decodeStatusValue` |
| `MMSDecoder.decode_expiry_value` | 563 | `MmsPdu.decodeExpiryValue` |
| `MMSEncoder.__init__` | 592 | `Coders.newEncoder` |
| `MMSEncoder.encode` | 595 | `Cache.encodeC`, `Changing.encodeT`, `Coders.encodeO`, `Heap.encodeH`, `MmsPdu.encode`, `SmilExact.encodeU`, `SmilExact.encodeX` |
| `MMSEncoder.encode_message_header` | 610 | `Heap.encodeMessageHeaderH`, `MmsPdu.renameHeader`, `MmsPdu.chooseMessageType`, `MmsPdu.prepareHeaders`, `MmsPdu.encodeAndDelete`, `MmsPdu.encodeRest`, `MmsPdu.encodeCtHeader`, `MmsPdu.encodeMessageHeader`, `...` |
| `MMSEncoder.encode_message_body` | 705 | `Cache.encodePartC`, `Cache.encodeSlotC`, `Cache.encodePageC`, `Cache.encodeMessageBodyC`, `Changing.encodePartT`, `Changing.encodeSlotT`, `Changing.encodePageT`, `Changing.encodeMessageBodyT`, `...` |
| `MMSEncoder.encode_header` | 808 | `MmsPdu.encodeMmsValue`, `MmsPdu.encodeHeader` |
| `MMSEncoder.encode_mms_field_name` | 869 | `MmsPdu.encodeMmsFieldName` |
| `MMSEncoder.encode_from_value` | 901 | `MmsPdu.encodeFromValue` |
| `MMSEncoder.encode_encoded_string_value` | 937 | `MmsPdu.encodeEncodedStringValue` |
| `MMSEncoder.encode_message_type_value` | 958 | `MmsPdu.messageTypes`, `MmsPdu.encodeMessageTypeValue` |
| `MMSEncoder.encode_status_value` | 986 | `MmsPdu.statusValues`, `MmsPdu.encodeStatusValue` |

### mms/wsp_pdu.py

| function | line | definitions in `lean/Verif/Model` |
|---|---|---|
| `get_header_field_names` | 224 | `WspTables.versionMinor`, `WspTables.getHeaderFieldNames` |
| `get_well_known_parameters` | 257 | `Py.PyErr`, `WspTables.versionMinor`, `WspTables.delRange`, `WspTables.getWellKnownParameters` |
| `Decoder.decode_uint_8` | 320 | `WspDec.decodeUint8` |
| `Decoder.decode_uint_var` | 337 | `WspDec.uintVarLoop`, `WspDec.decodeUintVar` |
| `Decoder.decode_short_integer` | 367 | `WspDec.decodeShortInteger` |
| `Decoder.decode_short_integer_from_byte` | 395 | `WspDec.decodeShortIntegerFromByte` |
| `Decoder.decode_long_integer` | 412 | `WspDec.longIntLoop`, `WspDec.decodeLongInteger` |
| `Decoder.decode_text_string` | 457 | `WspDec.textLoop`, `WspDec.decodeTextString` |
| `Decoder.decode_quoted_string` | 489 | `WspDec.decodeQuotedString` |
| `Decoder.decode_token_text` | 514 | `WspDec.tokenLoop`, `WspDec.decodeTokenText`, `WspTables.separators` |
| `Decoder.decode_extension_media` | 539 | `WspDec.textLoop`, `WspDec.decodeExtensionMedia` |
| `Decoder.decode_constrained_encoding` | 572 | `WspDec.decodeConstrainedEncoding` |
| `Decoder.decode_short_length` | 596 | `WspDec.decodeShortLength` |
| `Decoder.decode_value_length` | 620 | `WspDec.decodeValueLength` |
| `Decoder.decode_integer_value` | 659 | `WspDec.decodeIntegerValue` |
| `Decoder.decode_content_type_value` | 692 | `WspDec.decodeContentTypeValue` |
| `Decoder.decode_well_known_media` | 725 | `WspDec.mediaName`, `WspDec.decodeWellKnownMedia` |
| `Decoder.decode_media_type` | 768 | `WspDec.decodeMediaType` |
| `Decoder.decode_constrained_media` | 790 | `WspDec.mediaName`, `WspDec.decodeConstrainedMedia` |
| `Decoder.decode_content_general_form` | 820 | `WspDec.nextN`, `WspDec.paramLoop`, `WspDec.onFresh`, `WspDec.generalFormInner`, `WspDec.decodeContentGeneralForm` |
| `Decoder.decode_parameter` | 864 | `WspDec.decodeParameter` |
| `Decoder.decode_typed_parameter` | 880 | `WspDec.decodeTyped`, `WspDec.decodeTypedParameter` |
| `Decoder.decode_untyped_parameter` | 911 | `WspDec.decodeUntypedParameter` |
| `Decoder.decode_untyped_value` | 933 | `WspDec.decodeUntypedValue` |
| `Decoder.decode_well_known_parameter` | 953 | `WspDec.decodeWellKnownParameter` |
| `Decoder.decode_typed_value` | 1004 | `WspDec.decodeTypedValue` |
| `Decoder.decode_compact_value` | 1034 | `WspDec.decodeCompactValue` |
| `Decoder.decode_date_value` | 1067 | `WspDec.decodeDateValue` |
| `Decoder.decode_delta_seconds_value` | 1086 | `WspDec.decodeDeltaSecondsValue` |
| `Decoder.decode_q_value` | 1102 | `WspDec.decodeQValue` |
| `Decoder.decode_version_value` | 1125 | `WspDec.decodeVersionValue` |
| `Decoder.decode_uri_value` | 1146 | `WspDec.decodeUriValue` |
| `Decoder.decode_text_value` | 1153 | `WspDec.decodeTextValue` |
| `Decoder.decode_no_value` | 1177 | `WspDec.decodeNoValue` |
| `Decoder.decode_accept_value` | 1197 | `WspDec.acceptTail`, `WspDec.decodeAcceptValue` |
| `Decoder.decode_pragma_value` | 1243 | `WspDec.decodePragmaValue` |
| `Decoder.decode_well_known_charset` | 1274 | `WspDec.decodeWellKnownCharset` |
| `Decoder.decode_well_known_header` | 1303 | `WspDec.decodeWapValue`, `WspDec.decodeWellKnownHeader` |
| `Decoder.decode_application_header` | 1350 | `WspDec.decodeApplicationHeader` |
| `Decoder.decode_header` | 1378 | `WspDec.decodeWspHeader` |
| `Encoder.encode_uint_8` | 1409 | `WspEnc.encodeUint8` |
| `Encoder.encode_uint_var` | 1423 | `WspEnc.uintVarEncLoop`, `WspEnc.encodeUintVar` |
| `Encoder.encode_text_string` | 1455 | `WspEnc.encodeTextString`, `WspEnc.encodeTextStringH` |
| `Encoder.encode_short_integer` | 1473 | `WspEnc.encodeShortInteger`, `WspEnc.encodeShortIntegerV` |
| `Encoder.encode_long_integer` | 1502 | `WspEnc.longIntEncLoop`, `WspEnc.encodeLongInteger`, `WspEnc.encodeLongIntegerV` |
| `Encoder.encode_version_value` | 1543 | `WspEnc.versionTry`, `WspEnc.encodeVersionValue` |
| `Encoder.encode_media_type` | 1591 | `WspEnc.encodeMediaType` |
| `Encoder.encode_parameter` | 1619 | `WspEnc.encodeTyped`, `WspEnc.findParam`, `WspEnc.encodeParameter` |
| `Encoder.encode_token_text` | 1693 | `WspEnc.encodeTokenText` |
| `Encoder.encode_integer_value` | 1713 | `WspEnc.encodeIntegerValue` |
| `Encoder.encode_text_value` | 1741 | `WspEnc.encodeTextValue` |
| `Encoder.encode_no_value` | 1746 | `WspEnc.encodeNoValue` |
| `Encoder.encode_header` | 1763 | `WspEnc.encodeWapValue`, `WspEnc.encodeWspHeader` |
| `Encoder.encode_content_type_value` | 1814 | `WspEnc.encodeContentTypeValue` |
| `Encoder.encode_constrained_media` | 1842 | `WspEnc.encodeConstrainedMedia` |
| `Encoder.encode_constrained_encoding` | 1869 | `WspEnc.encodeConstrainedEncoding` |
| `Encoder.encode_extension_media` | 1903 | `WspEnc.encodeExtensionMedia`, `WspEnc.encodeConstrainedEncoding`, `WspTables.HVal.first` |
| `Encoder.encode_content_general_form` | 1937 | `WspEnc.encodeParameters`, `WspEnc.encodeContentGeneralForm` |
| `Encoder.encode_value_length` | 1967 | `WspEnc.encodeValueLength` |
| `Encoder.encode_short_length` | 1999 | `WspEnc.encodeShortLength` |
| `Encoder.encode_accept_value` | 2018 | `WspEnc.encodeAcceptGeneral`, `WspEnc.encodeAcceptValue` |

### sms/base.py

| function | line | definitions in `lean/Verif/Model` |
|---|---|---|
| `SmsBase.__init__` | 6 | `Submit.init` |

### sms/deliver.py

| function | line | definitions in `lean/Verif/Model` |
|---|---|---|
| `SmsDeliver.__init__` | 16 | `Deliver.State`, `Deliver.State.fresh`, `Deliver.smsDeliver`, `Deliver.Data`, `Deliver.data`, `UniPdu.smsDeliverU` |
| `SmsDeliver.data` | 27 | `Deliver.Data`, `Deliver.data` |
| `SmsDeliver._set_pdu` | 55 | `Deliver.fmtOfDcs`, `Deliver.zoneMinutes`, `Deliver.semiLen`, `Deliver.decodeSender`, `Deliver.decodeDeliver`, `Deliver.setPdu`, `UniPdu.setPduRest`, `UniPdu.setPduU` |
| `SmsDeliver._process_message` | 156 | `Deliver.roundUp7`, `Deliver.ucs2Chars`, `Deliver.processMessage` |
| `SmsDeliver._decode_status_report_pdu` | 191 | `Deliver.StatusReport`, `Deliver.semiLen`, `Deliver.decodeStatusReport` |

### sms/gsm0338.py

| function | line | definitions in `lean/Verif/Model` |
|---|---|---|
| `encode` | 205 | `Codecs.errorsOf`, `Gsm0338.encodeChar`, `Gsm0338.encodeLoop` |
| `decode` | 235 | `Codecs.errorsOf`, `Gsm0338.decode` |
| `getregentry` | 272 | `Codecs.gsmCodec`, `Codecs.getregentry`, `Codecs.importModule` |
| `is_gsm_text` | 282 | `Gsm0338.isGsmText` |

### sms/pdu.py

| function | line | definitions in `lean/Verif/Model` |
|---|---|---|
| `Pdu.__init__` | 6 | `Submit.Pdu`, `Submit.mkPdu` |

### sms/submit.py

| function | line | definitions in `lean/Verif/Model` |
|---|---|---|
| `SmsSubmit.__init__` | 23 | `Submit.State`, `Submit.init` |
| `SmsSubmit._set_number` | 40 | `Submit.setNumber` |
| `SmsSubmit._set_csca` | 48 | `Submit.setCsca` |
| `SmsSubmit._set_validity` | 56 | `Submit.Validity`, `Submit.setValidity` |
| `SmsSubmit._set_klass` | 65 | `Submit.setKlass` |
| `SmsSubmit.to_pdu` | 76 | `Narrow.toPdu`, `Submit.mkPdus`, `Submit.toPdu` |
| `SmsSubmit._get_smsc_pdu` | 132 | `Submit.semiOctets`, `Submit.splitPlus`, `Submit.getSmscPdu` |
| `SmsSubmit._get_tpmessref_pdu` | 155 | `Submit.getTpmessrefPdu` |
| `SmsSubmit._get_phone_pdu` | 162 | `Submit.semiOctets`, `Submit.splitPlus`, `Submit.getPhonePdu` |
| `SmsSubmit._get_tppid_pdu` | 181 | `Submit.getTppidPdu` |
| `SmsSubmit._get_sms_submit_pdu` | 184 | `Submit.submitOctet`, `Submit.getSmsSubmitPdu` |
| `SmsSubmit._get_msg_pdu` | 204 | `Narrow.bodyM`, `Narrow.getMsgPdu`, `Submit.dcsOf`, `Submit.vpPdu`, `Submit.effFmt`, `Submit.bodyM`, `Submit.getMsgPdu` |
| `SmsSubmit._split_sms_message` | 270 | `Narrow.udh16`, `Narrow.packPart`, `Narrow.packParts`, `Narrow.splitSmsMessage`, `Submit.splitLoop`, `Submit.udh7`, `Submit.udh16`, `Submit.Coding`, `...` |
| `SmsSubmit._get_rand_id` | 326 | `Submit.getRandId` |

### sms/udh.py

| function | line | definitions in `lean/Verif/Model` |
|---|---|---|
| `PortAddress.__init__` | 6 | `Udh.PortAddress` |
| `PortAddress.__repr__` | 11 | `Udh.ConcatReference`, `UdhRepr.PortAddress.repr` |
| `ConcatReference.__init__` | 18 | `Udh.ConcatReference` |
| `ConcatReference.__repr__` | 24 | `Udh.UserDataHeader`, `UdhRepr.ConcatReference.repr` |
| `UserDataHeader.__init__` | 31 | `Udh.UserDataHeader`, `Udh.UserDataHeader.empty` |
| `UserDataHeader.__repr__` | 36 | `Udh.fromStatusReportRef`, `UdhRepr.arrayRepr`, `UdhRepr.dictRepr`, `UdhRepr.UserDataHeader.repr` |
| `UserDataHeader.from_status_report_ref` | 41 | `Udh.fromStatusReportRef`, `Udh.fromBytes` |
| `UserDataHeader.from_bytes` | 47 | `Udh.applyIe`, `Udh.fromBytesLoop`, `Udh.fromBytes` |

### sms/wap.py

| function | line | definitions in `lean/Verif/Model` |
|---|---|---|
| `is_a_wap_push_notification` | 8 | `Wap.isAWapPushNotification` |
| `extract_push_notification` | 20 | `Wap.extractPushNotification` |
| `is_mms_notification` | 33 | `Wap.isMmsNotification` |

## Properties: plan and outcome

* **C01 GSM 03.38 strict round trip** - Plan: Model gsm0338 encode/decode over List Nat with the three tables transcribed; induction over the text with table facts checked over the whole finite table.
  Outcome: proved. Theorems: `C01_roundtrip`, `C01_injective`.
* **C02 is_gsm_text is exact** - Plan: Same model; characterise by membership in a separately written alphabet list; induction.
  Outcome: proved. Theorems: `C02_encode_exact`, `C02_is_gsm_text`, `C02_encode_total`.
* **C03 Decoding 7-bit data never fails** - Plan: Strong induction on the byte list (decode consumes 1 or 2).
  Outcome: proved. Theorems: `C03_total`, `C03_reencode`, `C03_bad_escape`.
* **C04 Lossy GSM encoding is character-wise** - Plan: Induction, relating replace/ignore runs to a strict run on a mapped text.
  Outcome: proved. Theorems: `C04_ignore`, `C04_replace`, `C04_str`, `C04_decode_concat`, `C04_decode_octet`, `C04_decode_bad`.
* **C05 7-bit packing follows TS 23.038** - Plan: Spec: little-endian value in base 128 of septets = little-endian value in base 256 of octets. Per-octet arithmetic, induction.
  Outcome: proved. Theorems: `C05_packing`, `C05_packing_header`, `C05_header_any`, `C05_too_long`, `C05_unique`.
* **C06 Unpacking inverts packing** - Plan: Digit uniqueness of base-128 expansion; unpack loop invariant.
  Outcome: proved. Theorems: `C06_roundtrip`, `C06_roundtrip_any`, `C06_roundtrip_bytes`, `C06_roundtrip_header`.
* **C07 Unpackers agree and only yield septets** - Plan: Same invariant plus hex decode lemma.
  Outcome: proved. Theorems: `C07_agree`, `C07_digits`.
* **C08 Splitting long texts loses nothing** - Plan: Functional-induction over the split loop.
  Outcome: proved. 8-bit data in several parts: whatever to_pdu accepts (ASCII byte strings only) is recovered; unicode text and non-ASCII byte strings raise. Theorems: `C08_lossless`, `C08_lossless_8bit`, `C08_8bit_accepted`.
* **C09 PDU count and numbering** - Plan: Count lemmas over the split loop; to_pdu model.
  Outcome: proved. Theorems: `C09_count`, `C09_count_8bit`.
* **C10 SUBMIT PDUs are standards conformant** - Plan: Independent TS 23.040 SUBMIT parser in Spec; prove parse(to_pdu) = settings.
  Outcome: proved. Theorems: `C10_conformance`, `C10_succeeds`, `C10_envelope`.
* **C11 User data never exceeds an SMS** - Plan: From packing length lemmas and split bound.
  Outcome: proved. Theorems: `C11_user_data`.
* **C12 End-to-end text delivery, GSM alphabet** - Plan: Composition: relay spec + SmsDeliver model.
  Outcome: proved. Theorems: `C12_gsm`, `C12_join`.
* **C13 End-to-end text delivery, UCS2** - Plan: Composition as above; negative part: astral raises.
  Outcome: proved. Theorems: `C13_ucs2`, `C13_too_big`, `C12_join`.
* **C14 End-to-end delivery of 8-bit data** - Plan: Single-part proved, multi-part refuted by witness (udh dropped).
  Outcome: partial. false of the code for 8-bit data in several parts (the header is announced but not sent); proved for single-part data; for several parts, what is left of them is described exactly, and that they never arrive. Theorems: `C14_partial`, `C14_lost`, `C14_never`, `C14_refuted`.
* **C15 Destination number round trip** - Plan: Digit-pair swap involution, even/odd cases.
  Outcome: proved. Theorems: `C15_number`.
* **C16 SMSC address round trip** - Plan: As C15.
  Outcome: proved. Theorems: `C16_csca`.
* **C17 Reported TPDU length** - Plan: From to_pdu model.
  Outcome: partial. false of the code for fmt=0x04 with characters above U+00FF (odd number of hex digits); everything else is proved, and exactly when it fails. Theorems: `C17_partial`, `C17_refuted`, `C17_iff`, `C17_announced`.
* **C18 Number validation is exact and atomic** - Plan: Model of the regex as a matcher; independent language spec; state monad setter.
  Outcome: proved. Theorems: `C18_number`, `C18_csca`, `C18_init`.
* **C19 Class and coding survive** - Plan: Bit facts over all klass/dcs, whole finite domain, lifted.
  Outcome: proved. Theorems: `C19_class`, `C19_coding`, `C19_received`.
* **C20 Relative validity is the floor** - Plan: Spec: duration function of octet; order argument by omega on the four ranges.
  Outcome: proved. Theorems: `C20_floor`, `C20_range`, `C20_monotone`.
* **C21 Absolute validity round trip** - Plan: Spec decoder of 7 semi-octets; proved for |offset|<20h, refuted beyond.
  Outcome: partial. false of the code for utc offsets of 20 hours and more; proved below; C21_far says which zone is sent beyond. Theorems: `C21_partial`, `C21_refuted`, `C21_far`.
* **C22 Too many parts is an error** - Plan: From split model.
  Outcome: partial. false of the code for 8-bit data (34305 octets give 257 PDUs); proved for the other codings, and exactly when it is raised (C22_exact). Theorems: `C22_too_long`, `C22_exact`, `C22_no_wrap`, `C22_partial`, `C22_refuted`.
* **C23 Message ids** - Plan: Rotation of range(255) invariant over histories.
  Outcome: proved. Theorems: `C23_history`, `C23_distinct`.
* **C24 to_pdu is repeatable** - Plan: Proved when fmt fixed/number valid; refuted for text change (stale fmt).
  Outcome: partial. repeating is proved; changing the text keeps a stale automatically chosen coding, so that half is false of the code unless the coding is the same; C24_text_iff: exactly when, C24_coding: what is sent otherwise. Theorems: `C24_repeat`, `C24_text_partial`, `C24_coding`, `C24_gsm_first`, `C24_text_iff`, `C24_refuted`.
* **C25 Decoder exception contract** - Plan: Case analysis of every error path of the model.
  Outcome: proved. C25_exact: which octets are refused with ValueError and which with IndexError; C25_strings: which strings are refused with OverflowError or because they spell no octets. Theorems: `C25_exceptions`, `C25_constructor`, `C25_exact`, `C25_strings`.
* **C26 Odd-length PDUs** - Plan: From model.
  Outcome: proved. Theorems: `C26_strict`, `C26_lenient`.
* **C27 Hex case does not matter** - Plan: int(x,16) case lemma, map over list.
  Outcome: proved. the stored .pdu string itself keeps its case. Theorems: `C27_case`.
* **C28 Timestamps are UTC** - Plan: Calendar ordinal model, inverse lemmas.
  Outcome: proved. Theorems: `C28_utc`, `C28_unique`, `C28_invalid`.
* **C29 Status reports** - Plan: From model.
  Outcome: proved. Theorems: `C29_report`.
* **C30 User data header parsing** - Plan: TLV induction; eight_bits for 8-bit ports refuted.
  Outcome: partial. false of the code: 8-bit ports are flagged as 16-bit, and an element of an unknown kind that is cut off does not raise; the rest is proved; C30_any says for any octets, well formed or not, what is returned or raised. Theorems: `C30_partial`, `C30_truncated_partial`, `C30_any`, `C30_reading`, `C30_cut`, `C30_refuted`, `C30_refuted_truncated`.
* **C31 Reassigning .pdu equals a fresh decode** - Plan: Refuted by witness; partial: the fields that are always overwritten.
  Outcome: partial. false of the code (stale header, report, type, protocol id, coding scheme); the theorem says exactly what becomes stale. Theorems: `C31_partial`, `C31_clean`, `C31_refuted`.
* **C32 Octets after the user data are ignored** - Plan: 7-bit proved; UCS2/8-bit refuted.
  Outcome: partial. false of the code for 8-bit and UCS2 messages, where what follows becomes text; proved exactly for which alphabets. Theorems: `C32_partial`, `C32_refuted`, `C32_bin`, `C32_ucs2`, `C32_iff`.
* **C33 Coding scheme decoding** - Plan: Spec table of TS 23.038 section 4 over all octets; partial set; refuted witness.
  Outcome: partial. false of the code for message waiting groups and reserved values; the theorem characterises the octets that are right, C33_shown what the others show. Theorems: `C33_partial`, `C33_refuted`, `C33_shown`.
* **C34 FixedOffset.from_timezone** - Plan: Positive proved; negative refuted (all negative zones wrong).
  Outcome: partial. false of the code for zones west of Greenwich ('-0300' is -21 h); proved east. C34_exact: what every text gives. Theorems: `C34_partial`, `C34_west`, `C34_text_partial`, `C34_text_west`, `C34_refuted`, `C34_exact`, `C34_hours`.
* **C35 Concatenation references separate messages** - Plan: Refuted: first reference is always the same.
  Outcome: partial. false of the code between objects (every first long message has reference 1); proved within one object. Theorems: `C35_partial`, `C35_same`, `C35_refuted`.
* **C36 PreviewIterator behaves like a list with a cursor** - Plan: Refinement by simulation, induction over operation lists.
  Outcome: proved. Theorems: `C36_refines`, `C36_cursor`, `C36_in_order`.
* **C37 uintvar round trip** - Plan: Induction over base-128 digits.
  Outcome: proved. Theorems: `C37_roundtrip`, `C37_minimal`, `C37_decode`.
* **C38 Short integers and value lengths round trip** - Plan: From C37.
  Outcome: proved. Theorems: `C38_short_integer`, `C38_short_integer_range`, `C38_short_length`, `C38_short_length_range`, `C38_value_length`, `C38_bool`.
* **C39 Long integers round trip** - Plan: Refuted; partial: palindromic octets/n<256; and decoder inverts the big-endian spec.
  Outcome: partial. false of the code: the encoder writes the least significant octet first; proved for the values whose octets are a palindrome, decoding of conformant data proved. Theorems: `C39_partial`, `C39_small_partial`, `C39_too_large`, `C39_decode`, `C39_integer_value`, `C39_refuted`.
* **C40 Text strings round trip** - Plan: Induction; refuted for empty encoded string value.
  Outcome: partial. plain text strings proved except a leading 127; encoded strings are false for the empty string and a leading control character, proved otherwise (C40_encoded_iff: exactly which come back). Theorems: `C40_text`, `C40_text_127`, `C40_decode`, `C40_quoted`, `C40_not_quoted`, `C40_text_value`, `C40_text_value_none`, `C40_encoded_partial`, `C40_from_partial`, `C40_from_empty`, `C40_encoded_iff`, `C40_encoded_never`, `C40_from_iff`, `C40_encoded_refuted`.
* **C41 Version values** - Plan: Partial for 1-7.0-14; refuted for '1.2.4' and '1'.
  Outcome: partial. false of the code for two or more dots, major only, white space, sign and leading zeros; what is sent for every text and exactly which texts come back: C41_exact, C41_round_trip_iff. Theorems: `C41_canonical_partial`, `C41_text_partial`, `C41_out_of_range_partial`, `C41_number_partial`, `C41_decode`, `C41_major`, `C41_major_only`, `C41_dots`, `C41_exact`, `C41_round_trip_iff`, `C41_refuted`.
* **C42 Content types without parameters round trip** - Plan: Whole table + string case.
  Outcome: proved. C42_iff: exactly the byte strings without NUL that start with a printable 7-bit character come back. Theorems: `C42_known`, `C42_other`, `C42_iff`.
* **C43 Content types with parameters round trip** - Plan: Refuted; decoder proved against an independent conformant encoder.
  Outcome: partial. False of the code for every content type with parameters: the announced length counts parameters instead of octets. C43_never proves that none is ever read back, C43_lost the same for whole messages, C43_partial that everything but the length is right. Theorems: `C43_never`, `C43_charset`, `C43_part`, `C43_pair`, `C43_message`, `C43_lost`, `C43_partial`, `C43_refuted`.
* **C44 MMS header round trip** - Plan: Case by header kind.
  Outcome: partial. False of the code for most message sizes, unknown message types, a leading Quote octet, empty texts and unicode; each failure is characterised; C44_iff says exactly which headers come back. Theorems: `C44_partial`, `C44_iff`, `C44_size`, `C44_unknown_type`, `C44_quote`, `C44_empty`, `C44_unicode`, `C44_refuted`.
* **C45 Conformant MMS headers decode faithfully** - Plan: Induction over header list with independent encoder.
  Outcome: partial. false of the code for short relative delivery times, versions without minor number, empty encoded strings; all other headers in all orders proved, and C45_header_iff: a conformant header is read as it is meant exactly if it is none of these. Theorems: `C45_partial`, `C45_no_content_type_partial`, `C45_order_partial`, `C45_version_major`, `C45_empty_subject`, `C45_header_iff`, `C45_refuted`.
* **C46 Conformant multipart bodies decode faithfully** - Plan: Induction over parts with independent encoder.
  Outcome: partial. false of the code for four parameter forms and the well-known part headers; all other bodies proved; C46_parameter_iff and C46_media_iff: exactly which parameters and media types are read as they are meant; C46_read: what whole messages with the other forms are read as (quoted strings with separators in them are left out); C46_any_order: what is read of plain part headers in any order, those after a Content-Location included. Theorems: `C46_partial`, `C46_no_value`, `C46_quoted`, `C46_differences`, `C46_location_lost`, `C46_parameter_iff`, `C46_parameter_read`, `C46_quoted_read`, `C46_media_iff`, `C46_read`, `C46_phone_part`, `C46_any_order`, `C46_any_order_message`, `C46_location_first`, `C46_differences_read`, `C46_differences_message`, `C46_differences_main`, `C46_refuted`.
* **C47 MMS encode/decode round trip** - Plan: Partial: messages with only pages, encodable values; refutations for loose data parts and Content-Location.
  Outcome: partial. False of the code: the Content-Location of files is lost and messages with loose data parts cannot be read. Proved for all messages with faithful headers whose slides are made of texts and files. Theorems: `C47_partial`, `C47_names_partial`, `C47_survive_partial`, `C47_named_file`, `C47_name_plain`, `C47_name_stray`, `C47_text`, `C47_data`, `C47_file`, `C47_loose`, `C47_loose_survive`, `C47_location`, `C47_refuted`.
* **C48 Encoding does not alter the message** - Plan: Refuted; partial: the pages and parts stay the same, and the third encode equals the second.
  Outcome: partial. False of the code: six headers are deleted; the theorems say what is kept and what every later encoding gives. Theorems: `C48_partial`, `C48_deleted`, `C48_second`, `C48_history`, `C48_refuted`.
* **C49 Message-Type selection** - Plan: Refuted for Bcc; partial for To/Cc.
  Outcome: partial. False of the code: Bcc is not a recipient, unknown types become m-send-req; proved for To, Cc and for the other types. Theorems: `C49_partial`, `C49_bcc`, `C49_missing`, `C49_unknown`, `C49_unknown_octet`, `C49_refuted`.
* **C50 MMS decoding terminates** - Plan: Fuel bound shown sufficient / structural consumption lemmas.
  Outcome: proved. For every octet string. The step budget of the three unbounded loops is proved irrelevant. Theorems: `C50_terminates`, `C50_header_consumes`, `C50_parameter_consumes`, `C50_part_consumes`, `C50_headers`, `C50_part_headers`, `C50_params`, `C50_size`.
* **C51 MMS decoder exception contract** - Plan: Error-set lemmas for each decoder.
  Outcome: proved. For every octet string; each of the five exceptions occurs. Theorems: `C51_contract`, `C51_sharp`, `C51_header`, `C51_mms_value`, `C51_file`.
* **C52 8-bit integers decode exactly** - Plan: Refuted; partial for < 16.
  Outcome: partial. false of the code from 16 on; the theorem says what is read. Theorems: `C52_partial`, `C52_refuted`.
* **C53 SMIL presentation mirrors the slides** - Plan: Tree model of DOM; induction on pages; refuted for audio-only.
  Outcome: partial. False for slides with audio and no text (NameError, or another slide's text moves); proved for all other messages, for the par list and the whole document tree. C53_iff: for no others; C53_exact: the par list of any message; C53_once: no text is lost or shown twice. The documented display interval is also false for a begin without an end. Theorems: `C53_refuted`, `C53_text_moves`, `C53_audio_without_text`, `C53_partial`, `C53_iff`, `C53_exact`, `C53_once`, `C53_document_partial`, `C53_shown_refuted`, `C53_shown_partial`, `C53_shown_iff`.
* **C54 Slide timing validation** - Plan: State machine invariants.
  Outcome: proved. For every argument, file system and call history. Theorems: `C54_accepts`, `C54_rejected`, `C54_value_error`, `C54_history`, `C54_text`, `C54_file`, `C54_none`, `C54_clip`.
* **C55 data_parts lists all parts** - Plan: Refuted with page; partial without pages.
  Outcome: partial. False: with any slide data_parts raises AttributeError; proved for messages without slides, including every received message. Theorems: `C55_refuted`, `C55_never`, `C55_partial`, `C55_received_partial`.
* **C56 DataPart length equals data** - Plan: State machine with file system; refuted when file changes.
  Outcome: partial. False when a file changes after it was read; proved for all histories in which files keep their contents, and for data set directly whatever happens to files. Theorems: `C56_refuted`, `C56_partial`, `C56_set_partial`.
* **C57 WAP push extraction** - Plan: From model.
  Outcome: partial. For every octet string. The header length is a uintvar in the standard; the code reads one octet, so headers of 128 octets or more are refuted. Theorems: `C57_extract`, `C57_any`, `C57_short`, `C57_other`, `C57_is_push`, `C57_type`, `C57_uintvar_refuted`, `C57_uintvar_partial`, `C57_uintvar_long`, `C57_is_notification`.
* **C58 Unknown status codes** - Plan: Refuted; partial on known codes.
  Outcome: partial. false of the code: the fallbacks are numbers when decoding, and encoding fails; the theorems say what happens for every octet and name. Theorems: `C58_status_partial`, `C58_response_status_partial`, `C58_encode_partial`, `C58_status_value`, `C58_refuted`.
* **C59 Failed decodes do not move the iterator** - Plan: Per primitive lemma; refuted for the ones which consume.
  Outcome: partial. The full claim is false for four of the twelve documented primitives (refuted with witnesses and with its visible consequence); proved for the other eight, for 23 undocumented ones, and with exactly what is consumed for the four. Theorems: `C59_refuted`, `C59_refuted_parameter`, `C59_refuted_accept`, `C59_refuted_pragma`, `C59_consequence`, `C59_partial`, `C59_other_partial`, `C59_media_partial`, `C59_parameter_partial`, `C59_accept_partial`, `C59_pragma_partial`, `C59_mms_header_preview`.
* **C60 Encoders emit only octets** - Plan: Per primitive lemma.
  Outcome: partial. false of the code for unicode text above 255; proved for octet text. Theorems: `C60_text_partial`, `C60_text_iff`, `C60_uint8`, `C60_uintvar`, `C60_short_integer`, `C60_long_integer`, `C60_version_partial`, `C60_integer`, `C60_value_length`, `C60_constrained_encoding_partial`, `C60_parameter_partial`, `C60_refuted`.
* **C61 Decodable headers can be encoded** - Plan: Refuted with list of names; partial for encodable names.
  Outcome: partial. False of the code for eleven headers, which can never be encoded; proved for the others; C61_set_iff: exactly which values of which headers keep a message encodable. Theorems: `C61_partial`, `C61_set`, `C61_set_iff`, `C61_octets`, `C61_never`, `C61_refuted`.
* **C62 Well-known parameter tables** - Plan: Whole-table proof.
  Outcome: proved. Theorems: `C62_parameters`, `C62_headers`, `C62_invalid`, `C62_parameter_name`, `C62_other_name`, `C62_table38`, `C62_table39`.
* **C63 Well-known content type numbers** - Plan: Per octet case analysis over the priority/version nibble; refuted for 14.
  Outcome: partial. false of the code for number 14; proved for the others. C63_fourteen: what number 14 is read as and sent for; C63_unassigned: what happens to the numbers that are not registered. Theorems: `C63_partial`, `C63_encode_partial`, `C63_refuted`, `C63_fourteen`, `C63_unassigned`.
* **C64 Conformant SMS-DELIVER decodes to its contents** - Plan: Independent conformant encoder of SMS-DELIVER TPDUs in Spec; decoder run shown field by field.
  Outcome: partial. False of the code only for the coding octets of C33 and the senders of C65 (C64_iff: exactly for these); proved for everything else, and with such a sender everything but the sender is right. Theorems: `C64_partial`, `C64_sender_partial`, `C64_iff`, `C64_refuted`.
* **C65 Sender addresses** - Plan: Independent address encoder in Spec; case by type of number.
  Outcome: partial. False of the code: alphanumeric senders of 7 septets get an additional '@', and '*', '#' are shown as 'a', 'b'. The theorems say what is shown in every case and exactly when it is right. Theorems: `C65_numeric_partial`, `C65_keypad`, `C65_alphanumeric_partial`, `C65_trailing`, `C65_iff`, `C65_refuted`, `C65_refuted_star`.
* **C66 WAP pushes in several messages** - Plan: Composition of C64, the concatenation spec and the WAP push model.
  Outcome: partial. False of the code for headers of 128 octets and more and for the exceptions of C33; proved for everything else. Theorems: `C66_assemble_partial`, `C66_push_partial`, `C66_notification_partial`, `C66_refuted`.
* **C67 File contents in encoded messages** - Plan: Second model with the caches of file contents; simulation between both; induction over histories.
  Outcome: partial. False of the code when a file changes after it was read: the old contents are sent, announced with the new length (C67_length, C67_stale, C67_refuted). Proved while the files are unchanged. Theorems: `C67_encode`, `C67_history_partial`, `C67_unchanged_partial`, `C67_length`, `C67_stale`, `C67_refuted`.
* **C68 Messages in files** - Plan: File system as a function; the write is an update of it.
  Outcome: partial. False of the code: the result is None (C68_result), a failure empties the file (C68_lost), a part read from the same file is sent empty (C68_self). Proved for messages without such a part. Theorems: `C68_partial`, `C68_result`, `C68_lost`, `C68_unwritable`, `C68_self`, `C68_refuted`, `C68_written_refuted`.
* **C69 The SMIL text reads as the presentation** - Plan: Independent recursive descent XML reader in Spec; reader after writer by induction over the tree.
  Outcome: partial. False of the code for control characters (no XML document) and line breaks (read as spaces), as the text of a slide is written into an attribute; proved for all other texts against an independent XML reader. C69_moved_partial: also for slides with audio and no text. C69_text: the text that is returned, character by character. Theorems: `C69_partial`, `C69_moved_partial`, `C69_normal_partial`, `C69_text`, `C69_control`, `C69_newline`, `C69_refuted`.
* **C70 Order of the headers of an encoded message** - Plan: Independent table of field numbers and a layout structure in Spec; inversion of the encoder.
  Outcome: proved. For every message, walk order and random number for which encoding succeeds. Theorems: `C70_layout`.
* **C71 Accept, Pragma and charset values of part headers** - Plan: Independent encodings of Accept and Pragma values in Spec; decoder after encoder, witnesses where it fails.
  Outcome: partial. Accept values with parameters or a quality factor are misread, and the long form fails at the end of the data (C71_refuted, C71_end, C71_swallowed, C71_range_params); the octet 128 for any charset is read as "0" (C71_any_charset). Pragma values are proved in full. Theorems: `C71_constrained_partial`, `C71_general_partial`, `C71_extension_partial`, `C71_swallowed`, `C71_end`, `C71_range_params`, `C71_refuted`, `C71_pragma`, `C71_any_charset`, `C71_headers`.
* **C72 Defaults of a new message** - Plan: Corollary of C10 for the state after the constructor; case analysis of the setter.
  Outcome: proved. Theorems: `C72_defaults`, `C72_validity`.
* **C73 MMS that arrive cut short** - Plan: Predicate Trunc closed under the decoder monad: on a part of the input a decoder starves or does what it does on the whole.
  Outcome: partial. False of the code: a message cut after its headers is accepted without parts (C73_no_body, C73_refuted). Proved: whatever decodes with parts decodes the same with any octets after it, and a conformant message cut anywhere either raises or has no parts. C73_iff: exactly which cuts are accepted; the theorems for each kind of cut say what is shown or raised. Theorems: `C73_partial`, `C73_parts_partial`, `C73_headers`, `C73_body_partial`, `C73_no_body`, `C73_iff`, `C73_between`, `C73_application`, `C73_first_octet`, `C73_inside`, `C73_content_type`, `C73_count`, `C73_refuted`.
* **C74 SMS that arrive cut short** - Plan: Each step of the pure form of the decoder on a part of its input against the whole.
  Outcome: partial. False of the code: a message cut inside its user data is accepted (C74_refuted, C74_binary). Proved: a cut before the user data raises, and of any accepted cut everything but text and user data header is unchanged, the text being a beginning of the whole text (or a beginning and a no-break space where an escape sequence is split). C74_text_iff, C74_header_iff and C74_report_iff say exactly which cuts are accepted: without user data header, with one, and of a status report. Theorems: `C74_shown_partial`, `C74_header_partial`, `C74_text_iff`, `C74_header_iff`, `C74_report_iff`, `C74_binary`, `C74_refuted`.
* **C75 Sending on a received message** - Plan: C46, C47 and C61 composed for messages that come from the decoder.
  Outcome: partial. False of the code: nothing of the parts is sent (C75_contents), what is sent cannot be decoded (C75_unreadable), and a message with a Date, as all retrieved messages have, cannot be encoded (C75_unsendable); a content type with parameters cannot be encoded (C75_charset) or is not read back (C75_parameters). Proved for messages without parts. Theorems: `C75_partial`, `C75_contents`, `C75_unreadable`, `C75_unsendable`, `C75_charset`, `C75_parameters`, `C75_refuted`.
* **C76 Part data are octets of the message** - Plan: Inversion of the loop over the parts, induction over the number of parts.
  Outcome: proved. Theorems: `C76_entries`, `C76_verbatim`.
* **C77 Assignments to a message** - Plan: Specification of the last acceptable assignment; induction over the sequence.
  Outcome: proved. Between assignments to_pdu is not called; what changes then is C24. Theorems: `C77_last`, `C77_refused`, `C77_order`.
* **C78 Slides and parts that several messages share** - Plan: A store of objects with references; every function on the store simulates the one on values, up to parts that were read; invariant over all programs that references are to existing objects.
  Outcome: proved. Dictionaries (headers, parameters) are not shared in the model. Encoding the same message again is C48, files that change in between C67. Theorems: `C78_encode`, `C78_others`, `C78_order`, `C78_reach`, `C78_slide`, `C78_slide_elsewhere`, `C78_part`, `C78_addPage`, `C78_addDataPart`, `C78_setHeader`, `C78_assign`, `C78_smil`, `C78_new`, `C78_newFromFile`.
* **C79 Long messages whose parts arrive in any order** - Plan: Specification of an inbox and of reassembly by sender, reference and position; the relayed parts decode to their texts (C10 and the relay lemmas), permutation invariance of filtering for unique positions.
  Outcome: partial. False of the code: every new object uses the same concatenation reference (C35), so that two long messages from one sender with the same number of parts cannot be told apart (C79_refuted). Proved when no other message in the inbox has the same sender, reference and number of parts; with a part missing nothing is assembled. C79_twice_partial: parts that arrive several times. Theorems: `C79_partial`, `C79_twice_partial`, `C79_refuted`.
* **C80 What a part holds after any history** - Plan: Invariants over histories: filename and data, and the headers as a function of the last assignment.
  Outcome: proved. Theorems: `C80_new`, `C80_data`, `C80_text`, `C80_file`, `C80_missing`, `C80_content_type`.
* **C81 What a message holds after any history** - Plan: Specification of the value of a header as an inductive relation over histories; induction over the history from the end, with uniqueness.
  Outcome: proved. That slides are kept in order needs the Content-Type header to keep a first item (C81_pages); otherwise add_page raises and the slide is not added (C81_accepts, C81_failed). Theorems: `C81_accepts`, `C81_failed`, `C81_parts`, `C81_header`, `C81_pages`, `C81_refused`.
* **C82 From the calls that build a message to what its recipient decodes** - Plan: Composition of C47, C53, C54, C69 and C81 over an inductive description of what a program amounts to; existence of that description by induction.
  Outcome: proved. The restrictions on headers and names are needed (C44, C47). That the presentation is readable needs texts and names without control characters (C69). Theorems: `C82_arrives`, `C82_headers`, `C82_refused`, `C82_amounts`.
* **C83 Which received strings are accepted** - Plan: An inductive grammar of frames, written from the standard and independent of the decoder; both directions by inversion of the decoder in pure form (pduP), with strong induction on the length for the header elements.
  Outcome: proved. For every str: C83_strings; that the result depends only on the octets that are spelt: C83_octets. Theorems: `C83_strings`, `C83_octets`, `C83_accepted`.
* **C84 Assigning a PDU that cannot be decoded** - Plan: A relation between the object before and after, shown for every step of the decoder that may raise; induction over the assignments for the last decodable string.
  Outcome: partial. False of the code: fields are set one after the other while decoding, so that after a failure an object may show the sender and the date of the new message with the text of the old one (C84_mixed, C84_refuted), or a number that nobody has, if the new one is cut inside it (C84_shortened, C84_centre). Proved: text, status report and type are kept, so that after any sequence of assignments the text is that of the last string that could be decoded. Theorems: `C84_kept_partial`, `C84_last`, `C84_mixed`, `C84_shortened`, `C84_centre`, `C84_refuted`.
* **C85 Bits of received messages that do not matter** - Plan: The decoder in pure form depends on the octets through the type bits, the address type field and the septets at given positions; congruence in each.
  Outcome: proved. Theorems: `C85_flags`, `C85_plan`, `C85_plan_smsc`, `C85_fill`, `C85_report`.
* **C86 Headers of parts, sent** - Plan: Case analysis over how a name is written (text, number); the two tables compared as finite tables; for the converse a text that fails for each of the other names.
  Outcome: partial. false for the names whose WSP number is the number of an MMS field, for Pragma, and for Accept values that are no media types; C86_exact says for which names it holds. Whole messages with such parts: C47_partial, C47_names_partial (PlainPart allows these headers). Theorems: `C86_kept_partial`, `C86_exact`, `C86_refused`, `C86_refuted`, `C86_pragma`.
* **C87 Labels of received parts** - Plan: The decoder evaluated on the label octets followed by arbitrary octets: first failure in the MMS table, second failure or success in the WSP table, then the application header.
  Outcome: partial. content type and data are right, but the labels are not found under their names: what is read instead is stated exactly for each layout. Theorems: `C87_id_location_partial`, `C87_id_partial`, `C87_location_id_partial`, `C87_location_partial`, `C87_disposition_partial`, `C87_split_partial`, `C87_refuted`.
* **C88 Headers that cannot be sent** - Plan: The exception of a header as a function of name and value (Spec/Refusal, no encoders); case analysis over the field table and the value types; for messages, induction over the headers in the order of the table.
  Outcome: partial. which headers are refused, and with which exception, is exact (C88_exact), also for whole messages (C88_message); that it is always EncodeError is false (AttributeError, TypeError, OverflowError). Byte strings are assumed to hold bytes. Theorems: `C88_exact`, `C88_sendable`, `C88_field_name`, `C88_message`, `C88_encode_error_partial`, `C88_refuted`.
* **C89 Short messages that cannot be sent** - Plan: Settings and texts that are refused as inductive predicates (Spec/SubmitRefusal); to_pdu in closed form up to the first failing step; for long texts, the first part that fails.
  Outcome: proved. an Object holds what the attribute checks let through (accepted numbers, classes 0 to 3, real dates); texts of any length, too long ones said by the divisions they have. Theorems: `C89_exact`, `C89_sent`.
* **C90 The PDUs of a short message determine it** - Plan: Both PDU lists conform to their objects (C10); the readers of the specification are functions, so all fields agree; the coding octet is injective; packed septets determine the septets, and these the text (C01).
  Outcome: proved. what cannot be expressed in a PDU is spelled out in Spec/Same. Theorems: `C90_injective`.
* **C91 A reply to the number of a received message goes to its sender** - Plan: What is shown for an address denotes it up to the type (a small lemma about digits); then C65 for the decoder and C10 for the encoder.
  Outcome: partial. the type of the number is reduced to international or unknown: a reply to a national number goes to the same digits with another type (C91_refuted); C91_sent says exactly where it goes. Theorems: `C91_accepted`, `C91_sent`, `C91_partial`, `C91_centre`, `C91_name`, `C91_refuted`.
* **C92 The text of a received short message can be sent on** - Plan: The user data of the received message bounds the number of symbols, so the text fits in one message (C09); then C64 for the first decoder and C12-C14 for the second.
  Outcome: proved. for messages that are read right, as in C64. Theorems: `C92_forward`.
* **C93 A text is sent in the fewest possible messages** - Plan: Any pieces that do not end within an escape cover at most as much as as many greedy parts (induction over the pieces, Proofs/Fewest); a UCS2 part has at most 134 septets, so it fits in a GSM part.
  Outcome: partial. false for UCS2 texts with the character ESC (U+001B), where a full part that would end with it is cut one character short (C93_refuted); proved, with the exact minimum, among all ways to send the text in which no full part ends with ESC. Theorems: `C93_partial`, `C93_attained`, `C93_automatic`, `C93_refuted`.
* **C94 Leaving characters out never costs more messages** - Plan: The greedy division of a sublist never falls behind that of the list (induction over the parts); if the alphabet changes, C93.
  Outcome: proved. for texts that can be sent in the sense of C10 (8-bit data in one message). Theorems: `C94_monotone`.
* **C95 The octets of an MMS determine the message** - Plan: Both messages are what is decoded from the octets (C47), and decoding is a function; for parts that cannot be read back (files with names, unusual headers) the octets of each header are shown to be uniquely readable directly, and slides are read from the presentation (C69).
  Outcome: partial. the contents of loose data parts are not sent (C95_refuted), their number is; message headers that come back (C44_iff), parts with any headers that are written down. Theorems: `C95_partial`, `C95_determined_partial`, `C95_slides_partial`, `C95_refuted`.
* **C96 Recipients of a received MMS** - Plan: Corollary of C46: the value of a name is that of its last header; induction over the headers from the end.
  Outcome: partial. only the last header of each name is kept; C96_partial says exactly when nobody is lost. Theorems: `C96_last`, `C96_partial`, `C96_refuted`.
* **C97 Content types that cannot be sent** - Plan: One lemma per type of value gives the exception or the octets; induction over the parameters; the content type is the last header to be encoded, so C43's comparison of the other headers applies.
  Outcome: proved. exact for every content type; EncodeError is not the only exception (C97_other_exceptions). Theorems: `C97_exact`, `C97_message`, `C97_plain`, `C97_shape`, `C97_pair`, `C97_other_exceptions`.
* **C98 Labels of images and audio clips may be of any type** - Plan: Invariant of the document under construction: which elements it has (up to the moved text elements) and the order of image and audio elements; writing by structural induction with a relation that tracks text, type and first bad value.
  Outcome: proved. exact for labels of any type; a unicode label and octets that are not ASCII do not go together (UnicodeError). Theorems: `C98_exact`, `C98_same`, `C98_agrees`, `C98_message`, `C98_beyond`, `C98_unsent`, `C98_sent`.
* **C99 A parameter is written with the number its version assigns, and read back** - Plan: The last entry of a name in the table of the version is what the code's search from the end finds; one lemma per form of value; reading back from C40's lemmas on texts.
  Outcome: partial. C99_exact gives the octets or the exception in each version (Type as float or date from 1.2 on in C99_kind, where the text is left open); reading back (C99_full) is false for numbers from 12 on (C99_refuted, C99_newer), C99_partial is the part that holds. Theorems: `C99_exact`, `C99_kind`, `C99_version`, `C99_partial`, `C99_newer`, `C99_refuted`.
* **C100 Parts and messages do not share dictionaries** - Plan: Every part and message owns its dictionaries (an invariant on references: no two objects reach the same one, except that a marked part reaches its parameters twice); each statement changes what one object reaches, or what is new, and keeps the invariant; induction over the program. The decoder with marks is simulated by the decoder.
  Outcome: proved. Dictionaries as objects in a store (Model/Dicts), programs as lists of deeds; C100_shared: what happens with a dictionary that is handed over. Theorems: `C100_exact`, `C100_apart`, `C100_received`, `C100_shared`.
* **C101 content_type_parameters shows the parameters of the Content-Type header** - Plan: From the invariant of C100; encode commutes with erasing the attribute.
  Outcome: partial. false for parts whose data was set with parameters (C101_refuted); C101_partial is the part that holds, C101_unsent: encode ignores the attribute. Theorems: `C101_partial`, `C101_refuted`, `C101_unsent`.
* **C102 Decoders and encoders can be used again** - Plan: The loops that fill a message in place compute what the loops of the model that return values compute, by induction.
  Outcome: proved. Model/Coders: decoders fill a message in place; C102_filename: the documented argument of MMSDecoder has no effect. Theorems: `C102_decode`, `C102_file`, `C102_encode`, `C102_filename`, `C102_new`, `C102_left`.
* **C103 The codec under its name** - Plan: Invariant: what the cache holds is what the search would find; it is kept because functions are added at the end.
  Outcome: proved. Model/Codecs: the registry of Python 2.7 (search functions and cache) is part of the model. Theorems: `C103_named`, `C103_others`, `C103_first`.
* **C104 Emoji and other characters above U+FFFF** - Plan: The narrow to_pdu is related to the wide one step by step; parts of a text without ESC are its slices of 67 units, and a text of characters can be cut exactly where no first half ends.
  Outcome: partial. false on wide builds (C104_refuted) and, for the single messages, on narrow ones (C104_refuted_narrow); C104_partial: every text arrives on narrow builds; C104_whole: exactly which texts have no torn character; C104_builds: how the builds differ (Model/Narrow). Theorems: `C104_partial`, `C104_whole`, `C104_builds`, `C104_refuted`, `C104_refuted_narrow`.
* **C105 Acknowledging a message** - Plan: Evaluation with free transaction id and status; the two headers that are left can only be iterated in two orders.
  Outcome: partial. false of the code: a content type and a presentation without slides follow (C105_refuted); C105_partial and C105_acknowledge give all octets exactly, what comes before and what follows. Theorems: `C105_partial`, `C105_acknowledge`, `C105_refuted`.
* **C106 Messages used over and over** - Plan: Induction over the history: the attributes after a call are those before it with the reference and the coding that were used (every step of to_pdu keeps the others), and the PDUs are a function of the attributes and two references.
  Outcome: proved. a call that raises may take up to two generated ids (Amounts106). Theorems: `C106_history`, `C106_last`, `C106_calls`, `C106_single`.
* **C107 Status reports lead back to their message** - Plan: From the envelope of every PDU (C10, C91) and the decoding of reports (C29); invariant for unassigned references: no id has been drawn and ref is None, or ref is 0; every step of to_pdu keeps it, also when it raises.
  Outcome: partial. false of the code for the last sentence (C107_refuted_parts, C107_refuted_messages); C107_partial and C107_exists: reports exist and decode to the number and the reference of their message; C107_common: exactly which messages share reports; C107_unset: without assignments of ref every message has reference 0. Theorems: `C107_partial`, `C107_exists`, `C107_parts`, `C107_common`, `C107_unset`, `C107_refuted_parts`, `C107_refuted_messages`, `C107_refuted`.
* **C108 Parts that hold unicode** - Plan: The theorems of C98 for data of both types; a relation between slides that differ in masked characters; induction over the parts.
  Outcome: proved. exact for presentation; UnicodeError and OverflowError as stated. Theorems: `C108_presented`, `C108_sent`, `C108_mixed`, `C108_latin`, `C108_beyond`.
* **C109 PDUs given as unicode** - Plan: A relation between characters and the octets they stand for; pairs of characters are parsed as the related octets, and the rest of the decoder sees only the result.
  Outcome: proved. the tables of the interpreter are a parameter, assumed right on ASCII (Spec/UniPdu.Valid). Theorems: `C109_shown`, `C109_new`, `C109_ascii`, `C109_strings`, `C109_default`, `C109_refused`, `C109_exceptions`.
* **C110 Printed user data headers** - Plan: The text equals one built with Lean's strings and decimal numbers; each piece can be cut off the front of a text in one way only, because a number ends before the first character that is no digit.
  Outcome: partial. false of the code for the width of the reference, which is not printed (C110_refuted); C110_text: the text character by character; C110_same: exactly which headers are printed alike. Theorems: `C110_text`, `C110_same`, `C110_partial`, `C110_refuted`.
* **C111 Files that change while a message is encoded** - Plan: Every access to a file finds the disk of its own moment; a simulation by the encoder for parts that hold their contents, on every later state into which the parts may still be filled; the parts of the end result, frozen, are the witness.
  Outcome: partial. false of the code when the size of a file changes between the two accesses (C111_refuted); C111_snapshot_partial: holds while no size changes, whatever happens to the contents; C111_part: what is sent for a part in any case; C111_kept: what a call leaves, also one that failed; C111_again: calls that are repeated; C111_agrees: with nothing changing this is the encoding of C67. Theorems: `C111_snapshot_partial`, `C111_reads`, `C111_unreadable`, `C111_part`, `C111_agrees`, `C111_kept`, `C111_again`, `C111_refuted`.
* **C112 Message files that change while they are read** - Plan: The octets decoded are a beginning of those in the file when it is read; from the theorems on messages that are cut (C73).
  Outcome: partial. false of the code for the last sentence (C112_refuted: a file that was just emptied); C112_iff: exactly which beginnings are taken for a message; C112_partial: then it has no parts. Theorems: `C112_parts`, `C112_headers`, `C112_growing`, `C112_iff`, `C112_partial`, `C112_agrees`, `C112_emptied`, `C112_refuted`.
* **C113 Files with several names and disks that become full** - Plan: Names and contents are two maps, so several names may lead to one file; what is written is cut to the room there is. Files other than the one opened keep their contents, so the encoder sees the same octets; what is read then is a beginning of them (C73).
  Outcome: partial. false of the code (C113_refuted: nothing fits on the disk, and the file is taken for a message without parts; link_lost: a photo under another name); C113_partial: a message with parts is the right one; C113_iff: exactly how much has to fit; C113_written: the file after every call. Theorems: `C113_written`, `C113_partial`, `C113_iff`, `C113_self`, `C113_unwritable`, `C113_lost`, `C113_agrees`, `C113_refuted`.
* **C114 What is sent is MMS** - Plan: For each form of header in the specification, the octets the encoder gives are compared with those of WAP-209; the converse by the first octets, which tell the forms apart. Parts and messages by induction over their headers, with the dict invariants of C47.
  Outcome: partial. false of the code for some headers that are accepted (C114_refuted: a Subject beginning with an octet from 128 on lacks the Quote octet); C114_header, C114_media and C114_part_header say exactly which headers and media types are written as the standards have them; C114_partial: whole messages of these. Missing: content types with parameters (C43_never), loose parts (C47_loose). Theorems: `C114_header`, `C114_accepted`, `C114_media`, `C114_media_accepted`, `C114_part_header`, `C114_partial`, `C114_text`, `C114_file`, `C114_refuted`.
* **C115 What other recipients read** - Plan: The encodings of the specification are shown to be uniquely readable, form by form: the first octet tells the form, texts end at the first NUL, sized values at their length; then by induction over headers and parts.
  Outcome: partial. false of the code for texts that begin with a control character (C115_refuted: taken for a text with a character set); C115_header_partial and C115_partial: everything else that C114 calls standard is read by every recipient as it was set, and in no other way; C115_unquoted, C115_size: what is read of two kinds of headers that are accepted but not standard. Theorems: `C115_header_partial`, `C115_partial`, `C115_unquoted`, `C115_size`, `C115_refuted`.
* **C116 Parts are read independently of one another** - Plan: A part that is read consumes its own octets only (the length fields, headers and data), whatever follows; induction over the parts. What is left out of an entry is noticed, so entries are determined by the API alone.
  Outcome: proved. Theorems: `C116_split`, `C116_join`, `C116_take`, `C116_after`, `C116_first_error`.
* **C117 Headers are read independently of what follows** - Plan: Reading a header of the specification leaves what follows untouched; which headers the rest sets does not depend on those already set (induction over the loop).
  Outcome: partial. false of the code for the headers that are not read (C45); C117_partial: all others, whatever follows them. Theorems: `C117_partial`, `C117_order_partial`, `C117_refuted`.
* **C118 What is decoded is not much larger than what arrived** - Plan: A weight on the values the decoders return; each decoder returns at most 80 for each octet it consumes (one lemma per decoder, induction over the loops). For SMS the lengths of the strings along the decoding.
  Outcome: proved. numbers count with their decimal digits, values that are neither strings nor numbers as 1. Theorems: `C118_parts`, `C118_headers`, `C118_sms`.
* **C119 The size of an encoded message is that of its contents and little more** - Plan: induction over headers, parameters and parts; each encoder of a value is bounded by a measure of the value; the presentation is a part whose headers are fixed
  Outcome: proved. lower and upper bound for the length of what encode returns; values that are floats, dates or tuples, and parts with both a file and data, are outside the quantifier. Theorems: `C119_size`.
* **C120 Damage stays where it is** - Plan: inversion of the reading of one entry, which shows that headers are read from their octets alone and data are copied; for short messages the decoder as a composition of readers of the fields (C64)
  Outcome: proved. multimedia messages: C120_damage, C120_data; short messages: C120_fields, C120_accepted. Theorems: `C120_damage`, `C120_data`, `C120_fields`, `C120_accepted`.
* **C121 What an exception of from_data says about the message** - Plan: An invariant of the input, closed under contiguous sublists, excludes an exception from every decoder in turn (Proofs/Origin.lean); three instances of the invariant give the three exceptions.
  Outcome: proved. The conditions are necessary, not sufficient; C51_sharp shows that each exception does occur. Theorems: `C121_origin`, `C121_plain`.
* **C122 Slides are sent one after the other, each as if it were the only one** - Plan: encode() written as a composition of four steps (headers, presentation, slides one by one, concatenation), of which the first does not see the slides and the third is a mapM over them
  Outcome: proved. The presentation itself is not local: a slide with audio and no text borrows the text of an earlier slide (C53), so on its own it cannot be presented; the theorems speak of the octets after the presentation. Theorems: `C122_slides`, `C122_fails`, `C122_sent`.
* **C123 When waiting for more octets can help** - Plan: from_data on a beginning of the octets: which answers are final (Proofs/Trunc*)
  Outcome: proved. C123_others: the three answers that are not final do change for one and the same message. Theorems: `C123_fails`, `C123_begins`, `C123_final`, `C123_others`.

## Axioms of each theorem

Output of `#print axioms` for every theorem named in MANIFEST.json. No other axiom occurs; in particular no `sorryAx` and no `Lean.ofReduceBool`.

* **none** (9): C102_filename, C102_new, C30_reading, C38_short_integer_range, C38_short_length_range, C47_location, C62_invalid, C72_validity, C80_missing
* **propext** (24): C113_self, C21_refuted, C30_refuted_truncated, C31_refuted, C32_refuted, C33_refuted, C40_not_quoted, C40_quoted, C40_text, C40_text_127, C47_name_plain, C47_name_stray, C54_value_error, C56_refuted, C57_type, C59_media_partial, C59_refuted_parameter, C65_refuted_star, C68_self, C74_refuted, C78_assign, C80_content_type, C84_kept_partial, C84_refuted
* **propext, Classical.choice, Quot.sound** (404): C01_injective, C01_roundtrip, C02_encode_exact, C02_encode_total, C02_is_gsm_text, C03_bad_escape, C03_reencode, C03_total, C04_decode_bad, C04_decode_concat, C04_decode_octet, C04_ignore, C04_replace, C04_str, C05_header_any, C05_packing, C05_packing_header, C05_too_long, C06_roundtrip, C06_roundtrip_any, C06_roundtrip_bytes, C06_roundtrip_header, C07_digits, C08_8bit_accepted, C08_lossless, C08_lossless_8bit, C09_count, C09_count_8bit, C100_apart, C100_exact, C100_received, C101_partial, C103_first, C103_named, C103_others, C104_builds, C104_partial, C104_refuted, C104_refuted_narrow, C104_whole, C106_calls, C106_history, C106_last, C106_single, C107_common, C107_exists, C107_partial, C107_parts, C107_refuted, C107_refuted_messages, C107_refuted_parts, C107_unset, C108_beyond, C108_mixed, C108_presented, C108_sent, C109_ascii, C109_default, C109_exceptions, C109_new, C109_shown, C109_strings, C10_conformance, C10_envelope, C10_succeeds, C110_partial, C110_same, C110_text, C112_headers, C112_iff, C112_partial, C112_parts, C113_iff, C113_partial, C114_accepted, C114_header, C114_media, C114_media_accepted, C114_part_header, C114_partial, C114_refuted, C115_header_partial, C115_partial, C115_size, C115_unquoted, C116_after, C116_first_error, C116_join, C116_split, C116_take, C117_order_partial, C117_partial, C118_headers, C118_parts, C118_sms, C119_size, C11_user_data, C120_accepted, C120_damage, C120_data, C120_fields, C121_origin, C121_plain, C123_begins, C123_fails, C123_final, C12_gsm, C12_join, C13_too_big, C13_ucs2, C14_lost, C14_never, C14_partial, C14_refuted, C15_number, C16_csca, C17_announced, C17_iff, C17_partial, C17_refuted, C18_csca, C18_init, C18_number, C19_class, C19_coding, C19_received, C20_floor, C20_monotone, C21_far, C21_partial, C22_exact, C22_no_wrap, C22_partial, C22_refuted, C22_too_long, C23_distinct, C23_history, C24_coding, C24_gsm_first, C24_refuted, C24_repeat, C24_text_iff, C24_text_partial, C25_constructor, C25_exact, C25_exceptions, C25_strings, C27_case, C28_invalid, C28_unique, C28_utc, C29_report, C30_any, C30_partial, C30_refuted, C30_truncated_partial, C31_clean, C31_partial, C32_bin, C32_iff, C32_partial, C32_ucs2, C33_partial, C33_shown, C34_exact, C34_hours, C34_partial, C34_refuted, C34_text_partial, C34_text_west, C34_west, C35_partial, C35_refuted, C35_same, C37_decode, C37_roundtrip, C38_short_integer, C38_value_length, C39_integer_value, C40_encoded_iff, C40_encoded_never, C40_from_empty, C40_from_iff, C40_from_partial, C40_text_value, C40_text_value_none, C41_canonical_partial, C41_decode, C41_dots, C41_exact, C41_major, C41_number_partial, C41_out_of_range_partial, C41_round_trip_iff, C41_text_partial, C42_iff, C42_known, C42_other, C43_lost, C43_message, C43_never, C43_partial, C43_refuted, C44_empty, C44_iff, C44_partial, C44_quote, C44_refuted, C44_size, C44_unknown_type, C45_header_iff, C45_no_content_type_partial, C45_order_partial, C45_partial, C45_version_major, C46_any_order, C46_any_order_message, C46_differences_main, C46_differences_message, C46_differences_read, C46_location_first, C46_location_lost, C46_media_iff, C46_parameter_iff, C46_parameter_read, C46_partial, C46_phone_part, C46_quoted_read, C46_read, C47_loose, C47_loose_survive, C47_names_partial, C47_partial, C47_refuted, C47_survive_partial, C48_history, C48_second, C49_unknown, C50_header_consumes, C50_headers, C50_part_consumes, C50_part_headers, C50_size, C50_terminates, C51_contract, C51_file, C51_header, C52_partial, C53_exact, C53_iff, C53_once, C53_shown_iff, C53_shown_refuted, C58_response_status_partial, C58_status_partial, C60_constrained_encoding_partial, C60_integer, C60_long_integer, C60_parameter_partial, C60_short_integer, C60_uint8, C60_uintvar, C60_value_length, C60_version_partial, C61_never, C61_octets, C61_partial, C61_refuted, C61_set, C61_set_iff, C62_headers, C62_parameter_name, C63_fourteen, C63_partial, C63_unassigned, C64_iff, C64_partial, C64_refuted, C64_sender_partial, C65_alphanumeric_partial, C65_iff, C65_keypad, C65_numeric_partial, C65_refuted, C65_trailing, C66_assemble_partial, C66_notification_partial, C66_push_partial, C66_refuted, C67_history_partial, C67_stale, C69_moved_partial, C69_newline, C69_normal_partial, C69_partial, C71_any_charset, C71_constrained_partial, C71_end, C71_extension_partial, C71_general_partial, C71_headers, C71_pragma, C71_range_params, C71_refuted, C71_swallowed, C72_defaults, C73_application, C73_between, C73_body_partial, C73_content_type, C73_count, C73_first_octet, C73_headers, C73_iff, C73_inside, C73_no_body, C73_partial, C73_parts_partial, C73_refuted, C74_binary, C74_header_iff, C74_header_partial, C74_report_iff, C74_shown_partial, C74_text_iff, C75_charset, C75_parameters, C75_partial, C75_refuted, C75_unreadable, C75_unsendable, C76_entries, C76_verbatim, C77_last, C77_order, C77_refused, C79_partial, C79_refuted, C79_twice_partial, C82_amounts, C82_arrives, C82_headers, C82_refused, C83_accepted, C83_octets, C83_strings, C84_centre, C84_last, C84_mixed, C84_shortened, C85_fill, C85_flags, C85_plan, C85_plan_smsc, C85_report, C86_exact, C86_kept_partial, C86_refused, C86_refuted, C87_disposition_partial, C87_id_location_partial, C87_id_partial, C87_location_id_partial, C87_location_partial, C87_refuted, C87_split_partial, C88_encode_error_partial, C88_exact, C88_message, C88_sendable, C89_exact, C89_sent, C90_injective, C91_accepted, C91_centre, C91_name, C91_partial, C91_refuted, C91_sent, C92_forward, C93_attained, C93_automatic, C93_partial, C93_refuted, C94_monotone, C95_determined_partial, C95_partial, C95_refuted, C95_slides_partial, C96_last, C96_partial, C97_exact, C97_message, C97_pair, C97_plain, C97_shape, C98_agrees, C98_exact, C98_message, C98_same, C98_sent, C99_exact, C99_newer, C99_partial
* **propext, Quot.sound** (185): C05_unique, C07_agree, C100_shared, C101_refuted, C101_unsent, C102_decode, C102_encode, C102_file, C102_left, C105_acknowledge, C105_partial, C105_refuted, C108_latin, C109_refused, C110_refuted, C111_again, C111_agrees, C111_kept, C111_part, C111_reads, C111_refuted, C111_snapshot_partial, C111_unreadable, C112_agrees, C112_emptied, C112_growing, C112_refuted, C113_agrees, C113_lost, C113_refuted, C113_unwritable, C113_written, C114_file, C114_text, C115_refuted, C117_refuted, C122_fails, C122_sent, C122_slides, C123_others, C20_range, C26_lenient, C26_strict, C30_cut, C36_cursor, C36_in_order, C36_refines, C37_minimal, C38_bool, C38_short_length, C39_decode, C39_partial, C39_refuted, C39_small_partial, C39_too_large, C40_decode, C40_encoded_partial, C40_encoded_refuted, C41_major_only, C41_refuted, C43_charset, C43_pair, C43_part, C44_unicode, C45_empty_subject, C45_refuted, C46_differences, C46_no_value, C46_quoted, C46_refuted, C47_data, C47_file, C47_named_file, C47_text, C48_deleted, C48_partial, C48_refuted, C49_bcc, C49_missing, C49_partial, C49_refuted, C49_unknown_octet, C50_parameter_consumes, C50_params, C51_mms_value, C51_sharp, C52_refuted, C53_audio_without_text, C53_document_partial, C53_partial, C53_refuted, C53_shown_partial, C53_text_moves, C54_accepts, C54_clip, C54_file, C54_history, C54_none, C54_rejected, C54_text, C55_never, C55_partial, C55_received_partial, C55_refuted, C56_partial, C56_set_partial, C57_any, C57_extract, C57_is_notification, C57_is_push, C57_other, C57_short, C57_uintvar_long, C57_uintvar_partial, C57_uintvar_refuted, C58_encode_partial, C58_refuted, C58_status_value, C59_accept_partial, C59_consequence, C59_mms_header_preview, C59_other_partial, C59_parameter_partial, C59_partial, C59_pragma_partial, C59_refuted, C59_refuted_accept, C59_refuted_pragma, C60_refuted, C60_text_iff, C60_text_partial, C62_other_name, C62_parameters, C62_table38, C62_table39, C63_encode_partial, C63_refuted, C67_encode, C67_length, C67_refuted, C67_unchanged_partial, C68_lost, C68_partial, C68_refuted, C68_result, C68_unwritable, C68_written_refuted, C69_control, C69_refuted, C69_text, C70_layout, C75_contents, C78_addDataPart, C78_addPage, C78_encode, C78_new, C78_newFromFile, C78_order, C78_others, C78_part, C78_reach, C78_setHeader, C78_slide, C78_slide_elsewhere, C78_smil, C80_data, C80_file, C80_new, C80_text, C81_accepts, C81_failed, C81_header, C81_pages, C81_parts, C81_refused, C86_pragma, C88_field_name, C88_refuted, C96_refuted, C97_other_exceptions, C98_beyond, C98_unsent, C99_kind, C99_refuted, C99_version
