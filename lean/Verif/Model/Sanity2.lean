import Verif.Model.Sanity
import Verif.Model.Wap
/-!
# Fidelity checks of the model: the rest of the project's own tests

Inputs and expected values are copied from `messaging/test`; the files over 3000 octets of `mms-data` are left out.
-/
set_option autoImplicit false

namespace Verif.Sanity
open Verif Verif.Mms

/-- the result is normal and satisfies the test -/
def okIs {α : Type} (r : Py α) (p : α → Bool) : Bool := match r with | .ok a => p a | .error _ => false
/-- the same for methods -/
def resIs {σ α : Type} (r : Res σ α) (p : α → Bool) : Bool := match r with | .ok a _ => p a | .err _ _ => false
/-- the same for optional values -/
def someIs {α : Type} (r : Option α) (p : α → Bool) : Bool := match r with | some a => p a | none => false

/-- the joined texts of decoded messages, as in test_wap.py -/
def texts : List Str → Option Str
  | [] => some []
  | p :: r =>
    match Deliver.smsDeliver p with
    | .ok s => s.text.bind fun t => (texts r).map (t ++ ·)
    | .error _ => none

-- test_converting_timedelta_to_validity
example : relativeValidity ⟨240 * 1000000⟩ = .error .valueError := by decide +kernel
example : relativeValidity ⟨38707200 * 1000000⟩ = .error .valueError := by decide +kernel
example : relativeValidity ⟨300 * 1000000⟩ = .ok 0 := by decide +kernel
example : relativeValidity ⟨360 * 1000000⟩ = .ok 0 := by decide +kernel
example : relativeValidity ⟨600 * 1000000⟩ = .ok 1 := by decide +kernel
example : relativeValidity ⟨43200 * 1000000⟩ = .ok 143 := by decide +kernel
example : relativeValidity ⟨46800 * 1000000⟩ = .ok 145 := by decide +kernel
example : relativeValidity ⟨86400 * 1000000⟩ = .ok 167 := by decide +kernel
example : relativeValidity ⟨172800 * 1000000⟩ = .ok 168 := by decide +kernel
example : relativeValidity ⟨2592000 * 1000000⟩ = .ok 196 := by decide +kernel
-- test_converting_datetime_to_validity
example : absoluteValidity { year := 1999, month := 2, day := 12, hour := 5, minute := 57, second := 30, off := some 180 } = .ok [0x99, 0x20, 0x21, 0x50, 0x75, 0x03, 33] := by decide +kernel
example : absoluteValidity { year := 1999, month := 2, day := 12, hour := 5, minute := 57, second := 30, off := none } = .ok [0x99, 0x20, 0x21, 0x50, 0x75, 0x03, 0] := by decide +kernel
example : absoluteValidity { year := 1999, month := 2, day := 12, hour := 5, minute := 57, second := 30, off := some (-180) } = .ok [0x99, 0x20, 0x21, 0x50, 0x75, 0x03, 41] := by decide +kernel
-- test_encoding_validity
example : pdus (submit (py! "+34616585119") (py! "hola") false (fun s => { s with ref := some 0 }))
    = some [py! "0001000B914316565811F9000004E8373B0C"] := by decide +kernel
example : pdus (submit (py! "+34616585119") (py! "hola") false (fun s => { s with ref := some 0, validity := .absolute { year := 2010, month := 7, day := 25, hour := 20, minute := 15, second := 39 } }))
    = some [py! "0019000B914316565811F900000170520251930004E8373B0C"] := by decide +kernel
example : pdus (submit (py! "+34616585119") (py! "hola") false (fun s => { s with ref := some 0, validity := .relative ⟨4 * 86400000000⟩ }))
    = some [py! "0011000B914316565811F90000AA04E8373B0C"] := by decide +kernel
-- test_encoding_csca
example : pdus (submit (py! "+34616585119") (py! "hola") false (fun s => { s with ref := some 0, csca := some (py! "+34646456456") }))
    = some [py! "07914346466554F601000B914316565811F9000004E8373B0C"] := by decide +kernel
example : ((submit (py! "+34616585119") (py! "hola") false (fun s => { s with ref := some 0, csca := some (py! "+34646456456") })).toOption.map (fun l => l.map (fun p => (p.length, p.cnt, p.seq)))) = some [(17, 1, 1)] := by decide +kernel
-- test_encoding_class
example : pdus (submit (py! "+34654123456") (py! "hey yo") false (fun s => { s with ref := some 0, klass := some 0 }))
    = some [py! "0001000B914356143254F6001006E8721E947F03"] := by decide +kernel
example : pdus (submit (py! "+34654123456") (py! "hey yo") false (fun s => { s with ref := some 0, klass := some 1 }))
    = some [py! "0001000B914356143254F6001106E8721E947F03"] := by decide +kernel
example : pdus (submit (py! "+34654123456") (py! "hey yo") false (fun s => { s with ref := some 0, klass := some 2 }))
    = some [py! "0001000B914356143254F6001206E8721E947F03"] := by decide +kernel
example : pdus (submit (py! "+34654123456") (py! "hey yo") false (fun s => { s with ref := some 0, klass := some 3 }))
    = some [py! "0001000B914356143254F6001306E8721E947F03"] := by decide +kernel
-- test_encoding_request_status
example : pdus (submit (py! "+34654123456") (py! "hey yo") false (fun s => { s with ref := some 0, requestStatus := true }))
    = some [py! "0021000B914356143254F6000006E8721E947F03"] := by decide +kernel
-- test_encoding_ucs2_message
example : pdus (submit (py! "655345678") ([1056, 1091, 1089, 1089, 1082, 1080, 1081]) true (fun s => { s with ref := some 0, validity := .relative ⟨4 * 86400000000⟩ }))
    = some [py! "001100098156355476F80008AA0E0420044304410441043A04380439"] := by decide +kernel
-- test_encoding_bad_number_raises_error
example : submit (py! "032BADNUMBER") (py! "text") false id = .error .valueError := by decide +kernel
-- test_encoding_bad_csca_raises_error
example : okIs (Submit.init (some (py! "54342342")) ⟨false, py! "text"⟩)
    (fun s => decide (Submit.setCsca (some (py! "1badcsca")) s = .err .valueError s)) = true := by decide +kernel
-- TestSubmitPduCounts
example : (pdus (submit (py! "+3530000000") (List.replicate 160 120 ++ List.replicate 0 120) false id)).map List.length = some 1 := by decide +kernel
example : (pdus (submit (py! "+3530000000") (List.replicate 161 120 ++ List.replicate 0 120) false id)).map List.length = some 2 := by decide +kernel
example : (pdus (submit (py! "+3530000000") (List.replicate 306 120 ++ List.replicate 0 120) false id)).map List.length = some 2 := by decide +kernel
example : (pdus (submit (py! "+3530000000") (List.replicate 306 120 ++ List.replicate 1 120) false id)).map List.length = some 3 := by decide +kernel
example : (pdus (submit (py! "+3530000000") (List.replicate 459 120 ++ List.replicate 0 120) false id)).map List.length = some 3 := by decide +kernel
example : (pdus (submit (py! "+3530000000") (List.replicate 459 120 ++ List.replicate 1 120) false id)).map List.length = some 4 := by decide +kernel
example : (pdus (submit (py! "+3530000000") (List.replicate 80 8364 ++ List.replicate 0 120) true id)).map List.length = some 1 := by decide +kernel
example : (pdus (submit (py! "+3530000000") (List.replicate 79 8364 ++ List.replicate 1 120) true id)).map List.length = some 1 := by decide +kernel
example : (pdus (submit (py! "+3530000000") (List.replicate 153 8364 ++ List.replicate 0 120) true id)).map List.length = some 3 := by decide +kernel
example : (pdus (submit (py! "+3530000000") (List.replicate 229 8364 ++ List.replicate 1 120) true id)).map List.length = some 4 := by decide +kernel
example : (pdus (submit (py! "+3530000000") (List.replicate 70 337 ++ List.replicate 0 120) true id)).map List.length = some 1 := by decide +kernel
example : (pdus (submit (py! "+3530000000") (List.replicate 70 337 ++ List.replicate 1 120) true id)).map List.length = some 2 := by decide +kernel
example : (pdus (submit (py! "+3530000000") (List.replicate 134 337 ++ List.replicate 0 120) true id)).map List.length = some 2 := by decide +kernel
example : (pdus (submit (py! "+3530000000") (List.replicate 134 337 ++ List.replicate 1 120) true id)).map List.length = some 3 := by decide +kernel
example : (pdus (submit (py! "+3530000000") (List.replicate 201 337 ++ List.replicate 0 120) true id)).map List.length = some 3 := by decide +kernel
example : (pdus (submit (py! "+3530000000") (List.replicate 201 337 ++ List.replicate 1 120) true id)).map List.length = some 4 := by decide +kernel
-- test_decoding_datetime_gmtminusthree
example : okIs (Deliver.smsDeliver (py! "0791553001000001040491578800000190115101112979CF340B342F9FEBE536E83D0791C3E4F71C440E83E6F53068FE66A7C7697A781C7EBB4050F99BFE1EBFD96F1D48068BC16030182E66ABD560B41988FC06D1D3F03768FA66A7C7697A781C7E83CCEF34282C2ECBE96F50B90D8AC55EB0DC4B068BC140B1994E16D3D1622E"))
    (fun s => decide (s.date = some { year := 2010, month := 9, day := 11, hour := 18, minute := 10, second := 11 })) = true := by decide +kernel
-- test_decoding_number_alphanumeric
example : okIs (Deliver.smsDeliver (py! "07919471060040340409D0C6A733390400009060920173018093CC74595C96838C4F6772085AD6DDE4320B444E9741D4B03C6D7EC3E9E9B71B9474D3CB727799DEA286CFE5B9991DA6CBC3F432E85E9793CBA0F09A9EB6A7CB72BA0B9474D3CB727799DE72D6E9FABAFB0CBAA7E56490BA4CD7D34170F91BE4ACD3F575F7794E0F9F4161F1B92C2F8FD1EE32DD054AA2E520E3D3991C82A8E5701B"))
    (fun s => decide (s.text = some (py! "Lieber FONIC Kunde, die Tarifoption Internet-Tagesflatrate wurde aktiviert. Internet-Nutzung wird jetzt pro Nutzungstag abgerechnet. Ihr FONIC Team") ∧ s.csca = some (py! "+491760000443") ∧ s.number = some (py! "FONIC"))) = true := by decide +kernel
-- test_decode_weird_multipart_german_pdu
example : okIs (Deliver.smsDeliver (py! "07919471227210244405852122F039F101506271217180A005000319020198E9B2B82C0759DFE4B0F9ED2EB7967537B9CC02B5D37450122D2FCB41EE303DFD7687D96537881A96A7CD6F383DFD7683F46134BBEC064DD36550DA0D22A7CBF3721BE42CD3F5A0198B56036DCA20B8FC0D6A0A4170767D0EAAE540433A082E7F83A6E5F93CFD76BB40D7B2DB0D9AA6CB2072BA3C2F83926EF31BE44E8FD17450BB8C9683CA"))
    (fun s => decide (s.text = some ([76, 105, 101, 98, 101, 114, 32, 86, 111, 100, 97, 102, 111, 110, 101, 45, 75, 117, 110, 100, 101, 44, 32, 109, 105, 116, 32, 73, 104, 114, 101, 114, 32, 110, 97, 116, 105, 111, 110, 97, 108, 101, 110, 32, 84, 97, 114, 105, 102, 111, 112, 116, 105, 111, 110, 32, 122, 97, 104, 108, 101, 110, 32, 83, 105, 101, 32, 105, 110, 32, 100, 105, 101, 115, 101, 109, 32, 78, 101, 116, 122, 32, 51, 44, 52, 53, 32, 8364, 32, 112, 114, 111, 32, 77, 66, 32, 112, 108, 117, 115, 32, 53, 57, 32, 67, 116, 32, 112, 114, 111, 32, 83, 101, 115, 115, 105, 111, 110, 46, 32, 87, 101, 110, 110, 32, 83, 105, 101, 32, 100, 105, 101, 115, 101, 32, 73, 110, 102, 111, 32, 110, 105, 99, 104, 116, 32, 109, 101, 104, 114, 32, 101]) ∧ s.udh = some { Udh.UserDataHeader.empty with concat := some ⟨25, 2, 1, true⟩, headers := [(0, [25, 2, 1])] })) = true := by decide +kernel
-- test_decode_weird_multipart_german_pdu
example : okIs (Deliver.smsDeliver (py! "07919471227210244405852122F039F1015062712181804F050003190202E4E8309B5E7683DAFC319A5E76B340F73D9A5D7683A6E93268FD9ED3CB6EF67B0E5AD172B19B2C2693C9602E90355D6683A6F0B007946E8382F5393BEC26BB00"))
    (fun s => decide (s.text = some ([114, 104, 97, 108, 116, 101, 110, 32, 109, 246, 99, 104, 116, 101, 110, 44, 32, 119, 228, 104, 108, 101, 110, 32, 83, 105, 101, 32, 107, 111, 115, 116, 101, 110, 108, 111, 115, 32, 43, 52, 57, 49, 55, 50, 49, 50, 50, 50, 48, 46, 32, 86, 105, 101, 108, 32, 83, 112, 97, 223, 32, 105, 109, 32, 65, 117, 115, 108, 97, 110, 100, 46]) ∧ s.udh = some { Udh.UserDataHeader.empty with concat := some ⟨25, 2, 2, true⟩, headers := [(0, [25, 2, 2])] })) = true := by decide +kernel
-- test_decoding_odd_length_pdu_strict_raises_valueerror
example : Deliver.smsDeliver (py! "07919471060040340409D0C6A733390400009060920173018093CC74595C96838C4F6772085AD6DDE4320B444E9741D4B03C6D7EC3E9E9B71B9474D3CB727799DEA286CFE5B9991DA6CBC3F432E85E9793CBA0F09A9EB6A7CB72BA0B9474D3CB727799DE72D6E9FABAFB0CBAA7E56490BA4CD7D34170F91BE4ACD3F575F7794E0F9F4161F1B92C2F8FD1EE32DD054AA2E520E3D3991C82A8E5701") = .error .valueError := by decide +kernel
-- test_decoding_odd_length_pdu_no_strict
example : okIs (Deliver.smsDeliver (py! "07919471060040340409D0C6A733390400009060920173018093CC74595C96838C4F6772085AD6DDE4320B444E9741D4B03C6D7EC3E9E9B71B9474D3CB727799DEA286CFE5B9991DA6CBC3F432E85E9793CBA0F09A9EB6A7CB72BA0B9474D3CB727799DE72D6E9FABAFB0CBAA7E56490BA4CD7D34170F91BE4ACD3F575F7794E0F9F4161F1B92C2F8FD1EE32DD054AA2E520E3D3991C82A8E5701") false)
    (fun s => decide (s.text = some (py! "Lieber FONIC Kunde, die Tarifoption Internet-Tagesflatrate wurde aktiviert. Internet-Nutzung wird jetzt pro Nutzungstag abgerechnet. Ihr FONIC Tea"))) = true := by decide +kernel
-- test_decoding_delivery_status_report
example : okIs (Deliver.smsDeliver (py! "0791538375000075061805810531F1019082416500400190824165004000"))
    (fun s => decide (s.csca = some (py! "+353857000057") ∧ (Deliver.data s).concat.map (fun c => c.1) = some 24 ∧ s.sr = some ⟨py! "50131", some { year := 2010, month := 9, day := 28, hour := 14, minute := 56, second := 0 }, some { year := 2010, month := 9, day := 28, hour := 14, minute := 56, second := 0 }, some 0⟩)) = true := by decide +kernel
-- test_decoding_delivery_status_report_without_smsc_address
example : okIs (Deliver.smsDeliver (py! "00060505810531F1010150610000400101506100004000"))
    (fun s => decide (s.csca = none ∧ (Deliver.data s).concat.map (fun c => c.1) = some 5 ∧ s.sr = some ⟨py! "50131", some { year := 2010, month := 10, day := 5, hour := 16, minute := 0, second := 0 }, some { year := 2010, month := 10, day := 5, hour := 16, minute := 0, second := 0 }, some 0⟩)) = true := by decide +kernel
-- test_wap.py test_decoding_m_notification_ind
example : okIs (Deliver.smsDeliver (py! "0791447758100650400E80885810000000810004016082415464408C0C08049F8E020105040B8423F00106226170706C69636174696F6E2F766E642E7761702E6D6D732D6D65737361676500AF848C82984E4F4B3543694B636F544D595347344D4253774141734B7631344655484141414141414141008D908919802B3434373738353334323734392F545950453D504C4D4E008A808E0274008805810301194083687474703A2F"))
    (fun s => decide (s.number = some (py! "88850100000018") ∧ s.udh.map (fun u => u.concat.map (fun c => (c.ref, c.cnt, c.seq))) = some (some (40846, 2, 1)))) = true := by decide +kernel
example : okIs (Deliver.smsDeliver (py! "0791447758100650440E8088581000000081000401608241547440440C08049F8E020205040B8423F02F70726F6D6D732F736572766C6574732F4E4F4B3543694B636F544D595347344D4253774141734B763134465548414141414141414100"))
    (fun s => decide (s.number = some (py! "88850100000018") ∧ s.udh.map (fun u => u.concat.map (fun c => (c.ref, c.cnt, c.seq))) = some (some (40846, 2, 2)))) = true := by decide +kernel
example : okIs (Deliver.smsDeliver (py! "0791447758100650400E80885810000000800004017002314303408C0C0804DFD3020105040B8423F00106226170706C69636174696F6E2F766E642E7761702E6D6D732D6D65737361676500AF848C82984E4F4B3541315A6446544D595347344F3356514141734A763934476F4E4141414141414141008D908919802B3434373731373237353034392F545950453D504C4D4E008A808E0274008805810303F47F83687474703A2F"))
    (fun s => decide (s.number = some (py! "88850100000008") ∧ s.udh.map (fun u => u.concat.map (fun c => (c.ref, c.cnt, c.seq))) = some (some (57299, 2, 1)))) = true := by decide +kernel
example : okIs (Deliver.smsDeliver (py! "0791447758100650440E8088581000000080000401700231431340440C0804DFD3020205040B8423F02F70726F6D6D732F736572766C6574732F4E4F4B3541315A6446544D595347344F3356514141734A763934476F4E414141414141414100"))
    (fun s => decide (s.number = some (py! "88850100000008") ∧ s.udh.map (fun u => u.concat.map (fun c => (c.ref, c.cnt, c.seq))) = some (some (57299, 2, 2)))) = true := by decide +kernel
-- test_decoding_generic_wap_push
example : okIs (Deliver.smsDeliver (py! "0791947122725014440C8500947122921105F5112042519582408C0B05040B8423F0000396020101060B03AE81EAC3958D01A2B48403056A0A20566F6461666F6E650045C60C037761702E6D65696E63616C6C79612E64652F000801035A756D206B6F7374656E6C6F73656E20506F7274616C20224D65696E0083000322202D2065696E66616368206175662064656E20666F6C67656E64656E204C696E6B206B6C69636B656E"))
    (fun s => decide (s.number = some (py! "004917222911") ∧ s.udh.map (fun u => u.concat.map (fun c => (c.ref, c.cnt, c.seq))) = some (some (150, 2, 1)))) = true := by decide +kernel
example : okIs (Deliver.smsDeliver (py! "0791947122725014440C8500947122921105F5112042519592403C0B05040B8423F00003960202206F6465722064696520536569746520646972656B7420617566727566656E2E2049687200830003205465616D000101"))
    (fun s => decide (s.number = some (py! "004917222911") ∧ s.udh.map (fun u => u.concat.map (fun c => (c.ref, c.cnt, c.seq))) = some (some (150, 2, 2)))) = true := by decide +kernel
example : someIs ((texts [py! "0791447758100650400E80885810000000810004016082415464408C0C08049F8E020105040B8423F00106226170706C69636174696F6E2F766E642E7761702E6D6D732D6D65737361676500AF848C82984E4F4B3543694B636F544D595347344D4253774141734B7631344655484141414141414141008D908919802B3434373738353334323734392F545950453D504C4D4E008A808E0274008805810301194083687474703A2F", py! "0791447758100650440E8088581000000081000401608241547440440C08049F8E020205040B8423F02F70726F6D6D732F736572766C6574732F4E4F4B3543694B636F544D595347344D4253774141734B763134465548414141414141414100"]).bind (fun d => (extractPushNotification d).toOption))
    (fun m => decide (isMmsNotification m = true ∧ m.headers.get (py! "Message-Type") = some (.v (.str (py! "m-notification-ind"))) ∧ m.headers.get (py! "Transaction-Id") = some (.v (.str (py! "NOK5CiKcoTMYSG4MBSwAAsKv14FUHAAAAAAAA"))) ∧ m.headers.get (py! "MMS-Version") = some (.v (.str (py! "1.0"))) ∧ m.headers.get (py! "From") = some (.v (.str (py! "+447785342749/TYPE=PLMN"))) ∧ m.headers.get (py! "Message-Class") = some (.v (.str (py! "Personal"))) ∧ m.headers.get (py! "Message-Size") = some (.v (.int 29696)) ∧ m.headers.get (py! "Expiry") = some (.v (.int 72000)) ∧ m.headers.get (py! "Content-Location") = some (.v (.str (py! "http://promms/servlets/NOK5CiKcoTMYSG4MBSwAAsKv14FUHAAAAAAAA"))))) = true := by decide +kernel
example : someIs ((texts [py! "0791447758100650400E80885810000000800004017002314303408C0C0804DFD3020105040B8423F00106226170706C69636174696F6E2F766E642E7761702E6D6D732D6D65737361676500AF848C82984E4F4B3541315A6446544D595347344F3356514141734A763934476F4E4141414141414141008D908919802B3434373731373237353034392F545950453D504C4D4E008A808E0274008805810303F47F83687474703A2F", py! "0791447758100650440E8088581000000080000401700231431340440C0804DFD3020205040B8423F02F70726F6D6D732F736572766C6574732F4E4F4B3541315A6446544D595347344F3356514141734A763934476F4E414141414141414100"]).bind (fun d => (extractPushNotification d).toOption))
    (fun m => decide (isMmsNotification m = true ∧ m.headers.get (py! "Message-Type") = some (.v (.str (py! "m-notification-ind"))) ∧ m.headers.get (py! "Transaction-Id") = some (.v (.str (py! "NOK5A1ZdFTMYSG4O3VQAAsJv94GoNAAAAAAAA"))) ∧ m.headers.get (py! "MMS-Version") = some (.v (.str (py! "1.0"))) ∧ m.headers.get (py! "From") = some (.v (.str (py! "+447717275049/TYPE=PLMN"))) ∧ m.headers.get (py! "Message-Class") = some (.v (.str (py! "Personal"))) ∧ m.headers.get (py! "Message-Size") = some (.v (.int 29696)) ∧ m.headers.get (py! "Expiry") = some (.v (.int 259199)) ∧ m.headers.get (py! "Content-Location") = some (.v (.str (py! "http://promms/servlets/NOK5A1ZdFTMYSG4O3VQAAsJv94GoNAAAAAAAA"))))) = true := by decide +kernel
example : (texts [py! "0791947122725014440C8500947122921105F5112042519582408C0B05040B8423F0000396020101060B03AE81EAC3958D01A2B48403056A0A20566F6461666F6E650045C60C037761702E6D65696E63616C6C79612E64652F000801035A756D206B6F7374656E6C6F73656E20506F7274616C20224D65696E0083000322202D2065696E66616368206175662064656E20666F6C67656E64656E204C696E6B206B6C69636B656E", py! "0791947122725014440C8500947122921105F5112042519592403C0B05040B8423F00003960202206F6465722064696520536569746520646972656B7420617566727566656E2E2049687200830003205465616D000101"]) = some ([1, 6, 11, 3, 174, 129, 234, 195, 149, 141, 1, 162, 180, 132, 3, 5, 106, 10, 32, 86, 111, 100, 97, 102, 111, 110, 101, 0, 69, 198, 12, 3, 119, 97, 112, 46, 109, 101, 105, 110, 99, 97, 108, 108, 121, 97, 46, 100, 101, 47, 0, 8, 1, 3, 90, 117, 109, 32, 107, 111, 115, 116, 101, 110, 108, 111, 115, 101, 110, 32, 80, 111, 114, 116, 97, 108, 32, 34, 77, 101, 105, 110, 0, 131, 0, 3, 34, 32, 45, 32, 101, 105, 110, 102, 97, 99, 104, 32, 97, 117, 102, 32, 100, 101, 110, 32, 102, 111, 108, 103, 101, 110, 100, 101, 110, 32, 76, 105, 110, 107, 32, 107, 108, 105, 99, 107, 101, 110, 32, 111, 100, 101, 114, 32, 100, 105, 101, 32, 83, 101, 105, 116, 101, 32, 100, 105, 114, 101, 107, 116, 32, 97, 117, 102, 114, 117, 102, 101, 110, 46, 32, 73, 104, 114, 0, 131, 0, 3, 32, 84, 101, 97, 109, 0, 1, 1]) := by decide +kernel
example : okIs (extractPushNotification ([1, 6, 11, 3, 174, 129, 234, 195, 149, 141, 1, 162, 180, 132, 3, 5, 106, 10, 32, 86, 111, 100, 97, 102, 111, 110, 101, 0, 69, 198, 12, 3, 119, 97, 112, 46, 109, 101, 105, 110, 99, 97, 108, 108, 121, 97, 46, 100, 101, 47, 0, 8, 1, 3, 90, 117, 109, 32, 107, 111, 115, 116, 101, 110, 108, 111, 115, 101, 110, 32, 80, 111, 114, 116, 97, 108, 32, 34, 77, 101, 105, 110, 0, 131, 0, 3, 34, 32, 45, 32, 101, 105, 110, 102, 97, 99, 104, 32, 97, 117, 102, 32, 100, 101, 110, 32, 102, 111, 108, 103, 101, 110, 100, 101, 110, 32, 76, 105, 110, 107, 32, 107, 108, 105, 99, 107, 101, 110, 32, 111, 100, 101, 114, 32, 100, 105, 101, 32, 83, 101, 105, 116, 101, 32, 100, 105, 114, 101, 107, 116, 32, 97, 117, 102, 114, 117, 102, 101, 110, 46, 32, 73, 104, 114, 0, 131, 0, 3, 32, 84, 101, 97, 109, 0, 1, 1]))
    (fun m => decide (isMmsNotification m = false)) = true := by decide +kernel
-- test_is_a_wap_push_notification
example : isAWapPushNotification (.str [1, 6, 57, 92, 45]) = .ok true ∧ isAWapPushNotification (.str [4, 5, 57, 92, 45]) = .ok false ∧ isAWapPushNotification (.int 1) = .error .typeError := by decide +kernel
-- test_udh.py
example : (toArray (py! "08049f8e020105040b8423f0")).bind Udh.fromBytes = .ok ⟨some ⟨40846, 2, 1, false⟩, some ⟨2948, 9200, false⟩, [(8, [159, 142, 2, 1]), (5, [11, 132, 35, 240])]⟩ := by decide +kernel
example : (toArray (py! "0003190201")).bind Udh.fromBytes = .ok ⟨some ⟨25, 2, 1, true⟩, none, [(0, [25, 2, 1])]⟩ := by decide +kernel
/-- test_gsm_encoding.py `MAP`: code point, code (two octets for the extension table) -/
def gsmMap : List (Nat × Nat) :=
  [(64, 0), (163, 1), (36, 2), (165, 3), (232, 4), (233, 5), (249, 6), (236, 7), (242, 8), (199, 9), (10, 10), (216, 11), (248, 12), (13, 13), (197, 14), (229, 15), (916, 16), (95, 17), (934, 18), (915, 19), (923, 20), (937, 21), (928, 22), (936, 23), (931, 24), (920, 25), (926, 26), (160, 27), (198, 28), (230, 29), (223, 30), (201, 31), (32, 32), (33, 33), (34, 34), (35, 35), (164, 36), (37, 37), (38, 38), (39, 39), (123, 6952), (125, 6953), (42, 42), (43, 43), (44, 44), (45, 45), (46, 46), (92, 6959), (48, 48), (49, 49), (50, 50), (51, 51), (52, 52), (53, 53), (54, 54), (55, 55), (56, 56), (57, 57), (58, 58), (59, 59), (91, 6972), (12, 6922), (93, 6974), (63, 63), (124, 6976), (65, 65), (66, 66), (67, 67), (68, 68), (69, 69), (70, 70), (71, 71), (72, 72), (73, 73), (74, 74), (75, 75), (76, 76), (77, 77), (78, 78), (79, 79), (80, 80), (81, 81), (82, 82), (83, 83), (84, 84), (85, 85), (86, 86), (87, 87), (88, 88), (89, 89), (90, 90), (196, 91), (214, 92), (209, 93), (220, 94), (167, 95), (191, 96), (97, 97), (98, 98), (99, 99), (100, 100), (8364, 7013), (102, 102), (103, 103), (104, 104), (60, 60), (106, 106), (107, 107), (108, 108), (109, 109), (110, 110), (126, 6973), (112, 112), (113, 113), (114, 114), (115, 115), (116, 116), (62, 62), (118, 118), (105, 105), (120, 120), (94, 6932), (122, 122), (228, 123), (246, 124), (241, 125), (252, 126), (224, 127), (161, 64), (47, 47), (111, 111), (117, 117), (119, 119), (121, 121), (101, 101), (61, 61), (40, 40), (41, 41)]
/-- `GREEK_MAP` and `QUIRK_MAP` -/
def greekMap : List (Nat × Nat) := [(913, 65), (914, 66), (917, 69), (919, 72), (921, 73), (922, 75), (924, 77), (925, 78), (927, 79), (929, 80), (932, 84), (935, 88), (933, 89), (918, 90), (231, 9)]
/-- the octets of a code -/
def octetsOf (n : Nat) : List Nat := if n ≤ 0xff then [n] else [n / 256, n % 256]
-- test_encoding_supported_unicode_gsm, test_decoding_supported_unicode_gsm, test_is_gsm_text_true
example : ∀ p ∈ gsmMap, (if p.1 = 0xa0 then Gsm.encode ⟨true, [p.1]⟩ .ignore = .ok [] else Gsm.encode ⟨true, [p.1]⟩ .ignore = .ok (octetsOf p.2)) ∧
    Gsm.decode .strict (octetsOf p.2) = .ok [p.1] ∧ Gsm.isGsmText ⟨true, [p.1]⟩ = decide (p.1 ≠ 0xa0) := by decide +kernel
-- test_encoding_supported_greek_unicode_gsm, test_encoding_supported_quirk_unicode_gsm
example : ∀ p ∈ greekMap, Gsm.encode ⟨true, [p.1]⟩ .replace = .ok (octetsOf p.2) := by decide +kernel
-- test_mms.py SIMPLE.MMS
example : okIs (decodeData [140, 132, 141, 144, 133, 4, 62, 3, 139, 32, 150, 83, 105, 109, 112, 108, 101, 32, 109, 101, 115, 115, 97, 103, 101, 0, 132, 179, 1, 32, 58, 131, 192, 34, 60, 51, 69, 48, 51, 48, 57, 57, 69, 46, 116, 120, 116, 62, 0, 142, 51, 69, 48, 51, 48, 57, 57, 69, 46, 116, 120, 116, 0, 84, 104, 105, 115, 32, 105, 115, 32, 97, 32, 115, 105, 109, 112, 108, 101, 32, 77, 77, 83, 32, 109, 101, 115, 115, 97, 103, 101, 32, 119, 105, 116, 104, 32, 97, 32, 115, 105, 110, 103, 108, 101, 32, 116, 101, 120, 116, 32, 98, 111, 100, 121, 32, 112, 97, 114, 116, 46])
    (fun m => decide (m.headers.length = 6 ∧ m.pages = [] ∧ m.dataParts.length = 1 ∧
    m.headers.get (py! "Transaction-Id") = some (.v (.str (py! "1234"))) ∧
    m.headers.get (py! "MMS-Version") = some (.v (.str (py! "1.0"))) ∧
    m.headers.get (py! "Message-Type") = some (.v (.str (py! "m-retrieve-conf"))) ∧
    m.headers.get (py! "Date") = some (.v (.dt { year := 2002, month := 12, day := 20, hour := 21, minute := 26, second := 56 })) ∧
    m.headers.get (py! "Content-Type") = some (.ct (py! "application/vnd.wap.multipart.related") []) ∧
    m.headers.get (py! "Subject") = some (.v (.str (py! "Simple message"))) ∧
    (m.dataParts[0]?.map fun p => p.headers.get (py! "Content-Type")) = some (some (.ct (py! "text/plain") [])) ∧
    (m.dataParts[0]?.map fun p => p.data) = some (some (py! "This is a simple MMS message with a single text body part.")))) = true := by decide +kernel
-- test_mms.py openwave.mms
example : okIs (decodeData [140, 128, 152, 49, 48, 54, 55, 50, 54, 51, 54, 55, 50, 0, 141, 144, 137, 24, 128, 43, 49, 54, 53, 48, 53, 53, 53, 48, 48, 48, 48, 47, 84, 89, 80, 69, 61, 80, 76, 77, 78, 0, 151, 49, 49, 50, 47, 84, 89, 80, 69, 61, 80, 76, 77, 78, 0, 150, 8, 132, 114, 117, 98, 114, 105, 107, 0, 138, 128, 143, 129, 134, 129, 132, 29, 179, 138, 60, 115, 109, 105, 108, 95, 48, 62, 0, 137, 97, 112, 112, 108, 105, 99, 97, 116, 105, 111, 110, 47, 115, 109, 105, 108, 0, 2, 28, 130, 100, 97, 112, 112, 108, 105, 99, 97, 116, 105, 111, 110, 47, 115, 109, 105, 108, 0, 192, 34, 60, 115, 109, 105, 108, 95, 48, 62, 0, 60, 115, 109, 105, 108, 62, 10, 32, 32, 60, 104, 101, 97, 100, 62, 10, 32, 32, 32, 32, 60, 108, 97, 121, 111, 117, 116, 62, 10, 32, 32, 32, 32, 32, 32, 60, 114, 111, 111, 116, 45, 108, 97, 121, 111, 117, 116, 32, 119, 105, 100, 116, 104, 61, 34, 49, 48, 48, 37, 34, 32, 104, 101, 105, 103, 104, 116, 61, 34, 49, 48, 48, 37, 34, 32, 47, 62, 10, 32, 32, 32, 32, 32, 32, 60, 114, 101, 103, 105, 111, 110, 32, 105, 100, 61, 34, 84, 101, 120, 116, 34, 32, 108, 101, 102, 116, 61, 34, 48, 37, 34, 32, 116, 111, 112, 61, 34, 48, 37, 34, 32, 119, 105, 100, 116, 104, 61, 34, 49, 48, 48, 37, 34, 32, 104, 101, 105, 103, 104, 116, 61, 34, 53, 48, 37, 34, 32, 47, 62, 10, 32, 32, 32, 32, 32, 32, 60, 114, 101, 103, 105, 111, 110, 32, 105, 100, 61, 34, 73, 109, 97, 103, 101, 34, 32, 108, 101, 102, 116, 61, 34, 48, 37, 34, 32, 116, 111, 112, 61, 34, 53, 48, 37, 34, 32, 119, 105, 100, 116, 104, 61, 34, 49, 48, 48, 37, 34, 32, 104, 101, 105, 103, 104, 116, 61, 34, 53, 48, 37, 34, 32, 47, 62, 10, 32, 32, 32, 32, 60, 47, 108, 97, 121, 111, 117, 116, 62, 10, 32, 32, 60, 47, 104, 101, 97, 100, 62, 10, 32, 32, 60, 98, 111, 100, 121, 62, 10, 32, 32, 32, 32, 60, 112, 97, 114, 32, 100, 117, 114, 61, 34, 51, 48, 48, 48, 48, 109, 115, 34, 62, 10, 32, 32, 32, 32, 32, 32, 60, 116, 101, 120, 116, 32, 115, 114, 99, 61, 34, 99, 105, 100, 58, 116, 101, 120, 116, 95, 48, 34, 32, 114, 101, 103, 105, 111, 110, 61, 34, 84, 101, 120, 116, 34, 32, 47, 62, 10, 32, 32, 32, 32, 60, 47, 112, 97, 114, 62, 10, 32, 32, 60, 47, 98, 111, 100, 121, 62, 10, 60, 47, 115, 109, 105, 108, 62, 10, 42, 6, 30, 116, 101, 120, 116, 47, 112, 108, 97, 105, 110, 0, 99, 104, 97, 114, 115, 101, 116, 0, 105, 115, 111, 45, 56, 56, 53, 57, 45, 49, 0, 192, 34, 60, 116, 101, 120, 116, 95, 48, 62, 0, 114, 117, 98, 114, 105, 107])
    (fun m => decide (m.headers.length = 10 ∧ m.pages = [] ∧ m.dataParts.length = 2 ∧
    m.headers.get (py! "From") = some (.v (.str (py! "+16505550000/TYPE=PLMN"))) ∧
    m.headers.get (py! "Message-Class") = some (.v (.str (py! "Personal"))) ∧
    m.headers.get (py! "Transaction-Id") = some (.v (.str (py! "1067263672"))) ∧
    m.headers.get (py! "MMS-Version") = some (.v (.str (py! "1.0"))) ∧
    m.headers.get (py! "Priority") = some (.v (.str (py! "Normal"))) ∧
    m.headers.get (py! "To") = some (.v (.str (py! "112/TYPE=PLMN"))) ∧
    m.headers.get (py! "Delivery-Report") = some (.v (.bool false)) ∧
    m.headers.get (py! "Message-Type") = some (.v (.str (py! "m-send-req"))) ∧
    m.headers.get (py! "Content-Type") = some (.ct (py! "application/vnd.wap.multipart.related") [(py! "Start", .str (py! "<smil_0>")), (py! "Type", .str (py! "application/smil"))]) ∧
    m.headers.get (py! "Subject") = some (.v (.str (py! "rubrik"))) ∧
    (m.dataParts[0]?.map fun p => p.headers.get (py! "Content-Type")) = some (some (.ct (py! "application/smil") [])) ∧
    (m.dataParts[0]?.map fun p => p.data) = some (some ([60, 115, 109, 105, 108, 62, 10, 32, 32, 60, 104, 101, 97, 100, 62, 10, 32, 32, 32, 32, 60, 108, 97, 121, 111, 117, 116, 62, 10, 32, 32, 32, 32, 32, 32, 60, 114, 111, 111, 116, 45, 108, 97, 121, 111, 117, 116, 32, 119, 105, 100, 116, 104, 61, 34, 49, 48, 48, 37, 34, 32, 104, 101, 105, 103, 104, 116, 61, 34, 49, 48, 48, 37, 34, 32, 47, 62, 10, 32, 32, 32, 32, 32, 32, 60, 114, 101, 103, 105, 111, 110, 32, 105, 100, 61, 34, 84, 101, 120, 116, 34, 32, 108, 101, 102, 116, 61, 34, 48, 37, 34, 32, 116, 111, 112, 61, 34, 48, 37, 34, 32, 119, 105, 100, 116, 104, 61, 34, 49, 48, 48, 37, 34, 32, 104, 101, 105, 103, 104, 116, 61, 34, 53, 48, 37, 34, 32, 47, 62, 10, 32, 32, 32, 32, 32, 32, 60, 114, 101, 103, 105, 111, 110, 32, 105, 100, 61, 34, 73, 109, 97, 103, 101, 34, 32, 108, 101, 102, 116, 61, 34, 48, 37, 34, 32, 116, 111, 112, 61, 34, 53, 48, 37, 34, 32, 119, 105, 100, 116, 104, 61, 34, 49, 48, 48, 37, 34, 32, 104, 101, 105, 103, 104, 116, 61, 34, 53, 48, 37, 34, 32, 47, 62, 10, 32, 32, 32, 32, 60, 47, 108, 97, 121, 111, 117, 116, 62, 10, 32, 32, 60, 47, 104, 101, 97, 100, 62, 10, 32, 32, 60, 98, 111, 100, 121, 62, 10, 32, 32, 32, 32, 60, 112, 97, 114, 32, 100, 117, 114, 61, 34, 51, 48, 48, 48, 48, 109, 115, 34, 62, 10, 32, 32, 32, 32, 32, 32, 60, 116, 101, 120, 116, 32, 115, 114, 99, 61, 34, 99, 105, 100, 58, 116, 101, 120, 116, 95, 48, 34, 32, 114, 101, 103, 105, 111, 110, 61, 34, 84, 101, 120, 116, 34, 32, 47, 62, 10, 32, 32, 32, 32, 60, 47, 112, 97, 114, 62, 10, 32, 32, 60, 47, 98, 111, 100, 121, 62, 10, 60, 47, 115, 109, 105, 108, 62, 10])) ∧
    (m.dataParts[1]?.map fun p => p.data) = some (some (py! "rubrik")))) = true := by decide +kernel
-- test_mms.py 27d0a048cd79555de05283a22372b0eb.mms
example : okIs (decodeData [140, 128, 152, 51, 45, 51, 49, 99, 98, 0, 141, 144, 133, 4, 64, 176, 177, 226, 137, 1, 129, 151, 49, 50, 51, 47, 84, 89, 80, 69, 61, 80, 76, 77, 78, 0, 150, 29, 234, 65, 110, 103, 195, 165, 101, 110, 100, 101, 32, 97, 114, 116, 45, 116, 105, 108, 108, 104, 195, 182, 114, 105, 103, 104, 101, 116, 0, 138, 128, 143, 129, 148, 129, 134, 129, 144, 129, 132, 27, 179, 137, 97, 112, 112, 108, 105, 99, 97, 116, 105, 111, 110, 47, 115, 109, 105, 108, 0, 138, 60, 65, 65, 65, 65, 62, 0, 3, 38, 129, 6, 12, 161, 133, 82, 97, 105, 110, 46, 119, 98, 109, 112, 0, 192, 34, 60, 82, 97, 105, 110, 46, 119, 98, 109, 112, 62, 0, 142, 82, 97, 105, 110, 46, 119, 98, 109, 112, 0, 0, 0, 128, 32, 128, 32, 255, 240, 63, 255, 255, 199, 143, 255, 255, 159, 231, 255, 255, 63, 244, 63, 241, 127, 241, 143, 196, 127, 247, 231, 159, 63, 239, 243, 63, 255, 255, 251, 127, 255, 255, 251, 127, 255, 255, 243, 127, 255, 255, 247, 127, 255, 255, 231, 63, 255, 255, 207, 143, 255, 135, 31, 227, 128, 24, 127, 252, 63, 255, 255, 255, 255, 255, 255, 254, 238, 238, 255, 254, 102, 102, 127, 254, 102, 102, 127, 255, 255, 255, 255, 255, 187, 187, 191, 255, 153, 153, 159, 255, 153, 153, 159, 255, 255, 255, 255, 255, 238, 238, 239, 255, 230, 102, 103, 255, 230, 102, 103, 255, 255, 255, 255, 255, 251, 187, 187, 255, 249, 153, 153, 255, 249, 153, 153, 34, 19, 12, 131, 133, 109, 109, 115, 46, 116, 120, 116, 0, 129, 234, 192, 34, 60, 109, 109, 115, 46, 116, 120, 116, 62, 0, 142, 109, 109, 115, 46, 116, 120, 116, 0, 74, 111, 110, 97, 116, 97, 110, 32, 195, 164, 114, 32, 101, 110, 32, 103, 110, 117, 46, 39, 130, 123, 29, 97, 112, 112, 108, 105, 99, 97, 116, 105, 111, 110, 47, 115, 109, 105, 108, 0, 133, 109, 109, 115, 46, 115, 109, 105, 108, 0, 129, 234, 192, 34, 60, 65, 65, 65, 65, 62, 0, 60, 115, 109, 105, 108, 62, 60, 104, 101, 97, 100, 62, 60, 108, 97, 121, 111, 117, 116, 62, 60, 114, 111, 111, 116, 45, 108, 97, 121, 111, 117, 116, 32, 104, 101, 105, 103, 104, 116, 61, 34, 50, 52, 48, 112, 120, 34, 32, 119, 105, 100, 116, 104, 61, 34, 49, 54, 48, 112, 120, 34, 47, 62, 13, 10, 60, 114, 101, 103, 105, 111, 110, 32, 105, 100, 61, 34, 73, 109, 97, 103, 101, 34, 32, 116, 111, 112, 61, 34, 48, 34, 32, 108, 101, 102, 116, 61, 34, 48, 34, 32, 104, 101, 105, 103, 104, 116, 61, 34, 53, 48, 37, 34, 32, 119, 105, 100, 116, 104, 61, 34, 49, 48, 48, 37, 34, 32, 102, 105, 116, 61, 34, 104, 105, 100, 100, 101, 110, 34, 47, 62, 13, 10, 60, 114, 101, 103, 105, 111, 110, 32, 105, 100, 61, 34, 84, 101, 120, 116, 34, 32, 116, 111, 112, 61, 34, 53, 48, 37, 34, 32, 108, 101, 102, 116, 61, 34, 48, 34, 32, 104, 101, 105, 103, 104, 116, 61, 34, 53, 48, 37, 34, 32, 119, 105, 100, 116, 104, 61, 34, 49, 48, 48, 37, 34, 32, 102, 105, 116, 61, 34, 104, 105, 100, 100, 101, 110, 34, 47, 62, 13, 10, 60, 47, 108, 97, 121, 111, 117, 116, 62, 13, 10, 60, 47, 104, 101, 97, 100, 62, 13, 10, 60, 98, 111, 100, 121, 62, 60, 112, 97, 114, 32, 100, 117, 114, 61, 34, 50, 48, 48, 48, 109, 115, 34, 62, 60, 105, 109, 103, 32, 115, 114, 99, 61, 34, 82, 97, 105, 110, 46, 119, 98, 109, 112, 34, 32, 114, 101, 103, 105, 111, 110, 61, 34, 73, 109, 97, 103, 101, 34, 62, 60, 47, 105, 109, 103, 62, 13, 10, 60, 116, 101, 120, 116, 32, 115, 114, 99, 61, 34, 109, 109, 115, 46, 116, 120, 116, 34, 32, 114, 101, 103, 105, 111, 110, 61, 34, 84, 101, 120, 116, 34, 62, 60, 47, 116, 101, 120, 116, 62, 13, 10, 60, 47, 112, 97, 114, 62, 13, 10, 60, 47, 98, 111, 100, 121, 62, 13, 10, 60, 47, 115, 109, 105, 108, 62, 13, 10])
    (fun m => decide (m.headers.length = 13 ∧ m.pages = [] ∧ m.dataParts.length = 3 ∧
    m.headers.get (py! "Sender-Visibility") = some (.v (.str (py! "Show"))) ∧
    m.headers.get (py! "From") = some (.v (.str (py! "<not inserted>"))) ∧
    m.headers.get (py! "Read-Reply") = some (.v (.bool false)) ∧
    m.headers.get (py! "Message-Class") = some (.v (.str (py! "Personal"))) ∧
    m.headers.get (py! "Transaction-Id") = some (.v (.str (py! "3-31cb"))) ∧
    m.headers.get (py! "MMS-Version") = some (.v (.str (py! "1.0"))) ∧
    m.headers.get (py! "Priority") = some (.v (.str (py! "Normal"))) ∧
    m.headers.get (py! "To") = some (.v (.str (py! "123/TYPE=PLMN"))) ∧
    m.headers.get (py! "Delivery-Report") = some (.v (.bool false)) ∧
    m.headers.get (py! "Message-Type") = some (.v (.str (py! "m-send-req"))) ∧
    m.headers.get (py! "Date") = some (.v (.dt { year := 2004, month := 5, day := 23, hour := 14, minute := 14, second := 58 })) ∧
    m.headers.get (py! "Content-Type") = some (.ct (py! "application/vnd.wap.multipart.related") [(py! "Type", .str (py! "application/smil")), (py! "Start", .str (py! "<AAAA>"))]) ∧
    m.headers.get (py! "Subject") = some (.v (.str ([65, 110, 103, 195, 165, 101, 110, 100, 101, 32, 97, 114, 116, 45, 116, 105, 108, 108, 104, 195, 182, 114, 105, 103, 104, 101, 116]))) ∧
    (m.dataParts[0]?.map fun p => p.headers.get (py! "Content-Type")) = some (some (.ct (py! "image/vnd.wap.wbmp") [(py! "Name", .str (py! "Rain.wbmp"))])) ∧
    (m.dataParts[1]?.map fun p => p.headers.get (py! "Content-Type")) = some (some (.ct (py! "text/plain") [(py! "Name", .str (py! "mms.txt")), (py! "Charset", .str (py! "utf-8"))])) ∧
    (m.dataParts[1]?.map fun p => p.data) = some (some ([74, 111, 110, 97, 116, 97, 110, 32, 195, 164, 114, 32, 101, 110, 32, 103, 110, 117, 46])) ∧
    (m.dataParts[2]?.map fun p => p.headers.get (py! "Content-Type")) = some (some (.ct (py! "application/smil") [(py! "Name", .str (py! "mms.smil")), (py! "Charset", .str (py! "utf-8"))])) ∧
    (m.dataParts[2]?.map fun p => p.data) = some (some ([60, 115, 109, 105, 108, 62, 60, 104, 101, 97, 100, 62, 60, 108, 97, 121, 111, 117, 116, 62, 60, 114, 111, 111, 116, 45, 108, 97, 121, 111, 117, 116, 32, 104, 101, 105, 103, 104, 116, 61, 34, 50, 52, 48, 112, 120, 34, 32, 119, 105, 100, 116, 104, 61, 34, 49, 54, 48, 112, 120, 34, 47, 62, 13, 10, 60, 114, 101, 103, 105, 111, 110, 32, 105, 100, 61, 34, 73, 109, 97, 103, 101, 34, 32, 116, 111, 112, 61, 34, 48, 34, 32, 108, 101, 102, 116, 61, 34, 48, 34, 32, 104, 101, 105, 103, 104, 116, 61, 34, 53, 48, 37, 34, 32, 119, 105, 100, 116, 104, 61, 34, 49, 48, 48, 37, 34, 32, 102, 105, 116, 61, 34, 104, 105, 100, 100, 101, 110, 34, 47, 62, 13, 10, 60, 114, 101, 103, 105, 111, 110, 32, 105, 100, 61, 34, 84, 101, 120, 116, 34, 32, 116, 111, 112, 61, 34, 53, 48, 37, 34, 32, 108, 101, 102, 116, 61, 34, 48, 34, 32, 104, 101, 105, 103, 104, 116, 61, 34, 53, 48, 37, 34, 32, 119, 105, 100, 116, 104, 61, 34, 49, 48, 48, 37, 34, 32, 102, 105, 116, 61, 34, 104, 105, 100, 100, 101, 110, 34, 47, 62, 13, 10, 60, 47, 108, 97, 121, 111, 117, 116, 62, 13, 10, 60, 47, 104, 101, 97, 100, 62, 13, 10, 60, 98, 111, 100, 121, 62, 60, 112, 97, 114, 32, 100, 117, 114, 61, 34, 50, 48, 48, 48, 109, 115, 34, 62, 60, 105, 109, 103, 32, 115, 114, 99, 61, 34, 82, 97, 105, 110, 46, 119, 98, 109, 112, 34, 32, 114, 101, 103, 105, 111, 110, 61, 34, 73, 109, 97, 103, 101, 34, 62, 60, 47, 105, 109, 103, 62, 13, 10, 60, 116, 101, 120, 116, 32, 115, 114, 99, 61, 34, 109, 109, 115, 46, 116, 120, 116, 34, 32, 114, 101, 103, 105, 111, 110, 61, 34, 84, 101, 120, 116, 34, 62, 60, 47, 116, 101, 120, 116, 62, 13, 10, 60, 47, 112, 97, 114, 62, 13, 10, 60, 47, 98, 111, 100, 121, 62, 13, 10, 60, 47, 115, 109, 105, 108, 62, 13, 10])))) = true := by decide +kernel
-- test_mms.py SEC-SGHS300M.mms
example : okIs (decodeData [140, 128, 152, 51, 49, 56, 56, 55, 0, 141, 144, 137, 1, 129, 151, 48, 55, 51, 56, 51, 52, 53, 54, 54, 52, 47, 84, 89, 80, 69, 61, 80, 76, 77, 78, 0, 150, 4, 234, 73, 76, 0, 138, 128, 148, 129, 134, 129, 144, 129, 132, 163, 1, 31, 2, 3, 131, 129, 234, 192, 34, 49, 50, 53, 57, 52, 51, 48, 46, 116, 120, 116, 0, 142, 49, 50, 53, 57, 52, 51, 48, 46, 116, 120, 116, 0, 72, 86])
    (fun m => decide (m.headers.length = 11 ∧ m.pages = [] ∧ m.dataParts.length = 1 ∧
    m.headers.get (py! "Sender-Visibility") = some (.v (.str (py! "Show"))) ∧
    m.headers.get (py! "From") = some (.v (.str (py! "<not inserted>"))) ∧
    m.headers.get (py! "Read-Reply") = some (.v (.bool false)) ∧
    m.headers.get (py! "Message-Class") = some (.v (.str (py! "Personal"))) ∧
    m.headers.get (py! "Transaction-Id") = some (.v (.str (py! "31887"))) ∧
    m.headers.get (py! "MMS-Version") = some (.v (.str (py! "1.0"))) ∧
    m.headers.get (py! "To") = some (.v (.str (py! "0738345664/TYPE=PLMN"))) ∧
    m.headers.get (py! "Delivery-Report") = some (.v (.bool false)) ∧
    m.headers.get (py! "Message-Type") = some (.v (.str (py! "m-send-req"))) ∧
    m.headers.get (py! "Subject") = some (.v (.str (py! "IL"))) ∧
    m.headers.get (py! "Content-Type") = some (.ct (py! "application/vnd.wap.multipart.mixed") []) ∧
    (m.dataParts[0]?.map fun p => p.headers.get (py! "Content-Type")) = some (some (.ct (py! "text/plain") [(py! "Charset", .str (py! "utf-8"))])) ∧
    (m.dataParts[0]?.map fun p => p.data) = some (some (py! "HV")))) = true := by decide +kernel
-- test_mms.py projekt_exempel.mms
example : okIs (decodeData [140, 128, 152, 52, 45, 102, 99, 54, 48, 0, 141, 144, 133, 4, 64, 176, 191, 164, 137, 1, 129, 151, 49, 50, 51, 52, 53, 47, 84, 89, 80, 69, 61, 80, 76, 77, 78, 0, 150, 72, 101, 106, 0, 138, 128, 143, 129, 148, 129, 134, 129, 144, 129, 132, 27, 179, 137, 97, 112, 112, 108, 105, 99, 97, 116, 105, 111, 110, 47, 115, 109, 105, 108, 0, 138, 60, 65, 65, 65, 65, 62, 0, 3, 34, 18, 12, 131, 133, 109, 109, 115, 46, 116, 120, 116, 0, 129, 234, 192, 34, 60, 109, 109, 115, 46, 116, 120, 116, 62, 0, 142, 109, 109, 115, 46, 116, 120, 116, 0, 74, 111, 110, 97, 116, 97, 110, 32, 195, 164, 114, 32, 101, 110, 32, 71, 78, 85, 44, 142, 99, 14, 157, 133, 83, 111, 110, 121, 104, 69, 114, 46, 103, 105, 102, 0, 192, 34, 60, 83, 111, 110, 121, 104, 69, 114, 46, 103, 105, 102, 62, 0, 142, 83, 111, 110, 121, 104, 69, 114, 46, 103, 105, 102, 0, 71, 73, 70, 56, 57, 97, 101, 0, 80, 0, 247, 0, 0, 255, 73, 85, 219, 73, 85, 183, 73, 85, 146, 73, 85, 255, 37, 85, 255, 146, 170, 219, 37, 85, 110, 73, 85, 255, 0, 85, 183, 37, 85, 219, 146, 170, 219, 0, 85, 255, 110, 170, 146, 37, 85, 183, 0, 85, 255, 73, 170, 219, 110, 170, 146, 0, 85, 255, 37, 170, 183, 146, 170, 255, 0, 170, 219, 73, 170, 110, 37, 85, 219, 37, 170, 110, 0, 85, 219, 0, 170, 183, 110, 170, 183, 73, 170, 183, 37, 170, 183, 0, 170, 255, 0, 255, 255, 37, 255, 255, 73, 255, 255, 110, 255, 255, 146, 255, 255, 183, 255, 255, 219, 255, 219, 0, 255, 146, 0, 170, 73, 0, 85, 219, 37, 255, 146, 37, 170, 219, 73, 255, 146, 73, 170, 219, 110, 255, 73, 37, 85, 183, 0, 255, 183, 37, 255, 219, 146, 255, 110, 0, 170, 183, 73, 255, 146, 110, 170, 146, 0, 255, 110, 37, 170, 183, 110, 255, 146, 37, 255, 219, 183, 255, 110, 0, 255, 37, 0, 85, 73, 0, 170, 146, 73, 255, 110, 73, 170, 183, 146, 255, 110, 37, 255, 73, 0, 255, 73, 37, 170, 146, 110, 255, 37, 0, 170, 110, 73, 255, 73, 37, 255, 37, 0, 255, 0, 0, 255, 0, 0, 170, 0, 0, 85, 37, 37, 255, 37, 37, 170, 73, 73, 255, 73, 73, 170, 110, 110, 255, 37, 37, 85, 146, 146, 255, 110, 110, 170, 183, 183, 255, 219, 219, 255, 146, 146, 170, 73, 73, 85, 0, 37, 255, 37, 73, 255, 0, 37, 170, 73, 110, 255, 110, 146, 255, 37, 73, 170, 0, 73, 255, 37, 110, 255, 146, 183, 255, 73, 110, 170, 73, 146, 255, 0, 110, 255, 0, 73, 170, 0, 37, 85, 37, 146, 255, 110, 183, 255, 183, 219, 255, 37, 110, 170, 0, 146, 255, 110, 146, 170, 73, 183, 255, 0, 110, 170, 37, 183, 255, 146, 219, 255, 0, 183, 255, 73, 146, 170, 110, 219, 255, 37, 73, 85, 73, 219, 255, 37, 219, 255, 37, 146, 170, 0, 219, 255, 0, 146, 170, 0, 73, 85, 0, 255, 255, 37, 255, 255, 73, 255, 255, 110, 255, 255, 146, 255, 255, 183, 255, 255, 219, 255, 255, 0, 183, 170, 37, 183, 170, 73, 183, 170, 110, 183, 170, 0, 219, 170, 0, 110, 85, 37, 219, 170, 0, 255, 170, 73, 219, 170, 37, 110, 85, 146, 183, 170, 37, 255, 170, 0, 146, 85, 73, 255, 170, 110, 219, 170, 0, 183, 85, 37, 146, 85, 110, 255, 170, 0, 219, 85, 0, 255, 85, 37, 183, 85, 73, 110, 85, 146, 219, 170, 37, 219, 85, 37, 255, 85, 146, 255, 170, 73, 146, 85, 73, 183, 85, 73, 255, 85, 73, 219, 85, 0, 255, 0, 0, 219, 0, 0, 183, 0, 0, 146, 0, 0, 110, 0, 0, 73, 0, 0, 37, 0, 37, 255, 0, 110, 255, 85, 37, 219, 0, 183, 255, 170, 110, 219, 85, 37, 183, 0, 37, 146, 0, 110, 183, 85, 183, 219, 170, 73, 255, 0, 73, 219, 0, 37, 110, 0, 146, 255, 85, 73, 183, 0, 110, 146, 85, 110, 255, 0, 146, 219, 85, 110, 219, 0, 73, 146, 0, 37, 73, 0, 146, 255, 0, 183, 255, 85, 219, 255, 170, 110, 183, 0, 146, 183, 85, 73, 110, 0, 146, 219, 0, 183, 255, 0, 183, 219, 85, 110, 146, 0, 146, 183, 0, 219, 255, 85, 183, 219, 0, 219, 255, 0, 255, 255, 0, 219, 219, 0, 183, 183, 0, 146, 146, 0, 110, 110, 0, 73, 73, 0, 37, 37, 0, 255, 255, 85, 219, 219, 85, 183, 183, 85, 146, 146, 85, 255, 255, 170, 110, 110, 85, 219, 219, 170, 183, 183, 170, 255, 219, 0, 219, 183, 0, 183, 146, 0, 255, 219, 85, 146, 110, 0, 219, 183, 85, 255, 183, 0, 219, 146, 0, 110, 73, 0, 183, 146, 85, 183, 110, 0, 255, 146, 0, 255, 183, 85, 255, 219, 170, 219, 110, 0, 146, 73, 0, 73, 37, 0, 219, 146, 85, 255, 110, 0, 183, 73, 0, 146, 110, 85, 255, 146, 85, 219, 73, 0, 110, 37, 0, 255, 73, 0, 219, 183, 170, 146, 37, 0, 183, 110, 85, 183, 37, 0, 219, 37, 0, 219, 110, 85, 255, 37, 0, 255, 110, 85, 255, 183, 170, 255, 0, 0, 219, 0, 0, 183, 0, 0, 146, 0, 0, 110, 0, 0, 73, 0, 0, 37, 0, 0, 255, 255, 255, 0, 0, 0, 44, 0, 0, 0, 0, 101, 0, 80, 0, 0, 8, 255, 0, 253, 9, 28, 72, 176, 160, 193, 131, 8, 19, 42, 92, 200, 176, 161, 195, 135, 16, 35, 74, 156, 72, 177, 162, 197, 139, 24, 51, 106, 220, 200, 177, 163, 199, 143, 32, 67, 138, 28, 73, 178, 164, 201, 147, 40, 83, 170, 92, 201, 178, 165, 203, 151, 48, 99, 202, 156, 73, 179, 166, 205, 155, 56, 115, 234, 220, 201, 179, 167, 207, 159, 52, 167, 248, 19, 42, 212, 15, 80, 141, 83, 166, 37, 77, 234, 103, 74, 180, 41, 77, 253, 145, 56, 58, 113, 74, 210, 105, 36, 132, 74, 149, 26, 213, 143, 56, 63, 89, 169, 62, 156, 66, 77, 233, 20, 86, 137, 100, 61, 66, 148, 137, 149, 84, 93, 83, 253, 68, 3, 107, 84, 108, 66, 178, 101, 211, 34, 18, 197, 183, 175, 40, 89, 2, 161, 134, 197, 170, 213, 110, 65, 188, 212, 210, 32, 146, 69, 201, 47, 223, 81, 162, 10, 251, 163, 235, 85, 178, 225, 105, 84, 168, 37, 138, 51, 138, 202, 80, 81, 163, 66, 139, 30, 229, 150, 4, 216, 201, 92, 149, 26, 14, 156, 153, 10, 104, 81, 148, 208, 34, 138, 131, 232, 209, 218, 80, 136, 166, 14, 4, 251, 149, 168, 229, 163, 153, 101, 65, 190, 181, 247, 21, 171, 41, 154, 52, 77, 154, 244, 104, 81, 165, 221, 92, 193, 62, 157, 230, 143, 186, 88, 106, 84, 100, 141, 17, 133, 232, 213, 171, 76, 141, 88, 157, 255, 66, 213, 72, 249, 36, 77, 69, 5, 202, 157, 106, 117, 168, 213, 223, 60, 167, 64, 163, 18, 135, 248, 43, 68, 141, 96, 85, 66, 69, 139, 85, 249, 243, 133, 77, 101, 90, 117, 70, 97, 165, 75, 82, 84, 81, 65, 69, 99, 136, 168, 242, 8, 42, 167, 176, 162, 203, 41, 149, 236, 167, 73, 32, 211, 24, 69, 23, 106, 3, 90, 213, 212, 82, 64, 177, 34, 13, 21, 183, 60, 226, 224, 42, 149, 72, 232, 199, 52, 227, 145, 87, 154, 80, 186, 112, 101, 26, 9, 6, 210, 184, 20, 124, 56, 81, 19, 133, 52, 182, 101, 162, 9, 45, 152, 156, 98, 84, 132, 251, 177, 146, 149, 92, 83, 12, 88, 157, 86, 239, 173, 72, 150, 117, 61, 205, 39, 139, 42, 153, 76, 66, 94, 127, 167, 176, 72, 75, 138, 67, 193, 197, 36, 53, 153, 32, 114, 11, 37, 137, 144, 0, 151, 82, 74, 81, 227, 211, 20, 210, 68, 33, 139, 114, 23, 162, 194, 95, 133, 21, 18, 6, 22, 81, 171, 60, 18, 10, 104, 162, 81, 98, 86, 154, 212, 224, 88, 19, 53, 109, 82, 225, 227, 121, 228, 53, 66, 75, 127, 239, 25, 232, 15, 43, 122, 238, 249, 88, 104, 176, 161, 73, 205, 165, 130, 210, 68, 133, 52, 210, 64, 147, 70, 114, 201, 173, 130, 74, 138, 211, 160, 249, 161, 32, 205, 17, 66, 72, 40, 119, 240, 9, 217, 95, 100, 225, 255, 5, 165, 78, 155, 182, 57, 31, 21, 105, 8, 146, 200, 165, 82, 80, 99, 134, 82, 36, 176, 162, 9, 40, 139, 128, 18, 138, 164, 148, 66, 118, 199, 43, 129, 94, 122, 105, 79, 105, 72, 147, 137, 44, 81, 80, 113, 235, 4, 206, 82, 227, 14, 14, 211, 8, 50, 201, 34, 197, 170, 42, 74, 171, 162, 129, 230, 93, 26, 206, 102, 214, 83, 58, 85, 100, 50, 237, 12, 10, 82, 145, 8, 182, 212, 72, 129, 150, 38, 139, 52, 7, 202, 170, 146, 242, 9, 218, 29, 136, 16, 146, 73, 186, 106, 242, 180, 105, 149, 143, 76, 107, 237, 4, 137, 200, 187, 74, 38, 142, 228, 75, 44, 33, 251, 142, 235, 234, 107, 222, 81, 114, 169, 188, 5, 239, 68, 69, 21, 148, 168, 50, 9, 177, 182, 149, 220, 156, 196, 224, 26, 123, 7, 178, 201, 130, 214, 163, 188, 19, 168, 107, 48, 200, 142, 16, 27, 74, 177, 224, 230, 76, 108, 184, 161, 172, 218, 87, 178, 163, 180, 106, 226, 192, 241, 206, 154, 19, 43, 32, 235, 187, 42, 197, 160, 16, 107, 51, 191, 132, 252, 60, 154, 197, 136, 104, 242, 136, 44, 241, 66, 147, 41, 77, 210, 84, 129, 136, 211, 61, 171, 218, 243, 216, 61, 247, 117, 71, 185, 144, 189, 250, 200, 36, 153, 40, 56, 95, 26, 186, 241, 52, 3, 200, 197, 234, 41, 202, 158, 252, 150, 109, 177, 191, 201, 182, 255, 42, 10, 156, 183, 74, 211, 49, 79, 212, 44, 83, 133, 137, 204, 57, 230, 183, 212, 83, 111, 199, 215, 121, 154, 96, 141, 181, 52, 91, 7, 69, 73, 21, 135, 79, 146, 202, 35, 142, 189, 54, 245, 171, 175, 222, 241, 8, 156, 84, 68, 145, 206, 136, 71, 81, 19, 7, 200, 144, 63, 50, 218, 235, 124, 183, 186, 221, 43, 203, 69, 46, 77, 26, 59, 14, 238, 147, 52, 183, 180, 203, 137, 168, 153, 188, 14, 180, 231, 124, 45, 178, 220, 36, 212, 206, 192, 169, 103, 84, 77, 129, 121, 187, 114, 210, 130, 74, 38, 23, 83, 186, 93, 171, 20, 155, 152, 48, 167, 220, 87, 158, 99, 28, 229, 180, 75, 11, 44, 167, 156, 66, 75, 152, 183, 180, 234, 247, 177, 56, 131, 194, 118, 155, 156, 106, 188, 26, 125, 85, 180, 64, 73, 138, 229, 159, 2, 139, 244, 160, 50, 247, 136, 211, 143, 224, 158, 52, 46, 39, 133, 213, 8, 132, 10, 204, 88, 93, 21, 100, 193, 10, 22, 157, 2, 19, 210, 227, 68, 114, 54, 231, 32, 74, 28, 32, 10, 85, 232, 90, 21, 152, 103, 64, 127, 80, 163, 10, 204, 120, 94, 167, 18, 193, 11, 57, 173, 66, 19, 153, 120, 4, 37, 46, 215, 181, 203, 97, 78, 119, 6, 156, 70, 20, 226, 16, 194, 56, 40, 16, 100, 46, 124, 158, 14, 51, 232, 61, 170, 124, 176, 126, 85, 80, 96, 11, 72, 118, 168, 67, 249, 117, 48, 33, 126, 160, 198, 229, 202, 65, 195, 250, 180, 224, 22, 113, 88, 198, 234, 140, 120, 68, 134, 144, 69, 65, 233, 216, 209, 136, 50, 99, 180, 42, 122, 241, 139, 96, 12, 163, 24, 199, 72, 198, 50, 154, 241, 140, 104, 76, 163, 26, 215, 200, 198, 54, 186, 241, 141, 112, 140, 163, 28, 231, 72, 199, 131, 4, 4, 0, 59, 39, 130, 125, 29, 97, 112, 112, 108, 105, 99, 97, 116, 105, 111, 110, 47, 115, 109, 105, 108, 0, 133, 109, 109, 115, 46, 115, 109, 105, 108, 0, 129, 234, 192, 34, 60, 65, 65, 65, 65, 62, 0, 60, 115, 109, 105, 108, 62, 60, 104, 101, 97, 100, 62, 60, 108, 97, 121, 111, 117, 116, 62, 60, 114, 111, 111, 116, 45, 108, 97, 121, 111, 117, 116, 32, 104, 101, 105, 103, 104, 116, 61, 34, 50, 52, 48, 112, 120, 34, 32, 119, 105, 100, 116, 104, 61, 34, 49, 54, 48, 112, 120, 34, 47, 62, 13, 10, 60, 114, 101, 103, 105, 111, 110, 32, 105, 100, 61, 34, 73, 109, 97, 103, 101, 34, 32, 116, 111, 112, 61, 34, 48, 34, 32, 108, 101, 102, 116, 61, 34, 48, 34, 32, 104, 101, 105, 103, 104, 116, 61, 34, 53, 48, 37, 34, 32, 119, 105, 100, 116, 104, 61, 34, 49, 48, 48, 37, 34, 32, 102, 105, 116, 61, 34, 104, 105, 100, 100, 101, 110, 34, 47, 62, 13, 10, 60, 114, 101, 103, 105, 111, 110, 32, 105, 100, 61, 34, 84, 101, 120, 116, 34, 32, 116, 111, 112, 61, 34, 53, 48, 37, 34, 32, 108, 101, 102, 116, 61, 34, 48, 34, 32, 104, 101, 105, 103, 104, 116, 61, 34, 53, 48, 37, 34, 32, 119, 105, 100, 116, 104, 61, 34, 49, 48, 48, 37, 34, 32, 102, 105, 116, 61, 34, 104, 105, 100, 100, 101, 110, 34, 47, 62, 13, 10, 60, 47, 108, 97, 121, 111, 117, 116, 62, 13, 10, 60, 47, 104, 101, 97, 100, 62, 13, 10, 60, 98, 111, 100, 121, 62, 60, 112, 97, 114, 32, 100, 117, 114, 61, 34, 50, 48, 48, 48, 109, 115, 34, 62, 60, 116, 101, 120, 116, 32, 115, 114, 99, 61, 34, 109, 109, 115, 46, 116, 120, 116, 34, 32, 114, 101, 103, 105, 111, 110, 61, 34, 84, 101, 120, 116, 34, 62, 60, 47, 116, 101, 120, 116, 62, 13, 10, 60, 105, 109, 103, 32, 115, 114, 99, 61, 34, 83, 111, 110, 121, 104, 69, 114, 46, 103, 105, 102, 34, 32, 114, 101, 103, 105, 111, 110, 61, 34, 73, 109, 97, 103, 101, 34, 62, 60, 47, 105, 109, 103, 62, 13, 10, 60, 47, 112, 97, 114, 62, 13, 10, 60, 47, 98, 111, 100, 121, 62, 13, 10, 60, 47, 115, 109, 105, 108, 62, 13, 10])
    (fun m => decide (m.headers.length = 13 ∧ m.pages = [] ∧ m.dataParts.length = 3 ∧
    m.headers.get (py! "Sender-Visibility") = some (.v (.str (py! "Show"))) ∧
    m.headers.get (py! "From") = some (.v (.str (py! "<not inserted>"))) ∧
    m.headers.get (py! "Read-Reply") = some (.v (.bool false)) ∧
    m.headers.get (py! "Message-Class") = some (.v (.str (py! "Personal"))) ∧
    m.headers.get (py! "Transaction-Id") = some (.v (.str (py! "4-fc60"))) ∧
    m.headers.get (py! "MMS-Version") = some (.v (.str (py! "1.0"))) ∧
    m.headers.get (py! "Priority") = some (.v (.str (py! "Normal"))) ∧
    m.headers.get (py! "To") = some (.v (.str (py! "12345/TYPE=PLMN"))) ∧
    m.headers.get (py! "Delivery-Report") = some (.v (.bool false)) ∧
    m.headers.get (py! "Message-Type") = some (.v (.str (py! "m-send-req"))) ∧
    m.headers.get (py! "Date") = some (.v (.dt { year := 2004, month := 5, day := 23, hour := 15, minute := 13, second := 40 })) ∧
    m.headers.get (py! "Content-Type") = some (.ct (py! "application/vnd.wap.multipart.related") [(py! "Type", .str (py! "application/smil")), (py! "Start", .str (py! "<AAAA>"))]) ∧
    m.headers.get (py! "Subject") = some (.v (.str (py! "Hej"))) ∧
    (m.dataParts[0]?.map fun p => p.headers.get (py! "Content-Type")) = some (some (.ct (py! "text/plain") [(py! "Name", .str (py! "mms.txt")), (py! "Charset", .str (py! "utf-8"))])) ∧
    (m.dataParts[0]?.map fun p => p.data) = some (some ([74, 111, 110, 97, 116, 97, 110, 32, 195, 164, 114, 32, 101, 110, 32, 71, 78, 85])) ∧
    (m.dataParts[1]?.map fun p => p.headers.get (py! "Content-Type")) = some (some (.ct (py! "image/gif") [(py! "Name", .str (py! "SonyhEr.gif"))])) ∧
    (m.dataParts[2]?.map fun p => p.headers.get (py! "Content-Type")) = some (some (.ct (py! "application/smil") [(py! "Name", .str (py! "mms.smil")), (py! "Charset", .str (py! "utf-8"))])) ∧
    (m.dataParts[2]?.map fun p => p.data) = some (some ([60, 115, 109, 105, 108, 62, 60, 104, 101, 97, 100, 62, 60, 108, 97, 121, 111, 117, 116, 62, 60, 114, 111, 111, 116, 45, 108, 97, 121, 111, 117, 116, 32, 104, 101, 105, 103, 104, 116, 61, 34, 50, 52, 48, 112, 120, 34, 32, 119, 105, 100, 116, 104, 61, 34, 49, 54, 48, 112, 120, 34, 47, 62, 13, 10, 60, 114, 101, 103, 105, 111, 110, 32, 105, 100, 61, 34, 73, 109, 97, 103, 101, 34, 32, 116, 111, 112, 61, 34, 48, 34, 32, 108, 101, 102, 116, 61, 34, 48, 34, 32, 104, 101, 105, 103, 104, 116, 61, 34, 53, 48, 37, 34, 32, 119, 105, 100, 116, 104, 61, 34, 49, 48, 48, 37, 34, 32, 102, 105, 116, 61, 34, 104, 105, 100, 100, 101, 110, 34, 47, 62, 13, 10, 60, 114, 101, 103, 105, 111, 110, 32, 105, 100, 61, 34, 84, 101, 120, 116, 34, 32, 116, 111, 112, 61, 34, 53, 48, 37, 34, 32, 108, 101, 102, 116, 61, 34, 48, 34, 32, 104, 101, 105, 103, 104, 116, 61, 34, 53, 48, 37, 34, 32, 119, 105, 100, 116, 104, 61, 34, 49, 48, 48, 37, 34, 32, 102, 105, 116, 61, 34, 104, 105, 100, 100, 101, 110, 34, 47, 62, 13, 10, 60, 47, 108, 97, 121, 111, 117, 116, 62, 13, 10, 60, 47, 104, 101, 97, 100, 62, 13, 10, 60, 98, 111, 100, 121, 62, 60, 112, 97, 114, 32, 100, 117, 114, 61, 34, 50, 48, 48, 48, 109, 115, 34, 62, 60, 116, 101, 120, 116, 32, 115, 114, 99, 61, 34, 109, 109, 115, 46, 116, 120, 116, 34, 32, 114, 101, 103, 105, 111, 110, 61, 34, 84, 101, 120, 116, 34, 62, 60, 47, 116, 101, 120, 116, 62, 13, 10, 60, 105, 109, 103, 32, 115, 114, 99, 61, 34, 83, 111, 110, 121, 104, 69, 114, 46, 103, 105, 102, 34, 32, 114, 101, 103, 105, 111, 110, 61, 34, 73, 109, 97, 103, 101, 34, 62, 60, 47, 105, 109, 103, 62, 13, 10, 60, 47, 112, 97, 114, 62, 13, 10, 60, 47, 98, 111, 100, 121, 62, 13, 10, 60, 47, 115, 109, 105, 108, 62, 13, 10])))) = true := by decide +kernel
-- test_encoding_m_sendnotifyresp_ind
example : resIs (encode ⟨fun _ => none, fun _ => none⟩ id 0 { Msg.new with headers := ((Msg.new.headers.set (py! "Transaction-Id") (.v (.str (py! "NOK5AIdhfTMYSG4JeIgAAsHtp72AGAAAAAAAA")))).set (py! "Message-Type") (.v (.str (py! "m-notifyresp-ind")))).set (py! "Status") (.v (.str (py! "Retrieved"))) })
    (fun o => decide (o.take 50 = [140, 131, 152, 78, 79, 75, 53, 65, 73, 100, 104, 102, 84, 77, 89, 83, 71, 52, 74, 101, 73, 103, 65, 65, 115, 72, 116, 112, 55, 50, 65, 71, 65, 65, 65, 65, 65, 65, 65, 65, 0, 141, 144, 149, 129, 132, 163, 1, 35, 129])) = true := by decide +kernel

end Verif.Sanity
