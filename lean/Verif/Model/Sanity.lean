import Verif.Model.Submit
import Verif.Model.Deliver
/-!
# Fidelity checks of the model

The expected values are copied from the project's own tests (`messaging/test/test_sms.py`), which pass on the real
code; these are tests of the transcription, not property proofs.
-/
set_option autoImplicit false

namespace Verif.Sanity
open Verif

/-- run `to_pdu` on a fresh object after an adjustment of its attributes -/
def submit (number text : Str) (uni : Bool) (f : Submit.State → Submit.State) : Py (List Submit.Pdu) :=
  match Submit.init (some number) ⟨uni, text⟩ with
  | .error e => .error e
  | .ok s => match Submit.toPdu (f s) with
    | .ok p _ => .ok p
    | .err e _ => .error e

/-- just the hex strings -/
def pdus (r : Py (List Submit.Pdu)) : Option (List Str) :=
  match r with | .ok l => some (l.map (·.pdu)) | .error _ => none

-- test_sms.py test_encoding_message_with_latin1_chars
example : pdus (submit (py! "+34654123456") (py! "Hölä") true
    (fun s => { s with ref := some 0, validity := .relative ⟨4 * 86400000000⟩ }))
    = some [py! "0011000B914356143254F60000AA04483E7B0F"] := by decide +kernel
example : pdus (submit (py! "+34654123456") (py! "BÄRÇA äñ@") true (fun s => { s with ref := some 0 }))
    = some [py! "0001000B914356143254F6000009C2AD341104EDFB00"] := by decide +kernel
-- test_encoding_8bit_message
example : pdus (submit (py! "01000000000") (py! "Hi there...") false
    (fun s => { s with ref := some 0, csca := some (py! "+44000000000"), fmt := some 4 }))
    = some [py! "07914400000000F001000B811000000000F000040B48692074686572652E2E2E"] := by decide +kernel
-- test_encoding_ucs2_message
example : pdus (submit (py! "+34616585119") (py! "あ叶葉") true
    (fun s => { s with ref := some 0, csca := some (py! "+34646456456") }))
    = some [py! "07914346466554F601000B914316565811F9000806304253F68449"] := by decide +kernel
-- test_encoding_multipart_7bit
example : pdus (submit (py! "655345678") (py! "Or walk with Kings - nor lose the common touch, if neither foes nor loving friends can hurt you, If all men count with you, but none too much; If you can fill the unforgiving minute With sixty seconds' worth of distance run, Yours is the Earth and everything thats in it, And - which is more - you will be a Man, my son") true
    (fun s => { s with ref := some 0, randId := some 136, validity := .relative ⟨4 * 86400000000⟩ }))
    = some [
      py! "005100098156355476F80000AAA00500038803019E72D03DCC5E83EE693A1AB44CBBCF73500BE47ECB41ECF7BC0CA2A3CBA0F1BBDD7EBB41F4777D8C6681D26690BB9CA6A3CB7290F95D9E83DC6F3988FDB6A7DD6790599E2EBBC973D038EC06A1EB723A28FFAEB340493328CC6683DA653768FCAEBBE9A07B9A8E06E5DF7516485CA783DC6F7719447FBF41EDFA18BD0325CDA0FCBB0E1A87DD",
      py! "005100098156355476F80000AAA005000388030240E6349B0DA2A3CBA0BADBFC969FD3F6B4FB0C6AA7DD757A19744DD3D1A0791A4FCF83E6E5F1DB4D9E9F40F7B79C8E06BDCD20727A4E0FBBC76590BCEE6681B2EFBA7C0E4ACF41747419540CCBE96850D84D0695ED65799E8E4EBBCF203A3A4C9F83D26E509ACE0205DD64500B7447A7C768507A0E6ABFE565500B947FD741F7349B0D129741",
      py! "005100098156355476F80000AA14050003880303C2A066D8CD02B5F3A0F9DB0D"] := by decide +kernel

/-- text, csca, number, date of a decoded message -/
def view (r : Py Deliver.State) : Option (Option Str × Option Str × Option Str × Option DateTime) :=
  match r with | .ok s => some (s.text, s.csca, s.number, s.date) | .error _ => none

-- test_decoding_7bit_pdu, test_decoding_7bit_pdu_data (zone octet 0x08: offset zero)
example : view (Deliver.smsDeliver (py! "07911326040000F0040B911346610089F60000208062917314080CC8F71D14969741F977FD07"))
    = some (some (py! "How are you?"), some (py! "+31624000000"), some (py! "+31641600986"),
        some { year := 2002, month := 8, day := 26, hour := 19, minute := 37, second := 41 }) := by decide +kernel
-- test_decoding_ucs2_pdu
example : (view (Deliver.smsDeliver (py! "07914306073011F0040B914316709807F2000880604290224080084E2D5174901A8BAF"))).map (·.1)
    = some (some (py! "中兴通讯")) := by decide +kernel
-- test_decoding_datetime_gmtplusone
example : view (Deliver.smsDeliver (py! "0791447758100650040C914497716247010000909010711423400A2050EC468B81C4733A"))
    = some (some (py! "  1741 bst"), some (py! "+447785016005"), some (py! "+447917267410"),
        some { year := 2009, month := 9, day := 1, hour := 16, minute := 41, second := 32 }) := by decide +kernel
-- test_decoding_number_alphanumeric
example : (view (Deliver.smsDeliver (py! "07919333852804000412D0F7FBDD454FB75D693A0000903002801153402BCD301E9F0605D9E971191483C140412A35690D52832063D2F9040599A058EE05A3BD6430580E")))
    = some (some (py! "Maxxi Alice 100 ATTIVATA FINO AL 19/04/2009"), some (py! "+393358824000"),
        some (py! "www.tim.it"), some { year := 2009, month := 3, day := 20, hour := 7, minute := 11, second := 35 }) := by decide +kernel
-- test_decode_sms_confirmation
example : view (Deliver.smsDeliver (py! "07914306073011F006270B913426565711F7012081111345400120811174054043"))
    = some (some (py! "+43626575117|10/02/18 11:31:54|"), some (py! "+34607003110"), some (py! "SR-UNKNOWN"),
        some { year := 2010, month := 2, day := 18, hour := 11, minute := 31, second := 54 }) := by decide +kernel
end Verif.Sanity
