import Verif.Model.Py
import Verif.Model.Utils
import Verif.Model.Gsm0338
import Verif.Model.Submit
import Verif.Model.Udh
import Verif.Model.Calendar
import Verif.Model.Deliver
import Verif.Model.Sanity
import Verif.Model.Sanity2
import Verif.Spec.Gsm
import Verif.Proofs.Gsm
import Verif.Proofs.Gsm2
import Verif.Props.Gsm
import Verif.Spec.Septets
import Verif.Proofs.Digits
import Verif.Proofs.Pack
import Verif.Props.Pack
import Verif.Spec.Sms
import Verif.Proofs.Hex
import Verif.Proofs.Number
import Verif.Spec.Time
import Verif.Proofs.Validity
import Verif.Proofs.Split
import Verif.Proofs.Submit
import Verif.Proofs.Submit2
import Verif.Spec.Submit
import Verif.Proofs.Submit3
import Verif.Proofs.Submit4
import Verif.Proofs.Repeat
import Verif.Proofs.Submit5
import Verif.Props.Submit
import Verif.Proofs.History
import Verif.Props.Settings
import Verif.Props.Stale
import Verif.Props.Moved
import Verif.Props.SurviveMsg
import Verif.Props.MovedText
import Verif.Proofs.Deliver
import Verif.Proofs.Calendar
import Verif.Proofs.Stamp
import Verif.Spec.Relay
import Verif.Proofs.Relay
import Verif.Proofs.Deliver2
import Verif.Props.Relay
import Verif.Proofs.Deliver3
import Verif.Spec.Deliver
import Verif.Spec.Sender
import Verif.Proofs.Deliver4
import Verif.Proofs.Deliver5
import Verif.Proofs.Deliver6
import Verif.Props.Deliver
import Verif.Props.Faithful
import Verif.Model.Iter
import Verif.Model.WspTables
import Verif.Model.WspDec
import Verif.Model.WspEnc
import Verif.Model.Message
import Verif.Model.MmsPdu
import Verif.Model.Wap
import Verif.Spec.Cursor
import Verif.Spec.Wsp
import Verif.Proofs.Iter
import Verif.Proofs.Wsp1
import Verif.Proofs.Wsp2
import Verif.Proofs.Wsp3
import Verif.Props.Wsp
import Verif.Spec.Mms
import Verif.Proofs.Mms1
import Verif.Proofs.Mms2
import Verif.Proofs.Mms3
import Verif.Props.MmsDec
import Verif.Proofs.Safe
import Verif.Proofs.Safe2
import Verif.Props.MmsSafe
import Verif.Props.RefusedValue
import Verif.Spec.Slides
import Verif.Proofs.Slides
import Verif.Props.Slides
import Verif.Props.Layout
import Verif.Props.Smil
import Verif.Spec.MmsEnc
import Verif.Spec.MmsParts
import Verif.Proofs.MmsEnc1
import Verif.Proofs.MmsEnc2
import Verif.Proofs.MmsEnc3
import Verif.Props.MmsEnc
import Verif.Props.MmsMsg
import Verif.Props.MmsTrip
import Verif.Proofs.MmsEnc4
import Verif.Props.Ctype
import Verif.Spec.Push
import Verif.Props.Push
import Verif.Model.Cache
import Verif.Spec.Files
import Verif.Proofs.Cache
import Verif.Props.Files
import Verif.Spec.Accept
import Verif.Props.Accept
import Verif.Proofs.Trunc
import Verif.Proofs.Trunc2
import Verif.Proofs.Trunc3
import Verif.Props.Truncated
import Verif.Props.CutExact
import Verif.Props.CutSms
import Verif.Spec.Cut
import Verif.Proofs.Cut
import Verif.Props.Cut
import Verif.Props.Forward
import Verif.Props.ForwardParams
import Verif.Props.CtLost
import Verif.Spec.Parts
import Verif.Props.Slices
import Verif.Props.Assign
import Verif.Model.Heap
import Verif.Spec.Sharing
import Verif.Proofs.Heap
import Verif.Props.Shared
import Verif.Spec.Inbox
import Verif.Props.Inbox
import Verif.Model.Accessors
import Verif.Spec.PartHistory
import Verif.Props.PartHistory
import Verif.Props.SlideParts
import Verif.Props.Quoted
import Verif.Props.MsgHistory
import Verif.Props.CtIff
import Verif.Props.CtPair
import Verif.Props.Names
import Verif.Props.Whole
import Verif.Props.SmilText
import Verif.Props.Accepted
import Verif.Props.Failed
import Verif.Props.FailedCut
import Verif.Props.Ignored
import Verif.Props.CtSent
import Verif.Props.Assigned
import Verif.Props.Version
import Verif.Proofs.Numeral
import Verif.Spec.Numeral
import Verif.Props.PartHdr
import Verif.Props.Refusal
import Verif.Props.SubmitRefusal
import Verif.Props.PartRefusal
import Verif.Spec.Same
import Verif.Spec.Reply
import Verif.Props.Injective
import Verif.Props.Reply
import Verif.Props.ForwardSms
import Verif.Props.Fewest
import Verif.Props.MmsInjective
import Verif.Props.Recipients
import Verif.Props.ParamRefusal
import Verif.Model.SmilExact
import Verif.Spec.Labels
import Verif.Spec.Versions
import Verif.Props.Labels
import Verif.Props.UnicodeData
import Verif.Model.UniPdu
import Verif.Spec.UniPdu
import Verif.Props.UniPdu
import Verif.Model.UdhRepr
import Verif.Spec.UdhText
import Verif.Props.UdhRepr
import Verif.Props.Versions
import Verif.Model.Dicts
import Verif.Model.DictSteps
import Verif.Spec.Dicts
import Verif.Proofs.Dicts
import Verif.Proofs.Dicts2
import Verif.Proofs.Dicts3
import Verif.Proofs.Dicts4
import Verif.Proofs.Dicts5
import Verif.Proofs.Dicts6
import Verif.Props.Dicts
import Verif.Model.Coders
import Verif.Proofs.Coders
import Verif.Props.Coders
import Verif.Model.Codecs
import Verif.Spec.Codecs
import Verif.Proofs.Codecs
import Verif.Props.Codecs
import Verif.Model.Narrow
import Verif.Spec.Utf16
import Verif.Proofs.Narrow
import Verif.Props.Narrow
import Verif.Spec.Ack
import Verif.Props.Ack
import Verif.Spec.Survive
import Verif.Proofs.Survive
import Verif.Props.Survive
import Verif.Props.Bin
import Verif.Props.OddHex
import Verif.Props.Trailing
import Verif.Props.Life
import Verif.Props.DecIff
import Verif.Props.DecRead
import Verif.Props.ReadOrder
import Verif.Props.ReadOrderMsg
import Verif.Props.Reports
import Verif.Props.UdhAny
import Verif.Props.AnyString
import Verif.Props.WhichError
import Verif.Props.MediaNumbers
import Verif.Props.Zones
import Verif.Props.Misread
import Verif.Props.Determined
import Verif.Props.DeterminedSlides
import Verif.Props.Received
import Verif.Props.Changing
import Verif.Props.Reading
import Verif.Props.Repeated
import Verif.Model.Links
import Verif.Props.Links
import Verif.Spec.Standard
import Verif.Proofs.Standard
import Verif.Proofs.Standard2
import Verif.Props.Standard
import Verif.Spec.Reader
import Verif.Proofs.Reader
import Verif.Props.Reader
import Verif.Proofs.Takeout
import Verif.Props.Takeout
import Verif.Spec.Weight
import Verif.Proofs.Weight
import Verif.Proofs.WeightSms
import Verif.Props.Weight
import Verif.Spec.Size
import Verif.Proofs.Size
import Verif.Props.Size
import Verif.Props.Damage
import Verif.Props.SmsFields
import Verif.Props.InboxTwice
import Verif.Proofs.Origin
import Verif.Props.Origin
import Verif.Props.SlidesApart
import Verif.Props.More
