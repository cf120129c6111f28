import Verif.Model.PduMode
import Verif.Model.Counter
import Verif.Model.Collector
import Verif.Props.SevenBit
import Verif.Props.Bcd
import Verif.Props.Semioctet
import Verif.Props.Ucs2
import Verif.Props.Gsm7
import Verif.Props.Address
import Verif.Props.UserData
import Verif.Props.Time
import Verif.Props.ValidityPeriod
import Verif.Props.Dcs
import Verif.Props.Setters
import Verif.Props.Tpdu
import Verif.Props.TpduSafe
import Verif.Props.TpduPrefix
import Verif.Props.Segment
import Verif.Props.Segment2
import Verif.Props.SmsDecode
import Verif.Props.Alphabet
import Verif.Props.SmsEncode
import Verif.Props.SmsEncodeExact
import Verif.Props.Refs
import Verif.Props.Atomic
import Verif.Props.Wire
import Verif.Props.WireExact
import Verif.Props.UserDataExact
import Verif.Props.Collector
import Verif.Props.Collector2
import Verif.Props.Messages
import Verif.Props.Texts
import Verif.Props.Concurrent
import Verif.Props.ConcurrentTexts
import Verif.Props.Separate
import Verif.Props.PduMode
import Verif.Props.Counter
import Verif.Props.Pipes
import Verif.Model.Alias
import Verif.Props.Alias
import Verif.Model.Cmd
import Verif.Proofs.Keeps
import Verif.Props.CmdSubmit
import Verif.Props.CmdSubmitExact
import Verif.Props.CmdDeliver
import Verif.Props.CmdSafe
import Verif.Spec.Alphabet
import Verif.Props.CharTables
import Verif.Spec.DcsMeaning
import Verif.Spec.Encodable
import Verif.Spec.Relay
import Verif.Model.Flags
import Verif.Proofs.MarshalTotal
import Verif.Proofs.Remarshal
import Verif.Props.DcsMeaning
import Verif.Props.Flags
import Verif.Props.MarshalSafe
import Verif.Props.Remarshal
import Verif.Spec.Layout
import Verif.Proofs.Layout
import Verif.Proofs.LayoutUnique
import Verif.Props.Layout
import Verif.Proofs.TpduExact
import Verif.Proofs.RelayExact
import Verif.Model.Lazy
import Verif.Spec.Race
import Verif.Proofs.Lazy
import Verif.Proofs.LazyRace
import Verif.Props.Lazy
import Verif.Spec.Build
import Verif.Props.Build
import Verif.Spec.Trailing
import Verif.Proofs.Trailing
import Verif.Proofs.Cut
import Verif.Props.Trailing
import Verif.Props.Cut
import Verif.Props.Concat
import Verif.Props.TextsExact
import Verif.Props.CmdDeliverExact
import Verif.Proofs.Collide
import Verif.Props.Collide
import Verif.Spec.Dump
import Verif.Proofs.Dump
import Verif.Props.Dump
import Verif.Spec.Fields
import Verif.Proofs.Fields
import Verif.Props.Fields
import Verif.Spec.Refused
import Verif.Props.Refused
import Verif.Model.Gsm7Tables
import Verif.Spec.Codec
import Verif.Props.Gsm7Tables
import Verif.Props.Gsm7Options
import Verif.Model.Charsets
import Verif.Spec.Charsets
import Verif.Proofs.Charsets
import Verif.Props.Charsets
import Verif.Model.CounterPrint
import Verif.Props.CounterPrint
import Verif.Spec.Failures
import Verif.Proofs.Failures
import Verif.Proofs.FailureCases
import Verif.Props.FailureChecks
import Verif.Props.Failures
import Verif.Spec.MarshalFault
import Verif.Proofs.MarshalFault
import Verif.Props.MarshalFault
import Verif.Model.ErrorText
import Verif.Spec.ErrorText
import Verif.Proofs.ErrorText
import Verif.Props.ErrorText
import Verif.Spec.Reuse
import Verif.Proofs.Reuse
import Verif.Props.Reuse
import Verif.Spec.CutText
import Verif.Props.CutText
import Verif.Props.CutMany
import Verif.Props.CutAccepted
import Verif.Spec.StdLanguage
import Verif.Props.StdLanguage
import Verif.Spec.Printed
import Verif.Model.CmdPrint
import Verif.Props.CmdPrint
import Verif.Spec.Anonymous
import Verif.Proofs.Stray
import Verif.Props.CmdSafeExact
import Verif.Props.Partly
import Verif.Spec.Offer
import Verif.Proofs.Offer
import Verif.Props.Offer
import Verif.Spec.Settings
import Verif.Props.Settings
import Verif.Props.Named
import Verif.Model.Float
import Verif.Proofs.Float
import Verif.Spec.Carried
import Verif.Props.Carried
import Verif.Props.Parts
import Verif.Model.CommandLine
import Verif.Spec.CommandLine
import Verif.Proofs.CommandLine
import Verif.Props.CommandLine
import Verif.Props.ExitStatus
import Verif.Spec.Representable
import Verif.Proofs.RoundTrip
import Verif.Props.RoundTripExact
import Verif.Props.BuildExact
import Verif.Props.SegmentMalformed
import Verif.Props.LayoutExact
import Verif.Props.Repeats
import Verif.Props.Code
import Verif.Props.Network
import Verif.Spec.Timed
import Verif.Proofs.Timed
import Verif.Proofs.Stale
import Verif.Props.Timed
import Verif.Spec.Passage
import Verif.Proofs.Epochs
import Verif.Props.Balance
import Verif.Props.LongRun
import Verif.Props.Paced
import Verif.Props.AnyFill
import Verif.Spec.Deliver
import Verif.Props.CmdDeliverAll
import Verif.Vectors.Codecs
import Verif.Vectors.Fields
import Verif.Vectors.Tpdu
import Verif.Vectors.Sms
import Verif.Vectors.Charsets
import Verif.Vectors.Collect
import Verif.Vectors.Readme
import Verif.Proofs.Print
import Verif.Spec.Rows
import Verif.Props.Rows
import Verif.Spec.Size
import Verif.Proofs.Size
import Verif.Props.Size
import Verif.Spec.Owner
import Verif.Proofs.Owner
import Verif.Props.Owner
import Verif.Proofs.Longer
import Verif.Props.Longer
import Verif.Props.Forward
import Verif.Model.Buffer
import Verif.Spec.Buffer
import Verif.Proofs.Buffer
import Verif.Props.Buffer
import Verif.Proofs.Apart
import Verif.Props.Apart
import Verif.Spec.Ignored
import Verif.Proofs.Ignored
import Verif.Proofs.Idle
import Verif.Props.Ignored
import Verif.Props.Idle
import Verif.Spec.Fresh
import Verif.Proofs.Fresh
import Verif.Props.Fresh
import Verif.Spec.Numbers
import Verif.Proofs.Numbers
import Verif.Props.Numbers
import Verif.Spec.Permitted
import Verif.Proofs.Permitted
import Verif.Props.Permitted
import Verif.Spec.TooLong
import Verif.Proofs.TooLong
import Verif.Props.TooLong
import Verif.Model.Nil
import Verif.Proofs.Nil
import Verif.Props.Nil
import Verif.Spec.Divided
import Verif.Proofs.Divided
import Verif.Props.Divided
import Verif.Props.Agree
import Verif.Spec.Order
import Verif.Proofs.Order
import Verif.Props.Order
