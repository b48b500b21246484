import Verif.Props.Rope
import Verif.Props.Compile
import Verif.Props.Engine
import Verif.Props.Star
import Verif.Props.Integers
import Verif.Props.Text
import Verif.Props.Width
import Verif.Props.Messages
import Verif.Props.Instance
import Verif.Props.Args
import Verif.Props.Double
import Verif.Props.Floating
import Verif.Props.Hex
import Verif.Props.BigDecimal
import Verif.Props.Failures
import Verif.Props.Readings
import Verif.Props.DoubleText
import Verif.Spec.Cut
import Verif.Proofs.Cut
import Verif.Proofs.Laid
import Verif.Proofs.BigDecimalLaid
import Verif.Spec.Semantics
import Verif.Props.Semantics
import Verif.Proofs.Determined
import Verif.Props.Determined
import Verif.Model.Cache
import Verif.Proofs.Cache
import Verif.Props.Cache
import Verif.Spec.ReadBack
import Verif.Proofs.ReadBack
import Verif.Props.ReadBack
import Verif.Proofs.Size
import Verif.Props.Size
import Verif.Props.Arrays
import Verif.Props.Alias
import Verif.Props.Order
import Verif.Props.Questions
import Verif.Props.Foreign
import Verif.Props.Describe
import Verif.Props.Resources
import Verif.Props.Views
import Verif.Props.Failing
import Verif.Spec.Faults
import Verif.Model.Descriptions
import Verif.Proofs.Faults
import Verif.Props.Faults
import Verif.Spec.Complaints
import Verif.Props.Complaints
import Verif.Model.IntLengths
import Verif.Proofs.IntLengths
import Verif.Proofs.IntLeaves
import Verif.Proofs.IntForms
import Verif.Proofs.IntGeneral
import Verif.Proofs.IntPrintf
import Verif.Proofs.IntFailures
import Verif.Proofs.IntOverflow
import Verif.Spec.IntLengths
import Verif.Props.IntLengths
import Verif.Spec.CFloat
import Verif.Proofs.CFloat
import Verif.Props.CFloat
import Verif.Model.NumberForms
import Verif.Props.NumberForms
import Verif.Spec.Alphabet
import Verif.Proofs.Alphabet
import Verif.Props.Alphabet
import Verif.Spec.Single
import Verif.Props.Single
import Verif.Spec.CHex
import Verif.Props.CHex
import Verif.Spec.EqualNumbers
import Verif.Props.EqualNumbers
import Verif.Spec.Mirror
import Verif.Props.Mirror
import Verif.Props.AliasStar
import Verif.Spec.CPrintf
import Verif.Conformance.Run
import Verif.Conformance.Ghc
import Verif.Conformance.Msvcrt
import Verif.Conformance.Npm
import Verif.Conformance.Libc
import Verif.Conformance.BigDecimal
import Verif.Conformance.SeqFormatterGA
import Verif.Conformance.SeqFormatter
import Verif.Conformance.MoreSeqFormatter
import Verif.Conformance.Calls
import Verif.Conformance.Compiling
import Verif.Conformance.Ropes
import Verif.Conformance.Readings
import Verif.Spec.FlagUse
import Verif.Proofs.FlagUse
import Verif.Props.FlagUse
import Verif.Spec.GiveBack
import Verif.Props.GiveBack
import Verif.Props.Helpers
import Verif.Model.OwnSeq
import Verif.Spec.OwnSeq
import Verif.Proofs.OwnSeq
import Verif.Proofs.OwnPrint
import Verif.Props.OwnSeq
import Verif.Props.Slices
import Verif.Props.Detail
import Verif.Props.OrderMore
import Verif.Props.Records
import Verif.Props.BigText
import Verif.Props.Things
import Verif.Props.Live
import Verif.Props.LiveObjects
import Verif.Props.BigLimits
import Verif.Props.JavaFormatter
import Verif.Props.Dates
import Verif.Props.Patterns
import Verif.Props.OwnComposite
import Verif.Props.JavaHex
import Verif.Conformance.OwnComposites
import Verif.Spec.AppendCalls
import Verif.Proofs.AppendCalls
import Verif.Proofs.AppendCallsArgs
import Verif.Props.AppendCalls
import Verif.Props.Changing
import Verif.Model.Target
import Verif.Props.Target
import Verif.Model.Causes
import Verif.Props.Causes
import Verif.Model.LiveArgs
import Verif.Props.LiveArgs
import Verif.Model.OwnArgs
import Verif.Props.OwnArgs
import Verif.Spec.Outside
import Verif.Props.Outside
import Verif.Model.OwnForms
import Verif.Spec.OwnForms
import Verif.Props.OwnForms
import Verif.Model.OwnBig
import Verif.Spec.OwnBig
import Verif.Props.OwnBig
import Verif.Model.OwnDec
import Verif.Spec.OwnDec
import Verif.Proofs.OwnDec
import Verif.Proofs.OwnDecCalls
import Verif.Props.OwnDec
import Verif.Spec.Layouts
import Verif.Proofs.Layouts
import Verif.Props.Layouts
import Verif.Model.Assertions
import Verif.Spec.Assertions
import Verif.Proofs.Assertions
import Verif.Props.Assertions
import Verif.Model.Versions
import Verif.Spec.Versions
import Verif.Proofs.Versions
import Verif.Props.Versions
import Verif.Model.RefSlots
import Verif.Spec.RefSlots
import Verif.Proofs.RefSlots
import Verif.Props.RefSlots
import Verif.Spec.ScaleEdge
import Verif.Proofs.ScaleEdge
import Verif.Proofs.IntBeyond
import Verif.Props.ScaleEdge
import Verif.Model.FPValue
import Verif.Props.FPValue
