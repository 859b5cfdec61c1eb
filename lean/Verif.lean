import Verif.Base.Bytes
import Verif.Base.Bits
import Verif.Model.Error
import Verif.Model.Header
import Verif.Model.Writer
import Verif.Model.Encoder
import Verif.Model.Ber
import Verif.Model.Typed
import Verif.Model.Integer
import Verif.Model.Simple
import Verif.Spec.Header
import Verif.Spec.Ber
import Verif.Spec.Integer
import Verif.Spec.Codec
import Verif.Proofs.Input
import Verif.Proofs.Header
import Verif.Proofs.Ber
import Verif.Proofs.BerLang
import Verif.Proofs.Writer
import Verif.Proofs.Encoder
import Verif.Proofs.Codec
import Verif.Proofs.Integer
import Verif.Props.Header
import Verif.Props.Generic
import Verif.Props.Typed
import Verif.Props.Integer
import Verif.Proofs.Back
import Verif.Props.Simple
import Verif.Model.Iterator
import Verif.Model.Strings
import Verif.Model.ErrorConv
import Verif.Spec.Objects
import Verif.Spec.Segmented
import Verif.Spec.Bits
import Verif.Proofs.Local
import Verif.Proofs.Iterator
import Verif.Proofs.Segmented
import Verif.Proofs.Minimal
import Verif.Proofs.Encoding
import Verif.Props.Iterator
import Verif.Props.OctetString
import Verif.Props.BitString
import Verif.Props.Errors
import Verif.Props.Encoding
import Verif.Model.Oid
import Verif.Spec.Oid
import Verif.Proofs.Agree
import Verif.Proofs.Oid
import Verif.Props.Oid
import Verif.Props.OidText
import Verif.Props.Panic
import Verif.Model.Tagged
import Verif.Spec.Universal
import Verif.Proofs.Works
import Verif.Proofs.Tolerant
import Verif.Props.Tagged
import Verif.Props.TaggedMore
import Verif.Props.Optional
import Verif.Props.Incomplete
import Verif.Model.Containers
import Verif.Spec.Containers
import Verif.Proofs.Containers
import Verif.Props.Containers
import Verif.Props.Sets
import Verif.Props.Arrays
import Verif.Props.Indefinite
import Verif.Proofs.LocalTypes
import Verif.Props.ContainersAgree
import Verif.Props.ContainersSafe
import Verif.Props.RawSeq
import Verif.Props.SeqCheck
import Verif.Model.Time
import Verif.Spec.Time
import Verif.Proofs.Time
import Verif.Props.Time
import Verif.Model.Calendar
import Verif.Spec.Calendar
import Verif.Props.Calendar
import Verif.Props.TimeAgree
import Verif.Model.Text
import Verif.Model.CharStrings
import Verif.Spec.CharStrings
import Verif.Proofs.Text
import Verif.Proofs.CharStrings
import Verif.Props.CharStrings
import Verif.Props.CharStringsAgree
import Verif.Model.Float
import Verif.Model.Real
import Verif.Spec.Real
import Verif.Proofs.Float
import Verif.Proofs.Real
import Verif.Proofs.RealEnc
import Verif.Proofs.RealNew
import Verif.Props.Real
import Verif.Props.RealRound
import Verif.Props.RealSafe
import Verif.Props.RealAgree
import Verif.Model.Derive
import Verif.Spec.Derive
import Verif.Props.DeriveRead
import Verif.Props.DeriveWrite
import Verif.Props.DeriveOption
import Verif.Props.DeriveChoice
import Verif.Props.DeriveEnum
import Verif.Spec.DeriveSlice
import Verif.Props.DeriveSlice
import Verif.Spec.Built
import Verif.Proofs.Built
import Verif.Props.Built
import Verif.Spec.BuiltValue
import Verif.Proofs.BuiltValue
import Verif.Props.BuiltValue
import Verif.Spec.Encodable
import Verif.Proofs.Encodable
import Verif.Props.Encodable
import Verif.Model.AnyMethods
import Verif.Spec.AnyMethods
import Verif.Proofs.AnyMethods
import Verif.Props.AnyMethods
import Verif.Props.EmbeddedPdv
import Verif.Props.TimeText
import Verif.Props.BitAccess
import Verif.Props.EndOfContent
import Verif.Props.AsInput
import Verif.Props.Debug
import Verif.Props.BigInt
import Verif.Model.Float32
import Verif.Spec.Float32
import Verif.Proofs.Float32
import Verif.Proofs.FloatNearest
import Verif.Props.RealNearest
import Verif.Props.Real32
import Verif.Props.ToStatic
import Verif.Props.AnySet
import Verif.Props.DeriveAlias
import Verif.Props.CustomError
import Verif.Props.Builders
import Verif.Props.OidAny
import Verif.Model.Sharing
import Verif.Spec.Sharing
import Verif.Props.Sharing
import Verif.Props.OidParse
import Verif.Props.RealApi
import Verif.Model.DynTagged
import Verif.Spec.DynTagged
import Verif.Props.DynTagged
import Verif.Model.ToStatic
import Verif.Spec.ToStatic
import Verif.Spec.TwoWay
import Verif.Proofs.TwoWay
import Verif.Spec.TwoWayUpTo
import Verif.Proofs.TwoWayUpTo
import Verif.Props.TwoWay
import Verif.Spec.Stream
import Verif.Proofs.Stream
import Verif.Proofs.StreamStages
import Verif.Proofs.StreamReader
import Verif.Proofs.StreamApi
import Verif.Props.Stream
import Verif.Spec.DerTree
import Verif.Props.DerTree
import Verif.Model.Attributes
import Verif.Spec.Attributes
import Verif.Props.Attributes
import Verif.Spec.Place
import Verif.Proofs.Place
import Verif.Props.Place
import Verif.Spec.Weight
import Verif.Proofs.Weight
import Verif.Props.Weight
import Verif.Model.Work
import Verif.Props.Work
import Verif.Spec.Canonical
import Verif.Proofs.Canonical
import Verif.Props.Canonical
import Verif.Model.CheckDerive
import Verif.Spec.CheckDerive
import Verif.Props.CheckDerive
import Verif.Spec.Order
import Verif.Props.Order
import Verif.Spec.Work
import Verif.Model.WorkTyped
import Verif.Spec.WorkTyped
import Verif.Proofs.WorkTyped
import Verif.Proofs.WorkBound
import Verif.Proofs.WorkLeast
import Verif.Props.WorkTyped
import Verif.Spec.Form
import Verif.Props.Form
import Verif.Tests.Ber
import Verif.Tests.Der
import Verif.Tests.ToDer
import Verif.Tests.Src
import Verif.Tests.RunPass
import Verif.Tests.Doc
import Verif.Props.Large
import Verif.Spec.Fault
import Verif.Props.Fault
import Verif.Spec.Refusal
import Verif.Props.Refusal
import Verif.Spec.Decimal
import Verif.Proofs.Decimal
import Verif.Proofs.DecimalRat
import Verif.Props.RealDecimal
import Verif.Spec.Message
import Verif.Props.Message
import Verif.Model.OptionItems
import Verif.Spec.OptionItems
import Verif.Props.OptionItems
import Verif.Model.Equality
import Verif.Spec.Equality
import Verif.Props.Equality
import Verif.Model.Messages
import Verif.Spec.Messages
import Verif.Props.Messages
import Verif.Model.Checks
import Verif.Spec.Checks
import Verif.Props.Checks
import Verif.Model.Edits
import Verif.Spec.Edits
import Verif.Props.Edits
import Verif.Spec.Forms
import Verif.Proofs.Forms
import Verif.Props.Forms
import Verif.Proofs.FormsFrom
import Verif.Spec.Versions
import Verif.Props.Versions
import Verif.Spec.SetOrder
import Verif.Props.SetOrder
import Verif.Model.Macros
import Verif.Spec.Macros
import Verif.Props.Macros
import Verif.Model.Width
import Verif.Spec.Width
import Verif.Proofs.Width
import Verif.Props.Width
import Verif.Model.EncodeWork
import Verif.Spec.EncodeWork
import Verif.Proofs.EncodeWork
import Verif.Props.EncodeWork
import Verif.Spec.Recursive
import Verif.Proofs.Recursive
import Verif.Props.Recursive
import Verif.Spec.RecursiveValue
import Verif.Props.RecursiveValue
import Verif.Props.WidthSlice
import Verif.Model.SizedEncoder
import Verif.Spec.SizedEncoder
import Verif.Props.SizedEncoder
import Verif.Model.DumpDer
import Verif.Spec.DumpDer
import Verif.Props.DumpDer
import Verif.Spec.Twins
import Verif.Proofs.Twins
import Verif.Props.Twins
import Verif.Spec.Language
import Verif.Proofs.Language
import Verif.Props.Language
import Verif.Spec.SelfLanguage
import Verif.Props.SelfLanguage
import Verif.Spec.SelfSlice
import Verif.Proofs.SelfSlice
import Verif.Props.SelfSlice
import Verif.Spec.SelfSliceLanguage
import Verif.Props.SelfSliceLanguage
import Verif.Spec.MutualSlice
import Verif.Props.MutualSlice
import Verif.Props.RecursiveMutual
import Verif.Spec.RecursiveMutualValue
import Verif.Props.RecursiveMutualValue
import Verif.Props.RecursiveAny
import Verif.Axioms
