import Verif.Model.Basic
import Verif.Model.Str
import Verif.Model.Types
import Verif.Model.Keywords
import Verif.Model.Num
import Verif.Model.BitRange
import Verif.Model.Dim
import Verif.Model.Derive
import Verif.Model.Regex
import Verif.Model.Validate
import Verif.Model.Iter
import Verif.Model.Build
import Verif.Model.Xml
import Verif.Model.Parse
import Verif.Model.Config
import Verif.Model.Encode
import Verif.Model.Path
import Verif.Model.Expand
import Verif.Model.Top
import Verif.Spec.Keywords
import Verif.Spec.Num
import Verif.Spec.Str
import Verif.Lemmas.Num
import Verif.Lemmas.Str
import Verif.Props.Numbers
import Verif.Spec.BitRange
import Verif.Spec.Dim
import Verif.Lemmas.Arith
import Verif.Lemmas.Except
import Verif.Lemmas.Split
import Verif.Props.BitRange
import Verif.Props.Dim
import Verif.Spec.Name
import Verif.Spec.Valid
import Verif.Lemmas.Regex
import Verif.Lemmas.Validate
import Verif.Props.Names
import Verif.Props.Validation
import Verif.Spec.Build
import Verif.Lemmas.Refine
import Verif.Props.Build
import Verif.Props.ParseLevel
import Verif.Spec.Derive
import Verif.Spec.Instance
import Verif.Spec.Iter
import Verif.Lemmas.Subst
import Verif.Props.Arrays
import Verif.Props.Derive
import Verif.Props.Iter
import Verif.Spec.Config
import Verif.Spec.Path
import Verif.Spec.Sort
import Verif.Props.Misc
import Verif.Props.Path
import Verif.Props.Sort
import Verif.Spec.Panic
import Verif.Lemmas.Graceful
import Verif.Props.ParseTotal
import Verif.Spec.Enums
import Verif.Props.IgnoreEnums
import Verif.Spec.Lists
import Verif.Spec.Parts
import Verif.Spec.Props
import Verif.Props.EncodeTotal
import Verif.Props.Properties
import Verif.Spec.Flat
import Verif.Spec.Index
import Verif.Spec.Sample
import Verif.Props.Flat
import Verif.Props.Idempotent
import Verif.Props.Index
import Verif.Spec.Expanded
import Verif.Lemmas.Fuel
import Verif.Props.Expanded
import Verif.Spec.Chain
import Verif.Props.Chain
import Verif.Spec.Rank
import Verif.Spec.Refs
import Verif.Props.BadRefs
import Verif.Props.Termination
import Verif.Spec.Layout
import Verif.Lemmas.Canon
import Verif.Props.Layout
import Verif.Spec.Read
import Verif.Spec.RoundTrip
import Verif.Lemmas.Lookup
import Verif.Props.RoundTrip
import Verif.Props.RoundTripAll
import Verif.Props.RoundTripDevice
import Verif.Props.RoundTripExamples
import Verif.Props.RoundTripRead
import Verif.Props.RoundTripTree
import Verif.Model.IterMut
import Verif.Model.Setters
import Verif.Spec.Calls
import Verif.Spec.IterMut
import Verif.Props.IterMut
import Verif.Props.Setters
import Verif.Spec.Regular
import Verif.Props.Reread
import Verif.Model.Serde
import Verif.Spec.Serde
import Verif.Props.Serde
import Verif.Props.SerdeDevice
import Verif.Props.SerdeOrder
import Verif.Spec.Order
import Verif.Props.Order
import Verif.Spec.Full
import Verif.Spec.Named
import Verif.Props.ExpandValid
import Verif.Props.Full
import Verif.Model.Located
import Verif.Spec.Blame
import Verif.Spec.Report
import Verif.Lemmas.Blame
import Verif.Lemmas.BlameBits
import Verif.Props.Blame
import Verif.Props.Located
import Verif.Props.Report
import Verif.Spec.Document
import Verif.Props.Document
import Verif.Spec.Built
import Verif.Props.Built
import Verif.Spec.Both
import Verif.Props.Both
import Verif.Spec.Fails
import Verif.Props.Fails
import Verif.Spec.Value
import Verif.Props.Value
import Verif.Spec.Written
import Verif.Props.Written
import Verif.Spec.ValueWritten
import Verif.Props.ValueTidy
import Verif.Props.ValueWritten
import Verif.Spec.Govern
import Verif.Props.FillValid
import Verif.Spec.Clean
import Verif.Props.ExpandWrite
import Verif.Spec.Deref
import Verif.Props.Deref
import Verif.Spec.Local
import Verif.Props.Local
import Verif.Spec.Reorder
import Verif.Props.Reorder
import Verif.Spec.Complaint
import Verif.Props.Complaint
import Verif.Model.Message
import Verif.Spec.Message
import Verif.Props.Message
import Verif.Spec.Overflow
import Verif.Props.Overflow
import Verif.Spec.Recase
import Verif.Props.Recase
import Verif.Props.RecaseExamples
import Verif.Spec.Count
import Verif.Spec.Masks
import Verif.Props.Count
import Verif.Props.ExpandSerde
import Verif.Props.Masks
import Verif.Spec.Ground
import Verif.Spec.RangeCalls
import Verif.Props.Ground
import Verif.Props.RangeCalls
import Verif.Spec.Encodable
import Verif.Props.BuiltErrors
import Verif.Props.Edges
import Verif.Props.EncodeWhen
import Verif.Props.Modify
import Verif.Props.RangeModify
import Verif.Props.Convert
import Verif.Spec.Depth
import Verif.Props.Depth
import Verif.Spec.Told
import Verif.Props.Told
import Verif.Spec.Clear
import Verif.Props.Clear
import Verif.Spec.Shuffled
import Verif.Props.Shuffled
import Verif.Tests.Arm
import Verif.Tests.Repo
import Verif.Spec.Rearranged
import Verif.Props.Rearranged
import Verif.Props.FillPaths
import Verif.Props.Unchecked
import Verif.Props.Unordered
import Verif.Spec.Room
import Verif.Props.Queries
import Verif.Props.Room
import Verif.Tests.Applied
import Verif.Spec.Spelled
import Verif.Props.Spelled
