import Verif.Model.Prim
import Verif.Model.NominalString
import Verif.Model.Error
import Verif.Model.Digital
import Verif.Model.Enumerated
import Verif.Model.Additive
import Verif.Model.Hebrew
import Verif.Model.Ethiopic
import Verif.Model.Chinese
import Verif.Model.Tables
import Verif.Model.Lib
import Verif.Tests.Replay
import Verif.Spec.Strings
import Verif.Proofs.Utf8
import Verif.Proofs.StringRefine
import Verif.Proofs.StringRuns
import Verif.Props.Strings
import Verif.Spec.Outcome
import Verif.Spec.Digits
import Verif.Proofs.Outcome
import Verif.Proofs.Digits
import Verif.Proofs.DigitArith
import Verif.Proofs.DigitFormat
import Verif.Proofs.DigitNamed
import Verif.Props.Digits
import Verif.Spec.Additive
import Verif.Proofs.Additive
import Verif.Proofs.AdditiveNamed
import Verif.Proofs.AdditiveDigits
import Verif.Props.Additive
import Verif.Spec.Hebrew
import Verif.Proofs.Hebrew
import Verif.Props.Hebrew
import Verif.Spec.Ethiopic
import Verif.Proofs.Ethiopic
import Verif.Props.Ethiopic
import Verif.Spec.Chinese
import Verif.Proofs.Chinese
import Verif.Proofs.ChineseScaled
import Verif.Proofs.ChineseFormat
import Verif.Proofs.ChineseRead
import Verif.Props.Chinese
import Verif.Spec.Catalogue
import Verif.Props.Catalogue
import Verif.Props.Lib
import Verif.Model.DigitalDyn
import Verif.Spec.Dyn
import Verif.Proofs.Dyn
import Verif.Props.Dyn
import Verif.Spec.Terminate
import Verif.Proofs.Terminate
import Verif.Props.Terminate
import Verif.Props.Injective
import Verif.Spec.Inline
import Verif.Proofs.TextLength
import Verif.Proofs.ChineseLength
import Verif.Props.Inline
import Verif.Props.Sorting
import Verif.Props.Custom
import Verif.Props.Scales
import Verif.Props.Shape
import Verif.Props.Repertoire
import Verif.Spec.Protocol
import Verif.Proofs.Protocol
import Verif.Proofs.Silence
import Verif.Props.Protocol
import Verif.Spec.Language
import Verif.Proofs.Language
import Verif.Props.Language
import Verif.Props.Work
import Verif.Model.Display
import Verif.Spec.Display
import Verif.Props.Display
import Verif.Spec.ChineseDigits
import Verif.Proofs.ChineseDigits
import Verif.Props.ChineseDigits
import Verif.Spec.Width
import Verif.Proofs.TextWidth
import Verif.Props.Width
import Verif.Spec.Collections
import Verif.Props.Collections
import Verif.Spec.ChineseGrammar
import Verif.Proofs.ChineseGrammar
import Verif.Props.ChineseGrammar
import Verif.Props.Fallback
import Verif.Model.Previews
import Verif.Props.Previews
import Verif.Tests.Previews
import Verif.Spec.Contract
import Verif.Props.Contract
import Verif.Spec.Css
import Verif.Proofs.Css
import Verif.Props.Css
import Verif.Model.Results
import Verif.Spec.Results
import Verif.Proofs.Built
import Verif.Props.Built
import Verif.Props.Results
import Verif.Spec.Counting
import Verif.Props.Counting
import Verif.Spec.Alike
import Verif.Props.Alike
import Verif.Model.Defaults
import Verif.Spec.Defaults
import Verif.Props.Defaults
import Verif.Spec.Misread
import Verif.Props.Misread
import Verif.Spec.Unique
import Verif.Props.Unique
import Verif.Props.ChainTypes
import Verif.Model.ChineseTrace
import Verif.Spec.ChineseTrace
import Verif.Props.ChineseTrace
import Verif.Spec.NoAlloc
import Verif.Props.NoAlloc
import Verif.Props.OneBased
import Verif.Spec.Outline
import Verif.Props.Outline
import Verif.Spec.AsciiCase
import Verif.Props.AsciiCase
import Verif.Proofs.Profiles
import Verif.Props.Profiles
import Verif.Spec.Parse
import Verif.Props.Parse
import Verif.Spec.Flags
import Verif.Props.Flags
import Verif.Model.Escape
import Verif.Spec.Escape
import Verif.Props.Escape
import Verif.Model.LibDyn
import Verif.Spec.Own
import Verif.Props.Own
import Verif.Model.OwnColl
import Verif.Proofs.OwnColl
import Verif.Props.OwnColl
import Verif.Spec.Decorated
import Verif.Props.Decorated
import Verif.Spec.Turns
import Verif.Props.Turns
import Verif.Spec.Failures
import Verif.Props.Failures
import Verif.Model.Writes
import Verif.Model.WritesFormat
import Verif.Spec.Writes
import Verif.Proofs.Filled
import Verif.Proofs.Writes
import Verif.Proofs.WritesFormat
import Verif.Proofs.WritesCost
import Verif.Props.Writes
import Verif.Model.Casts
import Verif.Proofs.Casts
import Verif.Props.Casts
import Verif.Spec.LabelOrder
import Verif.Props.LabelOrder
import Verif.Spec.Widest
import Verif.Props.Widest
import Verif.Spec.Unseparated
import Verif.Props.Unseparated
import Verif.Spec.Utf16
import Verif.Spec.Relabel
import Verif.Props.Utf16
import Verif.Props.Relabel
import Verif.Spec.Search
import Verif.Props.Search
import Verif.Props.SortExact
import Verif.Props.MisreadTo
import Verif.Props.AdditiveOrder
import Verif.Props.AdditiveBuilds
import Verif.Props.Extend
import Verif.Props.Determine
import Verif.Props.DetermineAdditive
