import Verif.Lemmas.Accepted
import Verif.Lemmas.Accepted2
import Verif.Lemmas.Accepted3
import Verif.Lemmas.Advance
import Verif.Lemmas.Alone
import Verif.Lemmas.Alone2
import Verif.Lemmas.Alone3
import Verif.Lemmas.Alone4
import Verif.Lemmas.Alone5
import Verif.Lemmas.AloneFloat
import Verif.Lemmas.AnyEncoding
import Verif.Lemmas.Args
import Verif.Lemmas.Bits
import Verif.Lemmas.Boundary
import Verif.Lemmas.Boundary2
import Verif.Lemmas.Boundary3
import Verif.Lemmas.Boundary4
import Verif.Lemmas.Boundary5
import Verif.Lemmas.Boundary6
import Verif.Lemmas.Braces
import Verif.Lemmas.Braces2
import Verif.Lemmas.Buffer
import Verif.Lemmas.Buffer2
import Verif.Lemmas.Calendar
import Verif.Lemmas.Calendar2
import Verif.Lemmas.Calls
import Verif.Lemmas.Calls2
import Verif.Lemmas.Charset
import Verif.Lemmas.Charset2
import Verif.Lemmas.Chrono
import Verif.Lemmas.Chrono10
import Verif.Lemmas.Chrono11
import Verif.Lemmas.Chrono12
import Verif.Lemmas.Chrono13
import Verif.Lemmas.Chrono14
import Verif.Lemmas.Chrono15
import Verif.Lemmas.Chrono16
import Verif.Lemmas.Chrono2
import Verif.Lemmas.Chrono3
import Verif.Lemmas.Chrono4
import Verif.Lemmas.Chrono5
import Verif.Lemmas.Chrono6
import Verif.Lemmas.Chrono7
import Verif.Lemmas.Chrono8
import Verif.Lemmas.Chrono9
import Verif.Lemmas.CodePointValue
import Verif.Lemmas.Continued
import Verif.Lemmas.CustomScan
import Verif.Lemmas.DateRead
import Verif.Lemmas.Defined
import Verif.Lemmas.Defined2
import Verif.Lemmas.Defined3
import Verif.Lemmas.Defined4
import Verif.Lemmas.Defined5
import Verif.Lemmas.Defined6
import Verif.Lemmas.Discard
import Verif.Lemmas.Driver
import Verif.Lemmas.Driver2
import Verif.Lemmas.Driver3
import Verif.Lemmas.Driver4
import Verif.Lemmas.Ends
import Verif.Lemmas.Fields
import Verif.Lemmas.Fields2
import Verif.Lemmas.Float
import Verif.Lemmas.Float2
import Verif.Lemmas.Float3
import Verif.Lemmas.Float4
import Verif.Lemmas.Float5
import Verif.Lemmas.FloatLoc
import Verif.Lemmas.FloatText
import Verif.Lemmas.Follow
import Verif.Lemmas.Follows
import Verif.Lemmas.Format
import Verif.Lemmas.Format2
import Verif.Lemmas.Fraction
import Verif.Lemmas.History
import Verif.Lemmas.IntMore
import Verif.Lemmas.IntParse
import Verif.Lemmas.IntReader
import Verif.Lemmas.IntScan
import Verif.Lemmas.Istream
import Verif.Lemmas.Iterators
import Verif.Lemmas.Layouts
import Verif.Lemmas.Layouts2
import Verif.Lemmas.LeadingZeros
import Verif.Lemmas.LetterCase
import Verif.Lemmas.LetterFloat
import Verif.Lemmas.ListGrammar
import Verif.Lemmas.ListLine
import Verif.Lemmas.Literal
import Verif.Lemmas.Locale
import Verif.Lemmas.LocaleFree
import Verif.Lemmas.LocaleFree2
import Verif.Lemmas.Localized
import Verif.Lemmas.Lockstep
import Verif.Lemmas.LogLine
import Verif.Lemmas.Loose
import Verif.Lemmas.Many
import Verif.Lemmas.Matches
import Verif.Lemmas.MinusSign
import Verif.Lemmas.Mixed
import Verif.Lemmas.Modifiers
import Verif.Lemmas.NumberedRecords
import Verif.Lemmas.Numbers
import Verif.Lemmas.Padded
import Verif.Lemmas.Padded2
import Verif.Lemmas.Padded3
import Verif.Lemmas.Pieces
import Verif.Lemmas.Ranges
import Verif.Lemmas.Ranges2
import Verif.Lemmas.Ranges3
import Verif.Lemmas.Readers
import Verif.Lemmas.Records
import Verif.Lemmas.Regex
import Verif.Lemmas.RegexMatch
import Verif.Lemmas.Renumber
import Verif.Lemmas.Sequence
import Verif.Lemmas.Simulate
import Verif.Lemmas.Space
import Verif.Lemmas.Space2
import Verif.Lemmas.SpecRound
import Verif.Lemmas.Swar
import Verif.Lemmas.TextForm
import Verif.Lemmas.Texts
import Verif.Lemmas.Track
import Verif.Lemmas.Unicode
import Verif.Lemmas.Unicode2
import Verif.Lemmas.VScan
import Verif.Lemmas.VScan2
import Verif.Lemmas.Views
import Verif.Lemmas.Widen
import Verif.Lemmas.Width
import Verif.Lemmas.WithTz
import Verif.Lemmas.Words
import Verif.Lemmas.WrittenSet
import Verif.Model.Api
import Verif.Model.ArgReader
import Verif.Model.Args
import Verif.Model.Basic
import Verif.Model.Bits
import Verif.Model.BufScan
import Verif.Model.Buffer
import Verif.Model.CLocale
import Verif.Model.Calendar
import Verif.Model.Checks
import Verif.Model.Chrono
import Verif.Model.CustomScan
import Verif.Model.DateArgs
import Verif.Model.Discard
import Verif.Model.Expected
import Verif.Model.ExpectedVoid
import Verif.Model.FileScan
import Verif.Model.Float
import Verif.Model.Format
import Verif.Model.IntParse
import Verif.Model.IntReader
import Verif.Model.Istream
import Verif.Model.Iterators
import Verif.Model.Matches
import Verif.Model.RangeArgs
import Verif.Model.Ranges
import Verif.Model.Readers
import Verif.Model.Regex
import Verif.Model.RegexMatch
import Verif.Model.ScanInt
import Verif.Model.Scannable
import Verif.Model.Sources
import Verif.Model.Space
import Verif.Model.Strings
import Verif.Model.Unicode
import Verif.Model.VScan
import Verif.Model.WidthIter
import Verif.Props.Alone
import Verif.Props.AnyEncoding
import Verif.Props.Api
import Verif.Props.Args
import Verif.Props.Bits
import Verif.Props.Boundary
import Verif.Props.Braces
import Verif.Props.Buffers
import Verif.Props.CLocale
import Verif.Props.Calendar
import Verif.Props.Calendar2
import Verif.Props.Calendar3
import Verif.Props.Calls
import Verif.Props.Charset
import Verif.Props.Chrono
import Verif.Props.Chrono2
import Verif.Props.Chrono3
import Verif.Props.Chrono4
import Verif.Props.Chrono5
import Verif.Props.CodePointValue
import Verif.Props.Continued
import Verif.Props.Continued2
import Verif.Props.CustomScan
import Verif.Props.DateRead
import Verif.Props.Defined
import Verif.Props.Defined2
import Verif.Props.Defined3
import Verif.Props.Discard
import Verif.Props.Driver
import Verif.Props.Expected
import Verif.Props.ExpectedVoid
import Verif.Props.Fields
import Verif.Props.Fields2
import Verif.Props.Fields3
import Verif.Props.Fields4
import Verif.Props.FileScan
import Verif.Props.Float
import Verif.Props.Float2
import Verif.Props.Format
import Verif.Props.Fraction
import Verif.Props.Integers
import Verif.Props.Istream
import Verif.Props.Iterators
import Verif.Props.Layouts
import Verif.Props.LeadingZeros
import Verif.Props.LetterCase
import Verif.Props.LetterFloat
import Verif.Props.ListGrammar
import Verif.Props.ListLine
import Verif.Props.Locale
import Verif.Props.LocaleFree
import Verif.Props.LogLine
import Verif.Props.Loose
import Verif.Props.MinusSign
import Verif.Props.Mixed
import Verif.Props.Modifiers
import Verif.Props.NumberedRecords
import Verif.Props.Numbers
import Verif.Props.Padded
import Verif.Props.Ranges
import Verif.Props.Readers
import Verif.Props.Readers2
import Verif.Props.Regex
import Verif.Props.RegexMatch
import Verif.Props.Renumber
import Verif.Props.ScanInt
import Verif.Props.Scannable
import Verif.Props.SignField
import Verif.Props.SignLetter
import Verif.Props.Space
import Verif.Props.Specs
import Verif.Props.StringSets
import Verif.Props.Strings
import Verif.Props.TextForm
import Verif.Props.Texts
import Verif.Props.Unicode
import Verif.Props.Views
import Verif.Props.Widen
import Verif.Props.WidthIter
import Verif.Props.WithTz
import Verif.Props.Zones
import Verif.Props.Zones2
import Verif.Props.Zones3
import Verif.Spec.Accepted
import Verif.Spec.AnyEncoding
import Verif.Spec.Bits
import Verif.Spec.Boundary
import Verif.Spec.Braces
import Verif.Spec.Calendar
import Verif.Spec.Calls
import Verif.Spec.Charset
import Verif.Spec.Chrono
import Verif.Spec.CustomScan
import Verif.Spec.DateRead
import Verif.Spec.Expected
import Verif.Spec.Float
import Verif.Spec.Format
import Verif.Spec.IntScan
import Verif.Spec.Istream
import Verif.Spec.LeadingZeros
import Verif.Spec.LetterCase
import Verif.Spec.ListGrammar
import Verif.Spec.ListLine
import Verif.Spec.Locale
import Verif.Spec.LogLine
import Verif.Spec.Loose
import Verif.Spec.MinusSign
import Verif.Spec.Modifiers
import Verif.Spec.NumberedRecords
import Verif.Spec.Numbers
import Verif.Spec.Numeral
import Verif.Spec.Padded
import Verif.Spec.Ranges
import Verif.Spec.Regex
import Verif.Spec.RegexMatch
import Verif.Spec.Renumber
import Verif.Spec.Scannable
import Verif.Spec.Sequence
import Verif.Spec.Space
import Verif.Spec.TextForm
import Verif.Spec.Texts
import Verif.Spec.Types
import Verif.Spec.Unicode
import Verif.Spec.VScan
import Verif.Spec.Values
import Verif.Spec.Widen
import Verif.Spec.Width
