import Verif.Base.Base64
import Verif.Base.Double
import Verif.Base.Json
import Verif.Base.Percent
import Verif.Base.Reading
import Verif.Base.Res
import Verif.Base.Serde
import Verif.Base.Shape
import Verif.Base.Skip
import Verif.Base.Str
import Verif.Base.Utf8
import Verif.Lemmas.Base64
import Verif.Lemmas.Blank
import Verif.Lemmas.Bounded
import Verif.Lemmas.Chrono
import Verif.Lemmas.ChronoText
import Verif.Lemmas.Dated
import Verif.Lemmas.Digits
import Verif.Lemmas.Displayed
import Verif.Lemmas.DocumentReport
import Verif.Lemmas.Double
import Verif.Lemmas.Engine
import Verif.Lemmas.Evaluate
import Verif.Lemmas.Fits
import Verif.Lemmas.HeaderReport
import Verif.Lemmas.Insert
import Verif.Lemmas.Instant
import Verif.Lemmas.Json
import Verif.Lemmas.JsonDeep
import Verif.Lemmas.JsonText
import Verif.Lemmas.Jwt
import Verif.Lemmas.Leap
import Verif.Lemmas.Magnitude
import Verif.Lemmas.Number
import Verif.Lemmas.Offer
import Verif.Lemmas.Order
import Verif.Lemmas.Percent
import Verif.Lemmas.Quoted
import Verif.Lemmas.Range
import Verif.Lemmas.Reading
import Verif.Lemmas.ReadingPlace
import Verif.Lemmas.ReadingQuote
import Verif.Lemmas.ReadingSame
import Verif.Lemmas.ReadingShort
import Verif.Lemmas.ReadingText
import Verif.Lemmas.ReadingTorn
import Verif.Lemmas.ReadingTotal
import Verif.Lemmas.Reread
import Verif.Lemmas.RoundTrip
import Verif.Lemmas.Seen
import Verif.Lemmas.Serde
import Verif.Lemmas.Settle
import Verif.Lemmas.Shallow
import Verif.Lemmas.ShapeText
import Verif.Lemmas.Shapes
import Verif.Lemmas.Shortest
import Verif.Lemmas.Skip
import Verif.Lemmas.Spaces
import Verif.Lemmas.Stable
import Verif.Lemmas.Survive
import Verif.Lemmas.TimeFault
import Verif.Lemmas.Token
import Verif.Lemmas.Unique
import Verif.Lemmas.Unreadable
import Verif.Lemmas.UnreadableDoc
import Verif.Lemmas.UnreadableReport
import Verif.Lemmas.UnreadableStruct
import Verif.Lemmas.Utf8
import Verif.Model.AccessToken
import Verif.Model.Chrono
import Verif.Model.Credential
import Verif.Model.Debug
import Verif.Model.Did
import Verif.Model.Document
import Verif.Model.Engine
import Verif.Model.ErrorResponse
import Verif.Model.Errors
import Verif.Model.Ext
import Verif.Model.Issuer
import Verif.Model.Jwk
import Verif.Model.Jwt
import Verif.Model.Leap
import Verif.Model.Library
import Verif.Model.Metadata
import Verif.Model.Method
import Verif.Model.Options
import Verif.Model.PathError
import Verif.Model.Request
import Verif.Model.TimeError
import Verif.Model.Unreadable
import Verif.Model.Validate
import Verif.Props.Altered
import Verif.Props.Asked
import Verif.Props.Bare
import Verif.Props.Bounded
import Verif.Props.Careful
import Verif.Props.Claims
import Verif.Props.Clock
import Verif.Props.Codec
import Verif.Props.Commits
import Verif.Props.Cut
import Verif.Props.Dated
import Verif.Props.Depends
import Verif.Props.Details
import Verif.Props.Did
import Verif.Props.Document
import Verif.Props.Documented
import Verif.Props.Documents
import Verif.Props.Double
import Verif.Props.Engine
import Verif.Props.Evaluate
import Verif.Props.Evolve
import Verif.Props.Exact
import Verif.Props.Extra
import Verif.Props.Flow
import Verif.Props.HeaderReport
import Verif.Props.History
import Verif.Props.Instant
import Verif.Props.Jwk
import Verif.Props.Jwt
import Verif.Props.JwtText
import Verif.Props.Leap
import Verif.Props.Length
import Verif.Props.Library
import Verif.Props.Line
import Verif.Props.Messages
import Verif.Props.Method
import Verif.Props.Needed
import Verif.Props.NormalForm
import Verif.Props.Null
import Verif.Props.Offer
import Verif.Props.Open
import Verif.Props.Options
import Verif.Props.Order
import Verif.Props.Padded
import Verif.Props.Panic
import Verif.Props.Path
import Verif.Props.Quoted
import Verif.Props.Range
import Verif.Props.Reject
import Verif.Props.Report
import Verif.Props.Response
import Verif.Props.Results
import Verif.Props.Reveal
import Verif.Props.Same
import Verif.Props.Service
import Verif.Props.Shortened
import Verif.Props.Spaces
import Verif.Props.Spelling
import Verif.Props.Spoilt
import Verif.Props.SpoiltClaim
import Verif.Props.SpoiltHeader
import Verif.Props.SpoiltText
import Verif.Props.Stable
import Verif.Props.Steady
import Verif.Props.Text
import Verif.Props.TimeFault
import Verif.Props.Token
import Verif.Props.Torn
import Verif.Props.Unicode
import Verif.Props.Unique
import Verif.Props.Unreadable
import Verif.Props.Validation
import Verif.Props.Wallet
import Verif.Props.Whole
import Verif.Props.Wire
import Verif.Props.Written
import Verif.Spec.Asked
import Verif.Spec.Bare
import Verif.Spec.Base64
import Verif.Spec.Bounded
import Verif.Spec.Calendar
import Verif.Spec.Claims
import Verif.Spec.Commits
import Verif.Spec.Dated
import Verif.Spec.Depends
import Verif.Spec.Details
import Verif.Spec.Did
import Verif.Spec.Document
import Verif.Spec.Documented
import Verif.Spec.Documents
import Verif.Spec.Double
import Verif.Spec.Evaluate
import Verif.Spec.Evolve
import Verif.Spec.Example
import Verif.Spec.Extra
import Verif.Spec.Fault
import Verif.Spec.HeaderReport
import Verif.Spec.History
import Verif.Spec.Instant
import Verif.Spec.Json
import Verif.Spec.JsonNumber
import Verif.Spec.JsonReport
import Verif.Spec.JsonText
import Verif.Spec.Jwk
import Verif.Spec.Jwt
import Verif.Spec.JwtText
import Verif.Spec.KeyProof
import Verif.Spec.Leap
import Verif.Spec.Library
import Verif.Spec.Line
import Verif.Spec.Loose
import Verif.Spec.Magnitude
import Verif.Spec.Messages
import Verif.Spec.Method
import Verif.Spec.Near
import Verif.Spec.NormalForm
import Verif.Spec.Null
import Verif.Spec.Offer
import Verif.Spec.Options
import Verif.Spec.Order
import Verif.Spec.Path
import Verif.Spec.Quoted
import Verif.Spec.Range
import Verif.Spec.Reject
import Verif.Spec.Report
import Verif.Spec.Response
import Verif.Spec.Results
import Verif.Spec.Reveal
import Verif.Spec.Same
import Verif.Spec.Seen
import Verif.Spec.Service
import Verif.Spec.Spaces
import Verif.Spec.TimeFault
import Verif.Spec.Token
import Verif.Spec.Unicode
import Verif.Spec.Unique
import Verif.Spec.Url
import Verif.Spec.Utf8
import Verif.Spec.Validation
import Verif.Spec.Wallet
import Verif.Spec.Wire
import Verif.Spec.Written
import Verif.Tests.Repo
import Verif.Tests.Reports
import Verif.Tests.Times
