import Verif.Model.Unpack
import Verif.Spec.Values
import Verif.Spec.Env
import Verif.Spec.CryptoLaws
import Verif.Spec.Toy
import Verif.Spec.Codec
import Verif.Proofs.Runs
import Verif.Proofs.Base64
import Verif.Proofs.JsonPrint
import Verif.Proofs.StrOrder
import Verif.Proofs.JsonDecode
import Verif.Proofs.Typed
import Verif.Proofs.Utf8
import Verif.Proofs.Envelope
import Verif.Proofs.Toy
import Verif.Proofs.Codec
import Verif.Props.Codec
import Verif.Model.Example
import Verif.Spec.Builders
import Verif.Proofs.Gives
import Verif.Props.Builders
import Verif.Props.Json
import Verif.Proofs.SimpSet
import Verif.Proofs.Inv
import Verif.Proofs.InvUnpack
import Verif.Spec.Select
import Verif.Proofs.Select
import Verif.Spec.World
import Verif.Spec.Wire
import Verif.Props.Validation
import Verif.Props.Negotiation
import Verif.Spec.Route
import Verif.Props.Routing
import Verif.Spec.Evidence
import Verif.Proofs.Evidence
import Verif.Proofs.Steps
import Verif.Proofs.Wire
import Verif.Proofs.WorldRuns
import Verif.Props.Evidence
import Verif.Spec.Receiver
import Verif.Proofs.RoundTrip
import Verif.Proofs.Trip
import Verif.Proofs.WorldParties
import Verif.Props.RoundTrip
import Verif.Proofs.ParseTotal
import Verif.Spec.Panic
import Verif.Spec.Trace
import Verif.Proofs.Tame
import Verif.Proofs.Ends
import Verif.Proofs.Trace
import Verif.Props.Traces
import Verif.Props.NoPanic
import Verif.Spec.Shrinks
import Verif.Spec.Count
import Verif.Proofs.Shrink
import Verif.Proofs.Count
import Verif.Props.Termination
import Verif.Spec.Forwarding
import Verif.Proofs.Reparse
import Verif.Proofs.Forward
import Verif.Props.Forward
import Verif.Props.Negative
import Verif.Spec.Secrecy
import Verif.Proofs.Secrecy
import Verif.Props.Secrecy
import Verif.Model.Bindings
import Verif.Spec.Bindings
import Verif.Proofs.Bindings
import Verif.Spec.Errors
import Verif.Proofs.Kinds
import Verif.Proofs.Missing
import Verif.Props.Errors
import Verif.Props.Bindings
import Verif.Model.DocSerde
import Verif.Spec.Documents
import Verif.Proofs.Documents
import Verif.Proofs.Metadata
import Verif.Props.Documents
import Verif.Spec.Utf8
import Verif.Spec.Kids
import Verif.Proofs.Utf8Spec
import Verif.Props.Prior
import Verif.Spec.LookUp
import Verif.Props.LookUps
import Verif.Spec.Grammar
import Verif.Proofs.GrammarStr
import Verif.Proofs.Grammar
import Verif.Proofs.Prefix
import Verif.Proofs.Cut
import Verif.Props.Grammar
import Verif.Spec.Reading
import Verif.Proofs.Reading
import Verif.Proofs.ReadingTypes
import Verif.Props.Reading
import Verif.Spec.ReadingDocs
import Verif.Proofs.ReadingDocs
import Verif.Props.ReadingDocs
import Verif.Spec.Fresh
import Verif.Props.Fresh
import Verif.Spec.Moved
import Verif.Props.Moved
import Verif.Spec.KeyMaterial
import Verif.Props.KeyMaterial
import Verif.Spec.Outcome
import Verif.Proofs.Outcome
import Verif.Proofs.OutcomeEnc
import Verif.Proofs.OutcomeUnique
import Verif.Props.Outcome
import Verif.Spec.OutcomeUnpack
import Verif.Proofs.OutcomeUnpack
import Verif.Proofs.OutcomeUnpackUnique
import Verif.Props.OutcomeUnpack
import Verif.Spec.Authentic
import Verif.Props.Authentic
import Verif.Proofs.Begins
import Verif.Spec.Cut
import Verif.Proofs.Early
import Verif.Proofs.EarlyTypes
import Verif.Proofs.CutNums
import Verif.Model.JsApi
import Verif.Spec.JsApi
import Verif.Props.JsApi
import Verif.Model.UniffiExample
import Verif.Props.UniffiExample
import Verif.Props.Times
import Verif.Proofs.Noticed
import Verif.Proofs.NoticedTypes
import Verif.Props.Noticed
import Verif.Spec.Questions
import Verif.Proofs.Questions
import Verif.Props.Questions
import Verif.Spec.PackQuestions
import Verif.Proofs.PackQuestions
import Verif.Props.PackQuestions
import Verif.Model.UniffiSystem
import Verif.Spec.UniffiSystem
import Verif.Proofs.UniffiSystem
import Verif.Props.UniffiSystem
import Verif.Spec.SendOn
import Verif.Proofs.SendOn
import Verif.Props.SendOn
import Verif.Props.ThirdParty
import Verif.Model.JsSystem
import Verif.Spec.JsSystem
import Verif.Proofs.JsSystem
import Verif.Props.JsEnv
import Verif.Props.JsSystem
import Verif.Spec.Deniable
import Verif.Proofs.Deniable
import Verif.Props.Deniable
import Verif.Model.Pool
import Verif.Spec.Pool
import Verif.Proofs.Pool
import Verif.Proofs.PoolEnds
import Verif.Proofs.PoolBlocked
import Verif.Props.Pool
import Verif.Spec.Meant
import Verif.Props.Meant
import Verif.Spec.JsEnds
import Verif.Props.JsEnds
import Verif.Model.Api
import Verif.Spec.Api
import Verif.Proofs.Api
import Verif.Props.Api
import Verif.Spec.Agree
import Verif.Proofs.Agree
import Verif.Props.Agree
import Verif.Spec.Size
import Verif.Proofs.Size
import Verif.Props.Size
import Verif.Props.Onion
import Verif.Props.ByHand
import Verif.Props.Repeats
import Verif.Spec.Journey
import Verif.Props.Journey
import Verif.Spec.Issuers
import Verif.Props.SignerName
import Verif.Spec.Devices
import Verif.Proofs.Devices
import Verif.Props.Devices
import Verif.Spec.DocUpdates
import Verif.Proofs.DocUpdates
import Verif.Props.DocUpdates
import Verif.Spec.PackUpdates
import Verif.Proofs.PackUpdates
import Verif.Props.PackUpdates
import Verif.Spec.Primitives
import Verif.Proofs.Primitives
import Verif.Props.Primitives
import Verif.Spec.History
import Verif.Props.History
import Verif.Spec.Layout
import Verif.Proofs.Layout
import Verif.Proofs.LayoutRuns
import Verif.Props.Layout
import Verif.Spec.Carried
import Verif.Proofs.Carried
import Verif.Proofs.CarriedExact
import Verif.Props.Carried
import Verif.Spec.Written
import Verif.Proofs.Written
import Verif.Props.Written
import Verif.Spec.HistoryAuth
import Verif.Proofs.HistoryAuth
import Verif.Props.HistoryAuth
import Verif.Spec.Exclusive
import Verif.Proofs.Exclusive
import Verif.Props.Exclusive
import Verif.Spec.HistoryPrior
import Verif.Props.HistoryPrior
import Verif.Vectors.Data
import Verif.Vectors.Tests
import Verif.Vectors.Packing
import Verif.Spec.SenderSecrets
import Verif.Proofs.SenderSecrets
import Verif.Props.SenderSecrets
import Verif.Spec.Nesting
import Verif.Props.Nesting
import Verif.Spec.Digits
import Verif.Props.Digits
import Verif.Props.Integers
