import Verif.Model.ResourceProtector
import Verif.Model.AuthorizationEndpoint
import Verif.Lemmas.Prog
import Verif.Lemmas.Str
import Verif.Props.PureStrings
import Verif.Lemmas.Base64
import Verif.Lemmas.Decimal
import Verif.Lemmas.Escape
import Verif.Props.Encodings
import Verif.Props.Http
import Verif.Lemmas.Writes
import Verif.Lemmas.Grant
import Verif.Lemmas.Exec
import Verif.Lemmas.TokenEndpoint
import Verif.Lemmas.TokenHandler
import Verif.Lemmas.History
import Verif.Lemmas.GrantErr
import Verif.Lemmas.TokenFail
import Verif.Spec.Calls
import Verif.Spec.TokenEndpoint
import Verif.Sample.World
import Verif.Props.TokenEndpoint
import Verif.Spec.Grants
import Verif.Lemmas.GrantAnatomy
import Verif.Lemmas.TokenPhases
import Verif.Lemmas.Int64
import Verif.Lemmas.GrantIssue
import Verif.Props.CodeGrant
import Verif.Props.Grants
import Verif.Spec.Protector
import Verif.Props.Protector
import Verif.Spec.FrontChannel
import Verif.Lemmas.Front
import Verif.Lemmas.AuthHoare
import Verif.Lemmas.Complete
import Verif.Lemmas.Decision
import Verif.Spec.Authorization
import Verif.Lemmas.AuthFacts
import Verif.Props.Authorization
import Verif.Lemmas.Screens
import Verif.Lemmas.FromLogin
import Verif.Lemmas.MaxAge
import Verif.Props.AuthPrompt
import Verif.Props.AuthParams
import Verif.Lemmas.Contents
import Verif.Lemmas.Continue
import Verif.Props.AuthComplete
import Verif.Spec.Html
import Verif.Spec.Jwt
import Verif.Lemmas.Html
import Verif.Props.FormPost
import Verif.Lemmas.Hint
import Verif.Props.Hint
import Verif.Props.TokenHash
import Verif.Model.TestStore
import Verif.Spec.Concurrency
import Verif.Lemmas.Concurrent
import Verif.Lemmas.TestStore
import Verif.Props.Completeness
import Verif.Props.Concurrent
import Verif.Props.Store
import Verif.Model.Json
import Verif.Spec.Json
import Verif.Lemmas.Utf8
import Verif.Lemmas.Json
import Verif.Lemmas.Jwt
import Verif.Lemmas.JsonEncode
import Verif.Lemmas.RequestJson
import Verif.Props.Json
import Verif.Spec.Challenge
import Verif.Lemmas.Challenge
import Verif.Props.ErrorRender
import Verif.Props.Refusals
import Verif.Spec.Secrets
import Verif.Lemmas.Sim
import Verif.Props.Secrets
import Verif.Model.Jwk
import Verif.Spec.Jwk
import Verif.Props.Jwk
import Verif.Spec.ResponseTypes
import Verif.Spec.AuthDecision
import Verif.Lemmas.AuthDecision
import Verif.Lemmas.AuthDecide
import Verif.Lemmas.AuthUnique
import Verif.Props.AuthDecision
import Verif.Spec.TokenDecision
import Verif.Lemmas.TokenTable
import Verif.Lemmas.TokenDecision
import Verif.Lemmas.TokenJwt
import Verif.Lemmas.TokenReply
import Verif.Lemmas.TokenUnique
import Verif.Props.TokenDecision
import Verif.Spec.Origin
import Verif.Lemmas.Origin
import Verif.Lemmas.OriginAuth
import Verif.Lemmas.OriginGlobal
import Verif.Lemmas.OriginStore
import Verif.Lemmas.OriginSample
import Verif.Props.Origin
import Verif.Spec.LogText
import Verif.Spec.Audit
import Verif.Props.LogText
import Verif.Lemmas.Audit
import Verif.Lemmas.AuditFail
import Verif.Props.Audit
import Verif.Lemmas.AuditFront
import Verif.Props.AuditFront
import Verif.Lemmas.TableStore
import Verif.Spec.EndToEnd
import Verif.Lemmas.EndToEndSample
import Verif.Props.EndToEnd
import Verif.Spec.Confine
import Verif.Props.Confine
import Verif.Props.Replaced
import Verif.Model.Settings
import Verif.Spec.Settings
import Verif.Props.Settings
import Verif.Model.Reference
import Verif.Spec.Reference
import Verif.Lemmas.Snoc
import Verif.Lemmas.Reference
import Verif.Props.Reference
import Verif.Spec.Clock
import Verif.Lemmas.Clock
import Verif.Lemmas.ClockSample
import Verif.Props.Lifetime
import Verif.Model.Jws
import Verif.Spec.Jws
import Verif.Lemmas.Numeral
import Verif.Lemmas.Jws
import Verif.Lemmas.JwsRead
import Verif.Sample.Sha2
import Verif.Sample.Crypto
import Verif.Props.Jws
import Verif.Props.HintJws
import Verif.Spec.Ignored
import Verif.Props.Ignored
import Verif.Lemmas.SimR
import Verif.Spec.Insensitive
import Verif.Props.Insensitive
import Verif.Props.FrontMore
import Verif.Props.AuditMore
import Verif.Spec.Discreet
import Verif.Props.Discreet
import Verif.Spec.Verifier
import Verif.Props.Verifier
import Verif.Spec.Cost
import Verif.Lemmas.Cost
import Verif.Lemmas.CostFront
import Verif.Lemmas.CostToken
import Verif.Props.Cost
import Verif.Spec.LooseJson
import Verif.Lemmas.JsonLoose
import Verif.Spec.LooseJws
import Verif.Lemmas.JwsLoose
import Verif.Props.LooseJws
import Verif.Spec.Decode
import Verif.Lemmas.Decode
import Verif.Props.Decode
import Verif.Props.SettingsMore
import Verif.Spec.Lines
import Verif.Lemmas.FrontAll
import Verif.Lemmas.TokenAll
import Verif.Props.Lines
import Verif.Spec.Issued
import Verif.Lemmas.SimE
import Verif.Props.Issued
import Verif.Props.Extent
import Verif.Props.Logger
import Verif.Props.Wire
import Verif.Props.Rfc7636
import Verif.Props.TokenScope
import Verif.Props.Kept
import Verif.Props.Hints
import Verif.Spec.Methods
import Verif.Props.Methods
import Verif.Spec.Repeats
import Verif.Props.Repeats
import Verif.Spec.Claims
import Verif.Props.Claims
import Verif.Spec.Custom
import Verif.Props.Custom
import Verif.Spec.Critical
import Verif.Props.Critical
import Verif.Spec.Reuse
import Verif.Props.Reuse
import Verif.Spec.Ours
import Verif.Props.Ours
import Verif.Props.OnceInside
import Verif.Props.Recorded
import Verif.Props.Revoked
import Verif.Props.Expired
import Verif.Props.Removed
import Verif.Conformance.Harness
import Verif.Conformance.TokenEndpoint
import Verif.Conformance.Code
import Verif.Conformance.Assertions
import Verif.Conformance.Units
