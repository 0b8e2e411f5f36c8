import Verif.Model.BoundToken
import Verif.Model.Canonical
import Verif.Model.Codec
import Verif.Model.Concurrent
import Verif.Model.Cors
import Verif.Model.ErrorChain
import Verif.Model.ErrorDebug
import Verif.Model.ErrorText
import Verif.Model.FifoLock
import Verif.Model.HtmlForm
import Verif.Model.ImageHttp
import Verif.Model.ImagePage
import Verif.Model.ImageRestart
import Verif.Model.ImageRestartShared
import Verif.Model.ImageUploader
import Verif.Model.ImageUploaderShared
import Verif.Model.Iso8601
import Verif.Model.Json
import Verif.Model.Multipart
import Verif.Model.Outcome
import Verif.Model.Pem
import Verif.Model.PolicyRead
import Verif.Model.Reqwest
import Verif.Model.Rfc3339
import Verif.Model.Serde
import Verif.Model.Sha256
import Verif.Model.SignedUrl
import Verif.Model.SigningKey
import Verif.Model.Text
import Verif.Model.Time
import Verif.Model.Url
import Verif.Model.Wire
import Verif.Spec.Alone
import Verif.Spec.Calendar
import Verif.Spec.Calls
import Verif.Spec.Codec
import Verif.Spec.Concurrent
import Verif.Spec.Cors
import Verif.Spec.Debug
import Verif.Spec.Documents
import Verif.Spec.ErrorText
import Verif.Spec.Failures
import Verif.Spec.FifoLock
import Verif.Spec.Form
import Verif.Spec.ImageHttp
import Verif.Spec.ImageLive
import Verif.Spec.ImageRestart
import Verif.Spec.ImageSite
import Verif.Spec.ImageSiteLive
import Verif.Spec.ImageSiteRestart
import Verif.Spec.ImageSiteRestartLive
import Verif.Spec.ImageSiteShared
import Verif.Spec.ImageUploader
import Verif.Spec.ImageWire
import Verif.Spec.ImageWorks
import Verif.Spec.ImageWorksShared
import Verif.Spec.Iso8601
import Verif.Spec.Json
import Verif.Spec.KeyOwner
import Verif.Spec.Liveness
import Verif.Spec.Multipart
import Verif.Spec.Parts
import Verif.Spec.Pem
import Verif.Spec.PolicyRead
import Verif.Spec.PostServer
import Verif.Spec.Rate
import Verif.Spec.Recovery
import Verif.Spec.Reqwest
import Verif.Spec.Rfc3339
import Verif.Spec.Rsa
import Verif.Spec.Secrets
import Verif.Spec.SecretsHistory
import Verif.Spec.Server
import Verif.Spec.Sha256
import Verif.Spec.SignedAccess
import Verif.Spec.Storage
import Verif.Spec.Token
import Verif.Spec.Url
import Verif.Spec.UrlStandard
import Verif.Spec.Wire
import Verif.Lemmas.Alone
import Verif.Lemmas.Asks
import Verif.Lemmas.Base64
import Verif.Lemmas.Calendar
import Verif.Lemmas.CallRuns
import Verif.Lemmas.Calls
import Verif.Lemmas.Codec
import Verif.Lemmas.Critical
import Verif.Lemmas.Digits
import Verif.Lemmas.Effects
import Verif.Lemmas.Escape
import Verif.Lemmas.Failures
import Verif.Lemmas.FifoLock
import Verif.Lemmas.Form
import Verif.Lemmas.FormCalls
import Verif.Lemmas.FormEq
import Verif.Lemmas.FormRead
import Verif.Lemmas.Headers
import Verif.Lemmas.History
import Verif.Lemmas.ImageHttp
import Verif.Lemmas.Interleave
import Verif.Lemmas.Iso8601
import Verif.Lemmas.Iso8601Read
import Verif.Lemmas.Json
import Verif.Lemmas.JsonValue
import Verif.Lemmas.Lossy
import Verif.Lemmas.Multipart
import Verif.Lemmas.NoUnicode
import Verif.Lemmas.Order
import Verif.Lemmas.Pem
import Verif.Lemmas.Percent
import Verif.Lemmas.Policy
import Verif.Lemmas.PolicyDoc
import Verif.Lemmas.PolicyRead
import Verif.Lemmas.PolicyText
import Verif.Lemmas.ProgEq
import Verif.Lemmas.Progress
import Verif.Lemmas.Protocol
import Verif.Lemmas.ReferenceRsa
import Verif.Lemmas.Replay
import Verif.Lemmas.Rfc3339
import Verif.Lemmas.Rsa
import Verif.Lemmas.Runs
import Verif.Lemmas.Schedule
import Verif.Lemmas.SecretsHistory
import Verif.Lemmas.Sends
import Verif.Lemmas.Sequential
import Verif.Lemmas.Server
import Verif.Lemmas.Sha256
import Verif.Lemmas.Sort
import Verif.Lemmas.Stamp
import Verif.Lemmas.Struct
import Verif.Lemmas.StructText
import Verif.Lemmas.Token
import Verif.Lemmas.TokenGets
import Verif.Lemmas.TokenPanic
import Verif.Lemmas.Unique
import Verif.Lemmas.UrlBuild
import Verif.Lemmas.UrlHeaders
import Verif.Lemmas.UrlLength
import Verif.Lemmas.UrlPath
import Verif.Lemmas.UrlPathExact
import Verif.Lemmas.UrlQuery
import Verif.Lemmas.UrlSigned
import Verif.Lemmas.UrlStandard
import Verif.Lemmas.UrlText
import Verif.Lemmas.Utf8
import Verif.Props.Alone
import Verif.Props.Boundary
import Verif.Props.ClientHeaders
import Verif.Props.Codec
import Verif.Props.Concurrent
import Verif.Props.ConcurrentResults
import Verif.Props.Cors
import Verif.Props.CorsExamples
import Verif.Props.Documents
import Verif.Props.ErrorChain
import Verif.Props.ErrorDebug
import Verif.Props.ErrorText
import Verif.Props.Failures
import Verif.Props.FifoLock
import Verif.Props.FormErrors
import Verif.Props.FormFields
import Verif.Props.FormPolicy
import Verif.Props.FormReturns
import Verif.Props.Ground
import Verif.Props.ImageHttp
import Verif.Props.ImageHttpSite
import Verif.Props.ImageLive
import Verif.Props.ImageRestart
import Verif.Props.ImageRestartEvents
import Verif.Props.ImageRestartExamples
import Verif.Props.ImageRestartShared
import Verif.Props.ImageSite
import Verif.Props.ImageSiteExamples
import Verif.Props.ImageSiteLive
import Verif.Props.ImageSiteLiveExamples
import Verif.Props.ImageSiteRestart
import Verif.Props.ImageSiteRestartExamples
import Verif.Props.ImageSiteRestartLive
import Verif.Props.ImageSiteRestartLiveExamples
import Verif.Props.ImageSiteRestartLiveShared
import Verif.Props.ImageSiteRestartShared
import Verif.Props.ImageSiteShared
import Verif.Props.ImageSiteSharedExamples
import Verif.Props.ImageUploader
import Verif.Props.ImageUploaderExamples
import Verif.Props.ImageUploaderServer
import Verif.Props.ImageWire
import Verif.Props.ImageWorks
import Verif.Props.ImageWorksShared
import Verif.Props.ImageWorksSite
import Verif.Props.ImageWorksToken
import Verif.Props.Key
import Verif.Props.KeyOwner
import Verif.Props.KeyOwnerExamples
import Verif.Props.Liveness
import Verif.Props.Multipart
import Verif.Props.MultipartShared
import Verif.Props.Pem
import Verif.Props.PolicyRead
import Verif.Props.PostServer
import Verif.Props.PostServerExamples
import Verif.Props.Rate
import Verif.Props.Recovery
import Verif.Props.RecoveryExamples
import Verif.Props.Reqwest
import Verif.Props.ReqwestShared
import Verif.Props.ReqwestUrl
import Verif.Props.Secrets
import Verif.Props.SecretsHistory
import Verif.Props.Server
import Verif.Props.ServerExamples
import Verif.Props.ServerFailures
import Verif.Props.SignedAccess
import Verif.Props.SignedAccessExamples
import Verif.Props.SigningRequests
import Verif.Props.Storage
import Verif.Props.StorageExamples
import Verif.Props.StorageShared
import Verif.Props.Time
import Verif.Props.TimeRead
import Verif.Props.TimeReadExact
import Verif.Props.Token
import Verif.Props.TokenAccount
import Verif.Props.UrlChars
import Verif.Props.UrlCommit
import Verif.Props.UrlErrors
import Verif.Props.UrlExact
import Verif.Props.UrlHeaders
import Verif.Props.UrlParams
import Verif.Props.UrlPath
import Verif.Props.UrlReturns
import Verif.Props.UrlShape
import Verif.Props.Wire
import Verif.Cases.Alone
import Verif.Cases.ClientHeaders
import Verif.Cases.Concurrent
import Verif.Cases.Disturbed
import Verif.Cases.ErrorDebug
import Verif.Cases.Form
import Verif.Cases.ImageHttp
import Verif.Cases.ImageWire
import Verif.Cases.ImageWireShared
import Verif.Cases.ImageWorks
import Verif.Cases.ImageWorksShared
import Verif.Cases.ImageWorksToken
import Verif.Cases.Multipart
import Verif.Cases.Pem
import Verif.Cases.Reqwest
import Verif.Cases.ReqwestShared
import Verif.Cases.ReqwestUrl
import Verif.Cases.RestartLiveShared
import Verif.Cases.RestartShared
import Verif.Cases.Server
import Verif.Cases.StorageShared
import Verif.Cases.Token
import Verif.Cases.Url
import Verif.Cases.Wire
import Verif.Conformance
