import Verif.Model.Bytes
import Verif.Model.Errors
import Verif.Model.Ext
import Verif.Model.Types
import Verif.Model.Small
import Verif.Model.Json
import Verif.Model.Base64
import Verif.Model.Codec
import Verif.Model.Structs
import Verif.Model.PublicKeys
import Verif.Model.Mfa
import Verif.Model.Users
import Verif.Model.Policy
import Verif.Model.Database
import Verif.Model.Qr
import Verif.Model.Tag
import Verif.Model.CreditCard
import Verif.Model.Concurrency
import Verif.Lemmas.Exec
import Verif.Lemmas.UserOps
import Verif.Lemmas.Inv
import Verif.Spec.Reach
import Verif.Spec.Toy
import Verif.Lemmas.Frame
import Verif.Props.Identity
import Verif.Lemmas.UserSteps
import Verif.Spec.Laws
import Verif.Lemmas.Passwords
import Verif.Props.Passwords
import Verif.Lemmas.Trim
import Verif.Lemmas.ApiKeys
import Verif.Props.ApiKeys
import Verif.Props.Keys
import Verif.Lemmas.Decimal
import Verif.Lemmas.Totp
import Verif.Props.Totp
import Verif.Props.Float
import Verif.Lemmas.WebAuthn
import Verif.Props.WebAuthn
import Verif.Lemmas.Split
import Verif.Props.Roles
import Verif.Lemmas.Open
import Verif.Props.Opening
import Verif.Props.Claims
import Verif.Props.Misc
import Verif.Props.Concurrency
import Verif.Props.Qr
import Verif.Props.Patterns
import Verif.Spec.WellFormed
import Verif.Lemmas.JsonText
import Verif.Lemmas.JsonPrefix
import Verif.Lemmas.TimeText
import Verif.Lemmas.Codec
import Verif.Spec.Proper
import Verif.Lemmas.Reopen
import Verif.Lemmas.DecodeOk
import Verif.Spec.Strings
import Verif.Lemmas.Shape
import Verif.Props.Storage
import Verif.Props.Status
import Verif.Props.Secrets
import Verif.Spec.Utf8World
import Verif.Lemmas.Text
import Verif.Lemmas.TextClosed
import Verif.Props.Text
import Verif.Model.RWLock
import Verif.Lemmas.RWLock
import Verif.Props.Locking
import Verif.Spec.Precond
import Verif.Lemmas.Complete
import Verif.Props.Success
import Verif.Props.PublicKeys
import Verif.Model.Work
import Verif.Props.Total
import Verif.Props.Work
import Verif.Spec.Times
import Verif.Lemmas.Times
import Verif.Props.Times
import Verif.Props.Handles
import Verif.Props.Random
import Verif.Model.ErrorText
import Verif.Spec.ErrorText
import Verif.Lemmas.ErrorText
import Verif.Props.ErrorText
import Verif.Spec.JsonGrammar
import Verif.Lemmas.JsonGrammar
import Verif.Props.JsonGrammar
import Verif.Spec.Sessions
import Verif.Lemmas.Sessions
import Verif.Props.Sessions
import Verif.Props.Requests
import Verif.Model.Sha
import Verif.Model.Bcrypt
import Verif.Lemmas.Sha
import Verif.Lemmas.Bcrypt
import Verif.Props.Phone
import Verif.Props.Vectors
import Verif.Props.KeyFormats
import Verif.Props.Ecdsa
import Verif.Props.Literals
import Verif.Props.Isolation
import Verif.Props.Restarts
import Verif.Props.Traces
import Verif.Props.Feasible
import Verif.Props.Tags
import Verif.Conformance.Small
import Verif.Conformance.MfaToken
import Verif.Conformance.PublicKey
import Verif.Conformance.Database
import Verif.Conformance.Tokens
import Verif.Props.PemKeys
import Verif.Props.Generator
import Verif.Model.Tree
import Verif.Spec.Tree
import Verif.Lemmas.Tree
import Verif.Props.Files
import Verif.Spec.Book
import Verif.Lemmas.Book
import Verif.Props.Refinement
import Verif.Model.Uuid
import Verif.Spec.Uuid
import Verif.Lemmas.Uuid
import Verif.Props.Uuid
import Verif.Props.Linear
import Verif.Model.StructTag
import Verif.Spec.StructTag
import Verif.Spec.RawTags
import Verif.Lemmas.StructTag
import Verif.Props.TagText
import Verif.Spec.Draws
import Verif.Lemmas.Rare
import Verif.Props.Rare
import Verif.Lemmas.Undo
import Verif.Props.Undo
import Verif.Model.Rand
import Verif.Spec.Rand
import Verif.Lemmas.Rand
import Verif.Lemmas.RandEval
import Verif.Props.Rand
import Verif.Props.Freeze
import Verif.Model.SharedRand
import Verif.Lemmas.SharedRand
import Verif.Props.Race
import Verif.Model.Live
import Verif.Props.Live
import Verif.Lemmas.Guess
import Verif.Props.Guess
import Verif.Lemmas.Summary
import Verif.Props.Summary
import Verif.Props.Accounts
import Verif.Props.Global
import Verif.Props.Journal
import Verif.Props.Standing
import Verif.Props.Blowfish
import Verif.Props.Base64
import Verif.Props.Letters
import Verif.Props.Fill
import Verif.Model.Pkix
import Verif.Spec.Pkix
import Verif.Lemmas.Pkix
import Verif.Props.Pkix
import Verif.Model.Quote
import Verif.Spec.Format
import Verif.Lemmas.Format
import Verif.Lemmas.Quote
import Verif.Props.Format
import Verif.Spec.Digest
import Verif.Lemmas.Sines
import Verif.Lemmas.Digest
import Verif.Props.Digest
import Verif.Spec.WaRefusal
import Verif.Spec.Wording
import Verif.Lemmas.WaRefusal
import Verif.Props.WaRefusal
import Verif.Spec.Refusals
import Verif.Lemmas.Refusals
import Verif.Lemmas.Refusals2
import Verif.Lemmas.Refusals3
import Verif.Lemmas.Refusals4
import Verif.Lemmas.Refusals5
import Verif.Lemmas.Refusals6
import Verif.Props.Refusals
import Verif.Spec.Loading
import Verif.Lemmas.Loading
import Verif.Props.Loading
import Verif.Spec.Certificates
import Verif.Lemmas.Certificates
import Verif.Props.Certificates
import Verif.Spec.PemFirst
import Verif.Lemmas.PemComplete
import Verif.Props.PemFirst
import Verif.Model.Registration
import Verif.Spec.Registration
import Verif.Lemmas.Registration
import Verif.Props.Registration
import Verif.Model.Nulls
import Verif.Spec.Nulls
import Verif.Lemmas.Nulls
import Verif.Lemmas.NullCodec
import Verif.Props.Nulls
import Verif.Model.NullCalls
import Verif.Lemmas.NullCalls
import Verif.Props.NullCalls
