import Verif.Model.Server
import Verif.Model.Client
import Verif.Props.Tokens
import Verif.Props.Sha256
import Verif.Props.Scopes
import Verif.Props.Redirects
import Verif.Props.Transport
import Verif.Props.Responses
import Verif.Props.Truncation
import Verif.Props.Bearer
import Verif.Props.Requests
import Verif.Props.Access
import Verif.Props.Grants
import Verif.Props.Rights
import Verif.Props.Endpoints
import Verif.Props.Effects
import Verif.Props.Changes
import Verif.Props.Concurrent
import Verif.Props.Acceptance
import Verif.Props.Carried
import Verif.Props.EndToEnd
import Verif.Props.Client
import Verif.Props.Suite
import Verif.Props.Fragment
import Verif.Props.Replay
import Verif.Props.Local
import Verif.Props.Headers
import Verif.Props.Writer
import Verif.Props.Secrets
import Verif.Props.Guess
import Verif.Props.Revoking
import Verif.Props.Memory
import Verif.Props.Flows
import Verif.Props.Refusals
import Verif.Props.Faults
import Verif.Props.Broken
import Verif.Props.Chain
import Verif.Props.Answers
import Verif.Props.Flaky
import Verif.Tests.Unit
import Verif.Tests.Client
import Verif.Props.Reads
import Verif.Props.Random
import Verif.Props.Fresh
import Verif.Props.Store
import Verif.Props.Documents
import Verif.Props.Encoding
import Verif.Props.Follow
import Verif.Props.Pointer
import Verif.Props.Conformance
import Verif.Props.Numbers
import Verif.Props.Rfc
import Verif.Props.RfcAuthorization
import Verif.Props.RfcResources
import Verif.Props.RfcNot
import Verif.Props.GoTime
import Verif.Props.Strangers
import Verif.Props.Timing
import Verif.Props.Challenge
import Verif.Props.Wire
import Verif.Props.Cut
import Verif.Props.Session
import Verif.Props.Chance
import Verif.Props.Navigate
import Verif.Props.Threats
import Verif.Props.Lives
import Verif.Props.Shift
import Verif.Props.Errors
import Verif.Props.Framing
import Verif.Props.Parsed
import Verif.Props.Slow
import Verif.Props.Fair
import Verif.Props.Phrases
import Verif.Props.Amounts
import Verif.Props.Names
import Verif.Props.Order
import Verif.Props.Sweep
import Verif.Props.Inert
import Verif.Props.Less
import Verif.Props.Removal
import Verif.Props.Again
import Verif.Props.Kinds
import Verif.Props.Final
import Verif.Props.Agree
