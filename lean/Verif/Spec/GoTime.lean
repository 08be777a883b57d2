import Verif.Model.GoServer
import Verif.Spec.History
/-
What a `time.Time` says, what the clocks of a computer show, and the calls of a server whose times are
those of Go.
-/

namespace OAuth2

/-- The second that counts as 1970 in a `time.Time`, which counts from the year 1. -/
def GoTime.epoch : Int := 62135596800

/-- The time according to the wall clock, in nanoseconds since 1970. -/
def GoTime.instant (t : GoTime) : Int := (t.sec.toInt - epoch) * 1000000000 + t.nsec.toInt

/-- The time is one that package time makes: less than a second of nanoseconds, and not so long ago
that counting seconds from 1970 overflows (in 292 billion years B.C.). -/
structure GoTime.Proper (t : GoTime) : Prop where
  nsec : t.nsec.toInt < 1000000000
  sec : -2 ^ 63 ≤ t.sec.toInt - epoch

namespace Clocks

/-- What the wall clock shows, in nanoseconds since 1970. -/
def wall (c : Clocks) (t : Time) : Int := (c.read t).sec.toInt * 1000000000 + (c.read t).nsec.toInt

/-- What the monotonic clock shows, in nanoseconds since the start of the program. -/
def mono (c : Clocks) (t : Time) : Int := (c.read t).mono.toInt - c.startNano.toInt

/-- The wall clock shows a date from January 1885 to March 2157, with less than a second of nanoseconds; the
monotonic clock shows that the program started before, and less than 292 years ago. -/
structure Ordinary (c : Clocks) (t : Time) : Prop where
  nsec : 0 ≤ (c.read t).nsec.toInt ∧ (c.read t).nsec.toInt < 1000000000
  year : -2682288000 ≤ (c.read t).sec.toInt ∧ (c.read t).sec.toInt < 5907646592
  mono : 0 ≤ c.mono t ∧ c.mono t < 2 ^ 63

/-- What is issued at the instant for this long does not outlast what a `time.Time` with a reading of
the monotonic clock can say: its end is between January 1885 and March 2157, and less than 292 years
after the start of the program. -/
structure Lasts (c : Clocks) (t : Time) (d : Int64) : Prop where
  from1885 : -2682288000 * 1000000000 ≤ c.wall t + d.toInt
  to2157 : c.wall t + d.toInt < 5907646592 * 1000000000
  mono : c.mono t + d.toInt < 2 ^ 63

/-- The clocks are ordinary and as far apart as ever: nobody has set the wall clock, and the monotonic
clock did not stop. -/
structure Steady (c : Clocks) (δ : Int) (t : Time) : Prop where
  ordinary : c.Ordinary t
  apart : c.wall t = c.mono t + δ

/-- The clocks are ordinary, and what the server issues at the instant does not outlast what a
`time.Time` with a reading of the monotonic clock can say. The wall clock may be set at any time. -/
structure Serves (c : Clocks) (cfg : GoConfig) (t : Time) : Prop where
  ordinary : c.Ordinary t
  lasts : ∀ d ∈ [cfg.accessTokenLifespan, cfg.refreshTokenLifespan, cfg.authorizationCodeLifespan],
    c.Lasts t d

end Clocks

/-- The time has a reading of the monotonic clock. -/
def GoTime.Monotonic (t : GoTime) : Prop := t.isMonotonic = true

/-- The time according to the monotonic clock, in nanoseconds since the start of the program. -/
def GoTime.reading (t : GoTime) : Int := t.ext.toInt

/-- The time says the same by both clocks, which are `δ` apart. -/
structure GoTime.Together (δ : Int) (t : GoTime) : Prop where
  proper : t.Proper
  mono : t.Monotonic → t.reading = t.instant - δ

/-! ### Seeing times as numbers -/

/-- The world of a request with the clock readings seen in another way. -/
def Local.seen (φ : Time → Time) (l : Local) : Local := { l with clock := fun n => φ (l.clock n) }

/-- A configuration with durations as numbers. -/
def GoConfig.seen (c : GoConfig) : ServerConfig where
  secret := c.secret
  keyLength := c.keyLength
  allowedScope := c.allowedScope
  accessTokenLifespan := c.accessTokenLifespan.toInt
  refreshTokenLifespan := c.refreshTokenLifespan.toInt
  authorizationCodeLifespan := c.authorizationCodeLifespan.toInt

/-- A credential with its expiry seen as a number. -/
def GoCredential.seen (f : GoTime → Time) (c : GoCredential) : ServerCredential where
  clientID := c.clientID
  username := c.username
  expiresAt := f c.expiresAt
  scope := c.scope
  redirectURI := c.redirectURI
  code := c.code
  used := c.used

/-- A map of credentials with their expiry seen as a number. -/
def seenMap (f : GoTime → Time) (m : GoMap GoCredential) : GoMap ServerCredential :=
  m.map fun e => (e.1, e.2.seen f)

/-- A server with all times seen as numbers. -/
def GoServer.seen (f : GoTime → Time) (g : GoServer) : Server where
  config := g.config.seen
  clients := g.clients
  users := g.users
  accessTokens := seenMap f g.accessTokens
  refreshTokens := seenMap f g.refreshTokens
  authorizationCodes := seenMap f g.authorizationCodes

/-- All stored times are of some kind. -/
structure GoServer.Times (ok : GoTime → Prop) (g : GoServer) : Prop where
  access : ∀ e ∈ g.accessTokens, ok e.2.expiresAt
  refresh : ∀ e ∈ g.refreshTokens, ok e.2.expiresAt
  codes : ∀ e ∈ g.authorizationCodes, ok e.2.expiresAt

/-! ### Calls -/

namespace Spec

/-- The call with its clock readings seen in another way. -/
def Call.seen (φ : Time → Time) (c : Call) : Call := { c with clock := fun n => φ (c.clock n) }

/-- The event with its clock readings seen in another way. -/
def Event.seen (φ : Time → Time) (e : Event) : Event := ⟨e.call.seen φ, e.answer⟩

/-- Making one call of a server on a computer with these clocks. -/
def goStep (c : Clocks) (s : Shared GoServer) (call : Call) : Answer × Shared GoServer :=
  match call.op with
  | .serve r =>
    match exec (GoServer.serveHTTP c r) s call.local with
    | (.ret _, s', l) => (.answered l.w.result, s')
    | (.panic, s', l) => (.panicked l.w, s')
    | (.deadlock, s', _) => (.stuck, s')
  | .authorize r required =>
    match exec (GoServer.authorize c r required) s call.local with
    | (.ret true, s', _) => (.admitted, s')
    | (.ret false, s', l) => (.rejected l.w.result, s')
    | (.panic, s', l) => (.panicked l.w, s')
    | (.deadlock, s', _) => (.stuck, s')
  | .configure clients users =>
    (.configured, { s with st := { s.st with clients := clients, users := users } })

/-- `h` (latest event first) is a history of calls made one after the other on a server that
started as `g₀`, and `g` is the server after it. -/
inductive GoHistory (c : Clocks) (g₀ : GoServer) : List Event → Shared GoServer → Prop
  | start : GoHistory c g₀ [] ⟨false, g₀⟩
  | next {h : List Event} {g : Shared GoServer} (call : Call) : GoHistory c g₀ h g →
      GoHistory c g₀ (⟨call, (goStep c g call).1⟩ :: h) (goStep c g call).2

/-- The call goes to the introspection endpoint. -/
def IntrospectCall (call : Call) : Prop :=
  ∃ r, call.op = .serve r ∧ LastSegment r.path b!"introspect"

/-- The server has issued nothing yet. -/
structure GoStarted (g : GoServer) : Prop where
  access : g.accessTokens = []
  refresh : g.refreshTokens = []
  codes : g.authorizationCodes = []

/-- The second history consists of the calls of the first, with the clock readings seen in another
way, and of the same answers, except that introspection may be answered otherwise. -/
inductive ButIntrospection (φ : Time → Time) : List Event → List Event → Prop
  | nil : ButIntrospection φ [] []
  | cons {h h' : List Event} (e : Event) (answer : Answer)
      (same : ¬ IntrospectCall e.call → answer = e.answer) : ButIntrospection φ h h' →
      ButIntrospection φ (e :: h) (⟨e.call.seen φ, answer⟩ :: h')

end Spec

end OAuth2
