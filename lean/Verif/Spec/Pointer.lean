import Verif.Model.Pointer
import Verif.Spec.History
/-
What the pointers of a `Server` amount to. `contents` follows them; the rest says when memory is as
Go guarantees, when nothing in it is nil, and when no object is stored in two places.
-/

namespace OAuth2.Spec

/-- What to imagine in place of a nil pointer. -/
structure Fill where
  entity : ServerEntity := {}
  credential : ServerCredential := {}

/-- A map of clients or users with its pointers followed; a nil map is empty. -/
def entitiesOf (r : RefServer) (d : Fill) (m : RefMap) : GoMap ServerEntity :=
  (Option.getD m []).map fun e => (e.1, (r.entity e.2).getD d.entity)

/-- A map of tokens or codes with its pointers followed; a nil map is empty. -/
def credentialsOf (r : RefServer) (d : Fill) (m : RefMap) : GoMap ServerCredential :=
  (Option.getD m []).map fun e => (e.1, (r.credential e.2).getD d.credential)

/-- The server with all pointers followed. -/
def contents (d : Fill) (r : RefServer) : Server where
  config := r.config
  clients := entitiesOf r d r.clients
  users := entitiesOf r d r.users
  accessTokens := credentialsOf r d r.accessTokens
  refreshTokens := credentialsOf r d r.refreshTokens
  authorizationCodes := credentialsOf r d r.authorizationCodes

/-- The entries of the three maps of credentials. -/
def stored (r : RefServer) : List (Str × Ptr) :=
  r.accessTokens.getD [] ++ r.refreshTokens.getD [] ++ r.authorizationCodes.getD []

/-- What Go guarantees: the keys of a map are distinct and no pointer dangles. -/
structure Memory (r : RefServer) : Prop where
  accessKeys : (GoMap.keys (r.accessTokens.getD [])).Nodup
  refreshKeys : (GoMap.keys (r.refreshTokens.getD [])).Nodup
  codeKeys : (GoMap.keys (r.authorizationCodes.getD [])).Nodup
  valid : ∀ k a, (k, some a) ∈ stored r → a < r.credentials.length

/-- Nothing is nil: the maps the server writes to have been made, as `NewServer` does, and every
entry points to an object. -/
structure Whole (r : RefServer) : Prop where
  accessTokens : r.accessTokens ≠ none
  refreshTokens : r.refreshTokens ≠ none
  authorizationCodes : r.authorizationCodes ≠ none
  entities : ∀ k p, (k, p) ∈ r.clients.getD [] ++ r.users.getD [] → (r.entity p).isSome
  credentials : ∀ k p, (k, p) ∈ stored r → (r.credential p).isSome

/-- The object of an authorization code is stored nowhere else. -/
structure Unshared (r : RefServer) : Prop where
  codes : ∀ k k' a, (k, some a) ∈ r.authorizationCodes.getD [] →
    (k', some a) ∈ r.authorizationCodes.getD [] → k' = k
  tokens : ∀ k k' a, (k, some a) ∈ r.authorizationCodes.getD [] →
    (k', some a) ∉ r.accessTokens.getD [] ++ r.refreshTokens.getD []

/-- The pointer belongs to a code that is used according to `s`. -/
def usedPointer (r : RefServer) (s : Server) (p : Ptr) : Bool :=
  (r.authorizationCodes.getD []).any fun e =>
    e.2 = p && (s.authorizationCodes.get? e.1).any (·.used)

/-- Mark as used whatever shares its object with a used code. -/
def spreadMap (r : RefServer) (s : Server) (m : RefMap) (v : GoMap ServerCredential) :
    GoMap ServerCredential :=
  v.map fun e =>
    (e.1, { e.2 with used := e.2.used || usedPointer r s ((m.lookup e.1).getD none) })

/-- The server `s`, where whatever shares its object with a used code, by the pointers of `r`, is
marked as used too. -/
def spread (r : RefServer) (s : Server) : Server :=
  { s with
    accessTokens := spreadMap r s r.accessTokens s.accessTokens
    refreshTokens := spreadMap r s r.refreshTokens s.refreshTokens
    authorizationCodes := spreadMap r s r.authorizationCodes s.authorizationCodes }

/-- What may happen to the memory of a server while it handles requests: registrations and objects
stay as they are, except that a credential may become used. -/
structure Kept (r r' : RefServer) : Prop where
  config : r'.config = r.config
  clients : r'.clients = r.clients
  users : r'.users = r.users
  entities : r'.entities = r.entities
  credentials : ∀ (a : Nat) c, r.credentials[a]? = some c →
    r'.credentials[a]? = some c ∨ r'.credentials[a]? = some { c with used := true }

/-! ### Calls -/

/-- A call of the API, or the embedding program exchanging the registered clients and users, and
writing to the objects they point to, between two calls. -/
inductive RefOp where
  | serve (r : Request)
  | authorize (r : Request) (required : Scope)
  | configure (clients users : RefMap) (entities : List ServerEntity)

/-- A call with the random bytes and clock readings it obtains. -/
structure RefCall where
  op : RefOp
  coins : Str := []
  clock : Nat → Time

/-- Making one call. -/
def refStep (s : Shared RefServer) (c : RefCall) : Answer × Shared RefServer :=
  match c.op with
  | .serve r =>
    match exec (RefServer.serveHTTP r) s { coins := c.coins, clock := c.clock } with
    | (.ret _, s', l) => (.answered l.w.result, s')
    | (.panic, s', l) => (.panicked l.w, s')
    | (.deadlock, s', _) => (.stuck, s')
  | .authorize r required =>
    match exec (RefServer.authorize r required) s { coins := c.coins, clock := c.clock } with
    | (.ret true, s', _) => (.admitted, s')
    | (.ret false, s', l) => (.rejected l.w.result, s')
    | (.panic, s', l) => (.panicked l.w, s')
    | (.deadlock, s', _) => (.stuck, s')
  | .configure clients users entities =>
    (.configured, { s with
      st := { s.st with clients := clients, users := users, entities := entities } })

/-- The clients or users that a map points to. -/
def registered (d : Fill) (entities : List ServerEntity) (m : RefMap) : GoMap ServerEntity :=
  (Option.getD m []).map fun e => (e.1, (e.2.bind fun a => entities[a]?).getD d.entity)

/-- The call with the pointers followed. -/
def RefCall.seen (d : Fill) (c : RefCall) : Call where
  op := match c.op with
    | .serve r => .serve r
    | .authorize r required => .authorize r required
    | .configure clients users entities =>
      .configure (registered d entities clients) (registered d entities users)
  coins := c.coins
  clock := c.clock

/-- The program registers no nil pointer. -/
def RefCall.NoNil (c : RefCall) : Prop :=
  ∀ clients users entities, c.op = .configure clients users entities →
    ∀ k p, (k, p) ∈ Option.getD clients [] ++ Option.getD users [] →
      (p.bind fun a => entities[a]?).isSome

/-- A call together with what was observed. -/
structure RefEvent where
  call : RefCall
  answer : Answer

/-- The event with the pointers followed. -/
def RefEvent.seen (d : Fill) (e : RefEvent) : Event := ⟨e.call.seen d, e.answer⟩

/-- `h` (latest event first) is a history of calls made one after the other on a server that
started as `r₀`, and `r` is the server after it. -/
inductive RefHistory (r₀ : RefServer) : List RefEvent → Shared RefServer → Prop
  | start : RefHistory r₀ [] ⟨false, r₀⟩
  | next {h : List RefEvent} {r : Shared RefServer} (c : RefCall) : RefHistory r₀ h r →
      RefHistory r₀ (⟨c, (refStep r c).1⟩ :: h) (refStep r c).2

/-- The call asks to redeem this code. -/
def AsksExchange (c : Call) (secret : Str) (x : HS256Token) : Prop :=
  ∃ rq, AsksToken c rq ∧ rq.grantType = b!"authorization_code" ∧
    HS256Token.parse secret rq.code = .ok x

end OAuth2.Spec
