import Verif.Spec.Rfc
import Verif.Spec.Random
/-
What RFC 6819 (OAuth 2.0 Threat Model and Security Considerations, the last of the specifications named
in README.md) recommends to a server, countermeasure by countermeasure, as far as it can be seen in
exchanges with it. The recommendations are paraphrased, with the number of the section. Whether the server
follows them is for the theorems of C90 to say. Exchanges are those of Verif/Spec/Rfc.lean.
-/

namespace OAuth2.Rfc.Rfc6819

open Spec

/-- Tokens and codes must have enough entropy to withstand guessing: their values come from at least 128
random bits. (section 5.1.4.2.2) Of a server that is configured to use 16 random bytes or more: the key of
everything that is handed out consists of that many of the random bytes of the call. -/
def entropy (x : Exchange) : Prop :=
  ∀ t, 16 ≤ x.config.keyLength → Issues x.event t →
    128 ≤ 8 * t.key.length ∧ ∃ before after, x.call.coins = before ++ t.key ++ after

/-- The same of every server. -/
def entropyAlways (x : Exchange) : Prop :=
  ∀ t, Issues x.event t →
    128 ≤ 8 * t.key.length ∧ ∃ before after, x.call.coins = before ++ t.key ++ after

/-- No random byte serves both the access token and the refresh token that are handed out together: who
learns one of them learns nothing of the other. (section 5.1.4.2.2) -/
def independence (x : Exchange) : Prop :=
  ∀ a b, Hands x.event .access a → Hands x.event .refresh b →
    ∃ after, x.call.coins = a.key ++ b.key ++ after

/-- Access tokens are short-lived. (sections 5.1.5.2 and 5.1.5.3) Who is admitted presents a token that
was handed out not longer ago than its configured lifespan: `n` is the number of clock readings that came
before. -/
def expiration (x : Exchange) : Prop :=
  ∀ r required, x.call.op = .authorize r required → x.answer = .admitted →
    ∃ text t, CarriesBearer (r.header.get b!"Authorization") text ∧ SameToken x.config text t ∧
      ∃ e ∈ x.past, Hands e .access t ∧
        ∃ n, n ≤ 1 ∧ x.now ≤ e.call.clock n + x.config.accessTokenLifespan

/-- The same of codes. -/
def codeExpiration (x : Exchange) : Prop :=
  ∀ fields id secret res, x.Token fields id secret res →
    field fields b!"grant_type" = b!"authorization_code" → Grants res →
    ∃ c, SameToken x.config (field fields b!"code") c ∧
      ∃ e ∈ x.past, HandsCode e c ∧ x.now ≤ e.call.clock 0 + x.config.authorizationCodeLifespan

/-- The same of refresh tokens. -/
def refreshExpiration (x : Exchange) : Prop :=
  ∀ fields id secret res, x.Token fields id secret res →
    field fields b!"grant_type" = b!"refresh_token" → Grants res →
    ∃ t, SameToken x.config (field fields b!"refresh_token") t ∧
      ∃ e ∈ x.past, Hands e .refresh t ∧
        ∃ n, n ≤ 2 ∧ x.now ≤ e.call.clock n + x.config.refreshTokenLifespan

/-- Codes and refresh tokens are good for one use. (sections 5.1.5.4 and 5.2.2.3) Between two uses of a
refresh token one of the same signature was handed out. -/
def oneTime (x : Exchange) : Prop :=
  ∀ t new e old, x.past = new ++ e :: old → UsesUp x.config e t → UsesUp x.config x.event t →
    ∃ e' ∈ new, ∃ t', Hands e' .refresh t' ∧ t'.signatureString = t.signatureString

/-- The same of codes. -/
def oneTimeCode (x : Exchange) : Prop :=
  ∀ t new e old, x.past = new ++ e :: old → Redeems x.config e t → Redeems x.config x.event t →
    ∃ e' ∈ new, ∃ t', HandsCode e' t' ∧ t'.signatureString = t.signatureString

/-- Every use of a refresh token replaces it: a new one is handed out, and the old one is not in force any
more. (section 5.2.2.3) -/
def rotation (x : Exchange) : Prop :=
  ∀ t, UsesUp x.config x.event t →
    (∀ g, ¬ InForce x.config (x.event :: x.past) .refresh t g) ∧
    ∃ t', Hands x.event .refresh t' ∧
      (t'.signatureString ≠ t.signatureString →
        ∃ g, InForce x.config (x.event :: x.past) .refresh t' g)

/-- If a refresh token that was replaced turns up again, the tokens that replaced it are revoked as well:
either the thief or the client has it. (section 5.2.2.3) -/
def rotationRevokes (x : Exchange) : Prop :=
  ∀ fields id secret res t, x.Token fields id secret res →
    field fields b!"grant_type" = b!"refresh_token" → x.Authentic id secret → id ≠ [] →
    SameToken x.config (field fields b!"refresh_token") t →
    ∀ e ∈ x.past, UsesUp x.config e t → ∀ t' g, Hands e .refresh t' →
      t'.signatureString ≠ t.signatureString → g.client = id →
      ¬ InForce x.config (x.event :: x.past) .refresh t' g

/-- Tokens are signed, so that forged ones are recognized. (section 5.1.5.9) -/
def signed (x : Exchange) : Prop :=
  ∀ r required, x.call.op = .authorize r required → x.answer = .admitted →
    ∃ text key, CarriesBearer (r.header.get b!"Authorization") text ∧
      HS256Token.parse x.config.secret text = .ok ⟨key, hmacSHA256 x.config.secret key⟩

/-- Tokens are limited in scope: no token is for more than the server allows. (section 5.1.5.1) -/
def limitedScope (x : Exchange) : Prop :=
  ∀ k t g, InForce x.config (x.event :: x.past) k t g → Within g.scope x.config.allowedScope

/-- Tokens are bound to clients: who gets tokens for a refresh token is the client to which the refresh
token was issued. (section 5.2.2.2) -/
def boundRefresh (x : Exchange) : Prop :=
  ∀ fields id secret res, x.Token fields id secret res →
    field fields b!"grant_type" = b!"refresh_token" → Grants res →
    x.Authentic id secret ∧ ∃ t g, InForce x.config x.past .refresh t g ∧
      SameToken x.config (field fields b!"refresh_token") t ∧ g.client = id

/-- The same of codes, which are bound to the redirect URI as well. (sections 5.2.4.5 and 5.2.4.6) -/
def boundCode (x : Exchange) : Prop :=
  ∀ fields id secret res, x.Token fields id secret res →
    field fields b!"grant_type" = b!"authorization_code" → Grants res →
    x.Authentic id secret ∧ ∃ c g, Code x.config x.past c g false ∧
      SameToken x.config (field fields b!"code") c ∧ g.client = id ∧
      FormText (field fields b!"redirect_uri") g.redirectURI

/-- Authorizations are not given without the resource owner. (sections 5.2.4.1 and 5.2.3.2) The
authorization endpoint hands out tokens and codes only for the name and password of a user in the form that
is sent to it, unless there is a user with neither. -/
def consent (x : Exchange) : Prop :=
  ∀ r res t, ¬ x.Owner [] [] → x.At b!"authorize" r res → Issues x.event t →
    ∃ fields query, Posts r fields query ∧
      x.Owner (field fields b!"username") (field fields b!"password")

/-- The endpoint is no open redirector: it redirects only to the registered URI of the client, which is
compared as a whole. (sections 4.2.4, 4.1.5 and 5.2.3.5) Nothing but a query or a fragment is added. -/
def redirector (x : Exchange) : Prop :=
  ∀ r res L, x.At b!"authorize" r res → L ∈ res.header.all b!"Location" →
    ∃ fields client u, Sends r fields ∧ x.clients.get? (field fields b!"client_id") = some client ∧
      FormText (field fields b!"redirect_uri") client.redirectURI ∧
      parseRequestURI client.redirectURI = some u ∧
      ∃ rest, L = URL.string { u with forceQuery := false, rawQuery := [], fragment := [] } ++ rest ∧
        (rest = [] ∨ ∃ text, rest = 0x3F :: text ∨ rest = 0x23 :: text)

/-- Access tokens are taken from the authorization header only. (section 5.4.1) -/
def header (x : Exchange) : Prop :=
  ∀ r required, x.call.op = .authorize r required →
    (∀ text, ¬ CarriesBearer (r.header.get b!"Authorization") text) → x.answer ≠ .admitted

/-- Nothing that holds a token, a code or a secret is left in caches. (sections 4.6.6 and 5.1.1) -/
def notCached (x : Exchange) : Prop :=
  ∀ r res t, x.call.op = .serve r → x.answer = .answered res → Issues x.event t →
    res.header.all b!"Cache-Control" = [b!"no-store"] ∧ res.header.all b!"Pragma" = [b!"no-cache"]

/-- Credentials are not kept as they are, but as hashes. (sections 4.3.2 and 5.1.4.1.3) What a request
leaves behind in the server depends on the random bytes only by the HMAC of the keys that are made of
them: it is the same function of these for all random bytes that are enough. -/
def hashes : Prop :=
  ∀ (s : Server) (r : Request) (clock : Nat → Time),
    ∃ remember : Str → Str → Shared Server, ∀ coins,
      Enough s.config { op := .serve r, coins := coins, clock := clock } 2 →
      (step ⟨false, s⟩ { op := .serve r, coins := coins, clock := clock }).2 =
        remember
          (hmacSHA256 s.config.secret (draw s.config { op := .serve r, coins := coins, clock := clock } 0))
          (hmacSHA256 s.config.secret (draw s.config { op := .serve r, coins := coins, clock := clock } 1))

/-- Pages for the resource owner are not to be put in frames: browsers are told by the header
`X-Frame-Options`. (section 5.2.2.6) -/
def frames (x : Exchange) : Prop :=
  ∀ r res, x.At b!"authorize" r res → r.method = b!"GET" → res.statusCode = 200 →
    res.header.all b!"X-Frame-Options" ≠ []

/-- Accounts are locked after failed attempts: there is a number of wrong passwords after which the right
one is refused. (section 5.1.4.2.3) A failed attempt is a refused token request with the password grant
for this user. -/
def locks : Prop :=
  ∃ limit, Upheld fun x =>
    ∀ fields id secret res, x.Token fields id secret res →
      field fields b!"grant_type" = b!"password" →
      limit ≤ x.past.length →
      (∀ e ∈ x.past, ∃ rq res, TokenCall e rq res ∧ rq.grantType = b!"password" ∧
        rq.username = field fields b!"username" ∧ Error res b!"access_denied") → ¬ Grants res

/-- The same of clients and their secrets. (sections 4.3.5 and 5.1.4.2.3) -/
def locksClients : Prop :=
  ∃ limit, Upheld fun x =>
    ∀ fields id secret res, x.Token fields id secret res →
      limit ≤ x.past.length →
      (∀ e ∈ x.past, ∃ rq res, TokenCall e rq res ∧ rq.clientID = id ∧
        Error res b!"invalid_client") → ¬ Grants res

end OAuth2.Rfc.Rfc6819
