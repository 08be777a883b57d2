# Formal model of 256dpi/oauth2 in Lean 4

## Layout

| Where | What |
|---|---|
| `lean/Verif/Model/*.lean` | The model: one file per Go file of /repo (`Scope`, `Error`, `OAuth2`, `HS256`, `Token`, `Bearer`, `Code`, `Authorization`, `Introspection`, `Revocation`, `Client`, `Server`), `Follow` for `http.Client`, `Suite` for package oauth2test, and one per standard library package it calls (`Bytes`, `Base64`, `Sha256`, `Url`, `Mime`, `Http`, `Json`), plus `Prog` (effects) and `Concurrent` (interleavings). |
| `lean/Verif/Spec/*.lean` | Small specifications, independent of the model's helpers, that the theorem statements use. |
| `lean/Verif/Lemmas/*.lean` | Helper lemmas. |
| `lean/Verif/Props/*.lean` | The property theorems, with non-vacuity examples beside them. |
| `lean/Verif/Tests/*.lean` | The unit tests of /repo replayed on the model with `decide +kernel`. These are tests of the model's fidelity, not proofs of properties. |
| `seeded/LOG.jsonl` | Wrong programs the theorems were tried against. |

## How the code is modelled

* A Go string is a list of bytes (`Str = List UInt8`). Nothing assumes UTF-8.
* Everything is concrete and computable: base64, SHA-256, HMAC, URL escaping, form parsing, JSON
  encoding and parsing, media types. No function is left abstract, so every theorem is about the
  actual algorithms, and the kernel can run the model.
* A Go map is an association list with unique keys; its order stands for Go's unspecified iteration
  order. Where code iterates a map, a theorem shows that the result does not depend on the order.
* A nil slice and an empty `Scope` are distinguished (`Option (List Str)`), because `TokenResponse.Map`
  distinguishes them.
* Errors are values (`Except`, `Option`). A panic is an outcome.
* Server handlers are programs (`Prog`): trees of the effects lock, unlock, read state, modify state,
  read clock, read random bytes, write response. `exec` runs one alone; `Concurrent.lean` interleaves
  any number of them step by step. The mutex is explicit: dropping `lock` changes the program and
  breaks the theorems.
* Time is an unbounded integer of nanoseconds. Model/GoTime.lean and Model/GoServer.lean have Go's
  `time.Time` instead, with words of 64 bits and both clocks, and C81 says when that makes a
  difference. Every request has its own arbitrary clock readings and
  its own arbitrary finite supply of random bytes.
* A history (`Spec/History.lean`) is a list of events. An event is a call (`ServeHTTP`, `Authorize`, or
  the user replacing the registered clients and users between two calls) with its request, clock
  readings and random bytes, and the answer it got. Properties about histories quantify over all
  lists. What a token stands for at some point is defined from the requests and responses seen so far
  (`InForce`, `Code`, `Ends`), never from the maps of the server. The central lemma (`history_exact`)
  says that the maps hold exactly what an observer concludes; C64 states it for the user.
* `Lemmas/Demo.lean` is one concrete session of ten calls, checked by the kernel. It supplies the
  concrete cases that show that hypotheses are met.
* Response writers: the handlers write to a recorder like `httptest.ResponseRecorder`.
  `Model/Writer.lean` also runs them with a writer that fails or panics at any call (C60).
* Concurrency (`Model/Concurrent.lean`): any number of threads, each running the program of one call,
  interleaved at every effect, including the acquisition of the mutex. Memory is sequentially
  consistent; C47 proves that two threads never access the state at the same time, so Go's memory
  model gives no other behaviour.

## Trusted base

* Lean 4.33.0's kernel.
* Axioms: at most `propext`, `Classical.choice` and `Quot.sound`; the list at the end says which
  theorem depends on which. No axiom is added, nothing uses `sorry`, `native_decide` or `bv_decide`.
* The reading of /repo: each definition cites the lines it models.
* The reading of the Go standard library (Go 1.16, the version in /repo/.github/workflows/test.yml),
  written from knowledge of its source, which is not in the sandbox. Its definitions are marked
  "Go:". The unit tests of /repo replayed in `Verif/Tests` check this reading where they reach it.
  Some of it is also proved to be what the standards say: SHA-256 and HMAC (C02), JSON (C74), the
  floating-point numbers of IEEE 754 (C79), and
  forms, content types, URIs and base64 (C75, with the leniencies of Go written into the grammars).
* HTTP transport: in all claims but C76 and C85, requests and responses reach the other side unchanged.
  C85 proves that this is so over a connection: `net/http`'s writing and reading of HTTP/1.1 messages is
  modelled (newlines in header values become spaces, values are trimmed, `Date`, `Content-Length`,
  `Content-Type` and `Host` are added, long bodies are cut into chunks). Not modelled of it: limits on the
  size of a head, HTTP/1.0 and HTTP/2, HEAD and CONNECT, `Expect: 100-continue`, trailers, compression
  (`Accept-Encoding` is sent, but nothing answers it), proxies and TLS.

Time is modelled as the sequence of branches taken, array elements read and lengths copied
(Model/Timing.lean), for tokens and for the comparison of strings; the generic implementation of
`crypto/sha256` is taken, and how many bytes the comparison of strings looks at in one step is a parameter.
Caches, allocation and the assembly implementations are not modelled.

Not modelled: time taken by the rest of the server; locations (time zones) of `time.Time`; memory limits; request cancellation (but a
body that breaks off while it is read is modelled); one map assigned to two fields of `Server`
(nil maps, nil pointers and one object stored under several names are modelled in Model/Pointer.lean and
reduced to the main model by C77); the user changing the exported maps of `Server` while a request runs; how `http.Client`
turns names that are not ASCII into ASCII when it compares sites (any function in C89), and its cookies; README and examples.

The parts of /repo that are modelled: every function of every non-test Go file in the root package and
in oauth2test. The unit tests of /repo are replayed in `Verif/Tests` (hs256, scope, bearer, error,
code, token, authorization, introspection, revocation and client; the server test is the test suite
of oauth2test, about which C55 is proved for all configurations).

Cryptographic strength is not a theorem about this code: that signatures of different keys differ is
nowhere assumed globally. Where a property needs it, it is an explicit hypothesis about the tokens in
the history at hand.

## Properties

"Full" means the English property is stated and proved as is. "Partial" names what is missing.

| Id | Model | Proof |
|---|---|---|
| C01 | HS256, Base64, Sha256 | base64 decode/encode inverse by induction on groups of three bytes |
| C02 | same | exact characterisation against a bit-level base64 specification; SHA-256 and HMAC of the model equal those of FIPS 180-4 and RFC 2104 (Spec/Sha256.lean, constants defined from the primes) for all messages and keys |
| C03 | same | injectivity of encode; canonical form of every accepted string |
| C04 | HS256, Url, Json | alphabet lemma by cases on sextets; escapers are the identity on it |
| C05 | HS256, Prog | execution of `generate` for every coin supply |
| C06 | Scope, Bytes | induction on the string; specification of segments and trimming |
| C07 | Scope | unfolding to list membership |
| C08 | Scope, Json | JSON string round trip |
| C09 | Bearer | case analysis on the header |
| C10 | Bearer | execution |
| C11 | Error | sorting is invariant under permutation |
| C12 | Error, Json | JSON object round trip for the struct |
| C13 | Error | false: negation by a witness. Partial: injective on quote-free fields |
| C14 | OAuth2, Url | escape/unescape inverse; `Encode`/`ParseQuery` inverse; parse of `String` |
| C15 | OAuth2, Url | first claim full; second false: negation by a witness, partial for values that need no escaping |
| C16 | OAuth2 | permutation invariance |
| C17 | Authorization, Token, Url | false: `ParseRequestURI` never sets a fragment (proved for all inputs), and a witness is accepted |
| C18 | Token, Http, Url, Mime | composition of round trips |
| C19 | Introspection, Revocation | same |
| C20 | Token, Authorization | false: witness. Exact: the URIs that survive are those without % and + (iff); and double encoding |
| C21 | Token | case analysis; non-interference |
| C22 | Token, Introspection, Revocation, Server | non-interference |
| C23 | Token, Json | JSON object round trip for the struct |
| C24 | Introspection, Json | same; for extra data by induction on its tree |
| C25 | Json | no proper prefix of a JSON object, ignoring trailing white space, is a document |
| C26 | Server | execution of all paths |
| C27 | Server, histories | invariant: provenance of every stored token |
| C28 | Server, histories | invariant: a stored token stays until revoked, replayed or overwritten |
| C29 | Server, histories | invariant: absent stays absent unless the signature is generated again |
| C30 | Server | execution |
| C31 | Server, histories | as C29 for refresh tokens |
| C32 | Server, histories, chains of refreshes (Spec/Chain.lean) | invariant over provenance, induction over the chain |
| C33 | Server, histories | invariant: `used` is never reset |
| C34 | Server, histories | full claim false (refreshed tokens survive): negation by a history. Partial: directly issued tokens |
| C35 | Server, histories | invariant over provenance of codes |
| C36 | Server, histories | invariant |
| C37 | Server | execution |
| C38 | Server | execution |
| C39 | Server | execution |
| C40 | Server | execution; expiry part false: negation by a witness |
| C41 | Server | execution of all paths |
| C42 | Server | execution with short coin supply |
| C43 | Server, histories | invariant over provenance |
| C44 | Server | execution |
| C45 | Server, histories | execution and arithmetic |
| C46 | Server | execution of all paths |
| C47 | Concurrent | simulation of every interleaving by the sequential order of lock acquisition |
| C48 | Server | execution |
| C49 | Client, Server | composition of C18, C19, C23, C24, C28, C29 |
| C50 | Server | characterisation of the last segment |
| C51 | Server, histories | execution of the success paths; converses of C32 to C38 |
| C52 | Token, Introspection, Revocation, Authorization, Http | case analysis against an independent description of well-formed requests |
| C53 | OAuth2, Token, Code, Error | composition of C14 and C15 with the field maps |
| C54 | Client | case analysis over an arbitrary transport |
| C55 | Suite (package oauth2test), Server | weakest preconditions of the test programs; an invariant says what a run may have changed |
| C56 | Redirect (WriteRedirect) | form encoding and fragment escaping compose to percent-escaping; equivalence with plain names and values |
| C57 | Server, histories | the exact description of the state after each history; case analysis over what an event does |
| C58 | Server | a relation between two servers that every endpoint preserves; induction over the calls |
| C59 | Redirect, Bearer, Server, request builders | byte alphabets of the escapers; invariants of parsed URLs; case analysis over replies |
| C60 | Writer (server handlers with an arbitrary response writer) | every handler changes the state before it first uses the writer: structural predicate on programs |
| C61 | HS256, Sha256, Server | zero padding of the HMAC key; the server uses its secret only through HMAC |
| C62 | Server | every endpoint reads the registries only through `userOK`, `wrongSecret` and, in the authorization endpoint, the redirect URI |
| C63 | Server | every way a revocation ends (`Served`), then the invariant of C27 |
| C64 | Server | the invariant of C27, counting by induction over the history |
| C65 | all of the above | composition of C51, C49 and C27 |
| C66 | Server, `Authorize` | Spec/Refusal.lean lists the reasons; the invariant of C27 turns each branch of the endpoints into one of them, and the reasons exclude each other |
| C67 | Server, client | Spec/Broken.lean says what a broken connection may do; `ParseForm` fails on a body that fails to be read and is the only reader of the body; a JSON document other than a number has no proper part that is another document (C25), and every body the server sends is a document, empty, or a text no part of which is one |
| C68 | ServeHTTP, all responses (Spec/Answers.lean) | case distinction over what a request does, members of the documents |
| C69 | Prog, mutex, response writers | the runs of C47 with the writers of C60 (Spec/Flaky.lean); same invariant as C47, over histories with such writers, which leave the server as histories with working ones (C60) |
| C70 | net/http forms, Parse*Request, Server | `SaysTheSame` lists what each endpoint reads (Spec/Reads.lean); the parse functions agree on requests that say the same, hence so do the replies; forms written differently say the same by the lemmas on url.ParseQuery |
| C71 | GenerateHS256Token, Server | `draw` names the random bytes of a call, `Page` a response with places for tokens (Spec/Random.lean); the replies are traversed once for the keys (`drawn`) and once for their shape (`depends`): JSON, URL and header encoding commute with filling in tokens, as these are plain ASCII |
| C72 | Server | `Fresh` (Spec/Random.lean): no key is used twice and no two keys in use collide. By C71 the tokens of a history are genuine, so different keys have different signatures; then `Ends` loses its exceptional cases (re-issued signature, half revocation), and C27, C31, C33, C57 and C41 give the rules without exceptions |
| C73 | Server | `Evolves` (Lemmas/Evolve.lean): the cases of serving a request as changes of the maps tied to what is observed, for any state; `Records`, `Withdraws`, `Merits` (Spec/Store.lean) say what is written, what removes it and what suffices for tokens in terms of the maps; then induction on the history without `Started` |
| C74 | Json, Token, Introspection, Error | Spec/Json.lean is the grammar of RFC 8259 with the values texts denote, Spec/Document.lean what a client reads from the members; the parser of the model is proved sound (induction on fuel) and complete (mutual induction on derivations) for the grammar; decoding a struct splits into one fold for each field |
| C75 | Mime, Url, Http, Base64, Token, Introspection, Revocation, Authorization | Spec/Encoding.lean has grammars for forms, content types, URIs and basic credentials, with what they stand for; each parser of the model is proved equivalent to its grammar (induction on the text or on derivations), and C52 is restated over the bytes of the request |
| C76 | Follow (`http.Client.Do`), Client, Server | the loop of `Do` over an arbitrary network, with arbitrary functions for resolving locations and comparing sites; induction on the number of requests left; the server's statuses by C68 |
| C77 | Pointer (all of server.go again, over a heap with nil) | a simulation between the two models of every handler: same answer and same contents up to spreading the mark of use, or a panic over nil; invariants of memory (no dangling pointers, distinct keys); shared codes by the simulation and C73 |
| C78 | Suite (package oauth2test), for any handler | forward symbolic execution of the test programs into the conversation they have; a table of requirements and scripts in order, stated over HTTP; the converse limit by congruence |
| C79 | Float (`float64`, `strconv.ParseFloat` and `AppendFloat`), Json, Introspection | Spec/Float.lean defines the numbers of the format and what is nearest to a rational number; rounding is characterised over the rationals, the value of a literal by induction on its digits; the text that is written is found by a search that ends at the latest at the exact digits, and each candidate is read again |
| C80 | everything the server does (Server, Spec/Encoding, Spec/History) | Spec/Rfc.lean states sentences of the specifications as predicates on single exchanges after an arbitrary history; those that hold are derived from C56, C66, C68, C70 and C75 and the exact history of tokens, those that do not are refuted by an exchange (Props/RfcNot.lean) that the kernel evaluates. The quoted sentences are from memory of the RFCs, which are not in the sandbox |
| C81 | `time.Time` with `Now`, `Add`, `Before`, `Unix` on words of 64 bits (GoTime), the whole server over it (GoServer) | the wall clock and the monotonic clock are arbitrary functions of the instant. A view turns stored times into numbers (what the wall clock, or the monotonic clock, will show); every handler over Go's times is shown to do what the handler over numbers does, seen through the view, from two facts about `Add` and `Before`, which are proved by arithmetic of words; then induction over the history (Spec/GoTime.lean) |
| C82 | nothing further: the whole server, with two parties whose next request is any function of the answers they got (Spec/Strangers.lean) | what a call can change in the server's maps is described by the signatures it draws and names; from this, by induction over the order of the calls, the server that both use stays beside the servers that each has for itself, as long as no call names what the other draws. Then counting: for a fixed pair of calls, and the random bytes of all others fixed, all bytes with which the one names what the other draws have one signature; summed over the pairs (Mathlib's finite sets). What is not proved is that HMAC-SHA256 has few keys with one signature: the bound has that number as a parameter F, and for keys of one byte under one secret it is checked to be 1 |
| C83 | Timing (hs256.go, `crypto/hmac`, `crypto/sha256` with its buffer and blocks, `crypto/subtle`, and the comparison of strings, with a record of all branches, indices and lengths of copies) | the hash of pieces: the digest represents the bytes written so far, an invariant of `Write`; traces: a relation between two runs that is kept by sequence, branch and loop if the lengths agree; the time of a string comparison by induction over its blocks; the attack finds one byte after the other, its state after any number of attempts is described by induction |
| C84 | nothing further; the grammar of RFC 7235 as inductive relations between texts and what they say (Spec/Challenge.lean) | where names, blanks and quoted strings end is determined by the next byte, so the text of a challenge with readable values has one derivation, by induction over the parameters; that values which can be read back are readable: every reading of a backslash in a value costs a second backslash, and the text has only those of the values |
| C85 | how `net/http` writes and reads requests and responses of HTTP/1.1 as bytes (Model/Wire.lean); RFC 7230's grammar of messages as inductive relations between bytes and what they say (Spec/Wire.lean), and what it means to arrive (Spec/Carry.lean) | readers: by induction over the fields and chunks of the grammar, with any bytes after the message; writers: their output has a derivation in the grammar; the values the server writes are clean by the case distinction over its answers (C59, Lemmas/Shape.lean); the client: a request that arrives says the same (C70), and the library looks at nothing that changes |
| C86 | readers and writers of C85 on the first bytes of a text only (Spec/Cut.lean: `arriving`, `cutLine`, `cutState`; `fed` is the loop of a server over the bytes of a connection) | a reader that got through a text has looked at every byte of it, so on a proper prefix each stage fails or reports an error (Lemmas/WireCut.lean: head by its blank line, body by its length or its last chunk); the client: such a connection is one that breaks in the sense of C67, up to what C70 says makes no difference |
| C87 | a server with connections of bytes (`Hub`: read the next request of a connection, serve it, write the answer) and the same with requests and answers only (`Desk`), in Spec/Session.lean | simulation: after any turns the unread bytes are the texts of the waiting requests and the written bytes those of the answers; with broken connections the unread bytes are a prefix, and a turn is taken by both or by the bytes only without effect (C86, C67); arbitrary bytes: each turn is a step of a history or nothing |
| C88 | the calls a world makes that sees all answers, on a tape of random bytes, two keys for each call (`played`, Spec/Chance.lean); `Orderly` states C72's conclusions for the events of such a run | what is handed out is made of the keys drawn for the call (C71), so unless two draws have the same signature the run is fresh (C72); pairs of draws are counted (Lemmas/Count.lean), as in C82 |
| C89 | `URL.Parse` with a base, `resolvePath`, `canonicalAddr`, `isDomainOrSubdomain` and `refererForURL` of Go (Model/Navigate.lean), which C76 left open; RFC 3986's resolution of references and removal of dot segments as inductive relations (Spec/Navigate.lean) | Go's loop over the segments of a path and RFC 3986's over prefixes of a text keep the same text between segments, for paths without two slashes in a row (a counterexample with them is beside the theorem); sites: the text of an address has one reading as name and port; the chain: C76 with these functions |
| C90 | No new model; the recommendations of RFC 6819 that can be seen in exchanges, each paraphrased with its section (Spec/Threats.lean), over the exchanges of C80 | From the claims about histories (C27, C31, C33, C35, C36, C39, C71) for what is followed; histories of any length that show it (induction on the number of failed attempts) for what is not; hashes: every handler is shown to act alike for coins with the same HMACs (Lemmas/Keeps.lean) |
| C91 | No new model; lives of a server in which calls and exchanges of the exported configuration alternate, and copies of the exported maps at any point of a concurrent run (Spec/Lives.lean) | From the exact effects of a call on servers in any state (C73) by induction over lives: entries come from events of this life (a server starts with none), and every stored scope lies within one that was allowed; C47 for copies while the mutex is free; a run of fourteen steps for the copy in the middle of a call |
| C92 | No new model; a server and a call moved in time (Spec/Shift.lean) | A simulation: every endpoint, as a function of state and circumstances, commutes with moving all expiries and clock readings; with C73 for what may happen earlier |
| C93 | No new model; a table of the errors by the functions that make them (Spec/Errors.lean) | From C10, C12, C23, C24 and C53, which hold for any error and response, and the table |
| C94 | The readers of Model/Wire.lean; messages as a receiver may accept them (Spec/Framing.lean) | Soundness and completeness of each reader (lines, heads, chunks, lengths) by induction; refusal and uniqueness from both |
| C95 | Requests with PostForm and Form set beforehand (Model/Http.lean `parseForm`); what can be made out of a malformed form (Spec/Parsed.lean) | ParseForm is idempotent; acceptance of known values by cases as in C52; the server by C70 |
| C96 | Model/Slow.lean: which bodies are read, and waiting for them with the mutex held; Spec/Slow.lean: the runs of C47 in which bodies arrive when they arrive | Slow runs are runs (C47) without the arrivals; an invariant for calls whose body is missing; the rest by induction over what follows, with C47_progress and termination |
| C97 | Spec/Fair.lean: infinite runs of C96, and what is fair: of the scheduler, of `sync.Mutex` and of clients | By well-founded induction over what is left of the program of the call that has the mutex, the mutex becomes free again and again; then so over the call itself. The assumptions are met by a run that makes any calls one after the other; that each is needed is shown by a run |
| C98 | The server as it is; Spec/Phrases.lean: the documents and the challenges, written out | By cases over every path through the parsers and endpoints that ends in an error (as for C68), with the exact texts; that each phrase is heard is shown by a request for each |
| C99 | The server as it is; Spec/Amounts.lean: the number of entries and of successful calls | One case analysis of what a call can do to the three maps (`Resizes`), lengths of maps under insertion and deletion, induction over histories |
| C100 | The server as it is; Spec/Names.lean: an exchange of names and secrets, and which calls and answers correspond | The exchange commutes with every lookup, insertion and deletion and so with every endpoint; induction over sequences of calls; C18 for the requests of the client |
| C101 | The server as it is; Spec/Order.lean: which tokens and codes an event is about, when two calls are independent, when two servers hold the same | C73 says what a call does to each entry and C58 what its answer depends on: two independent calls commute; induction over lists and permutations; with C47 the same for every schedule |
| C102 | The server as it is; Spec/Sweep.lean: a server without some of its expired entries, answers that come to the same, a function that removes everything that has expired | C58 for calls that do not carry what was removed; for those that do, the exact replies of C73/C88 on both servers; induction over histories |
| C103 | The writers and the encoder of `encoding/json` as they are; Spec/Inert.lean: characters that are neither control characters nor markup, text made of them | Induction over strings for the escaping, over values for extra data; then the replies of the server one by one |
| C104 | The server as it is, run on two calls; Spec/Less.lean: the call for less, the call that is not later, the server that allows more | The conditions of each grant are monotone in the scope and the clock; then the answers are compared by what an observer reads in them |
| C105 | The server as it is, with two different registrations; Spec/Removal.lean: calls in the name of a client, calls with a password, events that give nothing | Each endpoint commutes with exchanging the registrations it does not look up; induction over histories; the refusals from the replies |
| C106 | The server as it is, called twice; Spec/Again.lean: the same request, refusal | The state that the first request leaves, by cases on how it was granted; then the reply to the second in that state |
| C107 | The server as it is; Spec/Kinds.lean: what a token was handed out as, what it is used as, in vain | What is in a map was handed out as a token of that kind (C73), by induction over the history; then by cases on what serving the request can come to |
| C108 | The server as it is, any maps; Spec/Final.lean: asking again, later and for no less | What is in a map after a history and was not handed out in it was there before (C73), a code at most marked as used; then what is admitted or granted later would have been before |
| C109 | The server as it is, any maps, with the response and its parsing by the client library; Spec/Agree.lean: deciding by an introspection response | What the client library reads is the entry of the map (C24, C08); Authorize decides by the same entry (C73); comparing times by the second |

## Findings

Places where the code does not do what a user would expect. Each is backed by a theorem.

1. `url.ParseRequestURI` never produces a fragment, so the checks at authorization.go:59 and
   token.go:83 are dead. Redirect URIs with `#` are accepted. (C17)
2. In fragment mode `WriteRedirect` escapes twice: `Fragment = f.Encode()` and then `URL.String()`
   escapes `%` again. A browser client that decodes once sees wrong values. (C15)
3. `redirect_uri` is unescaped twice. The library's own client escapes twice, third-party clients do
   not. (C20)
4. Replaying a code revokes only the tokens issued directly from it; tokens obtained by refreshing
   survive. (C34)
5. Introspection does not look at the expiry: expired tokens are `active: true`. (C40)
6. Token strings are malleable (unused trailing bits, CR and LF), but all lookups use the canonical
   signature. (C03)
7. `Error.Params` escapes neither quotes nor backslashes, so header parameters can be ambiguous or misread. (C13, C84)
8. Error headers whose keys are equal in canonical form are applied in map order. (C12)
9. A client id with a colon does not survive basic authentication. (C18)
10. `ParseTokenResponse` accepts `null` and `{}` and returns an empty token. (C25)
11. A query parameter that the redirect URI already has shadows the one added: the client reads the
    wrong `code`, `state` or `error`. Malformed pairs of an existing query are dropped. (C14)
12. A redirect URI with a bracketed host and a non-ASCII zone is accepted, but the `Location` made from
    it cannot be parsed. (C14)
13. A replayed code is noticed before the owner and expiry of the code are checked, so any client that
    identifies itself can end another client's tokens by presenting its used code. (C57)
14. Revoking an access token whose signature is also that of another client's refresh token removes
    the access token and still answers with an error. It takes a collision. (C30)
15. Basic authentication with an empty user name does not fall back to the form. (C21)
16. The authorization endpoint tells known clients from unknown ones, and revocation and introspection
    of a token of another client tell that the token is in force; nothing else about registrations and
    tokens can be found out without the secrets. (C62, C63)
17. Secrets that differ only by zero bytes at the end make the same tokens. (C61)
18. A refresh answered into a broken connection loses the refresh token. (C60)
19. The scope passed to `Authorize` goes into the challenge as it is; with quotes or line breaks in it
    the header is broken. (C59)
20. Expired tokens and used codes are never removed from the maps; only revocation, replay, refreshing
    and a new token with the same signature remove tokens, and nothing removes codes. (C64)
21. `ParseTokenResponse` and `ParseIntrospectionResponse` do not look at the status, and read an error
    document as a response without a token; only `Client` checks the status first. (C25, C54)
22. The test suite of oauth2test panics instead of failing on a challenge without a space. (C55)
23. `Write` sends the status before it encodes the object. An introspection response with extra data that
    JSON cannot express is answered with status 200 and an empty body. (C24)
24. A server that redirects with status 307 makes the client send its secrets to another site, and after a
    second redirect within that site also the credentials in the header. (C76)
25. A `Server` literal without `RefreshTokens` (or the other maps) panics when it stores a token; the access
    token stored before stays. A client registered as nil panics too. The mutex is free afterwards. (C77)
26. Integers in the extra data of an introspection response change if they need more than 53 bits: the
    client decodes them into `float64`, so that the identifiers `2 ^ 53` and `2 ^ 53 + 1` become one. A
    single number that is too large for `float64` makes the whole response unreadable. (C79)
27. The test suite of oauth2test reads the headers after the handler has returned: headers set after the
    status was written, which no client would get, count for it. (C78)
28. Sentences of the specifications that the server does not meet (C80, `C80_*_refuted`), besides findings
    above: client identifiers and secrets in the basic authorization header are not form-decoded; redirect
    URIs are decoded once more before they are compared; a state with reserved characters comes back
    changed in a fragment; an unknown response type is reported to the user instead of the client; the
    client credentials grant issues a refresh token; wrong passwords are answered with 403 and
    `access_denied`; repeated parameters and two ways of client authentication are accepted;
    `unsupported_grant_type` is never used; a malformed code is `invalid_request` instead of
    `invalid_grant`; refreshing with a narrower scope narrows the new refresh token too; revoking a refresh
    token leaves the access token issued with it; revoking or introspecting a malformed token is an error;
    public clients may introspect; introspection calls expired tokens active, answers 401 for tokens of
    other clients, and gives `access_token` or `refresh_token` as the token type.
29. Whether a token has expired is decided by the monotonic clock, but the `exp` of introspection is a date
    of the wall clock. If the wall clock is set, or the computer sleeps while the monotonic clock stands
    still, then `Authorize` admits tokens after their `exp`, or refuses them before. From March 2157 on,
    Go has no reading of the monotonic clock, and setting the clock back revives expired tokens. (C81)
30. Tokens are compared in constant time, but client secrets and passwords of the bundled server are compared
    with `==` and `!=`, which stop at the first difference. Somebody who can measure the time of a comparison
    finds an n-byte password in at most 256·n attempts. (C83)
31. An endpoint URL with a blank in its query (`http://example.com/oauth2/token?a b`) is accepted by
    `BuildTokenRequest` and the others, but is sent as it is, and the server cannot read the request line.
    (C85, last example)
32. A redirect with status 307 or 308 makes `Client.Authenticate` send the form again, with the password or
    secret in it, also to another site and also from https to http; only the header `Authorization` is
    withheld. (C76, C89_cleartext)
33. `http.Client` compares sites by their names as they are spelled, so `A.com` is not the site `a.com`; and by
    port, not scheme, so `http://a.com:443` is the site `https://a.com` and gets its credentials without TLS.
    (C89_site and its examples)
34. A refresh token that was replaced and turns up again is refused, but the tokens that replaced it stay in
    force, against RFC 6819, section 5.2.2.3. (C90_rotationRevokes_refuted)
35. No number of wrong passwords or wrong secrets locks anyone out, and the page of the authorization endpoint
    does not forbid frames. (C90_locks_refuted, C90_locksClients_refuted, C90_frames_refuted)
36. Taking a scope out of the allowed scope of a running server does not take it from anyone who has it:
    access tokens are admitted, and codes and refresh tokens exchanged, as before. (C91_narrowed)
37. Copying the exported maps without holding the exported mutex may catch half of a call: the tokens for a
    code without the note that the code is used, so that the copy redeems the code again. (C91_torn)
38. Whether a malformed form is refused depends on who looked first. If middleware has called `FormValue`
    (which drops the error of `ParseForm`), or `ParseForm` without checking its error, the form of the request
    is known, and the server issues tokens for the well-formed pairs of a request that it would have refused
    as malformed. (C95_ignored and its examples)
39. `ServeHTTP` holds the mutex while it reads the body. One client that announces a form and does not send it
    stops the whole server, `Authorize` included, until the connection breaks or times out; it needs no
    credentials. Calling `r.ParseForm()` before `ServeHTTP` avoids it, with the effect of finding 38 if errors
    are ignored. (C96_held, C96_anyone, C96_workaround)
40. A scope may be repeated in a request, and what is granted is echoed and stored as it was requested. A client
    that may have tokens can so get answers, and make the server store scopes, of about the size of a form
    (10 MB); an answer of more than 2 KB is sent while the mutex is held. (C98_long)

## Axioms of each theorem

Printed by `#print axioms`. P is `propext`, Q is `Quot.sound`, C is `Classical.choice`; none of these
is specific to this project.

* P: `C08_json_empty`, `C09_no_header`, `C14_shadow`, `C14_zone`, `C15_double_escape`, `C17_authorization_refuted`, `C17_token_refuted`, `C20_refuted`, `C47_no_access`, `C76_abroad`, `C76_abroad_later`, `C77_new`, `C83_strings_length`, `C89_unique`, `C89_cleartext`, `C90_entropy_default`, `C93_string`, `C95_twice`, `C96_parsed`
* No axioms: `C13_refuted`, `C83_password_refuted`
* P, Q: `C03_spellings`, `C05_generate`, `C05_mustGenerate`, `C06_parse`, `C06_parse_unique`, `C06_clean`, `C06_roundtrip`, `C06_idempotent`, `C07_includes`, `C07_contains`, `C07_refl`, `C07_trans`, `C07_same_items`, `C07_empty_included`, `C09_bearer_accept_iff`, `C09_malformed`, `C10_internal`, `C10_challenge`, `C11_params_exact`, `C11_params_deterministic`, `C13_params_determine_partial`, `C14_unparsable`, `C17_fragment_never_seen`, `C20_authorization_redirect_partial`, `C20_authorization_redirect_encoded`, `C20_token_redirect_partial`, `C20_token_redirect_encoded`, `C21_header_wins`, `C21_body_otherwise`, `C21_body_ignored`, `C22_token_query`, `C22_introspection_query`, `C22_revocation_query`, `C35_code_origin`, `C46_authorize_once`, `C52_token_accepted`, `C52_introspection_accepted`, `C52_revocation_accepted`, `C52_authorization_accepted`, `C52_refusals`, `C53_error_headers`, `C54_revocation`, `C59_redirect`, `C59_bearer`, `C59_requests`, `C60_authorize`, `C61_same_tokens`, `C70_posted`, `C70_credentials`, `C83_pieces`, `C83_valid`, `C83_equal`, `C83_made`, `C83_strings`, `C84_bearer`, `C84_bearer_misread`, `C85_reads_response`, `C85_reads_request`, `C85_stream`, `C85_target`, `C85_address`, `C89_site`, `C89_referer`, `C89_insecure`, `C93_bearer`, `C93_bearer_other`, `C94_request`, `C94_response`, `C94_refused`, `C94_unique`, `C94_request_read`, `C94_response_read`, `C95_token`, `C95_introspection`, `C95_revocation`, `C95_authorization`, `C95_looked`, `C95_half`, `C95_refused`, `C96_must`, `C103_code`, `C103_bytes`
* P, Q, C: `C01_token_roundtrip`, `C02_sha256`, `C02_hmac`, `C02_accept_standard`, `C02_accept_iff`, `C02_reject_forged`, `C03_canonical`, `C03_distinct`, `C03_malleable`, `C04_transport_safe`, `C07_empty`, `C08_json_roundtrip`, `C08_json_exact`, `C12_error_roundtrip`, `C12_foreign_error`, `C14_query_redirect`, `C14_query_get`, `C15_fragment_redirect`, `C15_single_decode_partial`, `C16_redirect_deterministic`, `C17_no_fragment_partial`, `C18_token_request`, `C18_colon`, `C19_introspection_request`, `C19_revocation_request`, `C20_authorization_redirect_iff`, `C20_token_redirect_iff`, `C22_served_query`, `C23_token_response`, `C23_token_response_exact`, `C24_introspection_response`, `C24_introspection_response_exact`, `C24_inexpressible`, `C24_unknown_type_refused`, `C25_token_smaller_limit`, `C25_introspection_smaller_limit`, `C25_token_whole_body`, `C25_introspection_whole_body`, `C25_error_smaller_limit`, `C26_not_cached`, `C26_handed_out`, `C27_admits_iff`, `C27_admits_only`, `C28_usable`, `C29_not_admitted`, `C29_introspected_inactive`, `C29_not_refreshed`, `C30_only_own`, `C30_nothing_else`, `C30_foreign_refused`, `C30_owner_revokes`, `C31_used_once`, `C31_between_uses`, `C32_chain`, `C32_wider_refused`, `C32_not_wider`, `C33_redeemed_once`, `C34_replay_refused`, `C34_replay_revokes_partial`, `C34_not_admitted_partial`, `C34_not_refreshed_partial`, `C34_refuted`, `C35_code_bound`, `C35_refused`, `C36_token_scope`, `C36_code_scope`, `C36_not_admitted`, `C37_token`, `C37_introspection`, `C37_revocation`, `C38_public_client`, `C39_redirects_registered`, `C39_refused`, `C40_changes_nothing`, `C40_truth_partial`, `C40_expired_refuted`, `C40_foreign_refused`, `C40_described`, `C40_unknown_inactive`, `C41_only_asks`, `C41_error`, `C41_changes`, `C41_error_rights`, `C42_random_failure`, `C43_token_consent`, `C43_code_consent`, `C44_implicit`, `C44_code`, `C44_get`, `C45_announced`, `C45_accepted`, `C45_seconds`, `C46_answered_once`, `C46_without_coins`, `C47_linearizable`, `C47_sequential`, `C47_race_free`, `C47_progress`, `C47_terminates`, `C47_completes`, `C47_refresh_once`, `C47_code_once`, `C48_code_expired`, `C48_refresh_expired`, `C49_authenticate`, `C49_granted`, `C49_introspect`, `C49_revoke`, `C49_accepted`, `C49_described`, `C49_revoked`, `C49_refused`, `C50_last_segment`, `C50_not_found`, `C51_password_granted`, `C51_client_granted`, `C51_code_granted`, `C51_refresh_granted`, `C51_authorization_granted`, `C52_token_refused`, `C52_introspection_refused`, `C52_revocation_refused`, `C52_authorization_refused`, `C53_token_redirect`, `C53_code_redirect`, `C53_error_redirect`, `C54_token`, `C54_introspection`, `C54_status`, `C54_error_document`, `C54_broken`, `C55_suite_passes`, `C55_server_test`, `C56_once_decoded`, `C56_exact_iff_plain`, `C57_replay_exact`, `C57_refreshed_survives`, `C57_who_ends`, `C58_answer`, `C58_effect`, `C58_run`, `C58_proper`, `C59_server`, `C60_serve`, `C60_run`, `C61_same_answers`, `C61_another_secret`, `C62_same_answer`, `C62_same_answers`, `C62_user`, `C62_client`, `C63_answer`, `C63_twice`, `C63_succeeds_iff`, `C64_access_tokens`, `C64_refresh_tokens`, `C64_codes`, `C64_codes_kept`, `C64_size`, `C65_implicit_flow`, `C65_code_flow`, `C65_refresh_flow`, `C66_malformed_explained`, `C66_malformed_iff`, `C66_token`, `C66_token_explained`, `C66_introspection`, `C66_revocation`, `C66_introspection_explained`, `C66_revocation_explained`, `C66_visit`, `C66_visit_explained`, `C66_submit`, `C66_malformed`, `C66_access`, `C67_request`, `C67_lossy_authenticate`, `C67_lossy_introspect`, `C67_effect`, `C67_authenticate`, `C67_introspect`, `C67_revoke`, `C68_answers`, `C68_challenge`, `C69_linearizable`, `C69_progress`, `C69_completes`, `C69_terminates`, `C70_same`, `C70_authorize`, `C71_access`, `C71_refresh`, `C71_code`, `C71_nothing_else`, `C71_authorize`, `C72_in_force`, `C72_admits`, `C72_refresh_once`, `C72_code_once`, `C72_replayed_for_good`, `C72_revoked_for_good`, `C72_used_for_good`, `C72_failure`, `C73_tokens`, `C73_codes`, `C73_admits_iff`, `C73_granted_iff`, `C73_kept`, `C73_gone`, `C73_seeded_admitted`, `C74_json`, `C74_token`, `C74_introspection`, `C74_error`, `C74_error_other`, `C74_unambiguous`, `C74_content_type`, `C74_unknown`, `C75_form`, `C75_escapes`, `C75_content_type`, `C75_target`, `C75_reference`, `C75_credentials`, `C75_parameters`, `C75_token_request`, `C75_introspection_request`, `C75_revocation_request`, `C75_authorization_request`, `C75_json_response`, `C76_chain`, `C76_once`, `C76_endpoints`, `C76_connected`, `C76_token`, `C77_same`, `C77_kept`, `C77_stays`, `C77_exact`, `C77_history`, `C77_zero`, `C77_object_once`, `C78_requirements`, `C78_flawed`, `C78_password`, `C78_client_credentials`, `C78_implicit`, `C78_code`, `C78_refresh`, `C78_revocation`, `C78_blind`, `C79_nearest`, `C79_exact`, `C79_integers`, `C79_integers_collide`, `C80_6749_post`, `C80_6749_omitted`, `C80_6749_authenticate`, `C80_6749_basicPlain`, `C80_6749_codeOnce`, `C80_6749_codeExpires`, `C80_6749_codeBound`, `C80_6749_codeRevokesDirect`, `C80_6749_password`, `C80_6749_confidential`, `C80_6749_refresh`, `C80_6749_scope`, `C80_6749_tokenResponse`, `C80_6749_noStore`, `C80_6749_once`, `C80_6749_errorStatusOther`, `C80_6749_errorCodeOther`, `C80_6749_errorText`, `C80_6749_challenge`, `C80_6749_unknownGrantType`, `C80_6749_badCodeSigned`, `C80_6749_errorRedirectKnown`, `C80_6749_redirectMatchPlain`, `C80_6749_noRedirect`, `C80_6749_state`, `C80_6749_stateImplicitPlain`, `C80_6749_implicitNoRefresh`, `C80_6749_basic_refuted`, `C80_6749_redirectMatch_refuted`, `C80_6749_stateImplicit_refuted`, `C80_6749_errorRedirect_refuted`, `C80_6749_codeRevokes_refuted`, `C80_6749_clientNoRefresh_refuted`, `C80_6749_errorStatus_refuted`, `C80_6749_errorCode_refuted`, `C80_6749_repeated_refuted`, `C80_6749_oneMechanism_refuted`, `C80_6749_unsupportedGrantType_refuted`, `C80_6749_badPassword_refuted`, `C80_6749_badCode_refuted`, `C80_6749_refreshScope_refuted`, `C80_7009_cascades_refuted`, `C80_7009_invalidToken_refuted`, `C80_7662_authorization_refuted`, `C80_7662_notExpired_refuted`, `C80_7662_unknown_refuted`, `C80_7662_foreign_refuted`, `C80_7662_tokenType_refuted`, `C80_6750_header`, `C80_6750_challenge`, `C80_6750_noErrorCode`, `C80_6750_invalidRequest`, `C80_6750_invalidToken`, `C80_6750_insufficientScope`, `C80_7009_validates`, `C80_7009_invalidates`, `C80_7009_invalidTokenSigned`, `C80_7662_authentic`, `C80_7662_active`, `C80_7662_inForce`, `C80_7662_unknownSigned`, `C80_7662_foreignSilent`, `C80_7662_inactiveSilent`, `C81_expired_iff`, `C81_expired_monotonic`, `C81_expired_wall`, `C81_faithful`, `C81_introspection`, `C81_monotonic`, `C81_admits_iff`, `C81_wall_clock`, `C81_exp_passed`, `C81_exp_ahead`, `C81_revived`, `C82_alone`, `C82_strangers`, `C82_unguessable`, `C83_result`, `C83_parse`, `C83_strings_time`, `C83_password_found`, `C84_serve`, `C84_authorize`, `C85_writes_response`, `C85_writes_request`, `C85_responses`, `C85_requests`, `C85_server`, `C85_client`, `C86_response`, `C86_request`, `C86_requests`, `C86_effect`, `C86_authenticate`, `C86_introspect`, `C86_revoke`, `C87_connections`, `C87_broken`, `C87_history`, `C88_fresh`, `C88_orderly`, `C88_distinct`, `C89_dotless`, `C89_resolve`, `C89_stays`, `C89_leaving`, `C89_kept`, `C90_entropy`, `C90_entropyAlways_refuted`, `C90_independence`, `C90_expiration`, `C90_codeExpiration`, `C90_refreshExpiration`, `C90_boundRefresh`, `C90_boundCode`, `C90_oneTime`, `C90_oneTimeCode`, `C90_rotation`, `C90_rotationRevokes_refuted`, `C90_signed`, `C90_limitedScope`, `C90_header`, `C90_consent`, `C90_redirector`, `C90_frames_refuted`, `C90_notCached`, `C90_hashes`, `C90_locks_refuted`, `C90_locksClients_refuted`, `C91_admitted`, `C91_kept`, `C91_secret`, `C91_secret_grant`, `C91_secret_back`, `C91_scope`, `C91_narrowed`, `C91_own`, `C91_restart`, `C91_copy`, `C91_torn`, `C92_later`, `C92_history`, `C92_introspection`, `C92_expired`, `C92_earlier`, `C93_document`, `C93_redirect`, `C93_token`, `C93_code`, `C93_introspection`, `C95_same`, `C95_inspected`, `C95_only`, `C95_ignored`, `C96_unread`, `C96_linearizable`, `C96_held`, `C96_anyone`, `C96_progress`, `C96_completes`, `C96_workaround`, `C97_answered`, `C97_possible`, `C97_mutex_needed`, `C97_bodies_needed`, `C97_scheduler_needed`, `C98_said`, `C98_short`, `C98_challenged`, `C98_heard`, `C98_long`, `C99_call`, `C99_history`, `C99_who`, `C99_refresh`, `C99_grows`, `C99_kept`, `C100_call`, `C100_history`, `C100_client`, `C101_two`, `C101_alone`, `C101_order`, `C101_concurrent`, `C101_settled`, `C102_call`, `C102_hands`, `C102_admits`, `C102_history`, `C102_sweep`, `C102_swept`, `C102_single`, `C103_scope`, `C103_error`, `C103_token`, `C103_introspection`, `C103_bearer`, `C103_server`, `C103_rejected`, `C104_admitted`, `C104_tokens`, `C104_codes`, `C104_same`, `C104_same_tokens`, `C104_same_authorization`, `C105_admitted`, `C105_others`, `C105_user_tokens`, `C105_client_tokens`, `C105_removed_client`, `C105_removed_user`, `C105_removed_client_history`, `C105_removed_user_history`, `C105_restored`, `C106_refresh`, `C106_code`, `C106_code_not_admitted`, `C106_code_not_refreshed`, `C106_again`, `C106_authorization_again`, `C106_authorization_kept`, `C107_never`, `C107_kinds`, `C107_fresh`, `C107_not_revoked`, `C108_admitted`, `C108_granted`, `C109_admitted`, `C109_admissible`, `C109_refresh`, `C109_transportable`, `C109_last_second`
