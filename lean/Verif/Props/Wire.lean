import Verif.Lemmas.WireServe
import Verif.Props.EndToEnd

/-!
C85: requests and responses as bytes on a connection.
-/

namespace OAuth2

open Spec Rfc7230

/-- The response that was read says what the message says: status, body and header fields. (A
missing `Cache-Control` is made up for a `Pragma`, by `net/http`.) -/
structure ReadResponse (m : Message) (res : Response) : Prop where
  status : ∃ code reason, StatusLine m.start code reason ∧ res.statusCode = decimal code ∧
    res.status = code ++ [0x20] ++ reason
  body : res.body = m.body ∧ res.bodyErr = false
  header : ∀ name, ¬ SameName name b!"Transfer-Encoding" → ¬ SameName name b!"Content-Length" →
    (SameName name b!"Cache-Control" → named m.fields name ≠ [] ∨ named m.fields b!"Pragma" = []) →
    res.header.all name = named m.fields name

/-- The request that was read says what the message says. -/
structure ReadRequest (m : Message) (r : Request) : Prop where
  line : ∃ target u, RequestLine m.start r.method target ∧ parseRequestURI target = some u ∧
    r.path = u.path ∧ r.rawQuery = u.rawQuery
  body : r.body = some m.body ∧ r.bodyErr = false
  fresh : r.postForm = none ∧ r.form = none
  header : ∀ name, ¬ SameName name b!"Transfer-Encoding" → ¬ SameName name b!"Content-Length" →
    ¬ SameName name b!"Host" →
    (SameName name b!"Cache-Control" → named m.fields name ≠ [] ∨ named m.fields b!"Pragma" = []) →
    r.header.all name = named m.fields name

theorem canonicalKey_other {name own : Str} (ho : own ≠ []) (ht : own.all validHeaderFieldByte = true)
    (hc : canonicalKey own = own) (h : ¬ SameName name own) : canonicalKey name ≠ own := by
  intro e
  apply h
  exact ((canonicalKey_eq_iff (a := own) (b := name) (token_of_decide ho ht)).mp (by rw [hc, e])).symm

/-- C85: every response that is in order by RFC 7230 is read as what it says, however it is spelt and
wherever it ends, and reading stops where it ends. -/
theorem C85_reads_response {bytes : Str} {m : Message} {code reason : Str} (h : Text false bytes m)
    (hs : StatusLine m.start code reason) (rest : Str) :
    ∃ res, readResponse (bytes ++ rest) = some (res, rest) ∧ ReadResponse m res := by
  obtain ⟨res, h1, h2, h3, h4, h5, h6⟩ := readResponse_text h hs rest
  refine ⟨res, h1, ⟨code, reason, hs, h2, h3⟩, ⟨h4, h5⟩, fun name n1 n2 hc => ?_⟩
  exact all_fixed (fun f hf => (message_fields h f hf).1)
    (h6 _ (canonicalKey_other (by decide) (by decide) (by decide) n1)
      (canonicalKey_other (by decide) (by decide) (by decide) n2)) hc

/-- C85: every request that is in order by RFC 7230 is read as what it says. -/
theorem C85_reads_request {bytes : Str} {m : Message} {method target host : Str} {u : URL}
    (h : Text true bytes m) (hs : RequestLine m.start method target)
    (hu : parseRequestURI target = some u) (hp : ∀ f ∈ m.fields, Printable f.2)
    (hh : named m.fields b!"Host" = [host]) (ht : HostText host) (rest : Str) :
    ∃ r, readRequest (bytes ++ rest) = some (r, rest) ∧ ReadRequest m r := by
  obtain ⟨hd, h1, h2⟩ := readRequest_text h hs hu hp hh ht rest
  refine ⟨_, h1, ⟨target, u, hs, hu, rfl, rfl⟩, ⟨rfl, rfl⟩, ⟨rfl, rfl⟩, fun name n1 n2 n3 hc => ?_⟩
  exact all_fixed (fun f hf => (message_fields h f hf).1)
    (h2 _ (canonicalKey_other (by decide) (by decide) (by decide) n1)
      (canonicalKey_other (by decide) (by decide) (by decide) n2)
      (canonicalKey_other (by decide) (by decide) (by decide) n3)) hc

/-- C85: responses one after the other on a connection are read one by one. -/
theorem C85_stream {bytes : Str} {ms : List Message} (h : Stream false bytes ms)
    (hs : ∀ m ∈ ms, ∃ code reason, StatusLine m.start code reason) (rest : Str) :
    ∃ got, readMany readResponse ms.length (bytes ++ rest) = some (got, rest) ∧
      Each ReadResponse ms got := by
  induction h with
  | nil => exact ⟨[], rfl, .nil⟩
  | @cons a s m l ht _ ih =>
    obtain ⟨code, reason, hl⟩ := hs m (.head _)
    obtain ⟨got, h1, h2⟩ := ih fun m' hm => hs m' (.tail _ hm)
    obtain ⟨res, h3, h4⟩ := C85_reads_response ht hl (s ++ rest)
    refine ⟨res :: got, ?_, .cons h4 h2⟩
    rw [List.length_cons, readMany, List.append_assoc, h3]
    simp only [h1]
    rfl

/-- C85: what the server writes for an answer is a response in order by RFC 7230, with status and
body of the answer and each of its header fields. -/
theorem C85_writes_response {x : Shipping} {res : Response} (hg : Given res) (hx : Ships x res.body) :
    ∃ m, Text false (responseText x res) m ∧ m.start = b!"HTTP/1.1 " ++ statusLine res.statusCode ∧
      (∃ code reason, StatusLine m.start code reason ∧ decimal code = res.statusCode) ∧
      m.body = res.body ∧
      ∀ k v, v ∈ res.header.all k → ∃ v', Cleaned v v' ∧ v' ∈ named m.fields k := by
  obtain ⟨reason, hs, hst, -⟩ := statusLine_spec (code := res.statusCode)
    (Nat.le_trans (by decide) hg.status.1) hg.status.2.1
  refine ⟨_, responseText_text hg hx, rfl, ⟨_, reason, hs, (natDigits_decimal _).2.2⟩, rfl, ?_⟩
  intro k v hv
  refine ⟨cleanValue v, cleanValue_cleaned v, ?_⟩
  rw [named_response hg]
  simp only [List.append_assoc]
  exact List.mem_append_left _ (List.mem_map.mpr ⟨v, hv, rfl⟩)

/-- C85: what the client writes for a request is a request in order by RFC 7230, with its method and
body, to the target and host, with each of its header fields. -/
theorem C85_writes_request {x : Sending} {target : Str} {r : Request} (ha : Asked x target r) :
    ∃ m, Text true (requestText x target r) m ∧ RequestLine m.start r.method target ∧
      named m.fields b!"Host" = [x.host] ∧ (∀ f ∈ m.fields, Printable f.2) ∧
      m.body = r.body.getD [] ∧
      ∀ k v, v ∈ r.header.all k → ∃ v', Cleaned v v' ∧ v' ∈ named m.fields k := by
  obtain ⟨h1, h2, h3⟩ := requestText_text ha
  refine ⟨_, h1, h2, h3, sent_printable ha, rfl, ?_⟩
  intro k v hv
  refine ⟨cleanValue v, cleanValue_cleaned v, ?_⟩
  rw [named_sent ha.header]
  have hk : canonicalKey k ∉ requestFields := by
    intro hm
    unfold Header.all at hv
    cases hg : GoMap.get? r.header (canonicalKey k) with
    | none => rw [hg] at hv; cases hv
    | some vs =>
      have := ha.own (canonicalKey k) (List.mem_map.mpr ⟨_, GoMap.get?_some_mem hg, rfl⟩)
      exact this (List.mem_append_left [b!"Accept-Encoding"] hm)
  simp only [hk, if_false]
  exact List.mem_append_left _ (List.mem_append_right _ (List.mem_map.mpr ⟨v, hv, rfl⟩))

/-- C85: answers written one after the other on a connection are read as they were given, however
they were cut into chunks: none can end early or swallow another, whatever is in headers and bodies. -/
theorem C85_responses {x : Shipping} {l : List Response} (hl : ∀ res ∈ l, Given res)
    (hx : ∀ res ∈ l, Ships x res.body) (rest : Str) :
    ∃ got, readMany readResponse l.length (l.flatMap (responseText x) ++ rest) = some (got, rest) ∧
      Each Arrived l got :=
  readMany_row (fun res h rest => response_arrives (hl res h) (hx res h) rest) rest

/-- C85: requests written one after the other on a connection are read as they were sent. -/
theorem C85_requests {x : Sending} {target : Str} {u : URL} {l : List Request}
    (hl : ∀ r ∈ l, Asked x target r) (hu : parseRequestURI target = some u) (rest : Str) :
    ∃ got, readMany readRequest l.length (l.flatMap (requestText x target) ++ rest) = some (got, rest) ∧
      Each (fun r got => Reached r target got) l got :=
  readMany_row (R := fun r got => Reached r target got)
    (fun r h rest => request_reaches (hl r h) hu rest) rest

/-- C85: the target that is sent for the URL of an endpoint is read as its path and query. -/
theorem C85_target {u : URL} (ha : Address u) :
    ∃ u', parseRequestURI u.requestURI = some u' ∧ u'.rawQuery = u.rawQuery ∧
      u'.path = if u.path = [] then b!"/" else u.path :=
  (target_spec ha).2

/-- C85: such URLs are those with a host, without a user, and without a blank in the query. -/
theorem C85_address {uri : Str} {u : URL} (h : parseURL uri = some u) (hh : u.host ≠ [])
    (hu : u.user = none) (hq : (0x20 : UInt8) ∉ u.rawQuery) : Address u :=
  address_of_host h hh hu hq

/-- C85: whatever the server answers, and whatever a resource server says to a request it rejects,
is read by the other side as it was given. -/
theorem C85_server {s : Server} {c : Call} (hc : Sane c) {res : Response}
    (h : (step ⟨false, s⟩ c).1 = .answered res ∨ (step ⟨false, s⟩ c).1 = .rejected res)
    (hl : res.body.length < 2 ^ 63) {y : Shipping} (hy : Ships y res.body) (rest : Str) :
    ∃ got, readResponse (responseText y res ++ rest) = some (got, rest) ∧
      got.statusCode = res.statusCode ∧ got.status = res.status ∧ got.body = res.body ∧
      got.bodyErr = false ∧
      ∀ name, (∀ own ∈ [b!"Date", b!"Content-Length", b!"Connection", b!"Transfer-Encoding"],
          ¬ SameName name own) →
        (SameName name b!"Content-Type" → res.header.all name ≠ [] ∨ res.body = []) →
        (SameName name b!"Cache-Control" → res.header.all name ≠ [] ∨ res.header.all b!"Pragma" = []) →
        got.header.all name = res.header.all name := by
  have hp : PlainHeader takenOver res.header ∧ WithBody res.statusCode ∧
      res.status = statusLine res.statusCode := by
    rcases h with h | h
    · exact served_plain h
    · exact rejected_plain hc h
  obtain ⟨p1, p2, p3⟩ := hp
  obtain ⟨got, a1, a2⟩ := response_arrives (plain_given p1 p2 hl) hy rest
  refine ⟨got, a1, a2.code, by rw [a2.status, p3], a2.body, a2.whole, fun name n1 n2 n3 => ?_⟩
  exact each_cleaned (a2.header name n1 n2 n3) (plain_all p1 name)

/-- The answer of the server to what the client library sends for this form is not too long. -/
def Short (uri : Str) (values : Values) (clientID clientSecret : Str) (s : Server) (coins : Str)
    (clock : Nat → Time) : Prop :=
  values.encode.length < 2 ^ 63 ∧
  ∀ r res, buildFormRequest uri values clientID clientSecret = some r →
    Spec.wire ⟨false, s⟩ coins clock r = some res → res.body.length < 2 ^ 63

/-- C85: the client library gets over a connection what it would get if the server were handed its
requests and it the answers of the server, byte for byte. -/
theorem C85_client {cfg : ClientConfig} {x : Sending} {y : Shipping} {s : Server} {coins : Str}
    {clock : Nat → Time} (hx : HostText x.host) (hy : ∀ body, Ships y body) :
    (∀ rq u, parseURL (cfg.baseURI ++ cfg.tokenEndpoint) = some u → Address u →
      Short (cfg.baseURI ++ cfg.tokenEndpoint) (tokenRequestValues rq) rq.clientID rq.clientSecret
        s coins clock →
      (newClient cfg (connection x y u (Spec.wire ⟨false, s⟩ coins clock))).authenticate rq =
        (newClient cfg (Spec.wire ⟨false, s⟩ coins clock)).authenticate rq) ∧
    (∀ rq u, parseURL (cfg.baseURI ++ cfg.introspectionEndpoint) = some u → Address u →
      Short (cfg.baseURI ++ cfg.introspectionEndpoint) (introspectionRequestValues rq) rq.clientID
        rq.clientSecret s coins clock →
      (newClient cfg (connection x y u (Spec.wire ⟨false, s⟩ coins clock))).introspect rq =
        (newClient cfg (Spec.wire ⟨false, s⟩ coins clock)).introspect rq) ∧
    (∀ rq u, parseURL (cfg.baseURI ++ cfg.revocationEndpoint) = some u → Address u →
      Short (cfg.baseURI ++ cfg.revocationEndpoint) (revocationRequestValues rq) rq.clientID
        rq.clientSecret s coins clock →
      (newClient cfg (connection x y u (Spec.wire ⟨false, s⟩ coins clock))).revoke rq =
        (newClient cfg (Spec.wire ⟨false, s⟩ coins clock)).revoke rq) := by
  have e1 : ∀ t, (newClient cfg t).config = (newClient cfg (Spec.wire ⟨false, s⟩ coins clock)).config :=
    fun _ => rfl
  have e2 : (newClient cfg (Spec.wire ⟨false, s⟩ coins clock)).config.baseURI = cfg.baseURI ∧
      (newClient cfg (Spec.wire ⟨false, s⟩ coins clock)).config.tokenEndpoint = cfg.tokenEndpoint ∧
      (newClient cfg (Spec.wire ⟨false, s⟩ coins clock)).config.introspectionEndpoint =
        cfg.introspectionEndpoint ∧
      (newClient cfg (Spec.wire ⟨false, s⟩ coins clock)).config.revocationEndpoint =
        cfg.revocationEndpoint := by
    unfold newClient
    split <;> exact ⟨rfl, rfl, rfl, rfl⟩
  have e3 : ∀ t, (newClient cfg t).client = t := fun _ => rfl
  refine ⟨fun rq u hu ha hs => ?_, fun rq u hu ha hs => ?_, fun rq u hu ha hs => ?_⟩
  · unfold Client.authenticate
    rw [e1 (connection _ _ _ _), e3, e3, e2.1, e2.2.1]
    generalize (newClient cfg (Spec.wire ⟨false, s⟩ coins clock)).config.responseLimit = limit
    cases hb : buildTokenRequest (cfg.baseURI ++ cfg.tokenEndpoint) rq with
    | none => simp only [hb]
    | some r =>
      rcases wire_exchange hu ha hx hy hb hs.1 (fun res => hs.2 r res hb) with ⟨g1, g2⟩ | ⟨res, res', g1, g2, g3⟩
      · simp only [hb, g1, g2]
      · simp only [hb, g1, g2, parseTokenResponse, g3.code, g3.error, g3.json]
  · unfold Client.introspect
    rw [e1 (connection _ _ _ _), e3, e3, e2.1, e2.2.2.1]
    generalize (newClient cfg (Spec.wire ⟨false, s⟩ coins clock)).config.responseLimit = limit
    cases hb : buildIntrospectionRequest (cfg.baseURI ++ cfg.introspectionEndpoint) rq with
    | none => simp only [hb]
    | some r =>
      rcases wire_exchange hu ha hx hy hb hs.1 (fun res => hs.2 r res hb) with ⟨g1, g2⟩ | ⟨res, res', g1, g2, g3⟩
      · simp only [hb, g1, g2]
      · simp only [hb, g1, g2, parseIntrospectionResponse, g3.code, g3.error, g3.json]
  · unfold Client.revoke
    rw [e1 (connection _ _ _ _), e3, e3, e2.1, e2.2.2.2]
    generalize (newClient cfg (Spec.wire ⟨false, s⟩ coins clock)).config.responseLimit = limit
    cases hb : buildRevocationRequest (cfg.baseURI ++ cfg.revocationEndpoint) rq with
    | none => simp only [hb]
    | some r =>
      rcases wire_exchange hu ha hx hy hb hs.1 (fun res => hs.2 r res hb) with ⟨g1, g2⟩ | ⟨res, res', g1, g2, g3⟩
      · simp only [hb, g1, g2]
      · simp only [hb, g1, g2, g3.code, g3.error]

/-! ### Cases that meet the hypotheses -/

/-- A response with odd spelling, and one in chunks. -/
theorem Demo.text_length : Text false
    (b!"HTTP/1.1 200 OK" ++ CRLF ++ (b!"content-LENGTH:" ++ [0x20, 0x09] ++ b!"5 " ++ CRLF) ++ CRLF ++ b!"hello")
    ⟨b!"HTTP/1.1 200 OK", [(b!"content-LENGTH", b!"5")], b!"hello"⟩ := by
  refine .mk rfl (by decide) ?_ (.length (by decide) rfl (by decide) (by decide) (by decide) (by decide))
  exact .cons (k := b!"content-LENGTH") (w := [0x20, 0x09]) (v := b!"5") (w' := b!" ") (s := [])
    (token_of_decide (by decide) (by decide)) (by unfold Rfc7235.Blank; decide)
    ⟨by decide, by decide, by decide⟩ (by unfold Rfc7235.Blank; decide) .nil

theorem Demo.text_chunks : Text false
    (b!"HTTP/1.1 404 Not Found" ++ CRLF ++ (b!"Transfer-Encoding:" ++ b!"Chunked" ++ CRLF) ++ CRLF ++
      (b!"00A" ++ CRLF ++ b!"0123456789" ++ CRLF ++ (b!"0" ++ CRLF ++ CRLF)))
    ⟨b!"HTTP/1.1 404 Not Found", [(b!"Transfer-Encoding", b!"Chunked")], b!"0123456789"⟩ := by
  refine .mk rfl (by decide) ?_ (.chunked (coding := b!"Chunked") (by decide) (by decide) ?_)
  · exact .cons (k := b!"Transfer-Encoding") (w := []) (v := b!"Chunked") (w' := []) (s := [])
      (token_of_decide (by decide) (by decide)) (by unfold Rfc7235.Blank; decide)
      ⟨by decide, by decide, by decide⟩ (by unfold Rfc7235.Blank; decide) .nil
  · have h10 : Hex b!"00A" (b!"0123456789").length :=
      .snoc (s := b!"00") (n := 0) (d := 10) (.snoc (s := b!"0") (n := 0) (d := 0)
        (.snoc (s := []) (n := 0) (d := 0) .nil (.digit (b := 0x30) (by decide) (by decide)))
        (.digit (b := 0x30) (by decide) (by decide))) (.upper (b := 0x41) (by decide) (by decide))
    exact .chunk (size := b!"00A") (data := b!"0123456789") (body := []) (by decide) (by decide) h10
      (by decide) (.last (by decide) (by decide)
        (.snoc (s := []) (n := 0) (d := 0) .nil (.digit (b := 0x30) (by decide) (by decide))))

/-- Both are responses, and they follow each other on a connection. -/
example : ∃ bytes ms, Stream false bytes ms ∧ ms.length = 2 ∧
    ∀ m ∈ ms, ∃ code reason, StatusLine m.start code reason := by
  refine ⟨_, _, .cons Demo.text_length (.cons Demo.text_chunks .nil), rfl, ?_⟩
  intro m hm
  rcases List.mem_cons.mp hm with rfl | hm
  · exact ⟨b!"200", b!"OK", rfl, rfl, by decide⟩
  · rcases List.mem_cons.mp hm with rfl | hm
    · exact ⟨b!"404", b!"Not Found", rfl, rfl, by decide⟩
    · cases hm

/-- What `net/http` adds, for all bodies. -/
def Demo.shipping : Shipping where
  date := b!"Tue, 17 Nov 2026 19:00:00 GMT"
  close := true
  chunks := fun body => body.map fun b => [b]

theorem Demo.ships (body : Str) : Ships Demo.shipping body := by
  refine ⟨⟨by decide, by decide, by decide⟩, (by decide : Value b!"text/plain; charset=utf-8"), ?_, ?_⟩
  · show (body.map fun b => [b]).flatten = body
    induction body with
    | nil => rfl
    | cons b body ih => rw [List.map_cons, List.flatten_cons, ih]; rfl
  · intro c hc
    obtain ⟨b, _, rfl⟩ := List.mem_map.mp hc
    exact List.cons_ne_nil _ _

/-- An answer with a value that tries to end the head and begin another response. -/
example : ∃ res : Response, Given res ∧
    res.header.all b!"X-Name" = [b!"a" ++ CRLF ++ CRLF ++ b!"HTTP/1.1 200 OK"] ∧
    (readResponse (responseText Demo.shipping res)).map (fun p =>
      (p.1.header.all b!"x-name", p.1.statusCode, p.1.body, p.2)) =
        some ([b!"a    HTTP/1.1 200 OK"], 403, b!"no", []) := by
  refine ⟨{ statusCode := 403, status := b!"403 Forbidden", body := b!"no",
            header := [(b!"X-Name", [b!"a" ++ CRLF ++ CRLF ++ b!"HTTP/1.1 200 OK"])] }, ?_, by decide, ?_⟩
  · refine ⟨⟨by decide, fun k hk => ?_⟩, by decide, by decide, by decide⟩
    rcases List.mem_cons.mp hk with rfl | hk
    · exact ⟨token_of_decide (by decide) (by decide), by decide⟩
    · cases hk
  · decide +kernel

/-- The endpoints of the server at this host are such URLs. -/
theorem Demo.address : ∃ u, parseURL (demoClient.baseURI ++ demoClient.tokenEndpoint) = some u ∧ Address u :=
  ⟨{ scheme := b!"http", host := b!"example.com", path := b!"/oauth2/token" }, by decide +kernel,
    C85_address (uri := b!"http://example.com/oauth2/token") (by decide +kernel) (by decide) rfl (by decide)⟩

/-- A password grant over a connection: the server hands out tokens. -/
example : ∃ u, parseURL (demoClient.baseURI ++ demoClient.tokenEndpoint) = some u ∧ Address u ∧
    HostText b!"example.com:80" ∧
    Short (demoClient.baseURI ++ demoClient.tokenEndpoint)
      (tokenRequestValues { grantType := b!"password", username := b!"u1", password := b!"p1" })
      b!"c1" b!"s1" Demo.server [1, 2, 3, 4] (fun n => (1000 + n) * second) ∧
    ((newClient demoClient (connection ⟨b!"example.com:80", true⟩ Demo.shipping u
      (wire ⟨false, Demo.server⟩ [1, 2, 3, 4] fun n => (1000 + n) * second))).authenticate {
        grantType := b!"password", username := b!"u1", password := b!"p1", clientID := b!"c1",
        clientSecret := b!"s1" }).map (·.accessToken) = .ok Demo.a1.string := by
  refine ⟨{ scheme := b!"http", host := b!"example.com", path := b!"/oauth2/token" }, by decide +kernel,
    C85_address (uri := b!"http://example.com/oauth2/token") (by decide +kernel) (by decide) rfl (by decide),
    by unfold HostText; decide, ⟨by decide +kernel, ?_⟩, by decide +kernel⟩
  intro r res h1 h2
  have h : (buildFormRequest (demoClient.baseURI ++ demoClient.tokenEndpoint)
      (tokenRequestValues { grantType := b!"password", username := b!"u1", password := b!"p1" })
      b!"c1" b!"s1").all (fun r => (wire ⟨false, Demo.server⟩ [1, 2, 3, 4]
        (fun n => (1000 + n) * second) r).all fun res => res.body.length < 2 ^ 63) = true := by
    decide +kernel
  rw [h1, Option.all_some, h2, Option.all_some] at h
  exact of_decide_eq_true h

/-- A request the library builds, to be sent, with an answer the server gives. -/
example : ∃ r res, buildFormRequest b!"http://example.com/oauth2/token" [(b!"grant_type", [b!"password"])]
      b!"c1" b!"s1" = some r ∧ Asked ⟨b!"example.com", true⟩ b!"/oauth2/token" r ∧
    (∃ m, Text true (requestText ⟨b!"example.com", true⟩ b!"/oauth2/token" r) m ∧
      RequestLine m.start b!"POST" b!"/oauth2/token") ∧
    Sane Demo.c1 ∧ (step ⟨false, Demo.server⟩ Demo.c1).1 = .answered res ∧ res.body.length < 2 ^ 63 := by
  have hu : parseURL b!"http://example.com/oauth2/token" =
      some { scheme := b!"http", host := b!"example.com", path := b!"/oauth2/token" } := by decide +kernel
  obtain ⟨r, hr⟩ : ∃ r, buildFormRequest b!"http://example.com/oauth2/token"
      [(b!"grant_type", [b!"password"])] b!"c1" b!"s1" = some r := by
    unfold buildFormRequest newPostRequest
    rw [hu]
    exact ⟨_, rfl⟩
  obtain ⟨hp, hm, _, _, hb, _⟩ := build_plain hr hu
  have ha : Asked ⟨b!"example.com", true⟩ b!"/oauth2/token" r := by
    refine ⟨?_, hp.kept, (buildFormRequest_clean hr).printable, hp.own, ?_, by decide, ?_⟩
    · rw [hm]; exact token_of_decide (by decide) (by decide)
    · unfold HostText; decide
    · rw [hb]; decide +kernel
  obtain ⟨m, w1, w2, _⟩ := C85_writes_request ha
  rw [hm] at w2
  have hsane : Sane Demo.c1 := by intro _ _ h; cases h
  exact ⟨r, _, hr, ha, ⟨m, w1, w2⟩, hsane, congrArg Prod.fst Demo.step1, by decide +kernel⟩

/-- Not so with a blank in the query of the endpoint: the client sends it as it is, and the server
cannot tell where the target ends. -/
example : ∃ u r, parseURL b!"http://example.com/oauth2/token?a b" = some u ∧
    buildFormRequest b!"http://example.com/oauth2/token?a b" [] [] [] = some r ∧
    readRequest (requestText ⟨b!"example.com", true⟩ u.requestURI r) = none :=
  ⟨{ scheme := b!"http", host := b!"example.com", path := b!"/oauth2/token", rawQuery := b!"a b" },
    _, by decide +kernel, rfl, by decide +kernel⟩

end OAuth2
