import Verif.Lemmas.Replies

/-! The shapes of the responses the server renders. -/

namespace OAuth2

open Spec

set_option linter.unusedSimpArgs false

/-- What the response writer has received when a handler returns. -/
inductive Shape (s : Server) (r : Request) : Reply → Recorder → Prop
  | json {reply} (h : Header) (json : Str) (status : Nat) (hs : status = 200 ∨ 400 ≤ status ∧ status ≤ 403)
      (hh : h = [] ∨ h = [(b!"Www-Authenticate", [b!"Basic realm=\"OAuth2\""])]) :
      Shape s r reply {
        header := jsonHeader h, sent := some (status, jsonHeader h), body := json ++ [0x0A] }
  | redirect {reply} (rq : AuthorizationRequest) (hf : Server.AuthorizationFor s r rq)
      (hm : r.method ≠ b!"GET") (params : GoMap Str) (hp : params.keys.Nodup) (hne : params ≠ [])
      (f : Bool) (L : Str) (hL : redirectLocation rq.redirectURI params f = some L) :
      Shape s r reply {
        header := redirectHeader [] L, sent := some (303, redirectHeader [] L), body := [] }
  | revoked : Shape s r .revoked { sent := some (200, []) }
  | notice : Shape s r .notice { sent := some (200, []), body := Server.notice }
  | notFound (h : Header) (hh : h = (Header.set [] b!"Content-Type" b!"text/plain; charset=utf-8").set
      b!"X-Content-Type-Options" b!"nosniff") :
      Shape s r .notFound { header := h, sent := some (404, h), body := b!"404 page not found\n" }

theorem shape_json {s : Server} {r : Request} {reply reply' : Reply} {h : Header} {json : Str}
    {status : Nat} (hs : status = 200 ∨ 400 ≤ status ∧ status ≤ 403)
    (hh : h = [] ∨ h = [(b!"Www-Authenticate", [b!"Basic realm=\"OAuth2\""])])
    (hr : reply.render {} = jsonRecorder { header := h } json status) :
    Shape s r reply' (reply.render {}) := by
  rw [hr, jsonRecorder_fresh ⟨rfl, rfl, rfl⟩]
  exact .json h json status hs hh

theorem shape_redirect {s : Server} {r : Request} {reply reply' : Reply} {rq : AuthorizationRequest}
    (hf : Server.AuthorizationFor s r rq) (hm : r.method ≠ b!"GET") {params : GoMap Str}
    (hp : params.keys.Nodup) (hne : params ≠ []) (f : Bool)
    (hr : reply.render {} = redirectTo {} rq.redirectURI params f) :
    Shape s r reply' (reply.render {}) := by
  obtain ⟨_, u, hu⟩ := authorizationRequest_uri hf.parsed
  obtain ⟨L, hL⟩ := redirectLocation_isSome hu params f
  rw [hr]
  unfold redirectTo
  rw [hL]
  simp only
  rw [redirectRecorder_fresh ⟨rfl, rfl, rfl⟩]
  exact .redirect rq hf hm params hp hne f L hL

theorem shape_error {s : Server} {r : Request} {e : Error} (hs : 400 ≤ e.status ∧ e.status ≤ 403)
    (hr : e.redirectURI = [])
    (hh : e.headers = [] ∨ e.headers = [(b!"WWW-Authenticate", b!"Basic realm=\"OAuth2\"")]) :
    Shape s r (.error e) ((Reply.error e).render {}) := by
  apply shape_json (h := e.addHeaders []) (json := e.json) (status := e.status.toNat)
  · omega
  · unfold Error.addHeaders
    rcases hh with h | h <;> rw [h]
    · exact .inl rfl
    · exact .inr (by decide +kernel)
  · unfold Reply.render
    simp only [hr, ne_eq, not_true, if_false]

theorem shape_token {s : Server} {r : Request} {t : TokenResponse} (hr : t.redirectURI = []) :
    Shape s r (.token t) ((Reply.token t).render {}) := by
  apply shape_json (h := []) (json := t.json) (status := 200) (by decide) (.inl rfl)
  unfold Reply.render
  simp only [hr, ne_eq, not_true, if_false]

theorem render_token_redirect {t : TokenResponse} (hr : t.redirectURI ≠ []) :
    (Reply.token t).render {} = redirectTo {} t.redirectURI t.map true := by
  unfold Reply.render
  simp only [hr, ne_eq, not_false_eq_true, if_true]

theorem shape {s s' : Server} {r : Request} {l : Local} {reply : Reply}
    (h : Server.Served s r l reply s') : reply = .crash ∨ Shape s r reply (reply.render {}) := by
  cases h with
  | notFound => exact .inr (.notFound _ rfl)
  | refused e hs hr hp hh => exact .inr (shape_error hs hr hh)
  | refusedRedirect rq hf hm e he =>
    right
    obtain ⟨e', he'⟩ : ∃ e', e' = e.setRedirect rq.redirectURI rq.state
      (rq.responseType = TokenResponseType) := ⟨_, rfl⟩
    rw [← he']
    have h1 : e'.redirectURI = rq.redirectURI := by rw [he']; rfl
    have hh : e'.headers = [] := by rw [he']; rcases he with rfl | rfl <;> rfl
    have hn : e'.name ≠ [] := by rw [he']; rcases he with rfl | rfl <;> (intro hn; cases hn)
    refine shape_redirect hf hm e'.map_nodup ?_ e'.useFragment ?_
    · unfold Error.map
      simp [hn]
    · unfold Reply.render
      have hne := (authorizationRequest_uri hf.parsed).1
      simp only [h1, ne_eq, hne, not_false_eq_true, if_true, Error.addHeaders, hh, List.foldl_nil]
  | notice => exact .inr .notice
  | crash => exact .inl rfl
  | implicit rq hf hm ht hs hu a hg =>
    right
    refine shape_redirect hf hm (TokenResponse.map_nodup
      ((Server.grantResponse s.config a none rq.scope).setRedirect rq.redirectURI rq.state)) ?_ true ?_
    · unfold TokenResponse.map
      simp
    · exact render_token_redirect (t := (Server.grantResponse s.config a none rq.scope).setRedirect
        rq.redirectURI rq.state) (authorizationRequest_uri hf.parsed).1
  | code rq hf hm ht hs hu c rest hg =>
    right
    refine shape_redirect hf hm (CodeResponse.map_nodup
      ⟨c.string, rq.state, rq.redirectURI⟩) ?_ false rfl
    unfold CodeResponse.map
    simp
  | password => exact .inr (shape_token rfl)
  | client => exact .inr (shape_token rfl)
  | replay => exact .inr (shape_error (by decide) rfl (.inl rfl))
  | exchange => exact .inr (shape_token rfl)
  | refresh => exact .inr (shape_token rfl)
  | introspect rq hp hq hc t ht ha hr i hi =>
    exact .inr (shape_json (h := []) (json := i.json) (status := 200) (by decide) (.inl rfl) rfl)
  | revoke => exact .inr .revoked
  | revokeHalf => exact .inr (shape_error (by decide) rfl (.inr rfl))

/-- Making a request: the reply, its shape and what it came to. -/
theorem step_served {c : Call} {r : Request} (h : c.op = .serve r) (s : Server) :
    ∃ reply s', step ⟨false, s⟩ c = (reply.answer, ⟨false, s'⟩) ∧
      Server.Served s r c.local reply s' ∧ (reply = .crash ∨ Shape s r reply (reply.render {})) :=
  ⟨_, _, step_serve h s, Server.served s r c.local, shape (Server.served s r c.local)⟩

end OAuth2
