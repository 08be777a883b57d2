import Verif.Lemmas.Replies
import Verif.Lemmas.Decide

/-!
A concrete session with a server: ten requests, their responses and the states of the server.
Used to show that the hypotheses of the theorems about histories are met. The transcript was
printed by evaluating the model; that it is one is checked by the theorems `step1` to `step10`.
-/

namespace OAuth2.Demo

open Spec

/-- Making calls one after the other, with the events before. -/
def run (s : Shared Server) : List Call → List Event → List Event × Shared Server
  | [], h => (h, s)
  | c :: cs, h => run (step s c).2 cs (⟨c, (step s c).1⟩ :: h)

theorem run_history {s₀ : Server} {s : Shared Server} (cs : List Call) {h : List Event}
    (hh : History s₀ h s) : History s₀ (run s cs h).1 (run s cs h).2 := by
  induction cs generalizing s h with
  | nil => exact hh
  | cons c cs ih => exact ih (.next c hh)

/-- A server with a confidential client `c1`, a public client `c2` and a user `u1`. -/
def server : Server where
  config := {
    secret := b!"key", keyLength := 2, allowedScope := some [b!"foo", b!"bar"],
    accessTokenLifespan := 3600 * second, refreshTokenLifespan := 604800 * second,
    authorizationCodeLifespan := 600 * second }
  clients := [
    (b!"c1", { secret := b!"s1", redirectURI := b!"http://example.com/cb", confidential := true }),
    (b!"c2", { redirectURI := b!"http://example.org/cb?x=1", confidential := false })]
  users := [(b!"u1", { secret := b!"p1" })]

theorem started : Started server := ⟨rfl, rfl, rfl⟩

/-- Posting a form, with HTTP basic authentication if `auth` is not empty. The clock advances a
second per reading. -/
def post (path auth form : Str) (coins : Str) (time : Int) : Call where
  op := .serve {
    method := b!"POST", path := path, body := some form,
    header := [(b!"Content-Type", [b!"application/x-www-form-urlencoded"])] ++
      if auth = [] then [] else [(b!"Authorization", [b!"Basic " ++ b64StdEncode auth])] }
  coins := coins
  clock := fun n => (time + n) * second

/-- Asking `Authorize` with a bearer token. -/
def present (token : Str) (required : Scope) (time : Int) : Call where
  op := .authorize {
    method := b!"GET", path := b!"/api",
    header := [(b!"Authorization", [b!"Bearer " ++ token])] } required
  clock := fun n => (time + n) * second

/-- The access token of the first event. -/
def a1 : HS256Token where
  key := [1, 2]
  signature := [16, 42, 242, 73, 107, 243, 242, 147, 186, 118, 135, 249, 156, 120, 210, 9] ++
    [63, 60, 154, 51, 34, 157, 79, 187, 115, 17, 253, 128, 173, 21, 250, 104]

theorem a1_genuine : a1 = HS256Token.fromKey server.config.secret a1.key := by decide +kernel

/-- The refresh token of the first event. -/
def r1 : HS256Token where
  key := [3, 4]
  signature := [147, 101, 196, 14, 184, 123, 12, 53, 127, 52, 13, 181, 216, 156, 147, 13] ++
    [243, 94, 32, 183, 37, 87, 86, 170, 38, 149, 78, 177, 253, 134, 234, 60]

theorem r1_genuine : r1 = HS256Token.fromKey server.config.secret r1.key := by decide +kernel

/-- The code of the second event. -/
def x2 : HS256Token where
  key := [5, 6]
  signature := [83, 22, 184, 26, 74, 73, 80, 72, 237, 87, 176, 17, 175, 136, 125, 50] ++
    [238, 125, 247, 60, 14, 218, 185, 221, 197, 192, 24, 148, 3, 237, 166, 2]

theorem x2_genuine : x2 = HS256Token.fromKey server.config.secret x2.key := by decide +kernel

/-- The access token of the third event. -/
def a3 : HS256Token where
  key := [7, 8]
  signature := [151, 43, 191, 111, 213, 91, 71, 38, 232, 52, 201, 200, 220, 153, 180, 241] ++
    [40, 162, 111, 134, 141, 194, 15, 54, 251, 38, 219, 232, 234, 170, 213, 235]

theorem a3_genuine : a3 = HS256Token.fromKey server.config.secret a3.key := by decide +kernel

/-- The refresh token of the third event. -/
def r3 : HS256Token where
  key := [9, 10]
  signature := [201, 34, 182, 251, 248, 125, 200, 87, 233, 74, 60, 166, 229, 86, 230, 205] ++
    [166, 225, 201, 89, 184, 152, 32, 227, 110, 194, 232, 143, 152, 146, 184, 81]

theorem r3_genuine : r3 = HS256Token.fromKey server.config.secret r3.key := by decide +kernel

/-- The access token of the fourth event. -/
def a4 : HS256Token where
  key := [11, 12]
  signature := [188, 222, 225, 223, 141, 0, 134, 52, 12, 63, 206, 190, 117, 235, 186, 137] ++
    [9, 162, 253, 107, 37, 63, 123, 97, 133, 80, 85, 237, 96, 137, 96, 121]

theorem a4_genuine : a4 = HS256Token.fromKey server.config.secret a4.key := by decide +kernel

/-- The refresh token of the fourth event. -/
def r4 : HS256Token where
  key := [13, 14]
  signature := [244, 147, 108, 121, 32, 92, 127, 64, 152, 55, 184, 161, 61, 173, 96, 96] ++
    [36, 210, 155, 103, 29, 243, 23, 55, 66, 235, 80, 204, 237, 18, 52, 209]

theorem r4_genuine : r4 = HS256Token.fromKey server.config.secret r4.key := by decide +kernel

/-- The access token of the seventh event. -/
def a7 : HS256Token where
  key := [19, 20]
  signature := [198, 250, 169, 19, 125, 76, 190, 166, 72, 125, 14, 175, 70, 84, 61, 250] ++
    [25, 21, 10, 133, 123, 93, 215, 128, 73, 174, 184, 116, 58, 194, 47, 221]

theorem a7_genuine : a7 = HS256Token.fromKey server.config.secret a7.key := by decide +kernel

/-- The access token of the eighth event. -/
def a8 : HS256Token where
  key := [21, 22]
  signature := [32, 70, 237, 110, 231, 95, 18, 144, 168, 68, 194, 214, 4, 179, 58, 193] ++
    [150, 245, 84, 151, 120, 41, 175, 119, 194, 248, 185, 160, 14, 46, 174, 208]

theorem a8_genuine : a8 = HS256Token.fromKey server.config.secret a8.key := by decide +kernel

/-- The refresh token of the eighth event. -/
def r8 : HS256Token where
  key := [23, 24]
  signature := [83, 109, 131, 90, 215, 236, 21, 19, 176, 88, 81, 126, 131, 132, 2, 143] ++
    [249, 29, 16, 63, 210, 125, 177, 87, 150, 226, 143, 36, 62, 214, 252, 44]

theorem r8_genuine : r8 = HS256Token.fromKey server.config.secret r8.key := by decide +kernel

/-- The code of the ninth event. -/
def x9 : HS256Token where
  key := [25, 26]
  signature := [84, 194, 174, 173, 58, 39, 124, 247, 59, 48, 0, 112, 51, 128, 126, 219] ++
    [55, 89, 224, 105, 107, 231, 192, 34, 164, 83, 17, 194, 87, 47, 26, 176]

theorem x9_genuine : x9 = HS256Token.fromKey server.config.secret x9.key := by decide +kernel

/-- `c1` uses the password of `u1`. -/
def c1 : Call := post b!"/oauth2/token" []
  (b!"grant_type=password&client_id=c1&client_secret=s1&username=u1&password" ++
    b!"=p1&scope=foo")
  [1, 2, 3, 4] 1000

/-- What is observed. -/
def e1 : Event where
  call := c1
  answer := .answered {
    statusCode := 200
    header := [
      (b!"Pragma", [b!"no-cache"]),
      (b!"Cache-Control", [b!"no-store"]),
      (b!"Content-Type", [b!"application/json;charset=UTF-8"])]
    body := b!"{\"token_type\":\"bearer\",\"access_token\":\"AQI.ECrySWvz8pO6dof5nHjSCT88mjM" ++
      b!"inU-7cxH9gK0V-mg\",\"expires_in\":3600,\"refresh_token\":\"AwQ.k2XEDrh7DDV_N" ++
      b!"A212JyTDfNeILclV1aqJpVOsf2G6jw\",\"scope\":\"foo\"}\n" }

/-- The server after it. -/
def s1 : Server := { server with
  accessTokens := [(b!"ECrySWvz8pO6dof5nHjSCT88mjMinU-7cxH9gK0V-mg", {
      clientID := b!"c1", username := b!"u1", scope := some [b!"foo"], expiresAt := 4600 * second })]
  refreshTokens := [(b!"k2XEDrh7DDV_NA212JyTDfNeILclV1aqJpVOsf2G6jw", {
      clientID := b!"c1", username := b!"u1", scope := some [b!"foo"], expiresAt := 605801 * second })]
  authorizationCodes := [] }

theorem step1 : step ⟨false, server⟩ c1 = (e1.answer, ⟨false, s1⟩) := by decide +kernel

theorem history1 : History server [e1] ⟨false, s1⟩ := by
  have h := History.next c1 (History.start (s₀ := server))
  rw [step1] at h
  exact h

/-- `u1` authorizes `c2`, which gets a code. -/
def c2 : Call := post b!"/oauth2/authorize" []
  (b!"response_type=code&client_id=c2&redirect_uri=http%3A%2F%2Fexample.org%" ++
    b!"2Fcb%3Fx%3D1&scope=foo+bar&state=xyz&username=u1&password=p1")
  [5, 6] 1010

/-- What is observed. -/
def e2 : Event where
  call := c2
  answer := .answered {
    statusCode := 303
    header := [
      (b!"Referrer-Policy", [b!"origin"]),
      (b!"Pragma", [b!"no-cache"]),
      (b!"Cache-Control", [b!"no-store"]),
      (b!"Location", [b!"http://example.org/cb?code=BQY.Uxa4GkpJUEjtV7ARr4h9Mu599zwO2rndxcAYlAP" ++
        b!"tpgI&state=xyz&x=1"])]
    body := [] }

/-- The server after it. -/
def s2 : Server := { server with
  accessTokens := [(b!"ECrySWvz8pO6dof5nHjSCT88mjMinU-7cxH9gK0V-mg", {
      clientID := b!"c1", username := b!"u1", scope := some [b!"foo"], expiresAt := 4600 * second })]
  refreshTokens := [(b!"k2XEDrh7DDV_NA212JyTDfNeILclV1aqJpVOsf2G6jw", {
      clientID := b!"c1", username := b!"u1", scope := some [b!"foo"], expiresAt := 605801 * second })]
  authorizationCodes := [(b!"Uxa4GkpJUEjtV7ARr4h9Mu599zwO2rndxcAYlAPtpgI", {
      clientID := b!"c2", username := b!"u1", scope := some [b!"foo", b!"bar"], expiresAt := 1610 * second,
      redirectURI := b!"http://example.org/cb?x=1" })] }

theorem step2 : step ⟨false, s1⟩ c2 = (e2.answer, ⟨false, s2⟩) := by decide +kernel

theorem history2 : History server [e2, e1] ⟨false, s2⟩ := by
  have h := History.next c2 history1
  rw [step2] at h
  exact h

/-- `c2` redeems the code. -/
def c3 : Call := post b!"/oauth2/token" []
  (b!"grant_type=authorization_code&client_id=c2&redirect_uri=http%3A%2F%2Fe" ++
    b!"xample.org%2Fcb%3Fx%3D1&code=BQY.Uxa4GkpJUEjtV7ARr4h9Mu599zwO2rndxcAYl" ++
    b!"APtpgI")
  [7, 8, 9, 10] 1020

/-- What is observed. -/
def e3 : Event where
  call := c3
  answer := .answered {
    statusCode := 200
    header := [
      (b!"Pragma", [b!"no-cache"]),
      (b!"Cache-Control", [b!"no-store"]),
      (b!"Content-Type", [b!"application/json;charset=UTF-8"])]
    body := b!"{\"token_type\":\"bearer\",\"access_token\":\"Bwg.lyu_b9VbRyboNMnI3Jm08Siib4a" ++
      b!"Nwg82-ybb6Oqq1es\",\"expires_in\":3600,\"refresh_token\":\"CQo.ySK2-_h9yFfpS" ++
      b!"jym5VbmzabhyVm4mCDjbsLoj5iSuFE\",\"scope\":\"foo bar\"}\n" }

/-- The server after it. -/
def s3 : Server := { server with
  accessTokens := [(b!"lyu_b9VbRyboNMnI3Jm08Siib4aNwg82-ybb6Oqq1es", {
      clientID := b!"c2", username := b!"u1", scope := some [b!"foo", b!"bar"], expiresAt := 4621 * second,
      code := b!"Uxa4GkpJUEjtV7ARr4h9Mu599zwO2rndxcAYlAPtpgI" }),
    (b!"ECrySWvz8pO6dof5nHjSCT88mjMinU-7cxH9gK0V-mg", {
      clientID := b!"c1", username := b!"u1", scope := some [b!"foo"], expiresAt := 4600 * second })]
  refreshTokens := [(b!"ySK2-_h9yFfpSjym5VbmzabhyVm4mCDjbsLoj5iSuFE", {
      clientID := b!"c2", username := b!"u1", scope := some [b!"foo", b!"bar"], expiresAt := 605822 * second,
      code := b!"Uxa4GkpJUEjtV7ARr4h9Mu599zwO2rndxcAYlAPtpgI" }),
    (b!"k2XEDrh7DDV_NA212JyTDfNeILclV1aqJpVOsf2G6jw", {
      clientID := b!"c1", username := b!"u1", scope := some [b!"foo"], expiresAt := 605801 * second })]
  authorizationCodes := [(b!"Uxa4GkpJUEjtV7ARr4h9Mu599zwO2rndxcAYlAPtpgI", {
      clientID := b!"c2", username := b!"u1", scope := some [b!"foo", b!"bar"], expiresAt := 1610 * second,
      redirectURI := b!"http://example.org/cb?x=1", used := true })] }

theorem step3 : step ⟨false, s2⟩ c3 = (e3.answer, ⟨false, s3⟩) := by decide +kernel

theorem history3 : History server [e3, e2, e1] ⟨false, s3⟩ := by
  have h := History.next c3 history2
  rw [step3] at h
  exact h

/-- `c2` uses the refresh token it got, for less scope. -/
def c4 : Call := post b!"/oauth2/token" []
  (b!"grant_type=refresh_token&client_id=c2&scope=foo&refresh_token=CQo.ySK2" ++
    b!"-_h9yFfpSjym5VbmzabhyVm4mCDjbsLoj5iSuFE")
  [11, 12, 13, 14] 1030

/-- What is observed. -/
def e4 : Event where
  call := c4
  answer := .answered {
    statusCode := 200
    header := [
      (b!"Pragma", [b!"no-cache"]),
      (b!"Cache-Control", [b!"no-store"]),
      (b!"Content-Type", [b!"application/json;charset=UTF-8"])]
    body := b!"{\"token_type\":\"bearer\",\"access_token\":\"Cww.vN7h340AhjQMP86-deu6iQmi_Ws" ++
      b!"lP3thhVBV7WCJYHk\",\"expires_in\":3600,\"refresh_token\":\"DQ4.9JNseSBcf0CYN" ++
      b!"7ihPa1gYCTSm2cd8xc3QutQzO0SNNE\",\"scope\":\"foo\"}\n" }

/-- The server after it. -/
def s4 : Server := { server with
  accessTokens := [(b!"vN7h340AhjQMP86-deu6iQmi_WslP3thhVBV7WCJYHk", {
      clientID := b!"c2", username := b!"u1", scope := some [b!"foo"], expiresAt := 4631 * second }),
    (b!"lyu_b9VbRyboNMnI3Jm08Siib4aNwg82-ybb6Oqq1es", {
      clientID := b!"c2", username := b!"u1", scope := some [b!"foo", b!"bar"], expiresAt := 4621 * second,
      code := b!"Uxa4GkpJUEjtV7ARr4h9Mu599zwO2rndxcAYlAPtpgI" }),
    (b!"ECrySWvz8pO6dof5nHjSCT88mjMinU-7cxH9gK0V-mg", {
      clientID := b!"c1", username := b!"u1", scope := some [b!"foo"], expiresAt := 4600 * second })]
  refreshTokens := [(b!"9JNseSBcf0CYN7ihPa1gYCTSm2cd8xc3QutQzO0SNNE", {
      clientID := b!"c2", username := b!"u1", scope := some [b!"foo"], expiresAt := 605832 * second }),
    (b!"k2XEDrh7DDV_NA212JyTDfNeILclV1aqJpVOsf2G6jw", {
      clientID := b!"c1", username := b!"u1", scope := some [b!"foo"], expiresAt := 605801 * second })]
  authorizationCodes := [(b!"Uxa4GkpJUEjtV7ARr4h9Mu599zwO2rndxcAYlAPtpgI", {
      clientID := b!"c2", username := b!"u1", scope := some [b!"foo", b!"bar"], expiresAt := 1610 * second,
      redirectURI := b!"http://example.org/cb?x=1", used := true })] }

theorem step4 : step ⟨false, s3⟩ c4 = (e4.answer, ⟨false, s4⟩) := by decide +kernel

theorem history4 : History server [e4, e3, e2, e1] ⟨false, s4⟩ := by
  have h := History.next c4 history3
  rw [step4] at h
  exact h

/-- `c2` presents the code again. -/
def c5 : Call := post b!"/oauth2/token" []
  (b!"grant_type=authorization_code&client_id=c2&redirect_uri=http%3A%2F%2Fe" ++
    b!"xample.org%2Fcb%3Fx%3D1&code=BQY.Uxa4GkpJUEjtV7ARr4h9Mu599zwO2rndxcAYl" ++
    b!"APtpgI")
  [15, 16, 17, 18] 1040

/-- What is observed. -/
def e5 : Event where
  call := c5
  answer := .answered {
    statusCode := 400
    header := [
      (b!"Pragma", [b!"no-cache"]),
      (b!"Cache-Control", [b!"no-store"]),
      (b!"Content-Type", [b!"application/json;charset=UTF-8"])]
    body := b!"{\"error\":\"invalid_grant\",\"error_description\":\"unknown authorization co" ++
      b!"de\"}\n" }

/-- The server after it. -/
def s5 : Server := { server with
  accessTokens := [(b!"vN7h340AhjQMP86-deu6iQmi_WslP3thhVBV7WCJYHk", {
      clientID := b!"c2", username := b!"u1", scope := some [b!"foo"], expiresAt := 4631 * second }),
    (b!"ECrySWvz8pO6dof5nHjSCT88mjMinU-7cxH9gK0V-mg", {
      clientID := b!"c1", username := b!"u1", scope := some [b!"foo"], expiresAt := 4600 * second })]
  refreshTokens := [(b!"9JNseSBcf0CYN7ihPa1gYCTSm2cd8xc3QutQzO0SNNE", {
      clientID := b!"c2", username := b!"u1", scope := some [b!"foo"], expiresAt := 605832 * second }),
    (b!"k2XEDrh7DDV_NA212JyTDfNeILclV1aqJpVOsf2G6jw", {
      clientID := b!"c1", username := b!"u1", scope := some [b!"foo"], expiresAt := 605801 * second })]
  authorizationCodes := [(b!"Uxa4GkpJUEjtV7ARr4h9Mu599zwO2rndxcAYlAPtpgI", {
      clientID := b!"c2", username := b!"u1", scope := some [b!"foo", b!"bar"], expiresAt := 1610 * second,
      redirectURI := b!"http://example.org/cb?x=1", used := true })] }

theorem step5 : step ⟨false, s4⟩ c5 = (e5.answer, ⟨false, s5⟩) := by decide +kernel

theorem history5 : History server [e5, e4, e3, e2, e1] ⟨false, s5⟩ := by
  have h := History.next c5 history4
  rw [step5] at h
  exact h

/-- `c1` revokes its access token. -/
def c6 : Call := post b!"/oauth2/revoke" b!"c1:s1"
  (b!"token=AQI.ECrySWvz8pO6dof5nHjSCT88mjMinU-7cxH9gK0V-mg")
  [] 1050

/-- What is observed. -/
def e6 : Event where
  call := c6
  answer := .answered {
    statusCode := 200
    header := [
      ]
    body := [] }

/-- The server after it. -/
def s6 : Server := { server with
  accessTokens := [(b!"vN7h340AhjQMP86-deu6iQmi_WslP3thhVBV7WCJYHk", {
      clientID := b!"c2", username := b!"u1", scope := some [b!"foo"], expiresAt := 4631 * second })]
  refreshTokens := [(b!"9JNseSBcf0CYN7ihPa1gYCTSm2cd8xc3QutQzO0SNNE", {
      clientID := b!"c2", username := b!"u1", scope := some [b!"foo"], expiresAt := 605832 * second }),
    (b!"k2XEDrh7DDV_NA212JyTDfNeILclV1aqJpVOsf2G6jw", {
      clientID := b!"c1", username := b!"u1", scope := some [b!"foo"], expiresAt := 605801 * second })]
  authorizationCodes := [(b!"Uxa4GkpJUEjtV7ARr4h9Mu599zwO2rndxcAYlAPtpgI", {
      clientID := b!"c2", username := b!"u1", scope := some [b!"foo", b!"bar"], expiresAt := 1610 * second,
      redirectURI := b!"http://example.org/cb?x=1", used := true })] }

theorem step6 : step ⟨false, s5⟩ c6 = (e6.answer, ⟨false, s6⟩) := by decide +kernel

theorem history6 : History server [e6, e5, e4, e3, e2, e1] ⟨false, s6⟩ := by
  have h := History.next c6 history5
  rw [step6] at h
  exact h

/-- `u1` authorizes `c2`, which gets a token. -/
def c7 : Call := post b!"/oauth2/authorize" []
  (b!"response_type=token&client_id=c2&redirect_uri=http%3A%2F%2Fexample.org" ++
    b!"%2Fcb%3Fx%3D1&scope=bar&state=xyz&username=u1&password=p1")
  [19, 20] 1060

/-- What is observed. -/
def e7 : Event where
  call := c7
  answer := .answered {
    statusCode := 303
    header := [
      (b!"Referrer-Policy", [b!"origin"]),
      (b!"Pragma", [b!"no-cache"]),
      (b!"Cache-Control", [b!"no-store"]),
      (b!"Location", [b!"http://example.org/cb?x=1#access_token=ExQ.xvqpE31MvqZIfQ6vRlQ9-hkVCoV" ++
        b!"7XdeASa64dDrCL90&expires_in=3600&scope=bar&state=xyz&token_type=bearer"])]
    body := [] }

/-- The server after it. -/
def s7 : Server := { server with
  accessTokens := [(b!"xvqpE31MvqZIfQ6vRlQ9-hkVCoV7XdeASa64dDrCL90", {
      clientID := b!"c2", username := b!"u1", scope := some [b!"bar"], expiresAt := 4660 * second }),
    (b!"vN7h340AhjQMP86-deu6iQmi_WslP3thhVBV7WCJYHk", {
      clientID := b!"c2", username := b!"u1", scope := some [b!"foo"], expiresAt := 4631 * second })]
  refreshTokens := [(b!"9JNseSBcf0CYN7ihPa1gYCTSm2cd8xc3QutQzO0SNNE", {
      clientID := b!"c2", username := b!"u1", scope := some [b!"foo"], expiresAt := 605832 * second }),
    (b!"k2XEDrh7DDV_NA212JyTDfNeILclV1aqJpVOsf2G6jw", {
      clientID := b!"c1", username := b!"u1", scope := some [b!"foo"], expiresAt := 605801 * second })]
  authorizationCodes := [(b!"Uxa4GkpJUEjtV7ARr4h9Mu599zwO2rndxcAYlAPtpgI", {
      clientID := b!"c2", username := b!"u1", scope := some [b!"foo", b!"bar"], expiresAt := 1610 * second,
      redirectURI := b!"http://example.org/cb?x=1", used := true })] }

theorem step7 : step ⟨false, s6⟩ c7 = (e7.answer, ⟨false, s7⟩) := by decide +kernel

theorem history7 : History server [e7, e6, e5, e4, e3, e2, e1] ⟨false, s7⟩ := by
  have h := History.next c7 history6
  rw [step7] at h
  exact h

/-- `c1` gets tokens for itself. -/
def c8 : Call := post b!"/oauth2/token" b!"c1:s1"
  (b!"grant_type=client_credentials&scope=bar")
  [21, 22, 23, 24] 1070

/-- What is observed. -/
def e8 : Event where
  call := c8
  answer := .answered {
    statusCode := 200
    header := [
      (b!"Pragma", [b!"no-cache"]),
      (b!"Cache-Control", [b!"no-store"]),
      (b!"Content-Type", [b!"application/json;charset=UTF-8"])]
    body := b!"{\"token_type\":\"bearer\",\"access_token\":\"FRY.IEbtbudfEpCoRMLWBLM6wZb1VJd" ++
      b!"4Ka93wvi5oA4urtA\",\"expires_in\":3600,\"refresh_token\":\"Fxg.U22DWtfsFROwW" ++
      b!"FF-g4QCj_kdED_SfbFXluKPJD7W_Cw\",\"scope\":\"bar\"}\n" }

/-- The server after it. -/
def s8 : Server := { server with
  accessTokens := [(b!"IEbtbudfEpCoRMLWBLM6wZb1VJd4Ka93wvi5oA4urtA", {
      clientID := b!"c1", scope := some [b!"bar"], expiresAt := 4670 * second }),
    (b!"xvqpE31MvqZIfQ6vRlQ9-hkVCoV7XdeASa64dDrCL90", {
      clientID := b!"c2", username := b!"u1", scope := some [b!"bar"], expiresAt := 4660 * second }),
    (b!"vN7h340AhjQMP86-deu6iQmi_WslP3thhVBV7WCJYHk", {
      clientID := b!"c2", username := b!"u1", scope := some [b!"foo"], expiresAt := 4631 * second })]
  refreshTokens := [(b!"U22DWtfsFROwWFF-g4QCj_kdED_SfbFXluKPJD7W_Cw", {
      clientID := b!"c1", scope := some [b!"bar"], expiresAt := 605871 * second }),
    (b!"9JNseSBcf0CYN7ihPa1gYCTSm2cd8xc3QutQzO0SNNE", {
      clientID := b!"c2", username := b!"u1", scope := some [b!"foo"], expiresAt := 605832 * second }),
    (b!"k2XEDrh7DDV_NA212JyTDfNeILclV1aqJpVOsf2G6jw", {
      clientID := b!"c1", username := b!"u1", scope := some [b!"foo"], expiresAt := 605801 * second })]
  authorizationCodes := [(b!"Uxa4GkpJUEjtV7ARr4h9Mu599zwO2rndxcAYlAPtpgI", {
      clientID := b!"c2", username := b!"u1", scope := some [b!"foo", b!"bar"], expiresAt := 1610 * second,
      redirectURI := b!"http://example.org/cb?x=1", used := true })] }

theorem step8 : step ⟨false, s7⟩ c8 = (e8.answer, ⟨false, s8⟩) := by decide +kernel

theorem history8 : History server [e8, e7, e6, e5, e4, e3, e2, e1] ⟨false, s8⟩ := by
  have h := History.next c8 history7
  rw [step8] at h
  exact h

/-- `u1` authorizes `c1`, which gets a code. -/
def c9 : Call := post b!"/oauth2/authorize" []
  (b!"response_type=code&client_id=c1&redirect_uri=http%3A%2F%2Fexample.com%" ++
    b!"2Fcb&scope=bar&username=u1&password=p1")
  [25, 26] 1080

/-- What is observed. -/
def e9 : Event where
  call := c9
  answer := .answered {
    statusCode := 303
    header := [
      (b!"Referrer-Policy", [b!"origin"]),
      (b!"Pragma", [b!"no-cache"]),
      (b!"Cache-Control", [b!"no-store"]),
      (b!"Location", [b!"http://example.com/cb?code=GRo.VMKurTonfPc7MABwM4B-2zdZ4Glr58AipFMRwlc" ++
        b!"vGrA"])]
    body := [] }

/-- The server after it. -/
def s9 : Server := { server with
  accessTokens := [(b!"IEbtbudfEpCoRMLWBLM6wZb1VJd4Ka93wvi5oA4urtA", {
      clientID := b!"c1", scope := some [b!"bar"], expiresAt := 4670 * second }),
    (b!"xvqpE31MvqZIfQ6vRlQ9-hkVCoV7XdeASa64dDrCL90", {
      clientID := b!"c2", username := b!"u1", scope := some [b!"bar"], expiresAt := 4660 * second }),
    (b!"vN7h340AhjQMP86-deu6iQmi_WslP3thhVBV7WCJYHk", {
      clientID := b!"c2", username := b!"u1", scope := some [b!"foo"], expiresAt := 4631 * second })]
  refreshTokens := [(b!"U22DWtfsFROwWFF-g4QCj_kdED_SfbFXluKPJD7W_Cw", {
      clientID := b!"c1", scope := some [b!"bar"], expiresAt := 605871 * second }),
    (b!"9JNseSBcf0CYN7ihPa1gYCTSm2cd8xc3QutQzO0SNNE", {
      clientID := b!"c2", username := b!"u1", scope := some [b!"foo"], expiresAt := 605832 * second }),
    (b!"k2XEDrh7DDV_NA212JyTDfNeILclV1aqJpVOsf2G6jw", {
      clientID := b!"c1", username := b!"u1", scope := some [b!"foo"], expiresAt := 605801 * second })]
  authorizationCodes := [(b!"VMKurTonfPc7MABwM4B-2zdZ4Glr58AipFMRwlcvGrA", {
      clientID := b!"c1", username := b!"u1", scope := some [b!"bar"], expiresAt := 1680 * second,
      redirectURI := b!"http://example.com/cb" }),
    (b!"Uxa4GkpJUEjtV7ARr4h9Mu599zwO2rndxcAYlAPtpgI", {
      clientID := b!"c2", username := b!"u1", scope := some [b!"foo", b!"bar"], expiresAt := 1610 * second,
      redirectURI := b!"http://example.org/cb?x=1", used := true })] }

theorem step9 : step ⟨false, s8⟩ c9 = (e9.answer, ⟨false, s9⟩) := by decide +kernel

theorem history9 : History server [e9, e8, e7, e6, e5, e4, e3, e2, e1] ⟨false, s9⟩ := by
  have h := History.next c9 history8
  rw [step9] at h
  exact h

/-- `c1` revokes its refresh token. -/
def c10 : Call := post b!"/oauth2/revoke" b!"c1:s1"
  (b!"token=AwQ.k2XEDrh7DDV_NA212JyTDfNeILclV1aqJpVOsf2G6jw&token_type_hint=" ++
    b!"refresh_token")
  [] 1090

/-- What is observed. -/
def e10 : Event where
  call := c10
  answer := .answered {
    statusCode := 200
    header := [
      ]
    body := [] }

/-- The server after it. -/
def s10 : Server := { server with
  accessTokens := [(b!"IEbtbudfEpCoRMLWBLM6wZb1VJd4Ka93wvi5oA4urtA", {
      clientID := b!"c1", scope := some [b!"bar"], expiresAt := 4670 * second }),
    (b!"xvqpE31MvqZIfQ6vRlQ9-hkVCoV7XdeASa64dDrCL90", {
      clientID := b!"c2", username := b!"u1", scope := some [b!"bar"], expiresAt := 4660 * second }),
    (b!"vN7h340AhjQMP86-deu6iQmi_WslP3thhVBV7WCJYHk", {
      clientID := b!"c2", username := b!"u1", scope := some [b!"foo"], expiresAt := 4631 * second })]
  refreshTokens := [(b!"U22DWtfsFROwWFF-g4QCj_kdED_SfbFXluKPJD7W_Cw", {
      clientID := b!"c1", scope := some [b!"bar"], expiresAt := 605871 * second }),
    (b!"9JNseSBcf0CYN7ihPa1gYCTSm2cd8xc3QutQzO0SNNE", {
      clientID := b!"c2", username := b!"u1", scope := some [b!"foo"], expiresAt := 605832 * second })]
  authorizationCodes := [(b!"VMKurTonfPc7MABwM4B-2zdZ4Glr58AipFMRwlcvGrA", {
      clientID := b!"c1", username := b!"u1", scope := some [b!"bar"], expiresAt := 1680 * second,
      redirectURI := b!"http://example.com/cb" }),
    (b!"Uxa4GkpJUEjtV7ARr4h9Mu599zwO2rndxcAYlAPtpgI", {
      clientID := b!"c2", username := b!"u1", scope := some [b!"foo", b!"bar"], expiresAt := 1610 * second,
      redirectURI := b!"http://example.org/cb?x=1", used := true })] }

theorem step10 : step ⟨false, s9⟩ c10 = (e10.answer, ⟨false, s10⟩) := by decide +kernel

theorem history10 : History server [e10, e9, e8, e7, e6, e5, e4, e3, e2, e1] ⟨false, s10⟩ := by
  have h := History.next c10 history9
  rw [step10] at h
  exact h


/-- The request of the second event. -/
def rq2 : AuthorizationRequest := {
  responseType := b!"code", scope := some [b!"foo", b!"bar"], clientID := b!"c2",
  redirectURI := b!"http://example.org/cb?x=1", state := b!"xyz" }

/-- The code of the second event is on record. -/
theorem code2 : Code server.config [e2, e1] x2 {
    client := b!"c2", user := b!"u1", scope := some [b!"foo", b!"bar"],
    redirectURI := b!"http://example.org/cb?x=1", expires := 1610 * second } false := by
  have h1 : ∃ res, AuthorizationCall e2 rq2 b!"u1" res := by
    refine ⟨_, (authorizationCall_asked _ _ _ _).mpr ⟨by decide +kernel, rfl⟩⟩
  obtain ⟨res, h1⟩ := h1
  exact .issued (rq := rq2) h1 rfl (by decide +kernel)

/-- The refresh token of the third event is in force after it. -/
theorem refresh3 : InForce server.config [e3, e2, e1] .refresh r3 {
    client := b!"c2", user := b!"u1", scope := some [b!"foo", b!"bar"],
    expires := 605822 * second, origin := x2.signatureString } := by
  have h1 : ∃ res, TokenCall e3 {
      grantType := b!"authorization_code", clientID := b!"c2",
      redirectURI := b!"http://example.org/cb?x=1", code := x2.string } res :=
    ⟨_, (tokenCall_asked _ _ _).mpr ⟨by decide +kernel, rfl⟩⟩
  obtain ⟨res, h1⟩ := h1
  exact .exchange h1 rfl (by decide +kernel) code2 (by decide +kernel)

/-- The refresh token of the fourth event is in force after it. -/
theorem refresh4 : InForce server.config [e4, e3, e2, e1] .refresh r4 {
    client := b!"c2", user := b!"u1", scope := some [b!"foo"], expires := 605832 * second } := by
  have h1 : ∃ res, TokenCall e4 {
      grantType := b!"refresh_token", clientID := b!"c2", scope := some [b!"foo"],
      refreshToken := r3.string } res :=
    ⟨_, (tokenCall_asked _ _ _).mpr ⟨by decide +kernel, rfl⟩⟩
  obtain ⟨res, h1⟩ := h1
  exact .refresh h1 rfl (by decide +kernel) refresh3 (by decide +kernel) (fun _ => by decide +kernel)

end OAuth2.Demo
