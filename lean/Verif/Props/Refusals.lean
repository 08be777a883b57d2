import Verif.Spec.Refusal
import Verif.Spec.Client
import Verif.Props.Tokens
import Verif.Props.Rights
import Verif.Props.Revoking
import Verif.Props.Changes
import Verif.Props.Access

/-!
C66: the error a request is refused with tells the true reason.
-/

namespace OAuth2

open Spec

set_option linter.unusedSimpArgs false

variable {s₀ : Server} {s : Shared Server} {h : List Event} {c : Call}

/-- What an answer with an error document says. -/
theorem refusedWith_iff {e : Error} (hr : e.redirectURI = []) (status : Nat) (name : Str) :
    RefusedWith (Reply.error e).answer status name ↔
      e.status.toNat = status ∧ sanitize e.name = name := by
  constructor
  · rintro ⟨res, h1, h2, h3⟩
    cases h1
    rw [error_result hr] at h2
    rw [(error_jsonMember (by rw [error_result hr]) _).1] at h3
    exact ⟨h2, h3.symm⟩
  · rintro ⟨h1, h2⟩
    exact refusedWith_error hr h1 h2

/-- A success is no refusal. -/
theorem not_refusedWith {x : Answer} (hx : ∀ res, x = .answered res → res.statusCode < 400)
    {status : Nat} (hs : 400 ≤ status) (name : Str) : ¬ RefusedWith x status name := by
  rintro ⟨res, h1, h2, _⟩
  have := hx res h1
  omega

/-- The errors the server answers with, by name. -/
def Named (e : Error) (n : Str) : Prop :=
  e.redirectURI = [] ∧ e.status.toNat = statusOf n ∧ sanitize e.name = n

theorem named_request (d : Str) : Named (invalidRequest d) b!"invalid_request" :=
  ⟨rfl, rfl, (sanitize_ascii (by decide) : sanitize b!"invalid_request" = _)⟩
theorem named_client (d : Str) : Named (invalidClient d) b!"invalid_client" :=
  ⟨rfl, rfl, (sanitize_ascii (by decide) : sanitize b!"invalid_client" = _)⟩
theorem named_grant (d : Str) : Named (invalidGrant d) b!"invalid_grant" :=
  ⟨rfl, rfl, (sanitize_ascii (by decide) : sanitize b!"invalid_grant" = _)⟩
theorem named_scope (d : Str) : Named (invalidScope d) b!"invalid_scope" :=
  ⟨rfl, rfl, (sanitize_ascii (by decide) : sanitize b!"invalid_scope" = _)⟩
theorem named_denied (d : Str) : Named (accessDenied d) b!"access_denied" :=
  ⟨rfl, rfl, (sanitize_ascii (by decide) : sanitize b!"access_denied" = _)⟩
theorem named_type (d : Str) : Named (unsupportedTokenType d) b!"unsupported_token_type" :=
  ⟨rfl, rfl, (sanitize_ascii (by decide) : sanitize b!"unsupported_token_type" = _)⟩

/-- From the outcome to the equivalence. -/
theorem refusal_iff {R : Str → Prop} {x : Answer}
    (hu : ∀ n n', R n → R n' → n = n')
    (ho : (∃ e n, x = (Reply.error e).answer ∧ Named e n ∧ R n) ∨
      ((∀ res, x = .answered res → res.statusCode < 400) ∧ ∀ n, ¬ R n))
    {status : Nat} (hs : 400 ≤ status) (name : Str) :
    RefusedWith x status name ↔ R name ∧ status = statusOf name := by
  rcases ho with ⟨e, n, rfl, ⟨h1, h2, h3⟩, h4⟩ | ⟨h1, h2⟩
  · rw [refusedWith_iff h1]
    constructor
    · rintro ⟨h5, h6⟩
      rw [h3] at h6
      subst h6
      exact ⟨h4, by rw [← h5, h2]⟩
    · rintro ⟨h5, h6⟩
      have := hu _ _ h4 h5
      subst this
      exact ⟨by rw [h2, h6], h3⟩
  · constructor
    · exact fun h => absurd h (not_refusedWith h1 hs name)
    · exact fun h => absurd h.1 (h2 name)

/-! ### Descriptions -/

theorem before_true {t u : Time} (h : t.before u = true) : t < u := of_decide_eq_true h

theorem flaw_iff (cfg : ServerConfig) (text d : Str) :
    Flaw cfg text d ↔ HS256Token.parse cfg.secret text = .error d := by
  have hsplit := fun a b => splitByte_pair_iff 0x2E text a b
  constructor
  · intro hf
    unfold HS256Token.parse
    cases hf with
    | segments hn =>
      split
      · rename_i a b hs
        obtain ⟨h1, h2, h3⟩ := (hsplit a b).mp hs
        exact absurd ⟨a, b, by simp [h1], h2, h3⟩ hn
      · rfl
    | @key a b h1 h2 h3 h4 =>
      rw [(hsplit a b).mpr ⟨by simp [h1], h2, h3⟩]
      cases hd : b64RawURLDecode a with
      | none => simp only [hd]
      | some k => exact absurd ((decode_iff_spec _ _).mp hd) (h4 k)
    | @signature a b k h1 h2 h3 h4 h5 =>
      rw [(hsplit a b).mpr ⟨by simp [h1], h2, h3⟩]
      cases hd : b64RawURLDecode b with
      | none => simp only [(decode_iff_spec _ _).mpr h4, hd]
      | some k => exact absurd ((decode_iff_spec _ _).mp hd) (h5 k)
    | @forged a b k sig h1 h2 h3 h4 h5 h6 =>
      rw [(hsplit a b).mpr ⟨by simp [h1], h2, h3⟩]
      have hv : (HS256Token.mk k sig).valid cfg.secret = false := by
        exact decide_eq_false (Ne.symm h6)
      simp [(decode_iff_spec _ _).mpr h4, (decode_iff_spec _ _).mpr h5, hv]
  · intro hp
    unfold HS256Token.parse at hp
    split at hp
    · rename_i a b hs
      obtain ⟨h1, h2, h3⟩ := (hsplit a b).mp hs
      have h1 : text = a ++ [0x2E] ++ b := by simp [h1]
      split at hp
      · rename_i hd
        cases hp
        exact .key h1 h2 h3 fun k hk => by rw [(decode_iff_spec _ _).mpr hk] at hd; cases hd
      · rename_i k hk
        split at hp
        · rename_i hd
          cases hp
          exact .signature h1 h2 h3 ((decode_iff_spec _ _).mp hk) fun k hk => by
            rw [(decode_iff_spec _ _).mpr hk] at hd; cases hd
        · rename_i sig hsig
          dsimp only at hp
          split at hp
          · rename_i hv
            cases hp
            refine .forged h1 h2 h3 ((decode_iff_spec _ _).mp hk) ((decode_iff_spec _ _).mp hsig) ?_
            intro he
            rw [show (HS256Token.mk k sig).valid cfg.secret = true from decide_eq_true he.symm] at hv
            cases hv
          · cases hp
    · rename_i hs
      cases hp
      exact .segments fun ⟨a, b, h1, h2, h3⟩ => hs a b ((hsplit a b).mpr ⟨by simp [h1], h2, h3⟩)

theorem flaw_not_signed {cfg : ServerConfig} {text d : Str} (hf : Flaw cfg text d) :
    ¬ Signed cfg text := fun ⟨t, ht⟩ => by
  rw [(flaw_iff _ _ _).mp hf] at ht; cases ht

theorem flaw_ascii {cfg : ServerConfig} {text d : Str} (hf : Flaw cfg text d) : sanitize d = d := by
  cases hf <;> exact sanitize_ascii (by decide)

theorem flaw_unique {cfg : ServerConfig} {text d d' : Str} (hf : Flaw cfg text d)
    (hf' : Flaw cfg text d') : d = d' := by
  have h1 := (flaw_iff _ _ _).mp hf
  rw [(flaw_iff _ _ _).mp hf'] at h1
  cases h1
  rfl

/-- What an answer with an error document says, with the description. -/
theorem refusedSaying_iff {e : Error} (hr : e.redirectURI = []) (status : Nat) (name d : Str) :
    RefusedSaying (Reply.error e).answer status name d ↔
      e.status.toNat = status ∧ sanitize e.name = name ∧
      ∀ text, (e.description ≠ [] ∧ text = sanitize e.description) ↔ (d ≠ [] ∧ text = d) := by
  constructor
  · rintro ⟨res, h1, h2, h3, h4⟩
    cases h1
    refine ⟨?_, ?_, fun text => ?_⟩
    · rw [error_result hr] at h2; exact h2
    · rw [(error_jsonMember (by rw [error_result hr]) _).1] at h3; exact h3.symm
    · rw [← h4 text, (error_jsonMember (by rw [error_result hr]) _).2.1]
  · rintro ⟨h1, h2, h3⟩
    refine ⟨_, rfl, ?_, ?_, fun text => ?_⟩
    · rw [error_result hr]; exact h1
    · rw [(error_jsonMember (by rw [error_result hr]) _).1]; exact h2.symm
    · rw [← h3 text, (error_jsonMember (by rw [error_result hr]) _).2.1]

/-- From the outcome to the equivalence, with descriptions. -/
theorem reason_iff {R : Str → Str → Prop} {x : Answer}
    (hu : ∀ n d n' d', R n d → R n' d' → n = n' ∧ d = d')
    (ha : ∀ n d, R n d → sanitize d = d)
    (ho : (∃ e n, x = (Reply.error e).answer ∧ Named e n ∧ R n e.description) ∨
      ((∀ res, x = .answered res → res.statusCode < 400) ∧ ∀ n d, ¬ R n d))
    {status : Nat} (hs : 400 ≤ status) (name d : Str) :
    RefusedSaying x status name d ↔ R name d ∧ status = statusOf name := by
  rcases ho with ⟨e, n, rfl, ⟨h1, h2, h3⟩, h4⟩ | ⟨h1, h2⟩
  · rw [refusedSaying_iff h1, ha _ _ h4]
    constructor
    · rintro ⟨h5, h6, h7⟩
      rw [h3] at h6
      subst h6
      have hd : e.description = d := by
        by_cases he : e.description = []
        · by_cases hd : d = []
          · rw [he, hd]
          · exact absurd he ((h7 d).mpr ⟨hd, rfl⟩).1
        · exact ((h7 e.description).mp ⟨he, rfl⟩).2
      exact ⟨hd ▸ h4, by rw [← h5, h2]⟩
    · rintro ⟨h5, h6⟩
      obtain ⟨rfl, rfl⟩ := hu _ _ _ _ h4 h5
      exact ⟨by rw [h2, h6], h3, fun _ => Iff.rfl⟩
  · constructor
    · rintro ⟨res, h3, h4, _⟩
      have := h1 res h3
      omega
    · exact fun h => absurd h.1 (h2 name d)

/-! ### The token endpoint -/

theorem Spec.TokenReason.refusal {cfg : ServerConfig} {st : Server} {rq : TokenRequest} {now : Time}
    (hcode : ∀ g g', Unused cfg h rq.code g → Unused cfg h rq.code g' → g = g')
    (hrefresh : ∀ g g', Refreshes cfg h rq.refreshToken g → Refreshes cfg h rq.refreshToken g' → g = g')
    {n d : Str} (hr : TokenReason cfg h st rq now n d) : TokenRefusal cfg h st rq now n := by
  have hgen : ∀ {t : Str} {y : HS256Token}, SameToken cfg t y → Signed cfg t :=
    fun ⟨t, ht, _⟩ => ⟨t, ht⟩
  cases hr with
  | grantType h1 => exact .grantType h1
  | unidentified h1 h2 => exact .unidentified h1 h2
  | publicClient h1 h2 h3 => exact .publicClient h1 h2 h3
  | password h1 h2 h3 => exact .password h1 h2 h3
  | passwordScope h1 h2 h3 h4 => exact .passwordScope h1 h2 h3 h4
  | clientScope h1 h2 h3 h4 h5 => exact .clientScope h1 h2 h3 h4 h5
  | forgedCode h1 h2 h3 => exact .forgedCode h1 h2 (flaw_not_signed h3)
  | unknownCode h1 h2 h3 h4 =>
    exact .code h1 h2 h3 fun ⟨c, g, k1, k2, _⟩ => h4 g ⟨c, k1, k2⟩
  | expiredCode h1 h2 h3 h4 =>
    refine .code h1 h2 (hgen h3.choose_spec.2) fun ⟨c, g, k1, k2, k3, _⟩ => ?_
    have := hcode _ _ h3 ⟨c, k1, k2⟩
    subst this
    exact absurd h4 (Int.not_lt.mpr k3)
  | codeOwner h1 h2 h3 h4 h5 =>
    refine .code h1 h2 (hgen h3.choose_spec.2) fun ⟨c, g, k1, k2, _, k3, _⟩ => ?_
    have := hcode _ _ h3 ⟨c, k1, k2⟩
    subst this
    exact h5 k3
  | codeRedirect h1 h2 h3 h4 h5 h6 =>
    refine .code h1 h2 (hgen h3.choose_spec.2) fun ⟨c, g, k1, k2, _, _, k3⟩ => ?_
    have := hcode _ _ h3 ⟨c, k1, k2⟩
    subst this
    exact h6 k3
  | forgedRefresh h1 h2 h3 => exact .forgedRefresh h1 h2 (flaw_not_signed h3)
  | unknownRefresh h1 h2 h3 h4 =>
    exact .refresh h1 h2 h3 fun g ⟨c, k1, k2, _⟩ => h4 g ⟨c, k1, k2⟩
  | expiredRefresh h1 h2 h3 h4 =>
    refine .refresh h1 h2 (hgen h3.choose_spec.2) fun g ⟨c, k1, k2, k3, _⟩ => ?_
    have := hrefresh _ _ h3 ⟨c, k1, k2⟩
    subst this
    exact absurd h4 (Int.not_lt.mpr k3)
  | refreshOwner h1 h2 h3 h4 h5 =>
    refine .refresh h1 h2 (hgen h3.choose_spec.2) fun g ⟨c, k1, k2, _, k3⟩ => ?_
    have := hrefresh _ _ h3 ⟨c, k1, k2⟩
    subst this
    exact h5 k3
  | refreshScope h1 h2 h3 h4 h5 h6 =>
    obtain ⟨c, k1, k2⟩ := h3
    exact .refreshScope h1 h2 ⟨c, k1, k2, h4, h5⟩ h6

theorem unused_unique {st : Server} {cfg : ServerConfig} (ex : Exact cfg h st) {text : Str}
    {g g' : CodeGrant} (h1 : Unused cfg h text g) (h2 : Unused cfg h text g') : g = g' := by
  obtain ⟨t, hi, x, hx, hs⟩ := h1
  obtain ⟨t', hi', x', hx', hs'⟩ := h2
  rw [hx] at hx'
  cases hx'
  have e1 := (ex.codes _ _).mpr ⟨t, g, false, hs.symm, hi, rfl⟩
  have e2 := (ex.codes _ _).mpr ⟨t', g', false, hs'.symm, hi', rfl⟩
  rw [e1] at e2
  have e3 := Option.some.inj e2
  cases g; cases g'
  simp [CodeGrant.cred] at e3 ⊢
  simp [e3]

theorem refreshes_unique {st : Server} {cfg : ServerConfig} (ex : Exact cfg h st) {text : Str}
    {g g' : Grant} (h1 : Refreshes cfg h text g) (h2 : Refreshes cfg h text g') : g = g' := by
  obtain ⟨t, hi, x, hx, hs⟩ := h1
  obtain ⟨t', hi', x', hx', hs'⟩ := h2
  rw [hx] at hx'
  cases hx'
  have e1 := (ex.refresh _ _).mpr ⟨t, g, hs.symm, hi, rfl⟩
  have e2 := (ex.refresh _ _).mpr ⟨t', g', hs'.symm, hi', rfl⟩
  rw [e1] at e2
  have e3 := Option.some.inj e2
  cases g; cases g'
  simp [Grant.cred] at e3 ⊢
  simp [e3]

theorem tokenRefusal_unique {cfg : ServerConfig} {st : Server} {rq : TokenRequest} {now : Time}
    {n n' : Str} (h1 : TokenRefusal cfg h st rq now n) (h2 : TokenRefusal cfg h st rq now n') :
    n = n' := by
  have hid : ∀ client, st.clients.get? rq.clientID = some client → client.confidential = false →
      Identified st rq.clientID rq.clientSecret :=
    fun client h1 h2 => ⟨client, h1, fun h3 => by rw [h2] at h3; cases h3⟩
  have hid' : ∀ client, st.clients.get? rq.clientID = some client →
      client.secret = rq.clientSecret → Identified st rq.clientID rq.clientSecret :=
    fun client h1 h2 => ⟨client, h1, fun _ => h2⟩
  have hgen : ∀ g, Refreshable cfg h rq.refreshToken rq.clientID now g → Signed cfg rq.refreshToken :=
    fun g ⟨_, _, ⟨t, ht, _⟩, _⟩ => ⟨t, ht⟩
  cases h1 <;> cases h2 <;> first | rfl | (simp_all; done)

theorem tokenReason_unique {cfg : ServerConfig} {st : Server} {rq : TokenRequest} {now : Time}
    (hcode : ∀ g g', Unused cfg h rq.code g → Unused cfg h rq.code g' → g = g')
    (hrefresh : ∀ g g', Refreshes cfg h rq.refreshToken g → Refreshes cfg h rq.refreshToken g' → g = g')
    {n d n' d' : Str} (h1 : TokenReason cfg h st rq now n d)
    (h2 : TokenReason cfg h st rq now n' d') : n = n' ∧ d = d' := by
  have hn := tokenRefusal_unique (h1.refusal hcode hrefresh) (h2.refusal hcode hrefresh)
  refine ⟨hn, ?_⟩
  have lt : ∀ {a b : Time}, a < b → b ≤ a → False := fun h1 h2 => absurd h1 (Int.not_lt.mpr h2)
  cases h1 with
  | expiredCode a1 a2 a3 a4 =>
    cases h2 with
    | expiredCode => rfl
    | codeOwner b1 b2 b3 b4 b5 =>
      cases hcode _ _ a3 b3
      exfalso
      first | exact lt a4 b4 | exact lt b4 a4 | exact a5 b5 | exact b5 a5 | cases hn
    | codeRedirect b1 b2 b3 b4 b5 b6 =>
      cases hcode _ _ a3 b3
      exfalso
      first | exact lt a4 b4 | exact lt b4 a4 | exact a5 b5 | exact b5 a5 | cases hn
    | _ => exfalso; simp_all
  | codeOwner a1 a2 a3 a4 a5 =>
    cases h2 with
    | expiredCode b1 b2 b3 b4 =>
      cases hcode _ _ a3 b3
      exfalso
      first | exact lt a4 b4 | exact lt b4 a4 | exact a5 b5 | exact b5 a5 | cases hn
    | codeOwner => rfl
    | codeRedirect b1 b2 b3 b4 b5 b6 =>
      cases hcode _ _ a3 b3
      exfalso
      first | exact lt a4 b4 | exact lt b4 a4 | exact a5 b5 | exact b5 a5 | cases hn
    | _ => exfalso; simp_all
  | codeRedirect a1 a2 a3 a4 a5 a6 =>
    cases h2 with
    | expiredCode b1 b2 b3 b4 =>
      cases hcode _ _ a3 b3
      exfalso
      first | exact lt a4 b4 | exact lt b4 a4 | exact a5 b5 | exact b5 a5 | cases hn
    | codeOwner b1 b2 b3 b4 b5 =>
      cases hcode _ _ a3 b3
      exfalso
      first | exact lt a4 b4 | exact lt b4 a4 | exact a5 b5 | exact b5 a5 | cases hn
    | codeRedirect => rfl
    | _ => exfalso; simp_all
  | expiredRefresh a1 a2 a3 a4 =>
    cases h2 with
    | expiredRefresh => rfl
    | refreshOwner b1 b2 b3 b4 b5 =>
      cases hrefresh _ _ a3 b3
      exfalso
      first | exact lt a4 b4 | exact lt b4 a4 | exact a5 b5 | exact b5 a5 | cases hn
    | refreshScope b1 b2 b3 b4 b5 b6 =>
      cases hrefresh _ _ a3 b3
      exfalso
      first | exact lt a4 b4 | exact lt b4 a4 | exact a5 b5 | exact b5 a5 | cases hn
    | _ => exfalso; simp_all
  | refreshOwner a1 a2 a3 a4 a5 =>
    cases h2 with
    | expiredRefresh b1 b2 b3 b4 =>
      cases hrefresh _ _ a3 b3
      exfalso
      first | exact lt a4 b4 | exact lt b4 a4 | exact a5 b5 | exact b5 a5 | cases hn
    | refreshOwner => rfl
    | refreshScope b1 b2 b3 b4 b5 b6 =>
      cases hrefresh _ _ a3 b3
      exfalso
      first | exact lt a4 b4 | exact lt b4 a4 | exact a5 b5 | exact b5 a5 | cases hn
    | _ => exfalso; simp_all
  | refreshScope a1 a2 a3 a4 a5 a6 =>
    cases h2 with
    | expiredRefresh b1 b2 b3 b4 =>
      cases hrefresh _ _ a3 b3
      exfalso
      first | exact lt a4 b4 | exact lt b4 a4 | exact a5 b5 | exact b5 a5 | cases hn
    | refreshOwner b1 b2 b3 b4 b5 =>
      cases hrefresh _ _ a3 b3
      exfalso
      first | exact lt a4 b4 | exact lt b4 a4 | exact a5 b5 | exact b5 a5 | cases hn
    | refreshScope => rfl
    | _ => exfalso; simp_all
  | forgedCode a1 a2 a3 =>
    have a4 := flaw_not_signed a3
    cases h2 with
    | forgedCode _ _ b3 => exact flaw_unique a3 b3
    | _ => exfalso; simp_all
  | forgedRefresh a1 a2 a3 =>
    have a4 := flaw_not_signed a3
    cases h2 with
    | forgedRefresh _ _ b3 => exact flaw_unique a3 b3
    | _ => exfalso; simp_all
  | _ => cases h2 <;> first | rfl | (exfalso; simp_all; done)

theorem entitled_not_refused {cfg : ServerConfig} {st : Server} {rq : TokenRequest}
    {clock : Nat → Time}
    (hg : ∀ g g', Refreshable cfg h rq.refreshToken rq.clientID (clock 0) g →
      Refreshable cfg h rq.refreshToken rq.clientID (clock 0) g' → g.scope = g'.scope)
    {n : Str} {g : Grant} (h1 : Entitled cfg h st rq clock g)
    (h2 : TokenRefusal cfg h st rq (clock 0) n) : False := by
  have hid' : ∀ client, st.clients.get? rq.clientID = some client →
      client.secret = rq.clientSecret → Identified st rq.clientID rq.clientSecret :=
    fun client h1 h2 => ⟨client, h1, fun _ => h2⟩
  have hgen : ∀ {t : Str} {y : HS256Token}, SameToken cfg t y → Signed cfg t :=
    fun ⟨t, ht, _⟩ => ⟨t, ht⟩
  cases h1 with
  | password => cases h2 <;> simp_all
  | client => cases h2 <;> simp_all
  | code k1 k2 k3 k4 k5 k6 k7 =>
    have hr : Redeemable cfg h rq.code rq.clientID rq.redirectURI (clock 0) :=
      ⟨_, _, k3, k4, k5, k6, k7⟩
    have := hgen k4
    cases h2 <;> simp_all
  | refresh k1 k2 k3 k4 k5 k6 k7 =>
    have hr : Refreshable cfg h rq.refreshToken rq.clientID (clock 0) _ := ⟨_, k3, k4, k5, k6⟩
    have := hgen k4
    cases h2 with
    | refreshScope _ _ h5 h6 => exact h6 (hg _ _ hr h5 ▸ k7)
    | refresh _ _ _ h5 => exact h5 _ hr
    | _ => simp_all

theorem refreshable_unique {st : Server} {cfg : ServerConfig} (ex : Exact cfg h st) {text id : Str}
    {now : Time} {g g' : Grant} (h1 : Refreshable cfg h text id now g)
    (h2 : Refreshable cfg h text id now g') : g.scope = g'.scope := by
  obtain ⟨t, hi, ⟨x, hx, hs⟩, _⟩ := h1
  obtain ⟨t', hi', ⟨x', hx', hs'⟩, _⟩ := h2
  rw [hx] at hx'
  cases hx'
  have e1 := (ex.refresh _ _).mpr ⟨t, g, hs.symm, hi, rfl⟩
  have e2 := (ex.refresh _ _).mpr ⟨t', g', hs'.symm, hi', rfl⟩
  rw [e1] at e2
  have := congrArg ServerCredential.scope (Option.some.inj e2)
  exact this

theorem issue_ends {st : Server} {rq : TokenRequest} (hc : AsksToken c rq) {tick : Nat}
    {cred : ServerCredential} {x : Answer}
    (hx : x = (st.issue c.local tick true cred id).1.answer) :
    x = Reply.crash.answer ∧ ¬ Enough st.config c 2 ∨
      (∃ res, x = .answered res ∧ res.statusCode = 200) ∧
        ∃ a b, Hands ⟨c, x⟩ .access a ∧ Hands ⟨c, x⟩ .refresh b := by
  unfold Server.issue at hx
  cases hm : Server.mint st.config true c.local.coins with
  | none =>
    rw [hm] at hx
    refine .inl ⟨hx, fun he => ?_⟩
    obtain ⟨a, b, h1⟩ := mint_enough he
    rw [hm] at h1
    cases h1
  | some ab =>
    obtain ⟨a, b⟩ := ab
    obtain ⟨b, rfl⟩ := Server.mint_true hm
    rw [hm] at hx
    exact .inr ⟨⟨_, hx, by rw [token_result rfl]⟩, a, b, hands_response hc hx rfl⟩

/-- A well-formed token request is refused for a reason, or the client is entitled to what it asks
for and gets it unless the random source fails. -/
theorem token_outcome {st : Server} {cfg : ServerConfig} (ex : Exact cfg h st) {rq : TokenRequest}
    (hc : AsksToken c rq) :
    (∃ e n, (step ⟨false, st⟩ c).1 = (Reply.error e).answer ∧ Named e n ∧
      TokenReason cfg h st rq (c.clock 0) n e.description) ∨
    ((∃ g, Entitled cfg h st rq c.clock g) ∧
      ((step ⟨false, st⟩ c).1 = Reply.crash.answer ∧ ¬ Enough cfg c 2 ∨
        (∃ res, (step ⟨false, st⟩ c).1 = .answered res ∧ res.statusCode = 200) ∧
        ∃ a b, Hands ⟨c, (step ⟨false, st⟩ c).1⟩ .access a ∧
          Hands ⟨c, (step ⟨false, st⟩ c).1⟩ .refresh b)) := by
  obtain ⟨r, _, _, hp, hst⟩ := step_token (s := st) hc
  have hgt : ∀ g, g ∈ [b!"password", b!"client_credentials", b!"authorization_code",
      b!"refresh_token"] ↔ knownGrantType g = true := by
    intro g
    unfold knownGrantType
    simp only [Bool.or_eq_true, or_assoc, List.mem_cons, List.not_mem_nil, or_false]
    refine ⟨?_, ?_⟩
    · rintro (h1 | h1 | h1 | h1)
      · exact .inl (decide_eq_true h1)
      · exact .inr (.inl (decide_eq_true h1))
      · exact .inr (.inr (.inl (decide_eq_true h1)))
      · exact .inr (.inr (.inr (decide_eq_true h1)))
    · rintro (h1 | h1 | h1 | h1)
      · exact .inl (of_decide_eq_true h1)
      · exact .inr (.inl (of_decide_eq_true h1))
      · exact .inr (.inr (.inl (of_decide_eq_true h1)))
      · exact .inr (.inr (.inr (of_decide_eq_true h1)))
  rw [hst]
  cases hk : knownGrantType rq.grantType with
  | false =>
    refine .inl ⟨_, _, ?_, named_request b!"unknown grant type",
      .grantType fun hm => by rw [hgt, hk] at hm; cases hm⟩
    unfold Server.tokenReply
    simp only [hp, hk, Bool.not_false, if_true]
  | true =>
  by_cases hid : Identified st rq.clientID rq.clientSecret
  case neg =>
    refine .inl ⟨_, _, ?_, named_client b!"unknown client", .unidentified ((hgt _).mpr hk) hid⟩
    unfold Server.tokenReply
    simp only [hp, hk, Bool.not_true, Bool.false_eq_true, if_false]
    cases hcl : st.clients.get? rq.clientID with
    | none => rfl
    | some client =>
      have : Server.wrongSecret client rq.clientSecret = true := by
        cases hw : Server.wrongSecret client rq.clientSecret with
        | true => rfl
        | false => exact absurd ((Server.wrongSecret_iff hcl).mp hw) hid
      simp only [this, if_true]
  rw [← hst]
  obtain ⟨client, hcl, hg⟩ := step_grant hc hid hk
  obtain ⟨client', hcl', hsec⟩ := id hid
  rw [hcl] at hcl'
  cases hcl'
  have hcases := (hgt _).mpr hk
  simp only [List.mem_cons, List.not_mem_nil, or_false] at hcases
  rcases hcases with g1 | g1 | g1 | g1
  · have hr : st.grantReply rq client c.local =
        if !st.userOK rq.username rq.password then (.error (accessDenied []), st)
        else if !st.config.allowedScope.includes rq.scope then (.error (invalidScope []), st)
        else st.issue c.local c.local.tick true
          { clientID := rq.clientID, username := rq.username, scope := rq.scope } id := by
      unfold Server.grantReply
      rw [g1]
      rfl
    rw [hg, hr]
    cases hu : st.userOK rq.username rq.password with
    | false =>
      exact .inl ⟨_, _, rfl, named_denied [], .password g1 hid fun h1 => by
        rw [(Server.userOK_iff _ _ _).mpr h1] at hu; cases hu⟩
    | true =>
      cases hs : st.config.allowedScope.includes rq.scope with
      | false =>
        exact .inl ⟨_, _, rfl, named_scope [], .passwordScope g1 hid
          ((Server.userOK_iff _ _ _).mp hu) fun h1 => by
            rw [ex.config, (C07_includes _ _).mpr h1] at hs; cases hs⟩
      | true =>
        refine .inr ⟨⟨_, .password g1 hid ((Server.userOK_iff _ _ _).mp hu)
          (by rw [← ex.config]; exact (C07_includes _ _).mp hs)⟩, ?_⟩
        rw [← ex.config]
        exact issue_ends hc rfl
  · have hr : st.grantReply rq client c.local =
        if !client.confidential then (.error (invalidClient b!"unknown client"), st)
        else if !st.config.allowedScope.includes rq.scope then (.error (invalidScope []), st)
        else st.issue c.local c.local.tick true
          { clientID := rq.clientID, scope := rq.scope } id := by
      unfold Server.grantReply
      rw [g1]
      rfl
    rw [hg, hr]
    cases hu : client.confidential with
    | false => exact .inl ⟨_, _, rfl, named_client b!"unknown client", .publicClient g1 hcl hu⟩
    | true =>
      cases hs : st.config.allowedScope.includes rq.scope with
      | false =>
        exact .inl ⟨_, _, rfl, named_scope [], .clientScope g1 hcl hu (hsec hu) fun h1 => by
            rw [ex.config, (C07_includes _ _).mpr h1] at hs; cases hs⟩
      | true =>
        refine .inr ⟨⟨_, .client g1 hcl hu (hsec hu)
          (by rw [← ex.config]; exact (C07_includes _ _).mp hs)⟩, ?_⟩
        rw [← ex.config]
        exact issue_ends hc rfl
  · rw [step_code hc hid g1]
    unfold Server.codeReply
    rw [ex.config]
    cases hx : HS256Token.parse cfg.secret rq.code with
    | error err =>
      exact .inl ⟨_, _, rfl, named_request err, .forgedCode g1 hid ((flaw_iff _ _ _).mpr hx)⟩
    | ok t =>
      have gen : Signed cfg rq.code := ⟨t, hx⟩
      have only : ∀ y g b, Code cfg h y g b → SameToken cfg rq.code y →
          st.authorizationCodes.get? t.signatureString = some (g.cred b) := by
        rintro y g b h1 ⟨t', h2, h3⟩
        rw [hx] at h2
        cases h2
        exact (ex.codes _ _).mpr ⟨y, g, b, h3.symm, h1, rfl⟩
      simp only
      cases hget : st.authorizationCodes.get? t.signatureString with
      | none =>
        exact .inl ⟨_, _, rfl, named_grant _, .unknownCode g1 hid gen fun g ⟨y, h1, h2⟩ => by
          rw [only _ _ _ h1 h2] at hget; cases hget⟩
      | some cred =>
        obtain ⟨y, g, b, hsig, hy, rfl⟩ := (ex.codes _ _).mp hget
        have same : SameToken cfg rq.code y := ⟨t, hx, hsig.symm⟩
        have eqs : ∀ y' g', Code cfg h y' g' false → SameToken cfg rq.code y' →
            g'.cred false = g.cred b := by
          intro y' g' h1 h2
          have := only _ _ _ h1 h2
          rw [hget] at this
          exact (Option.some.inj this).symm
        simp only
        cases b with
        | true =>
          refine .inl ⟨_, _, rfl, named_grant _, .unknownCode g1 hid gen fun g' ⟨y', h1, h2⟩ => ?_⟩
          have := congrArg ServerCredential.used (eqs y' g' h1 h2)
          cases this
        | false =>
          rw [if_neg (by simp [CodeGrant.cred])]
          by_cases h1 : (g.cred false).expiresAt.before (c.local.clock c.local.tick) = true
          · rw [if_pos h1]
            exact .inl ⟨_, _, rfl, named_grant _, .expiredCode g1 hid ⟨y, hy, same⟩ (before_true h1)⟩
          rw [if_neg h1]
          by_cases h2 : (g.cred false).clientID ≠ rq.clientID
          · rw [if_pos h2]
            exact .inl ⟨_, _, rfl, named_grant _, .codeOwner g1 hid ⟨y, hy, same⟩
              (Server.before_false h1) h2⟩
          rw [if_neg h2]
          by_cases h3 : (g.cred false).redirectURI ≠ rq.redirectURI
          · rw [if_pos h3]
            exact .inl ⟨_, _, rfl, named_grant _, .codeRedirect g1 hid ⟨y, hy, same⟩
              (Server.before_false h1) (Classical.not_not.mp h2) h3⟩
          rw [if_neg h3]
          refine .inr ⟨⟨_, .code g1 hid hy same (Server.before_false h1) (Classical.not_not.mp h2)
            (Classical.not_not.mp h3)⟩, ?_⟩
          rw [← ex.config]
          refine issue_ends hc (tick := c.local.tick + 1) (cred := {
            clientID := rq.clientID, username := (g.cred false).username,
            scope := (g.cred false).scope, code := t.signatureString }) ?_
          split <;> simp_all
  · rw [step_refresh hc hid g1]
    unfold Server.refreshReply
    rw [ex.config]
    cases hx : HS256Token.parse cfg.secret rq.refreshToken with
    | error err =>
      exact .inl ⟨_, _, rfl, named_request err, .forgedRefresh g1 hid ((flaw_iff _ _ _).mpr hx)⟩
    | ok t =>
      have gen : Signed cfg rq.refreshToken := ⟨t, hx⟩
      have only : ∀ y g, InForce cfg h .refresh y g → SameToken cfg rq.refreshToken y →
          st.refreshTokens.get? t.signatureString = some g.cred := by
        rintro y g h1 ⟨t', h2, h3⟩
        rw [hx] at h2
        cases h2
        exact (ex.refresh _ _).mpr ⟨y, g, h3.symm, h1, rfl⟩
      simp only
      cases hget : st.refreshTokens.get? t.signatureString with
      | none =>
        exact .inl ⟨_, _, rfl, named_grant _, .unknownRefresh g1 hid gen fun g ⟨y, h1, h2⟩ => by
          rw [only _ _ h1 h2] at hget; cases hget⟩
      | some cred =>
        obtain ⟨y, g, hsig, hy, rfl⟩ := (ex.refresh _ _).mp hget
        have same : SameToken cfg rq.refreshToken y := ⟨t, hx, hsig.symm⟩
        have eqs : ∀ y' g', InForce cfg h .refresh y' g' → SameToken cfg rq.refreshToken y' →
            g'.cred = g.cred := by
          intro y' g' h1 h2
          have := only _ _ h1 h2
          rw [hget] at this
          exact (Option.some.inj this).symm
        simp only
        by_cases h1 : g.cred.expiresAt.before (c.local.clock c.local.tick) = true
        · rw [if_pos h1]
          exact .inl ⟨_, _, rfl, named_grant _, .expiredRefresh g1 hid ⟨y, hy, same⟩ (before_true h1)⟩
        rw [if_neg h1]
        by_cases h2 : g.cred.clientID ≠ rq.clientID
        · rw [if_pos h2]
          exact .inl ⟨_, _, rfl, named_grant _, .refreshOwner g1 hid ⟨y, hy, same⟩
            (Server.before_false h1) h2⟩
        rw [if_neg h2]
        have hiff : g.cred.scope.includes (if rq.scope.empty then g.cred.scope else rq.scope) = true ↔
            Within rq.scope g.scope := by
          rw [C07_includes]
          cases he : rq.scope.empty with
          | true =>
            simp only [if_true]
            refine ⟨fun _ i hi => ?_, fun _ i hi => hi⟩
            unfold Scope.empty at he
            simp_all
          | false => exact Iff.rfl
        cases hs : g.cred.scope.includes (if rq.scope.empty then g.cred.scope else rq.scope) with
        | false =>
          simp only [hs, Bool.not_false, if_true]
          exact .inl ⟨_, _, rfl, named_scope _, 
            .refreshScope g1 hid ⟨y, hy, same⟩ (Server.before_false h1) (Classical.not_not.mp h2) fun h3 => by
            rw [hiff.mpr h3] at hs; cases hs⟩
        | true =>
          simp only [hs, Bool.not_true, Bool.false_eq_true, if_false]
          refine .inr ⟨⟨_, .refresh g1 hid hy same (Server.before_false h1)
            (Classical.not_not.mp h2) (hiff.mp hs)⟩, ?_⟩
          rw [← ex.config]
          refine issue_ends hc (tick := c.local.tick + 1) (cred := {
            clientID := rq.clientID, username := g.cred.username,
            scope := if rq.scope.empty then g.cred.scope else rq.scope }) ?_
          split <;> simp_all

/-- **C66.** A well-formed token request is refused with an error name exactly if the reason that
goes with the name is given, and with the status that belongs to the name; if there is no reason,
the tokens are handed out. -/
theorem C66_token (h0 : Started s₀) (hh : History s₀ h s) {rq : TokenRequest} (hc : AsksToken c rq) :
    (∀ status name, 400 ≤ status → (RefusedWith (step s c).1 status name ↔
      TokenRefusal s₀.config h s.st rq (c.clock 0) name ∧ status = statusOf name)) ∧
    ((∀ name, ¬ TokenRefusal s₀.config h s.st rq (c.clock 0) name) → Enough s₀.config c 2 →
      ∃ a b, Hands ⟨c, (step s c).1⟩ .access a ∧ Hands ⟨c, (step s c).1⟩ .refresh b) := by
  obtain ⟨st, rfl, ex⟩ := history_state h0 hh
  have ho := token_outcome ex hc
  refine ⟨fun status name hs => refusal_iff (fun _ _ => tokenRefusal_unique) ?_ hs name, ?_⟩
  · rcases ho with ⟨e, n, h1, h2, h3⟩ | ⟨⟨g, hg⟩, ho⟩
    · exact .inl ⟨e, n, h1, h2, h3.refusal (fun _ _ => unused_unique ex) (fun _ _ => refreshes_unique ex)⟩
    · refine .inr ⟨?_, fun n hn => entitled_not_refused (fun _ _ h1 h2 => refreshable_unique ex h1 h2) hg hn⟩
      intro res hres
      rcases ho with ⟨ho, _⟩ | ⟨⟨res', h1, h2⟩, _⟩
      · rw [ho] at hres; cases hres
      · rw [h1] at hres; cases hres; omega
  · intro hn he
    rcases ho with ⟨_, n, _, _, h1⟩ | ⟨_, ⟨_, h1⟩ | ⟨_, h1⟩⟩
    · exact absurd (h1.refusal (fun _ _ => unused_unique ex) (fun _ _ => refreshes_unique ex)) (hn n)
    · exact absurd he h1
    · exact h1

/-- **C66.** The description says what the matter is, too. -/
theorem C66_token_explained (h0 : Started s₀) (hh : History s₀ h s) {rq : TokenRequest}
    (hc : AsksToken c rq) (status : Nat) (hs : 400 ≤ status) (name description : Str) :
    RefusedSaying (step s c).1 status name description ↔
      TokenReason s₀.config h s.st rq (c.clock 0) name description ∧ status = statusOf name := by
  obtain ⟨st, rfl, ex⟩ := history_state h0 hh
  have ho := token_outcome ex hc
  refine reason_iff (fun _ _ _ _ => tokenReason_unique (fun _ _ => unused_unique ex)
    (fun _ _ => refreshes_unique ex)) (fun n d hr => ?_) ?_ hs name description
  · cases hr <;> first | exact flaw_ascii (by assumption) | exact sanitize_ascii (by decide)
  · rcases ho with ho | ⟨⟨g, hg⟩, ho⟩
    · exact .inl ho
    · refine .inr ⟨?_, fun n d hn => entitled_not_refused (fun _ _ h1 h2 => refreshable_unique ex h1 h2) hg
        (hn.refusal (fun _ _ => unused_unique ex) (fun _ _ => refreshes_unique ex))⟩
      intro res hres
      rcases ho with ⟨ho, _⟩ | ⟨⟨res', h1, h2⟩, _⟩
      · rw [ho] at hres; cases hres
      · rw [h1] at hres; cases hres; omega

/-- Non-vacuity: after the first event of the session, a wrong password is a reason to refuse, and so
is a scope beyond that of the refresh token, a text that is no refresh token, and a used-up one. -/
example : (∃ rq, AsksToken (Demo.post b!"/token" b!"c1:s1"
      b!"grant_type=password&username=u1&password=wrong" [] 1100) rq ∧
    TokenRefusal Demo.server.config [Demo.e1] Demo.s1 rq (1100 * second) b!"access_denied") ∧
    (∃ rq, AsksToken (Demo.post b!"/token" b!"c1:s1"
      (b!"grant_type=refresh_token&scope=bar&refresh_token=" ++ Demo.r1.string) [] 1100) rq ∧
    TokenRefusal Demo.server.config [Demo.e1] Demo.s1 rq (1100 * second) b!"invalid_scope") ∧
    (∃ rq, AsksToken (Demo.post b!"/token" b!"c1:s1"
      b!"grant_type=refresh_token&refresh_token=foo" [] 1100) rq ∧
    TokenRefusal Demo.server.config [Demo.e1] Demo.s1 rq (1100 * second) b!"invalid_request") ∧
    (∃ rq, AsksToken (Demo.post b!"/token" b!"c1:s1"
      (b!"grant_type=refresh_token&refresh_token=" ++ Demo.a1.string) [] 1100) rq ∧
    TokenRefusal Demo.server.config [Demo.e1] Demo.s1 rq (1100 * second) b!"invalid_grant") := by
  have demo_refresh1 : InForce Demo.server.config [Demo.e1] .refresh Demo.r1 {
      client := b!"c1", user := b!"u1", scope := some [b!"foo"], expires := 605801 * second } := by
    have h1 : ∃ res, TokenCall Demo.e1 {
        grantType := b!"password", clientID := b!"c1", clientSecret := b!"s1", username := b!"u1",
        password := b!"p1", scope := some [b!"foo"] } res :=
      ⟨_, (tokenCall_asked _ _ _).mpr ⟨by decide +kernel, rfl⟩⟩
    obtain ⟨res, h1⟩ := h1
    exact .password h1 rfl (by decide +kernel)
  refine ⟨⟨{
      grantType := b!"password", clientID := b!"c1", clientSecret := b!"s1",
      username := b!"u1", password := b!"wrong" }, by decide +kernel,
      .password rfl (by decide +kernel) (by decide +kernel)⟩,
    ⟨{
      grantType := b!"refresh_token", clientID := b!"c1", clientSecret := b!"s1",
      scope := some [b!"bar"], refreshToken := Demo.r1.string }, by decide +kernel,
      .refreshScope rfl (by decide +kernel) ⟨Demo.r1, demo_refresh1, by decide +kernel,
        by decide +kernel, rfl⟩ (by decide +kernel)⟩,
    ⟨{
      grantType := b!"refresh_token", clientID := b!"c1", clientSecret := b!"s1",
      refreshToken := b!"foo" }, by decide +kernel,
      .forgedRefresh rfl (by decide +kernel) fun ⟨t, ht⟩ => ?_⟩,
    ⟨{
      grantType := b!"refresh_token", clientID := b!"c1", clientSecret := b!"s1",
      refreshToken := Demo.a1.string }, by decide +kernel,
      .refresh rfl (by decide +kernel) ⟨Demo.a1, by decide +kernel⟩ fun g ⟨t, h1, ⟨t', h2, h3⟩, _⟩ => ?_⟩⟩
  · have : (HS256Token.parse Demo.server.config.secret b!"foo").isOk = false := by decide +kernel
    have h1 : (HS256Token.parse Demo.server.config.secret b!"foo").isOk = true := by
      show (HS256Token.parse _ _).isOk = true
      rw [ht]
      rfl
    rw [this] at h1
    cases h1
  · have h4 : HS256Token.parse Demo.server.config.secret Demo.a1.string = .ok Demo.a1 := by
      decide +kernel
    rw [h4] at h2
    cases h2
    have := (demo_inForce h1).2.2
    rw [← h3] at this
    exact absurd this (by decide +kernel)

/-- Non-vacuity: what is said of a refresh token that is expired, of another client's, and of an
access token that is presented as one; and of texts with the four flaws. -/
example : (∃ rq, AsksToken (Demo.post b!"/token" b!"c1:s1"
      (b!"grant_type=refresh_token&refresh_token=" ++ Demo.r1.string) [] 700000) rq ∧
    TokenReason Demo.server.config [Demo.e1] Demo.s1 rq (700000 * second) b!"invalid_grant"
      b!"expired refresh token") ∧
    (∃ rq, AsksToken (Demo.post b!"/token" b!"c2:"
      (b!"grant_type=refresh_token&refresh_token=" ++ Demo.r1.string) [] 1100) rq ∧
    TokenReason Demo.server.config [Demo.e1] Demo.s1 rq (1100 * second) b!"invalid_grant"
      b!"invalid refresh token ownership") ∧
    Flaw Demo.server.config b!"foo" b!"a token must have two segments separated by a dot" ∧
    Flaw Demo.server.config b!"!.foo" b!"token key is not base64 encoded" ∧
    Flaw Demo.server.config b!"foo.!" b!"token signature is not base64 encoded" ∧
    Flaw Demo.server.config b!"foo.bar" b!"invalid token supplied" := by
  have demo_refresh1 : InForce Demo.server.config [Demo.e1] .refresh Demo.r1 {
      client := b!"c1", user := b!"u1", scope := some [b!"foo"], expires := 605801 * second } := by
    have h1 : ∃ res, TokenCall Demo.e1 {
        grantType := b!"password", clientID := b!"c1", clientSecret := b!"s1", username := b!"u1",
        password := b!"p1", scope := some [b!"foo"] } res :=
      ⟨_, (tokenCall_asked _ _ _).mpr ⟨by decide +kernel, rfl⟩⟩
    obtain ⟨res, h1⟩ := h1
    exact .password h1 rfl (by decide +kernel)
  refine ⟨⟨{
      grantType := b!"refresh_token", clientID := b!"c1", clientSecret := b!"s1",
      refreshToken := Demo.r1.string }, by decide +kernel,
      .expiredRefresh rfl (by decide +kernel) ⟨Demo.r1, demo_refresh1, by decide +kernel⟩
        (by decide +kernel)⟩, ⟨{
      grantType := b!"refresh_token", clientID := b!"c2",
      refreshToken := Demo.r1.string }, by decide +kernel,
      .refreshOwner rfl (by decide +kernel) ⟨Demo.r1, demo_refresh1, by decide +kernel⟩
        (by decide +kernel) (by decide)⟩, (flaw_iff _ _ _).mpr ?_, (flaw_iff _ _ _).mpr ?_,
      (flaw_iff _ _ _).mpr ?_, (flaw_iff _ _ _).mpr ?_⟩ <;> decide +kernel

/-! ### Introspection and revocation -/

theorem managementRefusal_unique {cfg : ServerConfig} {st : Server} {hint clientID secret token : Str}
    {n n' : Str} (h1 : ManagementRefusal cfg h st hint clientID secret token n)
    (h2 : ManagementRefusal cfg h st hint clientID secret token n') : n = n' := by
  have hgen : Foreign cfg h token clientID → Signed cfg token :=
    fun ⟨_, _, _, _, ⟨t, ht, _⟩, _⟩ => ⟨t, ht⟩
  cases h1 <;> cases h2 <;> first | rfl | (simp_all; done)

theorem Spec.ManagementReason.refusal {cfg : ServerConfig} {st : Server}
    {hint clientID secret token n d : Str}
    (hr : ManagementReason cfg h st hint clientID secret token n d) :
    ManagementRefusal cfg h st hint clientID secret token n := by
  cases hr with
  | hint h1 => exact .hint h1
  | unidentified h1 h2 => exact .unidentified h1 h2
  | forged h1 h2 h3 => exact .forged h1 h2 (flaw_not_signed h3)
  | foreign h1 h2 h3 => exact .foreign h1 h2 h3

theorem managementReason_unique {cfg : ServerConfig} {st : Server}
    {hint clientID secret token n d n' d' : Str}
    (h1 : ManagementReason cfg h st hint clientID secret token n d)
    (h2 : ManagementReason cfg h st hint clientID secret token n' d') : n = n' ∧ d = d' := by
  have hn := managementRefusal_unique h1.refusal h2.refusal
  refine ⟨hn, ?_⟩
  cases h1 with
  | forged a1 a2 a3 =>
    cases h2 with
    | forged _ _ b3 => exact flaw_unique a3 b3
    | _ => cases hn
  | hint => cases h2 <;> first | rfl | cases hn
  | unidentified => cases h2 <;> first | rfl | contradiction | cases hn
  | foreign => cases h2 <;> first | rfl | contradiction | cases hn

theorem foreign_iff {st : Server} {cfg : ServerConfig} (ex : Exact cfg h st) {token clientID : Str}
    {t : HS256Token} (ht : HS256Token.parse cfg.secret token = .ok t) :
    Foreign cfg h token clientID ↔ (Server.foreign st.accessTokens t.signatureString clientID = true ∨
      Server.foreign st.refreshTokens t.signatureString clientID = true) := by
  constructor
  · rintro ⟨k, y, g, h1, ⟨t', h2, h3⟩, h4⟩
    rw [ht] at h2
    cases h2
    cases k with
    | access =>
      left
      unfold Server.foreign
      rw [(ex.access _ _).mpr ⟨y, g, h3.symm, h1, rfl⟩]
      exact decide_eq_true h4
    | refresh =>
      right
      unfold Server.foreign
      rw [(ex.refresh _ _).mpr ⟨y, g, h3.symm, h1, rfl⟩]
      exact decide_eq_true h4
  · rintro (h1 | h1)
    · unfold Server.foreign at h1
      cases hg : st.accessTokens.get? t.signatureString with
      | none => rw [hg] at h1; cases h1
      | some cred =>
        rw [hg] at h1
        obtain ⟨y, g, h2, h3, rfl⟩ := (ex.access _ _).mp hg
        exact ⟨_, y, g, h3, ⟨t, ht, h2.symm⟩, of_decide_eq_true h1⟩
    · unfold Server.foreign at h1
      cases hg : st.refreshTokens.get? t.signatureString with
      | none => rw [hg] at h1; cases h1
      | some cred =>
        rw [hg] at h1
        obtain ⟨y, g, h2, h3, rfl⟩ := (ex.refresh _ _).mp hg
        exact ⟨_, y, g, h3, ⟨t, ht, h2.symm⟩, of_decide_eq_true h1⟩

theorem hint_iff (hint : Str) :
    hint ∈ [[], b!"access_token", b!"refresh_token"] ↔
      ¬ (hint ≠ [] ∧ (!knownTokenType hint) = true) := by
  constructor
  · intro h1
    simp only [List.mem_cons, List.not_mem_nil, or_false] at h1
    rcases h1 with h | h | h <;> rw [h] <;> decide
  · intro h1
    by_cases h2 : hint = []
    · simp [h2]
    · have h3 : knownTokenType hint = true := by
        cases h3 : knownTokenType hint with
        | true => rfl
        | false => exact absurd ⟨h2, by rw [h3]; rfl⟩ h1
      unfold knownTokenType at h3
      rw [Bool.or_eq_true] at h3
      rcases h3 with h3 | h3
      · have : hint = b!"access_token" := of_decide_eq_true h3
        simp [this]
      · have : hint = b!"refresh_token" := of_decide_eq_true h3
        simp [this]

/-- What introspection and revocation have in common. -/
theorem management_outcome {st : Server} {cfg : ServerConfig} (ex : Exact cfg h st)
    {hint clientID secret token : Str} {x : Answer}
    (h1 : hint ∉ [[], b!"access_token", b!"refresh_token"] →
      x = (Reply.error (unsupportedTokenType [])).answer)
    (h2 : hint ∈ [[], b!"access_token", b!"refresh_token"] → ¬ Identified st clientID secret →
      x = (Reply.error (invalidClient b!"unknown client")).answer)
    (h3 : hint ∈ [[], b!"access_token", b!"refresh_token"] → Identified st clientID secret →
      ∀ err, HS256Token.parse cfg.secret token = .error err →
      x = (Reply.error (invalidRequest err)).answer)
    (h4 : hint ∈ [[], b!"access_token", b!"refresh_token"] → Identified st clientID secret →
      ∀ t, HS256Token.parse cfg.secret token = .ok t →
      if Server.foreign st.accessTokens t.signatureString clientID then
        x = (Reply.error (invalidClient b!"wrong client")).answer
      else if Server.foreign st.refreshTokens t.signatureString clientID then
        x = (Reply.error (invalidClient b!"wrong client")).answer
      else ∃ res, x = .answered res ∧ res.statusCode = 200) :
    (∃ e n, x = (Reply.error e).answer ∧ Named e n ∧
      ManagementReason cfg h st hint clientID secret token n e.description) ∨
    ((∃ res, x = .answered res ∧ res.statusCode = 200) ∧
      ∀ n, ¬ ManagementRefusal cfg h st hint clientID secret token n) := by
  by_cases hh : hint ∈ [[], b!"access_token", b!"refresh_token"]
  case neg => exact .inl ⟨_, _, h1 hh, named_type _, .hint hh⟩
  by_cases hid : Identified st clientID secret
  case neg => exact .inl ⟨_, _, h2 hh hid, named_client _, .unidentified hh hid⟩
  cases ht : HS256Token.parse cfg.secret token with
  | error err =>
    exact .inl ⟨_, _, h3 hh hid err ht, named_request _, .forged hh hid ((flaw_iff _ _ _).mpr ht)⟩
  | ok t =>
    have hx := h4 hh hid t ht
    by_cases hf : Foreign cfg h token clientID
    · refine .inl ⟨_, _, ?_, named_client b!"wrong client", .foreign hh hid hf⟩
      rcases (foreign_iff ex ht).mp hf with hf | hf
      · rw [if_pos hf] at hx
        exact hx
      · split at hx
        · exact hx
        · first | exact hx | (rw [if_pos hf] at hx; exact hx)
    · refine .inr ⟨?_, ?_⟩
      · rw [if_neg fun h5 => hf ((foreign_iff ex ht).mpr (.inl h5)),
          if_neg fun h5 => hf ((foreign_iff ex ht).mpr (.inr h5))] at hx
        exact hx
      · intro n hn
        have hgen : Signed cfg token := ⟨t, ht⟩
        cases hn <;> simp_all

theorem introspect_outcome {st : Server} {cfg : ServerConfig} (ex : Exact cfg h st)
    {rq : IntrospectionRequest} (hc : AsksIntrospection c rq) :
    (∃ e n, (step ⟨false, st⟩ c).1 = (Reply.error e).answer ∧ Named e n ∧
      ManagementReason cfg h st rq.tokenTypeHint rq.clientID rq.clientSecret rq.token n
        e.description) ∨
    ((∃ res, (step ⟨false, st⟩ c).1 = .answered res ∧ res.statusCode = 200) ∧
      ∀ n, ¬ ManagementRefusal cfg h st rq.tokenTypeHint rq.clientID rq.clientSecret rq.token n) := by
  obtain ⟨r, _, hp, hst⟩ := step_introspect (s := st) hc
  refine management_outcome ex ?_ ?_ ?_ ?_
  · intro hh
    rw [hst]
    unfold Server.introspectReply
    rw [hint_iff, Classical.not_not] at hh
    simp only [hp]
    rw [if_pos hh]
  · intro hh hid
    rw [hst]
    unfold Server.introspectReply
    rw [hint_iff] at hh
    simp only [hp]
    rw [if_neg hh]
    cases hcl : st.clients.get? rq.clientID with
    | none => rfl
    | some client =>
      have : Server.wrongSecret client rq.clientSecret = true := by
        cases hw : Server.wrongSecret client rq.clientSecret with
        | true => rfl
        | false => exact absurd ((Server.wrongSecret_iff hcl).mp hw) hid
      simp only [this, if_true]
  · intro hh hid err ht
    rw [hst]
    unfold Server.introspectReply
    rw [hint_iff] at hh
    simp only [hp]
    rw [if_neg hh]
    obtain ⟨client, hcl, _⟩ := id hid
    have hw := (Server.wrongSecret_iff hcl).mpr hid
    rw [ex.config]
    simp only [hcl, hw, Bool.false_eq_true, if_false, ht]
  · intro hh hid t ht
    rw [← ex.config] at ht
    rw [introspect_reply hc hh hid ht]
    split
    · rfl
    split
    · rfl
    split
    · exact ⟨_, rfl, by rw [introspection_result]⟩
    split
    · exact ⟨_, rfl, by rw [introspection_result]⟩
    · exact ⟨_, rfl, by rw [introspection_result]⟩

theorem revoke_outcome {st : Server} {cfg : ServerConfig} (ex : Exact cfg h st)
    {rq : RevocationRequest} (hc : AsksRevocation c rq) :
    (∃ e n, (step ⟨false, st⟩ c).1 = (Reply.error e).answer ∧ Named e n ∧
      ManagementReason cfg h st rq.tokenTypeHint rq.clientID rq.clientSecret rq.token n
        e.description) ∨
    ((∃ res, (step ⟨false, st⟩ c).1 = .answered res ∧ res.statusCode = 200) ∧
      ∀ n, ¬ ManagementRefusal cfg h st rq.tokenTypeHint rq.clientID rq.clientSecret rq.token n) := by
  obtain ⟨r, _, hp, hst⟩ := step_revoke (s := st) hc
  refine management_outcome ex ?_ ?_ ?_ ?_
  · intro hh
    rw [hst]
    unfold Server.revokeReply
    rw [hint_iff, Classical.not_not] at hh
    simp only [hp]
    rw [if_pos hh]
  · intro hh hid
    rw [hst]
    unfold Server.revokeReply
    rw [hint_iff] at hh
    simp only [hp]
    rw [if_neg hh]
    cases hcl : st.clients.get? rq.clientID with
    | none => rfl
    | some client =>
      have : Server.wrongSecret client rq.clientSecret = true := by
        cases hw : Server.wrongSecret client rq.clientSecret with
        | true => rfl
        | false => exact absurd ((Server.wrongSecret_iff hcl).mp hw) hid
      simp only [this, if_true]
  · intro hh hid err ht
    rw [hst]
    unfold Server.revokeReply
    rw [hint_iff] at hh
    simp only [hp]
    rw [if_neg hh]
    obtain ⟨client, hcl, _⟩ := id hid
    have hw := (Server.wrongSecret_iff hcl).mpr hid
    rw [ex.config]
    simp only [hcl, hw, Bool.false_eq_true, if_false, ht]
  · intro hh hid t ht
    rw [← ex.config] at ht
    rw [revoke_reply hc hh hid ht]
    split
    · rfl
    split
    · rfl
    · exact ⟨_, rfl, by rw [revoked_result]⟩

theorem management_iff {R : Str → Prop} {x : Answer} (hu : ∀ n n', R n → R n' → n = n')
    (ho : (∃ e n, x = (Reply.error e).answer ∧ Named e n ∧ R n) ∨
      ((∃ res, x = .answered res ∧ res.statusCode = 200) ∧ ∀ n, ¬ R n)) :
    (∀ status name, 400 ≤ status → (RefusedWith x status name ↔ R name ∧ status = statusOf name)) ∧
    ((∀ name, ¬ R name) → ∃ res, x = .answered res ∧ res.statusCode = 200) := by
  refine ⟨fun status name hs => refusal_iff hu ?_ hs name, ?_⟩
  · rcases ho with ho | ⟨⟨res, h1, h2⟩, h3⟩
    · exact .inl ho
    · refine .inr ⟨fun res' hr => ?_, h3⟩
      rw [h1] at hr
      cases hr
      omega
  · intro hn
    rcases ho with ⟨_, n, _, _, h1⟩ | ⟨h1, _⟩
    · exact absurd h1 (hn n)
    · exact h1

theorem management_refusal {cfg : ServerConfig} {st : Server} {hint clientID secret token : Str}
    {x : Answer}
    (ho : (∃ e n, x = (Reply.error e).answer ∧ Named e n ∧
        ManagementReason cfg h st hint clientID secret token n e.description) ∨
      ((∃ res, x = .answered res ∧ res.statusCode = 200) ∧
        ∀ n, ¬ ManagementRefusal cfg h st hint clientID secret token n)) :
    (∃ e n, x = (Reply.error e).answer ∧ Named e n ∧
        ManagementRefusal cfg h st hint clientID secret token n) ∨
      ((∃ res, x = .answered res ∧ res.statusCode = 200) ∧
        ∀ n, ¬ ManagementRefusal cfg h st hint clientID secret token n) :=
  ho.imp (fun ⟨e, n, h1, h2, h3⟩ => ⟨e, n, h1, h2, h3.refusal⟩) id

theorem management_reason {cfg : ServerConfig} {st : Server} {hint clientID secret token : Str}
    {x : Answer}
    (ho : (∃ e n, x = (Reply.error e).answer ∧ Named e n ∧
        ManagementReason cfg h st hint clientID secret token n e.description) ∨
      ((∃ res, x = .answered res ∧ res.statusCode = 200) ∧
        ∀ n, ¬ ManagementRefusal cfg h st hint clientID secret token n))
    {status : Nat} (hs : 400 ≤ status) (name d : Str) :
    RefusedSaying x status name d ↔
      ManagementReason cfg h st hint clientID secret token name d ∧ status = statusOf name := by
  refine reason_iff (fun _ _ _ _ => managementReason_unique) (fun n d hr => ?_) ?_ hs name d
  · cases hr <;> first | exact flaw_ascii (by assumption) | exact sanitize_ascii (by decide)
  · rcases ho with ho | ⟨⟨res, h1, h2⟩, h3⟩
    · exact .inl ho
    · refine .inr ⟨fun res' hr => ?_, fun n d hn => h3 n hn.refusal⟩
      rw [h1] at hr
      cases hr
      omega

/-- **C66.** A well-formed introspection request is refused with an error name exactly if the reason
that goes with the name is given, and with the status that belongs to the name; otherwise it is
answered with success. -/
theorem C66_introspection (h0 : Started s₀) (hh : History s₀ h s) {rq : IntrospectionRequest}
    (hc : AsksIntrospection c rq) :
    (∀ status name, 400 ≤ status → (RefusedWith (step s c).1 status name ↔
      ManagementRefusal s₀.config h s.st rq.tokenTypeHint rq.clientID rq.clientSecret rq.token name ∧
        status = statusOf name)) ∧
    ((∀ name, ¬ ManagementRefusal s₀.config h s.st rq.tokenTypeHint rq.clientID rq.clientSecret
        rq.token name) →
      ∃ res, (step s c).1 = .answered res ∧ res.statusCode = 200) := by
  obtain ⟨st, rfl, ex⟩ := history_state h0 hh
  exact management_iff (fun _ _ => managementRefusal_unique) (management_refusal (introspect_outcome ex hc))

/-- **C66.** The same of revocation requests. -/
theorem C66_revocation (h0 : Started s₀) (hh : History s₀ h s) {rq : RevocationRequest}
    (hc : AsksRevocation c rq) :
    (∀ status name, 400 ≤ status → (RefusedWith (step s c).1 status name ↔
      ManagementRefusal s₀.config h s.st rq.tokenTypeHint rq.clientID rq.clientSecret rq.token name ∧
        status = statusOf name)) ∧
    ((∀ name, ¬ ManagementRefusal s₀.config h s.st rq.tokenTypeHint rq.clientID rq.clientSecret
        rq.token name) →
      ∃ res, (step s c).1 = .answered res ∧ res.statusCode = 200) := by
  obtain ⟨st, rfl, ex⟩ := history_state h0 hh
  exact management_iff (fun _ _ => managementRefusal_unique) (management_refusal (revoke_outcome ex hc))

/-- **C66.** The description says what the matter is, too. -/
theorem C66_introspection_explained (h0 : Started s₀) (hh : History s₀ h s)
    {rq : IntrospectionRequest} (hc : AsksIntrospection c rq) (status : Nat) (hs : 400 ≤ status)
    (name description : Str) :
    RefusedSaying (step s c).1 status name description ↔
      ManagementReason s₀.config h s.st rq.tokenTypeHint rq.clientID rq.clientSecret rq.token name
        description ∧ status = statusOf name := by
  obtain ⟨st, rfl, ex⟩ := history_state h0 hh
  exact management_reason (introspect_outcome ex hc) hs name description

/-- **C66.** The same of revocation requests. -/
theorem C66_revocation_explained (h0 : Started s₀) (hh : History s₀ h s)
    {rq : RevocationRequest} (hc : AsksRevocation c rq) (status : Nat) (hs : 400 ≤ status)
    (name description : Str) :
    RefusedSaying (step s c).1 status name description ↔
      ManagementReason s₀.config h s.st rq.tokenTypeHint rq.clientID rq.clientSecret rq.token name
        description ∧ status = statusOf name := by
  obtain ⟨st, rfl, ex⟩ := history_state h0 hh
  exact management_reason (revoke_outcome ex hc) hs name description

/-- Non-vacuity: after the first event of the session, `c2` has no right to introspect or revoke the
access token of `c1`, an unknown hint is refused, and a wrong secret. -/
example : AsksIntrospection (Demo.post b!"/introspect" b!"c2:" (b!"token=" ++ Demo.a1.string) [] 1100) {
      token := Demo.a1.string, clientID := b!"c2" } ∧
    ManagementRefusal Demo.server.config [Demo.e1] Demo.s1 [] b!"c2" [] Demo.a1.string
      b!"invalid_client" ∧
    AsksRevocation (Demo.post b!"/revoke" b!"c1:s1" b!"token=x&token_type_hint=foo" [] 1100) {
      token := b!"x", tokenTypeHint := b!"foo", clientID := b!"c1", clientSecret := b!"s1" } ∧
    ManagementRefusal Demo.server.config [Demo.e1] Demo.s1 b!"foo" b!"c1" b!"s1" b!"x"
      b!"unsupported_token_type" ∧
    ManagementRefusal Demo.server.config [Demo.e1] Demo.s1 b!"access_token" b!"c1" b!"wrong"
      Demo.a1.string b!"invalid_client" :=
  ⟨by decide +kernel, .foreign (by decide) (by decide +kernel) ⟨_, _, _, demo_access1, by decide +kernel,
    by decide⟩, by decide +kernel, .hint (by decide), .unidentified (by decide) (by decide +kernel)⟩

/-! ### The authorization endpoint -/

theorem responseType_iff (t : Str) :
    t ∈ [b!"token", b!"code"] ↔ knownResponseType t = true := by
  unfold knownResponseType
  simp only [Bool.or_eq_true, List.mem_cons, List.not_mem_nil, or_false]
  exact ⟨Or.imp decide_eq_true decide_eq_true, Or.imp of_decide_eq_true of_decide_eq_true⟩

theorem Spec.DirectReason.refusal {st : Server} {rq : AuthorizationRequest} {n d : Str}
    (hr : DirectReason st rq n d) : DirectRefusal st rq n := by
  cases hr with
  | responseType h1 => exact .responseType h1
  | client h1 h2 => exact .client h1 h2
  | redirectURI h1 h2 h3 => exact .redirectURI h1 h2 h3

theorem directReason_unique {st : Server} {rq : AuthorizationRequest} {n d n' d' : Str}
    (h1 : DirectReason st rq n d) (h2 : DirectReason st rq n' d') : n = n' ∧ d = d' := by
  cases h1 <;> cases h2 <;> first | exact ⟨rfl, rfl⟩ | (simp_all; done)

theorem directRefusal_unique {st : Server} {rq : AuthorizationRequest} {n n' : Str}
    (h1 : DirectRefusal st rq n) (h2 : DirectRefusal st rq n') : n = n' := by
  cases h1 <;> cases h2 <;> first | rfl | (simp_all; done)

/-- A well-formed authorization request is refused directly, or its client and redirect URI are
registered. -/
theorem visit_outcome {st : Server} {rq : AuthorizationRequest} {r : Request} {l : Local}
    (hp : parseAuthorizationRequest r = .ok rq) :
    (∃ e n, (st.authorizeReply r l).1 = .error e ∧ Named e n ∧ DirectReason st rq n e.description) ∨
    ((∀ n, ¬ DirectRefusal st rq n) ∧ rq.responseType ∈ [b!"token", b!"code"] ∧
      ∃ client, st.clients.get? rq.clientID = some client ∧ client.redirectURI = rq.redirectURI) := by
  unfold Server.authorizeReply
  simp only [hp]
  cases hk : knownResponseType rq.responseType with
  | false =>
    exact .inl ⟨_, _, rfl, named_request _, .responseType fun hm => by
      rw [responseType_iff, hk] at hm; cases hm⟩
  | true =>
    have hm := (responseType_iff _).mpr hk
    simp only [Bool.not_true, Bool.false_eq_true, if_false]
    cases hcl : st.clients.get? rq.clientID with
    | none => exact .inl ⟨_, _, rfl, named_client _, .client hm hcl⟩
    | some client =>
      simp only
      by_cases hr : client.redirectURI = rq.redirectURI
      · exact .inr ⟨fun n hn => by cases hn <;> simp_all, hm, client, rfl, hr⟩
      · rw [if_pos hr]
        exact .inl ⟨_, _, rfl, named_request _, .redirectURI hm hcl hr⟩

theorem redirect_status {p : Str} {m : GoMap Str} {b : Bool} {L : Str}
    (hL : redirectLocation p m b = some L) :
    (redirectTo {} p m b).result.statusCode = 303 := (redirectTo_result (h := []) rfl hL).2.2

/-- The error a redirect reports. -/
theorem redirectedWith_iff {rq : AuthorizationRequest} {m : GoMap Str} {L : Str}
    (ht : rq.responseType ∈ [b!"token", b!"code"])
    (hp : m.keys.Nodup) (hne : m ≠ [])
    (hL : redirectLocation rq.redirectURI m (rq.responseType = TokenResponseType) = some L)
    {x : Answer} (hx : x = .answered
      (redirectTo {} rq.redirectURI m (rq.responseType = TokenResponseType)).result) (name : Str) :
    RedirectedWith x rq name ↔ m.get? b!"error" = some name := by
  obtain ⟨hl, _, hs⟩ := redirectTo_result (h := []) rfl hL
  subst hx
  unfold RedirectedWith
  simp only [List.mem_cons, List.not_mem_nil, or_false] at ht
  rcases ht with ht | ht
  · have htt : decide (rq.responseType = TokenResponseType) = true := decide_eq_true ht
    have hno : rq.responseType ≠ b!"code" := by rw [ht]; decide
    rw [htt] at hL hl hs ⊢
    constructor
    · rintro ⟨res, h1, _, ⟨_, h2⟩ | ⟨h2, _⟩⟩
      · cases h1
        exact (fragmentParameter_iff hp hne hL hl _ _).mp h2
      · exact absurd h2 hno
    · exact fun h1 => ⟨_, rfl, hs, .inl ⟨ht, (fragmentParameter_iff hp hne hL hl _ _).mpr h1⟩⟩
  · have htt : decide (rq.responseType = TokenResponseType) = false :=
      decide_eq_false (by rw [ht]; decide)
    have hno : rq.responseType ≠ b!"token" := by rw [ht]; decide
    rw [htt] at hL hl hs ⊢
    constructor
    · rintro ⟨res, h1, _, ⟨h2, _⟩ | ⟨_, h2⟩⟩
      · exact absurd h2 hno
      · cases h1
        exact (addedParameter_iff hp hne hL hl _ _).mp h2
    · exact fun h1 => ⟨_, rfl, hs, .inr ⟨ht, (addedParameter_iff hp hne hL hl _ _).mpr h1⟩⟩

theorem not_redirectedWith {x : Answer} (hx : ∀ res, x = .answered res → res.statusCode ≠ 303)
    (rq : AuthorizationRequest) (name : Str) : ¬ RedirectedWith x rq name :=
  fun ⟨res, h1, h2, _⟩ => hx res h1 h2

theorem step_visit {st : Server} {rq : AuthorizationRequest} (hc : VisitsAuthorization c rq) :
    ∃ r, c.op = .serve r ∧ Server.lastSegment r.path = b!"authorize" ∧
      parseAuthorizationRequest r = .ok rq ∧
      (step ⟨false, st⟩ c).1 = (st.authorizeReply r c.local).1.answer := by
  obtain ⟨r, h1, h2, h3⟩ := hc
  rw [lastSegment_iff] at h2
  refine ⟨r, h1, h2, h3, ?_⟩
  rw [step_serve h1]
  have : st.handle r c.local = st.authorizeReply r c.local := by
    unfold Server.handle
    simp only [h2]
    rfl
  rw [this]

/-- What happens to a well-formed authorization request of a registered client with its redirect
URI. -/
theorem submit_outcome {st : Server} {cfg : ServerConfig} (ex : Exact cfg h st)
    {rq : AuthorizationRequest} {r : Request} (hp : parseAuthorizationRequest r = .ok rq)
    (hpath : Server.lastSegment r.path = b!"authorize")
    (hd : ∀ n, ¬ DirectRefusal st rq n) (ht : rq.responseType ∈ [b!"token", b!"code"])
    {client : ServerEntity} (hcl : st.clients.get? rq.clientID = some client)
    (hr : client.redirectURI = rq.redirectURI) {x : Answer}
    (hx : x = (st.authorizeReply r c.local).1.answer) :
    (r.method = b!"GET" ∧ x = Reply.notice.answer) ∨
    (r.method ≠ b!"GET" ∧ ((∃ n, (∃ res, x = .answered res ∧ res.statusCode = 303) ∧
        (∀ n', RedirectedWith x rq n' ↔ n' = n) ∧
        RedirectedRefusal cfg st rq ((r.parseForm.1.postForm.getD []).get b!"username")
          ((r.parseForm.1.postForm.getD []).get b!"password") n) ∨
      (Within rq.scope cfg.allowedScope ∧ Password st ((r.parseForm.1.postForm.getD []).get b!"username")
          ((r.parseForm.1.postForm.getD []).get b!"password") ∧
        (∀ n, ¬ RedirectedWith x rq n) ∧ ∀ res, x = .answered res → res.statusCode = 303))) := by
  have hk := (responseType_iff _).mp ht
  have hf : Server.AuthorizationFor st r rq :=
    ⟨hpath, hp, by simpa [TokenResponseType, CodeResponseType] using ht, client, hcl, hr⟩
  unfold Server.authorizeReply at hx
  simp only [hp, hk, Bool.not_true, Bool.false_eq_true, if_false, hcl, hr, ne_eq, not_true_eq_false] at hx
  by_cases hm : r.method = b!"GET"
  · rw [if_pos hm] at hx
    exact .inl ⟨hm, hx⟩
  rw [if_neg hm] at hx
  refine .inr ⟨hm, ?_⟩
  have report : ∀ err, err = invalidScope [] ∨ err = accessDenied [] →
      x = (Reply.error (err.setRedirect rq.redirectURI rq.state
        (decide (rq.responseType = TokenResponseType)))).answer →
      (∃ res, x = .answered res ∧ res.statusCode = 303) ∧
      ∀ n', RedirectedWith x rq n' ↔ n' = err.name := by
    intro err herr hx
    obtain ⟨e', L, he', hne, hL, hans, _, _, hs⟩ := error_location hf herr
    rw [← he', hans] at hx
    refine ⟨⟨_, hx, hs⟩, fun n' => ?_⟩
    rw [redirectedWith_iff ht e'.map_nodup hne hL hx]
    have : e'.map.get? b!"error" = some err.name := by
      rw [he']
      rcases herr with rfl | rfl <;> rfl
    rw [this]
    exact ⟨fun h1 => (Option.some.inj h1).symm, fun h1 => by rw [h1]⟩
  cases hs : st.config.allowedScope.includes rq.scope with
  | false =>
    rw [hs] at hx
    simp only [Bool.not_false, if_true] at hx
    obtain ⟨h1, h2⟩ := report _ (.inl rfl) hx
    exact .inl ⟨_, h1, h2, .scope hd fun h1 => by
      rw [ex.config, (C07_includes _ _).mpr h1] at hs; cases hs⟩
  | true =>
    have hw : Within rq.scope cfg.allowedScope := by
      rw [← ex.config]; exact (C07_includes _ _).mp hs
    rw [hs] at hx
    simp only [Bool.not_true, Bool.false_eq_true, if_false] at hx
    cases hu : st.userOK ((r.parseForm.1.postForm.getD []).get b!"username")
        ((r.parseForm.1.postForm.getD []).get b!"password") with
    | false =>
      rw [hu] at hx
      simp only [Bool.not_false, if_true] at hx
      obtain ⟨h1, h2⟩ := report _ (.inr rfl) hx
      exact .inl ⟨_, h1, h2, .denied hd hw fun h1 => by
        rw [(Server.userOK_iff _ _ _).mpr h1] at hu; cases hu⟩
    | true =>
      rw [hu] at hx
      simp only [Bool.not_true, Bool.false_eq_true, if_false, decide_eq_true_eq] at hx
      refine .inr ⟨hw, (Server.userOK_iff _ _ _).mp hu, ?_⟩
      have crash : x = Reply.crash.answer →
          (∀ n, ¬ RedirectedWith x rq n) ∧ ∀ res, x = .answered res → res.statusCode = 303 := by
        rintro rfl
        exact ⟨fun n => (fun ⟨_, h1, _⟩ => nomatch h1), fun _ h1 => nomatch h1⟩
      by_cases htt : rq.responseType = TokenResponseType
      · rw [if_pos htt] at hx
        unfold Server.issue at hx
        cases hmint : Server.mint st.config false c.local.coins with
        | none => rw [hmint] at hx; exact crash hx
        | some ab =>
          obtain ⟨a, b⟩ := ab
          have hb := Server.mint_false hmint
          subst hb
          rw [hmint] at hx
          simp only at hx
          obtain ⟨tr, L, htr, hL, hans, _, _, hs3⟩ := implicit_location (a := a) st.config hf
          rw [← htr, hans] at hx
          refine ⟨fun n => ?_, fun res h1 => by rw [hx] at h1; cases h1; exact hs3⟩
          have hd' : decide (rq.responseType = TokenResponseType) = true := decide_eq_true htt
          rw [redirectedWith_iff ht tr.map_nodup (by simp [TokenResponse.map]) (by rw [hd']; exact hL)
            (by rw [hd']; exact hx), tr.map_error]
          exact fun h => nomatch h
      · rw [if_neg htt] at hx
        cases hgen : Server.gen st.config c.local.coins with
        | none => rw [hgen] at hx; exact crash hx
        | some yx =>
          obtain ⟨y, rest⟩ := yx
          rw [hgen] at hx
          simp only at hx
          obtain ⟨cr, L, hcr, hL, hans, _, _, hs3⟩ := code_location y.string hf
          rw [← hcr, hans] at hx
          refine ⟨fun n => ?_, fun res h1 => by rw [hx] at h1; cases h1; exact hs3⟩
          have hd' : decide (rq.responseType = TokenResponseType) = false := decide_eq_false htt
          rw [redirectedWith_iff ht cr.map_nodup (by simp [CodeResponse.map]) (by rw [hd']; exact hL)
            (by rw [hd']; exact hx), cr.map_none (by decide) (by decide)]
          exact fun h => nomatch h

/-- **C66.** A well-formed authorization request, with any method, is refused directly (without a
redirect) exactly if its response type, its client or its redirect URI is not one the server knows,
and the error tells which. -/
theorem C66_visit (h0 : Started s₀) (hh : History s₀ h s) {rq : AuthorizationRequest}
    (hc : VisitsAuthorization c rq) :
    ∀ status name, 400 ≤ status → (RefusedWith (step s c).1 status name ↔
      DirectRefusal s.st rq name ∧ status = statusOf name) := by
  obtain ⟨st, rfl, ex⟩ := history_state h0 hh
  obtain ⟨r, hop, hpath, hp, hx⟩ := step_visit (st := st) hc
  intro status name hs
  refine refusal_iff (fun _ _ => directRefusal_unique) ?_ hs name
  rcases visit_outcome (st := st) (l := c.local) hp with ⟨e, n, h1, h2, h3⟩ | ⟨hd, ht, client, hcl, hr⟩
  · exact .inl ⟨e, n, by rw [hx, h1], h2, h3.refusal⟩
  · refine .inr ⟨fun res hres => ?_, hd⟩
    rcases submit_outcome ex hp hpath hd ht hcl hr hx with
      ⟨_, h1⟩ | ⟨_, ⟨n, ⟨res', h1, h2⟩, _⟩ | ⟨_, _, _, h1⟩⟩
    · rw [h1] at hres
      cases hres
      rw [notice_result]
      decide
    · rw [h1] at hres
      cases hres
      omega
    · have := h1 res hres
      omega

/-- **C66.** The description says what the matter is, too. -/
theorem C66_visit_explained (h0 : Started s₀) (hh : History s₀ h s) {rq : AuthorizationRequest}
    (hc : VisitsAuthorization c rq) :
    ∀ status name description, 400 ≤ status → (RefusedSaying (step s c).1 status name description ↔
      DirectReason s.st rq name description ∧ status = statusOf name) := by
  obtain ⟨st, rfl, ex⟩ := history_state h0 hh
  obtain ⟨r, hop, hpath, hp, hx⟩ := step_visit (st := st) hc
  intro status name description hs
  refine reason_iff (fun _ _ _ _ => directReason_unique) (fun n d hr => ?_) ?_ hs name description
  · cases hr <;> exact sanitize_ascii (by decide)
  rcases visit_outcome (st := st) (l := c.local) hp with ⟨e, n, h1, h2, h3⟩ | ⟨hd, ht, client, hcl, hr⟩
  · exact .inl ⟨e, n, by rw [hx, h1], h2, h3⟩
  · refine .inr ⟨fun res hres => ?_, fun n d hn => hd n hn.refusal⟩
    rcases submit_outcome ex hp hpath hd ht hcl hr hx with
      ⟨_, h1⟩ | ⟨_, ⟨n, ⟨res', h1, h2⟩, _⟩ | ⟨_, _, _, h1⟩⟩
    · rw [h1] at hres
      cases hres
      rw [notice_result]
      decide
    · rw [h1] at hres
      cases hres
      omega
    · have := h1 res hres
      omega

/-- **C66.** A submitted authorization request is refused by a redirect to the client with an error
name exactly if the request is one that must not be refused directly and the reason that goes with
the name is given; if there is no reason to refuse it, the token or code is handed out. -/
theorem C66_submit (h0 : Started s₀) (hh : History s₀ h s) {rq : AuthorizationRequest} {u p : Str}
    (hc : AsksAuthorization c rq u p) :
    (∀ name, RedirectedWith (step s c).1 rq name ↔
      RedirectedRefusal s₀.config s.st rq u p name) ∧
    ((∀ name, ¬ DirectRefusal s.st rq name ∧ ¬ RedirectedRefusal s₀.config s.st rq u p name) →
      Enough s₀.config c 1 →
      (∃ a, Hands ⟨c, (step s c).1⟩ .access a) ∨ ∃ x, HandsCode ⟨c, (step s c).1⟩ x) := by
  obtain ⟨st, rfl, ex⟩ := history_state h0 hh
  have hv : VisitsAuthorization c rq := by
    obtain ⟨r, h1, h2, _, h3, _⟩ := hc
    exact ⟨r, h1, h2, h3⟩
  obtain ⟨r, hop, hpath, hp, hx⟩ := step_visit (st := st) hv
  have hsub := hc
  obtain ⟨r', h1, h2, hm, h3, hu, hpw⟩ := hsub
  rw [hop] at h1
  cases h1
  rcases visit_outcome (st := st) (l := c.local) hp with ⟨e, n, h1, ⟨h2, h3, _⟩, h4⟩ | ⟨hd, ht, client, hcl, hr⟩
  · have hno : ∀ name, ¬ RedirectedRefusal s₀.config st rq u p name := by
      intro name hn
      cases hn with
      | scope h5 => exact h5 _ h4.refusal
      | denied h5 => exact h5 _ h4.refusal
    refine ⟨fun name => ⟨fun h5 => ?_, fun h5 => absurd h5 (hno name)⟩, fun h5 => absurd h4.refusal (h5 n).1⟩
    refine absurd h5 (not_redirectedWith (fun res hres => ?_) rq name)
    rw [hx, h1] at hres
    cases hres
    rw [error_result h2]
    simp only
    rw [h3]
    unfold statusOf
    repeat' split
    all_goals decide
  · have hu' : ∀ {n}, RedirectedRefusal s₀.config st rq u p n →
        ∀ n', RedirectedRefusal s₀.config st rq u p n' → n' = n := by
      intro n h1 n' h2
      cases h1 <;> cases h2 <;> first | rfl | (simp_all; done)
    rcases submit_outcome ex hp hpath hd ht hcl hr hx with
      ⟨h1, _⟩ | ⟨_, ⟨n, _, h1, h2⟩ | ⟨h1, h2, h3, _⟩⟩
    · exact absurd h1 hm
    · rw [← hu, ← hpw] at h2
      refine ⟨fun name => ?_, fun h5 => absurd h2 (h5 n).2⟩
      rw [h1 name]
      exact ⟨fun h3 => by rw [h3]; exact h2, fun h3 => hu' h2 _ h3⟩
    · rw [← hu, ← hpw] at h2
      refine ⟨fun name => ⟨fun h5 => absurd h5 (h3 name), fun h5 => ?_⟩, fun _ he => ?_⟩
      · cases h5 with
        | scope _ h5 => exact absurd h1 h5
        | denied _ _ h5 => exact absurd h2 h5
      · have hg := C51_authorization_granted h0 hh hc hcl hr h2 h1 he
        simp only [List.mem_cons, List.not_mem_nil, or_false] at ht
        rcases ht with ht | ht
        · exact .inl (hg.1 ht)
        · exact .inr (hg.2 ht)

/-- Non-vacuity: an unknown client and a wrong redirect URI are refused directly; a scope that is not
allowed and a wrong password by a redirect. -/
example : DirectRefusal Demo.server { responseType := b!"code", clientID := b!"c3" } b!"invalid_client" ∧
    DirectRefusal Demo.server {
      responseType := b!"code", clientID := b!"c1", redirectURI := b!"http://evil.com/" }
      b!"invalid_request" ∧
    RedirectedRefusal Demo.server.config Demo.server {
      responseType := b!"code", clientID := b!"c1", redirectURI := b!"http://example.com/cb",
      scope := some [b!"baz"] } b!"u1" b!"p1" b!"invalid_scope" ∧
    RedirectedRefusal Demo.server.config Demo.server {
      responseType := b!"token", clientID := b!"c1", redirectURI := b!"http://example.com/cb",
      scope := some [b!"foo"] } b!"u1" b!"p2" b!"access_denied" ∧
    AsksAuthorization (Demo.post b!"/authorize" [] (b!"response_type=token&client_id=c1&scope=foo" ++
        b!"&redirect_uri=http%3A%2F%2Fexample.com%2Fcb&username=u1&password=p2") [] 1100) {
      responseType := b!"token", clientID := b!"c1", redirectURI := b!"http://example.com/cb",
      scope := some [b!"foo"] } b!"u1" b!"p2" := by
  have hd : ∀ t sc n, t ∈ [b!"token", b!"code"] → ¬ DirectRefusal Demo.server {
      responseType := t, clientID := b!"c1", redirectURI := b!"http://example.com/cb",
      scope := sc } n := by
    intro t sc n ht hn
    cases hn with
    | responseType h1 => exact h1 ht
    | client _ h1 =>
      have h1 : Demo.server.clients.get? b!"c1" = none := h1
      exact absurd h1 (by decide +kernel)
    | redirectURI _ h1 h2 =>
      have h3 : Demo.server.clients.get? b!"c1" = some { secret := b!"s1", redirectURI := b!"http://example.com/cb", confidential := true } := by
        decide +kernel
      rw [h3] at h1
      cases h1
      exact h2 rfl
  exact ⟨.client (by decide) (by decide +kernel),
    .redirectURI (client := { secret := b!"s1", redirectURI := b!"http://example.com/cb", confidential := true })
      (by decide) (by decide +kernel) (by decide),
    .scope (fun n => hd _ _ n (by decide)) (by decide +kernel),
    .denied (fun n => hd _ _ n (by decide)) (by decide +kernel) (by decide +kernel),
    by decide +kernel⟩

/-! ### Malformed requests -/

/-- **C66.** A request that is not well-formed is refused with `invalid_request`, and changes
nothing. -/
theorem C66_malformed (st : Server) (hc : Malformed c) :
    RefusedWith (step ⟨false, st⟩ c).1 400 b!"invalid_request" ∧
      (step ⟨false, st⟩ c).2 = ⟨false, st⟩ := by
  obtain ⟨r, hop, h⟩ := hc
  simp only [lastSegment_iff] at h
  rw [step_serve hop]
  suffices hs : ∃ d, st.handle r c.local = (.error (invalidRequest d), st) by
    obtain ⟨d, hs⟩ := hs
    rw [hs]
    exact ⟨refused_request d, rfl⟩
  unfold Server.handle
  rcases h with ⟨h1, h2⟩ | ⟨h1, h2⟩ | ⟨h1, h2⟩ | ⟨h1, h2⟩ <;> simp only [h1]
  · cases hp : parseAuthorizationRequest r with
    | ok rq => exact absurd hp (h2 rq)
    | error e =>
      obtain ⟨d, rfl⟩ := Server.parseAuthorizationRequest_error hp
      refine ⟨d, ?_⟩
      show st.authorizeReply r c.local = _
      unfold Server.authorizeReply
      rw [hp]
  · cases hp : parseTokenRequest r with
    | ok rq => exact absurd hp (h2 rq)
    | error e =>
      obtain ⟨d, rfl⟩ := Server.parseTokenRequest_error hp
      refine ⟨d, ?_⟩
      show st.tokenReply r c.local = _
      unfold Server.tokenReply
      rw [hp]
  · cases hp : parseIntrospectionRequest r with
    | ok rq => exact absurd hp (h2 rq)
    | error e =>
      obtain ⟨d, rfl⟩ := Server.parseIntrospectionRequest_error hp
      refine ⟨d, ?_⟩
      show st.introspectReply r = _
      unfold Server.introspectReply
      rw [hp]
  · cases hp : parseRevocationRequest r with
    | ok rq => exact absurd hp (h2 rq)
    | error e =>
      obtain ⟨d, rfl⟩ := Server.parseRevocationRequest_error hp
      refine ⟨d, ?_⟩
      show st.revokeReply r = _
      unfold Server.revokeReply
      rw [hp]

/-- Non-vacuity: a token request without a grant type is malformed. -/
example : Malformed (Demo.post b!"/token" b!"c1:s1" b!"username=u1" [] 1100) := by
  refine ⟨_, rfl, .inr (.inl ⟨?_, ?_⟩)⟩
  · rw [lastSegment_iff]
    decide +kernel
  · intro rq
    have : parseTokenRequest (match (Demo.post b!"/token" b!"c1:s1" b!"username=u1" [] 1100).op with
      | .serve r => r | _ => { method := [] }) = .error (invalidRequest b!"missing grant type") := by
      decide +kernel
    intro h
    exact nomatch this.symm.trans h

/-! ### Authorize -/

/-- What a rejection says. -/
theorem challenge_result (e : Error) :
    (Server.challenge {} e).result.statusCode = e.status.toNat ∧
    (Server.challenge {} e).result.header.all b!"WWW-Authenticate" =
      [b!"Bearer " ++ (if e.params = [] then b!"realm=\"OAuth2\"" else e.params)] ∧
    (Server.challenge {} e).result.body = [] := by
  refine ⟨rfl, ?_, rfl⟩
  rfl

/-- The challenge for an error. -/
def challengeText (e : Error) : Str :=
  b!"Bearer " ++ (if e.params = [] then b!"realm=\"OAuth2\"" else e.params)

theorem scope_challenge {required : Scope} (hr : required.items ≠ []) :
    challengeText (insufficientScope required) =
      b!"Bearer error=\"insufficient_scope\", scope=\"" ++ required.string ++ b!"\"" := by
  unfold challengeText Error.params
  rw [C11_params_exact _ _ (List.Perm.refl _)]
  have : parameters (insufficientScope required) =
      [(b!"error", b!"insufficient_scope"), (b!"scope", required.string)] := by
    unfold parameters insufficientScope
    simp [hr]
  rw [this]
  simp [joinStr, param]

theorem no_bearer {r : Request} (h1 : r.header.get b!"Authorization" ≠ [])
    (h2 : ∀ text, ¬ CarriesBearer (r.header.get b!"Authorization") text) :
    parseBearerToken r = .error (invalidRequest b!"malformed authorization header") := by
  obtain ⟨e, h3, h4, _⟩ := C09_malformed r h1 fun ⟨t, ht⟩ => h2 t ht
  rcases Server.parseBearerToken_error h3 with rfl | rfl
  · cases h4
  · exact h3

theorem challenge_missing : challengeText protectedResource = b!"Bearer realm=\"OAuth2\"" := by
  decide +kernel
theorem challenge_malformed : challengeText (invalidRequest b!"malformed authorization header") =
    b!"Bearer error=\"invalid_request\", error_description=\"malformed authorization header\"" := by
  decide +kernel
theorem challenge_forged : challengeText (invalidToken b!"malformed token") =
    b!"Bearer error=\"invalid_token\", error_description=\"malformed token\"" := by decide +kernel
theorem challenge_unknown : challengeText (invalidToken b!"unknown token") =
    b!"Bearer error=\"invalid_token\", error_description=\"unknown token\"" := by decide +kernel
theorem challenge_expired : challengeText (invalidToken b!"expired token") =
    b!"Bearer error=\"invalid_token\", error_description=\"expired token\"" := by decide +kernel

/-- The reasons are those of the server. -/
theorem accessRefusal_iff {st : Server} {cfg : ServerConfig} (ex : Exact cfg h st) (r : Request)
    (required : Scope) (now : Time) (status : Nat) (challenge : Str) :
    AccessRefusal cfg h (r.header.get b!"Authorization") required now status challenge ↔
    ∃ e, st.authorizes r required now = some e ∧ e.status.toNat = status ∧
      challengeText e = challenge := by
  constructor
  · intro hx
    cases hx with
    | missing h1 =>
      refine ⟨protectedResource, ?_, rfl, by decide +kernel⟩
      unfold Server.authorizes
      rw [C09_no_header r h1]
      rfl
    | malformed h1 h2 =>
      refine ⟨invalidRequest b!"malformed authorization header", ?_, rfl, by decide +kernel⟩
      unfold Server.authorizes
      rw [no_bearer h1 h2]
    | forged h1 h2 =>
      refine ⟨invalidToken b!"malformed token", ?_, rfl, by decide +kernel⟩
      unfold Server.authorizes
      rw [(C09_bearer_accept_iff _ _).mpr h1]
      simp only
      rw [ex.config]
      split
      · rfl
      · next t ht => exact absurd ⟨t, ht⟩ h2
    | unknown h1 h2 h3 =>
      refine ⟨invalidToken b!"unknown token", ?_, rfl, by decide +kernel⟩
      unfold Server.authorizes
      obtain ⟨t, ht⟩ := h2
      rw [(C09_bearer_accept_iff _ _).mpr h1]
      simp only
      rw [ex.config, ht]
      simp only
      cases hg : st.accessTokens.get? t.signatureString with
      | none => rfl
      | some cred =>
        obtain ⟨y, g, h4, h5, _⟩ := (ex.access _ _).mp hg
        exact absurd ⟨t, ht, h4.symm⟩ (h3 y g h5)
    | expired h1 h2 h3 h4 =>
      refine ⟨invalidToken b!"expired token", ?_, rfl, by decide +kernel⟩
      unfold Server.authorizes
      obtain ⟨t, ht, hs⟩ := h3
      rw [(C09_bearer_accept_iff _ _).mpr h1]
      simp only
      rw [ex.config, ht]
      simp only
      rw [(ex.access _ _).mpr ⟨_, _, hs.symm, h2, rfl⟩]
      simp only
      rw [if_pos]
      exact decide_eq_true h4
    | scope h1 h2 h3 =>
      rename_i text g
      refine ⟨insufficientScope required, ?_, rfl, scope_challenge fun h4 => h3 ?_⟩
      · unfold Server.authorizes
        obtain ⟨y, h2, ⟨t, ht, hs⟩, h5⟩ := h2
        rw [(C09_bearer_accept_iff _ _).mpr h1]
        simp only
        rw [ex.config, ht]
        simp only
        rw [(ex.access _ _).mpr ⟨_, _, hs.symm, h2, rfl⟩]
        simp only
        have h6 : ¬ g.cred.expiresAt.before now = true := Server.not_before (Int.not_lt.mpr h5)
        rw [if_neg h6, if_pos]
        cases hi : g.cred.scope.includes required with
        | false => rfl
        | true => exact absurd ((C07_includes _ _).mp hi) h3
      · intro i hi
        rw [h4] at hi
        cases hi
  · rintro ⟨e, he, rfl, rfl⟩
    unfold Server.authorizes at he
    cases hb : parseBearerToken r with
    | error err =>
      rw [hb] at he
      cases he
      by_cases h1 : r.header.get b!"Authorization" = []
      · rw [C09_no_header r h1] at hb
        cases hb
        exact challenge_missing ▸ .missing h1
      · have h2 : ∀ text, ¬ CarriesBearer (r.header.get b!"Authorization") text := fun text h3 => by
          rw [(C09_bearer_accept_iff _ _).mpr h3] at hb; cases hb
        rw [no_bearer h1 h2] at hb
        cases hb
        exact challenge_malformed ▸ .malformed h1 h2
    | ok text =>
      rw [hb] at he
      simp only at he
      have h1 := (C09_bearer_accept_iff _ _).mp hb
      rw [ex.config] at he
      cases hp : HS256Token.parse cfg.secret text with
      | error err =>
        rw [hp] at he
        cases he
        exact challenge_forged ▸
          .forged h1 fun ⟨t, ht⟩ => by rw [hp] at ht; cases ht
      | ok t =>
        rw [hp] at he
        simp only at he
        cases hg : st.accessTokens.get? t.signatureString with
        | none =>
          rw [hg] at he
          cases he
          refine challenge_unknown ▸
            .unknown h1 ⟨t, hp⟩ fun y g h2 ⟨t', h3, h4⟩ => ?_
          rw [hp] at h3
          cases h3
          rw [(ex.access _ _).mpr ⟨y, g, h4.symm, h2, rfl⟩] at hg
          cases hg
        | some cred =>
          rw [hg] at he
          simp only at he
          obtain ⟨y, g, hs, hi, rfl⟩ := (ex.access _ _).mp hg
          have hsame : SameToken cfg text y := ⟨t, hp, hs.symm⟩
          by_cases hx : g.cred.expiresAt.before now = true
          · rw [if_pos hx] at he
            cases he
            exact challenge_expired ▸
              .expired h1 hi hsame (of_decide_eq_true hx)
          rw [if_neg hx] at he
          cases hsc : g.cred.scope.includes required with
          | true => rw [hsc] at he; cases he
          | false =>
            rw [hsc] at he
            simp only [Bool.not_false, if_true, Option.some.injEq] at he
            subst he
            have hw : ¬ Within required g.scope := fun h2 => by
              have h3 : g.cred.scope.includes required = true := (C07_includes _ _).mpr h2
              rw [h3] at hsc; cases hsc
            rw [scope_challenge fun h2 => hw fun i hi => by rw [h2] at hi; cases hi]
            exact .scope h1 ⟨y, hi, hsame, Server.before_false hx⟩ hw

/-- **C66.** `Authorize` rejects a request with a status and a challenge exactly if the reason that
goes with them is given. -/
theorem C66_access (h0 : Started s₀) (hh : History s₀ h s) {r : Request} {required : Scope}
    (hop : c.op = .authorize r required) (status : Nat) (challenge : Str) :
    (∃ res, (step s c).1 = .rejected res ∧ res.statusCode = status ∧
      res.header.all b!"WWW-Authenticate" = [challenge] ∧ res.body = []) ↔
    AccessRefusal s₀.config h (r.header.get b!"Authorization") required (c.clock 0) status
      challenge := by
  obtain ⟨st, rfl, ex⟩ := history_state h0 hh
  rw [step_authorize hop, accessRefusal_iff ex]
  cases ha : st.authorizes r required (c.clock 0) with
  | none => exact ⟨fun ⟨_, h1, _⟩ => (nomatch h1), fun ⟨_, h1, _⟩ => (nomatch h1)⟩
  | some e =>
    obtain ⟨h1, h2, h3⟩ := challenge_result e
    constructor
    · rintro ⟨res, h4, h5, h6, _⟩
      cases h4
      rw [h1] at h5
      rw [h2] at h6
      exact ⟨e, rfl, h5, (List.cons.inj h6).1⟩
    · rintro ⟨e', h4, rfl, rfl⟩
      cases h4
      exact ⟨_, rfl, h1, h2, h3⟩

/-- Non-vacuity: after the first event of the session its access token is expired two hours later,
and its scope does not include `bar`. -/
example : AccessRefusal Demo.server.config [Demo.e1] (b!"Bearer " ++ Demo.a1.string) none
      (8200 * second) 401 b!"Bearer error=\"invalid_token\", error_description=\"expired token\"" ∧
    AccessRefusal Demo.server.config [Demo.e1] (b!"Bearer " ++ Demo.a1.string) (some [b!"bar"])
      (1100 * second) 403 b!"Bearer error=\"insufficient_scope\", scope=\"bar\"" := by
  have hb : CarriesBearer (b!"Bearer " ++ Demo.a1.string) Demo.a1.string :=
    ⟨b!"Bearer", by decide +kernel, by simp only [AnyCase]; decide, by decide⟩
  exact ⟨.expired hb demo_access1 (by decide +kernel) (by decide +kernel),
    .scope hb ⟨_, demo_access1, by decide +kernel, by decide +kernel⟩ (by decide +kernel)⟩

end OAuth2
