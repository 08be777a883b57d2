import Verif.Spec.Random
import Verif.Props.Random
import Verif.Props.Replay
import Verif.Props.Changes
import Verif.Props.Concurrent
import Verif.Props.Memory
import Verif.Props.Refusals
import Verif.Lemmas.Decide
import Verif.Lemmas.Demo
/-
C72: with keys that never repeat, tokens live as their holders expect, without exceptions.
-/

namespace OAuth2

open Spec

variable {s₀ : Server} {h : List Event} {s : Shared Server}

/-- Tokens that events of a history issue are made by the server. -/
theorem issues_genuine (h0 : Started s₀) {new old : List Event} {e : Event}
    (hh : History s₀ (new ++ e :: old) s) {t : HS256Token} (hi : Issues e t) :
    t = HS256Token.fromKey s₀.config.secret t.key := by
  obtain ⟨st, _, ex, hans, _⟩ := history_seen h0 hh
  have he : e = ⟨e.call, (step ⟨false, st⟩ e.call).1⟩ := by rw [← hans]
  rw [he] at hi
  have key : ∀ {k}, MadeOf st.config t k → t = HS256Token.fromKey s₀.config.secret t.key := by
    rintro k ⟨h1, h2, _⟩
    rw [← ex.config]
    cases t
    simp only [HS256Token.fromKey]
    simp only at h1 h2
    rw [h2, h1]
  rcases hi with ⟨k, hk⟩ | hk
  · cases k with
    | access => exact key (C71_access st hk).1
    | refresh => exact key (C71_refresh st hk).1
  · exact key (C71_code st hk).1

/-- Genuine tokens with different keys and without a collision have different signatures. -/
theorem apart_signature {cfg : ServerConfig} {t t' : HS256Token}
    (h1 : t = HS256Token.fromKey cfg.secret t.key) (h2 : t' = HS256Token.fromKey cfg.secret t'.key)
    (hk : t.key ≠ t'.key ∧ ¬ Collision cfg t.key t'.key) :
    t.signatureString ≠ t'.signatureString := by
  intro hs
  have hs' := b64RawURLEncode_injective hs
  rw [h1, h2] at hs'
  exact hk.2 ⟨hk.1, hs'⟩

/-- In a fresh history what an event issues differs from what was issued before. -/
theorem fresh_old (h0 : Started s₀) {new old : List Event} {e : Event}
    (hh : History s₀ (new ++ e :: old) s) (hf : Fresh s₀.config (new ++ e :: old)) {x : Event}
    (hx : x ∈ old) {t t' : HS256Token} (ht : Issues e t) (ht' : Issues x t') :
    t.signatureString ≠ t'.signatureString := by
  have h1 := (List.pairwise_append.mp hf.apart).2.1
  have h2 := (List.pairwise_cons.mp h1).1 x hx t t' ht ht'
  obtain ⟨a, b, rfl⟩ := List.append_of_mem hx
  have h3 : new ++ e :: (a ++ x :: b) = (new ++ e :: a) ++ x :: b := by simp
  exact apart_signature (issues_genuine h0 hh ht) (issues_genuine h0 (h3 ▸ hh) ht') h2

/-- And from what is issued later. -/
theorem fresh_new (h0 : Started s₀) {new old : List Event} {e : Event}
    (hh : History s₀ (new ++ e :: old) s) (hf : Fresh s₀.config (new ++ e :: old)) {x : Event}
    (hx : x ∈ new) {t t' : HS256Token} (ht : Issues e t) (ht' : Issues x t') :
    t'.signatureString ≠ t.signatureString := by
  obtain ⟨a, b, rfl⟩ := List.append_of_mem hx
  have h3 : (a ++ x :: b) ++ e :: old = a ++ x :: (b ++ e :: old) := by simp
  rw [h3] at hh hf
  exact fresh_old h0 hh hf (by simp) ht' ht

/-- The two tokens of an event differ, too. -/
theorem fresh_within (h0 : Started s₀) {new old : List Event} {e : Event}
    (hh : History s₀ (new ++ e :: old) s) (hf : Fresh s₀.config (new ++ e :: old))
    {a b : HS256Token} (ha : Hands e .access a) (hb : Hands e .refresh b) :
    a.signatureString ≠ b.signatureString :=
  apart_signature (issues_genuine h0 hh (.inl ⟨_, ha⟩)) (issues_genuine h0 hh (.inl ⟨_, hb⟩))
    (hf.within e (by simp) a b ha hb)

theorem Spec.Fresh.tail {cfg : ServerConfig} {new old : List Event} (hf : Fresh cfg (new ++ old)) :
    Fresh cfg old :=
  ⟨(List.pairwise_append.mp hf.apart).2.1,
    fun e he => hf.within e (List.mem_append_right _ he)⟩

/-- Of two tokens in force or once handed out, with the same signature, the kind is the same. -/
theorem fresh_kind (h0 : Started s₀) (hh : History s₀ h s) (hf : Fresh s₀.config h) {x y : Event}
    (hx : x ∈ h) (hy : y ∈ h) {k k' : Kind} {t t' : HS256Token} (ht : Hands x k t)
    (ht' : Hands y k' t') (hs : t'.signatureString = t.signatureString) : k' = k := by
  obtain ⟨new, old, rfl⟩ := List.append_of_mem hx
  rcases List.mem_append.mp hy with hy | hy
  · exact absurd hs (fresh_new h0 hh hf hy (.inl ⟨_, ht⟩) (.inl ⟨_, ht'⟩))
  rcases List.mem_cons.mp hy with rfl | hy
  · cases k <;> cases k'
    · rfl
    · exact absurd hs.symm (fresh_within h0 hh hf ht ht')
    · exact absurd hs (fresh_within h0 hh hf ht' ht)
    · rfl
  · exact absurd hs.symm (fresh_old h0 hh hf hy (.inl ⟨_, ht⟩) (.inl ⟨_, ht'⟩))

/-- Two tokens of one kind with the same signature are the same. -/
theorem fresh_token (h0 : Started s₀) (hh : History s₀ h s) (hf : Fresh s₀.config h) {x y : Event}
    (hx : x ∈ h) (hy : y ∈ h) {k : Kind} {t t' : HS256Token} (ht : Hands x k t)
    (ht' : Hands y k t') (hs : t'.signatureString = t.signatureString) : t' = t := by
  obtain ⟨new, old, rfl⟩ := List.append_of_mem hx
  rcases List.mem_append.mp hy with hy | hy
  · exact absurd hs (fresh_new h0 hh hf hy (.inl ⟨_, ht⟩) (.inl ⟨_, ht'⟩))
  rcases List.mem_cons.mp hy with rfl | hy
  · obtain ⟨s₁, _, _, hh'⟩ := history_split hh
    exact hands_unique h0 hh' ht' ht
  · exact absurd hs.symm (fresh_old h0 hh hf hy (.inl ⟨_, ht⟩) (.inl ⟨_, ht'⟩))

/-- A revocation request that is refused for this reason concerns a token of another client. -/
theorem halfRevokes_foreign {cfg : ServerConfig} {st : Server} (ex : Exact cfg h st) {c : Call}
    {t : HS256Token} {client : Str} (hr : HalfRevokes cfg ⟨c, (step ⟨false, st⟩ c).1⟩ t client) :
    Revokes cfg ⟨c, (step ⟨false, st⟩ c).1⟩ t ∨
      ∃ k t' g, InForce cfg h k t' g ∧ t'.signatureString = t.signatureString ∧
        g.client ≠ client := by
  obtain ⟨rq, res, hc, ht, hcl, hd⟩ := hr
  have ha : AsksRevocation c rq := by
    obtain ⟨r, h1, h2, h3, _⟩ := hc
    exact ⟨r, h1, h2, h3⟩
  have hans : (step ⟨false, st⟩ c).1 = .answered res := by
    obtain ⟨r, _, _, _, h4⟩ := hc
    exact h4
  rcases revoke_outcome ex ha with ⟨e, n, h1, h2, h3⟩ | ⟨⟨res', h1, h2⟩, _⟩
  · right
    rw [h1] at hans
    obtain ⟨_, rfl⟩ := answer_eq hans
    rw [(error_jsonMember (by rw [error_result h2.1]) _).2.1] at hd
    generalize e.description = d at h3 hd
    cases h3 with
    | hint => exact absurd rfl hd.1
    | unidentified =>
      exact absurd hd.2 (by
        rw [(sanitize_ascii (by decide) : sanitize b!"unknown client" = _)]
        decide)
    | forged _ _ hfl =>
      rw [flaw_ascii hfl] at hd
      cases hfl <;> exact absurd hd.2 (by decide)
    | foreign _ _ hfo =>
      obtain ⟨k, t', g, h4, h5, h6⟩ := hfo
      obtain ⟨x, hx, hxs⟩ := ht
      obtain ⟨y, hy, hys⟩ := h5
      rw [hx] at hy
      cases hy
      exact ⟨k, t', g, h4, hys.symm.trans hxs, hcl ▸ h6⟩
  · left
    rw [h1] at hans
    cases hans
    exact ⟨rq, _, hc, ht, h2⟩

/-- In a fresh history this ends nothing. -/
theorem fresh_halfRevokes (h0 : Started s₀) {c : Call}
    (hh : History s₀ h s) (hf : Fresh s₀.config h) {t : HS256Token} {g : Grant}
    (hi : InForce s₀.config h .access t g)
    (hr : HalfRevokes s₀.config ⟨c, (step s c).1⟩ t g.client) :
    Revokes s₀.config ⟨c, (step s c).1⟩ t := by
  obtain ⟨st, rfl, ex⟩ := history_state h0 hh
  rcases halfRevokes_foreign ex hr with hr | ⟨k, t', g', h1, h2, h3⟩
  · exact hr
  · obtain ⟨new, e, old, rfl, h4, _⟩ := inForce_hands hi
    obtain ⟨new', e', old', h5, h6, _⟩ := inForce_hands h1
    have hk := fresh_kind h0 hh hf (x := e) (y := e') (by simp) (by rw [h5]; simp) h4.hands h6.hands h2
    subst hk
    exact absurd (inForce_client h0 hh hi h1 h2) h3

/-- What ends a token in a fresh history. -/
theorem fresh_ends (h0 : Started s₀) {e : Event} (hh : History s₀ (e :: h) s)
    (hf : Fresh s₀.config (e :: h)) {k : Kind} {t : HS256Token} {g : Grant}
    (hi : InForce s₀.config h k t g) :
    Ends s₀.config e k t g ↔ Revokes s₀.config e t ∨
      (g.origin ≠ [] ∧ Replays s₀.config e g.origin) ∨ (k = .refresh ∧ UsesUp s₀.config e t) := by
  constructor
  · rintro (⟨t', h1, h2⟩ | h1 | h1 | h1 | ⟨rfl, h1⟩)
    · obtain ⟨new, x, old, rfl, h4, _⟩ := inForce_hands hi
      exact absurd h2 (fresh_old (new := []) h0 hh hf (x := x) (by simp) (.inl ⟨_, h1⟩)
        (.inl ⟨_, h4.hands⟩))
    · exact .inl h1
    · exact .inr (.inl h1)
    · exact .inr (.inr h1)
    · cases hh with
      | next c hh => exact .inl (fresh_halfRevokes h0 hh (Fresh.tail (new := [_]) hf) hi h1)
  · rintro (h1 | h1 | h1)
    · exact .inr (.inl h1)
    · exact .inr (.inr (.inl h1))
    · exact .inr (.inr (.inr (.inl h1)))

/-- **C72.** If no key repeats, a token that was handed out is in force exactly until it is revoked,
its code is replayed or, if it is a refresh token, it is used: no other event in the life of the
server touches it. -/
theorem C72_in_force (h0 : Started s₀) {new old : List Event} {e : Event}
    (hh : History s₀ (new ++ e :: old) s) (hf : Fresh s₀.config (new ++ e :: old)) {k : Kind}
    {t : HS256Token} (ht : Hands e k t) :
    ∃ g, InForce s₀.config (e :: old) k t g ∧ ∀ g',
      InForce s₀.config (new ++ e :: old) k t g' ↔ g' = g ∧ ∀ e' ∈ new, ¬ Revokes s₀.config e' t ∧
        ¬ (g.origin ≠ [] ∧ Replays s₀.config e' g.origin) ∧
        ¬ (k = .refresh ∧ UsesUp s₀.config e' t) := by
  obtain ⟨st, _, ex, _, hseen⟩ := history_seen h0 hh
  obtain ⟨g, hg⟩ := hands_inForce hseen ht (by
    rintro rfl hu
    obtain ⟨x, hx, t', h1, h2⟩ := used_handed h0 hh hu
    exact fresh_old h0 hh hf hx (.inl ⟨_, ht⟩) (.inl ⟨_, h1⟩) h2.symm)
  refine ⟨g, hg, ?_⟩
  have hu : ∀ g', InForce s₀.config (e :: old) k t g' → g' = g := by
    intro g' hg'
    obtain ⟨s₁, _, _, hh'⟩ := history_split hh
    obtain ⟨st', _, ex'⟩ := history_state h0 hh'
    exact token_unique ex' hg' hg rfl
  induction new generalizing s with
  | nil =>
    intro g'
    constructor
    · exact fun h1 => ⟨hu g' h1, by simp⟩
    · rintro ⟨rfl, _⟩
      exact hg
  | cons z new ih =>
    have hhz : History s₀ (z :: (new ++ e :: old)) s := hh
    have hfz : Fresh s₀.config (z :: (new ++ e :: old)) := hf
    obtain ⟨s', hh', _, _⟩ := history_split (new := []) hhz
    have ih := ih hh' (hf.tail (new := [z]))
    intro g'
    constructor
    · intro hi
      have hi' : InForce s₀.config (z :: (new ++ e :: old)) k t g' := hi
      rcases inForce_cons.mp hi' with h1 | ⟨h1, h2⟩
      · exact absurd rfl (fresh_old (new := []) h0 hhz hfz (x := e) (by simp)
          (.inl ⟨_, h1.hands⟩) (.inl ⟨_, ht⟩))
      · obtain ⟨rfl, h3⟩ := (ih g').mp h1
        refine ⟨rfl, fun x hx => ?_⟩
        rcases List.mem_cons.mp hx with rfl | hx
        · rw [fresh_ends h0 hhz hfz h1] at h2
          exact ⟨fun h => h2 (.inl h), fun h => h2 (.inr (.inl h)), fun h => h2 (.inr (.inr h))⟩
        · exact h3 x hx
    · rintro ⟨rfl, h3⟩
      have h1 := (ih g').mpr ⟨rfl, fun x hx => h3 x (List.mem_cons_of_mem _ hx)⟩
      obtain ⟨h4, h5, h6⟩ := h3 z (by simp)
      refine .later h1 ?_
      rw [fresh_ends h0 hhz hfz h1]
      rintro (h | h | h)
      · exact h4 h
      · exact h5 h
      · exact h6 h

/-- **C72.** If no key repeats, `Authorize` admits an access token that was handed out exactly as
long as it has not been revoked, its code has not been replayed, it has not expired and the
required scope is within that of its grant. -/
theorem C72_admits (h0 : Started s₀) {new old : List Event} {e : Event}
    (hh : History s₀ (new ++ e :: old) s) (hf : Fresh s₀.config (new ++ e :: old))
    {t : HS256Token} (ht : Hands e .access t) :
    ∃ g, InForce s₀.config (e :: old) .access t g ∧
      ∀ c required, Presents c required t.string → ((step s c).1 = .admitted ↔
        (∀ e' ∈ new, ¬ Revokes s₀.config e' t ∧
          ¬ (g.origin ≠ [] ∧ Replays s₀.config e' g.origin)) ∧
        c.clock 0 ≤ g.expires ∧ Within required g.scope) := by
  obtain ⟨g, hg, hiff⟩ := C72_in_force h0 hh hf ht
  have hgen := issues_genuine h0 hh (.inl ⟨_, ht⟩)
  refine ⟨g, hg, fun c required hp => ?_⟩
  rw [C27_admits_iff h0 hh]
  constructor
  · rintro ⟨required', text, t', g', h1, h2, h3, h4, h5⟩
    have hreq : required' = required := by
      obtain ⟨r, hr, _⟩ := hp
      obtain ⟨r', hr', _⟩ := h1
      rw [hr] at hr'
      cases hr'
      rfl
    subst hreq
    cases presents_unique hp h1
    obtain ⟨x, hx, hxs⟩ := h2
    obtain ⟨x', hx', hxs'⟩ := sameToken_self hgen
    rw [hx] at hx'
    cases hx'
    obtain ⟨new', e', old', h6, h7, _⟩ := inForce_hands h3
    have heq := fresh_token h0 hh hf (x := e) (y := e') (by simp) (by rw [h6]; simp) ht h7.hands
      (hxs.symm.trans hxs')
    subst heq
    obtain ⟨rfl, h8⟩ := (hiff g').mp h3
    exact ⟨fun e' he => ⟨(h8 e' he).1, (h8 e' he).2.1⟩, h4, h5⟩
  · rintro ⟨h1, h2, h3⟩
    refine ⟨required, _, t, g, hp, sameToken_self hgen, (hiff g).mpr ⟨rfl, fun e' he => ?_⟩, h2, h3⟩
    exact ⟨(h1 e' he).1, (h1 e' he).2, by rintro ⟨h, _⟩; cases h⟩

/-- **C72.** If no key repeats, no refresh token is used twice. -/
theorem C72_refresh_once (h0 : Started s₀) {later new old : List Event} {e e' : Event}
    (hh : History s₀ (later ++ e' :: (new ++ e :: old)) s)
    (hf : Fresh s₀.config (later ++ e' :: (new ++ e :: old))) {t : HS256Token}
    (hu : UsesUp s₀.config e t) : ¬ UsesUp s₀.config e' t := by
  intro hu'
  obtain ⟨x, hx, t', h1, h2⟩ := C31_between_uses h0 hh hu hu'
  have h3 : later ++ e' :: (new ++ e :: old) = (later ++ e' :: new) ++ e :: old := by simp
  obtain ⟨y, hy, t'', h4, h5⟩ := used_handed h0 (h3 ▸ hh) hu
  obtain ⟨a, b, rfl⟩ := List.append_of_mem hx
  have h6 : later ++ e' :: ((a ++ x :: b) ++ e :: old) =
    (later ++ e' :: a) ++ x :: (b ++ e :: old) := by simp
  rw [h6] at hh hf
  exact fresh_old h0 hh hf (x := y) (by simp [hy]) (.inl ⟨_, h1⟩) (.inl ⟨_, h4⟩) (h2.trans h5.symm)

/-- **C72.** If no key repeats, no code is redeemed twice. -/
theorem C72_code_once (h0 : Started s₀) {later new old : List Event} {e e' : Event}
    (hh : History s₀ (later ++ e' :: (new ++ e :: old)) s)
    (hf : Fresh s₀.config (later ++ e' :: (new ++ e :: old))) {x : HS256Token}
    (hr : Redeems s₀.config e x) : ¬ Redeems s₀.config e' x := by
  intro hr'
  obtain ⟨z, hz, t', h1, h2⟩ := C33_redeemed_once h0 hh hr hr'
  have h3 : later ++ e' :: (new ++ e :: old) = (later ++ e' :: new) ++ e :: old := by simp
  obtain ⟨y, hy, t'', h4, h5⟩ := redeemed_handed h0 (h3 ▸ hh) hr
  obtain ⟨a, b, rfl⟩ := List.append_of_mem hz
  have h6 : later ++ e' :: ((a ++ z :: b) ++ e :: old) =
    (later ++ e' :: a) ++ z :: (b ++ e :: old) := by simp
  rw [h6] at hh hf
  exact fresh_old h0 hh hf (x := y) (by simp [hy]) (.inr h1) (.inr h4) (h2.trans h5.symm)

/-- A refused replay of a code means that there is no such code, unused. -/
theorem replays_used {cfg : ServerConfig} {st : Server} (ex : Exact cfg h st) {c : Call} {sig : Str}
    (hr : Replays cfg ⟨c, (step ⟨false, st⟩ c).1⟩ sig) {y : HS256Token} {g : CodeGrant}
    (hy : Code cfg h y g false) : y.signatureString ≠ sig := by
  intro hs
  obtain ⟨rq, res, x, hc, hgt, hx, hsig, herr, hd⟩ := id hr
  have ha := tokenCall_asks hc
  have hans : (step ⟨false, st⟩ c).1 = .answered res := by
    obtain ⟨r, _, _, _, h4⟩ := hc
    exact h4
  rcases token_outcome ex ha with ⟨e, n, h1, h2, h3⟩ | ⟨_, ⟨h1, _⟩ | ⟨_, a, b, h1, _⟩⟩
  · rw [h1] at hans
    obtain ⟨_, rfl⟩ := answer_eq hans
    rw [(error_jsonMember (by rw [error_result h2.1]) _).2.1] at hd
    generalize e.description = d at h3 hd
    have hno : ∀ {text}, sanitize text = text → b!"unknown authorization code" ≠ text →
        b!"unknown authorization code" ≠ sanitize text := fun h1 h2 => h1.symm ▸ h2
    cases h3 with
    | unknownCode _ _ _ hn => exact hn g ⟨y, hy, x, hx, hsig.trans hs.symm⟩
    | forgedCode _ _ hfl =>
      exact hno (flaw_ascii hfl) (by cases hfl <;> decide) hd.2
    | forgedRefresh _ _ hfl =>
      exact hno (flaw_ascii hfl) (by cases hfl <;> decide) hd.2
    | _ => exact hno (sanitize_ascii (by decide)) (by decide) hd.2
  · rw [h1] at hans
    cases hans
  · exact replay_hands_nothing (seen ex c) hr _ _ h1

/-- A code unused now was unused before, if it was not handed out since then. -/
theorem unused_before {cfg : ServerConfig} {new old : List Event} {y : HS256Token} {g : CodeGrant}
    (hc : Code cfg (new ++ old) y g false)
    (hn : ∀ z ∈ new, ∀ y', HandsCode z y' → y'.signatureString ≠ y.signatureString) :
    Code cfg old y g false := by
  induction new with
  | nil => exact hc
  | cons z new ih =>
    cases hc with
    | issued h1 h2 h3 => exact absurd rfl (hn z (by simp) y h3)
    | later h1 _ _ => exact ih h1 fun x hx => hn x (List.mem_cons_of_mem _ hx)

/-- **C72.** If no key repeats, a replay of a code that was handed out takes away the tokens issued
for it for good. -/
theorem C72_replayed_for_good (h0 : Started s₀) {new old : List Event} {e x : Event}
    (hh : History s₀ (new ++ e :: old) s) (hf : Fresh s₀.config (new ++ e :: old))
    (hx : x ∈ old) {y : HS256Token} (hy : HandsCode x y)
    (hr : Replays s₀.config e y.signatureString) {k : Kind} {t : HS256Token} {g : Grant}
    (hi : InForce s₀.config (new ++ e :: old) k t g) : g.origin ≠ y.signatureString := by
  induction new generalizing s with
  | nil =>
    exact ((C57_replay_exact h0 hh hr k t g).mp hi).2
  | cons z new ih =>
    have hi' : InForce s₀.config (z :: (new ++ e :: old)) k t g := hi
    have hhz : History s₀ (z :: (new ++ e :: old)) s := hh
    obtain ⟨s', hh', _, _⟩ := history_split (new := []) hhz
    rcases inForce_cons.mp hi' with h1 | ⟨h1, _⟩
    · have key : ∀ y' g', Code s₀.config (new ++ e :: old) y' g' false →
          y'.signatureString ≠ y.signatureString := by
        intro y' g' hy' hs
        obtain ⟨st, _, ex, hans, _⟩ := history_seen h0 hh'
        have he : e = ⟨e.call, (step ⟨false, st⟩ e.call).1⟩ := by rw [← hans]
        have hsplit : new ++ e :: old = (new ++ [e]) ++ old := by simp
        rw [hsplit] at hy'
        refine replays_used ex (he ▸ hr) (unused_before hy' ?_) hs
        intro w hw y'' hw' hs'
        obtain ⟨a, b, hab⟩ := List.append_of_mem hw
        have h6 : z :: (new ++ e :: old) = (z :: a) ++ w :: (b ++ old) := by
          rw [hsplit, hab]
          simp
        exact fresh_old h0 (h6 ▸ hhz) (h6 ▸ (hf : Fresh _ (z :: (new ++ e :: old)))) (x := x)
          (by simp [hx]) (.inr hw') (.inr hy) (hs'.trans hs)
      have hne : y.signatureString ≠ [] := by
        obtain ⟨_, _, x, _, _, hx, hsig, _⟩ := hr
        rw [← hsig]
        exact parsed_signature_ne_nil hx
      cases h1 with
      | exchange _ _ _ h4 _ => exact key _ _ h4
      | _ => exact hne.symm
    · exact ih hh' (Fresh.tail (new := [z]) hf) h1

/-- **C72.** If no key repeats, a token that was handed out and has been revoked, by whomever and
under whichever name, never comes back. -/
theorem C72_revoked_for_good (h0 : Started s₀) {new old : List Event} {e x : Event}
    (hh : History s₀ (new ++ e :: old) s) (hf : Fresh s₀.config (new ++ e :: old))
    (hx : x ∈ old) {k : Kind} {t : HS256Token} (ht : Hands x k t)
    (hr : Revokes s₀.config e t) : ∀ k' t' g, t'.signatureString = t.signatureString →
      ¬ InForce s₀.config (new ++ e :: old) k' t' g := by
  intro k' t' g hs
  refine revoked_gone hr (fun z hz t'' hz' => ?_) t' g hs
  obtain ⟨a, b, rfl⟩ := List.append_of_mem hz
  have h6 : (a ++ z :: b) ++ e :: old = a ++ z :: (b ++ e :: old) := by simp
  rw [h6] at hh hf
  exact fresh_old h0 hh hf (x := x) (by simp [hx]) (.inl ⟨_, hz'⟩) (.inl ⟨_, ht⟩)

/-- **C72.** If no key repeats, a refresh token that was used never comes back. -/
theorem C72_used_for_good (h0 : Started s₀) {new old : List Event} {e : Event}
    (hh : History s₀ (new ++ e :: old) s) (hf : Fresh s₀.config (new ++ e :: old))
    {t : HS256Token} (hu : UsesUp s₀.config e t) : ∀ t' g, t'.signatureString = t.signatureString →
      ¬ InForce s₀.config (new ++ e :: old) .refresh t' g := by
  intro t' g hs
  obtain ⟨y, hy, t₁, h4, h5⟩ := used_handed h0 hh hu
  refine used_gone hu (fun z hz t'' hz' => ?_) t' g hs
  obtain ⟨a, b, rfl⟩ := List.append_of_mem hz
  have h6 : (a ++ z :: b) ++ e :: old = a ++ z :: (b ++ e :: old) := by simp
  rw [h6] at hh hf
  rw [← h5]
  exact fresh_old h0 hh hf (x := y) (by simp [hy]) (.inl ⟨_, hz'⟩) (.inl ⟨_, h4⟩)

/-- **C72.** If no key repeats, a call that fails takes nothing away and adds nothing, except that
the replay of a code takes away the tokens issued for it. -/
theorem C72_failure (h0 : Started s₀) {c : Call} (hh : History s₀ h s) (hfr : Fresh s₀.config h)
    (hf : Fails ⟨c, (step s c).1⟩) (k : Kind) (t : HS256Token) (g : Grant) :
    InForce s₀.config (⟨c, (step s c).1⟩ :: h) k t g ↔ InForce s₀.config h k t g ∧
      ¬ (g.origin ≠ [] ∧ Replays s₀.config ⟨c, (step s c).1⟩ g.origin) := by
  obtain ⟨st, rfl, ex⟩ := history_state h0 hh
  rw [(C41_error_rights h0 hh hf).1]
  constructor
  · exact fun h1 => ⟨h1.1, h1.2.1⟩
  · rintro ⟨h1, h2⟩
    refine ⟨h1, h2, ?_⟩
    rintro ⟨rfl, h3⟩
    have h4 := fresh_halfRevokes h0 hh hfr h1 h3
    obtain ⟨rq, res, hc, _, h6⟩ := id h4
    have hans : (step ⟨false, st⟩ c).1 = .answered res := by
      obtain ⟨_, _, _, _, h5⟩ := hc
      exact h5
    rcases hf with ⟨res', h5 | h5, h7⟩ | ⟨w, h5⟩ | ⟨rq', u, res', name, ⟨r, h7, h8, _⟩, _⟩
    · rw [hans] at h5
      cases h5
      omega
    · rw [hans] at h5
      cases h5
    · rw [hans] at h5
      cases h5
    · obtain ⟨r', h9, h10, _⟩ := hc
      rw [h7] at h9
      cases h9
      rw [lastSegment_iff] at h8 h10
      rw [h8] at h10
      exact absurd h10 (by decide)

/-- The event issues nothing but these tokens. -/
def Only (e : Event) (l : List HS256Token) : Prop :=
  (∀ t, Hands e .access t → t ∈ l) ∧ (∀ t, Hands e .refresh t → t ∈ l) ∧ ∀ t, HandsCode e t → t ∈ l

theorem Only.mem {e : Event} {l : List HS256Token} (ho : Only e l) {t : HS256Token}
    (hi : Issues e t) : t ∈ l := by
  rcases hi with ⟨k, h⟩ | h
  · cases k
    · exact ho.1 t h
    · exact ho.2.1 t h
  · exact ho.2.2 t h

theorem different_apart {cfg : ServerConfig} {t t' : HS256Token}
    (h1 : t = HS256Token.fromKey cfg.secret t.key) (h2 : t' = HS256Token.fromKey cfg.secret t'.key)
    (hs : t.signature ≠ t'.signature) : t.key ≠ t'.key ∧ ¬ Collision cfg t.key t'.key := by
  rw [h1, h2] at hs
  exact ⟨fun h => hs (congrArg (hmacSHA256 cfg.secret) h), fun h => hs h.2⟩

theorem pairwise_apart {cfg : ServerConfig} {l : List (Event × List HS256Token)}
    (ho : ∀ p ∈ l, Only p.1 p.2)
    (hg : ∀ p ∈ l, ∀ t ∈ p.2, t = HS256Token.fromKey cfg.secret t.key)
    (hp : l.Pairwise fun p q => ∀ t ∈ p.2, ∀ t' ∈ q.2, t.signature ≠ t'.signature) :
    (l.map (·.1)).Pairwise fun e e' => ∀ t t', Issues e t → Issues e' t' →
      t.key ≠ t'.key ∧ ¬ Collision cfg t.key t'.key := by
  rw [List.pairwise_map]
  refine (List.Pairwise.and_mem.mp hp).imp ?_
  rintro p q ⟨h1, h2, h3⟩ t t' ht ht'
  have m1 := (ho p h1).mem ht
  have m2 := (ho q h2).mem ht'
  exact different_apart (hg p h1 t m1) (hg q h2 t' m2) (h3 t m1 t' m2)

theorem demo_only10 : Only Demo.e10 [] :=
  ⟨fun _ h => (hands_none (by decide +kernel) h).elim,
    fun _ h => (hands_none (by decide +kernel) h).elim,
    fun _ h => (handsCode_none (by decide +kernel) h).elim⟩

theorem demo_only9 : Only Demo.e9 [Demo.x9] :=
  ⟨fun _ h => (hands_none (by decide +kernel) h).elim,
    fun _ h => (hands_none (by decide +kernel) h).elim,
    fun t h => by rw [handsCode_only (a := Demo.x9) (by decide +kernel) h]; simp⟩

theorem demo_only8 : Only Demo.e8 [Demo.a8, Demo.r8] :=
  ⟨fun t h => by rw [hands_only (a := Demo.a8) (by decide +kernel) h]; simp,
    fun t h => by rw [hands_only (a := Demo.r8) (by decide +kernel) h]; simp,
    fun _ h => (handsCode_none (by decide +kernel) h).elim⟩

theorem demo_only7 : Only Demo.e7 [Demo.a7] :=
  ⟨fun t h => by rw [hands_only (a := Demo.a7) (by decide +kernel) h]; simp,
    fun _ h => (hands_none (by decide +kernel) h).elim,
    fun _ h => (handsCode_none (by decide +kernel) h).elim⟩

theorem demo_only6 : Only Demo.e6 [] :=
  ⟨fun _ h => (hands_none (by decide +kernel) h).elim,
    fun _ h => (hands_none (by decide +kernel) h).elim,
    fun _ h => (handsCode_none (by decide +kernel) h).elim⟩

theorem demo_only5 : Only Demo.e5 [] :=
  ⟨fun _ h => (hands_none (by decide +kernel) h).elim,
    fun _ h => (hands_none (by decide +kernel) h).elim,
    fun _ h => (handsCode_none (by decide +kernel) h).elim⟩

theorem demo_only4 : Only Demo.e4 [Demo.a4, Demo.r4] :=
  ⟨fun t h => by rw [hands_only (a := Demo.a4) (by decide +kernel) h]; simp,
    fun t h => by rw [hands_only (a := Demo.r4) (by decide +kernel) h]; simp,
    fun _ h => (handsCode_none (by decide +kernel) h).elim⟩

theorem demo_only3 : Only Demo.e3 [Demo.a3, Demo.r3] :=
  ⟨fun t h => by rw [hands_only (a := Demo.a3) (by decide +kernel) h]; simp,
    fun t h => by rw [hands_only (a := Demo.r3) (by decide +kernel) h]; simp,
    fun _ h => (handsCode_none (by decide +kernel) h).elim⟩

theorem demo_only2 : Only Demo.e2 [Demo.x2] :=
  ⟨fun _ h => (hands_none (by decide +kernel) h).elim,
    fun _ h => (hands_none (by decide +kernel) h).elim,
    fun t h => by rw [handsCode_only (a := Demo.x2) (by decide +kernel) h]; simp⟩

theorem demo_only1 : Only Demo.e1 [Demo.a1, Demo.r1] :=
  ⟨fun t h => by rw [hands_only (a := Demo.a1) (by decide +kernel) h]; simp,
    fun t h => by rw [hands_only (a := Demo.r1) (by decide +kernel) h]; simp,
    fun _ h => (handsCode_none (by decide +kernel) h).elim⟩

/-- The session of Lemmas/Demo.lean with what its events issue. -/
def demoIssued : List (Event × List HS256Token) := [
  (Demo.e10, []),
  (Demo.e9, [Demo.x9]),
  (Demo.e8, [Demo.a8, Demo.r8]),
  (Demo.e7, [Demo.a7]),
  (Demo.e6, []),
  (Demo.e5, []),
  (Demo.e4, [Demo.a4, Demo.r4]),
  (Demo.e3, [Demo.a3, Demo.r3]),
  (Demo.e2, [Demo.x2]),
  (Demo.e1, [Demo.a1, Demo.r1])]

/-- Non-vacuity: the session of Lemmas/Demo.lean is fresh; in it tokens are handed out, a code is
redeemed and replayed, a refresh token is used and tokens are revoked. -/
theorem demo_fresh : Fresh Demo.server.config [Demo.e10, Demo.e9, Demo.e8, Demo.e7, Demo.e6, Demo.e5,
    Demo.e4, Demo.e3, Demo.e2, Demo.e1] := by
  have hgen : ∀ p ∈ demoIssued, ∀ t ∈ p.2, t = HS256Token.fromKey Demo.server.config.secret t.key := by
    simp only [demoIssued, List.mem_cons, List.not_mem_nil, or_false, forall_eq_or_imp, forall_eq,
      false_imp_iff, implies_true, true_and]
    exact ⟨Demo.x9_genuine, ⟨Demo.a8_genuine, Demo.r8_genuine⟩, Demo.a7_genuine, ⟨Demo.a4_genuine, Demo.r4_genuine⟩, ⟨Demo.a3_genuine, Demo.r3_genuine⟩, Demo.x2_genuine, ⟨Demo.a1_genuine, Demo.r1_genuine⟩⟩
  refine ⟨pairwise_apart (l := demoIssued) ?_ hgen (by decide +kernel), ?_⟩
  · simp only [demoIssued, List.mem_cons, List.not_mem_nil, or_false, forall_eq_or_imp, forall_eq]
    exact ⟨demo_only10, demo_only9, demo_only8, demo_only7, demo_only6, demo_only5, demo_only4, demo_only3, demo_only2, demo_only1⟩
  · have key : ∀ {e l}, Only e l → (∀ t ∈ l, t = HS256Token.fromKey Demo.server.config.secret t.key) →
        (∀ a b, Hands e .access a → Hands e .refresh b → a.signature ≠ b.signature) →
        ∀ a b, Hands e .access a → Hands e .refresh b →
          a.key ≠ b.key ∧ ¬ Collision Demo.server.config a.key b.key :=
      fun ho hg hd a b ha hb => different_apart (hg a (ho.1 a ha)) (hg b (ho.2.1 b hb)) (hd a b ha hb)
    have hno : ∀ {e} {P : HS256Token → HS256Token → Prop}, handed e .refresh = [] →
        ∀ a b, Hands e .access a → Hands e .refresh b → P a b :=
      fun hl a b _ hb => (hands_none hl hb).elim
    simp only [List.mem_cons, List.not_mem_nil, or_false, forall_eq_or_imp, forall_eq]
    refine ⟨?_, ?_, ?_, ?_, ?_, ?_, ?_, ?_, ?_, ?_⟩
    · exact hno (by decide +kernel)
    · exact hno (by decide +kernel)
    · refine key demo_only8 (hgen (Demo.e8, _) (by simp [demoIssued])) fun a b ha hb => ?_
      rw [hands_only (a := Demo.a8) (by decide +kernel) ha,
        hands_only (a := Demo.r8) (by decide +kernel) hb]
      decide +kernel
    · exact hno (by decide +kernel)
    · exact hno (by decide +kernel)
    · exact hno (by decide +kernel)
    · refine key demo_only4 (hgen (Demo.e4, _) (by simp [demoIssued])) fun a b ha hb => ?_
      rw [hands_only (a := Demo.a4) (by decide +kernel) ha,
        hands_only (a := Demo.r4) (by decide +kernel) hb]
      decide +kernel
    · refine key demo_only3 (hgen (Demo.e3, _) (by simp [demoIssued])) fun a b ha hb => ?_
      rw [hands_only (a := Demo.a3) (by decide +kernel) ha,
        hands_only (a := Demo.r3) (by decide +kernel) hb]
      decide +kernel
    · exact hno (by decide +kernel)
    · refine key demo_only1 (hgen (Demo.e1, _) (by simp [demoIssued])) fun a b ha hb => ?_
      rw [hands_only (a := Demo.a1) (by decide +kernel) ha,
        hands_only (a := Demo.r1) (by decide +kernel) hb]
      decide +kernel

example : History Demo.server [Demo.e10, Demo.e9, Demo.e8, Demo.e7, Demo.e6, Demo.e5, Demo.e4, Demo.e3,
      Demo.e2, Demo.e1] ⟨false, Demo.s10⟩ ∧
    Hands Demo.e4 .access Demo.a4 ∧ UsesUp Demo.server.config Demo.e4 Demo.r3 ∧
    HandsCode Demo.e2 Demo.x2 ∧ Redeems Demo.server.config Demo.e3 Demo.x2 ∧
    Replays Demo.server.config Demo.e5 Demo.x2.signatureString ∧
    Revokes Demo.server.config Demo.e6 Demo.a1 ∧ Fails Demo.e5 := by
  refine ⟨Demo.history10, ?_, ?_, ?_, ?_, ?_, ?_, .inl ⟨_, .inl rfl, by decide⟩⟩ <;> decide +kernel

end OAuth2
