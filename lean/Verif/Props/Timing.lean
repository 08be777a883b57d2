import Verif.Lemmas.Timing
import Verif.Spec.Timing

/-! C83. What can be found out by measuring time. -/

namespace OAuth2

open Spec Leaky

/-! ### Tokens -/

/-- C83: the code as it runs, with hashes computed piece by piece, has the results of the model that the
other theorems are about. -/
theorem C83_result (secret text : Str) :
    (Timing.parse secret text).value = HS256Token.parse secret text ∧
    ∀ key, (Timing.fromKey secret key).value = HS256Token.fromKey secret key :=
  ⟨Timing.value_parse secret text, Timing.value_fromKey secret⟩

/-- C83: into what pieces a message is cut makes no difference to its hash. -/
theorem C83_pieces (pieces : List Str) :
    (do
      let d ← pieces.foldlM (fun d piece => d.write piece) Sha256.Digest.new
      d.checkSum : Leaky Str).value = Sha256.sha256 pieces.flatten := by
  have key : ∀ (pieces : List Str) (d : Sha256.Digest) (m : Str), Sha256.Rep d m →
      Sha256.Rep (pieces.foldlM (fun d piece => d.write piece) d : Leaky Sha256.Digest).value
        (m ++ pieces.flatten) := by
    intro pieces
    induction pieces with
    | nil => intro d m h; simpa using h
    | cons p ps ih =>
      intro d m h
      have := ih _ _ (Sha256.rep_write h p)
      rw [List.append_assoc] at this
      exact this
  rw [value_bind]
  exact Sha256.value_checkSum (key pieces _ [] Sha256.rep_new)

/-- C83: what is seen while a token is checked depends on the lengths of its parts and of the secret
alone, and not on whether the signature is right, or where it is wrong. -/
theorem C83_valid {t t' : HS256Token} {secret secret' : Str} (hk : t.key.length = t'.key.length)
    (hs : t.signature.length = t'.signature.length) (he : secret.length = secret'.length) :
    (Timing.valid t secret).trace = (Timing.valid t' secret').trace :=
  (Timing.alike_valid hk hs he).1

/-- C83: what is seen while two signatures are compared depends on their lengths alone. -/
theorem C83_equal {t t' : HS256Token} {x x' : Str} (ht : t.signature.length = t'.signature.length)
    (hx : x.length = x'.length) : (Timing.equal t x).trace = (Timing.equal t' x').trace :=
  (Timing.alike_equal ht hx).1

/-- C83: what is seen while a token is made depends on the lengths of the key and of the secret alone. -/
theorem C83_made {secret secret' key key' : Str} (hs : secret.length = secret'.length)
    (hk : key.length = key'.length) :
    (Timing.fromKey secret key).trace = (Timing.fromKey secret' key').trace :=
  (Timing.alike_fromKey hs hk).1

/-- C83: what is seen while a text is parsed tells nothing about the secret but its length and whether
the text is a token. -/
theorem C83_parse {secret secret' : Str} (text : Str) (hs : secret.length = secret'.length)
    (ha : Accepted secret text ↔ Accepted secret' text) :
    (Timing.parse secret text).trace = (Timing.parse secret' text).trace := by
  unfold Accepted HS256Token.parse at ha
  unfold Timing.parse
  refine (Alike.bind (R := fun a b => a = b ∧ a = splitByte 0x2E text) (S := fun _ _ => True)
    ⟨rfl, rfl, rfl⟩ fun l l' hl => ?_).1
  obtain ⟨rfl, hl⟩ := hl
  rw [← hl] at ha
  match l with
  | [] => exact .pure trivial
  | [_] => exact .pure trivial
  | _ :: _ :: _ :: _ => exact .pure trivial
  | [s0, s1] =>
    refine .bind (R := fun a b => a = b ∧ a = b64RawURLDecode s0) ⟨rfl, rfl, rfl⟩ fun k k' hk => ?_
    obtain ⟨rfl, hk⟩ := hk
    simp only at ha
    rw [← hk] at ha
    cases k with
    | none => exact .pure trivial
    | some key =>
      refine .bind (R := fun a b => a = b ∧ a = b64RawURLDecode s1) ⟨rfl, rfl, rfl⟩ fun g g' hg => ?_
      obtain ⟨rfl, hg⟩ := hg
      simp only at ha
      rw [← hg] at ha
      cases g with
      | none => exact .pure trivial
      | some signature =>
        have hv := Timing.alike_valid (t := ⟨key, signature⟩) (t' := ⟨key, signature⟩) rfl rfl hs
        refine .bind (R := fun a b => a = b) ⟨hv.1, ?_⟩ fun b b' hb => ?_
        · rw [Timing.value_valid, Timing.value_valid]
          simp only at ha
          generalize HS256Token.valid _ secret = v at ha
          generalize HS256Token.valid _ secret' = v' at ha
          cases v <;> cases v' <;> simp at ha ⊢
        · subst hb
          exact .bind (.test rfl) fun a a' h => .ite h (fun _ => .pure trivial) fun _ => .pure trivial

/-! ### Passwords and client secrets -/

/-- C83: strings are compared rightly. -/
theorem C83_strings {block : Nat} (hb : 0 < block) (x y : Str) :
    (Timing.stringsEqual block x y).value = decide (x = y) := by
  have key : ∀ (n i : Nat) (x y : Str), x.length = y.length → x.length ≤ n * block →
      (Timing.memequal block n i x y).value = decide (x = y) := by
    intro n
    induction n with
    | zero =>
      intro i x y h hn
      have hx : x = [] := List.length_eq_zero_iff.mp (by omega)
      have hy : y = [] := List.length_eq_zero_iff.mp (by omega)
      subst hx hy
      rfl
    | succ n ih =>
      intro i x y h hn
      unfold Timing.memequal
      simp only [value_bind, value_test]
      rw [Nat.add_mul] at hn
      by_cases he : x.take block = y.take block
      · simp only [he, decide_true, if_true]
        rw [ih _ _ _ (by simp only [List.length_drop, h]) (by rw [List.length_drop]; omega)]
        refine decide_eq_decide.mpr ⟨fun hd => ?_, fun hd => by rw [hd]⟩
        rw [← List.take_append_drop block x, he, hd, List.take_append_drop]
      · simp only [he, decide_false, Bool.false_eq_true, if_false, value_pure]
        exact (decide_eq_false fun hd => he (by rw [hd])).symm
  unfold Timing.stringsEqual
  simp only [value_bind, value_test]
  by_cases h : x.length = y.length
  · simp only [h, decide_true, if_true]
    refine key _ _ _ _ h ?_
    have := Nat.div_add_mod (y.length + block - 1) block
    have := Nat.mod_lt (y.length + block - 1) hb
    rw [Nat.mul_comm]
    omega
  · simp only [h, decide_false, Bool.false_eq_true, if_false, value_pure]
    exact (decide_eq_false fun hd => h (by rw [hd])).symm

theorem trace_bind {α β : Type} (x : Leaky α) (f : α → Leaky β) :
    (x >>= f).trace = x.trace ++ (f x.value).trace := rfl

theorem commonPrefix_take {x y : Str} (h : x.length = y.length) (b : Nat) :
    if x.take b = y.take b then b ≤ x.length → commonPrefix x y = b + commonPrefix (x.drop b) (y.drop b)
    else commonPrefix x y < b := by
  induction b generalizing x y with
  | zero => simp
  | succ b ih =>
    match x, y with
    | [], [] => simp
    | [], _ :: _ => simp at h
    | _ :: _, [] => simp at h
    | a :: x, c :: y =>
      have h' : x.length = y.length := by simpa using h
      have := ih h'
      simp only [List.take_succ_cons, List.cons.injEq, List.drop_succ_cons, commonPrefix, List.length_cons]
      by_cases hac : a = c
      · simp only [hac, true_and, if_true]
        split at this
        · rename_i he
          rw [if_pos he]
          intro hl
          rw [this (by omega)]
          omega
        · rename_i he
          rw [if_neg he]
          omega
      · simp only [hac, false_and, if_false]
        omega

/-- C83: how long the comparison of two strings of the same length takes tells how much they have in
common at the front. -/
theorem C83_strings_time {block : Nat} (hb : 0 < block) {x y : Str} (h : x.length = y.length) :
    steps (Timing.stringsEqual block x y) =
      1 + 3 * min ((x.length + block - 1) / block) (commonPrefix x y / block + 1) := by
  have key : ∀ (n i : Nat) (x y : Str), x.length = y.length → (x.length + block - 1) / block = n →
      (Timing.memequal block n i x y).trace.length = 3 * min n (commonPrefix x y / block + 1) := by
    intro n
    induction n with
    | zero => intro i x y h hn; simp [Timing.memequal, Pure.pure]
    | succ n ih =>
      intro i x y h hn
      have hc := commonPrefix_take h block
      have hpos : 1 ≤ x.length := by
        by_contra h0
        have : (x.length + block - 1) / block = 0 := Nat.div_eq_of_lt (by omega)
        omega
      unfold Timing.memequal
      simp only [trace_bind, value_test, List.length_append]
      by_cases he : x.take block = y.take block
      · simp only [he, decide_true, if_true] at hc ⊢
        by_cases hl : block ≤ x.length
        · have e : x.length + block - 1 = (x.length - block + block - 1) + block := by omega
          rw [e, Nat.add_div_right _ hb] at hn
          rw [ih _ _ _ (by simp only [List.length_drop, h]) (by rw [List.length_drop]; omega), hc hl]
          rw [Nat.add_div_left _ hb]
          simp only [Leaky.test, List.length_singleton]
          omega
        · have hn0 : n = 0 := by
            have : (x.length + block - 1) / block < 2 := (Nat.div_lt_iff_lt_mul hb).mpr (by omega)
            omega
          subst hn0
          simp only [Leaky.test, List.length_singleton, Timing.memequal]
          have : min (0 + 1) (commonPrefix x y / block + 1) = 1 :=
            Nat.min_eq_left (Nat.succ_le_succ (Nat.zero_le _))
          rw [this]
          rfl
      · simp only [he, decide_false, Bool.false_eq_true, if_false] at hc ⊢
        rw [Nat.div_eq_of_lt hc]
        simp only [Leaky.test, List.length_singleton]
        have : min (n + 1) (0 + 1) = 1 := by omega
        rw [this]
        rfl
  unfold steps Timing.stringsEqual
  simp only [trace_bind, value_test, h, decide_true, if_true, List.length_append]
  rw [key _ 0 x y h (by rw [h])]
  rfl

/-- C83: strings of different lengths are told apart at once. -/
theorem C83_strings_length {block : Nat} {x y : Str} (h : x.length ≠ y.length) :
    steps (Timing.stringsEqual block x y) = 1 := by
  unfold steps Timing.stringsEqual
  simp only [trace_bind, value_test, h, decide_false, Bool.false_eq_true, if_false, List.length_append]
  rfl

/-- C83, refuted for passwords and client secrets: two passwords of the same length, both of which an
attempt misses, are told apart. -/
theorem C83_password_refuted : ¬ ∀ (password password' attempt : Str), password.length = password'.length →
    password ≠ attempt → password' ≠ attempt →
    (Timing.stringsEqual 1 password attempt).trace = (Timing.stringsEqual 1 password' attempt).trace := by
  intro h
  exact absurd (h b!"secret" b!"monkey" b!"silent" rfl (by decide) (by decide)) (by decide)

/-! ### An attack -/

/-- What the attacker knows, given the times so far: the beginning of the password, and the byte to try
next. -/
def crackState : List Nat → Str × Nat
  | [] => ([], 0)
  | t :: ts =>
    if 1 + 3 * ((crackState ts).1.length + 2) ≤ t then
      ((crackState ts).1 ++ [UInt8.ofNat (crackState ts).2], 0)
    else ((crackState ts).1, (crackState ts).2 + 1)

/-- Tries one byte after the other, for passwords of `n` bytes. -/
def crack (n : Nat) : Guesser := fun ts =>
  ((crackState ts).1 ++ UInt8.ofNat (crackState ts).2 :: List.replicate (n - (crackState ts).1.length - 1) 0).take n

/-- Attempts until the first `i` bytes are known. -/
def crackTime (password : Str) (i : Nat) : Nat := ((password.take i).map (·.toNat + 1)).sum

theorem commonPrefix_append (u x y : Str) : commonPrefix (u ++ x) (u ++ y) = u.length + commonPrefix x y := by
  induction u with
  | nil => simp
  | cons a u ih =>
    simp only [List.cons_append, commonPrefix, if_true, List.length_cons, ih]
    omega

theorem crackTime_succ {password : Str} {i : Nat} (h : i < password.length) :
    crackTime password (i + 1) = crackTime password i + password[i].toNat + 1 := by
  unfold crackTime
  rw [List.take_succ_eq_append_getElem h]
  simp only [List.map_append, List.sum_append, List.map_cons, List.map_nil, List.sum_cons, List.sum_nil]
  omega

theorem crackTime_le (password : Str) : crackTime password password.length ≤ 256 * password.length := by
  unfold crackTime
  rw [List.take_length]
  induction password with
  | nil => simp
  | cons a x ih =>
    have := a.toNat_lt
    simp only [List.map_cons, List.sum_cons, List.length_cons]
    omega

/-- An attempt. -/
theorem crack_attempt {password : Str} {i c : Nat} (hi : i < password.length) {ts : List Nat}
    (h : crackState ts = (password.take i, c)) : crack password.length ts =
      password.take i ++ UInt8.ofNat c :: List.replicate (password.length - i - 1) 0 := by
  have hlen : (password.take i).length = i := by rw [List.length_take]; omega
  unfold crack
  rw [h]
  simp only [hlen]
  rw [List.take_of_length_le]
  simp only [List.length_append, List.length_cons, List.length_replicate, hlen]
  omega

/-- How long it takes. -/
theorem crack_steps {password : Str} {i c : Nat} (hi : i < password.length) {ts : List Nat}
    (h : crackState ts = (password.take i, c)) :
    ∃ k, steps (Timing.stringsEqual 1 password (crack password.length ts)) =
        1 + 3 * min password.length (k + 1) ∧
      (UInt8.ofNat c = password[i] → i + 1 ≤ k) ∧ (UInt8.ofNat c ≠ password[i] → k = i) := by
  have hlen : (password.take i).length = i := by rw [List.length_take]; omega
  have split : password = password.take i ++ password[i] :: password.drop (i + 1) := by
    rw [← List.drop_eq_getElem_cons hi, List.take_append_drop]
  refine ⟨commonPrefix password (crack password.length ts), ?_, ?_⟩
  · rw [C83_strings_time (by omega)]
    · simp
    · rw [crack_attempt hi h]
      simp only [List.length_append, List.length_cons, List.length_replicate, hlen]
      omega
  · rw [crack_attempt hi h]
    generalize List.replicate (password.length - i - 1) (0 : UInt8) = zeros
    have e : commonPrefix password (password.take i ++ UInt8.ofNat c :: zeros) =
        i + commonPrefix (password[i] :: password.drop (i + 1)) (UInt8.ofNat c :: zeros) := by
      conv_lhs => rw [split, List.take_left' (hlen.symm ▸ rfl)]
      rw [commonPrefix_append, hlen]
    rw [e, commonPrefix]
    constructor
    · intro hc
      rw [if_pos hc.symm]
      omega
    · intro hc
      rw [if_neg fun h => hc h.symm, Nat.add_zero]

/-- The state of the attack. -/
theorem crack_state (password : Str) (i : Nat) (hi : i < password.length) (c : Nat)
    (hc : c ≤ password[i].toNat) :
    crackState (measured (crack password.length) (fun x => steps (Timing.stringsEqual 1 password x))
      (crackTime password i + c)) = (password.take i, c) := by
  induction i generalizing c with
  | zero =>
    induction c with
    | zero => rfl
    | succ c ih =>
      have h := ih (by omega)
      obtain ⟨k, h1, _, h3⟩ := crack_steps hi h
      have hne : UInt8.ofNat c ≠ password[0] := fun e => by
        have := congrArg UInt8.toNat e
        have hlt := password[0].toNat_lt
        rw [UInt8.toNat_ofNat_of_lt' (by simp [UInt8.size]; omega)] at this
        omega
      rw [← Nat.add_assoc, measured, crackState]
      simp only [h, h1, h3 hne]
      rw [if_neg]
      simp
      omega
  | succ i ih =>
    have hi' : i < password.length := by omega
    have hlen : (password.take i).length = i := by rw [List.length_take]; omega
    induction c with
    | zero =>
      have h := ih hi' password[i].toNat (Nat.le_refl _)
      obtain ⟨k, h1, h2, _⟩ := crack_steps hi' h
      have hk := h2 UInt8.ofNat_toNat
      rw [Nat.add_zero, crackTime_succ hi', measured, crackState]
      simp only [h, h1, hlen]
      rw [if_pos (by omega), UInt8.ofNat_toNat, ← List.take_succ_eq_append_getElem hi']
    | succ c ihc =>
      have h := ihc (by omega)
      have hlen' : (password.take (i + 1)).length = i + 1 := by rw [List.length_take]; omega
      obtain ⟨k, h1, _, h3⟩ := crack_steps hi h
      have hne : UInt8.ofNat c ≠ password[i + 1] := fun e => by
        have := congrArg UInt8.toNat e
        have hlt := password[i + 1].toNat_lt
        rw [UInt8.toNat_ofNat_of_lt' (by simp [UInt8.size]; omega)] at this
        omega
      rw [← Nat.add_assoc, measured, crackState]
      simp only [h, h1, h3 hne, hlen']
      rw [if_neg (by omega)]

/-- C83: somebody who can measure the time of a comparison that looks at one byte after the other finds
any password or client secret of `n` bytes in at most `256 * n` attempts, and not only by chance among the
`256 ^ n` there are. -/
theorem C83_password_found (n : Nat) : ∃ g : Guesser, ∀ password : Str, password.length = n →
    ∃ i ≤ 256 * n, g (measured g (fun x => steps (Timing.stringsEqual 1 password x)) i) = password := by
  refine ⟨crack n, ?_⟩
  rintro password rfl
  by_cases h0 : password.length = 0
  · have : password = [] := List.length_eq_zero_iff.mp h0
    subst this
    exact ⟨0, by omega, rfl⟩
  · have hi : password.length - 1 < password.length := by omega
    have h := crack_state password _ hi password[password.length - 1].toNat (Nat.le_refl _)
    refine ⟨_, ?_, (crack_attempt hi h).trans ?_⟩
    · have := crackTime_succ hi
      have := crackTime_le password
      rw [show password.length - 1 + 1 = password.length by omega] at *
      omega
    · rw [UInt8.ofNat_toNat, show password.length - (password.length - 1) - 1 = 0 by omega, List.replicate_zero,
        ← List.take_succ_eq_append_getElem hi, show password.length - 1 + 1 = password.length by omega,
        List.take_length]

/-! ### Non-vacuity -/

/-- A token, forged in the last byte, parsed under two secrets of sixteen bytes. -/
example : (Timing.parse b!"0123456789abcdef" b!"AQI.k2XEDrh7DDV_NA212JyTDfNeILclV1aqJpVOsf2G6jw").trace =
    (Timing.parse b!"fedcba9876543210" b!"AQI.k2XEDrh7DDV_NA212JyTDfNeILclV1aqJpVOsf2G6jw").trace := by
  have key : ∀ {secret text : Str}, (HS256Token.parse secret text).toBool = false → ¬ Accepted secret text := by
    rintro secret text h ⟨t, e⟩
    rw [e] at h
    cases h
  exact C83_parse _ rfl ⟨fun h => absurd h (key (by decide +kernel)), fun h => absurd h (key (by decide +kernel))⟩

/-- It is read to the end: the signature is computed and compared. -/
example : (HS256Token.mk [1, 2] ((b64RawURLDecode b!"k2XEDrh7DDV_NA212JyTDfNeILclV1aqJpVOsf2G6jw").getD [])).signature.length
    = 32 := by decide +kernel

/-- Signatures that agree up to the last byte, and that differ in the first. -/
example : (Timing.equal ⟨[1], b!"signature"⟩ b!"signaturf").trace =
    (Timing.equal ⟨[1], b!"signature"⟩ b!"tignature").trace := C83_equal rfl rfl

/-- A secret that has to be hashed first, being longer than a block. -/
example : (Timing.fromKey (List.replicate 65 1) [1, 2, 3]).trace =
    (Timing.fromKey (List.replicate 65 7) [9, 8, 7]).trace := C83_made (by simp) rfl

/-- The attack on the password `ab` is over after 196 attempts. -/
example : crack 2 (measured (crack 2) (fun x => steps (Timing.stringsEqual 1 b!"ab" x)) 196) = b!"ab" := by
  decide +kernel

end OAuth2
