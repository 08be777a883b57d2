import Verif.Model.Timing
import Verif.Props.Sha256

/-! The values and the traces of computations that are watched. -/

namespace OAuth2

open Leaky

/-! ### Values -/

namespace Leaky

variable {α β : Type}

@[simp] theorem value_pure (a : α) : (pure a : Leaky α).value = a := rfl
@[simp] theorem value_bind (x : Leaky α) (f : α → Leaky β) : (x >>= f).value = (f x.value).value := rfl
@[simp] theorem value_test (b : Bool) : (test b).value = b := rfl
@[simp] theorem value_load [Inhabited α] (x : List α) (i : Nat) : (load x i).value = x.getD i default := rfl
@[simp] theorem value_copy (x : Str) : (copy x).value = x := rfl
@[simp] theorem value_open (text : Str) (f : Str → α) : (open_ text f).value = f text := rfl

theorem value_loop_zero (lo : Nat) (body : Nat → α → Leaky α) (s : α) : (loop lo 0 body s).value = s := rfl

theorem value_loop_succ (lo n : Nat) (body : Nat → α → Leaky α) (s : α) :
    (loop lo (n + 1) body s).value = (loop (lo + 1) n body (body lo s).value).value := rfl

/-- Collecting one result per round. -/
theorem value_collect (lo n : Nat) (f : Nat → α) (body : Nat → List α → Leaky (List α))
    (h : ∀ i w, (body i w).value = w ++ [f i]) (w : List α) :
    (loop lo n body w).value = w ++ (List.range' lo n).map f := by
  induction n generalizing lo w with
  | zero => simp [value_loop_zero]
  | succ n ih => rw [value_loop_succ, h, ih, List.range'_succ]; simp

end Leaky

namespace Sha256

theorem toWords_append {a b : Str} : ∀ n, a.length = 4 * n → toWords (a ++ b) = toWords a ++ toWords b := by
  induction a using toWords.induct with
  | case1 x y z w rest ih =>
    intro n h
    simp only [List.cons_append, toWords]
    rw [ih (n - 1) (by simp at h; omega)]
  | case2 t h =>
    intro n hn
    match t, h with
    | [], _ => rfl
    | [_], _ => simp at hn; omega
    | [_, _], _ => simp at hn; omega
    | [_, _, _], _ => simp at hn; omega
    | x :: y :: z :: w :: r, h => exact absurd rfl (h x y z w r)

theorem toWords_length {a : Str} {n : Nat} (h : a.length = 4 * n) : (toWords a).length = n := by
  rw [toWords_eq a n h]; simp

theorem value_firstWords {p : Str} (h : p.length = 64) : (firstWords p).value = toWords p := by
  unfold firstWords
  rw [value_collect 0 16 _ _ (fun i w => rfl), toWords_eq p 16 (by omega), List.range_eq_range',
    List.nil_append]
  refine List.map_congr_left fun i _ => ?_
  rw [Nat.mul_comm 4 i]
  rfl

theorem getD_reverse_nat (w : List Nat) (i : Nat) (h : i < w.length) :
    w.reverse.getD i 0 = w.getD (w.length - (i + 1)) default := by
  simp only [List.getD_eq_getElem?_getD]
  rw [List.getElem?_reverse h, Nat.sub_sub, Nat.add_comm 1 i]
  rfl

theorem value_schedule (n lo : Nat) (w : List Nat) (hw : w.length = lo) (hl : 16 ≤ lo)
    (body : Nat → List Nat → Leaky (List Nat))
    (hb : body = fun i w => do
      let v1 ← load w (i - 2)
      let v2 ← load w (i - 15)
      let v3 ← load w (i - 7)
      let v4 ← load w (i - 16)
      let t1 := rotr 17 v1 ^^^ rotr 19 v1 ^^^ (v1 >>> 10)
      let t2 := rotr 7 v2 ^^^ rotr 18 v2 ^^^ (v2 >>> 3)
      return w ++ [(t1 + v3 + t2 + v4) % w32]) :
    (loop lo n body w).value = (schedule n w.reverse).reverse := by
  induction n generalizing lo w with
  | zero => simp [value_loop_zero, schedule]
  | succ n ih =>
    rw [value_loop_succ, ih (lo + 1) _ (by rw [hb]; simp [hw]) (by omega)]
    congr 1
    rw [schedule, getD_reverse_nat w 1 (by omega), getD_reverse_nat w 6 (by omega), getD_reverse_nat w 14 (by omega),
      getD_reverse_nat w 15 (by omega), hw]
    subst hb
    simp

theorem value_rounds (n lo : Nat) (w : List Nat) (r : Regs) (hw : w.length = lo + n) (hk : K.length = lo + n)
    (body : Nat → Regs → Leaky Regs)
    (hb : body = fun i r => do
      let k ← load K i
      let x ← load w i
      return round r k x) :
    (loop lo n body r).value = rounds (K.drop lo) (w.drop lo) r := by
  induction n generalizing lo r with
  | zero =>
    rw [value_loop_zero, List.drop_eq_nil_of_le (by omega), rounds]
    simp
  | succ n ih =>
    rw [value_loop_succ, ih (lo + 1) _ (by omega) (by omega)]
    rw [List.drop_eq_getElem_cons (l := K) (i := lo) (by omega),
      List.drop_eq_getElem_cons (l := w) (i := lo) (by omega), rounds]
    congr 1
    subst hb
    simp only [value_bind, value_load, value_pure]
    rw [List.getD_eq_getElem?_getD, List.getD_eq_getElem?_getD, List.getElem?_eq_getElem (by omega),
      List.getElem?_eq_getElem (by omega)]
    rfl

theorem schedule_length (n : Nat) (w : List Nat) : (schedule n w).length = w.length + n := by
  induction n generalizing w with
  | zero => rfl
  | succ n ih => rw [schedule, ih]; simp; omega

theorem value_oneBlock {p : Str} (h : p.length = 64) (r : Regs) :
    (oneBlock r p).value = block r (toWords p) := by
  unfold oneBlock block
  simp only [value_bind, value_pure, value_firstWords h]
  have e1 : (allWords (toWords p)).value = (schedule 48 (toWords p).reverse).reverse :=
    value_schedule 48 16 _ (toWords_length (by omega)) (by omega) _ rfl
  have e2 : (allRounds (schedule 48 (toWords p).reverse).reverse r).value =
      rounds K (schedule 48 (toWords p).reverse).reverse r :=
    value_rounds 64 0 _ r (by simp [schedule_length, toWords_length (a := p) (n := 16) (by omega)])
      rfl _ rfl
  rw [e1, e2]

theorem value_someBlocks (n : Nat) (r : Regs) (p : Str) (h : p.length = 64 * n) :
    (someBlocks n r p).value = blocks n (toWords p) r := by
  induction n generalizing r p with
  | zero => rfl
  | succ n ih =>
    have hl : (p.take 64).length = 64 := by rw [List.length_take]; omega
    have e : toWords p = toWords (p.take 64) ++ toWords (p.drop 64) := by
      conv_lhs => rw [← List.take_append_drop 64 p]
      exact toWords_append 16 hl
    have hw : (toWords (p.take 64)).length = 16 := toWords_length (by omega)
    rw [someBlocks, blocks, e]
    simp only [value_bind]
    rw [ih _ _ (by rw [List.length_drop]; omega), value_oneBlock hl, List.drop_left' hw, List.take_left' hw]

theorem blocks_append (a b : Nat) (u v : List Nat) (r : Regs) (h : u.length = 16 * a) :
    blocks (a + b) (u ++ v) r = blocks b v (blocks a u r) := by
  induction a generalizing u r with
  | zero =>
    have : u = [] := List.length_eq_zero_iff.mp (by omega)
    subst this
    rw [Nat.zero_add]
    rfl
  | succ a ih =>
    rw [show a + 1 + b = a + b + 1 by omega, blocks, blocks]
    rw [List.drop_append_of_le_length (by omega), List.take_append_of_le_length (by omega)]
    exact ih _ _ (by rw [List.length_drop]; omega)

/-- The digest has taken in the message. -/
structure Rep (d : Digest) (m : Str) : Prop where
  parts : ∃ q done, m = done ++ d.x ∧ done.length = 64 * q ∧ d.h = blocks q (toWords done) init
  short : d.x.length < 64
  len : d.len = m.length

theorem rep_new : Rep Digest.new [] := ⟨⟨0, [], rfl, rfl, rfl⟩, by decide, rfl⟩

/-- Some blocks more. -/
theorem more {q n : Nat} {done p : Str} {h : Regs} (hd : done.length = 64 * q)
    (hh : h = blocks q (toWords done) init) (hp : p.length = 64 * n) :
    (done ++ p).length = 64 * (q + n) ∧
      (someBlocks n h p).value = blocks (q + n) (toWords (done ++ p)) init := by
  refine ⟨by rw [List.length_append]; omega, ?_⟩
  rw [value_someBlocks n h p hp, toWords_append (16 * q) (by omega),
    blocks_append _ _ _ _ _ (by rw [toWords_length (n := 16 * q) (by omega)]), hh]

theorem rep_write {d : Digest} {m : Str} (h : Rep d m) (p : Str) : Rep (d.write p).value (m ++ p) := by
  obtain ⟨⟨q, done, hm, hd, hh⟩, hs, hl⟩ := h
  -- the rest, from where no bytes wait
  have tail : ∀ (d' : Digest) (p' : Str), ((d'.x = [] ∧ ∃ q' done', done'.length = 64 * q' ∧
      d'.h = blocks q' (toWords done') init ∧ m ++ p = done' ++ p') ∧ d'.len = (m ++ p).length) →
      Rep (do
        let (d, p) ← (do
          if ← test (64 ≤ p'.length) then
            let n := p'.length / 64
            let h ← someBlocks n d'.h (p'.take (n * 64))
            return ({ d' with h := h }, p'.drop (n * 64))
          else return (d', p') : Leaky (Digest × Str))
        if ← test (0 < p.length) then
          let c ← copy p
          return { d with x := c }
        else return d : Leaky Digest).value (m ++ p) := by
    rintro d' p' ⟨⟨hx, q', done', hd', hh', e⟩, hl'⟩
    simp only [value_bind, value_test]
    by_cases h64 : 64 ≤ p'.length
    · have ht : (p'.take (p'.length / 64 * 64)).length = 64 * (p'.length / 64) := by
        rw [List.length_take]; omega
      obtain ⟨m1, m2⟩ := more hd' hh' ht
      have hdrop : (p'.drop (p'.length / 64 * 64)).length < 64 := by rw [List.length_drop]; omega
      have e' : m ++ p = (done' ++ p'.take (p'.length / 64 * 64)) ++ p'.drop (p'.length / 64 * 64) := by
        rw [List.append_assoc, List.take_append_drop, e]
      simp only [h64, decide_true, if_true, value_bind, value_pure]
      split
      · simp only [value_bind, value_copy, value_pure]
        exact ⟨⟨_, _, e', m1, m2⟩, hdrop, hl'⟩
      · rename_i hz
        have hz : p'.drop (p'.length / 64 * 64) = [] := by
          apply List.length_eq_zero_iff.mp
          simpa using hz
        simp only [value_pure]
        rw [hz, List.append_nil] at e'
        exact ⟨⟨_, _, by simp only [hx, List.append_nil]; exact e', m1, m2⟩, by simp [hx], hl'⟩
    · simp only [h64, decide_false, Bool.false_eq_true, if_false, value_pure]
      split
      · simp only [value_bind, value_copy, value_pure]
        exact ⟨⟨_, _, e, hd', hh'⟩, by simp only; omega, hl'⟩
      · rename_i hz
        have hz : p' = [] := List.length_eq_zero_iff.mp (by simpa using hz)
        simp only [value_pure]
        subst hz
        exact ⟨⟨_, _, by rw [hx]; exact e, hd', hh'⟩, by simp [hx], hl'⟩
  have hlen : d.len + p.length = (m ++ p).length := by rw [List.length_append, hl]
  unfold Digest.write
  simp only [value_bind]
  by_cases hx : 0 < d.x.length
  · by_cases h64 : 64 - d.x.length ≤ p.length
    · have hc : (p.take (64 - d.x.length)).length = 64 - d.x.length := by rw [List.length_take]; omega
      have hfull : (d.x ++ p.take (64 - d.x.length)).length = 64 := by rw [List.length_append]; omega
      obtain ⟨m1, m2⟩ := more (n := 1) hd hh hfull
      have e : (Digest.fill { d with len := d.len + p.length } p).value =
          ({ h := (someBlocks 1 d.h (d.x ++ p.take (64 - d.x.length))).value, x := [], len := d.len + p.length },
            p.drop (64 - d.x.length)) := by
        unfold Digest.fill
        simp only [value_bind, value_test, hx, decide_true, if_true, value_copy, hfull, value_pure, hc]
      rw [e]
      refine tail _ _ ⟨⟨rfl, q + 1, _, m1, m2, ?_⟩, hlen⟩
      rw [hm, List.append_assoc, List.append_assoc, List.append_assoc, List.take_append_drop]
    · have hc : p.take (64 - d.x.length) = p := List.take_of_length_le (by omega)
      have hnot : ¬ (d.x ++ p).length = 64 := by rw [List.length_append]; omega
      have e : (Digest.fill { d with len := d.len + p.length } p).value =
          ({ h := d.h, x := d.x ++ p, len := d.len + p.length }, []) := by
        unfold Digest.fill
        simp only [value_bind, value_test, hx, decide_true, if_true, value_copy, hc, hnot, decide_false,
          Bool.false_eq_true, if_false, value_pure, List.drop_length]
      rw [e]
      have e2 : ∀ d : Digest, (do
          let (d, p) ← (do
            if ← test (decide (64 ≤ ([] : Str).length)) then
              let n := ([] : Str).length / 64
              let h ← someBlocks n d.h (([] : Str).take (n * 64))
              return ({ d with h := h }, ([] : Str).drop (n * 64))
            else return (d, []) : Leaky (Digest × Str))
          if ← test (0 < p.length) then
            let c ← copy p
            return { d with x := c }
          else return d : Leaky Digest).value = d := fun d => rfl
      refine (e2 _).symm ▸ ?_
      exact ⟨⟨q, done, by rw [hm, List.append_assoc], hd, hh⟩, by simp only [List.length_append]; omega, hlen⟩
  · have hx' : d.x = [] := List.length_eq_zero_iff.mp (by omega)
    have e : (Digest.fill { d with len := d.len + p.length } p).value =
        ({ d with len := d.len + p.length }, p) := by
      unfold Digest.fill
      simp only [value_bind, value_test, hx, decide_false, Bool.false_eq_true, if_false, value_pure]
    rw [e]
    refine tail _ _ ⟨⟨hx', q, done, hd, hh, ?_⟩, hlen⟩
    rw [hm, hx', List.append_nil]

theorem be_length (n k : Nat) : (be n k).length = k := by
  induction k with
  | zero => rfl
  | succ k ih => rw [be, List.length_cons, ih]

theorem value_checkSum {d : Digest} {m : Str} (h : Rep d m) : d.checkSum.value = sha256 m := by
  have hl := h.len
  have hpad : ∃ p, pad m = m ++ p ++ be (m.length * 8) 8 ∧ (pad m).length % 64 = 0 ∧
      p = 0x80 :: List.replicate ((119 - m.length % 64) % 64) 0 := by
    refine ⟨_, by rw [pad, List.append_assoc, List.append_assoc]; simp, ?_, rfl⟩
    rw [pad]
    simp only [List.length_append, List.length_replicate, be_length, List.length_singleton]
    omega
  obtain ⟨p, e, hm, hp⟩ := hpad
  have hw : d.checkSum.value = (do
      let d ← d.write p
      let d ← d.write (be (m.length * 8) 8)
      let r := d.h
      return be r.a 4 ++ be r.b 4 ++ be r.c 4 ++ be r.d 4 ++ be r.e 4 ++ be r.f 4 ++ be r.g 4 ++ be r.h 4 :
      Leaky Str).value := by
    unfold Digest.checkSum
    simp only [value_bind, value_test, hl]
    by_cases hlt : m.length % 64 < 56
    · have : (119 - m.length % 64) % 64 = 56 - m.length % 64 - 1 := by omega
      simp only [hlt, decide_true, if_true]
      rw [hp, this]
    · have : (119 - m.length % 64) % 64 = 64 + 56 - m.length % 64 - 1 := by omega
      simp only [hlt, decide_false, Bool.false_eq_true, if_false]
      rw [hp, this]
  have r2 := rep_write (rep_write h p) (be (m.length * 8) 8)
  rw [← e] at r2
  rw [hw]
  simp only [value_bind, value_pure]
  generalize ((d.write p).value.write (be (m.length * 8) 8)).value = d2 at r2
  obtain ⟨⟨q, done, h1, h2, h3⟩, h4, h5⟩ := r2
  have hx : d2.x = [] := by
    apply List.length_eq_zero_iff.mp
    have := congrArg List.length h1
    rw [List.length_append] at this
    omega
  rw [hx, List.append_nil] at h1
  rw [h3, sha256, h1, h2, Nat.mul_div_cancel_left _ (by omega)]

end Sha256

end OAuth2

namespace OAuth2

open Leaky Sha256

namespace Timing

theorem value_xorPad {pad : Str} (h : pad.length = 64) (byte : UInt8) :
    (xorPad pad byte).value = pad.map (· ^^^ byte) := by
  unfold xorPad
  rw [value_collect 0 64 (fun i => pad.getD i default ^^^ byte) _ (fun i w => rfl), List.nil_append]
  refine List.ext_getElem (by simp [h]) fun i h1 h2 => ?_
  have hi : i < pad.length := by simpa using h2
  simp only [List.getElem_map, List.getElem_range', Nat.zero_add, Nat.one_mul]
  rw [List.getD_eq_getElem?_getD, List.getElem?_eq_getElem hi]
  rfl

/-- The key as it is padded. -/
def padded (secret : Str) : Str :=
  let k0 := if secret.length > 64 then sha256 secret else secret
  k0 ++ List.replicate (64 - k0.length) 0

theorem hmac_padded (secret msg : Str) : hmacSHA256 secret msg =
    sha256 ((padded secret).map (· ^^^ 0x5c) ++ sha256 ((padded secret).map (· ^^^ 0x36) ++ msg)) := rfl

theorem digest_length (m : Str) : (sha256 m).length = 32 := by
  simp only [sha256, List.length_append, be_length]

theorem padded_length (secret : Str) : (padded secret).length = 64 := by
  unfold padded
  simp only [List.length_append, List.length_replicate]
  split
  · rw [digest_length]
  · omega

theorem value_new (secret : Str) : (Hmac.new secret).value.opad = (padded secret).map (· ^^^ 0x5c) ∧
    (Hmac.new secret).value.inner = (Digest.new.write ((padded secret).map (· ^^^ 0x36))).value := by
  have hl := padded_length secret
  have key : (do
      if ← test (64 < secret.length) then
        let outer ← Digest.new.write secret
        outer.checkSum
      else return secret : Leaky Str).value = if secret.length > 64 then sha256 secret else secret := by
    simp only [value_bind, value_test]
    by_cases h : 64 < secret.length
    · simp only [h, decide_true, if_true, value_bind]
      rw [value_checkSum (rep_write rep_new secret), List.nil_append]
    · simp only [h, decide_false, Bool.false_eq_true, if_false, value_pure]
  unfold Hmac.new
  rw [value_bind, key]
  unfold padded at hl ⊢
  generalize (if secret.length > 64 then sha256 secret else secret) = k0 at hl
  simp only at hl
  simp only [value_bind, value_copy, value_pure, value_xorPad hl, and_self]

theorem value_sum {h : Hmac} {m : Str} (hr : Rep h.inner m) : h.sum.value = sha256 (h.opad ++ sha256 m) := by
  unfold Hmac.sum
  simp only [value_bind]
  rw [value_checkSum hr, value_checkSum (rep_write (rep_write rep_new _) _), List.nil_append]

theorem value_hmac {H : Hmac} {m : Str} (hr : Rep H.inner m) (key : Str) :
    ((H.write key).value.sum).value = sha256 (H.opad ++ sha256 (m ++ key)) := by
  have h := rep_write hr key
  unfold Hmac.write
  rw [value_bind, value_pure]
  generalize (H.inner.write key).value = d at h
  exact value_sum h

theorem value_fromKey (secret key : Str) : (fromKey secret key).value = HS256Token.fromKey secret key := by
  obtain ⟨e1, e2⟩ := value_new secret
  have hr := rep_write rep_new ((padded secret).map (· ^^^ 0x36))
  rw [List.nil_append, ← e2] at hr
  unfold HS256Token.fromKey fromKey
  rw [value_bind, value_bind, value_bind, value_pure, hmac_padded, value_hmac hr, e1]

theorem or_xor (v a b : UInt8) : v ||| (a ^^^ b) = 0 ↔ v = 0 ∧ a = b := by
  rw [UInt8.or_eq_zero_iff, UInt8.xor_eq_zero_iff]

theorem byteEq_zero (v : UInt8) : byteEq v 0 = if v = 0 then 1 else 0 := by
  revert v
  apply forall_u8 (P := fun v => byteEq v 0 = if v = 0 then 1 else 0)
  decide +kernel

theorem value_compareLoop (x y : Str) (n lo : Nat) (v : UInt8) (h : x.length = lo + n) (h' : y.length = lo + n)
    (body : Nat → UInt8 → Leaky UInt8)
    (hb : body = fun i v => do
      let a ← load x i
      let b ← load y i
      return v ||| (a ^^^ b)) :
    (loop lo n body v).value = 0 ↔ v = 0 ∧ x.drop lo = y.drop lo := by
  induction n generalizing lo v with
  | zero =>
    rw [value_loop_zero, List.drop_eq_nil_of_le (by omega), List.drop_eq_nil_of_le (by omega)]
    simp
  | succ n ih =>
    rw [value_loop_succ, ih (lo + 1) _ (by omega) (by omega)]
    rw [List.drop_eq_getElem_cons (l := x) (i := lo) (by omega),
      List.drop_eq_getElem_cons (l := y) (i := lo) (by omega), List.cons.injEq]
    subst hb
    simp only [value_bind, value_load, value_pure]
    rw [or_xor, List.getD_eq_getElem?_getD, List.getD_eq_getElem?_getD, List.getElem?_eq_getElem (by omega),
      List.getElem?_eq_getElem (by omega)]
    simp only [Option.getD_some, and_assoc]

theorem value_compare (x y : Str) : (constantTimeCompare x y).value = if x = y then 1 else 0 := by
  unfold constantTimeCompare
  simp only [value_bind, value_test]
  by_cases h : x.length = y.length
  · simp only [h, ne_eq, not_true, decide_false, Bool.false_eq_true, if_false, value_bind, value_pure]
    have := value_compareLoop x y y.length 0 0 (by omega) (by omega) _ rfl
    rw [byteEq_zero]
    by_cases e : x = y
    · rw [if_pos e, if_pos (this.mpr ⟨rfl, by rw [e]⟩)]
    · rw [if_neg e, if_neg fun h' => e (by simpa using (this.mp h').2)]
  · simp only [h, ne_eq, not_false_eq_true, decide_true, if_true, value_pure]
    rw [if_neg fun e => h (by rw [e])]

theorem value_equal (t : HS256Token) (signature : Str) : (equal t signature).value = t.equal signature := by
  unfold equal HS256Token.equal
  simp only [value_bind, value_pure, value_compare]
  by_cases h : t.signature = signature <;> simp [h]

theorem value_valid (t : HS256Token) (secret : Str) : (valid t secret).value = t.valid secret := by
  unfold valid HS256Token.valid
  simp only [value_bind, value_fromKey, value_equal]

theorem value_parse (secret str : Str) : (parse secret str).value = HS256Token.parse secret str := by
  unfold parse HS256Token.parse
  rw [value_bind, value_open]
  generalize splitByte 0x2E str = l
  match l with
  | [] => rfl
  | [_] => rfl
  | [s0, s1] =>
    simp only [value_bind, value_open]
    cases b64RawURLDecode s0 with
    | none => rfl
    | some key =>
      simp only [value_bind, value_open]
      cases b64RawURLDecode s1 with
      | none => rfl
      | some signature =>
        simp only [value_bind, value_test, value_valid]
        generalize HS256Token.valid _ secret = v
        cases v <;> rfl
  | _ :: _ :: _ :: _ => rfl

end Timing

/-! ### Traces -/

/-- Nothing tells the computations apart, and their results are related. -/
def Alike {α β : Type} (R : α → β → Prop) (x : Leaky α) (y : Leaky β) : Prop :=
  x.trace = y.trace ∧ R x.value y.value

namespace Alike

variable {α β γ δ : Type}

theorem pure {R : α → β → Prop} {a : α} {b : β} (h : R a b) : Alike R (Pure.pure a) (Pure.pure b) := ⟨rfl, h⟩

theorem bind {R : α → β → Prop} {S : γ → δ → Prop} {x : Leaky α} {y : Leaky β} {f : α → Leaky γ}
    {g : β → Leaky δ} (h : Alike R x y) (hf : ∀ a b, R a b → Alike S (f a) (g b)) :
    Alike S (x >>= f) (y >>= g) := by
  obtain ⟨h1, h2⟩ := hf _ _ h.2
  exact ⟨by show x.trace ++ _ = y.trace ++ _; rw [h.1, h1], h2⟩

theorem test {b b' : Bool} (h : b = b') : Alike Eq (Leaky.test b) (Leaky.test b') := by
  subst h; exact ⟨rfl, rfl⟩

theorem load [Inhabited α] [Inhabited β] (x : List α) (y : List β) (i : Nat) :
    Alike (fun _ _ => True) (Leaky.load x i) (Leaky.load y i) := ⟨rfl, trivial⟩

theorem copy {x y : Str} (h : x.length = y.length) :
    Alike (fun x y => x.length = y.length) (Leaky.copy x) (Leaky.copy y) :=
  ⟨by show [_] = [_]; rw [h], h⟩

theorem loop {R : α → β → Prop} (lo n : Nat) {f : Nat → α → Leaky α} {g : Nat → β → Leaky β}
    (h : ∀ i a b, R a b → Alike R (f i a) (g i b)) {a : α} {b : β} (hab : R a b) :
    Alike R (Leaky.loop lo n f a) (Leaky.loop lo n g b) := by
  induction n generalizing lo a b with
  | zero => exact bind (test rfl) fun _ _ _ => pure hab
  | succ n ih => exact bind (test rfl) fun _ _ _ => bind (h _ _ _ hab) fun _ _ h' => ih _ h'

/-- A condition that comes out the same. -/
theorem ite {R : α → β → Prop} {b b' : Bool} {x x' : Leaky α} {y y' : Leaky β} (hb : b = b')
    (h1 : b = true → Alike R x y) (h2 : b = false → Alike R x' y') :
    Alike R (if b then x else x') (if b' then y else y') := by
  subst hb
  cases b
  · exact h2 rfl
  · exact h1 rfl

end Alike

namespace Sha256

/-- Digests of as many bytes. -/
structure Digest.Shape (d d' : Digest) : Prop where
  x : d.x.length = d'.x.length
  len : d.len = d'.len

theorem alike_oneBlock (r r' : Regs) (p p' : Str) : Alike (fun _ _ => True) (oneBlock r p) (oneBlock r' p') := by
  have hk : ∀ (w w' : List Nat) (r r' : Regs), Alike (fun _ _ => True) (allRounds w r) (allRounds w' r') := by
    intro w w' r r'
    unfold allRounds
    refine Alike.loop (R := fun _ _ => True) 0 64 ?_ trivial
    intro i a b _
    exact .bind (.load _ _ _) fun _ _ _ => .bind (.load _ _ _) fun _ _ _ => .pure trivial
  have hs : ∀ w w' : List Nat, Alike (fun _ _ => True) (allWords w) (allWords w') := by
    intro w w'
    unfold allWords
    refine Alike.loop (R := fun _ _ => True) 16 48 ?_ trivial
    intro i a b _
    exact .bind (.load _ _ _) fun _ _ _ => .bind (.load _ _ _) fun _ _ _ =>
      .bind (.load _ _ _) fun _ _ _ => .bind (.load _ _ _) fun _ _ _ => .pure trivial
  have hf : Alike (fun _ _ => True) (firstWords p) (firstWords p') := by
    unfold firstWords
    refine Alike.loop (R := fun _ _ => True) 0 16 ?_ trivial
    intro i a b _
    exact .bind (.load _ _ _) fun _ _ _ => .bind (.load _ _ _) fun _ _ _ =>
      .bind (.load _ _ _) fun _ _ _ => .bind (.load _ _ _) fun _ _ _ => .pure trivial
  exact .bind hf fun _ _ _ => .bind (hs _ _) fun _ _ _ => .bind (hk _ _ _ _) fun _ _ _ => .pure trivial

theorem alike_someBlocks (n : Nat) (r r' : Regs) (p p' : Str) :
    Alike (fun _ _ => True) (someBlocks n r p) (someBlocks n r' p') := by
  induction n generalizing r r' p p' with
  | zero => exact .bind (.test rfl) fun _ _ _ => .pure trivial
  | succ n ih => exact .bind (.test rfl) fun _ _ _ => .bind (alike_oneBlock _ _ _ _) fun _ _ _ => ih _ _ _ _

theorem alike_fill {d d' : Digest} (hd : d.Shape d') {p p' : Str} (hp : p.length = p'.length) :
    Alike (fun a b => Digest.Shape a.1 b.1 ∧ a.2.length = b.2.length) (d.fill p) (d'.fill p') := by
  obtain ⟨hx, hl⟩ := hd
  refine .bind (.test (by rw [hx])) fun b b' hb => .ite hb (fun _ => ?_) fun _ => .pure ⟨⟨hx, hl⟩, hp⟩
  refine .bind (.copy (by simp only [List.length_take, hx, hp])) fun c c' hc => ?_
  refine .bind (.test (by simp only [List.length_append, hx, hc])) fun b b' hb =>
    .ite hb (fun _ => ?_) fun _ => .pure ⟨⟨by simp only [List.length_append, hx, hc], hl⟩, ?_⟩
  · exact .bind (alike_someBlocks _ _ _ _ _) fun _ _ _ => .pure
      ⟨⟨rfl, hl⟩, by simp only [List.length_drop, hp, hc]⟩
  · simp only [List.length_drop, hp, hc]

theorem alike_write {d d' : Digest} (hd : d.Shape d') {p p' : Str} (hp : p.length = p'.length) :
    Alike Digest.Shape (d.write p) (d'.write p') := by
  refine .bind (alike_fill (d := { d with len := d.len + p.length }) (d' := { d' with len := d'.len + p'.length })
    ⟨hd.x, by simp only [hd.len, hp]⟩ hp) fun a a' ha => ?_
  obtain ⟨d, p⟩ := a
  obtain ⟨d', p'⟩ := a'
  obtain ⟨hd, hp⟩ := ha
  simp only at hd hp ⊢
  refine .bind (R := fun a b => Digest.Shape a.1 b.1 ∧ a.2.length = b.2.length) ?_ fun a a' ha => ?_
  · refine .bind (.test (by rw [hp])) fun b b' hb => .ite hb (fun _ => ?_) fun _ => .pure ⟨hd, hp⟩
    rw [hp]
    exact .bind (alike_someBlocks _ _ _ _ _) fun _ _ _ => .pure
      ⟨⟨hd.x, hd.len⟩, by simp only [List.length_drop, hp]⟩
  · obtain ⟨d, p⟩ := a
    obtain ⟨d', p'⟩ := a'
    obtain ⟨hd, hp⟩ := ha
    simp only at hd hp ⊢
    refine .bind (.test (by rw [hp])) fun b b' hb => .ite hb (fun _ => ?_) fun _ => .pure hd
    exact .bind (.copy hp) fun _ _ hc => .pure ⟨hc, hd.len⟩

theorem alike_checkSum {d d' : Digest} (hd : d.Shape d') :
    Alike (fun a b => a.length = 32 ∧ b.length = 32) d.checkSum d'.checkSum := by
  have e4 : ∀ n, (be n 4).length = 4 := fun n => be_length n 4
  refine .bind (R := Digest.Shape) ?_ fun a b hab => .bind (alike_write hab (by rw [hd.len])) fun _ _ _ => .pure ?_
  · refine .bind (.test (by rw [hd.len])) fun b b' hb => .ite hb (fun _ => ?_) fun _ => ?_
    · exact alike_write hd (by rw [hd.len])
    · exact alike_write hd (by rw [hd.len])
  · simp only [List.length_append, e4, and_self]

end Sha256

namespace Timing

theorem alike_xorPad (x y : Str) (b c : UInt8) :
    Alike (fun x y => x.length = y.length) (xorPad x b) (xorPad y c) := by
  unfold xorPad
  refine Alike.loop (R := fun x y : Str => x.length = y.length) 0 64 ?_ rfl
  intro _ _ _ h
  exact .bind (.load _ _ _) fun _ _ _ => .pure (by simp only [List.length_append, h, List.length_singleton])

theorem alike_fromKey {secret secret' key key' : Str} (hs : secret.length = secret'.length)
    (hk : key.length = key'.length) :
    Alike (fun a b => a.signature.length = 32 ∧ b.signature.length = 32) (fromKey secret key)
      (fromKey secret' key') := by
  refine .bind (R := fun a b : Hmac => a.opad.length = b.opad.length ∧ a.inner.Shape b.inner) ?_ fun h h' hh => ?_
  · refine .bind (R := fun x y : Str => x.length = y.length) ?_ fun k k' e => ?_
    · refine .bind (.test (by rw [hs])) fun b b' hb => .ite hb (fun _ => ?_) fun _ => .pure hs
      refine .bind (alike_write ⟨rfl, rfl⟩ hs) fun d d' hd => ?_
      obtain ⟨h1, h2, h3⟩ := alike_checkSum hd
      exact ⟨h1, h2.trans h3.symm⟩
    · refine .bind (.copy e) fun _ _ _ => .bind (.copy e) fun _ _ _ => ?_
      refine .bind (alike_xorPad _ _ _ _) fun i i' hi => .bind (alike_xorPad _ _ _ _) fun o o' ho => ?_
      exact .bind (alike_write ⟨rfl, rfl⟩ hi) fun d d' hd => .pure ⟨ho, hd⟩
  · refine .bind (R := fun a b : Hmac => a.opad.length = b.opad.length ∧ a.inner.Shape b.inner) ?_ fun g g' hg => ?_
    · exact .bind (alike_write hh.2 hk) fun _ _ hd => .pure ⟨hh.1, hd⟩
    · refine .bind (R := fun a b : Str => a.length = 32 ∧ b.length = 32) ?_ fun s s' hs => .pure hs
      refine .bind (alike_checkSum hg.2) fun m m' hm => ?_
      refine .bind (alike_write ⟨rfl, rfl⟩ hg.1) fun d d' hd => ?_
      exact .bind (alike_write hd (hm.1.trans hm.2.symm)) fun e e' he => alike_checkSum he

theorem alike_compare {x x' y y' : Str} (hx : x.length = x'.length) (hy : y.length = y'.length) :
    Alike (fun _ _ => True) (constantTimeCompare x y) (constantTimeCompare x' y') := by
  refine .bind (.test (by rw [hx, hy])) fun b b' hb => .ite hb (fun _ => .pure trivial) fun _ => ?_
  rw [hx]
  refine .bind (R := fun _ _ => True) (Alike.loop (R := fun _ _ => True) 0 _ ?_ trivial) fun _ _ _ => .pure trivial
  intro i a b _
  exact .bind (.load _ _ _) fun _ _ _ => .bind (.load _ _ _) fun _ _ _ => .pure trivial

theorem alike_equal {t t' : HS256Token} {s s' : Str} (ht : t.signature.length = t'.signature.length)
    (hs : s.length = s'.length) : Alike (fun _ _ => True) (equal t s) (equal t' s') :=
  .bind (alike_compare ht hs) fun _ _ _ => .pure trivial

theorem alike_valid {t t' : HS256Token} {secret secret' : Str} (hk : t.key.length = t'.key.length)
    (ht : t.signature.length = t'.signature.length) (hs : secret.length = secret'.length) :
    Alike (fun _ _ => True) (valid t secret) (valid t' secret') :=
  .bind (alike_fromKey hs hk) fun _ _ h => alike_equal (h.1.trans h.2.symm) ht

end Timing

end OAuth2
