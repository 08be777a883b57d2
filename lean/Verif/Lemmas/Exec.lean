import Verif.Model.OAuth2

namespace OAuth2

variable {σ α β : Type}

theorem exec_bind (p : Prog σ α) (f : α → Prog σ β) (s : Shared σ) (l : Local) :
    exec (p >>= f) s l =
      match exec p s l with
      | (.ret a, s', l') => exec (f a) s' l'
      | (.panic, s', l') => (.panic, s', l')
      | (.deadlock, s', l') => (.deadlock, s', l') := by
  show exec (Prog.bind p f) s l = _
  induction p generalizing s l with
  | ret a => rfl
  | panic => rfl
  | lock k ih =>
    simp only [Prog.bind, exec]
    split
    · rfl
    · exact ih _ _
  | unlock k ih => exact ih _ _
  | get k ih => exact ih _ _ _
  | modify g k ih => exact ih _ _
  | now k ih => exact ih _ _ _
  | rand n k ih =>
    simp only [Prog.bind, exec]
    split
    · exact ih _ _ _
    · exact ih _ _ _
  | resp g k ih => exact ih _ _

theorem exec_bind_ret {p : Prog σ α} {f : α → Prog σ β} {s s' : Shared σ} {l l' : Local} {a : α}
    (h : exec p s l = (.ret a, s', l')) : exec (p >>= f) s l = exec (f a) s' l' := by
  rw [exec_bind, h]

theorem exec_bind_panic {p : Prog σ α} {f : α → Prog σ β} {s s' : Shared σ} {l l' : Local}
    (h : exec p s l = (.panic, s', l')) : exec (p >>= f) s l = (.panic, s', l') := by
  rw [exec_bind, h]

@[simp] theorem exec_pure (a : α) (s : Shared σ) (l : Local) :
    exec (pure a : Prog σ α) s l = (.ret a, s, l) := rfl

@[simp] theorem exec_getS_bind (f : σ → Prog σ β) (s : Shared σ) (l : Local) :
    exec (Prog.getS >>= f) s l = exec (f s.st) s l := rfl

@[simp] theorem exec_modifyS_bind (g : σ → σ) (f : Unit → Prog σ β) (s : Shared σ) (l : Local) :
    exec (Prog.modifyS g >>= f) s l = exec (f ()) { s with st := g s.st } l := rfl

@[simp] theorem exec_modifyS (g : σ → σ) (s : Shared σ) (l : Local) :
    exec (Prog.modifyS g) s l = (.ret (), { s with st := g s.st }, l) := rfl

@[simp] theorem exec_timeNow_bind (f : Time → Prog σ β) (s : Shared σ) (l : Local) :
    exec (Prog.timeNow >>= f) s l = exec (f (l.clock l.tick)) s { l with tick := l.tick + 1 } := rfl

@[simp] theorem exec_respond_bind (g : Recorder → Recorder) (f : Unit → Prog σ β) (s : Shared σ)
    (l : Local) : exec (Prog.respond g >>= f) s l = exec (f ()) s { l with w := g l.w } := rfl

@[simp] theorem exec_respond (g : Recorder → Recorder) (s : Shared σ) (l : Local) :
    exec (Prog.respond g : Prog σ Unit) s l = (.ret (), s, { l with w := g l.w }) := rfl

theorem exec_writeHeader {code : Int} (h1 : 100 ≤ code) (h2 : code ≤ 999) (s : Shared σ) (l : Local) :
    exec (Prog.writeHeader code : Prog σ Unit) s l =
      (.ret (), s, { l with w := l.w.writeHeader code.toNat }) := by
  unfold Prog.writeHeader
  rw [if_neg (by omega)]
  rfl

theorem exec_writeHeader_bind {code : Int} (h1 : 100 ≤ code) (h2 : code ≤ 999)
    (f : Unit → Prog σ β) (s : Shared σ) (l : Local) :
    exec (Prog.writeHeader code >>= f) s l =
      exec (f ()) s { l with w := l.w.writeHeader code.toNat } := by
  rw [exec_bind, exec_writeHeader h1 h2]

/-- `defer` unlocks after the body, whether it returned or panicked. -/
theorem exec_deferUnlock (p : Prog σ α) (s : Shared σ) (l : Local) :
    exec p.deferUnlock s l =
      match exec p s l with
      | (.ret a, s', l') => (.ret a, { s' with locked := false }, l')
      | (.panic, s', l') => (.panic, { s' with locked := false }, l')
      | (.deadlock, s', l') => (.deadlock, s', l') := by
  induction p generalizing s l with
  | ret a => rfl
  | panic => rfl
  | lock k ih =>
    simp only [Prog.deferUnlock, exec]
    split
    · rfl
    · exact ih _ _
  | unlock k ih => exact ih _ _
  | get k ih => exact ih _ _ _
  | modify g k ih => exact ih _ _
  | now k ih => exact ih _ _ _
  | rand n k ih =>
    simp only [Prog.deferUnlock, exec]
    split
    · exact ih _ _ _
    · exact ih _ _ _
  | resp g k ih => exact ih _ _

/-- The recorder after `WriteRedirect` wrote the given location. -/
def redirectRecorder (w : Recorder) (location : Str) : Recorder :=
  let h := (((w.header.add b!"Location" location).set b!"Cache-Control" b!"no-store").set
    b!"Pragma" b!"no-cache").set b!"Referrer-Policy" b!"origin"
  (({ w with header := h }.writeHeader 303).write [])

theorem exec_writeRedirect (uri : Str) (params : GoMap Str) (useFragment : Bool) (s : Shared σ)
    (l : Local) :
    exec (writeRedirect uri params useFragment) s l =
      match redirectLocation uri params useFragment with
      | none => (.ret false, s, l)
      | some location => (.ret true, s, { l with w := redirectRecorder l.w location }) := by
  unfold writeRedirect
  cases redirectLocation uri params useFragment with
  | none => rfl
  | some location =>
    simp only [exec_respond_bind]
    rw [exec_writeHeader_bind (by decide) (by decide)]
    rfl

/-- The recorder after `Write` wrote the given JSON text. -/
def jsonRecorder (w : Recorder) (json : Str) (status : Nat) : Recorder :=
  let h := ((w.header.set b!"Content-Type" b!"application/json;charset=UTF-8").set
    b!"Cache-Control" b!"no-store").set b!"Pragma" b!"no-cache"
  ({ w with header := h }.writeHeader status).write (json ++ [0x0A])

theorem exec_write (json : Str) {status : Int} (h1 : 100 ≤ status) (h2 : status ≤ 999)
    (s : Shared σ) (l : Local) :
    exec (write json status) s l =
      (.ret true, s, { l with w := jsonRecorder l.w json status.toNat }) := by
  unfold write
  simp only [exec_respond_bind]
  rw [exec_writeHeader_bind h1 h2]
  rfl

end OAuth2
