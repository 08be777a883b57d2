import Verif.Lemmas.Exec
import Verif.Lemmas.Map
import Verif.Model.Token

/-! Headers, response recorders and reading a response. -/

namespace OAuth2

namespace Header

theorem all_set (h : Header) (k v j : Str) :
    (h.set k v).all j = if canonicalKey j = canonicalKey k then [v] else h.all j := by
  unfold set all
  rw [GoMap.get?_set]
  split <;> rfl

theorem all_add (h : Header) (k v j : Str) :
    (h.add k v).all j = if canonicalKey j = canonicalKey k then h.all k ++ [v] else h.all j := by
  unfold add all
  rw [GoMap.get?_set]
  split <;> rfl

theorem get_eq (h : Header) (k : Str) : h.get k = (h.all k).headD [] := by
  unfold get all
  cases h' : GoMap.get? h (canonicalKey k) with
  | none => rfl
  | some l => cases l <;> rfl

theorem get_set (h : Header) (k v j : Str) :
    (h.set k v).get j = if canonicalKey j = canonicalKey k then v else h.get j := by
  rw [get_eq, all_set, get_eq]
  split <;> rfl

end Header

/-- Nothing was sent yet. -/
structure Recorder.Fresh (w : Recorder) : Prop where
  sent : w.sent = none
  body : w.body = []
  superfluous : w.superfluous = 0

theorem Recorder.fresh_empty : Recorder.Fresh {} := ⟨rfl, rfl, rfl⟩

/-- The headers `Write` sets. -/
def jsonHeader (h : Header) : Header :=
  ((h.set b!"Content-Type" b!"application/json;charset=UTF-8").set
    b!"Cache-Control" b!"no-store").set b!"Pragma" b!"no-cache"

/-- The headers `WriteRedirect` sets. -/
def redirectHeader (h : Header) (location : Str) : Header :=
  (((h.add b!"Location" location).set b!"Cache-Control" b!"no-store").set
    b!"Pragma" b!"no-cache").set b!"Referrer-Policy" b!"origin"

theorem jsonRecorder_fresh {w : Recorder} (hw : w.Fresh) (json : Str) (status : Nat) :
    jsonRecorder w json status =
      { header := jsonHeader w.header, sent := some (status, jsonHeader w.header),
        body := json ++ [0x0A] } := by
  obtain ⟨h1, h2, h3⟩ := hw
  obtain ⟨hd, st, bd, sf⟩ := w
  simp only at h1 h2 h3
  subst h1; subst h2; subst h3
  rfl

theorem redirectRecorder_fresh {w : Recorder} (hw : w.Fresh) (location : Str) :
    redirectRecorder w location =
      { header := redirectHeader w.header location,
        sent := some (303, redirectHeader w.header location), body := [] } := by
  obtain ⟨h1, h2, h3⟩ := hw
  obtain ⟨hd, st, bd, sf⟩ := w
  simp only at h1 h2 h3
  subst h1; subst h2; subst h3
  rfl

theorem jsonHeader_contentType (h : Header) :
    (jsonHeader h).get b!"Content-Type" = b!"application/json;charset=UTF-8" := by
  unfold jsonHeader
  rw [Header.get_set, if_neg (by decide), Header.get_set, if_neg (by decide), Header.get_set,
    if_pos rfl]

theorem jsonHeader_cache (h : Header) :
    (jsonHeader h).all b!"Cache-Control" = [b!"no-store"] ∧
    (jsonHeader h).all b!"Pragma" = [b!"no-cache"] := by
  unfold jsonHeader
  constructor
  · rw [Header.all_set, if_neg (by decide), Header.all_set, if_pos rfl]
  · rw [Header.all_set, if_pos rfl]

theorem jsonHeader_other (h : Header) {k : Str}
    (h1 : canonicalKey k ≠ canonicalKey b!"Content-Type") (h2 : canonicalKey k ≠ canonicalKey b!"Cache-Control")
    (h3 : canonicalKey k ≠ canonicalKey b!"Pragma") : (jsonHeader h).all k = h.all k := by
  unfold jsonHeader
  rw [Header.all_set, if_neg h3, Header.all_set, if_neg h2, Header.all_set, if_neg h1]

theorem redirectHeader_cache (h : Header) (location : Str) :
    (redirectHeader h location).all b!"Cache-Control" = [b!"no-store"] ∧
    (redirectHeader h location).all b!"Pragma" = [b!"no-cache"] ∧
    (redirectHeader h location).all b!"Referrer-Policy" = [b!"origin"] := by
  unfold redirectHeader
  refine ⟨?_, ?_, ?_⟩
  · rw [Header.all_set, if_neg (by decide), Header.all_set, if_neg (by decide), Header.all_set,
      if_pos rfl]
  · rw [Header.all_set, if_neg (by decide), Header.all_set, if_pos rfl]
  · rw [Header.all_set, if_pos rfl]

theorem redirectHeader_location (h : Header) (location : Str) :
    (redirectHeader h location).all b!"Location" = h.all b!"Location" ++ [location] := by
  unfold redirectHeader
  rw [Header.all_set, if_neg (by decide), Header.all_set, if_neg (by decide), Header.all_set,
    if_neg (by decide), Header.all_add, if_pos rfl]

/-- Reading back a JSON response that was written completely. -/
theorem readJSONBody_written (h : Header) (json : Str) (status : Nat) {limit : Int}
    (hl : ((json ++ [0x0A]).length : Int) ≤ limit) :
    readJSONBody { statusCode := status, header := jsonHeader h, body := json ++ [0x0A] } limit =
      .ok (json ++ [0x0A]) := by
  have hmt : parseMediaType b!"application/json;charset=UTF-8" = (b!"application/json", false) := by
    decide +kernel
  have htake : (json ++ [0x0A]).take limit.toNat = json ++ [0x0A] := by
    apply List.take_of_length_le
    omega
  unfold readJSONBody Response.readAll
  simp only [jsonHeader_contentType, hmt, htake]
  rfl

end OAuth2
