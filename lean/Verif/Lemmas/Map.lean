import Verif.Model.Url
import Verif.Lemmas.Sort

namespace OAuth2

namespace GoMap

variable {α : Type}

theorem get?_nil (k : Str) : get? ([] : GoMap α) k = none := rfl

theorem get?_cons (k' : Str) (v : α) (m : GoMap α) (k : Str) :
    get? ((k', v) :: m) k = if k' = k then some v else get? m k := rfl

theorem get?_del_self (m : GoMap α) (k : Str) : (m.del k).get? k = none := by
  induction m with
  | nil => rfl
  | cons e m ih =>
    obtain ⟨k', v⟩ := e
    by_cases h : k' = k
    · subst h; simp only [del] at ih ⊢; simp [ih]
    · simp only [del] at ih ⊢; simp [h, get?_cons, ih]

theorem get?_del_of_ne (m : GoMap α) {k j : Str} (h : j ≠ k) : (m.del k).get? j = m.get? j := by
  induction m with
  | nil => rfl
  | cons e m ih =>
    obtain ⟨k', v⟩ := e
    by_cases hk : k' = k
    · subst hk
      have hj : ¬ k' = j := fun e => h e.symm
      simp only [del] at ih ⊢; simp [ih, get?_cons, hj]
    · simp only [del] at ih ⊢; simp [hk, get?_cons, ih]

theorem get?_del (m : GoMap α) (k j : Str) :
    (m.del k).get? j = if j = k then none else m.get? j := by
  by_cases h : j = k
  · subst h; simp [get?_del_self]
  · simp [h, get?_del_of_ne]

theorem get?_set (m : GoMap α) (k j : Str) (v : α) :
    (m.set k v).get? j = if j = k then some v else m.get? j := by
  unfold set
  rw [get?_cons]
  by_cases h : j = k
  · subst h; simp
  · have : ¬ k = j := fun e => h e.symm
    simp [h, this, get?_del_of_ne]

theorem get?_some_mem {m : GoMap α} {k : Str} {v : α} (h : m.get? k = some v) : (k, v) ∈ m := by
  induction m with
  | nil => cases h
  | cons e m ih =>
    obtain ⟨k', w⟩ := e
    rw [get?_cons] at h
    split at h
    · rename_i e; subst e; cases h; exact List.mem_cons_self ..
    · exact List.mem_cons_of_mem _ (ih h)

theorem get?_eq_none_iff (m : GoMap α) (k : Str) : m.get? k = none ↔ k ∉ m.keys := by
  induction m with
  | nil => simp [get?, keys]
  | cons e m ih =>
    obtain ⟨k', w⟩ := e
    rw [get?_cons]
    by_cases h : k' = k
    · subst h; simp [keys]
    · have h' : ¬ k = k' := fun e => h e.symm
      rw [if_neg h, ih]
      simp [keys, h']

theorem mem_keys_of_get? {m : GoMap α} {k : Str} {v : α} (h : m.get? k = some v) : k ∈ m.keys := by
  by_cases hk : k ∈ m.keys
  · exact hk
  · rw [(get?_eq_none_iff m k).mpr hk] at h; cases h

theorem get?_of_mem {m : GoMap α} (hn : m.keys.Nodup) {k : Str} {v : α} (h : (k, v) ∈ m) :
    m.get? k = some v := by
  induction m with
  | nil => cases h
  | cons e m ih =>
    obtain ⟨k', w⟩ := e
    rw [get?_cons]
    have hn' : k' ∉ keys m ∧ (keys m).Nodup := List.nodup_cons.mp hn
    rcases List.mem_cons.mp h with e | hm
    · cases e; simp
    · have : k' ≠ k := by
        rintro rfl
        exact hn'.1 (List.mem_map.mpr ⟨_, hm, rfl⟩)
      rw [if_neg this]
      exact ih hn'.2 hm

theorem nodup_del {m : GoMap α} (h : m.keys.Nodup) (k : Str) : (m.del k).keys.Nodup := by
  unfold keys del at *
  exact h.sublist (List.Sublist.map _ List.filter_sublist)

theorem nodup_set {m : GoMap α} (h : m.keys.Nodup) (k : Str) (v : α) : (m.set k v).keys.Nodup := by
  unfold set
  refine List.nodup_cons.mpr ⟨?_, nodup_del h k⟩
  have := (get?_eq_none_iff (m.del k) k).mp (get?_del_self m k)
  exact this

/-- A permutation of a map is the same map. -/
theorem get?_perm {m m' : GoMap α} (hp : m.Perm m') (hn : m.keys.Nodup) (k : Str) :
    m.get? k = m'.get? k := by
  have hn' : m'.keys.Nodup := (hp.map _).nodup_iff.mp hn
  cases h : m.get? k with
  | some v => exact (get?_of_mem hn' (hp.mem_iff.mp (get?_some_mem h))).symm
  | none =>
    symm
    rw [get?_eq_none_iff] at h ⊢
    exact fun hk => h ((hp.map _).mem_iff.mpr hk)

end GoMap

end OAuth2
