import Verif.Model.Bytes
/-
General helper lemmas.
-/

namespace OAuth2

deriving instance DecidableEq for Except

/-- A statement about all bytes can be checked on the table of 256 values. -/
theorem forall_u8 {P : UInt8 → Prop} (h : ∀ n : Fin 256, P (UInt8.ofNat n.val)) : ∀ c, P c := by
  intro c
  have hc : c.toNat < 256 := c.toNat_lt
  have := h ⟨c.toNat, hc⟩
  simpa using this

theorem u8_ext {a b : UInt8} (h : a.toNat = b.toNat) : a = b := UInt8.toNat_inj.mp h

theorem u8_ofNat_toNat (c : UInt8) : UInt8.ofNat c.toNat = c := by simp

end OAuth2
