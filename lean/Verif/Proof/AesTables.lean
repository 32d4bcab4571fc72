import Verif.Model.Aes
import Verif.C.Logic

/-! # Tables and byte functions of the portable AES, over all bytes -/

namespace Frodo

open C

set_option linter.unusedSimpArgs false

theorem all_u8 {p : U8 → Prop} (h : ∀ i : Fin 256, p (BitVec.ofFin i)) (x : U8) : p x := h x.toFin

/-- The specification's inverse is the multiplicative inverse of the field. -/
theorem gmul_ginv (x : U8) (hx : x ≠ 0) : Spec.gmul x (Spec.ginv x) = 1 := by
  revert hx
  refine all_u8 (p := fun x => x ≠ 0 → Spec.gmul x (Spec.ginv x) = 1) ?_ x
  decide +kernel

theorem ginv_zero : Spec.ginv 0 = 0 := by decide +kernel

theorem nth_sbox (x : U8) : nth sbox x.toNat = Spec.SBox x := by
  refine all_u8 (p := fun x => nth sbox x.toNat = Spec.SBox x) ?_ x
  decide +kernel

theorem nth_rcon {i : Nat} (h0 : 0 < i) (h : i < 11) : nth rcon i = Spec.gpow 2 (i - 1) := by
  have : ∀ i : Fin 11, i ≠ 0 → nth rcon i.val = Spec.gpow 2 (i.val - 1) := by decide +kernel
  exact this ⟨i, h⟩ (by intro h'; have := congrArg Fin.val h'; simp at this; omega)

theorem gmul_two (x : U8) : Spec.gmul 2 x = Spec.xtime x := by
  refine all_u8 (p := fun x => Spec.gmul 2 x = Spec.xtime x) ?_ x
  decide +kernel

theorem gmul_three (x : U8) : Spec.gmul 3 x = Spec.xtime x ^^^ x := by
  refine all_u8 (p := fun x => Spec.gmul 3 x = Spec.xtime x ^^^ x) ?_ x
  decide +kernel

theorem xtime_xor (x y : U8) : Spec.xtime (x ^^^ y) = Spec.xtime x ^^^ Spec.xtime y := by
  unfold Spec.xtime
  simp only [BitVec.getLsbD_xor]
  by_cases h1 : x.getLsbD 7 <;> by_cases h2 : y.getLsbD 7 <;> simp only [h1, h2, Bool.xor_self,
    Bool.xor_true, Bool.xor_false, Bool.not_false, Bool.not_true, if_true, if_false,
    Bool.false_eq_true] <;> apply BitVec.eq_of_getLsbD_eq <;> intro i hi <;>
    simp [BitVec.getLsbD_xor] <;> cases decide (i < 8) <;> cases x.getLsbD (i - 1) <;>
    cases y.getLsbD (i - 1) <;> cases (27#8).getLsbD i <;> cases decide (i = 0) <;> simp

@[wp] theorem Ret_getSBox_bind {x : U8} {f : U8 → C β} {P : β → Prop} :
    Ret (getSBoxValue x >>= f) P ↔ Ret (f (Spec.SBox x)) P := by
  unfold getSBoxValue
  rw [Ret_rd_bind, nth_sbox]
  have hl : sbox.length = 256 := by decide +kernel
  have : x.toNat < sbox.length := by rw [hl]; exact x.isLt
  simp [this]

theorem xtime_c_val (x : U8) :
    u8 (ixor ((x.toNat : Int) * 2 ^ 1) (iand ((x.toNat : Int) / 2 ^ 7) 1 * 0x1b)) =
      Spec.xtime x := by
  refine all_u8 (p := fun x => u8 (ixor ((x.toNat : Int) * 2 ^ 1)
    (iand ((x.toNat : Int) / 2 ^ 7) 1 * 0x1b)) = Spec.xtime x) ?_ x
  decide +kernel

theorem xtime_c_int (x : U8) : inInt (iand ((x.toNat : Int) / 2 ^ 7) 1 * 0x1b) := by
  refine all_u8 (p := fun x => inInt (iand ((x.toNat : Int) / 2 ^ 7) 1 * 0x1b)) ?_ x
  decide +kernel

@[wp] theorem Ret_xtime_bind {x : U8} {f : U8 → C β} {P : β → Prop} :
    Ret (xtime_c x >>= f) P ↔ Ret (f (Spec.xtime x)) P := by
  unfold xtime_c
  simp only [wp]
  have h := x.isLt
  have h1 := xtime_c_int x
  rw [show Int.toNat 1 = 1 from rfl, show Int.toNat 7 = 7 from rfl, xtime_c_val]
  constructor
  · rintro ⟨_, _, _, _, _, h⟩; exact h
  · intro hP
    exact ⟨by decide, by omega, ⟨by omega, by omega⟩, by decide, h1, hP⟩

end Frodo
