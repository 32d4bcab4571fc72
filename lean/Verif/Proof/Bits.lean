import Verif.Spec.Bits
import Verif.C.Logic
import Mathlib.Data.List.GetD

namespace Frodo

/-! ## Conversions -/

theorem u8_natCast (n : Nat) : u8 (n : Int) = BitVec.ofNat 8 n := by
  simp [u8]

theorem u16_natCast (n : Nat) : u16 (n : Int) = BitVec.ofNat 16 n := by
  simp [u16]

theorem u8_add (a b : Int) : u8 (a + b) = u8 a + u8 b := by
  simp [u8, BitVec.ofInt_add]

theorem u16_add (a b : Int) : u16 (a + b) = u16 a + u16 b := by
  simp [u16, BitVec.ofInt_add]

theorem u16_mul (a b : Int) : u16 (a * b) = u16 a * u16 b := by
  simp [u16, BitVec.ofInt_mul]

theorem u16_neg (a : Int) : u16 (-a) = - u16 a := by
  simp [u16, BitVec.ofInt_neg]

theorem u16_sub (a b : Int) : u16 (a - b) = u16 a - u16 b := by
  rw [Int.sub_eq_add_neg, u16_add, u16_neg, BitVec.sub_eq_add_neg]

theorem u16_toNat (x : U16) : u16 (x.toNat : Int) = x := by
  rw [u16_natCast]; simp

theorem u8_toNat (x : U8) : u8 (x.toNat : Int) = x := by
  rw [u8_natCast]; simp

theorem u16_toInt (x : U16) : u16 x.toInt = x := by
  simp [u16]

theorem u16_toInt32 (x : BitVec 32) : u16 x.toInt = x.setWidth 16 := by
  have := BitVec.signExtend_eq_setWidth_of_le x (show 16 ≤ 32 by omega)
  rw [← this]; rfl

theorem u8_toInt32 (x : BitVec 32) : u8 x.toInt = x.setWidth 8 := by
  have := BitVec.signExtend_eq_setWidth_of_le x (show 8 ≤ 32 by omega)
  rw [← this]; rfl

theorem iand_nat {a b : Nat} (ha : a < 2 ^ 31) (hb : b < 2 ^ 32) :
    iand (a : Int) (b : Int) = ((a &&& b : Nat) : Int) := by
  unfold iand
  have h : (a &&& b) < 2 ^ 31 := Nat.lt_of_le_of_lt Nat.and_le_left ha
  rw [BitVec.ofInt_natCast, BitVec.ofInt_natCast]
  rw [← BitVec.ofNat_and]
  rw [BitVec.toInt_eq_toNat_of_lt] <;> simp only [BitVec.toNat_ofNat]
  · congr 1
    exact Nat.mod_eq_of_lt (by omega)
  · rw [Nat.mod_eq_of_lt (by omega)]; omega

theorem u16_iand_inot (x : U16) (m : Nat) (k : Nat) :
    (u16 (iand (x.toNat : Int) (inot (m : Int)))).toNat.testBit k =
      (x.toNat.testBit k && !m.testBit k) := by
  unfold iand inot
  rw [u16_toInt32]
  simp only [BitVec.ofInt_natCast, BitVec.ofInt_toInt, BitVec.testBit_toNat,
    BitVec.getLsbD_setWidth, BitVec.getLsbD_and, BitVec.getLsbD_not, BitVec.getLsbD_ofNat]
  by_cases hk : k < 16
  · simp [hk, show k < 32 by omega]
  · have : x.toNat.testBit k = false := by
      rw [BitVec.testBit_toNat]; exact BitVec.getLsbD_of_ge _ _ (by omega)
    simp [hk, BitVec.getLsbD_of_ge x k (by omega)]

theorem u8_iand_inot (x : U8) (m : Nat) (k : Nat) :
    (u8 (iand (x.toNat : Int) (inot (m : Int)))).toNat.testBit k =
      (x.toNat.testBit k && !m.testBit k) := by
  unfold iand inot
  rw [u8_toInt32]
  simp only [BitVec.ofInt_natCast, BitVec.ofInt_toInt, BitVec.testBit_toNat,
    BitVec.getLsbD_setWidth, BitVec.getLsbD_and, BitVec.getLsbD_not, BitVec.getLsbD_ofNat]
  by_cases hk : k < 8
  · simp [hk, show k < 32 by omega]
  · simp [hk, BitVec.getLsbD_of_ge x k (by omega)]

/-! ## Bit strings -/

open Spec

theorem natOf_snoc (bs : List Bool) (b : Bool) : natOf (bs ++ [b]) = 2 * natOf bs + b.toNat := by
  simp [natOf]

theorem testBit_natOf (d : Nat) (f : Nat → Bool) (k : Nat) :
    (natOf ((List.range d).map f)).testBit k = (decide (k < d) && f (d - 1 - k)) := by
  induction d generalizing k with
  | zero => simp [natOf]
  | succ d ih =>
    rw [List.range_succ, List.map_append, List.map_singleton, natOf_snoc]
    cases k with
    | zero =>
      cases hf : f d <;> simp [hf]
    | succ k =>
      rw [Nat.testBit_succ]
      have : (2 * natOf (List.map f (List.range d)) + (f d).toNat) / 2
          = natOf (List.map f (List.range d)) := by
        have := Bool.toNat_lt (f d); omega
      rw [this, ih]
      rw [show d + 1 - 1 - (k + 1) = d - 1 - k by omega]
      simp

theorem natOf_lt (d : Nat) (f : Nat → Bool) : natOf ((List.range d).map f) < 2 ^ d := by
  apply Nat.lt_pow_two_of_testBit
  intro k hk
  rw [testBit_natOf]
  simp; omega

theorem length_bitsOf (d x : Nat) : (bitsOf d x).length = d := by simp [bitsOf]

theorem getD_bitsOf (d x l : Nat) :
    (bitsOf d x).getD l false = (decide (l < d) && x.testBit (d - 1 - l)) := by
  by_cases h : l < d <;> simp [bitsOf, h]

theorem getD_flatMap {α : Type} [Inhabited α] (d : Nat) (g : α → Nat) (v : List α) (j l : Nat)
    (hl : l < d) :
    (v.flatMap fun x => bitsOf d (g x)).getD (d * j + l) false =
      (decide (j < v.length) && (g (nth v j)).testBit (d - 1 - l)) := by
  induction v generalizing j with
  | nil => simp
  | cons a v ih =>
    rw [List.flatMap_cons]
    cases j with
    | zero =>
      rw [List.getD_append _ _ _ _ (by rw [length_bitsOf]; omega), Nat.mul_zero, Nat.zero_add,
        getD_bitsOf]
      simp [hl, nth]
    | succ j =>
      rw [List.getD_append_right _ _ _ _ (by rw [length_bitsOf, Nat.mul_succ]; omega),
        length_bitsOf, show d * (j + 1) + l - d = d * j + l by rw [Nat.mul_succ]; omega, ih]
      simp [nth]

end Frodo
