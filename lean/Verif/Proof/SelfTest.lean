import Verif.Model.SelfTest
import Verif.Spec.SelfTest
import Verif.Proof.Mem
import Verif.Proof.KemDec

/-! # Lemmas on the pieces of the self-test -/

namespace Frodo
open Spec

theorem memcmp_ret {a b : List U8} {n : Nat} (ha : n ≤ a.length) (hb : n ≤ b.length) :
    Ret (memcmp a b n) (fun r => r = if a.take n = b.take n then 0 else 1) := by
  unfold memcmp
  rw [if_pos ⟨ha, hb⟩]
  exact ⟨_, _, rfl, rfl⟩

theorem choosePos_ret {a : Arch} {P : Params} {bytes : List U8} (hb : bytes.length = 4) :
    Ret (choosePos a P bytes) (· = testPos a bytes P.ctBytes) := by
  obtain ⟨b0, b1, b2, b3, rfl⟩ : ∃ b0 b1 b2 b3, bytes = [b0, b1, b2, b3] := by
    match bytes, hb with
    | [b0, b1, b2, b3], _ => exact ⟨_, _, _, _, rfl⟩
  have e : join32 a b0 b1 b2 b3 = memVal a [b0, b1, b2, b3] := by
    cases a <;> simp [join32, memVal, leVal] <;> omega
  unfold choosePos testPos
  rw [← e]
  simp only [wp]
  refine ⟨by simp, by simp, by simp, by simp, ?_⟩
  simp only [nth_cons_zero, nth_cons_succ]
  by_cases h : join32 a b0 b1 b2 b3 % (P.ctBytes / 2) = 0
  · simp [h, wp]
  · simp [h, wp]; omega

theorem join_lo (x y : U8) : (x.setWidth 16 ||| y.setWidth 16 <<< 8 : U16).setWidth 8 = x := by
  apply BitVec.eq_of_getLsbD_eq
  intro i hi
  simp only [BitVec.getLsbD_or, BitVec.getLsbD_setWidth, BitVec.getLsbD_shiftLeft]
  simp [hi, show i < 16 by omega]

theorem join_hi (x y : U8) :
    ((x.setWidth 16 ||| y.setWidth 16 <<< 8 : U16) >>> 8).setWidth 8 = y := by
  apply BitVec.eq_of_getLsbD_eq
  intro i hi
  simp only [BitVec.getLsbD_or, BitVec.getLsbD_setWidth, BitVec.getLsbD_shiftLeft,
    BitVec.getLsbD_ushiftRight]
  simp [hi, show i < 16 by omega, show 8 + i < 16 by omega]

theorem ofNat_lo (p : Nat) : (BitVec.ofNat 16 p).setWidth 8 = BitVec.ofNat 8 (p % 256) := by
  apply BitVec.eq_of_toNat_eq
  simp only [BitVec.toNat_setWidth, BitVec.toNat_ofNat]
  omega

theorem ofNat_hi (p : Nat) : (BitVec.ofNat 16 p >>> 8).setWidth 8 = BitVec.ofNat 8 (p / 256) := by
  apply BitVec.eq_of_toNat_eq
  simp only [BitVec.toNat_setWidth, BitVec.toNat_ofNat, BitVec.toNat_ushiftRight,
    Nat.shiftRight_eq_div_pow]
  omega

theorem bytes_join_xor (a : Arch) (b0 b1 : U8) (p : Nat) :
    bytes16 a (join16 a b0 b1 ^^^ BitVec.ofNat 16 p) =
    match a with
    | .le => [b0 ^^^ BitVec.ofNat 8 (p % 256), b1 ^^^ BitVec.ofNat 8 (p / 256)]
    | .be => [b0 ^^^ BitVec.ofNat 8 (p / 256), b1 ^^^ BitVec.ofNat 8 (p % 256)] := by
  cases a <;>
    simp only [bytes16, join16, BitVec.setWidth_xor, BitVec.ushiftRight_xor_distrib, join_lo, join_hi,
      ofNat_lo, ofNat_hi]

theorem bytes_join (a : Arch) (b0 b1 : U8) : bytes16 a (join16 a b0 b1) = [b0, b1] := by
  cases a <;> simp only [bytes16, join16, join_lo, join_hi]

theorem toBytes_ofBytes (a : Arch) : ∀ (n : Nat) (l : List U8), l.length = 2 * n →
    toBytes a (ofBytes a l) = l
  | 0, [], _ => rfl
  | n + 1, b0 :: b1 :: l, h => by
    simp only [List.length_cons] at h
    rw [ofBytes, toBytes_cons, toBytes_ofBytes a n l (by omega), bytes_join]
    rfl

theorem xorAt_cons_succ (b : U8) (l : List U8) (i v : Nat) :
    xorAt (b :: l) (i + 1) v = b :: xorAt l i v := rfl

theorem toBytes_set_xor (a : Arch) (v : Nat) : ∀ (k n : Nat) (l : List U8), l.length = 2 * n → k < n →
    toBytes a ((ofBytes a l).set k (nth (ofBytes a l) k ^^^ BitVec.ofNat 16 v)) =
    match a with
    | .le => xorAt (xorAt l (2 * k) (v % 256)) (2 * k + 1) (v / 256)
    | .be => xorAt (xorAt l (2 * k) (v / 256)) (2 * k + 1) (v % 256)
  | 0, n + 1, b0 :: b1 :: l, h, _ => by
    simp only [List.length_cons] at h
    rw [ofBytes, nth_cons_zero, List.set_cons_zero, toBytes_cons, bytes_join_xor,
      toBytes_ofBytes a n l (by omega)]
    cases a <;> rfl
  | k + 1, n + 1, b0 :: b1 :: l, h, hk => by
    simp only [List.length_cons] at h
    rw [ofBytes, nth_cons_succ, List.set_cons_succ, toBytes_cons, bytes_join,
      toBytes_set_xor a v k n l (by omega) (by omega)]
    cases a <;> rfl

theorem changeDigit_ret {a : Arch} {ct : List U8} {p n : Nat} (h : ct.length = 2 * n) (hp : p < n) :
    Ret (changeDigit a ct p) (· = tampered a ct p) := by
  have hl := length_ofBytes a n ct h
  unfold changeDigit
  simp only [wp]
  refine ⟨by omega, by omega, ?_⟩
  have e : BitVec.ofNat 16 ((nth (ofBytes a ct) p).toNat ^^^ p) =
      nth (ofBytes a ct) p ^^^ BitVec.ofNat 16 p := by
    rw [BitVec.ofNat_xor, BitVec.ofNat_toNat, BitVec.setWidth_eq]
  rw [e, toBytes_set_xor a p p n ct h hp, List.length_set, hl, List.drop_eq_nil_of_le (by omega),
    List.append_nil]
  rfl

theorem length_xorAt (l : List U8) (i v : Nat) : (xorAt l i v).length = l.length := by
  simp [xorAt]

theorem length_tampered (a : Arch) (ct : List U8) (p : Nat) : (tampered a ct p).length = ct.length := by
  cases a <;> simp [tampered, length_xorAt]

theorem nth_xorAt {l : List U8} {i v j : Nat} (hj : j < l.length) :
    nth (xorAt l i v) j = if i = j then nth l j ^^^ BitVec.ofNat 8 v else nth l j := by
  unfold xorAt nth
  rw [List.getD_eq_getElem?_getD, List.getD_eq_getElem?_getD, List.getElem?_modify, List.getElem?_eq_getElem hj]
  by_cases h : i = j <;> simp [h]

end Frodo
