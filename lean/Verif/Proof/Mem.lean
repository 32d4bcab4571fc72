import Verif.Model.Mem
import Verif.C.Logic
import Verif.Proof.Matrix

/-! # Views of words as bytes -/

namespace Frodo

theorem length_toBytes (a : Arch) (l : List U16) : (toBytes a l).length = 2 * l.length := by
  unfold toBytes
  rw [length_flatMap_const _ _ 2 (by intro x _; cases a <;> rfl)]; omega

theorem length_bytes16 (a : Arch) (x : U16) : (bytes16 a x).length = 2 := by cases a <;> rfl

theorem bytes16_eq (a : Arch) (x : U16) :
    bytes16 a x = [nth (bytes16 a x) 0, nth (bytes16 a x) 1] := by cases a <;> rfl

theorem toBytes_cons (a : Arch) (x : U16) (l : List U16) :
    toBytes a (x :: l) = nth (bytes16 a x) 0 :: nth (bytes16 a x) 1 :: toBytes a l := by
  cases a <;> rfl

theorem toBytes_append (a : Arch) (l l' : List U16) :
    toBytes a (l ++ l') = toBytes a l ++ toBytes a l' := by simp [toBytes]

theorem join_bytes (a : Arch) (x : U16) :
    join16 a (nth (bytes16 a x) 0) (nth (bytes16 a x) 1) = x := by
  have h : ∀ x : U16, (x.setWidth 8).setWidth 16 ||| (((x >>> 8).setWidth 8).setWidth 16 <<< 8) = x := by
    intro x
    apply BitVec.eq_of_getLsbD_eq
    intro i hi
    simp only [BitVec.getLsbD_or, BitVec.getLsbD_setWidth, BitVec.getLsbD_shiftLeft,
      BitVec.getLsbD_ushiftRight]
    by_cases h8 : i < 8
    · simp [h8, hi]
    · have e : 8 + (i - 8) = i := by omega
      have e1 : i - 8 < 8 := by omega
      simp [h8, hi, e, e1]; intro; omega
  cases a <;> exact h x

theorem ofBytes_toBytes (a : Arch) (l : List U16) : ofBytes a (toBytes a l) = l := by
  induction l with
  | nil => rfl
  | cons x l ih => rw [toBytes_cons, ofBytes, ih, join_bytes]

theorem length_ofBytes (a : Arch) : ∀ (n : Nat) (b : List U8), b.length = 2 * n →
    (ofBytes a b).length = n
  | 0, [], _ => rfl
  | n + 1, b0 :: b1 :: l, h => by
    simp only [List.length_cons] at h
    rw [ofBytes, List.length_cons, length_ofBytes a n l (by omega)]
  | _ + 1, [], h => by simp at h
  | _ + 1, [_], h => by simp at h; omega
  | 0, _ :: _, h => by simp at h

theorem ofBytes_append (a : Arch) : ∀ (n : Nat) (x y : List U8), x.length = 2 * n →
    ofBytes a (x ++ y) = ofBytes a x ++ ofBytes a y
  | 0, [], _, _ => rfl
  | n + 1, b0 :: b1 :: l, y, h => by
    simp only [List.length_cons] at h
    rw [List.cons_append, List.cons_append, ofBytes, ofBytes, ofBytes_append a n l y (by omega),
      List.cons_append]
  | _ + 1, [], _, h => by simp at h
  | _ + 1, [_], _, h => by simp at h; omega
  | 0, _ :: _, _, h => by simp at h

theorem nth_ofBytes (a : Arch) : ∀ (k n : Nat) (b : List U8), b.length = 2 * n → k < n →
    nth (ofBytes a b) k = join16 a (nth b (2 * k)) (nth b (2 * k + 1))
  | 0, _, b0 :: b1 :: l, _, _ => rfl
  | k + 1, n + 1, b0 :: b1 :: l, h, hk => by
    simp only [List.length_cons] at h
    rw [ofBytes, nth_cons_succ, nth_ofBytes a k n l (by omega) (by omega)]
    rfl
  | _, _ + 1, [], h, _ => by simp at h
  | _, _ + 1, [_], h, _ => by simp at h; omega
  | _, 0, _, _, hk => by omega

theorem toBytes_drop (a : Arch) : ∀ (k : Nat) (l : List U16),
    (toBytes a l).drop (2 * k) = toBytes a (l.drop k)
  | 0, _ => rfl
  | k + 1, [] => by simp [toBytes]
  | k + 1, x :: l => by
    rw [toBytes_cons, show 2 * (k + 1) = 2 * k + 1 + 1 by omega, List.drop_succ_cons,
      List.drop_succ_cons, toBytes_drop a k l, List.drop_succ_cons]

theorem toBytes_take (a : Arch) : ∀ (k : Nat) (l : List U16),
    (toBytes a l).take (2 * k) = toBytes a (l.take k)
  | 0, _ => rfl
  | k + 1, [] => by simp [toBytes]
  | k + 1, x :: l => by
    rw [toBytes_cons, show 2 * (k + 1) = 2 * k + 1 + 1 by omega, List.take_succ_cons,
      List.take_succ_cons, toBytes_take a k l, List.take_succ_cons, toBytes_cons]

theorem swap_bits (x : U16) (i : Nat) (hi : i < 16) :
    (swap16 x).getLsbD i = x.getLsbD ((i + 8) % 16) := by
  have h1 : ∀ k, (0xFF : U16).getLsbD k = decide (k < 8) := by
    intro k
    by_cases hk : k < 16
    · revert k; decide
    · rw [BitVec.getLsbD_of_ge _ _ (by omega)]; simp; omega
  have h2 : ∀ k, (0xFF00 : U16).getLsbD k = decide (8 ≤ k ∧ k < 16) := by
    intro k
    by_cases hk : k < 16
    · revert k; decide
    · rw [BitVec.getLsbD_of_ge _ _ (by omega)]; simp; omega
  unfold swap16
  simp only [BitVec.getLsbD_or, BitVec.getLsbD_shiftLeft, BitVec.getLsbD_ushiftRight,
    BitVec.getLsbD_and, h1, h2]
  by_cases h8 : i < 8
  · have e : (i + 8) % 16 = 8 + i := by omega
    rw [e]; simp [h8, hi]; intro; omega
  · have e : (i + 8) % 16 = i - 8 := by omega
    rw [e]; simp [h8, hi]; 
    rw [show decide (i - 8 < 8) = true by simp; omega]
    simp; intro; omega

theorem bytes_swap (a : Arch) (x : U16) : bytes16 a (UINT16_TO_LE a x) = bytes16 .le x := by
  cases a
  · rfl
  · have e1 : ((swap16 x) >>> 8).setWidth 8 = x.setWidth 8 := by
      apply BitVec.eq_of_getLsbD_eq
      intro i hi
      simp only [BitVec.getLsbD_setWidth, BitVec.getLsbD_ushiftRight]
      rw [swap_bits _ _ (by omega), show (8 + i + 8) % 16 = i by omega]
    have e2 : (swap16 x).setWidth 8 = (x >>> 8).setWidth 8 := by
      apply BitVec.eq_of_getLsbD_eq
      intro i hi
      simp only [BitVec.getLsbD_setWidth, BitVec.getLsbD_ushiftRight]
      rw [swap_bits _ _ (by omega), show (i + 8) % 16 = 8 + i by omega]
    simp only [bytes16, UINT16_TO_LE, e1, e2]

theorem toBytes_swap (a : Arch) (l : List U16) :
    toBytes a (l.map (UINT16_TO_LE a)) = toBytes .le l := by
  induction l with
  | nil => rfl
  | cons x l ih => rw [List.map_cons, toBytes_cons, toBytes_cons, ih, bytes_swap]

theorem le_join (a : Arch) (b0 b1 : U8) : LE_TO_UINT16 a (join16 a b0 b1) = join16 .le b0 b1 := by
  cases a
  · rfl
  · apply BitVec.eq_of_getLsbD_eq
    intro i hi
    simp only [LE_TO_UINT16]
    rw [swap_bits _ _ hi]
    simp only [join16, BitVec.getLsbD_or, BitVec.getLsbD_shiftLeft, BitVec.getLsbD_setWidth]
    by_cases h8 : i < 8
    · have e : (i + 8) % 16 = i + 8 := by omega
      have e3 : i + 8 < 16 := by omega
      rw [e, BitVec.getLsbD_of_ge b1 (i + 8) (by omega)]; simp [h8, hi, e3]
    · have e : (i + 8) % 16 = i - 8 := by omega
      rw [e]
      have e' : i - 8 < 8 := by omega
      have e'' : i - 8 < 16 := by omega
      rw [BitVec.getLsbD_of_ge b0 i (by omega)]; simp [h8, hi, e', e'']

theorem ofBytes_le (a : Arch) : ∀ (b : List U8),
    (ofBytes a b).map (LE_TO_UINT16 a) = ofBytes .le b
  | [] => rfl
  | [_] => rfl
  | b0 :: b1 :: l => by rw [ofBytes, ofBytes, List.map_cons, ofBytes_le a l, le_join]

theorem le_le (a : Arch) (x : U16) : LE_TO_UINT16 a (LE_TO_UINT16 a x) = x := by
  cases a
  · rfl
  · apply BitVec.eq_of_getLsbD_eq
    intro i hi
    simp only [LE_TO_UINT16]
    rw [swap_bits _ _ hi, swap_bits _ _ (by omega)]
    congr 1; omega

theorem map_le_le (a : Arch) (l : List U16) :
    (l.map (LE_TO_UINT16 a)).map (LE_TO_UINT16 a) = l := by
  rw [List.map_map]
  exact List.map_id'' (fun x => le_le a x) l

theorem ofBytes_eq (a : Arch) (b : List U8) : ofBytes a b = (ofBytes .le b).map (LE_TO_UINT16 a) := by
  rw [← ofBytes_le a b, map_le_le]

theorem toNat_join (b0 b1 : U8) : (join16 .le b0 b1).toNat = b0.toNat + 256 * b1.toNat := by
  unfold join16
  have h0 := b0.isLt
  have h1 := b1.isLt
  simp only [BitVec.toNat_or, BitVec.toNat_shiftLeft, BitVec.toNat_setWidth]
  rw [Nat.mod_eq_of_lt (show b0.toNat < 2 ^ 16 by omega),
    Nat.mod_eq_of_lt (show b1.toNat < 2 ^ 16 by omega), Nat.shiftLeft_eq,
    Nat.mod_eq_of_lt (show b1.toNat * 2 ^ 8 < 2 ^ 16 by omega), Nat.or_comm, Nat.mul_comm b1.toNat,
    ← Nat.two_pow_add_eq_or_of_lt (by omega)]
  omega

theorem Ret_asBytes {a : Arch} {l : List U16} {off : Nat} {f : List U8 → C (List U8)}
    {P : List U16 → Prop} (h : off ≤ l.length)
    (hf : Ret (f (toBytes a (l.drop off))) fun b => P (l.take off ++ ofBytes a b)) :
    Ret (asBytes a l off f) P := by
  unfold asBytes
  rw [if_pos h]
  simp only [wp]
  exact hf.bind fun b hb => by simpa only [wp] using hb

/-- Writing `n` words worth of bytes at word offset `off` of an array. -/
theorem Ret_asBytes_eq {a : Arch} {l : List U16} {off n : Nat} {f : List U8 → C (List U8)}
    {v : List U8} (h : off + n ≤ l.length) (hv : v.length = 2 * n)
    (hf : ∀ b, b.length = 2 * (l.length - off) → Ret (f b) (· = v ++ b.drop (2 * n))) :
    Ret (asBytes a l off f) (· = l.take off ++ ofBytes a v ++ l.drop (off + n)) := by
  refine Ret_asBytes (by omega) ((hf _ (by rw [length_toBytes, List.length_drop])).of_eq ?_)
  rw [ofBytes_append a n _ _ hv, toBytes_drop, ofBytes_toBytes, List.drop_drop, List.append_assoc]

end Frodo
