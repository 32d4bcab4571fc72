import Verif.Proof.TextUtil
import Verif.Proof.Mem

/-! # Blocks of 16-bit words seen as bytes: text and model -/

namespace Frodo

open Src

/-- A block of bytes. -/
abbrev u8s (l : List U8) : Blk := ⟨false, 1, ofU8 l⟩
/-- A block of 16-bit words. -/
abbrev u16s (l : List U16) : Blk := ⟨false, 2, ofU16 l⟩

theorem ofU8_append (l l' : List U8) : ofU8 (l ++ l') = ofU8 l ++ ofU8 l' := List.map_append ..
theorem ofU16_append (l l' : List U16) : ofU16 (l ++ l') = ofU16 l ++ ofU16 l' := List.map_append ..
theorem ofU8_take (l : List U8) (k : Nat) : ofU8 (l.take k) = (ofU8 l).take k := List.map_take ..
theorem ofU8_drop (l : List U8) (k : Nat) : ofU8 (l.drop k) = (ofU8 l).drop k := List.map_drop ..
theorem ofU8_inj {l l' : List U8} (h : ofU8 l = ofU8 l') : l = l' :=
  List.map_injective_iff.2 (fun x y e => BitVec.eq_of_toNat_eq (by exact_mod_cast e)) h

theorem bytesOf_one (a : Arch) (x : U8) : bytesOf a 1 (x.toNat : Int) = [(x.toNat : Int)] := by
  have := x.isLt
  have e : (x.toNat : Int) % 256 = x.toNat := by omega
  cases a <;> simp [bytesOf, e]

theorem bytesOf_two (a : Arch) (x : U16) : bytesOf a 2 (x.toNat : Int) = ofU8 (bytes16 a x) := by
  have := x.isLt
  have e1 : ((x.toNat : Int)) % 256 = ((x.setWidth 8).toNat : Int) := by
    rw [BitVec.toNat_setWidth]; omega
  have e2 : ((x.toNat : Int)) / (256 : Int) % (256 : Int) = (((x >>> 8).setWidth 8).toNat : Int) := by
    rw [BitVec.toNat_setWidth, BitVec.toNat_ushiftRight, Nat.shiftRight_eq_div_pow]; omega
  have r : List.range 2 = [0, 1] := rfl
  cases a
  · simp only [bytesOf, r, List.map_cons, List.map_nil, bytes16, ofU8, Nat.mul_zero, Int.pow_zero, Int.ediv_one, Nat.mul_one,
      Int.reducePow, e1, e2]
  · simp only [bytesOf, r, List.map_cons, List.map_nil, bytes16, ofU8, Nat.mul_zero, Int.pow_zero, Int.ediv_one, Nat.mul_one,
      Int.reducePow, e1, e2, List.reverse_cons, List.reverse_nil, List.nil_append, List.cons_append]

theorem bytes_u8s (a : Arch) (l : List U8) : (u8s l).bytes a = ofU8 l := by
  unfold Blk.bytes
  simp only
  induction l with
  | nil => rfl
  | cons x l ih =>
    have : ofU8 (x :: l) = (x.toNat : Int) :: ofU8 l := rfl
    rw [this, List.flatMap_cons, ih, bytesOf_one]
    rfl

theorem bytes_u16s (a : Arch) (l : List U16) : (u16s l).bytes a = ofU8 (toBytes a l) := by
  unfold Blk.bytes
  simp only
  induction l with
  | nil => rfl
  | cons x l ih =>
    have : ofU16 (x :: l) = (x.toNat : Int) :: ofU16 l := rfl
    rw [this, List.flatMap_cons, ih, bytesOf_two, ← ofU8_append]
    rfl

theorem groups_cons {n : Nat} (hn : 0 < n) (x l : List Int) (hx : x.length = n) : groups n (x ++ l) = x :: groups n l := by
  unfold groups
  have e : (x ++ l).length / n = l.length / n + 1 := by
    rw [List.length_append, hx, Nat.add_comm, Nat.add_div_right _ hn]
  rw [e, List.range_succ_eq_map, List.map_cons, List.map_map]
  congr 1
  · simp [hx]
  · apply List.map_congr_left
    intro i _
    simp only [Function.comp, Nat.succ_mul]
    rw [Nat.add_comm, List.drop_append, hx]
    simp [List.drop_eq_nil_of_le, hx]

theorem joinBytes_two (a : Arch) (x y : U8) : joinBytes a [(x.toNat : Int), (y.toNat : Int)] = ((join16 a x y).toNat : Int) := by
  have hx := x.isLt
  have hy := y.isLt
  have key : ∀ u v : U8, (((u.setWidth 16) ||| (v.setWidth 16 <<< 8)).toNat : Int) = u.toNat + 256 * v.toNat := by
    intro u v
    have hu := u.isLt
    have hv := v.isLt
    have e : (u.setWidth 16) ||| (v.setWidth 16 <<< 8) = (u.setWidth 16) + (v.setWidth 16 <<< 8) := by
      symm
      apply BitVec.add_eq_or_of_and_eq_zero
      ext i hi
      simp only [BitVec.getElem_and, BitVec.getElem_setWidth, BitVec.getElem_shiftLeft, BitVec.getElem_zero]
      by_cases h : i < 8
      · simp [h]
      · rw [BitVec.getLsbD_of_ge u i (by omega)]
        simp
    rw [e, BitVec.toNat_add, BitVec.toNat_shiftLeft, BitVec.toNat_setWidth, BitVec.toNat_setWidth, Nat.shiftLeft_eq]
    omega
  cases a
  · simp only [joinBytes, joinLe, join16]
    rw [key]
    omega
  · simp only [joinBytes, joinLe, join16, List.reverse_cons, List.reverse_nil, List.nil_append, List.cons_append]
    rw [key]
    omega

theorem wrap_two (x : U16) : wrap false 2 (x.toNat : Int) = x.toNat := by
  rw [wrap_u16, u16_toNat]

theorem setBytes_u16s (a : Arch) (d : List Int) : ∀ (k : Nat) (l : List U8), l.length = 2 * k →
    (Blk.setBytes a ⟨false, 2, d⟩ (ofU8 l)) = u16s (ofBytes a l) := by
  intro k
  induction k with
  | zero =>
    intro l hl
    obtain rfl := List.eq_nil_of_length_eq_zero hl
    simp [Blk.setBytes, groups, ofU8, ofBytes, ofU16]
  | succ k ih =>
    intro l hl
    obtain ⟨x, y, l, rfl⟩ : ∃ x y l', l = x :: y :: l' := by
      match l, hl with
      | x :: y :: l, _ => exact ⟨x, y, l, rfl⟩
      | [x], h => simp at h; omega
      | [], h => simp at h
    have h := ih l (by simp at hl; omega)
    simp only [Blk.setBytes, Blk.mk.injEq, true_and] at h ⊢
    have e : ofU8 (x :: y :: l) = [(x.toNat : Int), (y.toNat : Int)] ++ ofU8 l := rfl
    rw [e, groups_cons (n := 2) (by omega) _ _ rfl, List.map_cons, h, joinBytes_two, wrap_two]
    rfl

theorem setBytes_u8s (a : Arch) (d : List Int) (l : List U8) : Blk.setBytes a ⟨false, 1, d⟩ (ofU8 l) = u8s l := by
  simp only [Blk.setBytes, Blk.mk.injEq, true_and]
  induction l with
  | nil => rfl
  | cons x l ih =>
    have e : ofU8 (x :: l) = [(x.toNat : Int)] ++ ofU8 l := rfl
    rw [e, groups_cons (n := 1) (by omega) _ _ rfl, List.map_cons, ih]
    congr 1
    have : joinBytes a [(x.toNat : Int)] = x.toNat := by cases a <;> simp [joinBytes, joinLe]
    rw [this, wrap_u8, u8_toNat]

theorem words_ofBytes (a : Arch) : ∀ (k : Nat) (l : List U8), l.length = 2 * k → toBytes a (ofBytes a l) = l
  | 0, l, h => by obtain rfl := List.eq_nil_of_length_eq_zero h; rfl
  | k + 1, x :: y :: l, h => by
    rw [ofBytes, toBytes_cons, words_ofBytes a k l (by simp at h; omega)]
    have e : ∀ a, bytes16 a (join16 a x y) = [x, y] := by
      have key : ∀ u v : U8, ((u.setWidth 16) ||| (v.setWidth 16 <<< 8)).setWidth 8 = u ∧
          ((((u.setWidth 16) ||| (v.setWidth 16 <<< 8)) >>> 8).setWidth 8 : U8) = v := by
        intro u v
        constructor
        · ext i hi
          simp
        · ext i hi
          simp [show 8 + i < 16 by omega, show i < 16 by omega, BitVec.getLsbD_eq_getElem hi]
      intro a
      cases a <;> simp only [bytes16, join16, key]
    rw [e]
    rfl
  | k + 1, [x], h => by simp at h; omega
  | k + 1, [], h => by simp at h

theorem storeB_words {a : Arch} {p : List U16} {r : List U8} {k i : Nat} (hr : r.length = 2 * k) (v : U8) :
    storeB a (u16s (p ++ ofBytes a r)) (p.length * 2) 1 (i : Int) (v.toNat : Int) =
      Frodo.wr r i v >>= fun r' => pure (u16s (p ++ ofBytes a r')) := by
  have hl : ((u16s (p ++ ofBytes a r)).bytes a) = ofU8 (toBytes a p ++ r) := by
    rw [bytes_u16s, toBytes_append, words_ofBytes a k r hr]
  have hp : (toBytes a p).length = p.length * 2 := by rw [length_toBytes, Nat.mul_comm]
  unfold storeB
  rw [if_neg (by omega), if_neg (by simp), hl, length_ofU8, List.length_append, hp]
  simp only [Int.toNat_natCast, Nat.mul_one]
  by_cases hi : i < r.length
  · have e : Frodo.wr r i v = C.emit (.write i) >>= fun _ => pure (r.set i v) := by unfold Frodo.wr; rw [if_pos hi]
    rw [e, if_pos (by omega)]
    simp only [bind_assoc, pure_bind]
    congr 1
    funext _
    congr 1
    have e2 : (ofU8 (toBytes a p ++ r)).take (p.length * 2 + i) ++ bytesOf a 1 (v.toNat : Int) ++
        (ofU8 (toBytes a p ++ r)).drop (p.length * 2 + i + 1) = ofU8 (toBytes a (p ++ ofBytes a (r.set i v))) := by
      rw [bytesOf_one, ← ofU8_take, ← ofU8_drop]
      have : [(v.toNat : Int)] = ofU8 [v] := rfl
      rw [this, ← ofU8_append, ← ofU8_append]
      congr 1
      rw [toBytes_append, words_ofBytes a k _ (by simpa using hr), ← hp, List.take_length_add_append, Nat.add_assoc,
        List.drop_length_add_append, List.set_eq_take_append_cons_drop, if_pos hi]
      simp
    rw [e2, setBytes_u16s a _ _ _ (length_toBytes a _), ofBytes_toBytes]
  · have e : Frodo.wr r i v = C.ub .oobWrite := by unfold Frodo.wr; rw [if_neg hi]
    rw [e, if_neg (by omega)]
    rfl

/-- `clear_bytes` on a block of 16-bit words (/repo/src/util.c:135-143). -/
theorem text_clear_words (X : Ctx) (m : Mem) (next br : Nat) (l : List U16) (off len : Nat) (hoff : off ≤ l.length)
    (hlen : len < 2 ^ 64) (hr : m br = u16s l) :
    Refines False (clear_bytes (toBytes X.arch (l.drop off)) len) (utilFile.run X "clear_bytes" [.ptr br (off * 2) false 1,
      .int false 8 len] m next) (fun r x => x = (.undef .void, m.set br (u16s (l.take off ++ ofBytes X.arch r)), next)) := by
  rw [run_eq util_clear, clearFun, clear_bytes]
  csim [loopF_eq]
  have hp : (l.take off).length = off := by rw [List.length_take]; omega
  refine Refines.tail (((Refines.forC (fun i (r : List U8) => ⟨[("i", .int false 8 i), ("v", .ptr br (off * 2) false 1),
    ("mem", .ptr br (off * 2) false 1), ("n", .int false 8 len)], m.set br (u16s (l.take off ++ ofBytes X.arch r)), next⟩)
    (fun _ r => r.length = 2 * (l.length - off)) (by omega) ?_ ?_ ?_ ?_).bind ?_))
  · rw [ofBytes_toBytes, List.take_append_drop, set_self _ hr]; rfl
  · rw [length_toBytes, List.length_drop]
  · intro i r hi hl
    csim
    cstep
    have e := storeB_words (a := X.arch) (p := l.take off) (i := i) hl 0
    rw [hp] at e
    have z : (((0 : U8).toNat : Nat) : Int) = 0 := rfl
    rw [z] at e
    rw [e]
    csim
    refine Refines.tail (Refines.step' (P := fun a : List U8 => a.length = 2 * (l.length - off)) ?_ fun a ha => ?_)
    · intro a t h
      unfold Frodo.wr at h
      split at h
      · cases h; simpa using hl
      · cases h
    exact .pure ⟨rfl, ha⟩
  · intro r _
    csim
    exact Refines.branchF (by simp)
  · rintro r _ ⟨rfl, -⟩
    csim
    exact .pure rfl

end Frodo
