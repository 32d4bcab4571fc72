import Verif.Model.Matrix
import Verif.Spec.Matrix
import Verif.C.Logic
import Verif.Proof.Bits
import Mathlib.Algebra.BigOperators.Fin
import Mathlib.Tactic.Linarith
import Mathlib.Tactic.Ring

/-! # Small matrix operations -/

namespace Frodo

open Spec

/-- A 16-bit word modulo `2^D` (proof device). -/
def zq (D : Nat) (x : U16) : ZMod (2 ^ D) := (x.toNat : ZMod (2 ^ D))

theorem two_pow_dvd {D : Nat} (h : D ≤ 16) : ((2 ^ D : Nat) : Int) ∣ 65536 := by
  have : (2 ^ D : Nat) ∣ 2 ^ 16 := Nat.pow_dvd_pow 2 h
  exact_mod_cast this

theorem zq_u16 {D : Nat} (h : D ≤ 16) (x : Int) : zq D (u16 x) = (x : ZMod (2 ^ D)) := by
  unfold zq u16
  rw [BitVec.toNat_ofInt]
  have e : (((x % ((2 ^ 16 : Nat) : Int)).toNat : Nat) : Int) = x % 65536 := by
    rw [Int.toNat_of_nonneg (Int.emod_nonneg _ (by decide))]; rfl
  rw [← Int.cast_natCast, e, ZMod.intCast_eq_intCast_iff, Int.ModEq]
  exact Int.emod_emod_of_dvd _ (two_pow_dvd h)

theorem zq_int (D : Nat) (x : U16) : (((x.toNat : Nat) : Int) : ZMod (2 ^ D)) = zq D x := by
  unfold zq; simp

theorem i16_cast {D : Nat} (h : D ≤ 16) (x : Int) : ((i16 x : Int) : ZMod (2 ^ D)) = (x : ZMod (2 ^ D)) := by
  unfold i16
  rw [BitVec.toInt_ofInt, ZMod.intCast_eq_intCast_iff, Int.ModEq]
  rw [← Int.emod_emod_of_dvd (x.bmod (2 ^ 16)) (two_pow_dvd h),
    show (65536 : Int) = ((2 ^ 16 : Nat) : Int) from rfl, Int.bmod_emod]
  exact Int.emod_emod_of_dvd _ (two_pow_dvd h)

theorem i16_bounds (x : Int) : -32768 ≤ i16 x ∧ i16 x ≤ 32767 := by
  unfold i16
  have h1 := BitVec.toInt_lt (x := BitVec.ofInt 16 x)
  have h2 := BitVec.le_toInt (x := BitVec.ofInt 16 x)
  constructor <;> omega

/-- `x & (2^D - 1)` on `int`. -/
theorem iand_mask (x : Int) {D : Nat} (h : D ≤ 16) : iand x (2 ^ D - 1) = x % 2 ^ D := by
  unfold iand
  have hp : (2 : Nat) ^ D ≤ 2 ^ 16 := Nat.pow_le_pow_right (by omega) h
  have hp1 : 0 < (2 : Nat) ^ D := Nat.two_pow_pos D
  have e1 : (2 : Int) ^ D - 1 = ((2 ^ D - 1 : Nat) : Int) := by
    rw [Int.natCast_sub (by omega)]; push_cast; rfl
  have hlt : (BitVec.ofInt 32 x &&& BitVec.ofInt 32 (2 ^ D - 1)).toNat = (x % 2 ^ D).toNat := by
    rw [e1, BitVec.ofInt_natCast, BitVec.toNat_and, BitVec.toNat_ofNat, BitVec.toNat_ofInt,
      Nat.mod_eq_of_lt (show 2 ^ D - 1 < 2 ^ 32 by omega), Nat.and_two_pow_sub_one_eq_mod]
    have : ((x % ((2 ^ 32 : Nat) : Int)).toNat % 2 ^ D : Nat) = (x % 2 ^ D).toNat := by
      zify
      rw [Int.toNat_of_nonneg (Int.emod_nonneg _ (by decide)),
        Int.toNat_of_nonneg (Int.emod_nonneg _ (by positivity)),
        Int.emod_emod_of_dvd]
      have : (2 ^ D : Nat) ∣ 2 ^ 32 := Nat.pow_dvd_pow 2 (by omega)
      exact_mod_cast this
    exact this
  have hb : (x % 2 ^ D).toNat < 2 ^ D := by
    have := Int.emod_lt_of_pos x (show (0 : Int) < 2 ^ D by positivity)
    have := Int.emod_nonneg x (show (2 : Int) ^ D ≠ 0 by positivity)
    zify
    rw [Int.toNat_of_nonneg this]
    omega
  rw [BitVec.toInt_eq_toNat_of_lt (by rw [hlt]; omega), hlt,
    Int.toNat_of_nonneg (Int.emod_nonneg _ (by positivity))]

theorem qMask_ret {P : Params} (h : P.logq ≤ 16) : Ret (qMask P) (· = 2 ^ P.logq - 1) := by
  unfold qMask
  have hp : (2 : Int) ^ P.logq ≤ 2 ^ 16 := by
    have : (2 : Nat) ^ P.logq ≤ 2 ^ 16 := Nat.pow_le_pow_right (by omega) h
    exact_mod_cast this
  have hp1 : (0 : Int) < 2 ^ P.logq := by positivity
  simp only [wp, Int.toNat_natCast, one_mul, inInt]
  norm_num at hp
  refine ⟨⟨by omega, by omega⟩, by omega, ⟨by omega, by omega⟩, ⟨by omega, by omega⟩, trivial⟩

theorem u16_mask {D : Nat} (x : Int) {z : ZMod (2 ^ D)} (hz : (x : ZMod (2 ^ D)) = z) :
    u16 (x % 2 ^ D) = BitVec.ofNat 16 z.val := by
  have h := ZMod.val_intCast (n := 2 ^ D) x
  rw [hz] at h
  have h : (z.val : Int) = x % 2 ^ D := by rw [h]; push_cast; rfl
  rw [← h, u16_natCast]

theorem zq_ofNat_val {D : Nat} (h : D ≤ 16) (z : ZMod (2 ^ D)) : zq D (BitVec.ofNat 16 z.val) = z := by
  have hp : (2 : Nat) ^ D ≤ 2 ^ 16 := Nat.pow_le_pow_right (by omega) h
  have := ZMod.val_lt z
  unfold zq
  rw [BitVec.toNat_ofNat, Nat.mod_eq_of_lt (by omega), ZMod.natCast_zmod_val]

/-! ## Row-major arrays -/

theorem length_flatMap_const {α β : Type} (l : List α) (f : α → List β) (c : Nat)
    (h : ∀ a ∈ l, (f a).length = c) : (l.flatMap f).length = l.length * c := by
  induction l with
  | nil => simp
  | cons a l ih =>
    rw [List.flatMap_cons, List.length_append, h a (by simp), ih (fun b hb => h b (by simp [hb])),
      List.length_cons, Nat.succ_mul]; omega

theorem length_ofMat {D r c : Nat} (M : Matrix (Fin r) (Fin c) (ZMod (2 ^ D))) :
    (ofMat M).length = r * c := by
  unfold ofMat
  rw [length_flatMap_const _ _ c (by simp)]; simp

theorem nth_flatMap_const {α β : Type} [Inhabited α] [Inhabited β] (l : List α) (f : α → List β)
    (c : Nat) (h : ∀ a ∈ l, (f a).length = c) (i j : Nat) (hi : i < l.length) (hj : j < c) :
    nth (l.flatMap f) (i * c + j) = nth (f (nth l i)) j := by
  induction l generalizing i with
  | nil => simp at hi
  | cons a l ih =>
    rw [List.flatMap_cons, nth_append, h a (by simp)]
    cases i with
    | zero => simp [hj, nth_cons_zero]
    | succ i =>
      rw [if_neg (by rw [Nat.succ_mul]; omega), nth_cons_succ,
        show (i + 1) * c + j - c = i * c + j by rw [Nat.succ_mul]; omega]
      exact ih (fun b hb => h b (by simp [hb])) i (by simpa using hi)

theorem nth_finRange_map {β : Type} [Inhabited β] {c : Nat} (f : Fin c → β) {j : Nat} (hj : j < c) :
    nth ((List.finRange c).map f) j = f ⟨j, hj⟩ := by
  rw [nth_eq_getElem (by simpa using hj)]; simp

theorem nth_ofMat {D r c : Nat} (M : Matrix (Fin r) (Fin c) (ZMod (2 ^ D))) {i j : Nat}
    (hi : i < r) (hj : j < c) :
    nth (ofMat M) (i * c + j) = BitVec.ofNat 16 (M ⟨i, hi⟩ ⟨j, hj⟩).val := by
  unfold ofMat
  have : Inhabited (Fin r) := ⟨⟨i, hi⟩⟩
  rw [nth_flatMap_const _ _ c (by simp) i j (by simpa using hi) hj, nth_finRange_map _ hj]
  rw [nth_eq_getElem (by simpa using hi)]; simp

theorem toMat_apply {D r c : Nat} (l : List U16) (i : Fin r) (j : Fin c) :
    toMat D r c l i j = zq D (nth l (i * c + j)) := rfl

theorem toMat_ofMat {D r c : Nat} (hD : D ≤ 16) (M : Matrix (Fin r) (Fin c) (ZMod (2 ^ D)))
    (l : List U16) : toMat D r c (ofMat M ++ l) = M := by
  ext i j
  have hlt : i.val * c + j.val < r * c := by
    have := Nat.mul_le_mul_right c (Nat.succ_le_of_lt i.isLt)
    rw [Nat.succ_mul] at this; omega
  rw [toMat_apply, nth_append, length_ofMat, if_pos hlt, nth_ofMat _ i.isLt j.isLt]
  exact zq_ofNat_val hD _

/-- Rule for a double loop that fills an array row by row. -/
theorem Ret.fill2 {r c : Nat} {out0 : List U16} {body : Nat → Nat → List U16 → C (List U16)}
    (g : List U16) (hg : g.length = r * c) (hlen : r * c ≤ out0.length)
    (h : ∀ i j out, i < r → j < c → i * c + j < r * c → out.length = out0.length →
      (∀ t, i * c + j ≤ t → nth out t = nth out0 t) →
      Ret (body i j out) (· = out.set (i * c + j) (nth g (i * c + j)))) :
    Ret (forC 0 r 1 out0 fun i out => forC 0 c 1 out fun j out => body i j out)
      (· = g ++ out0.drop (r * c)) := by
  let J : Nat → List U16 → Prop := fun n o => o.length = out0.length ∧
    (∀ t, t < n → nth o t = nth g t) ∧ ∀ t, n ≤ t → nth o t = nth out0 t
  refine Ret.for1 (fun i o => J (i * c) o) ⟨rfl, by intro t ht; omega, fun _ _ => rfl⟩ ?_ ?_
  · intro i o hi hJ
    refine Ret.for1 (fun j o => J (i * c + j) o) hJ ?_ ?_
    · intro j o hj hJ
      have hlt : i * c + j < r * c := by
        have := Nat.mul_le_mul_right c (Nat.succ_le_of_lt hi)
        rw [Nat.succ_mul] at this; omega
      refine (h i j o hi hj hlt hJ.1 hJ.2.2).mono ?_
      rintro o' rfl
      refine ⟨by rw [List.length_set]; exact hJ.1, ?_, ?_⟩
      · intro t ht
        by_cases he : t = i * c + j
        · subst he; rw [nth_set_eq (by rw [hJ.1]; omega)]
        · rw [nth_set_ne (Ne.symm he)]; exact hJ.2.1 t (by omega)
      · intro t ht
        rw [nth_set_ne (by omega)]; exact hJ.2.2 t (by omega)
    · intro o hJ
      rw [show (i + 1) * c = i * c + c by rw [Nat.succ_mul]]; exact hJ
  · intro o hJ
    apply ext_nth
    · simp [hJ.1, hg]; omega
    · intro t _
      rw [nth_append, hg, nth_drop]
      split
      · exact hJ.2.1 t (by assumption)
      · rw [hJ.2.2 t (by omega)]; congr 1; omega

/-! ## The functions -/

theorem prod_bounds {x y : Int} (hx : -32768 ≤ x ∧ x ≤ 32767) (hy : 0 ≤ y ∧ y < 65536) :
    -2147450880 ≤ x * y ∧ x * y ≤ 2147385345 := by
  obtain ⟨h1, h2⟩ := hx; obtain ⟨h3, h4⟩ := hy
  constructor <;> nlinarith

theorem idx_lt {i j r c : Nat} (hi : i < r) (hj : j < c) : i * c + j < r * c := by
  have := Nat.mul_le_mul_right c (Nat.succ_le_of_lt hi)
  rw [Nat.succ_mul] at this; omega

theorem set_set_self {l : List U16} {p : Nat} {v w : U16} : (l.set p v).set p w = l.set p w := by
  simp

theorem frodo_mul_bs_ret {P : Params} {out b s : List U16} (hD : P.logq ≤ 16)
    (ho : P.nbar * P.nbar ≤ out.length) (hb : P.nbar * P.n ≤ b.length)
    (hs : P.nbar * P.n ≤ s.length) :
    Ret (frodo_mul_bs P out b s)
      (· = ofMat (toMat P.logq P.nbar P.n b * (toMat P.logq P.nbar P.n s).transpose)
        ++ out.drop (P.nbar * P.nbar)) := by
  refine Ret.fill2 _ (length_ofMat _) ho ?_
  intro i j o hi hj hlt hlen _
  simp only [wp]
  refine ⟨by omega, ?_⟩
  refine Ret.bind (Q := fun o' => ∃ v, o' = o.set (i * P.nbar + j) v ∧ zq P.logq v =
    ∑ k ∈ Finset.range P.n, zq P.logq (nth b (i * P.n + k)) * zq P.logq (nth s (j * P.n + k))) ?_ ?_
  · refine Ret.for1 (fun K o' => ∃ v, o' = o.set (i * P.nbar + j) v ∧ zq P.logq v =
      ∑ k ∈ Finset.range K, zq P.logq (nth b (i * P.n + k)) * zq P.logq (nth s (j * P.n + k)))
      ⟨0, rfl, by simp [zq]⟩ ?_ (fun _ h => h)
    rintro k _ hk ⟨v, rfl, hv⟩
    have h1 := idx_lt hi hk
    have h2 := idx_lt hj hk
    simp only [wp, List.length_set]
    rw [nth_set_eq (by omega)]
    have hy := (nth b (i * P.n + k)).isLt
    have hvl := v.isLt
    have hp := prod_bounds (i16_bounds ((nth s (j * P.n + k)).toNat : Int))
      (y := ((nth b (i * P.n + k)).toNat : Int)) ⟨by omega, by omega⟩
    rw [Int.mul_comm (i16 _)] at hp
    refine ⟨by omega, by omega, by omega, ⟨by omega, by omega⟩, ⟨by omega, by omega⟩, by omega,
      _, set_set_self, ?_⟩
    rw [zq_u16 hD, Finset.sum_range_succ, ← hv]
    push_cast
    rw [i16_cast hD]
    simp [zq]
  · rintro _ ⟨v, rfl, hv⟩
    simp only [wp, List.length_set]
    rw [nth_set_eq (by omega)]
    refine ⟨by omega, (qMask_ret hD).bind_eq ?_⟩
    simp only [wp, List.length_set]
    refine ⟨by omega, ?_⟩
    rw [iand_mask _ hD, set_set_self, nth_ofMat _ hi hj]
    congr 1
    apply u16_mask
    rw [zq_int, hv, Matrix.mul_apply, Finset.sum_range]
    rfl

theorem frodo_mul_add_sb_plus_e_ret {P : Params} {out b s e : List U16} (hD : P.logq ≤ 16)
    (ho : P.nbar * P.nbar ≤ out.length) (hb : P.n * P.nbar ≤ b.length)
    (hs : P.nbar * P.n ≤ s.length) (he : P.nbar * P.nbar ≤ e.length) :
    Ret (frodo_mul_add_sb_plus_e P out b s e)
      (· = ofMat (toMat P.logq P.nbar P.n s * toMat P.logq P.n P.nbar b
          + toMat P.logq P.nbar P.nbar e)
        ++ out.drop (P.nbar * P.nbar)) := by
  refine Ret.fill2 _ (length_ofMat _) ho ?_
  intro i j o hi hj hlt hlen _
  simp only [wp]
  refine ⟨by omega, by omega, ?_⟩
  refine Ret.bind (Q := fun o' => ∃ v, o' = o.set (i * P.nbar + j) v ∧ zq P.logq v =
    ∑ k ∈ Finset.range P.n, zq P.logq (nth s (i * P.n + k)) * zq P.logq (nth b (k * P.nbar + j))
      + zq P.logq (nth e (i * P.nbar + j))) ?_ ?_
  · refine Ret.for1 (fun K o' => ∃ v, o' = o.set (i * P.nbar + j) v ∧ zq P.logq v =
      ∑ k ∈ Finset.range K, zq P.logq (nth s (i * P.n + k)) * zq P.logq (nth b (k * P.nbar + j))
        + zq P.logq (nth e (i * P.nbar + j)))
      ⟨_, rfl, by simp⟩ ?_ (fun _ h => h)
    rintro k _ hk ⟨v, rfl, hv⟩
    have h1 := idx_lt hi hk
    have h2 := idx_lt hk hj
    simp only [wp, List.length_set]
    rw [nth_set_eq (by omega)]
    have hy := (nth b (k * P.nbar + j)).isLt
    have hvl := v.isLt
    have hp := prod_bounds (i16_bounds ((nth s (i * P.n + k)).toNat : Int))
      (y := ((nth b (k * P.nbar + j)).toNat : Int)) ⟨by omega, by omega⟩
    refine ⟨by omega, by omega, by omega, ⟨by omega, by omega⟩, ⟨by omega, by omega⟩, by omega,
      _, set_set_self, ?_⟩
    rw [zq_u16 hD, Finset.sum_range_succ, add_right_comm, ← hv]
    push_cast
    rw [i16_cast hD]
    simp [zq]
  · rintro _ ⟨v, rfl, hv⟩
    simp only [wp, List.length_set]
    rw [nth_set_eq (by omega)]
    refine ⟨by omega, (qMask_ret hD).bind_eq ?_⟩
    simp only [wp, List.length_set]
    refine ⟨by omega, ?_⟩
    rw [iand_mask _ hD, set_set_self, nth_ofMat _ hi hj]
    congr 1
    apply u16_mask
    rw [zq_int, hv, Matrix.add_apply, Matrix.mul_apply, Finset.sum_range]
    rfl

/-- Rule for an element-wise loop where operands may be the output itself. -/
theorem pointwise_ret {P : Params} {out : List U16} {x y : Operand} {f : Int → Int → Int}
    {M : Matrix (Fin P.nbar) (Fin P.nbar) (ZMod (2 ^ P.logq))} (hD : P.logq ≤ 16)
    (ho : P.nbar * P.nbar ≤ out.length) (hx : P.nbar * P.nbar ≤ (x.get out).length)
    (hy : P.nbar * P.nbar ≤ (y.get out).length)
    (hf : ∀ a b : U16, inInt (f a.toNat b.toNat))
    (hM : ∀ i j : Fin P.nbar, ((f (nth (x.get out) (i * P.nbar + j)).toNat
      (nth (y.get out) (i * P.nbar + j)).toNat : Int) : ZMod (2 ^ P.logq)) = M i j) :
    Ret (forC 0 (P.nbar * P.nbar) 1 out fun i out => do
        let a ← rd (x.get out) i
        let b ← rd (y.get out) i
        let r ← int (f (a : Int) (b : Int))
        let m ← qMask P
        wr out i (u16 (iand r m)))
      (· = ofMat M ++ out.drop (P.nbar * P.nbar)) := by
  refine Ret.for1 (fun n o => o.length = out.length ∧ (∀ t, t < n → nth o t = nth (ofMat M) t) ∧
    ∀ t, n ≤ t → nth o t = nth out t) ⟨rfl, by intro t ht; omega, fun _ _ => rfl⟩ ?_ ?_
  · rintro t o ht ⟨hl, h1, h2⟩
    have hgl : ∀ z : Operand, P.nbar * P.nbar ≤ (z.get out).length →
        t < (z.get o).length ∧ nth (z.get o) t = nth (z.get out) t := by
      intro z hz
      cases z with
      | buf l => exact ⟨by simp only [Operand.get] at hz ⊢; omega, rfl⟩
      | out => exact ⟨by simp only [Operand.get]; omega, h2 t (Nat.le_refl _)⟩
    simp only [wp]
    rw [(hgl x hx).2, (hgl y hy).2]
    refine ⟨(hgl x hx).1, (hgl y hy).1, hf _ _, (qMask_ret hD).bind_eq ?_⟩
    simp only [wp]
    refine ⟨by omega, by simpa using hl, ?_, ?_⟩
    · intro t' ht'
      by_cases he : t' = t
      · subst he
        have hn : 0 < P.nbar := by
          rcases Nat.eq_zero_or_pos P.nbar with h | h
          · rw [h] at ht; simp at ht
          · exact h
        have hi : t' / P.nbar < P.nbar := Nat.div_lt_of_lt_mul ht
        have hj : t' % P.nbar < P.nbar := Nat.mod_lt _ hn
        have e : t' = t' / P.nbar * P.nbar + t' % P.nbar := by
          rw [Nat.mul_comm]; exact (Nat.div_add_mod _ _).symm
        rw [nth_set_eq (by omega), iand_mask _ hD]
        conv_rhs => rw [e]
        rw [nth_ofMat _ hi hj]
        apply u16_mask
        rw [← hM ⟨_, hi⟩ ⟨_, hj⟩]
        simp only [← e]
      · rw [nth_set_ne (Ne.symm he)]; exact h1 t' (by omega)
    · intro t' ht'
      rw [nth_set_ne (by omega)]; exact h2 t' (by omega)
  · rintro o ⟨hl, h1, h2⟩
    apply ext_nth
    · simp [hl, length_ofMat]; omega
    · intro t _
      rw [nth_append, length_ofMat, nth_drop]
      split
      · exact h1 t (by assumption)
      · rw [h2 t (by omega)]; congr 1; omega

theorem frodo_add_ret {P : Params} {out : List U16} {x y : Operand} (hD : P.logq ≤ 16)
    (ho : P.nbar * P.nbar ≤ out.length) (hx : P.nbar * P.nbar ≤ (x.get out).length)
    (hy : P.nbar * P.nbar ≤ (y.get out).length) :
    Ret (frodo_add P out x y)
      (· = ofMat (toMat P.logq P.nbar P.nbar (x.get out) + toMat P.logq P.nbar P.nbar (y.get out))
        ++ out.drop (P.nbar * P.nbar)) := by
  refine pointwise_ret (f := fun a b => a + b) hD ho hx hy ?_ ?_
  · intro a b
    have := a.isLt; have := b.isLt
    exact ⟨by omega, by omega⟩
  · intro i j
    rw [Matrix.add_apply, toMat_apply, toMat_apply]
    simp [zq]

theorem frodo_sub_ret {P : Params} {out : List U16} {x y : Operand} (hD : P.logq ≤ 16)
    (ho : P.nbar * P.nbar ≤ out.length) (hx : P.nbar * P.nbar ≤ (x.get out).length)
    (hy : P.nbar * P.nbar ≤ (y.get out).length) :
    Ret (frodo_sub P out x y)
      (· = ofMat (toMat P.logq P.nbar P.nbar (x.get out) - toMat P.logq P.nbar P.nbar (y.get out))
        ++ out.drop (P.nbar * P.nbar)) := by
  refine pointwise_ret (f := fun a b => a - b) hD ho hx hy ?_ ?_
  · intro a b
    have := a.isLt; have := b.isLt
    exact ⟨by omega, by omega⟩
  · intro i j
    rw [Matrix.sub_apply, toMat_apply, toMat_apply]
    simp [zq]

end Frodo
