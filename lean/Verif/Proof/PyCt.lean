import Verif.Proof.PyFun

/-! # Comparison and selection of the Python implementation -/

namespace Frodo.Py

open C Spec

theorem lor_nat (m n : Nat) : Int.lor (m : Int) (n : Int) = ((m ||| n : Nat) : Int) := rfl
theorem xor_nat (m n : Nat) : Int.xor (m : Int) (n : Int) = ((m ^^^ n : Nat) : Int) := rfl

/-- Comparison of two lists of rows of the same lengths with entries that are not negative. -/
theorem ctverify_ret {a b : Mat} (hl : a.length = b.length)
    (hr : ∀ i, i < a.length → (nth a i).length = (nth b i).length)
    (ha : ∀ i j, 0 ≤ ent a i j) (hb : ∀ i j, 0 ≤ ent b i j) :
    Ret (ctverify a b) (· = decide (a = b)) := by
  unfold ctverify
  let I : Nat → Nat → Int → Prop := fun n m r => ∃ v : Nat, r = v ∧
    (v = 0 ↔ ∀ i j, i < a.length → j < (nth a i).length → (i < n ∨ (i = n ∧ j < m)) → ent a i j = ent b i j)
  refine Ret.bind (Q := fun r => I a.length 0 r) ?_ ?_
  · refine Ret.for1 (fun n r => I n 0 r) ⟨0, rfl, ?_⟩ ?_ (fun _ h => h)
    · simp only [true_iff]; intro i j _ _ h; omega
    · intro i r hi hI
      simp only [Ret_rd_bind]
      refine ⟨hi, ?_⟩
      refine Ret.for1 (fun m r => I i m r) hI ?_ ?_
      · rintro j r hj ⟨v, rfl, hv⟩
        simp only [get2_bind, Ret_pure]
        refine ⟨hi, hj, by rw [← hl]; exact hi, by rw [← hr i hi]; exact hj, ?_⟩
        obtain ⟨x, hx⟩ := Int.eq_ofNat_of_zero_le (ha i j)
        obtain ⟨y, hy⟩ := Int.eq_ofNat_of_zero_le (hb i j)
        rw [hx, hy, xor_nat, lor_nat]
        refine ⟨_, rfl, ?_⟩
        rw [Nat.or_eq_zero_iff, hv, Nat.xor_eq_zero_iff]
        constructor
        · rintro ⟨h1, h2⟩ i' j' hi' hj' hlt
          by_cases e : i' = i ∧ j' = j
          · rw [e.1, e.2, hx, hy, h2]
          · exact h1 i' j' hi' hj' (by omega)
        · intro h
          refine ⟨fun i' j' hi' hj' hlt => h i' j' hi' hj' (by omega), ?_⟩
          have := h i j hi hj (by omega)
          rw [hx, hy] at this
          exact_mod_cast this
      · rintro r ⟨v, hv, h⟩
        refine ⟨v, hv, ?_⟩
        rw [h]
        constructor
        · intro h i' j' hi' hj' hlt
          refine h i' j' hi' hj' ?_
          by_cases e : i' = i
          · subst e; exact Or.inr ⟨rfl, hj'⟩
          · left; omega
        · intro h i' j' hi' hj' hlt
          exact h i' j' hi' hj' (by omega)
  · rintro r ⟨v, rfl, hv⟩
    rw [Ret_pure]
    congr 1
    rw [eq_iff_iff]
    constructor
    · intro h
      rw [Nat.cast_eq_zero, hv] at h
      apply ext_nth hl
      intro i hi
      apply ext_nth (hr i hi)
      intro j hj
      exact h i j hi hj (by omega)
    · rintro rfl
      rw [Nat.cast_eq_zero, hv]
      intro i j _ _ _; rfl

theorem select_byte (sel : Bool) (x y : U8) :
    Int.lor (Int.land x.toNat (if sel then 255 else 0)) (Int.land y.toNat (Int.lnot (if sel then 255 else 0))) =
      (((if sel then x else y).toNat : Nat) : Int) := by
  cases sel
  · have h1 : ∀ x : U8, Int.land x.toNat 0 = (0 : Nat) := by decide
    have h2 : ∀ x : U8, Int.land x.toNat (Int.lnot 0) = (x.toNat : Nat) := by
      intro x
      show ((Nat.ldiff x.toNat 0 : Nat) : Int) = _
      congr 1
      apply Nat.eq_of_testBit_eq
      intro i; simp [Nat.testBit_ldiff]
    simp only [Bool.false_eq_true, if_false]
    rw [h1, h2, lor_nat, Nat.zero_or]
  · have h1 : ∀ x : U8, Int.land x.toNat (Int.lnot 255) = (0 : Nat) := by
      intro x
      show ((Nat.ldiff x.toNat 255 : Nat) : Int) = _
      congr 1
      apply Nat.eq_of_testBit_eq
      intro i
      rw [Nat.testBit_ldiff, show 255 = 2 ^ 8 - 1 by norm_num, Nat.testBit_two_pow_sub_one, Nat.zero_testBit]
      by_cases h : i < 8
      · simp [h]
      · rw [Nat.testBit_lt_two_pow (lt_of_lt_of_le x.isLt (Nat.pow_le_pow_right (by omega) (by omega)))]
        rfl
    have h2 : ∀ x : U8, Int.land x.toNat 255 = (x.toNat : Nat) := by decide
    simp only [if_true]
    rw [h1, h2, lor_nat, Nat.or_zero]

theorem ctselect_ret {a b : List U8} (h : a.length = b.length) (sel : Bool) :
    Ret (ctselect a b sel) (· = if sel then a else b) := by
  unfold ctselect
  refine Ret.bind_eq (v := if sel then 255 else 0) ?_ ?_
  · cases sel <;> exact ⟨_, _, rfl, by decide⟩
  · refine Ret.for1 (fun k r => r = (if sel then a else b).take k) (by simp) ?_ ?_
    · rintro k _ hk rfl
      simp only [Ret_rd_bind, Ret_require_bind]
      refine ⟨hk, by omega, ?_⟩
      rw [select_byte, Ret_pure]
      have e : (if sel then nth a k else nth b k) = nth (if sel then a else b) k := by cases sel <;> rfl
      have hk' : k < (if sel = true then a else b).length := by
        cases sel
        · simp; omega
        · simpa using hk
      rw [e]
      refine ⟨⟨by omega, ?_⟩, ?_⟩
      · have := (nth (if sel = true then a else b) k).isLt; omega
      · rw [List.take_succ, getElem?_eq_nth hk', BitVec.ofInt_natCast]
        simp
    · rintro _ rfl
      apply List.take_of_length_le
      cases sel
      · simp; omega
      · simp

end Frodo.Py
