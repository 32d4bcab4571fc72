import Verif.Model.Python
import Verif.Proof.KemSpec
import Verif.Proof.Bits
import Verif.Proof.Code

/-! # Matrices of the Python implementation -/

namespace Frodo.Py

open C Spec

/-- `X` has `r` rows of `c` entries. -/
def Shape (r c : Nat) (X : Mat) : Prop := X.length = r ∧ ∀ i, i < r → (nth X i).length = c

/-- Entry `(i, j)`. -/
def ent (X : Mat) (i j : Nat) : Int := nth (nth X i) j

/-- `X` with entry `(i, j)` replaced. -/
def upd (X : Mat) (i j : Nat) (v : Int) : Mat := X.set i ((nth X i).set j v)

/-- `X` represents the matrix `M` modulo `q`. -/
def Rep {D r c : Nat} (X : Mat) (M : Matrix (Fin r) (Fin c) (ZMod (2 ^ D))) : Prop :=
  Shape r c X ∧ ∀ (i : Fin r) (j : Fin c), ((ent X i j : Int) : ZMod (2 ^ D)) = M i j

/-- `X` represents the matrix `M` modulo `q` by numbers of `[0, q)`. -/
def IsZ {D r c : Nat} (X : Mat) (M : Matrix (Fin r) (Fin c) (ZMod (2 ^ D))) : Prop :=
  Shape r c X ∧ ∀ (i : Fin r) (j : Fin c), ent X i j = (M i j).val

/-- `X` is the integer matrix `N`. -/
def IsI {r c : Nat} (X : Mat) (N : Matrix (Fin r) (Fin c) ℤ) : Prop :=
  Shape r c X ∧ ∀ (i : Fin r) (j : Fin c), ent X i j = N i j

variable {r c D : Nat} {X Y : Mat}

theorem ent_upd (h : Shape r c X) {i j i' j' : Nat} (v : Int) (hi : i < r) (hj : j < c) :
    ent (upd X i j v) i' j' = if i' = i ∧ j' = j then v else ent X i' j' := by
  unfold ent upd
  rw [nth_set]
  by_cases e : i = i'
  · subst e
    rw [if_pos ⟨rfl, by rw [h.1]; exact hi⟩, nth_set]
    by_cases e2 : j = j'
    · subst e2; simp [h.2 i hi, hj]
    · rw [if_neg (by tauto), if_neg (by tauto)]
  · rw [if_neg (by tauto), if_neg (by tauto)]

theorem Shape.upd (h : Shape r c X) {i j : Nat} (v : Int) : Shape r c (upd X i j v) := by
  unfold Py.upd
  refine ⟨by rw [List.length_set]; exact h.1, ?_⟩
  intro k hk
  rw [nth_set]
  split
  · rename_i e; rw [List.length_set, e.1]; exact h.2 k hk
  · exact h.2 k hk

theorem upd_upd (h : Shape r c X) {i j : Nat} (v w : Int) (hi : i < r) :
    upd (upd X i j v) i j w = upd X i j w := by
  unfold upd
  rw [nth_set_eq (by rw [h.1]; exact hi)]
  simp

theorem upd_self (h : Shape r c X) {i j : Nat} (hi : i < r) (hj : j < c) :
    upd X i j (ent X i j) = X := by
  unfold upd ent
  have e1 : i < X.length := by rw [h.1]; exact hi
  have e2 : j < (nth X i).length := by rw [h.2 i hi]; exact hj
  rw [nth_eq_getElem e2, List.set_getElem_self, nth_eq_getElem e1, List.set_getElem_self]

theorem Shape_zeros : Shape r c (zeros r c) := by
  unfold zeros
  refine ⟨by simp, ?_⟩
  intro i hi
  rw [nth_replicate, if_pos hi]; simp

theorem ent_zeros {i j : Nat} : ent (zeros r c) i j = 0 := by
  unfold ent zeros
  rw [nth_replicate]
  split
  · rw [nth_replicate]; split <;> rfl
  · rfl

theorem IsZ.rep {M : Matrix (Fin r) (Fin c) (ZMod (2 ^ D))} (h : IsZ X M) : Rep X M := by
  refine ⟨h.1, ?_⟩
  intro i j
  rw [h.2]; simp

theorem IsI.rep {N : Matrix (Fin r) (Fin c) ℤ} (h : IsI X N) : Rep X (modQ D N) := by
  refine ⟨h.1, ?_⟩
  intro i j
  rw [h.2]; rfl

theorem IsZ_ext {M : Matrix (Fin r) (Fin c) (ZMod (2 ^ D))} (h : IsZ X M) (h' : IsZ Y M) : X = Y := by
  apply ext_nth (by rw [h.1.1, h'.1.1])
  intro i hi
  rw [h.1.1] at hi
  apply ext_nth (by rw [h.1.2 i hi, h'.1.2 i hi])
  intro j hj
  rw [h.1.2 i hi] at hj
  exact (h.2 ⟨i, hi⟩ ⟨j, hj⟩).trans (h'.2 ⟨i, hi⟩ ⟨j, hj⟩).symm

theorem emod_val {M : ZMod (2 ^ D)} {x : Int} (h : (x : ZMod (2 ^ D)) = M) :
    x % ((2 ^ D : Nat) : Int) = (M.val : Int) := by
  rw [← h, ZMod.val_intCast]

@[wp] theorem get2_bind {β : Type} {f : Int → C β} {P : β → Prop} {i j : Nat} :
    Ret (get2 X i j >>= f) P ↔ i < X.length ∧ j < (nth X i).length ∧ Ret (f (ent X i j)) P := by
  unfold get2 ent
  simp only [wp]

theorem get2_ret {i j : Nat} (h : Shape r c X) (hi : i < r) (hj : j < c) :
    Ret (get2 X i j) (· = ent X i j) := by
  unfold get2 ent
  simp only [wp]
  exact ⟨by rw [h.1]; exact hi, by rw [h.2 i hi]; exact hj, trivial⟩

theorem set2_ret {i j : Nat} {v : Int} (h : Shape r c X) (hi : i < r) (hj : j < c) :
    Ret (set2 X i j v) (· = upd X i j v) := by
  unfold set2 upd
  simp only [wp]
  exact ⟨by rw [h.1]; exact hi, by rw [h.2 i hi]; exact hj, by rw [h.1]; exact hi, trivial⟩

/-- Rule for list comprehensions. -/
theorem comp_ret {α : Type} [Inhabited α] {n : Nat} {f : Nat → C α} (Q : Nat → α → Prop)
    (h : ∀ i, i < n → Ret (f i) (Q i)) :
    Ret (comp n f) (fun l => l.length = n ∧ ∀ i, i < n → Q i (nth l i)) := by
  unfold comp
  refine Ret.for1 (fun k l => l.length = k ∧ ∀ i, i < k → Q i (nth l i)) ⟨rfl, by intro i hi; omega⟩
    ?_ (fun _ h => h)
  rintro k l hk ⟨hl, hQ⟩
  refine (h k hk).bind ?_
  intro a ha
  rw [Ret_pure]
  refine ⟨by simp [hl], ?_⟩
  intro i hi
  rw [nth_append]
  split
  · exact hQ i (by omega)
  · have : i - l.length = 0 := by omega
    rw [this]
    have : i = k := by omega
    subst this; exact ha

theorem comp2_ret {r c : Nat} {f : Nat → Nat → C Int} (g : Nat → Nat → Int)
    (h : ∀ i j, i < r → j < c → Ret (f i j) (· = g i j)) :
    Ret (comp r fun i => comp c fun j => f i j)
      (fun X => Shape r c X ∧ ∀ i j, i < r → j < c → ent X i j = g i j) := by
  refine (comp_ret (fun i l => l.length = c ∧ ∀ j, j < c → nth l j = g i j) ?_).mono ?_
  · intro i hi
    exact comp_ret (fun j a => a = g i j) (fun j hj => h i j hi hj)
  · rintro X ⟨h1, h2⟩
    exact ⟨⟨h1, fun i hi => (h2 i hi).1⟩, fun i j hi hj => (h2 i hi).2 j hj⟩

/-- Rule for a double loop that fills a matrix. -/
theorem fill_ret {r c : Nat} {X0 : Mat} {body : Nat → Nat → Mat → C Mat} (hX : Shape r c X0)
    (g : Nat → Nat → Int)
    (h : ∀ i j X, i < r → j < c → Shape r c X → ent X i j = ent X0 i j →
      Ret (body i j X) (· = upd X i j (g i j))) :
    Ret (forC 0 r 1 X0 fun i X => forC 0 c 1 X fun j X => body i j X)
      (fun X => Shape r c X ∧ ∀ i j, i < r → j < c → ent X i j = g i j) := by
  let J : Nat → Nat → Mat → Prop := fun a b X => Shape r c X ∧
    ∀ i j, i < r → j < c → ent X i j = if i < a ∨ (i = a ∧ j < b) then g i j else ent X0 i j
  refine Ret.for1 (fun i X => J i 0 X) ⟨hX, ?_⟩ ?_ ?_
  · intro i j _ _; rw [if_neg (by omega)]
  · intro i X hi hJ
    refine Ret.for1 (fun j X => J i j X) hJ ?_ ?_
    · rintro j X hj ⟨hS, hE⟩
      refine (h i j X hi hj hS (by rw [hE i j hi hj, if_neg (by omega)])).mono ?_
      rintro X' rfl
      refine ⟨hS.upd _, ?_⟩
      intro i' j' hi' hj'
      rw [ent_upd hS _ hi hj]
      by_cases e : i' = i ∧ j' = j
      · rw [if_pos e, if_pos (by omega), e.1, e.2]
      · rw [if_neg e, hE i' j' hi' hj']
        by_cases e2 : i' < i ∨ (i' = i ∧ j' < j)
        · rw [if_pos e2, if_pos (by omega)]
        · rw [if_neg e2, if_neg (by omega)]
    · rintro X ⟨hS, hE⟩
      refine ⟨hS, ?_⟩
      intro i' j' hi' hj'
      rw [hE i' j' hi' hj']
      by_cases e2 : i' < i ∨ (i' = i ∧ j' < c)
      · rw [if_pos e2, if_pos (by omega)]
      · rw [if_neg e2, if_neg (by omega)]
  · rintro X ⟨hS, hE⟩
    refine ⟨hS, ?_⟩
    intro i j hi hj
    rw [hE i j hi hj, if_pos (by omega)]

/-! ## Arithmetic -/

theorem matrix_mul_ret {r k c : Nat} (hr : 0 < r) (hk : 0 < k)
    {M : Matrix (Fin r) (Fin k) (ZMod (2 ^ D))} {N : Matrix (Fin k) (Fin c) (ZMod (2 ^ D))}
    (hX : Rep X M) (hY : Rep Y N) : Ret (matrix_mul (2 ^ D) X Y) (fun R => IsZ R (M * N)) := by
  unfold matrix_mul
  simp only [Ret_rd_bind, Ret_require_bind]
  refine ⟨by rw [hX.1.1]; exact hr, by rw [hY.1.1]; exact hk, ?_⟩
  rw [hX.1.2 0 hr, hY.1.2 0 hk, hX.1.1, hY.1.1]
  refine ⟨rfl, ?_⟩
  refine (fill_ret Shape_zeros
    (fun i j => (∑ l ∈ Finset.range k, ent X i l * ent Y l j) % ((2 ^ D : Nat) : Int)) ?_).mono ?_
  · intro i j R hi hj hS h0
    rw [ent_zeros] at h0
    refine Ret.bind_eq (v := upd R i j (∑ l ∈ Finset.range k, ent X i l * ent Y l j)) ?_ ?_
    · refine Ret.for1 (fun l R' => R' = upd R i j (∑ t ∈ Finset.range l, ent X i t * ent Y t j))
        ?_ ?_ (fun _ h => h)
      · rw [Finset.range_zero, Finset.sum_empty, ← h0, upd_self hS hi hj]
      · rintro l _ hl rfl
        refine Ret.bind_eq (get2_ret (hS.upd _) hi hj) ?_
        refine Ret.bind_eq (get2_ret hX.1 hi hl) ?_
        refine Ret.bind_eq (get2_ret hY.1 hl hj) ?_
        refine (set2_ret (hS.upd _) hi hj).mono ?_
        rintro _ rfl
        rw [upd_upd hS _ _ hi, ent_upd hS _ hi hj, if_pos ⟨rfl, rfl⟩, Finset.sum_range_succ]
    · refine Ret.bind_eq (get2_ret (hS.upd _) hi hj) ?_
      refine (set2_ret (hS.upd _) hi hj).mono ?_
      rintro _ rfl
      rw [upd_upd hS _ _ hi, ent_upd hS _ hi hj, if_pos ⟨rfl, rfl⟩]
  · rintro R ⟨hS, hE⟩
    refine ⟨hS, ?_⟩
    intro i j
    rw [hE i j i.isLt j.isLt]
    apply emod_val
    rw [Finset.sum_range, Matrix.mul_apply, Int.cast_sum]
    refine Finset.sum_congr rfl ?_
    intro l _
    rw [Int.cast_mul, hX.2, hY.2]

theorem matrix_add_ret {r c : Nat} (hr : 0 < r) {M N : Matrix (Fin r) (Fin c) (ZMod (2 ^ D))}
    (hX : Rep X M) (hY : Rep Y N) : Ret (matrix_add (2 ^ D) X Y) (fun R => IsZ R (M + N)) := by
  unfold matrix_add
  simp only [Ret_rd_bind, Ret_require_bind]
  refine ⟨by rw [hX.1.1]; exact hr, by rw [hY.1.1]; exact hr, ?_⟩
  rw [hX.1.2 0 hr, hY.1.2 0 hr, hX.1.1, hY.1.1]
  refine ⟨⟨rfl, rfl⟩, ?_⟩
  refine (comp2_ret (fun i j => (ent X i j + ent Y i j) % ((2 ^ D : Nat) : Int)) ?_).mono ?_
  · intro i j hi hj
    refine Ret.bind_eq (get2_ret hX.1 hi hj) ?_
    refine Ret.bind_eq (get2_ret hY.1 hi hj) ?_
    rw [Ret_pure]
  · rintro R ⟨hS, hE⟩
    refine ⟨hS, ?_⟩
    intro i j
    rw [hE i j i.isLt j.isLt]
    apply emod_val
    rw [Int.cast_add, hX.2, hY.2]; rfl

theorem matrix_sub_ret {r c : Nat} (hr : 0 < r) {M N : Matrix (Fin r) (Fin c) (ZMod (2 ^ D))}
    (hX : Rep X M) (hY : Rep Y N) : Ret (matrix_sub (2 ^ D) X Y) (fun R => IsZ R (M - N)) := by
  unfold matrix_sub
  simp only [Ret_rd_bind, Ret_require_bind]
  refine ⟨by rw [hX.1.1]; exact hr, by rw [hY.1.1]; exact hr, ?_⟩
  rw [hX.1.2 0 hr, hY.1.2 0 hr, hX.1.1, hY.1.1]
  refine ⟨⟨rfl, rfl⟩, ?_⟩
  refine (comp2_ret (fun i j => (ent X i j - ent Y i j) % ((2 ^ D : Nat) : Int)) ?_).mono ?_
  · intro i j hi hj
    refine Ret.bind_eq (get2_ret hX.1 hi hj) ?_
    refine Ret.bind_eq (get2_ret hY.1 hi hj) ?_
    rw [Ret_pure]
  · rintro R ⟨hS, hE⟩
    refine ⟨hS, ?_⟩
    intro i j
    rw [hE i j i.isLt j.isLt]
    apply emod_val
    rw [Int.cast_sub, hX.2, hY.2]; rfl

theorem matrix_transpose_ret {r c : Nat} (hr : 0 < r) {M : Matrix (Fin r) (Fin c) (ZMod (2 ^ D))}
    (hX : Rep X M) : Ret (matrix_transpose X) (fun R => Rep R M.transpose) := by
  unfold matrix_transpose
  simp only [Ret_rd_bind]
  refine ⟨by rw [hX.1.1]; exact hr, ?_⟩
  rw [hX.1.2 0 hr, hX.1.1]
  refine (comp2_ret (fun i j => ent X j i) ?_).mono ?_
  · intro i j hi hj
    exact get2_ret hX.1 hj hi
  · rintro R ⟨hS, hE⟩
    refine ⟨hS, ?_⟩
    intro i j
    rw [hE i j i.isLt j.isLt, hX.2]; rfl

end Frodo.Py
