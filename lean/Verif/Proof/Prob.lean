import Verif.Spec.Prob
import Mathlib.Algebra.BigOperators.Ring.Finset
import Mathlib.Algebra.Order.BigOperators.Ring.Finset
import Mathlib.Algebra.Order.BigOperators.Group.Finset
import Mathlib.Data.Fintype.BigOperators
import Mathlib.Data.Fintype.EquivFin
import Mathlib.Tactic.FieldSimp
import Mathlib.Tactic.Positivity
import Mathlib.Tactic.Ring
import Mathlib.Tactic.Linarith
import Mathlib.Algebra.Order.Field.Rat
import Mathlib.Data.Rat.Cast.Order
import Mathlib.Logic.Function.Basic
import Mathlib.Algebra.BigOperators.Field
import Mathlib.Data.Fintype.Pi
import Mathlib.Data.Fintype.Prod

/-! # Averages over finite sets -/

namespace Frodo

open Spec Finset

noncomputable section

/-- The average of `f`. -/
def ex {Ω : Type} [Finite Ω] (f : Ω → ℚ) : ℚ :=
  letI := Fintype.ofFinite Ω
  (∑ x, f x) / Nat.card Ω

open Classical in
/-- 1 if `p` holds and 0 if not. -/
def ind (p : Prop) : ℚ := if p then 1 else 0

theorem ind_true {p : Prop} (h : p) : ind p = 1 := if_pos h
theorem ind_false {p : Prop} (h : ¬ p) : ind p = 0 := if_neg h

theorem ind_nonneg (p : Prop) : 0 ≤ ind p := by unfold ind; split <;> norm_num
theorem ind_le_one (p : Prop) : ind p ≤ 1 := by unfold ind; split <;> norm_num

theorem ind_mono {p q : Prop} (h : p → q) : ind p ≤ ind q := by
  by_cases hp : p
  · rw [ind_true hp, ind_true (h hp)]
  · rw [ind_false hp]; exact ind_nonneg q

theorem ind_or (p q : Prop) : ind (p ∨ q) ≤ ind p + ind q := by
  by_cases hp : p
  · rw [ind_true hp]; linarith [ind_nonneg q, ind_le_one (p ∨ q)]
  · rw [ind_false hp, zero_add]; exact ind_mono fun h => h.resolve_left hp

theorem ind_congr {p q : Prop} (h : p ↔ q) : ind p = ind q := by rw [propext h]

/-- Two events differ only if something bad happens. -/
theorem ind_sub_le {p q b : Prop} (h : ¬ b → (p ↔ q)) : |ind p - ind q| ≤ ind b := by
  by_cases hb : b
  · rw [ind_true hb, abs_le]
    constructor <;> linarith [ind_nonneg q, ind_le_one q, ind_nonneg p, ind_le_one p]
  · rw [ind_false hb, ind_congr (h hb)]; simp

variable {α β : Type} [Finite α] [Finite β]

theorem ex_eq {Ω : Type} [Fintype Ω] (f : Ω → ℚ) : ex f = (∑ x, f x) / Nat.card Ω := by
  unfold ex
  congr 1
  exact Finset.sum_congr (by ext; simp) fun _ _ => rfl

theorem Pr_eq (p : α → Prop) : Pr p = ex fun x => ind (p x) := by
  classical
  let _ := Fintype.ofFinite α
  rw [ex_eq]
  unfold Pr ind
  rw [Finset.sum_boole, Nat.card_eq_fintype_card, Fintype.card_subtype]

theorem ex_congr {f g : α → ℚ} (h : ∀ x, f x = g x) : ex f = ex g := by rw [funext h]

theorem ex_mono {f g : α → ℚ} (h : ∀ x, f x ≤ g x) : ex f ≤ ex g :=
  div_le_div_of_nonneg_right (sum_le_sum fun x _ => h x) (by positivity)

theorem ex_nonneg {f : α → ℚ} (h : ∀ x, 0 ≤ f x) : 0 ≤ ex f :=
  div_nonneg (sum_nonneg fun x _ => h x) (by positivity)

theorem ex_add (f g : α → ℚ) : ex (fun x => f x + g x) = ex f + ex g := by
  unfold ex
  rw [sum_add_distrib, add_div]

theorem ex_sub (f g : α → ℚ) : ex (fun x => f x - g x) = ex f - ex g := by
  unfold ex
  rw [sum_sub_distrib, sub_div]

theorem ex_const [Nonempty α] (c : ℚ) : ex (fun _ : α => c) = c := by
  let _ := Fintype.ofFinite α
  rw [ex_eq, sum_const, nsmul_eq_mul, Nat.card_eq_fintype_card, Finset.card_univ]
  have : (Fintype.card α : ℚ) ≠ 0 := by exact_mod_cast Fintype.card_ne_zero
  field_simp

theorem ex_mul_const (f : α → ℚ) (c : ℚ) : ex (fun x => f x * c) = ex f * c := by
  unfold ex
  rw [← sum_mul]; ring

theorem abs_ex_le (f : α → ℚ) : |ex f| ≤ ex fun x => |f x| := by
  unfold ex
  rw [abs_div, abs_of_nonneg (show (0 : ℚ) ≤ Nat.card α by positivity)]
  exact div_le_div_of_nonneg_right (abs_sum_le_sum_abs _ _) (by positivity)

theorem ex_le_const [Nonempty α] {f : α → ℚ} {c : ℚ} (h : ∀ x, f x ≤ c) : ex f ≤ c :=
  (ex_mono h).trans_eq (ex_const c)

theorem ex_prod (f : α × β → ℚ) : ex f = ex fun a => ex fun b => f (a, b) := by
  let _ := Fintype.ofFinite α
  let _ := Fintype.ofFinite β
  simp only [ex_eq]
  rw [Fintype.sum_prod_type, Nat.card_prod, ← sum_div]
  push_cast
  rw [div_div, mul_comm]

theorem ex_comm (f : α → β → ℚ) : (ex fun a => ex fun b => f a b) = ex fun b => ex fun a => f a b := by
  let _ := Fintype.ofFinite α
  let _ := Fintype.ofFinite β
  simp only [ex_eq]
  rw [← sum_div, ← sum_div, sum_comm, div_div, div_div, mul_comm]

theorem ex_equiv (e : α ≃ β) (f : β → ℚ) : ex (fun a => f (e a)) = ex f := by
  let _ := Fintype.ofFinite α
  let _ := Fintype.ofFinite β
  rw [ex_eq, ex_eq, Equiv.sum_comp e f, Nat.card_congr e]

/-- The value of a random function at one place can be chosen separately. -/
theorem ex_update {I V : Type} [Finite I] [Finite V] [Nonempty V] [DecidableEq I] (i : I) (f : (I → V) → ℚ) :
    ex f = ex fun v => ex fun G => f (Function.update G i v) := by
  let e : V × (I → V) ≃ V × (I → V) :=
    { toFun := fun p => (p.2 i, Function.update p.2 i p.1)
      invFun := fun p => (p.2 i, Function.update p.2 i p.1)
      left_inv := fun p => by simp
      right_inv := fun p => by simp }
  have h1 := ex_prod fun p : V × (I → V) => f (Function.update p.2 i p.1)
  have h2 := ex_equiv e fun q => f q.2
  have h3 := ex_prod fun q : V × (I → V) => f q.2
  have h4 : (ex fun _ : V => ex f) = ex f := ex_const _
  exact (h3.trans h4).symm.trans (h2.symm.trans h1)

/-- The probability of one value. -/
theorem ex_eq_value [DecidableEq α] (a : α) : ex (fun x => ind (x = a)) = 1 / Nat.card α := by
  let _ := Fintype.ofFinite α
  rw [ex_eq]
  congr 1
  unfold ind
  rw [Finset.sum_eq_single a]
  · rw [if_pos rfl]
  · intro b _ hb; rw [if_neg hb]
  · intro h; exact absurd (mem_univ a) h

end

end Frodo
