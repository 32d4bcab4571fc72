import Mathlib.Algebra.BigOperators.Ring.Finset
import Mathlib.Algebra.BigOperators.Field
import Mathlib.Algebra.BigOperators.Intervals
import Mathlib.Algebra.Order.BigOperators.Group.Finset
import Mathlib.Algebra.Order.BigOperators.Ring.Finset
import Mathlib.Data.Fintype.BigOperators
import Mathlib.Data.Rat.Defs
import Mathlib.Data.Fintype.Pi
import Mathlib.Tactic.Ring
import Mathlib.Tactic.FieldSimp
import Mathlib.Tactic.Positivity
import Mathlib.Tactic.Linarith

/-! # Means over finite types (proof device) -/

namespace Frodo

open Finset

/-- Mean over a finite type. -/
def avg {Ω : Type} [Fintype Ω] (f : Ω → ℚ) : ℚ := (∑ ω, f ω) / Fintype.card Ω

section
variable {Ω Ω' ι κ α : Type} [Fintype Ω] [Fintype Ω'] [Fintype ι] [Fintype κ] [Fintype α]

theorem avg_congr {f g : Ω → ℚ} (h : ∀ ω, f ω = g ω) : avg f = avg g := by
  rw [show f = g from funext h]

/-- Means of products of functions of different coordinates are products of means. -/
theorem avg_prod [DecidableEq ι] [Nonempty α] (p : κ → ι) (hp : Function.Injective p)
    (g : κ → α → ℚ) :
    avg (fun ω : ι → α => ∏ l, g l (ω (p l))) = ∏ l, avg (g l) := by
  classical
  let G : ι → α → ℚ := fun k a => if h : ∃ l, p l = k then g h.choose a else 1
  have hG : ∀ l, G (p l) = g l := by
    intro l
    funext a
    have h : ∃ l', p l' = p l := ⟨l, rfl⟩
    show (if h : ∃ l', p l' = p l then g h.choose a else 1) = _
    rw [dif_pos h, hp h.choose_spec]
  have hG' : ∀ k, k ∉ Set.range p → ∀ a, G k a = 1 := by
    intro k hk a
    show (if h : ∃ l', p l' = k then g h.choose a else 1) = _
    rw [dif_neg (fun ⟨l, h⟩ => hk ⟨l, h⟩)]
  have e1 : ∀ ω : ι → α, ∏ l, g l (ω (p l)) = ∏ k, G k (ω k) := by
    intro ω
    refine Fintype.prod_of_injective p hp _ _ (fun k hk => hG' k hk _) fun l => ?_
    rw [hG]
  have hc : (Fintype.card α : ℚ) ≠ 0 := by
    have := Fintype.card_pos (α := α)
    positivity
  have e2 : ∏ l, avg (g l) = ∏ k, avg (G k) := by
    refine Fintype.prod_of_injective p hp _ _ (fun k hk => ?_) fun l => by rw [hG]
    unfold avg
    rw [sum_congr rfl fun a _ => hG' k hk a]
    simp [hc]
  rw [e2]
  unfold avg
  rw [sum_congr rfl fun ω _ => e1 ω, prod_div_distrib, prod_univ_sum, Fintype.piFinset_univ]
  simp [Fintype.card_pi]

theorem avg_equiv (e : Ω ≃ Ω') (f : Ω' → ℚ) : avg (fun ω => f (e ω)) = avg f := by
  unfold avg
  rw [Equiv.sum_comp e f, Fintype.card_congr e]

end

end Frodo
