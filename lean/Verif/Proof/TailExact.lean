import Verif.Proof.Tail
import Mathlib.Data.Nat.ModEq
import Mathlib.Data.Int.ModEq
import Mathlib.Algebra.Order.Field.Power
import Mathlib.Algebra.BigOperators.Group.Finset.Piecewise

/-! # The tail of a sum from its distribution modulo `N` (proof device)

Markov's inequality for `x ^ X` loses a factor of about `x ^ s` where `s` is the width of the distribution of `X`
under the weights `x ^ X`.  Here the weights are summed separately for each residue of `X` modulo `N`: a value
`t + j` with `j < N` counts with `x ^ (-j)`.  The sums for all residues are the digits of one number, which is
a power modulo `B ^ N - 1`. -/

namespace Frodo

open Finset

section
variable {Ω ι κ α : Type} [Fintype Ω] [Fintype ι] [Fintype κ] [Fintype α]

/-- The mean of a function of some coordinates is the mean over these. -/
theorem avg_restrict [DecidableEq ι] [DecidableEq κ] [DecidableEq α] [Nonempty α] (p : κ → ι)
    (hp : Function.Injective p) (F : (κ → α) → ℚ) :
    avg (fun ω : ι → α => F fun l => ω (p l)) = avg F := by
  have e : ∀ ω : ι → α, F (fun l => ω (p l)) = ∑ τ : κ → α, F τ * ∏ l, (if ω (p l) = τ l then (1 : ℚ) else 0) := by
    intro ω
    rw [sum_eq_single fun l => ω (p l)]
    · simp
    · intro τ _ h
      obtain ⟨l, hl⟩ := Function.ne_iff.1 h
      rw [prod_eq_zero (mem_univ l), mul_zero]
      rw [if_neg fun h => hl h.symm]
    · intro h; exact absurd (mem_univ _) h
  have hs : avg (fun ω : ι → α => ∑ τ : κ → α, F τ * ∏ l, (if ω (p l) = τ l then (1 : ℚ) else 0)) =
      ∑ τ : κ → α, F τ * avg (fun ω : ι → α => ∏ l, (if ω (p l) = τ l then (1 : ℚ) else 0)) := by
    unfold avg
    rw [sum_comm, sum_div]
    refine sum_congr rfl fun τ _ => ?_
    rw [← mul_sum, mul_div_assoc]
  rw [avg_congr e, hs]
  have hv : ∀ τ : κ → α, avg (fun ω : ι → α => ∏ l, (if ω (p l) = τ l then (1 : ℚ) else 0)) =
      1 / Fintype.card (κ → α) := by
    intro τ
    rw [avg_prod p hp fun l a => if a = τ l then (1 : ℚ) else 0]
    unfold avg
    simp only [sum_ite_eq', mem_univ, if_true, prod_const, card_univ]
    rw [Fintype.card_fun]
    push_cast
    rw [one_div, one_div, inv_pow]
  simp only [hv]
  unfold avg
  rw [← sum_mul, mul_one_div]

theorem avg_prod_type {Ω' : Type} [Fintype Ω'] (f : Ω × Ω' → ℚ) : avg f = avg fun a => avg fun b => f (a, b) := by
  unfold avg
  rw [Fintype.sum_prod_type, Fintype.card_prod, ← sum_div, div_div, mul_comm]
  push_cast
  rfl

/-- The digits of a number. -/
theorem digit_sum {B N : Nat} (hB : 0 < B) (A : Nat → Nat) (hA : ∀ i, A i < B) {r : Nat} (hr : r < N) :
    (∑ i ∈ range N, A i * B ^ i) / B ^ r % B = A r := by
  have low : ∀ k, ∑ i ∈ range k, A i * B ^ i < B ^ k := by
    intro k
    induction k with
    | zero => simp
    | succ k ih =>
      rw [sum_range_succ, pow_succ]
      have := Nat.mul_le_mul_right (B ^ k) (show A k + 1 ≤ B from hA k)
      nlinarith
  have split : ∃ q, ∑ i ∈ range N, A i * B ^ i = ∑ i ∈ range r, A i * B ^ i + B ^ r * (A r + B * q) := by
    obtain ⟨d, rfl⟩ := Nat.exists_eq_add_of_lt hr
    refine ⟨∑ i ∈ range d, A (r + 1 + i) * B ^ i, ?_⟩
    rw [show r + d + 1 = r + 1 + d by omega, sum_range_add, sum_range_succ, mul_add, mul_comm (B ^ r) (A r), ← mul_assoc,
      ← pow_succ, mul_sum, add_assoc]
    congr 2
    refine sum_congr rfl fun i _ => ?_
    rw [pow_add]
    ring
  obtain ⟨q, hq⟩ := split
  rw [hq, Nat.add_mul_div_left _ _ (by positivity), Nat.div_eq_of_lt (low r), zero_add, Nat.add_mul_mod_self_left,
    Nat.mod_eq_of_lt (hA r)]

theorem pow_modEq {B N : Nat} (hB : 0 < B) (y : Nat) : B ^ y ≡ B ^ (y % N) [MOD B ^ N - 1] := by
  have h1 : B ^ N ≡ 1 [MOD B ^ N - 1] := by
    have : 1 ≤ B ^ N := Nat.one_le_pow _ _ hB
    conv_lhs => rw [show B ^ N = (B ^ N - 1) + 1 by omega]
    exact Nat.add_modEq_left
  conv_lhs => rw [← Nat.div_add_mod y N, pow_add, pow_mul]
  simpa using (h1.pow (y / N)).mul_right (B ^ (y % N))

/-- The sums of the weights of each residue class are the digits of a number modulo `B ^ N - 1`. -/
theorem digit_weight {G Y : Ω → Nat} {B N : Nat} (hB : ∑ p, G p + 2 ≤ B) (hN : 0 < N) {r : Nat} (hr : r < N) :
    (∑ p, G p * B ^ Y p) % (B ^ N - 1) / B ^ r % B = ∑ p with Y p % N = r, G p := by
  have hB0 : 0 < B := by omega
  let A : Nat → Nat := fun r => ∑ p with Y p % N = r, G p
  have hA : ∀ r, A r + 2 ≤ B := fun r =>
    (Nat.add_le_add_right (sum_le_sum_of_subset (filter_subset _ _)) 2).trans hB
  have e : ∑ p, G p * B ^ Y p ≡ ∑ r ∈ range N, A r * B ^ r [MOD B ^ N - 1] := by
    have e1 : ∑ r ∈ range N, A r * B ^ r = ∑ p, G p * B ^ (Y p % N) := by
      rw [← sum_fiberwise_of_maps_to (s := univ) (t := range N) (g := fun p => Y p % N)
        (fun p _ => mem_range.2 (Nat.mod_lt _ hN))]
      refine sum_congr rfl fun r _ => ?_
      rw [sum_mul]
      refine sum_congr rfl fun p hp => ?_
      rw [(mem_filter.1 hp).2]
    rw [e1]
    unfold Nat.ModEq
    rw [sum_nat_mod, sum_nat_mod univ _ fun p => G p * B ^ (Y p % N)]
    congr 1
    exact sum_congr rfl fun p _ => (pow_modEq hB0 (Y p)).mul_left (G p)
  have lt : ∀ k, 0 < k → ∑ r ∈ range k, A r * B ^ r + 1 < B ^ k := by
    intro k hk
    induction k with
    | zero => omega
    | succ k ih =>
      rw [sum_range_succ, pow_succ]
      rcases Nat.eq_zero_or_pos k with rfl | hk'
      · have := hA 0
        simp
        omega
      · have := Nat.mul_le_mul_right (B ^ k) (hA k)
        have := ih hk'
        rw [add_mul, mul_comm B] at *
        omega
  have := lt N hN
  unfold Nat.ModEq at e
  rw [e, Nat.mod_eq_of_lt (show _ < B ^ N - 1 by omega)]
  exact digit_sum hB0 A (fun i => by have := hA i; omega) hr

/-- A bound for the number of points above `t`, from the weights of the residue classes. -/
theorem card_tail_digits (X : Ω → ℤ) (G Y : Ω → Nat) (C : Nat) (hY : ∀ p, (Y p : ℤ) = X p + C)
    {c z : ℚ} (hc : 0 < c) (hz : 1 ≤ z) (hG : ∀ p, c * z ^ X p ≤ G p) {B N : Nat}
    (hB : ∑ p, G p + 2 ≤ B) (hN : 0 < N) (t : Nat) (h : Nat → ℚ) (h0 : ∀ r, 0 ≤ h r)
    (hh : ∀ d : Nat, z ^ (-((d % N : Nat) : ℤ)) ≤ h ((t + C + d) % N)) [DecidablePred fun p => (t : ℤ) ≤ X p] :
    (#{p | (t : ℤ) ≤ X p} : ℚ) * (c * z ^ t) ≤
      ∑ r ∈ range N, h r * (((∑ p, G p * B ^ Y p) % (B ^ N - 1) / B ^ r % B : Nat) : ℚ) := by
  have hz0 : (0 : ℚ) < z := by linarith
  have hd : ∀ r ∈ range N, h r * (((∑ p, G p * B ^ Y p) % (B ^ N - 1) / B ^ r % B : Nat) : ℚ) =
      ∑ p, h r * if Y p % N = r then (G p : ℚ) else 0 := by
    intro r hr
    rw [digit_weight hB hN (mem_range.1 hr), sum_filter, ← mul_sum]
    push_cast
    rfl
  rw [sum_congr rfl hd, sum_comm, ← nsmul_eq_mul, ← sum_const]
  refine (sum_le_sum fun p hp => ?_).trans
    (sum_le_sum_of_subset_of_nonneg (filter_subset _ _) fun p _ _ => sum_nonneg fun j _ => ?_)
  · have hp := (mem_filter.1 hp).2
    obtain ⟨d, hd⟩ := Int.le.dest hp
    have hyd : Y p = t + C + d := by have := hY p; omega
    refine le_trans ?_ (single_le_sum (f := fun r => h r * if Y p % N = r then (G p : ℚ) else 0)
      (fun r _ => mul_nonneg (h0 r) (by split <;> simp)) (mem_range.2 (Nat.mod_lt (t + C + d) hN)))
    simp only [hyd, if_true]
    calc c * z ^ t ≤ z ^ (-((d % N : Nat) : ℤ)) * (c * z ^ X p) := by
          rw [mul_left_comm, ← zpow_add₀ hz0.ne', ← zpow_natCast]
          refine mul_le_mul_of_nonneg_left (zpow_le_zpow_right₀ hz ?_) hc.le
          have : d % N ≤ d := Nat.mod_le _ _
          omega
      _ ≤ h ((t + C + d) % N) * G p := mul_le_mul (hh _) (hG p) (by positivity) (h0 _)
  · exact mul_nonneg (h0 _) (by split <;> simp)

end

/-! ## Arithmetic with digits -/

/-- The number whose digits to base `2 ^ wo` are the digits of `V` to base `2 ^ wi` with weights `g`. -/
def rebase (wi wo : Nat) (g : Nat → Nat) : Nat → Nat → Nat → Nat
  | 0, r, V => V * g r
  | d + 1, r, V => rebase wi wo g d r (V &&& ((2 ^ wi) ^ 2 ^ d - 1)) +
      rebase wi wo g d (r + 2 ^ d) (V >>> (wi * 2 ^ d)) <<< (wo * 2 ^ d)

theorem and_pow (V w N : Nat) : V &&& ((2 ^ w) ^ N - 1) = V % (2 ^ w) ^ N := by
  rw [← pow_mul, Nat.and_two_pow_sub_one_eq_mod]

theorem rebase_eq (wi wo : Nat) (g : Nat → Nat) (d : Nat) : ∀ r V, V < (2 ^ wi) ^ 2 ^ d →
    rebase wi wo g d r V = ∑ i ∈ range (2 ^ d), V / (2 ^ wi) ^ i % 2 ^ wi * g (r + i) * (2 ^ wo) ^ i := by
  induction d with
  | zero =>
    intro r V hV
    rw [pow_zero, pow_one] at hV
    simp [rebase, Nat.mod_eq_of_lt hV]
  | succ d ih =>
    intro r V hV
    have e : 2 ^ (d + 1) = 2 ^ d + 2 ^ d := by rw [pow_succ]; omega
    have hp : 0 < (2 ^ wi) ^ 2 ^ d := by positivity
    rw [rebase, and_pow, Nat.shiftRight_eq_div_pow, pow_mul, ih _ _ (Nat.mod_lt _ hp), ih, e, sum_range_add,
      Nat.shiftLeft_eq, sum_mul]
    · congr 1
      · refine sum_congr rfl fun i hi => ?_
        have hi := mem_range.1 hi
        congr 2
        obtain ⟨k, hk⟩ := Nat.exists_eq_add_of_lt hi
        rw [hk, show i + k + 1 = i + (k + 1) by omega, pow_add _ i, Nat.mod_mul_right_div_self, pow_succ',
          Nat.mod_mul_right_mod]
      · refine sum_congr rfl fun i _ => ?_
        rw [Nat.div_div_eq_div_mul, ← pow_add, pow_add (2 ^ wo), ← pow_mul 2 wo (2 ^ d), add_assoc]
        ring
    · rw [e, pow_add] at hV
      exact Nat.div_lt_of_lt_mul hV

/-- Another base for a sum of powers. -/
theorem rebase_sum {β : Type} (s : Finset β) (c e : β → Nat) {wi d : Nat} (wo : Nat) (g : Nat → Nat)
    (hc : ∑ i ∈ s, c i < 2 ^ wi) (he : ∀ i ∈ s, e i < 2 ^ d) :
    rebase wi wo g d 0 (∑ i ∈ s, c i * (2 ^ wi) ^ e i) = ∑ i ∈ s, c i * g (e i) * (2 ^ wo) ^ e i := by
  let A : Nat → Nat := fun r => ∑ i ∈ s with e i = r, c i
  have hA : ∀ r, A r < 2 ^ wi := fun r => (sum_le_sum_of_subset (filter_subset _ _)).trans_lt hc
  have fib : ∀ f : Nat → Nat, ∑ i ∈ s, c i * f (e i) = ∑ r ∈ range (2 ^ d), A r * f r := by
    intro f
    rw [← sum_fiberwise_of_maps_to (s := s) (t := range (2 ^ d)) (g := e) fun i hi => mem_range.2 (he i hi)]
    refine sum_congr rfl fun r _ => ?_
    rw [sum_mul]
    exact sum_congr rfl fun i hi => by rw [(mem_filter.1 hi).2]
  have low : ∀ k, ∑ i ∈ range k, A i * (2 ^ wi) ^ i < (2 ^ wi) ^ k := by
    intro k
    induction k with
    | zero => simp
    | succ k ih =>
      rw [sum_range_succ, pow_succ]
      have := Nat.mul_le_mul_right ((2 ^ wi) ^ k) (show A k + 1 ≤ 2 ^ wi from hA k)
      nlinarith
  rw [fib fun r => (2 ^ wi) ^ r, rebase_eq _ _ _ _ _ _ (low _)]
  simp only [mul_assoc]
  rw [fib fun r => g r * (2 ^ wo) ^ r]
  refine sum_congr rfl fun r hr => ?_
  rw [digit_sum (by positivity) A hA (mem_range.1 hr), zero_add]

/-- Reduction modulo `2 ^ (w * N) - 1`, up to a small multiple. -/
def fold (w N x : Nat) : Nat := (x >>> (w * N)) + (x &&& ((2 ^ w) ^ N - 1))

theorem fold_modEq (w N x : Nat) : fold w N x ≡ x [MOD (2 ^ w) ^ N - 1] := by
  have h1 : (2 ^ w) ^ N ≡ 1 [MOD (2 ^ w) ^ N - 1] := by
    have : 1 ≤ (2 ^ w) ^ N := Nat.one_le_pow _ _ (by positivity)
    conv_lhs => rw [show (2 ^ w) ^ N = ((2 ^ w) ^ N - 1) + 1 by omega]
    exact Nat.add_modEq_left
  unfold fold
  rw [and_pow, Nat.shiftRight_eq_div_pow, pow_mul]
  conv_rhs => rw [← Nat.div_add_mod x ((2 ^ w) ^ N)]
  refine Nat.ModEq.add_right _ ?_
  simpa using (h1.mul_right (x / (2 ^ w) ^ N)).symm

/-- The power of `P` whose exponent has the binary digits `l` after those of the exponent of `a`. -/
def powFold (w N P : Nat) : List Bool → Nat → Nat
  | [], a => a
  | b :: l, a => powFold w N P l (bif b then fold w N (fold w N (a * a) * P) else fold w N (a * a))

/-- The number with binary digits `l` after those of `e`. -/
def bitsNat : List Bool → Nat → Nat
  | [], e => e
  | b :: l, e => bitsNat l (2 * e + b.toNat)

theorem powFold_modEq (w N P : Nat) : ∀ l a e, a ≡ P ^ e [MOD (2 ^ w) ^ N - 1] →
    powFold w N P l a ≡ P ^ bitsNat l e [MOD (2 ^ w) ^ N - 1]
  | [], _, _, h => h
  | b :: l, a, e, h => by
    refine powFold_modEq w N P l _ _ ?_
    have h2 : fold w N (a * a) ≡ P ^ (2 * e) [MOD (2 ^ w) ^ N - 1] := by
      rw [two_mul, pow_add]
      exact (fold_modEq _ _ _).trans (h.mul h)
    cases b
    · exact h2
    · exact (fold_modEq _ _ _).trans (by rw [Bool.toNat_true, pow_succ]; exact h2.mul_right P)

end Frodo
