import Verif.Proof.Failure

/-! # Evaluation of the bound on the failure rate -/

namespace Frodo

open Spec Finset Props

/-- The integer at place `k` of the interval from `-m` to `m`. -/
def zAt (m k : Nat) : ℤ := k - m

theorem sum_sample {T chi : List Nat} {m : Nat} (hT : T.length - 1 = m)
    (hf : ∀ z, freq T z = chi.getD z.natAbs 0) (g : ℤ → Nat) :
    ∑ w : Fin 65536, g (sample T w) =
      ∑ k ∈ range (2 * m + 1), chi.getD (zAt m k).natAbs 0 * g (zAt m k) := by
  have hb : ∀ r, (sample T r).natAbs ≤ m := fun r => hT ▸ C24_bound r
  rw [Fin.sum_univ_eq_sum_range (fun w => g (sample T w)) 65536,
    ← sum_fiberwise_of_maps_to (t := range (2 * m + 1)) (g := fun r => (sample T r + m).toNat)]
  · refine sum_congr rfl fun k _ => ?_
    have e : ∀ r, (sample T r + m).toNat = k ↔ sample T r = zAt m k := by
      intro r
      have := hb r
      unfold zAt
      omega
    simp only [e]
    rw [← hf, sum_congr rfl (g := fun _ => g (zAt m k)), sum_const, smul_eq_mul]
    · rfl
    · intro r hr
      rw [(mem_filter.1 hr).2]
  · intro r _
    have := hb r
    rw [mem_range]
    omega

/-- `(u v)^M (u / v)^z` as a natural number. -/
def eNat (u v M : Nat) (z : ℤ) : Nat := u ^ ((M : ℤ) + z).toNat * v ^ ((M : ℤ) - z).toNat

theorem eNat_eq {u v M : Nat} (hu : 0 < u) (hv : 0 < v) {z : ℤ} (hz : z.natAbs ≤ M) :
    (eNat u v M z : ℚ) = ((u : ℚ) * v) ^ M * ((u : ℚ) / v) ^ z := by
  have hu' : (u : ℚ) ≠ 0 := by positivity
  have hv' : (v : ℚ) ≠ 0 := by positivity
  unfold eNat
  push_cast
  rw [← zpow_natCast, ← zpow_natCast (v : ℚ), Int.toNat_of_nonneg (by omega),
    Int.toNat_of_nonneg (by omega), zpow_add₀ hu', zpow_sub₀ hv', div_zpow, mul_pow, zpow_natCast,
    zpow_natCast]
  field_simp

/-- A natural number above `2^b (u / v)^z`. -/
def wt (u v M b : Nat) (z : ℤ) : Nat := 2 ^ b * eNat u v M z / (u * v) ^ M + 1

theorem le_wt {u v M b : Nat} (hu : 0 < u) (hv : 0 < v) {z : ℤ} (hz : z.natAbs ≤ M) :
    2 ^ b * ((u : ℚ) / v) ^ z ≤ wt u v M b z := by
  have hp : (0 : ℚ) < ((u : ℚ) * v) ^ M := by positivity
  have h := Nat.lt_succ_self (2 ^ b * eNat u v M z / (u * v) ^ M)
  rw [Nat.div_lt_iff_lt_mul (by positivity)] at h
  have h' : (2 : ℚ) ^ b * eNat u v M z ≤ wt u v M b z * ((u : ℚ) * v) ^ M := by exact_mod_cast h.le
  rw [eNat_eq hu hv hz, mul_left_comm, mul_comm] at h'
  exact le_of_mul_le_mul_right h' hp

/-- The place of `k` times the place of `k'` among the integers from `-m^2`. -/
def place (m k k' : Nat) : Nat := (zAt m k * zAt m k' + (m * m : Nat)).toNat

theorem zAt_abs {m k : Nat} (hk : k ∈ range (2 * m + 1)) : (zAt m k).natAbs ≤ m := by
  have := mem_range.1 hk
  unfold zAt
  omega

theorem zAt_mul_abs {m k k' : Nat} (hk : k ∈ range (2 * m + 1)) (hk' : k' ∈ range (2 * m + 1)) :
    (zAt m k * zAt m k').natAbs ≤ m * m := by
  rw [Int.natAbs_mul]
  exact Nat.mul_le_mul (zAt_abs hk) (zAt_abs hk')

theorem place_cast {m k k' : Nat} (hk : k ∈ range (2 * m + 1)) (hk' : k' ∈ range (2 * m + 1)) :
    (place m k k' : ℤ) = zAt m k * zAt m k' + (m * m : Nat) := by
  have := zAt_mul_abs hk hk'
  unfold place
  rw [Int.toNat_of_nonneg (by omega)]

/-- The distribution of a product of two samples, as the digits of a number to base `2^64`. -/
def prodNat (chi : List Nat) (m : Nat) : Nat :=
  ∑ k ∈ range (2 * m + 1), ∑ k' ∈ range (2 * m + 1),
    chi.getD (zAt m k).natAbs 0 * chi.getD (zAt m k').natAbs 0 * (2 ^ 64) ^ place m k k'

/-- The weights of the products, as the digits of a number to base `2^w`. -/
def psiNat (chi : List Nat) (m u v b w d : Nat) : Nat :=
  rebase 64 w (fun r => wt u v (m * m) b ((r : ℤ) - (m * m : Nat))) d 0 (prodNat chi m)

/-- The weights of the samples, as the digits of a number to base `2^w`. -/
def phiNat (chi : List Nat) (m u v b w : Nat) : Nat :=
  ∑ k ∈ range (2 * m + 1), chi.getD (zAt m k).natAbs 0 * (wt u v m b (zAt m k) * (2 ^ w) ^ (zAt m k + m).toNat)

/-- The weights of the sums modulo `2^e`, as the digits of a number to base `2^w`. -/
def sumNat (chi : List Nat) (m u v b w d e : Nat) (bits : List Bool) : Nat :=
  fold w (2 ^ e) (powFold w (2 ^ e) (psiNat chi m u v b w d) bits 1 * phiNat chi m u v b w) % ((2 ^ w) ^ 2 ^ e - 1)

/-- A natural number above `2^s (v / u)^j`. -/
def coWt (u v s j : Nat) : Nat := 2 ^ s * v ^ j / u ^ j + 1

/-- The bound for the tail above `t`, where `c` is `- t - 2 n m^2 - m` modulo `2^e`. -/
def tailNat (chi : List Nat) (m u v b w d e : Nat) (bits : List Bool) (s c : Nat) : Nat :=
  rebase w 0 (fun r => coWt u v s ((r + c) % 2 ^ e)) e 0 (sumNat chi m u v b w d e bits)

/-- The weight of a pair of words whose product counts with the sign `ε`. -/
def pairWt (T : List Nat) (m u v b : Nat) (ε : ℤ) (p : Fin 65536 × Fin 65536) : Nat :=
  wt u v (m * m) b (ε * (sample T p.1 * sample T p.2))

/-- The exponent for such a pair. -/
def pairExp (T : List Nat) (m : Nat) (ε : ℤ) (p : Fin 65536 × Fin 65536) : Nat :=
  (ε * (sample T p.1 * sample T p.2) + (m * m : Nat)).toNat

theorem sum_reflect (m : Nat) (f : ℤ → Nat) :
    ∑ k ∈ range (2 * m + 1), f (-zAt m k) = ∑ k ∈ range (2 * m + 1), f (zAt m k) := by
  rw [← sum_range_reflect]
  refine sum_congr rfl fun k hk => ?_
  have := mem_range.1 hk
  congr 1
  unfold zAt
  omega

section
variable {T chi : List Nat} {m : Nat} (hT : T.length - 1 = m)
  (hf : ∀ z, freq T z = chi.getD z.natAbs 0)
include hT hf

theorem sum_pairs (F : ℤ → Nat) (ε : ℤ) (hε : ε = 1 ∨ ε = -1) :
    ∑ p : Fin 65536 × Fin 65536, F (ε * (sample T p.1 * sample T p.2)) =
      ∑ k ∈ range (2 * m + 1), ∑ k' ∈ range (2 * m + 1),
        chi.getD (zAt m k).natAbs 0 * chi.getD (zAt m k').natAbs 0 * F (zAt m k * zAt m k') := by
  rw [Fintype.sum_prod_type]
  simp only [fun z : ℤ => sum_sample hT hf fun z' => F (ε * (z * z'))]
  rw [sum_sample hT hf fun z => ∑ k' ∈ range (2 * m + 1), chi.getD (zAt m k').natAbs 0 * F (ε * (z * zAt m k'))]
  rcases hε with rfl | rfl
  · simp only [one_mul, mul_sum, mul_assoc]
  · rw [← sum_reflect m fun z => chi.getD z.natAbs 0 *
      ∑ k' ∈ range (2 * m + 1), chi.getD (zAt m k').natAbs 0 * F (-1 * (z * zAt m k'))]
    simp only [Int.natAbs_neg, mul_sum, mul_assoc]
    refine sum_congr rfl fun k _ => sum_congr rfl fun k' _ => ?_
    congr 3
    ring

theorem sum_single (F : ℤ → Nat) (ε : ℤ) (hε : ε = 1 ∨ ε = -1) :
    ∑ p : Fin 65536, F (ε * sample T p) =
      ∑ k ∈ range (2 * m + 1), chi.getD (zAt m k).natAbs 0 * F (zAt m k) := by
  rw [sum_sample hT hf fun z => F (ε * z)]
  rcases hε with rfl | rfl
  · simp only [one_mul]
  · rw [← sum_reflect m fun z => chi.getD z.natAbs 0 * F (-1 * z)]
    simp only [Int.natAbs_neg]
    refine sum_congr rfl fun k _ => ?_
    congr 2
    ring

theorem psiNat_eq (u v b w d : Nat) (ε : ℤ) (hε : ε = 1 ∨ ε = -1) (hd : 2 * (m * m) < 2 ^ d) :
    ∑ p, pairWt T m u v b ε p * (2 ^ w) ^ pairExp T m ε p = psiNat chi m u v b w d := by
  have e1 := sum_pairs hT hf (fun _ => 1) 1 (.inl rfl)
  rw [sum_const, card_univ, Fintype.card_prod, Fintype.card_fin] at e1
  refine (sum_pairs hT hf (fun z => wt u v (m * m) b z * (2 ^ w) ^ (z + (m * m : Nat)).toNat) ε hε).trans ?_
  unfold psiNat prodNat
  rw [← sum_product', ← sum_product', rebase_sum]
  · refine sum_congr rfl fun k hk => ?_
    rw [place_cast (mem_product.1 hk).1 (mem_product.1 hk).2, add_sub_cancel_right, mul_assoc _ (wt _ _ _ _ _)]
    rfl
  · rw [sum_product]
    simp only [mul_one] at e1
    rw [← e1]
    norm_num
  · intro k hk
    have h1 := place_cast (mem_product.1 hk).1 (mem_product.1 hk).2
    have h2 := zAt_mul_abs (mem_product.1 hk).1 (mem_product.1 hk).2
    omega

theorem phiNat_eq (u v b w : Nat) (ε : ℤ) (hε : ε = 1 ∨ ε = -1) :
    ∑ p : Fin 65536, wt u v m b (ε * sample T p) * (2 ^ w) ^ (ε * sample T p + m).toNat = phiNat chi m u v b w :=
  sum_single hT hf (fun z => wt u v m b z * (2 ^ w) ^ (z + m).toNat) ε hε

end

theorem sum_small {n : Nat} (f g : Fin 65536 × Fin 65536 → Nat) (h : Fin 65536 → Nat) :
    ∑ q : Small n, (∏ l, f (q.1 l)) * (∏ l, g (q.2.1 l)) * h q.2.2 = (∑ p, f p) ^ n * (∑ p, g p) ^ n * ∑ p, h p := by
  rw [Fintype.sum_pow, Fintype.sum_pow, mul_assoc, sum_mul_sum, sum_mul_sum, Fintype.sum_prod_type]
  simp only [Fintype.sum_prod_type, mul_sum, mul_assoc]

theorem le_coWt {u v : Nat} (hu : 0 < u) (s j : Nat) :
    ((u : ℚ) / v) ^ (-(j : ℤ)) ≤ (coWt u v s j : ℚ) / 2 ^ s := by
  have h := Nat.lt_succ_self (2 ^ s * v ^ j / u ^ j)
  rw [Nat.div_lt_iff_lt_mul (by positivity)] at h
  have h' : (2 : ℚ) ^ s * v ^ j ≤ coWt u v s j * (u : ℚ) ^ j := by exact_mod_cast h.le
  rw [zpow_neg, zpow_natCast, ← inv_pow, inv_div, div_pow, div_le_div_iff₀ (by positivity) (by positivity), mul_comm]
  exact h'

/-- The tail of one entry of the noise. -/
theorem tail_small {T chi : List Nat} {m : Nat} (hT : T.length - 1 = m) (hf : ∀ z, freq T z = chi.getD z.natAbs 0)
    {u v : Nat} (hv : 0 < v) (huv : v ≤ u) (b w d e : Nat) (bits : List Bool) (s c n t : Nat)
    (hbits : bitsNat bits 0 = 2 * n) (hd : 2 * (m * m) < 2 ^ d)
    (hw : psiNat chi m u v b 0 d ^ (2 * n) * phiNat chi m u v b 0 + 2 ≤ 2 ^ w)
    (hc : (t + (2 * n * (m * m) + m) + c) % 2 ^ e = 0) (ε : ℤ) (hε : ε = 1 ∨ ε = -1)
    [DecidablePred fun q : Small n => (t : ℤ) ≤ ε * smallNoise T q] :
    (#{q : Small n | (t : ℤ) ≤ ε * smallNoise T q} : ℚ) * ((2 ^ b) ^ (2 * n + 1) * ((u : ℚ) / v) ^ t) ≤
      tailNat chi m u v b w d e bits s c / 2 ^ s := by
  have hu : 0 < u := by omega
  have hv' : (0 : ℚ) < v := by positivity
  have hz : (1 : ℚ) ≤ (u : ℚ) / v := by
    rw [le_div_iff₀ hv', one_mul]; exact_mod_cast huv
  have hz0 : (0 : ℚ) < (u : ℚ) / v := by linarith
  have hε' : -ε = 1 ∨ -ε = -1 := by omega
  have hab : ∀ r, (sample T r).natAbs ≤ m := fun r => hT ▸ C24_bound r
  have hp : ∀ (δ : ℤ), (δ = 1 ∨ δ = -1) → ∀ p : Fin 65536 × Fin 65536,
      (δ * (sample T p.1 * sample T p.2)).natAbs ≤ m * m := by
    intro δ hδ p
    rw [Int.natAbs_mul, Int.natAbs_mul, show δ.natAbs = 1 by omega, one_mul]
    exact Nat.mul_le_mul (hab _) (hab _)
  have h1 : ∀ r, (ε * sample T r).natAbs ≤ m := by
    intro r
    rw [Int.natAbs_mul, show ε.natAbs = 1 by omega, one_mul]
    exact hab r
  let G : Small n → Nat := fun q => (∏ l, pairWt T m u v b ε (q.1 l)) * (∏ l, pairWt T m u v b (-ε) (q.2.1 l)) *
    wt u v m b (ε * sample T q.2.2)
  let Y : Small n → Nat := fun q => ∑ l, pairExp T m ε (q.1 l) + ∑ l, pairExp T m (-ε) (q.2.1 l) +
    (ε * sample T q.2.2 + m).toNat
  have hGY : ∀ w', ∑ q, G q * (2 ^ w') ^ Y q = psiNat chi m u v b w' d ^ (2 * n) * phiNat chi m u v b w' := by
    intro w'
    have := sum_small (n := n) (fun p => pairWt T m u v b ε p * (2 ^ w') ^ pairExp T m ε p)
      (fun p => pairWt T m u v b (-ε) p * (2 ^ w') ^ pairExp T m (-ε) p)
      (fun p => wt u v m b (ε * sample T p) * (2 ^ w') ^ (ε * sample T p + m).toNat)
    rw [psiNat_eq hT hf u v b w' d ε hε hd, psiNat_eq hT hf u v b w' d (-ε) hε' hd, phiNat_eq hT hf u v b w' ε hε,
      ← pow_add, ← two_mul] at this
    rw [← this]
    refine sum_congr rfl fun q _ => ?_
    simp only [G, Y, pow_add, prod_mul_distrib, prod_pow_eq_pow_sum]
    ring
  have hexp : ∀ (δ : ℤ), (δ = 1 ∨ δ = -1) → ∀ f : Fin n → Fin 65536 × Fin 65536,
      ((∑ l, pairExp T m δ (f l) : Nat) : ℤ) = δ * ∑ l, sample T (f l).1 * sample T (f l).2 + n * (m * m : Nat) := by
    intro δ hδ f
    push_cast
    rw [mul_sum, show (n : ℤ) * (m * m) = ∑ _l : Fin n, ((m * m : Nat) : ℤ) by simp, ← sum_add_distrib]
    refine sum_congr rfl fun l _ => ?_
    unfold pairExp
    rw [Int.toNat_of_nonneg (by have := hp δ hδ (f l); omega)]
  have hY : ∀ q, (Y q : ℤ) = ε * smallNoise T q + (2 * n * (m * m) + m : Nat) := by
    intro q
    simp only [Y]
    rw [Nat.cast_add, Nat.cast_add, hexp ε hε, hexp (-ε) hε',
      Int.toNat_of_nonneg (by have := h1 q.2.2; omega)]
    unfold smallNoise
    push_cast
    ring
  have hpw : ∀ (δ : ℤ), (δ = 1 ∨ δ = -1) → ∀ f : Fin n → Fin 65536 × Fin 65536,
      (2 ^ b) ^ n * ((u : ℚ) / v) ^ (δ * ∑ l, sample T (f l).1 * sample T (f l).2) ≤
        ((∏ l, pairWt T m u v b δ (f l) : Nat) : ℚ) := by
    intro δ hδ f
    have : ∏ l, (2 ^ b * ((u : ℚ) / v) ^ (δ * (sample T (f l).1 * sample T (f l).2))) ≤
        ∏ l, (pairWt T m u v b δ (f l) : ℚ) :=
      prod_le_prod (fun _ _ => by positivity) fun l _ => le_wt hu hv (hp δ hδ (f l))
    push_cast
    refine le_trans (le_of_eq ?_) this
    rw [prod_mul_distrib, prod_const, card_univ, Fintype.card_fin, mul_sum]
    congr 1
    induction (univ : Finset (Fin n)) using Finset.induction_on with
    | empty => simp
    | insert a s ha ih => rw [sum_insert ha, prod_insert ha, zpow_add₀ hz0.ne', ih]
  have hG : ∀ q, ((2 : ℚ) ^ b) ^ (2 * n + 1) * ((u : ℚ) / v) ^ (ε * smallNoise T q) ≤ G q := by
    intro q
    have a1 := hpw ε hε q.1
    have a2 := hpw (-ε) hε' q.2.1
    have a3 := le_wt (b := b) hu hv (h1 q.2.2)
    have a4 := mul_le_mul (mul_le_mul a1 a2 (by positivity) (by positivity)) a3 (by positivity) (by positivity)
    simp only [G]
    push_cast at a4 ⊢
    refine le_trans (le_of_eq ?_) a4
    unfold smallNoise
    rw [mul_sub, mul_add, zpow_sub₀ hz0.ne', zpow_add₀ hz0.ne', neg_mul, zpow_neg]
    field_simp
    ring
  have hN : 0 < 2 ^ e := by positivity
  have hS : (∑ q, G q * (2 ^ w) ^ Y q) % ((2 ^ w) ^ 2 ^ e - 1) = sumNat chi m u v b w d e bits := by
    rw [hGY]
    unfold sumNat
    rw [← hbits]
    exact ((fold_modEq _ _ _).trans ((powFold_modEq w (2 ^ e) _ bits 1 0 (by rw [pow_zero])).mul_right _)).symm
  have hB : ∑ q, G q + 2 ≤ 2 ^ w := by
    have := hGY 0
    simp only [pow_zero, one_pow, mul_one] at this
    rw [this]
    exact hw
  have key := card_tail_digits (fun q : Small n => ε * smallNoise T q) G Y _ hY (by positivity) hz hG hB hN t
    (fun r => (coWt u v s ((r + c) % 2 ^ e) : ℚ) / 2 ^ s) (fun r => by positivity) (by
      intro d
      have : ((t + (2 * n * (m * m) + m) + d) % 2 ^ e + c) % 2 ^ e = d % 2 ^ e := by
        rw [Nat.mod_add_mod, show t + (2 * n * (m * m) + m) + d + c = t + (2 * n * (m * m) + m) + c + d by omega,
          Nat.add_mod, hc, zero_add, Nat.mod_mod]
      rw [this]
      exact le_coWt hu s _)
  refine key.trans (le_of_eq ?_)
  rw [hS]
  unfold tailNat
  have hlt : sumNat chi m u v b w d e bits < (2 ^ w) ^ 2 ^ e := by
    have h2 : 2 ≤ 2 ^ w := by omega
    have := Nat.one_lt_pow hN.ne' (show 1 < 2 ^ w by omega)
    refine (Nat.mod_lt _ (by omega)).trans_le (Nat.sub_le _ _)
  rw [rebase_eq _ _ _ _ _ _ hlt]
  push_cast
  rw [sum_div]
  refine sum_congr rfl fun r _ => ?_
  rw [one_pow, mul_one, zero_add]
  ring

/-- The bound on the failures from inequalities between natural numbers. -/
theorem fail_strings_nat (K : KemParams) (chi : List Nat) (m u v b w d e : Nat) (bits : List Bool) (s c t k : Nat)
    (hD : K.D = K.B + 1 + t) (hT : K.T.length - 1 = m)
    (hf : ∀ z, freq K.T z = chi.getD z.natAbs 0) (hv : 0 < v) (huv : v ≤ u)
    (hbits : bitsNat bits 0 = 2 * K.n) (hd : 2 * (m * m) < 2 ^ d)
    (hw : psiNat chi m u v b 0 d ^ (2 * K.n) * phiNat chi m u v b 0 + 2 ≤ 2 ^ w)
    (hc : (2 ^ t + (2 * K.n * (m * m) + m) + c) % 2 ^ e = 0)
    (hk : 2 * K.nbar ^ 2 * 2 ^ k * v ^ 2 ^ t * tailNat chi m u v b w d e bits s c ≤
      u ^ 2 ^ t * 2 ^ s * (2 ^ b) ^ (2 * K.n + 1) * 2 ^ (16 * (4 * K.n + 1))) :
    Nat.card {p : Strings K // ¬ Within K (noiseOf K p.1.toList p.2.toList)} * 2 ^ k ≤
      Nat.card (Strings K) := by
  classical
  have hu : 0 < u := by omega
  obtain ⟨a, ea⟩ : ∃ a : ℚ, a = (2 ^ b) ^ (2 * K.n + 1) * ((u : ℚ) / v) ^ 2 ^ t := ⟨_, rfl⟩
  have ha : 0 < a := by
    rw [ea]
    exact mul_pos (pow_pos (pow_pos two_pos _) _) (pow_pos (div_pos (Nat.cast_pos.2 hu) (Nat.cast_pos.2 hv)) _)
  obtain ⟨S, hS⟩ : ∃ S : Nat, S = 2 ^ (16 * (4 * K.n + 1)) := ⟨_, rfl⟩
  have hS0 : (0 : ℚ) < S := by rw [hS]; exact_mod_cast Nat.two_pow_pos _
  have htail : ∀ ε : ℤ, (ε = 1 ∨ ε = -1) → (#{q : Small K.n | ((2 ^ t : Nat) : ℤ) ≤ ε * smallNoise K.T q} : ℚ) ≤
      (tailNat chi m u v b w d e bits s c : ℚ) / 2 ^ s / a / S * S := by
    intro ε hε
    rw [div_mul_cancel₀ _ hS0.ne', le_div_iff₀ ha, ea]
    exact tail_small hT hf hv huv b w d e bits s c K.n (2 ^ t) hbits hd hw hc ε hε
  rw [← hS] at hk
  refine fail_strings K t k hD (ρ := (tailNat chi m u v b w d e bits s c : ℚ) / 2 ^ s / a / S) ?_ ?_ ?_
  · rw [← hS]; simpa only [one_mul] using htail 1 (.inl rfl)
  · rw [← hS]; simpa only [neg_mul, one_mul] using htail (-1) (.inr rfl)
  · have hk' : ((2 * K.nbar ^ 2 * 2 ^ k * v ^ 2 ^ t * tailNat chi m u v b w d e bits s c : Nat) : ℚ) ≤
      ((u ^ 2 ^ t * 2 ^ s * (2 ^ b) ^ (2 * K.n + 1) * S : Nat) : ℚ) := Nat.cast_le.2 hk
    rw [ea]
    obtain ⟨N, hN⟩ : ∃ N, N = 2 ^ t := ⟨_, rfl⟩
    obtain ⟨M, hM⟩ : ∃ M, M = 2 * K.n + 1 := ⟨_, rfl⟩
    obtain ⟨X, hX⟩ : ∃ X, X = tailNat chi m u v b w d e bits s c := ⟨_, rfl⟩
    rw [← hN, ← hM, ← hX] at hk' ⊢
    clear hX hM hN hk htail hS ha ea
    push_cast at hk'
    have hv' : (0 : ℚ) < v := by exact_mod_cast hv
    have hu' : (0 : ℚ) < u := by exact_mod_cast hu
    have : 2 * (K.nbar : ℚ) ^ 2 * (X / 2 ^ s / ((2 ^ b) ^ M * ((u : ℚ) / v) ^ N) / S) * 2 ^ k =
        (2 * (K.nbar : ℚ) ^ 2 * 2 ^ k * v ^ N * X) / ((u : ℚ) ^ N * 2 ^ s * (2 ^ b) ^ M * S) := by
      rw [div_pow]
      field_simp
    rw [this, div_le_one (by positivity)]
    exact hk'

end Frodo
