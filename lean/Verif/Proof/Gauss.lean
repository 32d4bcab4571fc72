import Verif.Spec.Gauss
import Verif.Proof.FailureNum
import Mathlib.Analysis.Real.Pi.Bounds
import Mathlib.Analysis.MeanInequalities
import Mathlib.Analysis.Calculus.Deriv.MeanValue
import Mathlib.Analysis.SpecialFunctions.ExpDeriv
import Mathlib.Analysis.SpecialFunctions.Integrals.Basic
import Mathlib.Algebra.Order.ToIntervalMod

/-! # Lower bounds for the probabilities of a rounded Gaussian -/

namespace Frodo

open Spec Finset MeasureTheory ProbabilityTheory Props

/-- Partial sums of the series of `exp (-y)`. -/
noncomputable def expSum (K : Nat) (y : ℝ) : ℝ := ∑ k ∈ range K, (-1) ^ k / (k.factorial : ℝ) * y ^ k

theorem expSum_deriv (K : Nat) (y : ℝ) : HasDerivAt (expSum (K + 1)) (-expSum K y) y := by
  unfold expSum
  have h : HasDerivAt (fun y : ℝ => ∑ k ∈ range (K + 1), (-1) ^ k / (k.factorial : ℝ) * y ^ k)
      (∑ k ∈ range (K + 1), (-1) ^ k / (k.factorial : ℝ) * (k * y ^ (k - 1))) y :=
    HasDerivAt.fun_sum fun k _ => (hasDerivAt_pow k y).const_mul _
  convert! h using 1
  rw [sum_range_succ', ← sum_neg_distrib]
  simp only [Nat.cast_zero, zero_mul, mul_zero, add_zero]
  refine sum_congr rfl fun k _ => ?_
  rw [Nat.factorial_succ]
  push_cast
  have : ((k : ℝ) + 1) ≠ 0 := by positivity
  have : (k.factorial : ℝ) ≠ 0 := by positivity
  field_simp
  ring

/-- The partial sums are alternately below and above the limit. -/
theorem expSum_sign (K : Nat) : ∀ y, 0 ≤ y → 0 ≤ (-1) ^ K * (Real.exp (-y) - expSum K y) := by
  induction K with
  | zero =>
    intro y _
    simp [expSum, Real.exp_nonneg]
  | succ K ih =>
    intro y hy
    have hd : ∀ x, HasDerivAt (fun x => (-1) ^ (K + 1) * (Real.exp (-x) - expSum (K + 1) x))
        ((-1) ^ (K + 1) * (-Real.exp (-x) - -expSum K x)) x := fun x =>
      ((by simpa using (hasDerivAt_neg x).exp : HasDerivAt (fun x => Real.exp (-x)) (-Real.exp (-x)) x).sub
        (expSum_deriv K x)).const_mul _
    have hm : MonotoneOn (fun x => (-1) ^ (K + 1) * (Real.exp (-x) - expSum (K + 1) x)) (Set.Ici 0) := by
      refine monotoneOn_of_deriv_nonneg (convex_Ici 0) (fun x _ => (hd x).continuousAt.continuousWithinAt)
        (fun x _ => (hd x).differentiableAt.differentiableWithinAt) fun x hx => ?_
      rw [interior_Ici] at hx
      rw [(hd x).deriv, pow_succ]
      have := ih x hx.le
      nlinarith
    have h0 := hm (Set.mem_Ici.2 le_rfl) (Set.mem_Ici.2 hy) hy
    refine le_trans (le_of_eq ?_) h0
    simp only [neg_zero, Real.exp_zero]
    unfold expSum
    rw [sum_range_succ']
    simp

theorem expSum_le {K : Nat} (hK : Even K) {y : ℝ} (hy : 0 ≤ y) : expSum K y ≤ Real.exp (-y) := by
  have := expSum_sign K y hy
  rw [hK.neg_one_pow, one_mul] at this
  linarith

/-- The integral of the partial sum for `x^2 / (2 v)` from `a` to `b`, as a rational number. -/
def gaussSum (K : Nat) (v a b : ℚ) : ℚ :=
  ∑ k ∈ range K, (-1) ^ k / (k.factorial : ℚ) * (1 / (2 * v)) ^ k * ((b ^ (2 * k + 1) - a ^ (2 * k + 1)) / (2 * k + 1))

theorem integral_expSum (K : Nat) (v a b : ℚ) :
    ∫ x in (a : ℝ)..b, expSum K (x ^ 2 / (2 * v)) = gaussSum K v a b := by
  unfold expSum gaussSum
  push_cast
  rw [intervalIntegral.integral_finsetSum]
  · refine sum_congr rfl fun k _ => ?_
    have : ∀ x : ℝ, (-1) ^ k / (k.factorial : ℝ) * (x ^ 2 / (2 * v)) ^ k =
        ((-1) ^ k / (k.factorial : ℝ) * (1 / (2 * v)) ^ k) * x ^ (2 * k) := by
      intro x
      rw [div_eq_mul_one_div (x ^ 2), mul_pow, ← pow_mul]
      ring
    simp only [this]
    rw [intervalIntegral.integral_const_mul, integral_pow]
    push_cast
    ring
  · intro k _
    exact (by fun_prop : Continuous _).intervalIntegrable _ _

theorem round_eq_iff (x : ℝ) (z : ℤ) : round x = z ↔ x ∈ Set.Ico (z - 1 / 2 : ℝ) (z + 1 / 2) := by
  rw [round_eq, Int.floor_eq_iff, Set.mem_Ico]
  constructor <;> rintro ⟨h1, h2⟩ <;> constructor <;> linarith

theorem round_set (z : ℤ) : {x : ℝ | round x = z} = Set.Ico (z - 1 / 2 : ℝ) (z + 1 / 2) := by
  ext x
  exact round_eq_iff x z

theorem roundedGaussian_nonneg (v : NNReal) (z : ℤ) : 0 ≤ roundedGaussian v z := measureReal_nonneg

/-- A lower bound for a probability of the rounded Gaussian. -/
theorem le_roundedGaussian {K : Nat} (hK : Even K) {v s : ℚ} (hv : 0 < v) (hs : 0 < s) (V : NNReal) (hV : (V : ℝ) = v)
    (hsv : 2 * 3.14159265358979323847 * v ≤ s ^ 2) (z : ℤ) {q : ℚ}
    (hq : q * s ≤ gaussSum K v (z - 1 / 2) (z + 1 / 2)) : (q : ℝ) ≤ roundedGaussian V z := by
  have hv' : (0 : ℝ) < v := by exact_mod_cast hv
  have hs' : (0 : ℝ) < s := by exact_mod_cast hs
  have hV0 : V ≠ 0 := by
    intro h
    rw [h] at hV
    simp at hV
    linarith
  unfold roundedGaussian
  rw [round_set, measureReal_def, gaussianReal_apply_eq_integral 0 hV0, ENNReal.toReal_ofReal
    (setIntegral_nonneg measurableSet_Ico fun x _ => gaussianPDFReal_nonneg 0 V x), integral_Ico_eq_integral_Ioo,
    ← integral_Ioc_eq_integral_Ioo, ← intervalIntegral.integral_of_le (by linarith)]
  have hsq : √(2 * Real.pi * V) ≤ s := by
    rw [hV]
    refine Real.sqrt_le_iff.2 ⟨hs'.le, ?_⟩
    have h1 : ((2 * 3.14159265358979323847 * v : ℚ) : ℝ) ≤ ((s ^ 2 : ℚ) : ℝ) := Rat.cast_le.2 hsv
    push_cast at h1
    have h2 := Real.pi_lt_d20
    nlinarith
  have hpdf : ∀ x : ℝ, gaussianPDFReal 0 V x = (√(2 * Real.pi * V))⁻¹ * Real.exp (-(x ^ 2 / (2 * v))) := by
    intro x
    rw [gaussianPDFReal, sub_zero, hV, neg_div]
  simp only [hpdf]
  rw [intervalIntegral.integral_const_mul]
  have hI : ((gaussSum K v (z - 1 / 2) (z + 1 / 2) : ℚ) : ℝ) ≤
      ∫ x in ((z : ℝ) - 1 / 2)..(z + 1 / 2), Real.exp (-(x ^ 2 / (2 * v))) := by
    rw [← integral_expSum]
    push_cast
    refine intervalIntegral.integral_mono_on (by linarith) ?_ ?_ fun x _ => ?_
    · unfold expSum
      exact (by fun_prop : Continuous _).intervalIntegrable _ _
    · exact (by fun_prop : Continuous _).intervalIntegrable _ _
    · exact expSum_le hK (by positivity)
  have hI0 : 0 ≤ ∫ x in ((z : ℝ) - 1 / 2)..(z + 1 / 2), Real.exp (-(x ^ 2 / (2 * v))) :=
    intervalIntegral.integral_nonneg (by linarith) fun x _ => (Real.exp_pos _).le
  have hpos : 0 < √(2 * Real.pi * V) := by
    rw [hV]
    exact Real.sqrt_pos.2 (by have := Real.pi_pos; positivity)
  have hq' : (q : ℝ) * s ≤ ((gaussSum K v (z - 1 / 2) (z + 1 / 2) : ℚ) : ℝ) := by exact_mod_cast hq
  calc (q : ℝ) ≤ (s : ℝ)⁻¹ * ∫ x in ((z : ℝ) - 1 / 2)..(z + 1 / 2), Real.exp (-(x ^ 2 / (2 * v))) := by
        rw [inv_mul_eq_div, le_div_iff₀ hs']
        exact hq'.trans hI
    _ ≤ _ := mul_le_mul_of_nonneg_right (inv_anti₀ hpos hsq) hI0

/-- The distribution of the samples: the fraction of the 16-bit words that give `z`. -/
noncomputable def noiseDist (T : List Nat) (z : ℤ) : ℝ := freq T z / 2 ^ 16

theorem noiseDist_nonneg (T : List Nat) (z : ℤ) : 0 ≤ noiseDist T z := by unfold noiseDist; positivity

theorem zAt_surj {m : Nat} {z : ℤ} (hz : z ∈ Icc (-(m : ℤ)) m) : ∃ k ∈ range (2 * m + 1), zAt m k = z := by
  rw [mem_Icc] at hz
  refine ⟨(z + m).toNat, mem_range.2 (by omega), ?_⟩
  unfold zAt
  omega

/-- The terms of the divergence, rounded up to a multiple of `2^-64`. -/
def termNat (α c n : Nat) : Nat := c ^ α * (2 ^ 80) ^ (α - 1) * 2 ^ 64 / ((2 ^ 16) ^ α * n ^ (α - 1)) + 1

theorem le_termNat (α c n : Nat) (hn : 0 < n) {q : ℝ} (hq : (n : ℝ) / 2 ^ 80 ≤ q) :
    ((c : ℝ) / 2 ^ 16) ^ α / q ^ (α - 1) ≤ termNat α c n / 2 ^ 64 := by
  have hn' : (0 : ℝ) < n := by exact_mod_cast hn
  have h := Nat.lt_succ_self (c ^ α * (2 ^ 80) ^ (α - 1) * 2 ^ 64 / ((2 ^ 16) ^ α * n ^ (α - 1)))
  rw [Nat.div_lt_iff_lt_mul (by positivity)] at h
  have h' : (c : ℝ) ^ α * (2 ^ 80) ^ (α - 1) * 2 ^ 64 ≤ termNat α c n * ((2 ^ 16) ^ α * (n : ℝ) ^ (α - 1)) := by
    exact_mod_cast h.le
  calc ((c : ℝ) / 2 ^ 16) ^ α / q ^ (α - 1) ≤ ((c : ℝ) / 2 ^ 16) ^ α / ((n : ℝ) / 2 ^ 80) ^ (α - 1) := by
        gcongr
    _ = (c : ℝ) ^ α * (2 ^ 80) ^ (α - 1) / ((2 ^ 16) ^ α * (n : ℝ) ^ (α - 1)) := by
        rw [div_pow, div_pow, div_div_div_eq]
    _ ≤ _ := by
        rw [div_le_div_iff₀ (by positivity) (by positivity)]
        exact h'

/-- The integers up to `m` in absolute value. -/
theorem sum_zAt (m : Nat) (f : ℤ → ℝ) : ∑ z ∈ Icc (-(m : ℤ)) m, f z = ∑ k ∈ range (2 * m + 1), f (zAt m k) := by
  refine (sum_bij (fun k _ => zAt m k) ?_ ?_ ?_ fun _ _ => rfl).symm
  · intro k hk
    have := mem_range.1 hk
    rw [mem_Icc]
    unfold zAt
    omega
  · intro k _ k' _ h
    unfold zAt at h
    omega
  · intro z hz
    rw [mem_Icc] at hz
    exact ⟨(z + m).toNat, mem_range.2 (by omega), by unfold zAt; omega⟩

section
variable {T chi : List Nat} {m : Nat} (hT : T.length - 1 = m) (hf : ∀ z, freq T z = chi.getD z.natAbs 0)
include hT

theorem freq_zero {z : ℤ} (hz : z ∉ Icc (-(m : ℤ)) m) : freq T z = 0 := by
  unfold freq
  rw [card_eq_zero, filter_eq_empty_iff]
  rintro r _ rfl
  have := Props.C24_bound (T := T) r
  exact hz (mem_Icc.2 (by omega))

theorem noiseDist_zero {z : ℤ} (hz : z ∉ Icc (-(m : ℤ)) m) : noiseDist T z = 0 := by
  unfold noiseDist
  rw [freq_zero hT hz]
  simp

omit hT in
include hf in
/-- The sum in the divergence. -/
theorem sum_renyi {V : NNReal} {ns : List Nat} {α : Nat}
    (hn : ∀ k ∈ range (2 * m + 1), 0 < ns.getD (zAt m k).natAbs 0 ∧
      (ns.getD (zAt m k).natAbs 0 : ℝ) / 2 ^ 80 ≤ roundedGaussian V (zAt m k)) :
    ∑ z ∈ Icc (-(m : ℤ)) m, noiseDist T z ^ α / roundedGaussian V z ^ (α - 1) ≤
      ((∑ k ∈ range (2 * m + 1), termNat α (chi.getD (zAt m k).natAbs 0) (ns.getD (zAt m k).natAbs 0) : Nat) : ℝ) / 2 ^ 64 := by
  rw [sum_zAt]
  push_cast
  rw [sum_div]
  refine sum_le_sum fun k hk => ?_
  unfold noiseDist
  rw [hf]
  exact le_termNat α _ _ (hn k hk).1 (hn k hk).2

end

/-- A rational number between the sum in the divergence and `exp x`. -/
theorem le_exp_of_nat {S a b : Nat} (hb : 0 < b) (h : S * (2 * b ^ 2) ≤ 2 ^ 64 * (2 * b ^ 2 + 2 * a * b + a ^ 2)) :
    (S : ℝ) / 2 ^ 64 ≤ Real.exp (a / b) := by
  have hb' : (0 : ℝ) < b := by exact_mod_cast hb
  have h1 := Real.quadratic_le_exp_of_nonneg (x := (a : ℝ) / b) (by positivity)
  refine le_trans ?_ h1
  have h2 : (S : ℝ) * (2 * b ^ 2) ≤ 2 ^ 64 * (2 * b ^ 2 + 2 * a * b + a ^ 2) := by exact_mod_cast h
  rw [div_le_iff₀ (by positivity)]
  have e : (1 + (a : ℝ) / b + (a / b) ^ 2 / 2) * 2 ^ 64 = 2 ^ 64 * (2 * b ^ 2 + 2 * a * b + a ^ 2) / (2 * b ^ 2) := by
    field_simp
  rw [e, le_div_iff₀ (by positivity)]
  exact h2

theorem tsum_renyi {T : List Nat} {m : Nat} (hT : T.length - 1 = m) (V : NNReal) {α : Nat} (hα : α ≠ 0) :
    ∑' z, noiseDist T z ^ α / roundedGaussian V z ^ (α - 1) =
      ∑ z ∈ Icc (-(m : ℤ)) m, noiseDist T z ^ α / roundedGaussian V z ^ (α - 1) :=
  tsum_eq_sum fun z hz => by rw [noiseDist_zero hT hz, zero_pow hα, zero_div]

theorem renyi_le {T : List Nat} {m : Nat} (hT : T.length - 1 = m) (V : NNReal) {α : Nat} (hα : 1 < α) {D : ℝ}
    (hD : 0 ≤ D)
    (h : ∑ z ∈ Icc (-(m : ℤ)) m, noiseDist T z ^ α / roundedGaussian V z ^ (α - 1) ≤ Real.exp ((α - 1) * D)) :
    renyi α (noiseDist T) (roundedGaussian V) ≤ D := by
  have h1 : (0 : ℝ) < α - 1 := by
    have : (1 : ℝ) < α := by exact_mod_cast hα
    linarith
  unfold renyi
  rw [tsum_renyi hT V (by omega), one_div, inv_mul_le_iff₀ h1]
  rcases (sum_nonneg fun z _ => div_nonneg (pow_nonneg (noiseDist_nonneg T z) α)
    (pow_nonneg (roundedGaussian_nonneg V z) (α - 1)) :
      0 ≤ ∑ z ∈ Icc (-(m : ℤ)) m, noiseDist T z ^ α / roundedGaussian V z ^ (α - 1)).eq_or_lt with h0 | h0
  · rw [← h0, Real.log_zero]
    positivity
  · rw [Real.log_le_iff_le_exp h0]
    exact h

/-- The probability of a vector of rounded Gaussians, and of a finite set of these. -/
theorem sum_prod_le_gaussianProb (V : NNReal) {N : Nat} (E : Set (Fin N → ℤ)) (F : Finset (Fin N → ℤ))
    (hF : ∀ x ∈ F, x ∈ E) : ∑ x ∈ F, ∏ i, roundedGaussian V (x i) ≤ gaussianProb V E := by
  have e : ∀ x : Fin N → ℤ, ∏ i, roundedGaussian V (x i) =
      (Measure.pi fun _ : Fin N => gaussianReal 0 V).real {y | (fun i => round (y i)) = x} := by
    intro x
    have : {y : Fin N → ℝ | (fun i => round (y i)) = x} = Set.univ.pi fun i => {y : ℝ | round y = x i} := by
      ext y
      simp [funext_iff]
    rw [this, measureReal_def, Measure.pi_pi, ENNReal.toReal_prod]
    rfl
  have hm : ∀ x : Fin N → ℤ, MeasurableSet {y : Fin N → ℝ | (fun i => round (y i)) = x} := by
    intro x
    have : {y : Fin N → ℝ | (fun i => round (y i)) = x} = Set.univ.pi fun i => {y : ℝ | round y = x i} := by
      ext y
      simp [funext_iff]
    rw [this]
    refine MeasurableSet.univ_pi fun i => ?_
    rw [round_set]
    exact measurableSet_Ico
  rw [sum_congr rfl fun x _ => e x, ← measureReal_biUnion_finset]
  · refine measureReal_mono ?_
    intro y hy
    obtain ⟨x, hx, hy⟩ := Set.mem_iUnion₂.1 hy
    have hy : (fun i => round (y i)) = x := hy
    show (fun i => round (y i)) ∈ E
    rw [hy]
    exact hF x hx
  · intro x _ x' _ hne
    refine Set.disjoint_left.2 fun y hy hy' => hne ?_
    exact (show _ = x from hy).symm.trans hy'
  · exact fun x _ => hm x

theorem card_sample (T : List Nat) (z : ℤ) : #{w : Fin 65536 | sample T w = z} = freq T z := by
  unfold freq
  rw [card_filter, card_filter, show (2 ^ 16 : Nat) = 65536 by norm_num,
    Fin.sum_univ_eq_sum_range (fun r => if sample T r = z then 1 else 0) 65536]

open Classical in
/-- The number of strings of words whose samples form a vector in `E`. -/
theorem card_samples {T : List Nat} {m : Nat} (hT : T.length - 1 = m) {N : Nat} (E : Set (Fin N → ℤ)) :
    (Nat.card {w : Fin N → Fin 65536 // (fun i => sample T (w i)) ∈ E} : ℝ) / (2 ^ 16) ^ N =
      ∑ x ∈ Fintype.piFinset fun _ : Fin N => Icc (-(m : ℤ)) m with x ∈ E, ∏ i, noiseDist T (x i) := by
  have hb : ∀ r, sample T r ∈ Icc (-(m : ℤ)) m := by
    intro r
    have := Props.C24_bound (T := T) r
    exact mem_Icc.2 (by omega)
  have e1 : Nat.card {w : Fin N → Fin 65536 // (fun i => sample T (w i)) ∈ E} =
      ∑ x ∈ Fintype.piFinset fun _ : Fin N => Icc (-(m : ℤ)) m with x ∈ E, ∏ i, freq T (x i) := by
    rw [Nat.card_eq_fintype_card, Fintype.card_subtype, card_eq_sum_card_fiberwise
      (f := fun w : Fin N → Fin 65536 => fun i => sample T (w i))
      (t := (Fintype.piFinset fun _ : Fin N => Icc (-(m : ℤ)) m).filter (· ∈ E))]
    · refine sum_congr rfl fun x hx => ?_
      rw [filter_filter]
      have : (univ.filter fun w : Fin N → Fin 65536 => (fun i => sample T (w i)) ∈ E ∧ (fun i => sample T (w i)) = x) =
          Fintype.piFinset fun i => {a : Fin 65536 | sample T a = x i} := by
        ext w
        rw [mem_filter, Fintype.mem_piFinset]
        constructor
        · rintro ⟨_, _, h⟩ i
          exact mem_filter.2 ⟨mem_univ _, congrFun h i⟩
        · intro h
          have h' : (fun i => sample T (w i)) = x := funext fun i => (mem_filter.1 (h i)).2
          exact ⟨mem_univ _, by rw [h']; exact (mem_filter.1 hx).2, h'⟩
      rw [this, Fintype.card_piFinset]
      exact prod_congr rfl fun i _ => card_sample T (x i)
    · intro w hw
      rw [mem_coe, mem_filter] at hw ⊢
      exact ⟨Fintype.mem_piFinset.2 fun i => hb _, hw.2⟩
  rw [e1]
  push_cast
  rw [sum_div]
  refine sum_congr rfl fun x _ => ?_
  unfold noiseDist
  rw [prod_div_distrib, prod_const, card_univ, Fintype.card_fin]

/-- Hölder's inequality for an event. -/
theorem holder_event {β : Type} (s : Finset β) (P Q : β → ℝ) (hP : ∀ x ∈ s, 0 ≤ P x) (hQ : ∀ x ∈ s, 0 < Q x) {α : Nat}
    (hα : 1 < α) :
    ∑ x ∈ s, P x ≤ (∑ x ∈ s, P x ^ α / Q x ^ (α - 1)) ^ (1 / (α : ℝ)) * (∑ x ∈ s, Q x) ^ (1 - 1 / (α : ℝ)) := by
  have h1 : (1 : ℝ) < α := by exact_mod_cast hα
  have h0 : (0 : ℝ) < α := by linarith
  have hpq : Real.HolderConjugate (α : ℝ) (α / (α - 1)) := Real.HolderConjugate.conjExponent h1
  have hc : ((α - 1 : Nat) : ℝ) = α - 1 := by rw [Nat.cast_sub hα.le, Nat.cast_one]
  have h := Real.inner_le_Lp_mul_Lq_of_nonneg s (f := fun x => P x / Q x ^ (1 - 1 / (α : ℝ)))
    (g := fun x => Q x ^ (1 - 1 / (α : ℝ))) hpq
    (fun x hx => div_nonneg (hP x hx) (Real.rpow_nonneg (hQ x hx).le _)) fun x hx => Real.rpow_nonneg (hQ x hx).le _
  have e1 : ∑ x ∈ s, P x / Q x ^ (1 - 1 / (α : ℝ)) * Q x ^ (1 - 1 / (α : ℝ)) = ∑ x ∈ s, P x :=
    sum_congr rfl fun x hx => div_mul_cancel₀ _ (Real.rpow_pos_of_pos (hQ x hx) _).ne'
  have e2 : ∑ x ∈ s, (P x / Q x ^ (1 - 1 / (α : ℝ))) ^ (α : ℝ) = ∑ x ∈ s, P x ^ α / Q x ^ (α - 1) := by
    refine sum_congr rfl fun x hx => ?_
    rw [Real.div_rpow (hP x hx) (Real.rpow_nonneg (hQ x hx).le _), Real.rpow_natCast, ← Real.rpow_mul (hQ x hx).le,
      show (1 - 1 / (α : ℝ)) * α = ((α - 1 : Nat) : ℝ) by rw [hc]; field_simp, Real.rpow_natCast]
  have e3 : ∑ x ∈ s, (Q x ^ (1 - 1 / (α : ℝ))) ^ ((α : ℝ) / (α - 1)) = ∑ x ∈ s, Q x := by
    refine sum_congr rfl fun x hx => ?_
    have : (α : ℝ) - 1 ≠ 0 := by linarith
    rw [← Real.rpow_mul (hQ x hx).le, show (1 - 1 / (α : ℝ)) * (α / (α - 1)) = 1 by field_simp, Real.rpow_one]
  rw [e1, e2, e3] at h
  convert h using 3
  have : (α : ℝ) - 1 ≠ 0 := by linarith
  field_simp

theorem sum_pow_pi (s : Finset ℤ) (f : ℤ → ℝ) (N : Nat) [DecidableEq (Fin N)] :
    (∑ z ∈ s, f z) ^ N = ∑ x ∈ Fintype.piFinset fun _ : Fin N => s, ∏ i, f (x i) := by
  have := Finset.prod_univ_sum (ι := Fin N) (fun _ => s) fun _ z => f z
  rwa [prod_const, card_univ, Fintype.card_fin] at this

/-- From the divergence of one sample to events of `N` samples. -/
theorem event_le {T : List Nat} {m : Nat} (hT : T.length - 1 = m) (V : NNReal) {α : Nat} (hα : 1 < α) {D : ℝ}
    (hQ : ∀ z ∈ Icc (-(m : ℤ)) m, 0 < roundedGaussian V z)
    (h : ∑ z ∈ Icc (-(m : ℤ)) m, noiseDist T z ^ α / roundedGaussian V z ^ (α - 1) ≤ Real.exp ((α - 1) * D))
    {N : Nat} (E : Set (Fin N → ℤ)) :
    (Nat.card {w : Fin N → Fin 65536 // (fun i => sample T (w i)) ∈ E} : ℝ) / (2 ^ 16) ^ N ≤
      (gaussianProb V E * Real.exp (N * D)) ^ (1 - 1 / (α : ℝ)) := by
  classical
  have h1 : (1 : ℝ) < α := by exact_mod_cast hα
  have h0 : (0 : ℝ) < α := by linarith
  rw [card_samples hT E]
  set F := (Fintype.piFinset fun _ : Fin N => Icc (-(m : ℤ)) m).filter (· ∈ E) with hF
  have hQF : ∀ x ∈ F, 0 < ∏ i, roundedGaussian V (x i) := fun x hx =>
    prod_pos fun i _ => hQ _ (Fintype.mem_piFinset.1 (mem_filter.1 hx).1 i)
  refine (holder_event F _ (fun x => ∏ i, roundedGaussian V (x i))
    (fun x _ => prod_nonneg fun i _ => noiseDist_nonneg T _) hQF hα).trans ?_
  have hS : ∑ x ∈ F, (∏ i, noiseDist T (x i)) ^ α / (∏ i, roundedGaussian V (x i)) ^ (α - 1) ≤
      Real.exp ((α - 1) * (N * D)) := by
    have hn : ∀ z ∈ Icc (-(m : ℤ)) m, 0 ≤ noiseDist T z ^ α / roundedGaussian V z ^ (α - 1) := fun z hz =>
      div_nonneg (pow_nonneg (noiseDist_nonneg T z) α) (pow_nonneg (hQ z hz).le _)
    calc _ ≤ ∑ x ∈ Fintype.piFinset fun _ : Fin N => Icc (-(m : ℤ)) m,
          (∏ i, noiseDist T (x i)) ^ α / (∏ i, roundedGaussian V (x i)) ^ (α - 1) := by
          refine sum_le_sum_of_subset_of_nonneg (filter_subset _ _) fun x hx _ => ?_
          exact div_nonneg (pow_nonneg (prod_nonneg fun i _ => noiseDist_nonneg T _) α)
            (pow_nonneg (prod_nonneg fun i _ => (hQ _ (Fintype.mem_piFinset.1 hx i)).le) _)
      _ = ∑ x ∈ Fintype.piFinset fun _ : Fin N => Icc (-(m : ℤ)) m,
          ∏ i, noiseDist T (x i) ^ α / roundedGaussian V (x i) ^ (α - 1) := by
          refine sum_congr rfl fun x _ => ?_
          rw [prod_div_distrib, prod_pow, prod_pow]
      _ = (∑ z ∈ Icc (-(m : ℤ)) m, noiseDist T z ^ α / roundedGaussian V z ^ (α - 1)) ^ N :=
          (sum_pow_pi (Icc (-(m : ℤ)) m) (fun z => noiseDist T z ^ α / roundedGaussian V z ^ (α - 1)) N).symm
      _ ≤ Real.exp ((α - 1) * D) ^ N := pow_le_pow_left₀ (sum_nonneg hn) h N
      _ = _ := by rw [← Real.exp_nat_mul]; ring_nf
  have hg0 : 0 ≤ ∑ x ∈ F, ∏ i, roundedGaussian V (x i) := sum_nonneg fun x hx => (hQF x hx).le
  have hg := sum_prod_le_gaussianProb V E F fun x hx => (mem_filter.1 hx).2
  have hexp : (0 : ℝ) ≤ 1 - 1 / (α : ℝ) := by
    rw [sub_nonneg, div_le_one h0]
    exact h1.le
  rw [Real.mul_rpow (hg0.trans hg) (Real.exp_nonneg _), mul_comm]
  refine mul_le_mul (Real.rpow_le_rpow hg0 hg hexp) ?_ (Real.rpow_nonneg (sum_nonneg fun x hx => ?_) _)
    (Real.rpow_nonneg (hg0.trans hg) _)
  · refine (Real.rpow_le_rpow (sum_nonneg fun x hx => ?_) hS (by positivity)).trans (le_of_eq ?_)
    · exact div_nonneg (pow_nonneg (prod_nonneg fun i _ => noiseDist_nonneg T _) α) (pow_nonneg (hQF x hx).le _)
    · rw [← Real.exp_mul, ← Real.exp_mul]
      congr 1
      field_simp
  · exact div_nonneg (pow_nonneg (prod_nonneg fun i _ => noiseDist_nonneg T _) α) (pow_nonneg (hQF x hx).le _)

/-- The probabilities of the rounded Gaussian sum to 1. -/
theorem hasSum_roundedGaussian (V : NNReal) : HasSum (roundedGaussian V) 1 := by
  have hU : (⋃ z : ℤ, {x : ℝ | round x = z}) = Set.univ := by
    ext x
    simp
  have hd : Pairwise (Function.onFun Disjoint fun z : ℤ => {x : ℝ | round x = z}) := by
    intro z z' hne
    refine Set.disjoint_left.2 fun x hx hx' => hne ?_
    exact (show round x = z from hx).symm.trans hx'
  have hm : ∀ z : ℤ, MeasurableSet {x : ℝ | round x = z} := fun z => by rw [round_set]; exact measurableSet_Ico
  have h := measure_iUnion (μ := gaussianReal 0 V) hd hm
  rw [hU, measure_univ] at h
  have hf : ∑' z : ℤ, gaussianReal 0 V {x : ℝ | round x = z} ≠ ⊤ := by rw [← h]; exact ENNReal.one_ne_top
  have := ENNReal.hasSum_toReal hf
  rwa [← ENNReal.tsum_toReal_eq fun z => measure_ne_top _ _, ← h, ENNReal.toReal_one] at this

/-- Sums over all words, by the value of the sample. -/
theorem sum_range_sample {T : List Nat} {m : Nat} (hT : T.length - 1 = m) (f : ℤ → ℤ) :
    ∑ r ∈ range (2 ^ 16), f (sample T r) = ∑ k ∈ range (2 * m + 1), (freq T (zAt m k) : ℤ) * f (zAt m k) := by
  rw [← sum_fiberwise_of_maps_to (s := range (2 ^ 16)) (t := range (2 * m + 1)) (g := fun r => (sample T r + m).toNat)]
  · refine sum_congr rfl fun k hk => ?_
    have e : ∀ r ∈ range (2 ^ 16), ((sample T r + m).toNat = k ↔ sample T r = zAt m k) := by
      intro r _
      have := Props.C24_bound (T := T) r
      have := mem_range.1 hk
      unfold zAt
      omega
    rw [filter_congr e, sum_congr rfl fun r hr => by rw [(mem_filter.1 hr).2], sum_const, nsmul_eq_mul]
    rfl
  · intro r _
    have := Props.C24_bound (T := T) r
    rw [mem_range]
    omega

end Frodo
