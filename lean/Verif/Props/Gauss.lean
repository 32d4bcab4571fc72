import Verif.Proof.Gauss
import Verif.Props.Util
import Verif.Props.Kem

/-! # The noise is close to a rounded Gaussian

The specification (section 5.1.2 and Table 3) replaces a rounded Gaussian of standard deviation 2.8, 2.3 or 1.4 by the
table `CDF_TABLE`, and bounds what that loses by the Rényi divergence of order 200, 500 or 1000. -/

namespace Frodo.Props

open Spec Finset

/-- The rows of Table 3 of the specification: table, variance of the Gaussian, order and bound of the divergence. -/
inductive Approximates : Params → NNReal → Nat → ℝ → Prop where
  | frodo640 : Approximates frodo640 ((28 / 10) ^ 2) 200 0.0000324
  | frodo976 : Approximates frodo976 ((23 / 10) ^ 2) 500 0.0000140
  | frodo1344 : Approximates frodo1344 ((14 / 10) ^ 2) 1000 0.0000264

/-- Lower bounds of the rounded Gaussian at 0, 1, ..., in units of `2^-80`. -/
def low640 : List Nat := [171335941995930092413852, 160858582515117642931989, 133116241527377282505517,
  97097375544551516660116, 62426821902360490220799, 35376836357095998162483, 17670410784392075991404,
  7779455149891500032877, 3018705703034717603315, 1032416231568804598060, 311203154979979118688, 82676152759847847844,
  19357754614455205585]

theorem low640_le : ∀ k ∈ range (2 * 12 + 1), 0 < low640.getD (zAt 12 k).natAbs 0 ∧
    ((low640.getD (zAt 12 k).natAbs 0 : ℚ) / 2 ^ 80) * (3509279584483401/500000000000000) ≤
      gaussSum 60 (196/25) (zAt 12 k - 1 / 2) (zAt 12 k + 1 / 2) := by
  decide +kernel

theorem sum640_le : (∑ k ∈ range (2 * 12 + 1),
      termNat 200 (chi640.getD (zAt 12 k).natAbs 0) (low640.getD (zAt 12 k).natAbs 0)) * (2 * 10000000 ^ 2) ≤
    2 ^ 64 * (2 * 10000000 ^ 2 + 2 * 64476 * 10000000 + 64476 ^ 2) := by decide +kernel

/-- Lower bounds of the rounded Gaussian at 0, 1, ..., in units of `2^-80`. -/
def low976 : List Nat := [208052014387008811713723, 189568285221545910350497, 143398526321398346723818,
  90053831102153960178166, 46949078223649038615757, 20319077959597684811593, 7299846114556510919205,
  2176873941764831229955, 538811069787364032653, 110686399080760214199, 18870129455735989418]

theorem low976_le : ∀ k ∈ range (2 * 10 + 1), 0 < low976.getD (zAt 10 k).natAbs 0 ∧
    ((low976.getD (zAt 10 k).natAbs 0 : ℚ) / 2 ^ 80) * (2882622515825651/500000000000000) ≤
      gaussSum 60 (529/100) (zAt 10 k - 1 / 2) (zAt 10 k + 1 / 2) := by
  decide +kernel

theorem sum976_le : (∑ k ∈ range (2 * 10 + 1),
      termNat 500 (chi976.getD (zAt 10 k).natAbs 0) (low976.getD (zAt 10 k).natAbs 0)) * (2 * 10000000 ^ 2) ≤
    2 ^ 64 * (2 * 10000000 ^ 2 + 2 * 69860 * 10000000 + 69860 ^ 2) := by decide +kernel

/-- Lower bounds of the rounded Gaussian at 0, 1, ..., in units of `2^-80`. -/
def low1344 : List Nat := [337308604510411608689681, 264155181781865037853314, 126835202285433935563526,
  37311198741313301642601, 6716571734646807181483, 738800462003264102359, 49575467517837514229]

theorem low1344_le : ∀ k ∈ range (2 * 6 + 1), 0 < low1344.getD (zAt 6 k).natAbs 0 ∧
    ((low1344.getD (zAt 6 k).natAbs 0 : ℚ) / 2 ^ 80) * (3509279584483401/1000000000000000) ≤
      gaussSum 60 (49/25) (zAt 6 k - 1 / 2) (zAt 6 k + 1 / 2) := by
  decide +kernel

theorem sum1344_le : (∑ k ∈ range (2 * 6 + 1),
      termNat 1000 (chi1344.getD (zAt 6 k).natAbs 0) (low1344.getD (zAt 6 k).natAbs 0)) * (2 * 10000000 ^ 2) ≤
    2 ^ 64 * (2 * 10000000 ^ 2 + 2 * 263736 * 10000000 + 263736 ^ 2) := by decide +kernel

/-- What the proofs of this file use of each row. -/
theorem Approximates.bounds {P : Params} {V : NNReal} {α : Nat} {D : ℝ} (h : Approximates P V α D) : 1 < α ∧ 0 ≤ D ∧
    (∀ z ∈ Icc (-((P.cdf.length - 1 : Nat) : ℤ)) (P.cdf.length - 1 : Nat), 0 < roundedGaussian V z) ∧
    ∑ z ∈ Icc (-((P.cdf.length - 1 : Nat) : ℤ)) (P.cdf.length - 1 : Nat),
      noiseDist (P.cdf.map BitVec.toNat) z ^ α / roundedGaussian V z ^ (α - 1) ≤ Real.exp ((α - 1) * D) := by
  cases h
  · have hn : ∀ k ∈ range (2 * 12 + 1), 0 < low640.getD (zAt 12 k).natAbs 0 ∧
        (low640.getD (zAt 12 k).natAbs 0 : ℝ) / 2 ^ 80 ≤ roundedGaussian ((28 / 10) ^ 2) (zAt 12 k) := fun k hk => by
      refine ⟨(low640_le k hk).1, ?_⟩
      have := le_roundedGaussian (K := 60) (by decide) (v := 196/25) (s := 3509279584483401/500000000000000) (by norm_num) (by norm_num)
        ((28 / 10) ^ 2) (by push_cast; norm_num) (by norm_num) (zAt 12 k) (low640_le k hk).2
      rwa [Rat.cast_div, Rat.cast_natCast, Rat.cast_pow, Rat.cast_ofNat] at this
    refine ⟨by norm_num, by norm_num, fun z hz => ?_, ?_⟩
    · obtain ⟨k, hk, rfl⟩ := zAt_surj (m := 12) hz
      have := hn k hk
      have h1 : (0 : ℝ) < low640.getD (zAt 12 k).natAbs 0 := by exact_mod_cast this.1
      exact (div_pos h1 (by norm_num)).trans_le this.2
    · refine (sum_renyi (m := 12) C24_noise640 hn).trans ((le_exp_of_nat (by norm_num) sum640_le).trans (le_of_eq ?_))
      norm_num
  · have hn : ∀ k ∈ range (2 * 10 + 1), 0 < low976.getD (zAt 10 k).natAbs 0 ∧
        (low976.getD (zAt 10 k).natAbs 0 : ℝ) / 2 ^ 80 ≤ roundedGaussian ((23 / 10) ^ 2) (zAt 10 k) := fun k hk => by
      refine ⟨(low976_le k hk).1, ?_⟩
      have := le_roundedGaussian (K := 60) (by decide) (v := 529/100) (s := 2882622515825651/500000000000000) (by norm_num) (by norm_num)
        ((23 / 10) ^ 2) (by push_cast; norm_num) (by norm_num) (zAt 10 k) (low976_le k hk).2
      rwa [Rat.cast_div, Rat.cast_natCast, Rat.cast_pow, Rat.cast_ofNat] at this
    refine ⟨by norm_num, by norm_num, fun z hz => ?_, ?_⟩
    · obtain ⟨k, hk, rfl⟩ := zAt_surj (m := 10) hz
      have := hn k hk
      have h1 : (0 : ℝ) < low976.getD (zAt 10 k).natAbs 0 := by exact_mod_cast this.1
      exact (div_pos h1 (by norm_num)).trans_le this.2
    · refine (sum_renyi (m := 10) C24_noise976 hn).trans ((le_exp_of_nat (by norm_num) sum976_le).trans (le_of_eq ?_))
      norm_num
  · have hn : ∀ k ∈ range (2 * 6 + 1), 0 < low1344.getD (zAt 6 k).natAbs 0 ∧
        (low1344.getD (zAt 6 k).natAbs 0 : ℝ) / 2 ^ 80 ≤ roundedGaussian ((14 / 10) ^ 2) (zAt 6 k) := fun k hk => by
      refine ⟨(low1344_le k hk).1, ?_⟩
      have := le_roundedGaussian (K := 60) (by decide) (v := 49/25) (s := 3509279584483401/1000000000000000) (by norm_num) (by norm_num)
        ((14 / 10) ^ 2) (by push_cast; norm_num) (by norm_num) (zAt 6 k) (low1344_le k hk).2
      rwa [Rat.cast_div, Rat.cast_natCast, Rat.cast_pow, Rat.cast_ofNat] at this
    refine ⟨by norm_num, by norm_num, fun z hz => ?_, ?_⟩
    · obtain ⟨k, hk, rfl⟩ := zAt_surj (m := 6) hz
      have := hn k hk
      have h1 : (0 : ℝ) < low1344.getD (zAt 6 k).natAbs 0 := by exact_mod_cast this.1
      exact (div_pos h1 (by norm_num)).trans_le this.2
    · refine (sum_renyi (m := 6) C24_noise1344 hn).trans ((le_exp_of_nat (by norm_num) sum1344_le).trans (le_of_eq ?_))
      norm_num

/-- C73: the Rényi divergence of the noise from the rounded Gaussian is at most that of Table 3. -/
theorem C73_renyi {P : Params} {V : NNReal} {α : Nat} {D : ℝ} (h : Approximates P V α D) :
    renyi α (fun z => freq (P.cdf.map BitVec.toNat) z / 2 ^ 16) (roundedGaussian V) ≤ D :=
  renyi_le (m := P.cdf.length - 1) (by simp) V h.bounds.1 h.bounds.2.1 h.bounds.2.2.2

/-- The rounded Gaussian is a distribution. -/
theorem C73_total (V : NNReal) : HasSum (roundedGaussian V) 1 := hasSum_roundedGaussian V

/-- C73: whatever `frodo_sample_n` makes of uniform words, it makes hardly more often than rounded Gaussians would. -/
theorem C73_events {P : Params} {V : NNReal} {α : Nat} {D : ℝ} (h : Approximates P V α D) {N : Nat} (hN : N < 2 ^ 32)
    (E : Set (Fin N → ℤ)) :
    (Nat.card {s : Fin N → U16 // Ret (frodo_sample_n P.cdf (List.ofFn s) N) fun out =>
      (fun i : Fin N => (out.getD i 0).toInt) ∈ E} : ℝ) / (2 ^ 16) ^ N ≤
      (gaussianProb V E * Real.exp (N * D)) ^ (1 - 1 / (α : ℝ)) := by
  have hcdf : (∀ c ∈ P.cdf, c.toNat < 2 ^ 15) ∧ P.cdf.length < 2 ^ 15 := by
    have hw : P.WF := by
      cases h
      · exact frodo640_WF
      · exact frodo976_WF
      · exact frodo1344_WF
    exact ⟨hw.cdf, hw.cdf_len⟩
  refine le_of_eq_of_le ?_ (event_le (T := P.cdf.map BitVec.toNat) (m := P.cdf.length - 1) (by simp) V h.bounds.1
    h.bounds.2.2.1 h.bounds.2.2.2 E)
  congr 2
  let e : U16 ≃ Fin 65536 := ⟨fun x => ⟨x.toNat, x.isLt⟩, fun i => BitVec.ofNat 16 i, fun x => by simp, fun i => by
    ext
    simp⟩
  refine Nat.card_congr (Equiv.subtypeEquiv (Equiv.arrowCongr (Equiv.refl _) e) fun s => ?_)
  have hr := C23_sample P.cdf (List.ofFn s) N hcdf.1 hcdf.2 (by simp) hN
  have hs : ∀ i : Fin N, (((((List.ofFn s).take N).map fun r : U16 =>
      BitVec.ofInt 16 (sample (P.cdf.map BitVec.toNat) r.toNat)) ++ (List.ofFn s).drop N).getD i 0).toInt =
        sample (P.cdf.map BitVec.toNat) (s i).toNat := by
    intro i
    rw [List.take_of_length_le (by simp), List.drop_of_length_le (by simp), List.append_nil, List.getD_eq_getElem _ _ (by simp)]
    have hb := C24_bound (T := P.cdf.map BitVec.toNat) (s i).toNat
    have hl : (P.cdf.map BitVec.toNat).length < 2 ^ 15 := by simpa using hcdf.2
    simp only [List.getElem_map, List.getElem_ofFn, BitVec.toInt_ofInt, Fin.eta]
    rw [Int.bmod_eq_of_le (by omega) (by omega)]
  constructor
  · intro h1
    obtain ⟨o, t, e1, ho⟩ := h1
    obtain ⟨o', t', e2, rfl⟩ := hr
    rw [e1] at e2
    cases e2
    exact (congrArg (· ∈ E) (funext hs)).mp ho
  · intro h1
    refine hr.mono fun o ho => ?_
    subst ho
    exact (congrArg (· ∈ E) (funext hs)).mpr h1

/-- C73: the mean is 0 and the variance that of the Gaussian plus 1/12, up to 1/500. -/
theorem C73_moments {P : Params} {V : NNReal} {α : Nat} {D : ℝ} (h : Approximates P V α D) :
    ∑ r ∈ range (2 ^ 16), sample (P.cdf.map BitVec.toNat) r = 0 ∧
    |(∑ r ∈ range (2 ^ 16), (sample (P.cdf.map BitVec.toNat) r : ℝ) ^ 2) / 2 ^ 16 - (V + 1 / 12)| < 1 / 500 := by
  have key : ∀ {T chi : List Nat} {m : Nat}, T.length - 1 = m → (∀ z, freq T z = chi.getD z.natAbs 0) →
      ∀ f : ℤ → ℤ, ∑ r ∈ range (2 ^ 16), f (sample T r) =
        ∑ k ∈ range (2 * m + 1), (chi.getD (zAt m k).natAbs 0 : ℤ) * f (zAt m k) := by
    intro T chi m hT hf f
    rw [sum_range_sample hT]
    exact sum_congr rfl fun k _ => by rw [hf]
  have cast : ∀ T : List Nat, ∑ r ∈ range (2 ^ 16), (sample T r : ℝ) ^ 2 =
      ((∑ r ∈ range (2 ^ 16), sample T r ^ 2 : ℤ) : ℝ) := fun T => by push_cast; rfl
  rw [cast]
  cases h
  · rw [key (m := 12) (by simp [frodo640]) C24_noise640 (fun z => z), key (m := 12) (by simp [frodo640]) C24_noise640 (· ^ 2),
      show ∑ k ∈ range (2 * 12 + 1), (chi640.getD (zAt 12 k).natAbs 0 : ℤ) * zAt 12 k ^ 2 = 519160 by decide +kernel]
    exact ⟨by decide +kernel, by rw [abs_lt]; constructor <;> push_cast <;> norm_num⟩
  · rw [key (m := 10) (by simp [frodo976]) C24_noise976 (fun z => z), key (m := 10) (by simp [frodo976]) C24_noise976 (· ^ 2),
      show ∑ k ∈ range (2 * 10 + 1), (chi976.getD (zAt 10 k).natAbs 0 : ℤ) * zAt 10 k ^ 2 = 352072 by decide +kernel]
    exact ⟨by decide +kernel, by rw [abs_lt]; constructor <;> push_cast <;> norm_num⟩
  · rw [key (m := 6) (by simp [frodo1344]) C24_noise1344 (fun z => z), key (m := 6) (by simp [frodo1344]) C24_noise1344 (· ^ 2),
      show ∑ k ∈ range (2 * 6 + 1), (chi1344.getD (zAt 6 k).natAbs 0 : ℤ) * zAt 6 k ^ 2 = 133854 by decide +kernel]
    exact ⟨by decide +kernel, by rw [abs_lt]; constructor <;> push_cast <;> norm_num⟩

/-- The hypotheses are met, the bound is not trivial, and the Gaussian on the right has mass everywhere. -/
example : renyi 200 (fun z => freq (frodo640.cdf.map BitVec.toNat) z / 2 ^ 16) (roundedGaussian ((28 / 10) ^ 2)) ≤ 0.0000324 :=
  C73_renyi .frodo640

example : freq (frodo640.cdf.map BitVec.toNat) 0 = 9288 ∧ freq (frodo640.cdf.map BitVec.toNat) (-12) = 1 :=
  ⟨C24_noise640 0, C24_noise640 (-12)⟩

end Frodo.Props
