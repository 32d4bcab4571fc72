import Verif.Spec.Noise
import Verif.Model.Params
import Mathlib.Data.Finset.Card
import Mathlib.Algebra.Order.Interval.Finset.Basic
import Mathlib.Order.Interval.Finset.Nat
import Mathlib.Tactic.IntervalCases

/-! # The exact noise distribution -/

namespace Frodo.Props

open Spec Finset

/-- The error distribution published in the FrodoKEM specification, Table 3 (640), in units of
`2^-16`: probability of 0, ±1, ±2, ... -/
def chi640 : List Nat := [9288, 8720, 7216, 5264, 3384, 1918, 958, 422, 164, 56, 17, 4, 1]
/-- Table 3 (976). -/
def chi976 : List Nat := [11278, 10277, 7774, 4882, 2545, 1101, 396, 118, 29, 6, 1]
/-- Table 3 (1344). -/
def chi1344 : List Nat := [18286, 14320, 6876, 2023, 364, 40, 2]

/-- The number of 16-bit words that `sample` maps to `z`. -/
def freq (T : List Nat) (z : Int) : Nat := #{r ∈ range (2 ^ 16) | sample T r = z}

theorem lt_countP_iff {L : List Nat} (hL : L.Pairwise (· ≤ ·)) (t k : Nat) :
    k < L.countP (fun z => decide (z < t)) ↔ k < L.length ∧ L.getD k 0 < t := by
  induction L generalizing k with
  | nil => simp
  | cons a L ih =>
    rw [List.pairwise_cons] at hL
    by_cases ha : a < t
    · rw [List.countP_cons_of_pos (by simpa using ha)]
      cases k with
      | zero => simp [ha]
      | succ k => simpa using ih hL.2 k
    · have h0 : (a :: L).countP (fun z => decide (z < t)) = 0 := by
        rw [List.countP_eq_zero]
        intro b hb
        rcases List.mem_cons.1 hb with rfl | hb
        · simpa using ha
        · have := hL.1 b hb; simp; omega
      rw [h0]
      constructor
      · intro h; omega
      · rintro ⟨h1, h2⟩
        exfalso
        have : a ≤ (a :: L).getD k 0 := by
          cases k with
          | zero => simp
          | succ k =>
            have h1 : k < L.length := by simpa using h1
            simp only [List.getD_cons_succ]
            rw [List.getD, List.getElem?_eq_getElem h1]
            exact hL.1 _ (List.getElem_mem h1)
        omega

/-- Number of `t < N` whose magnitude is at least `k`. -/
def tailCount (N : Nat) (L : List Nat) : Nat → Nat
  | 0 => N
  | k + 1 => if k < L.length then N - 1 - L.getD k 0 else 0

theorem card_ge {L : List Nat} (hL : L.Pairwise (· ≤ ·)) (N k : Nat) :
    #{t ∈ range N | k ≤ L.countP (fun z => decide (z < t))} = tailCount N L k := by
  cases k with
  | zero => simp [tailCount]
  | succ k =>
    have : ∀ t, (k + 1 ≤ L.countP (fun z => decide (z < t))) ↔ k < L.length ∧ L.getD k 0 < t :=
      fun t => lt_countP_iff hL t k
    simp only [this, tailCount]
    by_cases h : k < L.length
    · simp only [h, true_and, if_true]
      have e : ({t ∈ range N | L.getD k 0 < t} : Finset Nat) = Ioo (L.getD k 0) N := by
        ext t; simp only [mem_filter, mem_range, mem_Ioo]; tauto
      rw [e, Nat.card_Ioo]; omega
    · simp [h]

theorem card_eq {L : List Nat} (hL : L.Pairwise (· ≤ ·)) (N k : Nat) :
    #{t ∈ range N | L.countP (fun z => decide (z < t)) = k} =
      tailCount N L k - tailCount N L (k + 1) := by
  rw [← card_ge hL, ← card_ge hL, ← card_sdiff_of_subset]
  · congr 1
    ext t; simp only [mem_filter, mem_range, mem_sdiff]; omega
  · intro t; simp only [mem_filter, mem_range]; omega

theorem card_sample {T : List Nat} (hL : T.dropLast.Pairwise (· ≤ ·)) (N : Nat) (z : Int) :
    #{r ∈ range (2 * N) | sample T r = z} =
      (tailCount N T.dropLast z.natAbs - tailCount N T.dropLast (z.natAbs + 1)) *
      (if z = 0 then 2 else 1) := by
  rw [← card_eq hL]
  have hs : ∀ r, sample T r = if r % 2 = 0 then
      ((T.dropLast.countP fun z => decide (z < r / 2) : Nat) : Int)
      else -((T.dropLast.countP fun z => decide (z < r / 2) : Nat) : Int) := fun _ => rfl
  generalize T.dropLast = L at *
  obtain ⟨c, hc⟩ : ∃ c : Nat → Nat, c = fun t => L.countP (fun z => decide (z < t)) := ⟨_, rfl⟩
  have hs : ∀ r, sample T r = if r % 2 = 0 then (c (r / 2) : Int) else -(c (r / 2) : Int) := by
    intro r; rw [hs, hc]
  have hc' : ∀ t, L.countP (fun z => decide (z < t)) = c t := by intro t; rw [hc]
  simp only [hc']
  have e : ({r ∈ range (2 * N) | sample T r = z} : Finset Nat) =
      (({t ∈ range N | (c t : Int) = z} : Finset Nat).image (fun t => 2 * t)) ∪
      (({t ∈ range N | -(c t : Int) = z} : Finset Nat).image (fun t => 2 * t + 1)) := by
    ext r
    simp only [mem_filter, mem_range, mem_union, mem_image, hs]
    constructor
    · rintro ⟨h1, h2⟩
      by_cases hr : r % 2 = 0
      · rw [if_pos hr] at h2
        exact Or.inl ⟨r / 2, ⟨by omega, h2⟩, by omega⟩
      · rw [if_neg hr] at h2
        exact Or.inr ⟨r / 2, ⟨by omega, h2⟩, by omega⟩
    · rintro (⟨t, ⟨h1, h2⟩, rfl⟩ | ⟨t, ⟨h1, h2⟩, rfl⟩)
      · refine ⟨by omega, ?_⟩
        rw [if_pos (by omega), show 2 * t / 2 = t by omega]; exact h2
      · refine ⟨by omega, ?_⟩
        rw [if_neg (by omega), show (2 * t + 1) / 2 = t by omega]; exact h2
  rw [e, card_union_of_disjoint, card_image_of_injective _ (fun a b h => by simpa using h),
    card_image_of_injective _ (fun a b h => by simpa using h)]
  · rcases lt_trichotomy z 0 with h | h | h
    · have e1 : ({t ∈ range N | (c t : Int) = z} : Finset Nat) = ∅ := by
        apply filter_false_of_mem; intro t _; omega
      have e2 : ({t ∈ range N | -(c t : Int) = z} : Finset Nat) = {t ∈ range N | c t = z.natAbs} := by
        apply filter_congr; intro t _; omega
      rw [e1, e2, if_neg (by omega)]; simp
    · subst h
      have e1 : ({t ∈ range N | (c t : Int) = 0} : Finset Nat) = {t ∈ range N | c t = 0} := by
        apply filter_congr; intro t _; omega
      have e2 : ({t ∈ range N | -(c t : Int) = 0} : Finset Nat) = {t ∈ range N | c t = 0} := by
        apply filter_congr; intro t _; omega
      rw [e1, e2]; simp; omega
    · have e1 : ({t ∈ range N | -(c t : Int) = z} : Finset Nat) = ∅ := by
        apply filter_false_of_mem; intro t _; omega
      have e2 : ({t ∈ range N | (c t : Int) = z} : Finset Nat) = {t ∈ range N | c t = z.natAbs} := by
        apply filter_congr; intro t _; omega
      rw [e1, e2, if_neg (by omega)]; simp
  · rw [disjoint_left]
    intro r h1 h2
    simp only [mem_image] at h1 h2
    obtain ⟨a, _, h1⟩ := h1
    obtain ⟨b, _, h2⟩ := h2
    omega

theorem freq_eq {T : List Nat} (hL : T.dropLast.Pairwise (· ≤ ·)) (z : Int) :
    freq T z = (tailCount (2 ^ 15) T.dropLast z.natAbs - tailCount (2 ^ 15) T.dropLast (z.natAbs + 1)) *
      (if z = 0 then 2 else 1) := by
  unfold freq
  rw [show 2 ^ 16 = 2 * 2 ^ 15 by norm_num]
  exact card_sample hL _ z

/-- Comparison with a published table, by cases on the magnitude. -/
theorem freq_table {T chi : List Nat} (hL : T.dropLast.Pairwise (· ≤ ·))
    (hlen : T.dropLast.length < chi.length)
    (h0 : (tailCount (2 ^ 15) T.dropLast 0 - tailCount (2 ^ 15) T.dropLast 1) * 2 = chi.getD 0 0)
    (h : ∀ k ∈ List.range (chi.length - 1), tailCount (2 ^ 15) T.dropLast (k + 1) -
      tailCount (2 ^ 15) T.dropLast (k + 2) = chi.getD (k + 1) 0) (z : Int) :
    freq T z = chi.getD z.natAbs 0 := by
  rw [freq_eq hL]
  by_cases hz : z = 0
  · subst hz; simpa using h0
  · rw [if_neg hz, Nat.mul_one]
    obtain ⟨k, hk⟩ : ∃ k, z.natAbs = k + 1 := ⟨z.natAbs - 1, by omega⟩
    rw [hk]
    by_cases hl : k + 1 < chi.length
    · exact h k (List.mem_range.2 (by omega))
    · have e : chi.getD (k + 1) 0 = 0 := by simp [List.getD, hl]
      have e2 : tailCount (2 ^ 15) T.dropLast (k + 1) = 0 := by
        simp only [tailCount]; rw [if_neg (by omega)]
      rw [e, e2, Nat.zero_sub]

/-- C24, FrodoKEM-640: over all `2^16` words, every integer is sampled exactly as often as the
published distribution says (in particular never beyond ±12). -/
theorem C24_noise640 (z : Int) : freq (frodo640.cdf.map BitVec.toNat) z = chi640.getD z.natAbs 0 :=
  freq_table (by decide) (by decide) (by decide) (by decide) z

/-- C24, FrodoKEM-976 (never beyond ±10). -/
theorem C24_noise976 (z : Int) : freq (frodo976.cdf.map BitVec.toNat) z = chi976.getD z.natAbs 0 :=
  freq_table (by decide) (by decide) (by decide) (by decide) z

/-- C24, FrodoKEM-1344 (never beyond ±6). -/
theorem C24_noise1344 (z : Int) :
    freq (frodo1344.cdf.map BitVec.toNat) z = chi1344.getD z.natAbs 0 :=
  freq_table (by decide) (by decide) (by decide) (by decide) z

/-- The published tables are distributions: the frequencies add up to `2^16`. -/
example : chi640.getD 0 0 + 2 * chi640.tail.sum = 2 ^ 16 ∧ chi976.getD 0 0 + 2 * chi976.tail.sum = 2 ^ 16
    ∧ chi1344.getD 0 0 + 2 * chi1344.tail.sum = 2 ^ 16 := by decide

/-- C24: the distribution is symmetric, for every table. -/
theorem C24_symmetric {T : List Nat} (hL : T.dropLast.Pairwise (· ≤ ·)) (z : Int) :
    freq T (-z) = freq T z := by
  rw [freq_eq hL, freq_eq hL]; simp

/-- C24: bounds on every sample (12, 10 and 6). -/
theorem C24_bound {T : List Nat} (r : Nat) : (sample T r).natAbs ≤ T.length - 1 := by
  have h : T.dropLast.countP (fun z => decide (z < r / 2)) ≤ T.length - 1 := by
    have := List.countP_le_length (p := fun z => decide (z < r / 2)) (l := T.dropLast)
    simpa using this
  unfold sample
  simp only
  split <;> omega

example : frodo640.cdf.length - 1 = 12 ∧ frodo976.cdf.length - 1 = 10 ∧
    frodo1344.cdf.length - 1 = 6 := by decide

end Frodo.Props
