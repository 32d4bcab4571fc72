import Verif.Proof.PyKem

/-! # The two decoders compared -/

namespace Frodo

open C Spec

theorem halfAboveEven_iff {D B c : Nat} (h : B < D) :
    halfAboveEven D B c ↔ ∃ k, c = (4 * k + 1) * 2 ^ (D - B - 1) := by
  obtain ⟨d, rfl⟩ : ∃ d, D = B + (d + 1) := ⟨D - B - 1, by omega⟩
  rw [show B + (d + 1) - B - 1 = d by omega]
  unfold halfAboveEven
  refine exists_congr fun k => ?_
  rw [show (4 * k + 1) * 2 ^ (B + (d + 1)) = (4 * k + 1) * 2 ^ d * 2 ^ (B + 1) by
    rw [Nat.mul_assoc, ← Nat.pow_add]; congr 2; omega]
  exact Nat.mul_left_inj (Nat.two_pow_pos _).ne'

theorem dcEven_floor {D B c : Nat} (h : B < D) :
    dcEven D B c =
      (if (c + 2 ^ (D - B - 1)) % 2 ^ (D - B) = 0 ∧ (c + 2 ^ (D - B - 1)) / 2 ^ (D - B) % 2 = 1 then
        (c + 2 ^ (D - B - 1)) / 2 ^ (D - B) - 1 else (c + 2 ^ (D - B - 1)) / 2 ^ (D - B)) % 2 ^ B := by
  unfold dcEven
  have e : (c : ℚ) * 2 ^ B / 2 ^ D + 1 / 2 =
      ((c + 2 ^ (D - B - 1) : Nat) : ℚ) / ((2 ^ (D - B) : Nat) : ℚ) := by
    obtain ⟨d, rfl⟩ : ∃ d, D = B + (d + 1) := ⟨D - B - 1, by omega⟩
    rw [show B + (d + 1) - B - 1 = d by omega, show B + (d + 1) - B = d + 1 by omega]
    push_cast
    rw [pow_add, pow_succ]
    field_simp
  simp only
  rw [e, Rat.floor_natCast_div_natCast]
  generalize c + 2 ^ (D - B - 1) = x
  have hp : 0 < 2 ^ (D - B) := Nat.two_pow_pos _
  generalize 2 ^ (D - B) = y at hp
  have e1 : ((x : ℚ) / (y : ℚ) = ((((x : Nat) : Int) / ((y : Nat) : Int) : Int) : ℚ)) ↔ x % y = 0 := by
    rw [div_eq_iff (by positivity : (y : ℚ) ≠ 0),
      show (((x : Nat) : Int) / ((y : Nat) : Int)) = ((x / y : Nat) : Int) by push_cast; rfl,
      Int.cast_natCast]
    have := Nat.div_add_mod x y
    constructor
    · intro h1
      have h2 : x = x / y * y := by exact_mod_cast h1
      rw [Nat.mul_comm] at h2; omega
    · intro h1
      have h2 : x = x / y * y := by rw [Nat.mul_comm]; omega
      exact_mod_cast h2
  have e2 : (((x : Nat) : Int) / ((y : Nat) : Int)) = ((x / y : Nat) : Int) := by push_cast; rfl
  simp only [e1]
  rw [e2]
  by_cases hc : x % y = 0 ∧ x / y % 2 = 1
  · have h2 : ((x / y : Nat) : Int) % 2 = 1 := by exact_mod_cast hc.2
    rw [if_pos hc, if_pos ⟨hc.1, h2⟩]
    have h3 : 1 ≤ x / y := by have := hc.2; generalize x / y = w at *; omega
    have e3 : (((x / y : Nat) : Int) - 1) % 2 ^ B = (((x / y - 1) % 2 ^ B : Nat) : Int) := by
      rw [Int.natCast_mod, Nat.cast_sub h3]; push_cast; rfl
    rw [e3, Int.toNat_natCast]
  · rw [if_neg hc, if_neg (by rintro ⟨h1, h2⟩; exact hc ⟨h1, by exact_mod_cast h2⟩)]
    have e3 : ((x / y : Nat) : Int) % 2 ^ B = ((x / y % 2 ^ B : Nat) : Int) := by push_cast; rfl
    rw [e3, Int.toNat_natCast]

theorem halfAboveEven_mod {D B c : Nat} (h : B < D) :
    halfAboveEven D B c ↔
      (c + 2 ^ (D - B - 1)) % 2 ^ (D - B) = 0 ∧ (c + 2 ^ (D - B - 1)) / 2 ^ (D - B) % 2 = 1 := by
  rw [halfAboveEven_iff h]
  have hs : 2 ^ (D - B) = 2 * 2 ^ (D - B - 1) := by
    rw [← Nat.pow_succ']; congr 1; omega
  have hp : 0 < 2 ^ (D - B - 1) := Nat.two_pow_pos _
  rw [hs]
  generalize 2 ^ (D - B - 1) = y at hp
  constructor
  · rintro ⟨k, rfl⟩
    have : (4 * k + 1) * y + y = 2 * y * (2 * k + 1) := by ring
    rw [this, Nat.mul_mod_right, Nat.mul_div_cancel_left _ (by omega)]
    omega
  · rintro ⟨h1, h2⟩
    have h3 := Nat.div_add_mod (c + y) (2 * y)
    generalize (c + y) / (2 * y) = w at *
    refine ⟨w / 2, ?_⟩
    obtain ⟨u, rfl⟩ : ∃ u, w = 2 * u + 1 := ⟨w / 2, by omega⟩
    rw [show (2 * u + 1) / 2 = u by omega]
    have : (4 * u + 1) * y + y = 2 * y * (2 * u + 1) := by ring
    omega

theorem dcEven_eq_dc {D B c : Nat} (h : B < D) (hn : ¬halfAboveEven D B c) :
    dcEven D B c = dc D B c := by
  rw [halfAboveEven_mod h] at hn
  rw [dcEven_floor h, if_neg hn, dc_eq h]

theorem dcEven_succ {D B c : Nat} (hB : 0 < B) (h : B < D) (hh : halfAboveEven D B c) :
    dcEven D B c + 1 = dc D B c ∧ dc D B c % 2 = 1 := by
  rw [halfAboveEven_mod h] at hh
  rw [dcEven_floor h, if_pos hh, dc_eq h]
  obtain ⟨_, hh⟩ := hh
  generalize (c + 2 ^ (D - B - 1)) / 2 ^ (D - B) = w at *
  obtain ⟨b, rfl⟩ : ∃ b, B = b + 1 := ⟨B - 1, by omega⟩
  have h1 : w % 2 ^ (b + 1) % 2 = w % 2 :=
    Nat.mod_mod_of_dvd _ ⟨2 ^ b, by rw [Nat.pow_succ, Nat.mul_comm]⟩
  have h2 := Nat.div_add_mod w (2 ^ (b + 1))
  have h3 := Nat.mod_lt w (Nat.two_pow_pos (b + 1))
  generalize w % 2 ^ (b + 1) = r at *
  have h4 : w - 1 = 2 ^ (b + 1) * (w / 2 ^ (b + 1)) + (r - 1) := by omega
  rw [h4, Nat.mul_add_mod, Nat.mod_eq_of_lt (by omega)]
  omega

theorem dcEven_lt (D B c : Nat) : dcEven D B c < 2 ^ B := by
  unfold dcEven
  simp only
  have hp : (0 : Int) < 2 ^ B := by positivity
  generalize (if (c : ℚ) * 2 ^ B / 2 ^ D + 1 / 2 = ⌊(c : ℚ) * 2 ^ B / 2 ^ D + 1 / 2⌋ ∧
    ⌊(c : ℚ) * 2 ^ B / 2 ^ D + 1 / 2⌋ % 2 = 1 then ⌊(c : ℚ) * 2 ^ B / 2 ^ D + 1 / 2⌋ - 1
    else ⌊(c : ℚ) * 2 ^ B / 2 ^ D + 1 / 2⌋ : Int) = k
  have h1 := Int.emod_lt_of_pos k hp
  have h2 := Int.emod_nonneg k hp.ne'
  zify
  rw [Int.toNat_of_nonneg h2]
  exact h1

theorem dcEven_eq_iff {D B c : Nat} (hB : 0 < B) (h : B < D) :
    dcEven D B c = dc D B c ↔ ¬halfAboveEven D B c :=
  ⟨fun e hh => by have := (dcEven_succ hB h hh).1; omega, dcEven_eq_dc h⟩

theorem dc_ec {D B k : Nat} (h : B < D) (hk : k < 2 ^ B) :
    dc D B ((ec D B k : ZMod (2 ^ D))).val = k := by
  have h1 := (dc_ec_iff h hk (0 : ZMod (2 ^ D))).2
    ⟨0, by simp, by simp, by simp⟩
  rwa [add_zero] at h1

theorem decodeEven_eq_decode {D m n B : Nat} (h : B < D) (M : Matrix (Fin m) (Fin n) (ZMod (2 ^ D))) :
    decodeEven B M =
      decode B (Matrix.of fun i j => (ec D B (dcEven D B (M i j).val) : ZMod (2 ^ D))) := by
  unfold decodeEven decode
  simp only [Matrix.of_apply, dc_ec h (dcEven_lt D B _)]

theorem decodeEven_eq_iff' {D m n B : Nat} (hB0 : 0 < B) (h : B < D) (h8 : 8 ∣ m * n)
    (M : Matrix (Fin m) (Fin n) (ZMod (2 ^ D))) (mu : List U8)
    (hmu : mu.length = B * (m * n) / 8) :
    decodeEven B M = mu ↔ ∀ i j, dcEven D B (M i j).val = msgPart B mu (i * n + j) := by
  rw [decodeEven_eq_decode h, decode_eq_iff hB0 h8 _ _ hmu]
  simp only [Matrix.of_apply, dc_ec h (dcEven_lt D B _)]

theorem decodeEven_eq_iff {D m n B : Nat} (hB0 : 0 < B) (h : B < D) (h8 : 8 ∣ m * n)
    (M : Matrix (Fin m) (Fin n) (ZMod (2 ^ D))) :
    decodeEven B M = decode B M ↔ ∀ i j, ¬halfAboveEven D B (M i j).val := by
  rw [decodeEven_eq_iff' hB0 h h8 _ _ (length_decode _)]
  have h1 := (decode_eq_iff hB0 h8 M _ (length_decode _)).1 rfl
  refine forall_congr' fun i => forall_congr' fun j => ?_
  rw [← h1, dcEven_eq_iff hB0 h]

theorem halfAboveEven_ec {D B k : Nat} (hB : 0 < B) (h : B < D) (e : ℤ) :
    halfAboveEven D B ((ec D B k : ZMod (2 ^ D)) + (e : ZMod (2 ^ D))).val ↔
      ∃ t : ℤ, e = 2 ^ (D - B - 1) * (4 * t + 1 - 2 * k) := by
  rw [halfAboveEven_iff h, ec_eq (by omega)]
  obtain ⟨b, rfl⟩ : ∃ b, B = b + 1 := ⟨B - 1, by omega⟩
  obtain ⟨d, rfl⟩ : ∃ d, D = b + 1 + (d + 1) := ⟨D - b - 2, by omega⟩
  rw [show b + 1 + (d + 1) - (b + 1) - 1 = d by omega, show b + 1 + (d + 1) - (b + 1) = d + 1 by omega]
  have hq : (((2 ^ (b + 1 + (d + 1)) : Nat)) : ℤ) = 2 ^ d * (4 * 2 ^ b) := by
    push_cast; rw [show b + 1 + (d + 1) = d + (b + 2) by omega, pow_add, pow_add]; ring
  have hc : ((((k * 2 ^ (d + 1) : Nat)) : ZMod (2 ^ (b + 1 + (d + 1)))) +
      (e : ZMod (2 ^ (b + 1 + (d + 1))))) =
      ((2 ^ d * (2 * k) + e : ℤ) : ZMod (2 ^ (b + 1 + (d + 1)))) := by
    push_cast; rw [pow_succ]; ring
  rw [hc]
  have hv := ZMod.val_intCast (n := 2 ^ (b + 1 + (d + 1))) (2 ^ d * (2 * k) + e)
  rw [hq] at hv
  generalize (((2 ^ d * (2 * k) + e : ℤ) : ZMod (2 ^ (b + 1 + (d + 1))))).val = c at *
  have hp : (0 : ℤ) < 2 ^ d := by positivity
  have hdm := Int.mul_ediv_add_emod (2 ^ d * (2 * k) + e) (2 ^ d * (4 * 2 ^ b))
  rw [← hv] at hdm
  generalize (2 ^ d * (2 * k) + e) / (2 ^ d * (4 * 2 ^ b)) = w at hdm
  constructor
  · rintro ⟨j, rfl⟩
    refine ⟨j + 2 ^ b * w, ?_⟩
    push_cast at hdm
    linarith [hdm]
  · rintro ⟨t, rfl⟩
    have h1 : (c : ℤ) = 2 ^ d * (4 * (t - 2 ^ b * w) + 1) := by linarith [hdm]
    have h2 : 0 ≤ t - 2 ^ b * w := by
      by_contra hneg
      have h3 : 4 * (t - 2 ^ b * w) + 1 < 0 := by omega
      have := mul_neg_of_pos_of_neg hp h3
      omega
    refine ⟨(t - 2 ^ b * w).toNat, ?_⟩
    zify
    rw [Int.toNat_of_nonneg h2, h1]; ring

theorem dcEven_ec_iff {D B k : Nat} (hB : 0 < B) (h : B < D) (hk : k < 2 ^ B) (z : ZMod (2 ^ D)) :
    dcEven D B ((ec D B k : ZMod (2 ^ D)) + z).val = k ↔ tolerableEven D B k z := by
  have f1 : (2 : ℤ) ^ D = 2 ^ (B + 1) * 2 ^ (D - B - 1) := by
    rw [← pow_add]; congr 1; omega
  have f2 : (0 : ℤ) < 2 ^ (B + 1) := by positivity
  have hp : (0 : ℤ) < 2 ^ (D - B - 1) := by positivity
  have le1 : ∀ e : ℤ, -(2 ^ D : ℤ) ≤ 2 ^ (B + 1) * e ↔ -(2 ^ (D - B - 1)) ≤ e := fun e => by
    rw [f1, ← mul_neg, mul_le_mul_iff_right₀ f2]
  have lt1 : ∀ e : ℤ, -(2 ^ D : ℤ) < 2 ^ (B + 1) * e ↔ -(2 ^ (D - B - 1)) < e := fun e => by
    rw [f1, ← mul_neg, mul_lt_mul_iff_right₀ f2]
  have le2 : ∀ e : ℤ, 2 ^ (B + 1) * e ≤ (2 ^ D : ℤ) ↔ e ≤ 2 ^ (D - B - 1) := fun e => by
    rw [f1, mul_le_mul_iff_right₀ f2]
  have lt2 : ∀ e : ℤ, 2 ^ (B + 1) * e < (2 ^ D : ℤ) ↔ e < 2 ^ (D - B - 1) := fun e => by
    rw [f1, mul_lt_mul_iff_right₀ f2]
  have hae : ∀ e : ℤ, (e : ZMod (2 ^ D)) = z →
      (halfAboveEven D B ((ec D B k : ZMod (2 ^ D)) + z).val ↔
        ∃ t : ℤ, e = 2 ^ (D - B - 1) * (4 * t + 1 - 2 * k)) := fun e he => by
    rw [← he]; exact halfAboveEven_ec hB h e
  have hdc := dc_ec_iff h hk z
  unfold tolerable at hdc
  simp only [le1, lt2] at hdc
  unfold tolerableEven
  simp only [le1, lt1, le2, lt2]
  generalize hHdef : (2 : ℤ) ^ (D - B - 1) = H at *
  have hsmall : ∀ e t : ℤ, -H < e → e < H → e ≠ H * (4 * t + 1 - 2 * k) := by
    intro e t h1 h2 h3
    have h4 : -1 < 4 * t + 1 - 2 * (k : ℤ) := by
      by_contra hc
      have := mul_le_mul_of_nonneg_left (show 4 * t + 1 - 2 * (k : ℤ) ≤ -1 by omega) hp.le
      linarith
    have h5 : 4 * t + 1 - 2 * (k : ℤ) < 1 := by
      by_contra hc
      have := mul_le_mul_of_nonneg_left (show 1 ≤ 4 * t + 1 - 2 * (k : ℤ) by omega) hp.le
      linarith
    omega
  rcases Nat.mod_two_eq_zero_or_one k with hk2 | hk2
  · -- even: the closed interval
    constructor
    · intro he
      by_cases hh : halfAboveEven D B ((ec D B k : ZMod (2 ^ D)) + z).val
      · have hs := dcEven_succ hB h hh
        rw [he] at hs
        have hk1 : k + 1 < 2 ^ B := by rw [hs.1]; exact dc_lt _ _ _
        have e1 : (ec D B k : ZMod (2 ^ D)) + z =
            (ec D B (k + 1) : ZMod (2 ^ D)) + (z - ((2 * H : ℤ) : ZMod (2 ^ D))) := by
          rw [ec_eq (by omega), ec_eq (by omega), ← hHdef, ← sub_eq_zero]
          have : 2 ^ (D - B) = 2 * 2 ^ (D - B - 1) := by
            rw [← Nat.pow_succ']; congr 1; omega
          rw [this]
          push_cast
          ring
        have h1 := (dc_ec_iff h hk1 (z - ((2 * H : ℤ) : ZMod (2 ^ D)))).1 (by rw [← e1]; exact hs.1.symm)
        obtain ⟨e, h2, h3, h4⟩ := h1
        rw [le1] at h2
        rw [lt2] at h3
        have h5 : ((e + 2 * H : ℤ) : ZMod (2 ^ D)) = z := by
          rw [Int.cast_add, h4]; ring
        obtain ⟨t, ht⟩ := (hae _ h5).1 hh
        obtain ⟨u, hu⟩ : ∃ u, k = 2 * u := ⟨k / 2, by omega⟩
        have h6 : e = -H := by
          have h7 : e + 2 * H = H * (4 * (t - u) + 1) := by rw [ht, hu]; push_cast; ring
          have h8 : t - u = 0 := by
            have a1 : 0 < 4 * (t - u) + 1 := by
              by_contra hc
              have := mul_le_mul_of_nonneg_left (show 4 * (t - u) + 1 ≤ 0 by omega) hp.le
              linarith
            have a2 : 4 * (t - u) + 1 < 3 := by
              by_contra hc
              have := mul_le_mul_of_nonneg_left (show 3 ≤ 4 * (t - u) + 1 by omega) hp.le
              linarith
            omega
          rw [h8] at h7; linarith
        exact ⟨e + 2 * H, h5, fun _ => ⟨by linarith, by linarith⟩, fun h => by omega⟩
      · rw [dcEven_eq_dc h hh] at he
        obtain ⟨e, h1, h2, h3⟩ := hdc.1 he
        exact ⟨e, h3, fun _ => ⟨h1, h2.le⟩, fun h => by omega⟩
    · rintro ⟨e, h1, h2, -⟩
      obtain ⟨h2, h3⟩ := h2 hk2
      rcases lt_or_eq_of_le h3 with h4 | h4
      · have h5 := hdc.2 ⟨e, h2, h4, h1⟩
        rw [dcEven_eq_dc h, h5]
        intro hh
        obtain ⟨t, ht⟩ := (hae _ h1).1 hh
        rcases lt_or_eq_of_le h2 with h6 | h6
        · exact hsmall e t h6 h4 ht
        · have h7 : H * (4 * t + 2 - 2 * k) = 0 := by linarith
          rcases mul_eq_zero.1 h7 with h8 | h8
          · omega
          · omega
      · obtain ⟨u, hu⟩ : ∃ u, k = 2 * u := ⟨k / 2, by omega⟩
        have hh : halfAboveEven D B ((ec D B k : ZMod (2 ^ D)) + z).val :=
          (hae _ h1).2 ⟨u, by rw [h4, hu]; push_cast; ring⟩
        have hs := (dcEven_succ hB h hh).1
        have hk1 : k + 1 < 2 ^ B := by
          obtain ⟨b, rfl⟩ : ∃ b, B = b + 1 := ⟨B - 1, by omega⟩
          rw [Nat.pow_succ] at hk ⊢; omega
        have e1 : (ec D B k : ZMod (2 ^ D)) + z =
            (ec D B (k + 1) : ZMod (2 ^ D)) + ((-H : ℤ) : ZMod (2 ^ D)) := by
          rw [ec_eq (by omega), ec_eq (by omega), ← h1, h4, ← hHdef, ← sub_eq_zero]
          have : 2 ^ (D - B) = 2 * 2 ^ (D - B - 1) := by
            rw [← Nat.pow_succ']; congr 1; omega
          rw [this]
          push_cast
          ring
        have h9 := (dc_ec_iff h hk1 ((-H : ℤ) : ZMod (2 ^ D))).2
          ⟨-H, by rw [le1], by rw [lt2]; linarith, rfl⟩
        rw [← e1] at h9
        omega
  · -- odd: the open interval
    constructor
    · intro he
      by_cases hh : halfAboveEven D B ((ec D B k : ZMod (2 ^ D)) + z).val
      · have := dcEven_succ hB h hh
        omega
      · rw [dcEven_eq_dc h hh] at he
        obtain ⟨e, h1, h2, h3⟩ := hdc.1 he
        refine ⟨e, h3, fun h => by omega, fun _ => ⟨?_, h2⟩⟩
        rcases lt_or_eq_of_le h1 with h6 | h6
        · exact h6
        · refine absurd ((hae _ h3).2 ?_) hh
          obtain ⟨u, hu⟩ : ∃ u, k = 2 * u + 1 := ⟨k / 2, by omega⟩
          exact ⟨u, by rw [← h6, hu]; push_cast; ring⟩
    · rintro ⟨e, h1, -, h2⟩
      obtain ⟨h2, h3⟩ := h2 hk2
      have h5 := hdc.2 ⟨e, h2.le, h3, h1⟩
      rw [dcEven_eq_dc h, h5]
      intro hh
      obtain ⟨t, ht⟩ := (hae _ h1).1 hh
      exact hsmall e t h2 h3 ht

theorem decodeEven_encode_iff {D m n B : Nat} (hB0 : 0 < B) (hB : B < D) (h8 : 8 ∣ m * n)
    (E : Matrix (Fin m) (Fin n) (ZMod (2 ^ D))) (mu : List U8)
    (hmu : mu.length = B * (m * n) / 8) :
    decodeEven B (encode D B m n mu + E) = mu ↔
      ∀ (i : Fin m) (j : Fin n), tolerableEven D B (msgPart B mu (i * n + j)) (E i j) := by
  rw [decodeEven_eq_iff' hB0 hB h8 _ _ hmu]
  refine forall_congr' fun i => forall_congr' fun j => ?_
  rw [Matrix.add_apply]
  exact dcEven_ec_iff hB0 hB (msgPart_lt _ _ _) _

end Frodo
