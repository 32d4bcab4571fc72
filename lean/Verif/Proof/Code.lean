import Verif.Proof.Matrix
import Verif.Proof.Sponge
import Verif.Spec.Code
import Mathlib.Tactic.FieldSimp
import Mathlib.Tactic.NormNum

/-! # Message encoding and decoding -/

namespace Frodo

open Spec

/-! ## Arithmetic of the specification -/

theorem bitsVal_succ (B : Nat) (f : Nat → Bool) :
    bitsVal (B + 1) f = 2 ^ B * (f B).toNat + bitsVal B f := by
  unfold bitsVal; rw [Finset.sum_range_succ, Nat.mul_comm (2 ^ B), Nat.add_comm]

theorem bitsVal_lt (B : Nat) (f : Nat → Bool) : bitsVal B f < 2 ^ B := by
  induction B with
  | zero => simp [bitsVal]
  | succ B ih =>
    rw [bitsVal_succ, Nat.pow_succ]
    have := Bool.toNat_le (f B)
    have := Nat.mul_le_mul_left (2 ^ B) this
    omega

theorem bitsVal_testBit (B : Nat) (f : Nat → Bool) (k : Nat) :
    (bitsVal B f).testBit k = (decide (k < B) && f k) := by
  induction B with
  | zero => simp [bitsVal]
  | succ B ih =>
    rw [bitsVal_succ, Nat.testBit_two_pow_mul_add _ (bitsVal_lt B f)]
    by_cases h : k < B
    · rw [if_pos h, ih]; simp [h, Nat.lt_succ_of_lt h]
    · rw [if_neg h]
      by_cases h2 : k = B
      · subst h2
        cases f k <;> simp
      · obtain ⟨d, hd⟩ : ∃ d, k - B = d + 1 := ⟨k - B - 1, by omega⟩
        rw [hd]
        have h3 : ¬ k < B + 1 := by omega
        cases f B <;> simp [h3, Nat.testBit_succ]

theorem ec_eq {D B k : Nat} (h : B ≤ D) : ec D B k = k * 2 ^ (D - B) := by
  unfold ec
  rw [show D = (D - B) + B by omega, Nat.pow_add, ← Nat.mul_assoc,
    Nat.mul_div_cancel _ (Nat.two_pow_pos B)]
  congr 2; omega

theorem ec_lt {D B k : Nat} (h : B ≤ D) (hk : k < 2 ^ B) : ec D B k < 2 ^ D := by
  rw [ec_eq h]
  calc k * 2 ^ (D - B) < 2 ^ B * 2 ^ (D - B) := Nat.mul_lt_mul_of_pos_right hk (Nat.two_pow_pos _)
    _ = 2 ^ D := by rw [← Nat.pow_add]; congr 1; omega

theorem dc_eq {D B c : Nat} (h : B < D) :
    dc D B c = (c + 2 ^ (D - B - 1)) / 2 ^ (D - B) % 2 ^ B := by
  unfold dc
  have e : (c : ℚ) * 2 ^ B / 2 ^ D + 1 / 2 =
      ((c + 2 ^ (D - B - 1) : Nat) : ℚ) / ((2 ^ (D - B) : Nat) : ℚ) := by
    obtain ⟨d, rfl⟩ : ∃ d, D = B + (d + 1) := ⟨D - B - 1, by omega⟩
    rw [show B + (d + 1) - B - 1 = d by omega, show B + (d + 1) - B = d + 1 by omega]
    push_cast
    rw [pow_add, pow_succ]
    field_simp
  rw [e, Rat.floor_natCast_div_natCast]
  have : (((c + 2 ^ (D - B - 1) : Nat) : Int) / ((2 ^ (D - B) : Nat) : Int)) % 2 ^ B =
      (((c + 2 ^ (D - B - 1)) / 2 ^ (D - B) % 2 ^ B : Nat) : Int) := by
    push_cast; rfl
  rw [this, Int.toNat_natCast]

theorem dc_lt (D B c : Nat) : dc D B c < 2 ^ B := by
  unfold dc
  have h1 := Int.emod_lt_of_pos ⌊(c : ℚ) * 2 ^ B / 2 ^ D + 1 / 2⌋ (show (0 : Int) < 2 ^ B by positivity)
  have h2 := Int.emod_nonneg ⌊(c : ℚ) * 2 ^ B / 2 ^ D + 1 / 2⌋ (show (2 : Int) ^ B ≠ 0 by positivity)
  zify
  rw [Int.toNat_of_nonneg h2]
  exact h1

theorem msgPart_lt (B : Nat) (mu : List U8) (t : Nat) : msgPart B mu t < 2 ^ B := bitsVal_lt _ _

/-- The bit `t` of a byte string (proof device). -/
def mbit (mu : List U8) (t : Nat) : Bool := (nth mu (t / 8)).getLsbD (t % 8)

theorem msgPart_testBit (B : Nat) (mu : List U8) (t k : Nat) :
    (msgPart B mu t).testBit k = (decide (k < B) && mbit mu (t * B + k)) := by
  unfold msgPart
  rw [bitsVal_testBit, bytesToBits_getD]; rfl

/-! ## Shifts -/

@[wp] theorem Ret_shl64_bind {a : U64} {k : Nat} {f : U64 → C β} {P : β → Prop} :
    Ret (shl64 a k >>= f) P ↔ k < 64 ∧ Ret (f (a <<< k)) P := by
  unfold shl64
  by_cases h : k < 64 <;> simp [h, Ret_pure_bind, Ret_ub_bind]

@[wp] theorem Ret_shr64_bind {a : U64} {k : Nat} {f : U64 → C β} {P : β → Prop} :
    Ret (shr64 a k >>= f) P ↔ k < 64 ∧ Ret (f (a >>> k)) P := by
  unfold shr64
  by_cases h : k < 64 <;> simp [h, Ret_pure_bind, Ret_ub_bind]

/-! ## Encoding -/

theorem mask64_getLsbD {B k : Nat} (hB : B < 64) :
    (((1 : U64) <<< B) - 1).getLsbD k = decide (k < B) := by
  have hp : (2 : Nat) ^ B < 2 ^ 64 := Nat.pow_lt_pow_right (by omega) hB
  have h1 : 0 < (2 : Nat) ^ B := Nat.two_pow_pos B
  have e : ((1 : U64) <<< B) - 1 = BitVec.ofNat 64 (2 ^ B - 1) := by
    apply BitVec.eq_of_toNat_eq
    rw [BitVec.toNat_sub, BitVec.toNat_shiftLeft, BitVec.toNat_ofNat]
    simp only [BitVec.toNat_ofNat, Nat.shiftLeft_eq]
    rw [show BitVec.toNat (1 : U64) = 1 by rfl, Nat.one_mul, Nat.mod_eq_of_lt hp,
      Nat.mod_eq_of_lt (a := 2 ^ B - 1) (by omega)]
    omega
  rw [e, BitVec.getLsbD_ofNat, Nat.testBit_two_pow_sub_one]
  by_cases h : k < B
  · simp [h]; omega
  · simp [h]

theorem frodo_key_encode_ret {P : Params} {out : List U16} {inp : List U8} (hD : P.logq ≤ 16)
    (hB : P.B ≤ P.logq) (hB8 : P.B ≤ 8) (h8 : 8 ∣ P.nbar * P.nbar)
    (ho : P.nbar * P.nbar ≤ out.length) (hi : P.B * (P.nbar * P.nbar) / 8 ≤ inp.length) :
    Ret (frodo_key_encode P out inp)
      (· = ofMat (encode P.logq P.B P.nbar P.nbar inp) ++ out.drop (P.nbar * P.nbar)) := by
  obtain ⟨m, hm⟩ := h8
  have hi : P.B * m ≤ inp.length := by
    rw [hm, show P.B * (8 * m) = P.B * m * 8 by ring, Nat.mul_div_cancel _ (by omega)] at hi
    exact hi
  generalize hg : ofMat (encode P.logq P.B P.nbar P.nbar inp) = g
  have hgl : g.length = 8 * m := by rw [← hg, length_ofMat, hm]
  have hgt : ∀ t, t < 8 * m → nth g t = BitVec.ofNat 16 (ec P.logq P.B (msgPart P.B inp t)) := by
    intro t ht
    have hn : 0 < P.nbar := by
      rcases Nat.eq_zero_or_pos P.nbar with h | h
      · rw [h] at hm; omega
      · exact h
    have e : t = t / P.nbar * P.nbar + t % P.nbar := by
      rw [Nat.mul_comm]; exact (Nat.div_add_mod _ _).symm
    have h1 : t / P.nbar < P.nbar := Nat.div_lt_of_lt_mul (by omega)
    have h2 : t % P.nbar < P.nbar := Nat.mod_lt _ hn
    rw [← hg]
    conv_lhs => rw [e]
    rw [nth_ofMat _ h1 h2]
    simp only [encode, Matrix.of_apply, ← e]
    rw [ZMod.val_natCast, Nat.mod_eq_of_lt (ec_lt hB (msgPart_lt _ _ _))]
  unfold frodo_key_encode
  rw [hm, Nat.mul_div_cancel_left _ (by omega)]
  simp only [wp]
  refine ⟨by omega, ?_⟩
  let J : Nat → List U16 → Prop := fun n o => o.length = out.length ∧
    (∀ t, t < n → nth o t = nth g t) ∧ ∀ t, n ≤ t → nth o t = nth out t
  refine Ret.bind (Q := fun s => J (8 * m) s.1) ?_ ?_
  · refine Ret.for1 (fun i s => s.2 = 8 * i ∧ J (8 * i) s.1)
      ⟨rfl, rfl, by intro t ht; omega, fun _ _ => rfl⟩ ?_ (fun s h => h.2)
    rintro i ⟨o, pos⟩ him ⟨hpos, hJ⟩
    simp only at hpos hJ
    have hiB : i * P.B + P.B ≤ inp.length := by
      have := Nat.mul_le_mul_left P.B (Nat.succ_le_of_lt him)
      rw [Nat.mul_succ] at this
      rw [Nat.mul_comm i]; omega
    refine Ret.bind (Q := fun temp : U64 => ∀ k, temp.getLsbD k =
      (decide (k < 8 * P.B) && mbit inp (8 * (i * P.B) + k))) ?_ ?_
    · refine Ret.for1 (fun j (temp : U64) => ∀ k, temp.getLsbD k =
        (decide (k < 8 * j) && mbit inp (8 * (i * P.B) + k))) (by intro k; simp) ?_ (fun _ h => h)
      intro j temp hj hI
      simp only [wp]
      refine ⟨by omega, by omega, ?_⟩
      intro k
      rw [BitVec.getLsbD_or, hI, BitVec.getLsbD_shiftLeft, BitVec.getLsbD_setWidth]
      by_cases h1 : k < 8 * j
      · have : k < 8 * (j + 1) := by omega
        simp [h1, this]
      · by_cases h2 : k < 8 * (j + 1)
        · have e1 : (8 * (i * P.B) + k) / 8 = i * P.B + j := by omega
          have e2 : (8 * (i * P.B) + k) % 8 = k - 8 * j := by omega
          have h3 : k < 64 := by omega
          have h4 : k - 8 * j < 64 := by omega
          simp [h1, h2, h3, h4, mbit, e1, e2]
        · have : (nth inp (i * P.B + j)).getLsbD (k - 8 * j) = false :=
            BitVec.getLsbD_of_ge _ _ (by omega)
          simp [h1, h2, this]
    · intro temp htemp
      refine Ret.bind (Q := fun s => s.2.2 = 8 * (i + 1) ∧ J (8 * (i + 1)) s.1) ?_ ?_
      · refine Ret.for1 (fun j s => s.2.2 = 8 * i + j ∧ J (8 * i + j) s.1 ∧
          ∀ k, s.2.1.getLsbD k = (decide (k + j * P.B < 8 * P.B) &&
            mbit inp (8 * (i * P.B) + j * P.B + k))) ⟨hpos, hJ, by simpa using htemp⟩ ?_ ?_
        · rintro j ⟨o, tp, pos⟩ hj ⟨hpos, hJ, htp⟩
          simp only at hpos hJ htp
          have hl : pos < o.length := by rw [hJ.1]; omega
          have hjB : j * P.B + P.B ≤ 8 * P.B := by
            have := Nat.mul_le_mul_right P.B (Nat.succ_le_of_lt hj)
            rw [Nat.succ_mul] at this; exact this
          simp only [wp]
          refine ⟨hB, by omega, hl, by omega, by omega, ⟨?_, ?_, ?_⟩, ?_⟩
          · rw [List.length_set]; exact hJ.1
          · intro t ht
            by_cases he : t = pos
            · subst he
              rw [nth_set_eq hl, hgt _ (by omega), ec_eq hB]
              apply BitVec.eq_of_getLsbD_eq
              intro k hk
              rw [BitVec.getLsbD_setWidth, BitVec.getLsbD_shiftLeft, BitVec.getLsbD_and,
                mask64_getLsbD (by omega), htp, BitVec.getLsbD_ofNat, Nat.testBit_mul_two_pow,
                msgPart_testBit, hpos,
                show (8 * i + j) * P.B = 8 * (i * P.B) + j * P.B by ring]
              have h64 : k < 64 := by omega
              by_cases h1 : k < P.logq - P.B
              · have : ¬ (P.logq - P.B ≤ k) := by omega
                simp [h1, this]
              · by_cases h2 : k - (P.logq - P.B) < P.B
                · have h3 : k - (P.logq - P.B) + j * P.B < 8 * P.B := by omega
                  have h4 : P.logq - P.B ≤ k := by omega
                  simp only [hk, h64, h1, h2, h3, h4]
                  simp
                · simp [h2]
            · rw [nth_set_ne (Ne.symm he)]; exact hJ.2.1 t (by omega)
          · intro t ht
            rw [nth_set_ne (by omega)]; exact hJ.2.2 t (by omega)
          · intro k
            rw [BitVec.getLsbD_ushiftRight, htp,
              show P.B + k + j * P.B = k + (j + 1) * P.B by ring,
              show 8 * (i * P.B) + j * P.B + (P.B + k) = 8 * (i * P.B) + (j + 1) * P.B + k by ring]
        · rintro ⟨o, tp, pos⟩ ⟨hpos, hJ, _⟩
          exact ⟨hpos, hJ⟩
      · rintro ⟨o, tp, pos⟩ ⟨hpos, hJ⟩
        simp only [wp]
        exact ⟨hpos, hJ⟩
  · rintro ⟨o, pos⟩ hJ
    simp only at hJ
    simp only [wp]
    apply ext_nth
    · simp [hJ.1, hgl]; omega
    · intro t _
      rw [nth_append, hgl, nth_drop]
      split
      · exact hJ.2.1 t (by assumption)
      · rw [hJ.2.2 t (by omega)]; congr 1; omega

/-! ## Decoding -/

theorem inInt_nat {n : Nat} (h : n < 2 ^ 31) : inInt (n : Int) := ⟨by omega, by omega⟩

theorem decode_bits {D m n B : Nat} (K : Matrix (Fin m) (Fin n) (ZMod (2 ^ D))) {i j l : Nat}
    (hi : i < m) (hj : j < n) (hl : l < B) :
    nth ((List.finRange m).flatMap fun i => (List.finRange n).flatMap fun j =>
      (List.range B).map fun l => (dc D B (K i j).val).testBit l) ((i * n + j) * B + l) =
    (dc D B (K ⟨i, hi⟩ ⟨j, hj⟩).val).testBit l := by
  have : Inhabited (Fin m) := ⟨⟨i, hi⟩⟩
  have : Inhabited (Fin n) := ⟨⟨j, hj⟩⟩
  rw [show (i * n + j) * B + l = i * (n * B) + (j * B + l) by ring,
    nth_flatMap_const _ _ (n * B) _ i _ (by simpa using hi) (idx_lt hj hl),
    nth_flatMap_const _ _ B (by simp) j l (by simpa using hj) hl, nth_range_map, if_pos hl,
    nth_eq_getElem (by simpa using hi), nth_eq_getElem (by simpa using hj)]
  · simp
  · intro a _
    rw [length_flatMap_const _ _ B (by simp)]; simp

theorem length_decode {D m n B : Nat} (K : Matrix (Fin m) (Fin n) (ZMod (2 ^ D))) :
    (decode B K).length = B * (m * n) / 8 := by
  simp [decode, bitsToBytes]

theorem decode_getLsbD {D m n B : Nat} (K : Matrix (Fin m) (Fin n) (ZMod (2 ^ D))) {y b : Nat}
    (hy : y < B * (m * n) / 8) (hb : b < 8) :
    ∃ (i : Fin m) (j : Fin n), i.val * n + j.val = (8 * y + b) / B ∧
      (nth (decode B K) y).getLsbD b = (dc D B (K i j).val).testBit ((8 * y + b) % B) := by
  have hlt : 8 * y + b < m * n * B := by rw [Nat.mul_comm (m * n)]; omega
  have hB0 : 0 < B := by
    rcases Nat.eq_zero_or_pos B with h | h
    · subst h; omega
    · exact h
  have ht : (8 * y + b) / B < m * n := by
    rw [Nat.div_lt_iff_lt_mul hB0]; exact hlt
  have hn : 0 < n := by
    rcases Nat.eq_zero_or_pos n with h | h
    · subst h; simp at ht
    · exact h
  have hi : (8 * y + b) / B / n < m := by
    rw [Nat.div_lt_iff_lt_mul hn]; exact ht
  have hj : (8 * y + b) / B % n < n := Nat.mod_lt _ hn
  have e : (8 * y + b) / B / n * n + (8 * y + b) / B % n = (8 * y + b) / B := by
    rw [Nat.mul_comm]; exact Nat.div_add_mod _ _
  refine ⟨⟨_, hi⟩, ⟨_, hj⟩, e, ?_⟩
  have e2 : (8 * y + b) / B * B + (8 * y + b) % B = 8 * y + b := by
    rw [Nat.mul_comm]; exact Nat.div_add_mod _ _
  unfold decode bitsToBytes
  rw [nth_range_map, if_pos hy, byteOfBits_getLsbD _ _ hb]
  have h2 := decode_bits (B := B) K hi hj (Nat.mod_lt (8 * y + b) hB0)
  rw [e, e2] at h2
  rw [← h2]
  simp [nth, List.getD]

theorem frodo_key_decode_ret {P : Params} {out : List U8} {inp : List U16} (hD : P.logq ≤ 16)
    (hB : P.B < P.logq) (hB8 : P.B ≤ 8) (h8 : 8 ∣ P.nbar * P.nbar)
    (ho : P.B * (P.nbar * P.nbar) / 8 ≤ out.length) (hi : P.nbar * P.nbar ≤ inp.length) :
    Ret (frodo_key_decode P out inp)
      (· = decode P.B (toMat P.logq P.nbar P.nbar inp)
        ++ out.drop (P.B * (P.nbar * P.nbar) / 8)) := by
  obtain ⟨m, hm⟩ := h8
  have hbm : P.B * (P.nbar * P.nbar) / 8 = P.B * m := by
    rw [hm, show P.B * (8 * m) = P.B * m * 8 by ring, Nat.mul_div_cancel _ (by omega)]
  rw [hbm] at ho ⊢
  generalize hg : decode P.B (toMat P.logq P.nbar P.nbar inp) = g
  have hgl : g.length = P.B * m := by rw [← hg, length_decode, hbm]
  let dv : Nat → Nat := fun t => dc P.logq P.B ((nth inp t).toNat % 2 ^ P.logq)
  have hgt : ∀ y b, y < P.B * m → b < 8 →
      (nth g y).getLsbD b = (dv ((8 * y + b) / P.B)).testBit ((8 * y + b) % P.B) := by
    intro y b hy hb
    obtain ⟨i, j, e1, e2⟩ := decode_getLsbD (B := P.B) (toMat P.logq P.nbar P.nbar inp)
      (y := y) (by rw [hbm]; exact hy) hb
    rw [← hg, e2, toMat_apply, e1]
    simp only [dv, zq, ZMod.val_natCast]
  have hp : (2 : Nat) ^ P.logq ≤ 2 ^ 16 := Nat.pow_le_pow_right (by omega) hD
  have hpB : (2 : Nat) ^ P.B ≤ 2 ^ 8 := Nat.pow_le_pow_right (by omega) hB8
  have hp0 := Nat.two_pow_pos P.logq
  have hpB0 := Nat.two_pow_pos P.B
  have hmask : ∀ d : Nat, d ≤ 16 → (u16 ((1 : Int) * 2 ^ (d : Int).toNat - 1)).toNat = 2 ^ d - 1 := by
    intro d hd
    have h1 : (2 : Nat) ^ d ≤ 2 ^ 16 := Nat.pow_le_pow_right (by omega) hd
    have h2 := Nat.two_pow_pos d
    have e2 : ((1 : Int) * 2 ^ (d : Int).toNat - 1) = ((2 ^ d - 1 : Nat) : Int) := by
      rw [Int.one_mul, Int.toNat_natCast, Int.natCast_sub (Nat.one_le_two_pow)]
      simp
    rw [e2, u16_natCast, BitVec.toNat_ofNat, Nat.mod_eq_of_lt (by omega)]
  have hin : ∀ d : Nat, d ≤ 16 → inInt (1 * 2 ^ (d : Int).toNat) := by
    intro d hd
    have h1 : (2 : Nat) ^ d ≤ 2 ^ 16 := Nat.pow_le_pow_right (by omega) hd
    have h2 : (2 : Int) ^ d ≤ 2 ^ 16 := by exact_mod_cast h1
    have h3 : (0 : Int) < 2 ^ d := by positivity
    rw [Int.toNat_natCast, Int.one_mul]
    exact ⟨by omega, by norm_num at h2; omega⟩
  unfold frodo_key_decode
  rw [hm, Nat.mul_div_cancel_left _ (by omega)]
  simp only [wp]
  refine ⟨⟨by omega, by omega⟩, by omega, hin _ (by omega), ⟨by omega, by omega⟩, by omega,
    hin _ hD, ?_⟩
  let J : Nat → List U8 → Prop := fun n o => o.length = out.length ∧
    (∀ t, t < n → nth o t = nth g t) ∧ ∀ t, n ≤ t → nth o t = nth out t
  refine Ret.bind (Q := fun s => J (m * P.B) s.1) ?_ ?_
  · refine Ret.for1 (fun i s => s.2 = 8 * i ∧ J (i * P.B) s.1)
      ⟨rfl, rfl, by intro t ht; omega, fun _ _ => rfl⟩ ?_ (fun s h => h.2)
    rintro i ⟨o, index⟩ him ⟨hpos, hJ⟩
    simp only at hpos hJ
    have hiB : i * P.B + P.B ≤ P.B * m := by
      have := Nat.mul_le_mul_left P.B (Nat.succ_le_of_lt him)
      rw [Nat.mul_succ] at this
      rw [Nat.mul_comm i]; omega
    refine Ret.bind (Q := fun s => s.2 = 8 * (i + 1) ∧ ∀ k, s.1.getLsbD k =
      (decide (k < 8 * P.B) && (dv (8 * i + k / P.B)).testBit (k % P.B))) ?_ ?_
    · refine Ret.for1 (fun j s => s.2 = 8 * i + j ∧ ∀ k, s.1.getLsbD k =
        (decide (k < j * P.B) && (dv (8 * i + k / P.B)).testBit (k % P.B)))
        ⟨hpos, by intro k; simp⟩ ?_ (fun _ h => h)
      rintro j ⟨tl, index⟩ hj ⟨hpos, htl⟩
      simp only at hpos htl
      have hjB : j * P.B + P.B ≤ 8 * P.B := by
        have := Nat.mul_le_mul_right P.B (Nat.succ_le_of_lt hj)
        rw [Nat.succ_mul] at this; exact this
      have hhalf : ((P.logq : Int) - P.B - 1) = ((P.logq - P.B - 1 : Nat) : Int) := by omega
      have hdb : ((P.logq : Int) - P.B) = ((P.logq - P.B : Nat) : Int) := by omega
      have hx := (nth inp index).isLt
      have hand : iand ((nth inp index).toNat : Int) ((2 ^ P.logq - 1 : Nat) : Int) =
          (((nth inp index).toNat % 2 ^ P.logq : Nat) : Int) := by
        rw [iand_nat (by omega) (by omega), Nat.and_two_pow_sub_one_eq_mod]
      have hxm : (nth inp index).toNat % 2 ^ P.logq < 2 ^ P.logq := Nat.mod_lt _ hp0
      have hph : (2 : Nat) ^ (P.logq - P.B - 1) ≤ 2 ^ 15 := Nat.pow_le_pow_right (by omega) (by omega)
      have hsum : (((nth inp index).toNat % 2 ^ P.logq : Nat) : Int) +
          1 * 2 ^ ((P.logq - P.B - 1 : Nat) : Int).toNat =
          (((nth inp index).toNat % 2 ^ P.logq + 2 ^ (P.logq - P.B - 1) : Nat) : Int) := by
        rw [Int.toNat_natCast]; push_cast; ring
      have hdiv : (((nth inp index).toNat % 2 ^ P.logq + 2 ^ (P.logq - P.B - 1) : Nat) : Int) /
          2 ^ ((P.logq - P.B : Nat) : Int).toNat =
          ((((nth inp index).toNat % 2 ^ P.logq + 2 ^ (P.logq - P.B - 1)) /
            2 ^ (P.logq - P.B) : Nat) : Int) := by
        rw [Int.toNat_natCast]; push_cast; rfl
      simp only [wp, hmask _ hD]
      rw [hhalf, hdb, hand, hsum, hdiv]
      refine ⟨by omega, ⟨by omega, by omega⟩, by omega, hin _ (by omega), inInt_nat (by omega),
        ⟨by omega, by omega⟩, ?_, by omega, ?_⟩
      · rw [Nat.mul_comm]; omega
      · intro k
        have hq : ((nth inp index).toNat % 2 ^ P.logq + 2 ^ (P.logq - P.B - 1)) /
            2 ^ (P.logq - P.B) < 2 ^ 16 := by
          rw [Nat.div_lt_iff_lt_mul (Nat.two_pow_pos _)]
          have : 2 ^ 1 ≤ 2 ^ (P.logq - P.B) := Nat.pow_le_pow_right (by omega) (by omega)
          omega
        have hv : (u16 ((((nth inp index).toNat % 2 ^ P.logq + 2 ^ (P.logq - P.B - 1)) /
            2 ^ (P.logq - P.B) : Nat) : Int) &&& u16 (1 * 2 ^ (P.B : Int).toNat - 1)).toNat =
            dv (8 * i + j) := by
          rw [BitVec.toNat_and, hmask _ (by omega), u16_natCast, BitVec.toNat_ofNat,
            Nat.mod_eq_of_lt hq, Nat.and_two_pow_sub_one_eq_mod, ← dc_eq hB, hpos]
        have hvb : ∀ k, (u16 ((((nth inp index).toNat % 2 ^ P.logq + 2 ^ (P.logq - P.B - 1)) /
            2 ^ (P.logq - P.B) : Nat) : Int) &&& u16 (1 * 2 ^ (P.B : Int).toNat - 1)).getLsbD k =
            (dv (8 * i + j)).testBit k := by
          intro k; rw [← hv, BitVec.testBit_toNat]
        rw [BitVec.getLsbD_or, htl, BitVec.getLsbD_shiftLeft, BitVec.getLsbD_setWidth, hvb,
          Nat.mul_comm P.B j, show (j + 1) * P.B = j * P.B + P.B from Nat.succ_mul _ _]
        by_cases h1 : k < j * P.B
        · have : k < j * P.B + P.B := by omega
          simp [h1, this]
        · by_cases h2 : k < j * P.B + P.B
          · have h3 : k < 64 := by omega
            have h4 : k - j * P.B < 64 := by omega
            have hB0 : 0 < P.B := by omega
            obtain ⟨r, rfl⟩ : ∃ r, k = P.B * j + r :=
              ⟨k - P.B * j, by rw [Nat.mul_comm P.B]; omega⟩
            have hr : r < P.B := by rw [Nat.mul_comm P.B] at h2; omega
            rw [Nat.mul_add_div hB0, Nat.mul_add_mod, Nat.div_eq_of_lt hr, Nat.mod_eq_of_lt hr]
            have e3 : P.B * j + r - j * P.B = r := by rw [Nat.mul_comm P.B]; omega
            rw [e3] at h4 ⊢
            simp [h1, h2, h3, h4]
          · have : (dv (8 * i + j)).testBit (k - j * P.B) = false :=
              Nat.testBit_lt_two_pow (Nat.lt_of_lt_of_le (dc_lt _ _ _)
                (Nat.pow_le_pow_right (by omega) (by omega)))
            simp [h1, h2, this]
    · rintro ⟨tl, index⟩ ⟨hpos, htl⟩
      simp only at hpos htl
      refine Ret.bind (Q := fun o => J ((i + 1) * P.B) o) ?_ ?_
      · refine Ret.for1 (fun j o => J (i * P.B + j) o) hJ ?_ ?_
        · intro j o hj hJ
          simp only [wp]
          refine ⟨by omega, by rw [hJ.1]; omega, ?_, ?_, ?_⟩
          · rw [List.length_set]; exact hJ.1
          · intro t ht
            by_cases he : t = i * P.B + j
            · subst he
              rw [nth_set_eq (by rw [hJ.1]; omega)]
              apply BitVec.eq_of_getLsbD_eq
              intro b hb
              have h255 : (0xFF : U64).getLsbD b = true := by
                have : ∀ b : Fin 8, (0xFF : U64).getLsbD b = true := by decide
                exact this ⟨b, hb⟩
              have hB0 : 0 < P.B := by omega
              rw [hgt _ b (by omega) hb, BitVec.getLsbD_setWidth, BitVec.getLsbD_and, h255,
                BitVec.getLsbD_ushiftRight, htl,
                show 8 * (i * P.B + j) + b = P.B * (8 * i) + (8 * j + b) by ring,
                Nat.mul_add_div hB0, Nat.mul_add_mod]
              have : 8 * j + b < 8 * P.B := by omega
              simp [hb, this]
            · rw [nth_set_ne (Ne.symm he)]; exact hJ.2.1 t (by omega)
          · intro t ht
            rw [nth_set_ne (by omega)]; exact hJ.2.2 t (by omega)
        · intro o hJ; rw [Nat.succ_mul]; exact hJ
      · intro o hJ
        simp only [wp]
        exact ⟨hpos, hJ⟩
  · rintro ⟨o, index⟩ hJ
    simp only at hJ
    rw [Nat.mul_comm] at hJ
    simp only [wp]
    apply ext_nth
    · simp [hJ.1, hgl]; omega
    · intro t _
      rw [nth_append, hgl, nth_drop]
      split
      · exact hJ.2.1 t (by assumption)
      · rw [hJ.2.2 t (by omega)]; congr 1; omega

/-! ## Error tolerance -/

theorem dc_ec_iff {D B k : Nat} (h : B < D) (hk : k < 2 ^ B) (z : ZMod (2 ^ D)) :
    dc D B ((ec D B k : ZMod (2 ^ D)) + z).val = k ↔ tolerable D B z := by
  obtain ⟨d, rfl⟩ : ∃ d, D = B + (d + 1) := ⟨D - B - 1, by omega⟩
  rw [dc_eq h, ec_eq (by omega)]
  rw [show B + (d + 1) - B - 1 = d by omega, show B + (d + 1) - B = d + 1 by omega]
  have hpos : 0 < 2 ^ (d + 1) := Nat.two_pow_pos _
  have hBp : 0 < 2 ^ B := Nat.two_pow_pos _
  have hdp : 0 < 2 ^ d := Nat.two_pow_pos _
  have hs : 2 ^ (d + 1) = 2 * 2 ^ d := by rw [Nat.pow_succ, Nat.mul_comm]
  have hq : 2 ^ (B + (d + 1)) = 2 ^ (d + 1) * 2 ^ B := by rw [Nat.pow_add, Nat.mul_comm]
  have hv := ZMod.val_lt z
  have e1 : (((k * 2 ^ (d + 1) : Nat) : ZMod (2 ^ (B + (d + 1)))) + z).val =
      (k * 2 ^ (d + 1) + z.val) % 2 ^ (B + (d + 1)) := by
    conv_lhs => rw [← ZMod.natCast_zmod_val z, ← Nat.cast_add, ZMod.val_natCast]
  rw [e1]
  have e2 : ((k * 2 ^ (d + 1) + z.val) % 2 ^ (B + (d + 1)) + 2 ^ d) / 2 ^ (d + 1) % 2 ^ B =
      (k + (z.val + 2 ^ d) / 2 ^ (d + 1)) % 2 ^ B := by
    have h1 := Nat.div_add_mod (k * 2 ^ (d + 1) + z.val) (2 ^ (B + (d + 1)))
    generalize (k * 2 ^ (d + 1) + z.val) / 2 ^ (B + (d + 1)) = t at h1
    generalize (k * 2 ^ (d + 1) + z.val) % 2 ^ (B + (d + 1)) = r at h1 ⊢
    have h2 : 2 ^ (d + 1) * (2 ^ B * t) + (r + 2 ^ d) = 2 ^ (d + 1) * k + (z.val + 2 ^ d) := by
      have h1' : 2 ^ (d + 1) * (2 ^ B * t) + r = k * 2 ^ (d + 1) + z.val := by
        rw [← Nat.mul_assoc, ← hq]; exact h1
      rw [Nat.mul_comm _ k]; omega
    have h3 := congrArg (fun x => x / 2 ^ (d + 1) % 2 ^ B) h2
    simp only [Nat.mul_add_div hpos] at h3
    rw [Nat.mul_add_mod] at h3
    exact h3
  rw [e2]
  have hw : (z.val + 2 ^ d) / 2 ^ (d + 1) ≤ 2 ^ B := by
    have : z.val + 2 ^ d < 2 ^ (d + 1) * (2 ^ B + 1) := by rw [Nat.mul_add]; omega
    have := (Nat.div_lt_iff_lt_mul hpos).2 (by rw [Nat.mul_comm] at this; exact this)
    omega
  have e3 : (k + (z.val + 2 ^ d) / 2 ^ (d + 1)) % 2 ^ B = k ↔
      z.val < 2 ^ d ∨ 2 ^ (B + (d + 1)) ≤ z.val + 2 ^ d := by
    constructor
    · intro h4
      rcases Nat.lt_or_ge (z.val + 2 ^ d) (2 ^ (d + 1)) with h5 | h5
      · left; omega
      · right
        have h6 : 1 ≤ (z.val + 2 ^ d) / 2 ^ (d + 1) := (Nat.one_le_div_iff hpos).2 h5
        generalize hwd : (z.val + 2 ^ d) / 2 ^ (d + 1) = w at *
        have h7 : w = 2 ^ B := by
          rcases Nat.lt_or_ge (k + w) (2 ^ B) with h8 | h8
          · rw [Nat.mod_eq_of_lt h8] at h4; omega
          · rw [Nat.mod_eq_sub_mod h8, Nat.mod_eq_of_lt (by omega)] at h4; omega
        have h8 := Nat.div_mul_le_self (z.val + 2 ^ d) (2 ^ (d + 1))
        rw [hwd, h7, Nat.mul_comm, ← hq] at h8
        exact h8
    · rintro (h4 | h4)
      · rw [Nat.div_eq_of_lt (by omega), Nat.add_zero, Nat.mod_eq_of_lt hk]
      · have : (z.val + 2 ^ d) / 2 ^ (d + 1) = 2 ^ B := by
          apply Nat.le_antisymm hw
          rw [Nat.le_div_iff_mul_le hpos, Nat.mul_comm, ← hq]; exact h4
        rw [this, Nat.add_mod_right, Nat.mod_eq_of_lt hk]
  rw [e3]
  have hz : ((z.val : Int) : ZMod (2 ^ (B + (d + 1)))) = z := by
    rw [Int.cast_natCast, ZMod.natCast_zmod_val]
  have f1 : (2 : Int) ^ (B + (d + 1)) = 2 ^ (B + 1) * 2 ^ d := by
    rw [← pow_add]; congr 1; omega
  have f2 : (0 : Int) < 2 ^ (B + 1) := by positivity
  have f3 : (((2 ^ (B + (d + 1)) : Nat)) : Int) = 2 ^ (B + (d + 1)) := by push_cast; rfl
  have f4 : (((2 ^ d : Nat)) : Int) = 2 ^ d := by push_cast; rfl
  have hsm : ∀ e : Int, (-(2 ^ (B + (d + 1)) : Int) ≤ 2 ^ (B + 1) * e ∧
      2 ^ (B + 1) * e < 2 ^ (B + (d + 1))) ↔ (-(2 ^ d) ≤ e ∧ e < 2 ^ d) := by
    intro e
    rw [f1]
    constructor
    · rintro ⟨h1, h2⟩
      exact ⟨by
        rw [← mul_neg] at h1; exact le_of_mul_le_mul_left h1 f2, lt_of_mul_lt_mul_left h2 f2.le⟩
    · rintro ⟨h1, h2⟩
      exact ⟨by rw [← mul_neg]; exact mul_le_mul_of_nonneg_left h1 f2.le,
        mul_lt_mul_of_pos_left h2 f2⟩
  constructor
  · rintro (h1 | h1)
    · have : (0 : Int) ≤ 2 ^ d := by positivity
      refine ⟨z.val, ?_⟩
      rw [← and_assoc]
      exact ⟨(hsm _).2 ⟨by omega, by omega⟩, hz⟩
    · refine ⟨(z.val : Int) - 2 ^ (B + (d + 1)), ?_⟩
      rw [← and_assoc]
      refine ⟨(hsm _).2 ⟨by omega, by omega⟩, ?_⟩
      rw [Int.cast_sub, hz, ← f3, Int.cast_natCast, ZMod.natCast_self, sub_zero]
  · rintro ⟨e, h1, h2, h3⟩
    obtain ⟨h4, h5⟩ := (hsm e).1 ⟨h1, h2⟩
    have h6 := ZMod.val_intCast (n := 2 ^ (B + (d + 1))) e
    rw [h3, f3] at h6
    have hdq : (2 : Int) ^ d < 2 ^ (B + (d + 1)) := pow_lt_pow_right₀ (by omega) (by omega)
    rcases lt_or_ge e 0 with h7 | h7
    · right
      have : e % 2 ^ (B + (d + 1)) = e + 2 ^ (B + (d + 1)) := by
        rw [← Int.add_emod_right, Int.emod_eq_of_lt (by omega) (by omega)]
      omega
    · left
      rw [Int.emod_eq_of_lt h7 (by omega)] at h6
      omega

theorem decode_eq_iff {D m n B : Nat} (hB0 : 0 < B) (h8 : 8 ∣ m * n)
    (K : Matrix (Fin m) (Fin n) (ZMod (2 ^ D))) (mu : List U8)
    (hmu : mu.length = B * (m * n) / 8) :
    decode B K = mu ↔ ∀ i j, dc D B (K i j).val = msgPart B mu (i * n + j) := by
  obtain ⟨u, hu⟩ := h8
  have hbm : B * (m * n) / 8 = B * u := by
    rw [hu, show B * (8 * u) = B * u * 8 by ring, Nat.mul_div_cancel _ (by omega)]
  constructor
  · intro h i j
    apply Nat.eq_of_testBit_eq
    intro k
    rw [msgPart_testBit]
    by_cases hk : k < B
    · have hlt : (i.val * n + j.val) * B + k < B * u * 8 := by
        have h1 := idx_lt (idx_lt i.isLt j.isLt) hk
        rw [hu, show 8 * u * B = B * u * 8 by ring] at h1
        exact h1
      obtain ⟨i', j', e1, e2⟩ := decode_getLsbD (B := B) K
        (y := ((i.val * n + j.val) * B + k) / 8) (b := ((i.val * n + j.val) * B + k) % 8)
        (by rw [hbm]; omega) (Nat.mod_lt _ (by omega))
      rw [Nat.div_add_mod, Nat.mul_comm _ B, Nat.mul_add_div hB0, Nat.div_eq_of_lt hk,
        Nat.add_zero] at e1
      rw [Nat.div_add_mod, Nat.mul_comm _ B, Nat.mul_add_mod, Nat.mod_eq_of_lt hk] at e2
      have hij : i' = i ∧ j' = j := by
        have hn : 0 < n := by have := j.isLt; omega
        have h1 := congrArg (· / n) e1
        have h2 := congrArg (· % n) e1
        simp only [Nat.mul_comm _ n, Nat.mul_add_div hn, Nat.mul_add_mod,
          Nat.div_eq_of_lt j.isLt, Nat.div_eq_of_lt j'.isLt, Nat.mod_eq_of_lt j.isLt,
          Nat.mod_eq_of_lt j'.isLt] at h1 h2
        exact ⟨Fin.ext (by omega), Fin.ext h2⟩
      obtain ⟨rfl, rfl⟩ := hij
      rw [← e2, h]
      simp [hk, mbit, Nat.mul_comm B]
    · rw [Nat.testBit_lt_two_pow (Nat.lt_of_lt_of_le (dc_lt _ _ _)
        (Nat.pow_le_pow_right (by omega) (by omega)))]
      simp [hk]
  · intro h
    apply ext_nth
    · rw [length_decode, hmu]
    · intro y hy
      rw [length_decode] at hy
      apply BitVec.eq_of_getLsbD_eq
      intro b hb
      obtain ⟨i, j, e1, e2⟩ := decode_getLsbD (B := B) K hy hb
      rw [e2, h, msgPart_testBit, e1, Nat.mul_comm _ B, Nat.div_add_mod]
      have : (8 * y + b) % B < B := Nat.mod_lt _ hB0
      simp only [this, decide_true, Bool.true_and, mbit]
      congr 2 <;> omega

theorem decode_encode_iff {D m n B : Nat} (hB0 : 0 < B) (hB : B < D) (h8 : 8 ∣ m * n)
    (E : Matrix (Fin m) (Fin n) (ZMod (2 ^ D))) (mu : List U8)
    (hmu : mu.length = B * (m * n) / 8) :
    decode B (encode D B m n mu + E) = mu ↔ ∀ i j, tolerable D B (E i j) := by
  rw [decode_eq_iff hB0 h8 _ _ hmu]
  refine forall_congr' fun i => forall_congr' fun j => ?_
  rw [Matrix.add_apply]
  exact dc_ec_iff hB (msgPart_lt _ _ _) _

end Frodo
