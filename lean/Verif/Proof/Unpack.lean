import Verif.Proof.Pack

namespace Frodo

open Spec

/-- The stream bit at position `t`. -/
def ubit (inlen : Nat) (inp : List U8) (t : Nat) : Bool :=
  (stream8 (inp.take inlen)).getD t false

theorem ubit_of_ge {inlen : Nat} {inp : List U8} {t : Nat} (h : 8 * inlen ≤ t) :
    ubit inlen inp t = false := by
  unfold ubit stream8
  apply List.getD_eq_default
  rw [length_flatMap_bitsOf]
  refine Nat.le_trans (Nat.mul_le_mul_left _ ?_) h
  simp; omega

theorem ubit_elem {inlen : Nat} {inp : List U8} {j l : Nat} (hl : l < 8) (hj : j < inlen)
    (hin : inlen ≤ inp.length) :
    ubit inlen inp (8 * j + l) = (nth inp j).toNat.testBit (7 - l) := by
  unfold ubit stream8
  rw [getD_flatMap _ _ _ _ _ hl, nth_take, if_pos hj]
  simp; omega

/-- Invariant of both loops of `frodo_unpack`. -/
structure UnpackInv (inp : List U8) (inlen lsb outlen : Nat) (out0 : List U16) (s : UnpackSt) :
    Prop where
  len : s.out.length = out0.length
  j_le : s.j ≤ inlen
  bits_le : s.bits ≤ 8
  bits_le' : s.bits ≤ 8 * s.j
  W : ∀ k, k < s.bits → s.w.toNat.testBit k = ubit inlen inp (8 * s.j - 1 - k)
  A : ∀ i, i < outlen → ∀ k, (nth s.out i).toNat.testBit k =
    (decide (k < lsb) && (decide (lsb * i + (lsb - 1 - k) < 8 * s.j - s.bits) &&
      ubit inlen inp (lsb * i + (lsb - 1 - k))))
  T : ∀ i, outlen ≤ i → nth s.out i = nth out0 i

/-- Extra facts inside the inner loop. -/
structure UnpackIn (inp : List U8) (inlen lsb outlen : Nat) (out0 : List U16) (i0 : Nat)
    (s : UnpackSt) : Prop extends UnpackInv inp inlen lsb outlen out0 s where
  i_eq : s.i = i0
  pos : lsb * i0 + s.b = 8 * s.j - s.bits
  b_le : s.b ≤ lsb
  brk : s.brk = true → s.j = inlen ∧ s.bits = 0

theorem unpackInner_ret {inp : List U8} {inlen lsb outlen : Nat} {out0 : List U16} {i0 : Nat}
    {s : UnpackSt} (h16 : lsb ≤ 16) (hin : inlen ≤ inp.length)
    (hout : outlen ≤ out0.length) (hi : i0 < outlen)
    (hs : UnpackIn inp inlen lsb outlen out0 i0 s) (hb : s.b < lsb) (hbrk : s.brk = false) :
    Ret (unpackInner inp inlen lsb s) (fun s' => UnpackIn inp inlen lsb outlen out0 i0 s' ∧
      (if s'.brk then 0 else 1 + 2 * (lsb - s'.b) + (if s'.bits = 0 then 1 else 0)) <
        1 + 2 * (lsb - s.b) + (if s.bits = 0 then 1 else 0)) := by
  obtain ⟨nb, hnb⟩ : ∃ nb : Nat, nb = min (lsb - s.b) s.bits := ⟨_, rfl⟩
  have hnbits : (if decide ((lsb : Int) - s.b < s.bits) then (pure ((lsb : Int) - s.b) : C Int)
      else pure (s.bits : Int)) = pure (nb : Int) := by
    by_cases h : (lsb : Int) - s.b < s.bits
    · rw [if_pos (by simpa using h)]; congr 1; omega
    · rw [if_neg (by simpa using h)]; congr 1; omega
  have hbl := hs.bits_le
  have hnb8 : nb ≤ 8 := by omega
  have hnbb : nb ≤ s.bits := by omega
  have hp8 : 2 ^ nb ≤ 2 ^ 8 := Nat.pow_le_pow_right (by omega) hnb8
  have hp1 : 1 ≤ 2 ^ nb := Nat.one_le_two_pow
  have hw : s.w.toNat < 2 ^ 16 := by have := s.w.isLt; omega
  have hlen := hs.len
  have hie := hs.i_eq
  have ht : s.w.toNat / 2 ^ (s.bits - nb) % 2 ^ nb < 2 ^ nb := Nat.mod_lt _ (by omega)
  have hto : (BitVec.ofNat 8 (s.w.toNat / 2 ^ (s.bits - nb) % 2 ^ nb)).toNat =
      s.w.toNat / 2 ^ (s.bits - nb) % 2 ^ nb := by
    rw [BitVec.toNat_ofNat, Nat.mod_eq_of_lt]; omega
  generalize htt : s.w.toNat / 2 ^ (s.bits - nb) % 2 ^ nb = t at *
  have ho : ∀ k, k < lsb - s.b → (nth s.out i0).toNat.testBit k = false := by
    intro k hk
    rw [hs.A i0 hi k]
    have := hs.pos
    have : ¬ (lsb * i0 + (lsb - 1 - k) < 8 * s.j - s.bits) := by omega
    simp [this]
  have hfb := fill_bound (m := 16) (show nb ≤ lsb - s.b by omega) ht (by omega) ho
    (nth s.out i0).isLt
  have hfl := fill_lt (show nb ≤ lsb - s.b by omega) ht
  have hfl8 : 2 ^ (lsb - s.b) ≤ 2 ^ 16 := Nat.pow_le_pow_right (by omega) (by omega)
  have hmask : (u16 (1 * 2 ^ (nb : Int).toNat - 1)).toNat = 2 ^ nb - 1 := by
    have e2 : ((1 : Int) * 2 ^ (nb : Int).toNat - 1) = ((2 ^ nb - 1 : Nat) : Int) := by
      rw [Int.one_mul, Int.toNat_natCast, Int.natCast_sub (Nat.one_le_two_pow)]
      simp
    rw [e2, u16_natCast, BitVec.toNat_ofNat, Nat.mod_eq_of_lt (by omega)]
  have hbits' : (u8 ((s.bits : Int) - nb)).toNat = s.bits - nb := by
    rw [show (s.bits : Int) - nb = ((s.bits - nb : Nat) : Int) by omega, u8_natCast,
      BitVec.toNat_ofNat, Nat.mod_eq_of_lt (by omega)]
  have hb' : (u8 ((s.b : Int) + nb)).toNat = s.b + nb := by
    rw [show (s.b : Int) + nb = ((s.b + nb : Nat) : Int) by omega, u8_natCast,
      BitVec.toNat_ofNat, Nat.mod_eq_of_lt (by omega)]
  have hmb : (2 ^ nb - 1) * 2 ^ (s.bits - nb) < 2 ^ 16 := by
    have := fill_lt hnbb (show 2 ^ nb - 1 < 2 ^ nb by omega)
    have : 2 ^ s.bits ≤ 2 ^ 16 := Nat.pow_le_pow_right (by omega) (by omega)
    omega
  unfold unpackInner
  refine Ret.bind_eq (v := (nb : Int)) (by rw [Ret_ifC, hnbits, Ret_pure]) ?_
  simp only [wp]
  have e8 : ((lsb : Int) - (s.b : Int) - nb).toNat = lsb - s.b - nb := by omega
  have evt : ((t : Nat) : Int) * 2 ^ (lsb - s.b - nb) = ((t * 2 ^ (lsb - s.b - nb) : Nat) : Int) := by
    simp
  have evm : ((2 ^ nb - 1 : Nat) : Int) * 2 ^ (s.bits - nb) =
      (((2 ^ nb - 1) * 2 ^ (s.bits - nb) : Nat) : Int) := by
    rw [Int.natCast_mul]; simp
  have ev1 : (1 : Int) * 2 ^ nb = ((2 ^ nb : Nat) : Int) := by simp
  rw [extract_eq hw hnb8 hnbb, htt, hto, hmask, hbits', hb', hie, e8, evt]
  simp only [Int.toNat_natCast]
  rw [evm, ev1, ← Int.natCast_add, u16_natCast]
  -- the updated buffer
  have hA : ∀ i, i < outlen → ∀ k,
      (nth (s.out.set i0 (BitVec.ofNat 16 ((nth s.out i0).toNat + t * 2 ^ (lsb - s.b - nb)))) i).toNat.testBit k
      = (decide (k < lsb) && (decide (lsb * i + (lsb - 1 - k) < lsb * i0 + (s.b + nb)) &&
        ubit inlen inp (lsb * i + (lsb - 1 - k)))) := by
    intro i hil k
    rw [nth_set]
    have hpos := hs.pos
    have hbl' := hs.bits_le'
    split
    · rename_i h
      obtain ⟨rfl, _⟩ := h
      rw [BitVec.toNat_ofNat, Nat.mod_eq_of_lt hfb, testBit_fill (by omega) ht ho]
      split
      · rename_i hk2
        have hk0 : k < lsb := by omega
        by_cases hk3 : lsb - s.b - nb ≤ k
        · have hd : lsb * i0 + (lsb - 1 - k) < lsb * i0 + (s.b + nb) := by omega
          simp only [hk0, hk3, hd, decide_true, Bool.true_and]
          rw [← htt, Nat.testBit_mod_two_pow, Nat.testBit_div_two_pow]
          have : k - (lsb - s.b - nb) < nb := by omega
          simp only [this, decide_true, Bool.true_and]
          rw [hs.W _ (by omega)]
          congr 1
          omega
        · have hd : ¬ (lsb * i0 + (lsb - 1 - k) < lsb * i0 + (s.b + nb)) := by omega
          simp [hk3, hd]
      · rename_i hk2
        rw [hs.A i0 hil k]
        by_cases hk0 : k < lsb
        · have hd : lsb * i0 + (lsb - 1 - k) < lsb * i0 + (s.b + nb) := by omega
          have hd2 : lsb * i0 + (lsb - 1 - k) < 8 * s.j - s.bits := by omega
          simp [hd, hd2]
        · simp [hk0]
    · rename_i h
      rw [hs.A i hil k]
      have hne : i0 ≠ i := fun e => h ⟨e, by omega⟩
      by_cases hk0 : k < lsb
      · have : (lsb * i + (lsb - 1 - k) < 8 * s.j - s.bits) ↔
            (lsb * i + (lsb - 1 - k) < lsb * i0 + (s.b + nb)) := by
          rcases Nat.lt_or_gt_of_ne hne with hlt | hlt
          · have := Nat.mul_le_mul_left lsb (show i0 + 1 ≤ i by omega)
            rw [Nat.mul_succ] at this
            omega
          · have := Nat.mul_le_mul_left lsb (show i + 1 ≤ i0 by omega)
            rw [Nat.mul_succ] at this
            omega
        simp [this]
      · simp [hk0]
  have hT : ∀ i, outlen ≤ i →
      nth (s.out.set i0 (BitVec.ofNat 16 ((nth s.out i0).toNat + t * 2 ^ (lsb - s.b - nb)))) i
      = nth out0 i := by
    intro i hil
    rw [nth_set_ne (by omega)]; exact hs.T i hil
  have hL : (s.out.set i0 (BitVec.ofNat 16 ((nth s.out i0).toNat + t * 2 ^ (lsb - s.b - nb)))).length
      = out0.length := by simpa using hlen
  generalize s.out.set i0 (BitVec.ofNat 16 ((nth s.out i0).toNat + t * 2 ^ (lsb - s.b - nb))) = out' at *
  have hW : ∀ k, k < s.bits - nb →
      (u8 (iand (s.w.toNat : Int) (inot (((2 ^ nb - 1) * 2 ^ (s.bits - nb) : Nat) : Int)))).toNat.testBit k
        = ubit inlen inp (8 * s.j - 1 - k) := by
    intro k hk
    rw [u8_iand_inot, Nat.testBit_mul_two_pow, hs.W k (by omega)]
    have : ¬ (s.bits - nb ≤ k) := by omega
    simp [this]
  generalize u8 (iand (s.w.toNat : Int) (inot (((2 ^ nb - 1) * 2 ^ (s.bits - nb) : Nat) : Int))) = w' at *
  have hpos := hs.pos
  have hbl' := hs.bits_le'
  have hj := hs.j_le
  unfold inInt
  refine ⟨by omega, by omega, by omega, by omega, by omega, by omega, by omega, by omega, by omega,
    by omega, by omega, by omega, by omega, ?_⟩
  by_cases hz : s.bits - nb = 0
  · rw [if_pos (by simpa using hz)]
    by_cases hjl : s.j < inlen
    · simp only [wp, hjl, decide_true, if_true]
      refine ⟨by omega, ⟨⟨hL, by simp only; omega, by simp only; omega, ?_, ?_, ?_, hT⟩, rfl, ?_, by simp only; omega, ?_⟩, ?_⟩
      · simp only [Nat.mul_succ]; omega
      · intro k hk
        simp only at hk ⊢
        rw [show 8 * (s.j + 1) - 1 - k = 8 * s.j + (8 - 1 - k) by rw [Nat.mul_succ]; omega,
          ubit_elem (by omega) hjl hin]
        congr 1; omega
      · intro i hil k
        simp only
        rw [hA i hil k]
        have : 8 * (s.j + 1) - 8 = lsb * i0 + (s.b + nb) := by rw [Nat.mul_succ]; omega
        rw [this]
      · simp only [Nat.mul_succ]; omega
      · simp only [hbrk]; intro h; cases h
      · simp only [hbrk]
        simp only [show ¬ (8 = 0) by omega, if_false, Bool.false_eq_true]
        by_cases hb0 : s.bits = 0
        · simp only [hb0, if_true]; omega
        · simp only [hb0, if_false]; omega
    · simp only [wp, hjl, decide_false, if_false, Bool.false_eq_true]
      refine ⟨⟨⟨hL, hj, by simp only; omega, by simp only; omega, ?_, ?_, hT⟩, rfl, ?_, by simp only; omega, ?_⟩, ?_⟩
      · intro k hk; exact hW k hk
      · intro i hil k
        simp only
        rw [hA i hil k]
        have : 8 * s.j - (s.bits - nb) = lsb * i0 + (s.b + nb) := by omega
        rw [this]
      · simp only; omega
      · intro _; simp only; omega
      · simp only [if_true]; omega
  · rw [if_neg (by simpa using hz), Ret_pure]
    refine ⟨⟨⟨hL, hj, by simp only; omega, by simp only; omega, ?_, ?_, hT⟩, rfl, ?_, by simp only; omega, ?_⟩, ?_⟩
    · intro k hk; exact hW k hk
    · intro i hil k
      simp only
      rw [hA i hil k]
      have : 8 * s.j - (s.bits - nb) = lsb * i0 + (s.b + nb) := by omega
      rw [this]
    · simp only; omega
    · simp only [hbrk]; intro h; cases h
    · simp only [hbrk, hz, if_false, Bool.false_eq_true]
      have : ¬ s.bits = 0 := by omega
      simp only [this, if_false]
      omega

theorem unpackOuter_ret {inp : List U8} {inlen lsb outlen : Nat} {out0 : List U16}
    {s : UnpackSt} (h16 : lsb ≤ 16) (hin : inlen ≤ inp.length)
    (hout : outlen ≤ out0.length) (hi : s.i < outlen)
    (hs : UnpackInv inp inlen lsb outlen out0 s) (hp : lsb * s.i = 8 * s.j - s.bits) :
    Ret (unpackOuter inp inlen lsb s) (fun s' => UnpackInv inp inlen lsb outlen out0 s' ∧
      ((s'.i = s.i + 1 ∧ lsb * s'.i = 8 * s'.j - s'.bits) ∨
       (s'.i = s.i ∧ s'.j = inlen ∧ s'.bits = 0))) := by
  unfold unpackOuter
  refine Ret.bind (Q := fun s' => UnpackIn inp inlen lsb outlen out0 s.i s' ∧
      (s'.b = lsb ∨ s'.brk = true)) ?_ ?_
  · refine Ret.while (UnpackIn inp inlen lsb outlen out0 s.i)
      (fun s => if s.brk then 0 else 1 + 2 * (lsb - s.b) + (if s.bits = 0 then 1 else 0)) ?_ ?_ _ ?_
    · intro s' hs' hc
      simp only [Bool.and_eq_true, decide_eq_true_eq, Bool.not_eq_true'] at hc
      have := unpackInner_ret h16 hin hout hi hs' hc.1 hc.2
      refine this.mono ?_
      intro s'' h''
      refine ⟨h''.1, ?_⟩
      simp only [hc.2, Bool.false_eq_true, if_false]
      exact h''.2
    · intro s' hs' hc
      refine ⟨hs', ?_⟩
      have := hs'.b_le
      by_cases hb : s'.b < lsb
      · right; simpa [hb] using hc
      · left; omega
    · exact ⟨⟨hs.len, hs.j_le, hs.bits_le, hs.bits_le', hs.W, hs.A, hs.T⟩, rfl, by simpa using hp,
        by simp, by simp⟩
  · rintro s' ⟨hs', hor⟩
    rw [Ret_ifC]
    by_cases hb : s'.b = lsb
    · rw [if_pos (by simpa using hb), Ret_pure]
      refine ⟨⟨hs'.len, hs'.j_le, hs'.bits_le, hs'.bits_le', hs'.W, hs'.A, hs'.T⟩, Or.inl ?_⟩
      have h1 := hs'.i_eq
      have h2 := hs'.pos
      refine ⟨by simp only [h1], ?_⟩
      show lsb * (s'.i + 1) = 8 * s'.j - s'.bits
      rw [h1, Nat.mul_succ]
      omega
    · rw [if_neg (by simpa using hb), Ret_pure]
      refine ⟨hs'.toUnpackInv, Or.inr ⟨hs'.i_eq, ?_⟩⟩
      exact hs'.brk (by simpa [hb] using hor)

theorem frodo_unpack_ret {out : List U16} {outlen : Nat} {inp : List U8} {inlen lsb : Nat}
    (h1 : 1 ≤ lsb) (h16 : lsb ≤ 16) (hin : inlen ≤ inp.length) (hout : outlen ≤ out.length) :
    Ret (frodo_unpack out outlen inp inlen lsb)
      (· = unpack lsb outlen (inp.take inlen) ++ out.drop outlen) := by
  unfold frodo_unpack
  rw [Ret_memset_bind]
  refine ⟨hout, ?_⟩
  rw [Ret_bind_iff]
  have hlen0 : (List.replicate outlen (0 : U16) ++ out.drop outlen).length = out.length := by
    simp; omega
  refine Ret.while (fun s => UnpackInv inp inlen lsb outlen out s ∧
      (lsb * s.i = 8 * s.j - s.bits ∨ (s.j = inlen ∧ s.bits = 0)))
    (fun s => 2 * (outlen - s.i) + (if s.j < inlen ∨ s.bits > 0 then 1 else 0)) ?_ ?_ _ ?_
  · rintro s ⟨hs, hp⟩ hc
    simp only [Bool.and_eq_true, Bool.or_eq_true, decide_eq_true_eq, beq_iff_eq] at hc
    have hp' : lsb * s.i = 8 * s.j - s.bits := by
      rcases hp with hp | ⟨h2, h3⟩
      · exact hp
      · omega
    refine (unpackOuter_ret h16 hin hout hc.1 hs hp').mono ?_
    rintro s' ⟨hs', (⟨h2, h3⟩ | ⟨h2, h3, h4⟩)⟩
    · refine ⟨⟨hs', Or.inl h3⟩, ?_⟩
      split <;> split <;> omega
    · refine ⟨⟨hs', Or.inr ⟨h3, h4⟩⟩, ?_⟩
      rw [if_neg (by omega), if_pos (by omega)]
      omega
  · rintro s ⟨hs, hp⟩ hc
    rw [Ret_pure]
    have hex : s.i < outlen → s.j = inlen ∧ s.bits = 0 := by
      intro hi
      simp only [hi, decide_true, Bool.true_and, Bool.or_eq_false_iff, decide_eq_false_iff_not,
        Bool.and_eq_false_iff, beq_eq_false_iff_ne] at hc
      have := hs.j_le
      omega
    have hlen := hs.len
    apply ext_nth
    · simp [unpack, chunks]; omega
    · intro i hi
      rw [nth_append]
      have hpl : (unpack lsb outlen (inp.take inlen)).length = outlen := by simp [unpack, chunks]
      rw [hpl]
      split
      · rename_i hio
        apply BitVec.eq_of_toNat_eq
        apply Nat.eq_of_testBit_eq
        intro k
        rw [hs.A i hio k]
        unfold unpack chunks
        rw [List.map_map, nth_range_map, if_pos hio]
        simp only [Function.comp]
        have hlt : natOf ((List.range lsb).map fun l =>
            (stream8 (inp.take inlen)).getD (lsb * i + l) false) < 2 ^ 16 :=
          Nat.lt_of_lt_of_le (natOf_lt _ _) (Nat.pow_le_pow_right (by omega) h16)
        rw [BitVec.toNat_ofNat, Nat.mod_eq_of_lt hlt, testBit_natOf]
        by_cases hk : k < lsb
        · simp only [hk, decide_true, Bool.true_and]
          show _ = ubit inlen inp (lsb * i + (lsb - 1 - k))
          by_cases hpp : lsb * i + (lsb - 1 - k) < 8 * s.j - s.bits
          · simp [hpp]
          · simp only [hpp, decide_false, Bool.false_and]
            symm
            apply ubit_of_ge
            by_cases hsi : s.i < outlen
            · obtain ⟨h2, h3⟩ := hex hsi
              rw [h2, h3] at hpp; omega
            · rcases hp with hp | ⟨h2, h3⟩
              · have := Nat.mul_le_mul_left lsb (show i + 1 ≤ s.i by omega)
                rw [Nat.mul_succ] at this
                omega
              · rw [h2, h3] at hpp; omega
        · simp [hk]
      · rename_i hio
        rw [hs.T i (by omega), nth_drop]
        congr 1; omega
  · refine ⟨⟨hlen0, by simp, by simp, by simp, by simp, ?_, ?_⟩, by simp⟩
    · intro i hi k
      simp only
      rw [nth_append, nth_replicate]
      simp [hi]
    · intro i hi
      simp only
      rw [nth_append, nth_drop, List.length_replicate, if_neg (by omega)]
      congr 1; omega

end Frodo
