import Verif.Proof.Bits
import Verif.Model.Util

namespace Frodo

open Spec

theorem mod_zero_of_testBit {o c : Nat} (ho : ∀ k, k < c → o.testBit k = false) :
    o = 2 ^ c * (o / 2 ^ c) := by
  have h : o % 2 ^ c = 0 := by
    apply Nat.eq_of_testBit_eq
    intro k
    rw [Nat.testBit_mod_two_pow]
    by_cases hk : k < c <;> simp [hk, ho]
  have := Nat.div_add_mod o (2 ^ c)
  omega

theorem fill_lt {c nb t : Nat} (hnb : nb ≤ c) (ht : t < 2 ^ nb) : t * 2 ^ (c - nb) < 2 ^ c := by
  calc t * 2 ^ (c - nb) < 2 ^ nb * 2 ^ (c - nb) :=
        Nat.mul_lt_mul_of_pos_right ht (Nat.two_pow_pos _)
    _ = 2 ^ c := by rw [← Nat.pow_add]; congr 1; omega

theorem testBit_fill {o t c nb k : Nat} (hnb : nb ≤ c) (ht : t < 2 ^ nb)
    (ho : ∀ k, k < c → o.testBit k = false) :
    (o + t * 2 ^ (c - nb)).testBit k =
      if k < c then (decide (c - nb ≤ k) && t.testBit (k - (c - nb))) else o.testBit k := by
  have h := mod_zero_of_testBit ho
  generalize o / 2 ^ c = o' at h
  subst h
  have hlt := fill_lt hnb ht
  rw [Nat.testBit_two_pow_mul_add _ hlt]
  split
  · rw [Nat.testBit_mul_two_pow]
  · rename_i hk
    rw [Nat.testBit_two_pow_mul]
    have : c ≤ k := by omega
    simp [this]

theorem fill_bound {o t c nb m : Nat} (hnb : nb ≤ c) (ht : t < 2 ^ nb) (hc : c ≤ m)
    (ho : ∀ k, k < c → o.testBit k = false) (hm : o < 2 ^ m) :
    o + t * 2 ^ (c - nb) < 2 ^ m := by
  apply Nat.lt_pow_two_of_testBit
  intro k hk
  rw [testBit_fill hnb ht ho]
  rw [if_neg (by omega)]
  exact Nat.testBit_lt_two_pow (Nat.lt_of_lt_of_le hm (Nat.pow_le_pow_right (by omega) hk))

/-- The bits copied from `w`: `(w >> (bits - nb)) & ((1 << nb) - 1)`. -/
theorem extract_eq {w bits nb : Nat} (hw : w < 2 ^ 16) (hnb : nb ≤ 8) (hb : nb ≤ bits) :
    u8 (iand ((w : Int) / 2 ^ ((bits : Int) - nb).toNat) (u16 (1 * 2 ^ (nb : Int).toNat - 1)).toNat)
      = BitVec.ofNat 8 (w / 2 ^ (bits - nb) % 2 ^ nb) := by
  have e1 : ((bits : Int) - nb).toNat = bits - nb := by omega
  have e2 : ((1 : Int) * 2 ^ (nb : Int).toNat - 1) = ((2 ^ nb - 1 : Nat) : Int) := by
    rw [Int.one_mul, Int.toNat_natCast, Int.natCast_sub (Nat.one_le_two_pow)]
    simp
  have hp : 2 ^ nb ≤ 2 ^ 8 := Nat.pow_le_pow_right (by omega) hnb
  rw [e1, e2, u16_natCast, BitVec.toNat_ofNat, Nat.mod_eq_of_lt (by omega)]
  have e3 : ((w : Int) / 2 ^ (bits - nb)) = ((w / 2 ^ (bits - nb) : Nat) : Int) := by
    simp
  rw [e3, iand_nat _ (by omega), Nat.and_two_pow_sub_one_eq_mod, u8_natCast]
  have := Nat.div_le_self w (2 ^ (bits - nb))
  omega

/-- The stream bit at position `t`. -/
def sbit (lsb inlen : Nat) (inp : List U16) (t : Nat) : Bool :=
  (stream16 lsb (inp.take inlen)).getD t false

theorem length_flatMap_bitsOf {α : Type} (d : Nat) (g : α → Nat) (v : List α) :
    (v.flatMap fun x => bitsOf d (g x)).length = d * v.length := by
  induction v with
  | nil => simp
  | cons a v ih => simp [length_bitsOf, ih, Nat.mul_succ]; omega

theorem sbit_of_ge {lsb inlen : Nat} {inp : List U16} {t : Nat} (h : lsb * inlen ≤ t) :
    sbit lsb inlen inp t = false := by
  unfold sbit stream16
  apply List.getD_eq_default
  rw [length_flatMap_bitsOf]
  refine Nat.le_trans (Nat.mul_le_mul_left _ ?_) h
  simp; omega

theorem sbit_elem {lsb inlen : Nat} {inp : List U16} {j l : Nat} (hl : l < lsb) (hj : j < inlen)
    (hin : inlen ≤ inp.length) :
    sbit lsb inlen inp (lsb * j + l) = (nth inp j).toNat.testBit (lsb - 1 - l) := by
  unfold sbit stream16
  rw [getD_flatMap _ _ _ _ _ hl, nth_take, if_pos hj]
  simp; omega

/-- Invariant of both loops of `frodo_pack`. -/
structure PackInv (inp : List U16) (inlen lsb outlen : Nat) (out0 : List U8) (s : PackSt) :
    Prop where
  len : s.out.length = out0.length
  j_le : s.j ≤ inlen
  bits_le : s.bits ≤ lsb
  bits_le' : s.bits ≤ lsb * s.j
  W : ∀ k, k < s.bits → s.w.toNat.testBit k = sbit lsb inlen inp (lsb * s.j - 1 - k)
  A : ∀ i, i < outlen → ∀ k, k < 8 → (nth s.out i).toNat.testBit k =
    (decide (8 * i + (7 - k) < lsb * s.j - s.bits) && sbit lsb inlen inp (8 * i + (7 - k)))
  T : ∀ i, outlen ≤ i → nth s.out i = nth out0 i

/-- Extra facts inside the inner loop. -/
structure PackIn (inp : List U16) (inlen lsb outlen : Nat) (out0 : List U8) (i0 : Nat)
    (s : PackSt) : Prop extends PackInv inp inlen lsb outlen out0 s where
  i_eq : s.i = i0
  pos : 8 * i0 + s.b = lsb * s.j - s.bits
  b_le : s.b ≤ 8
  brk : s.brk = true → s.j = inlen ∧ s.bits = 0

theorem packInner_ret {inp : List U16} {inlen lsb outlen : Nat} {out0 : List U8} {i0 : Nat}
    {s : PackSt} (h1 : 1 ≤ lsb) (h16 : lsb ≤ 16) (hin : inlen ≤ inp.length)
    (hout : outlen ≤ out0.length) (hi : i0 < outlen)
    (hs : PackIn inp inlen lsb outlen out0 i0 s) (hb : s.b < 8) (hbrk : s.brk = false) :
    Ret (packInner inp inlen lsb s) (fun s' => PackIn inp inlen lsb outlen out0 i0 s' ∧
      (if s'.brk then 0 else 1 + 2 * (8 - s'.b) + (if s'.bits = 0 then 1 else 0)) <
        1 + 2 * (8 - s.b) + (if s.bits = 0 then 1 else 0)) := by
  obtain ⟨nb, hnb⟩ : ∃ nb : Nat, nb = min (8 - s.b) s.bits := ⟨_, rfl⟩
  have hnbits : (if decide ((8 : Int) - s.b < s.bits) then (pure ((8 : Int) - s.b) : C Int)
      else pure (s.bits : Int)) = pure (nb : Int) := by
    by_cases h : (8 : Int) - s.b < s.bits
    · rw [if_pos (by simpa using h)]; congr 1; omega
    · rw [if_neg (by simpa using h)]; congr 1; omega
  have hnb8 : nb ≤ 8 := by omega
  have hnbb : nb ≤ s.bits := by omega
  have hp8 : 2 ^ nb ≤ 2 ^ 8 := Nat.pow_le_pow_right (by omega) hnb8
  have hp1 : 1 ≤ 2 ^ nb := Nat.one_le_two_pow
  have hw := s.w.isLt
  have hbl := hs.bits_le
  have hlen := hs.len
  have hie := hs.i_eq
  have ht : s.w.toNat / 2 ^ (s.bits - nb) % 2 ^ nb < 2 ^ nb := Nat.mod_lt _ (by omega)
  have hto : (BitVec.ofNat 8 (s.w.toNat / 2 ^ (s.bits - nb) % 2 ^ nb)).toNat =
      s.w.toNat / 2 ^ (s.bits - nb) % 2 ^ nb := by
    rw [BitVec.toNat_ofNat, Nat.mod_eq_of_lt]; omega
  generalize htt : s.w.toNat / 2 ^ (s.bits - nb) % 2 ^ nb = t at *
  have ho : ∀ k, k < 8 - s.b → (nth s.out i0).toNat.testBit k = false := by
    intro k hk
    rw [hs.A i0 hi k (by omega)]
    have := hs.pos
    have : ¬ (8 * i0 + (7 - k) < lsb * s.j - s.bits) := by omega
    simp [this]
  have hfb := fill_bound (m := 8) (show nb ≤ 8 - s.b by omega) ht (by omega) ho
    (nth s.out i0).isLt
  have hfl := fill_lt (show nb ≤ 8 - s.b by omega) ht
  have hfl8 : 2 ^ (8 - s.b) ≤ 2 ^ 8 := Nat.pow_le_pow_right (by omega) (by omega)
  have hmask : (u16 (1 * 2 ^ (nb : Int).toNat - 1)).toNat = 2 ^ nb - 1 := by
    have e2 : ((1 : Int) * 2 ^ (nb : Int).toNat - 1) = ((2 ^ nb - 1 : Nat) : Int) := by
      rw [Int.one_mul, Int.toNat_natCast, Int.natCast_sub (Nat.one_le_two_pow)]
      simp
    rw [e2, u16_natCast, BitVec.toNat_ofNat, Nat.mod_eq_of_lt (by omega)]
  have hbits' : (u8 ((s.bits : Int) - nb)).toNat = s.bits - nb := by
    rw [show (s.bits : Int) - nb = ((s.bits - nb : Nat) : Int) by omega, u8_natCast,
      BitVec.toNat_ofNat, Nat.mod_eq_of_lt (by omega)]
  have hb' : (u8 ((s.b : Int) + nb)).toNat = s.b + nb := by
    rw [show (s.b : Int) + nb = ((s.b + nb : Nat) : Int) by omega, u8_natCast,
      BitVec.toNat_ofNat, Nat.mod_eq_of_lt (by omega)]
  have hmb : (2 ^ nb - 1) * 2 ^ (s.bits - nb) < 2 ^ 16 := by
    have := fill_lt hnbb (show 2 ^ nb - 1 < 2 ^ nb by omega)
    have : 2 ^ s.bits ≤ 2 ^ 16 := Nat.pow_le_pow_right (by omega) (by omega)
    omega
  unfold packInner
  refine Ret.bind_eq (v := (nb : Int)) (by rw [Ret_ifC, hnbits, Ret_pure]) ?_
  simp only [wp]
  have e8 : (8 - (s.b : Int) - nb).toNat = 8 - s.b - nb := by omega
  have evt : ((t : Nat) : Int) * 2 ^ (8 - s.b - nb) = ((t * 2 ^ (8 - s.b - nb) : Nat) : Int) := by
    simp
  have evm : ((2 ^ nb - 1 : Nat) : Int) * 2 ^ (s.bits - nb) =
      (((2 ^ nb - 1) * 2 ^ (s.bits - nb) : Nat) : Int) := by
    rw [Int.natCast_mul]; simp
  have ev1 : (1 : Int) * 2 ^ nb = ((2 ^ nb : Nat) : Int) := by simp
  rw [extract_eq hw hnb8 hnbb, htt, hto, hmask, hbits', hb', hie, e8, evt]
  simp only [Int.toNat_natCast]
  rw [evm, ev1, ← Int.natCast_add, u8_natCast]
  -- the updated buffer
  have hA : ∀ i, i < outlen → ∀ k, k < 8 →
      (nth (s.out.set i0 (BitVec.ofNat 8 ((nth s.out i0).toNat + t * 2 ^ (8 - s.b - nb)))) i).toNat.testBit k
      = (decide (8 * i + (7 - k) < 8 * i0 + (s.b + nb)) && sbit lsb inlen inp (8 * i + (7 - k))) := by
    intro i hil k hk
    rw [nth_set]
    have hpos := hs.pos
    have hbl' := hs.bits_le'
    split
    · rename_i h
      obtain ⟨rfl, _⟩ := h
      rw [BitVec.toNat_ofNat, Nat.mod_eq_of_lt hfb, testBit_fill (by omega) ht ho]
      split
      · rename_i hk2
        by_cases hk3 : 8 - s.b - nb ≤ k
        · have hd : 8 * i0 + (7 - k) < 8 * i0 + (s.b + nb) := by omega
          simp only [hk3, hd, decide_true, Bool.true_and]
          rw [← htt, Nat.testBit_mod_two_pow, Nat.testBit_div_two_pow]
          have : k - (8 - s.b - nb) < nb := by omega
          simp only [this, decide_true, Bool.true_and]
          rw [hs.W _ (by omega)]
          congr 1
          omega
        · have hd : ¬ (8 * i0 + (7 - k) < 8 * i0 + (s.b + nb)) := by omega
          simp [hk3, hd]
      · rename_i hk2
        rw [hs.A i0 hil k hk]
        have hd : 8 * i0 + (7 - k) < 8 * i0 + (s.b + nb) := by omega
        have hd2 : 8 * i0 + (7 - k) < lsb * s.j - s.bits := by omega
        simp [hd, hd2]
    · rename_i h
      rw [hs.A i hil k hk]
      have hne : i0 ≠ i := fun e => h ⟨e, by omega⟩
      have : (8 * i + (7 - k) < lsb * s.j - s.bits) ↔ (8 * i + (7 - k) < 8 * i0 + (s.b + nb)) := by
        omega
      simp [this]
  have hT : ∀ i, outlen ≤ i →
      nth (s.out.set i0 (BitVec.ofNat 8 ((nth s.out i0).toNat + t * 2 ^ (8 - s.b - nb)))) i
      = nth out0 i := by
    intro i hil
    rw [nth_set_ne (by omega)]; exact hs.T i hil
  have hL : (s.out.set i0 (BitVec.ofNat 8 ((nth s.out i0).toNat + t * 2 ^ (8 - s.b - nb)))).length
      = out0.length := by simpa using hlen
  generalize s.out.set i0 (BitVec.ofNat 8 ((nth s.out i0).toNat + t * 2 ^ (8 - s.b - nb))) = out' at *
  have hW : ∀ k, k < s.bits - nb →
      (u16 (iand (s.w.toNat : Int) (inot (((2 ^ nb - 1) * 2 ^ (s.bits - nb) : Nat) : Int)))).toNat.testBit k
        = sbit lsb inlen inp (lsb * s.j - 1 - k) := by
    intro k hk
    rw [u16_iand_inot, Nat.testBit_mul_two_pow, hs.W k (by omega)]
    have : ¬ (s.bits - nb ≤ k) := by omega
    simp [this]
  generalize u16 (iand (s.w.toNat : Int) (inot (((2 ^ nb - 1) * 2 ^ (s.bits - nb) : Nat) : Int))) = w' at *
  have hpos := hs.pos
  have hbl' := hs.bits_le'
  have hj := hs.j_le
  unfold inInt
  refine ⟨by omega, by omega, by omega, by omega, by omega, by omega, by omega, by omega, by omega,
    by omega, by omega, by omega, by omega, ?_⟩
  by_cases hz : s.bits - nb = 0
  · rw [if_pos (by simpa using hz)]
    by_cases hjl : s.j < inlen
    · simp only [wp, hjl, decide_true, if_true]
      refine ⟨by omega, ⟨⟨hL, by simp only; omega, by simp only; omega, ?_, ?_, ?_, hT⟩, rfl, ?_, by simp only; omega, ?_⟩, ?_⟩
      · simp only [Nat.mul_succ]; omega
      · intro k hk
        simp only at hk ⊢
        rw [show lsb * (s.j + 1) - 1 - k = lsb * s.j + (lsb - 1 - k) by rw [Nat.mul_succ]; omega,
          sbit_elem (by omega) hjl hin]
        congr 1; omega
      · intro i hil k hk
        simp only
        rw [hA i hil k hk]
        have : lsb * (s.j + 1) - lsb = 8 * i0 + (s.b + nb) := by rw [Nat.mul_succ]; omega
        rw [this]
      · simp only [Nat.mul_succ]; omega
      · simp only [hbrk]; intro h; cases h
      · simp only [hbrk]
        have : ¬ lsb = 0 := by omega
        simp only [this, if_false, Bool.false_eq_true]
        by_cases hb0 : s.bits = 0
        · simp only [hb0, if_true]; omega
        · simp only [hb0, if_false]; omega
    · simp only [wp, hjl, decide_false, if_false, Bool.false_eq_true]
      refine ⟨⟨⟨hL, hj, by simp only; omega, by simp only; omega, ?_, ?_, hT⟩, rfl, ?_, by simp only; omega, ?_⟩, ?_⟩
      · intro k hk; exact hW k hk
      · intro i hil k hk
        simp only
        rw [hA i hil k hk]
        have : lsb * s.j - (s.bits - nb) = 8 * i0 + (s.b + nb) := by omega
        rw [this]
      · simp only; omega
      · intro _; simp only; omega
      · simp only [if_true]; omega
  · rw [if_neg (by simpa using hz), Ret_pure]
    refine ⟨⟨⟨hL, hj, by simp only; omega, by simp only; omega, ?_, ?_, hT⟩, rfl, ?_, by simp only; omega, ?_⟩, ?_⟩
    · intro k hk; exact hW k hk
    · intro i hil k hk
      simp only
      rw [hA i hil k hk]
      have : lsb * s.j - (s.bits - nb) = 8 * i0 + (s.b + nb) := by omega
      rw [this]
    · simp only; omega
    · simp only [hbrk]; intro h; cases h
    · simp only [hbrk, hz, if_false, Bool.false_eq_true]
      have : ¬ s.bits = 0 := by omega
      simp only [this, if_false]
      omega

theorem packOuter_ret {inp : List U16} {inlen lsb outlen : Nat} {out0 : List U8}
    {s : PackSt} (h1 : 1 ≤ lsb) (h16 : lsb ≤ 16) (hin : inlen ≤ inp.length)
    (hout : outlen ≤ out0.length) (hi : s.i < outlen)
    (hs : PackInv inp inlen lsb outlen out0 s) (hp : 8 * s.i = lsb * s.j - s.bits) :
    Ret (packOuter inp inlen lsb s) (fun s' => PackInv inp inlen lsb outlen out0 s' ∧
      ((s'.i = s.i + 1 ∧ 8 * s'.i = lsb * s'.j - s'.bits) ∨
       (s'.i = s.i ∧ s'.j = inlen ∧ s'.bits = 0))) := by
  unfold packOuter
  refine Ret.bind (Q := fun s' => PackIn inp inlen lsb outlen out0 s.i s' ∧
      (s'.b = 8 ∨ s'.brk = true)) ?_ ?_
  · refine Ret.while (PackIn inp inlen lsb outlen out0 s.i)
      (fun s => if s.brk then 0 else 1 + 2 * (8 - s.b) + (if s.bits = 0 then 1 else 0)) ?_ ?_ _ ?_
    · intro s' hs' hc
      simp only [Bool.and_eq_true, decide_eq_true_eq, Bool.not_eq_true'] at hc
      have := packInner_ret h1 h16 hin hout hi hs' hc.1 hc.2
      refine this.mono ?_
      intro s'' h''
      refine ⟨h''.1, ?_⟩
      simp only [hc.2, Bool.false_eq_true, if_false]
      exact h''.2
    · intro s' hs' hc
      refine ⟨hs', ?_⟩
      have := hs'.b_le
      by_cases hb : s'.b < 8
      · right; simpa [hb] using hc
      · left; omega
    · exact ⟨⟨hs.len, hs.j_le, hs.bits_le, hs.bits_le', hs.W, hs.A, hs.T⟩, rfl, by simpa using hp,
        by simp, by simp⟩
  · rintro s' ⟨hs', hor⟩
    rw [Ret_ifC]
    by_cases hb : s'.b = 8
    · rw [if_pos (by simpa using hb), Ret_pure]
      refine ⟨⟨hs'.len, hs'.j_le, hs'.bits_le, hs'.bits_le', hs'.W, hs'.A, hs'.T⟩, Or.inl ?_⟩
      have h1 := hs'.i_eq
      have h2 := hs'.pos
      simp only
      omega
    · rw [if_neg (by simpa using hb), Ret_pure]
      refine ⟨hs'.toPackInv, Or.inr ⟨hs'.i_eq, ?_⟩⟩
      exact hs'.brk (by simpa [hb] using hor)

theorem frodo_pack_ret {out : List U8} {outlen : Nat} {inp : List U16} {inlen lsb : Nat}
    (h1 : 1 ≤ lsb) (h16 : lsb ≤ 16) (hin : inlen ≤ inp.length) (hout : outlen ≤ out.length) :
    Ret (frodo_pack out outlen inp inlen lsb)
      (· = pack lsb outlen (inp.take inlen) ++ out.drop outlen) := by
  unfold frodo_pack
  rw [Ret_memset_bind]
  refine ⟨hout, ?_⟩
  rw [Ret_bind_iff]
  have hlen0 : (List.replicate outlen (0 : U8) ++ out.drop outlen).length = out.length := by
    simp; omega
  refine Ret.while (fun s => PackInv inp inlen lsb outlen out s ∧
      (8 * s.i = lsb * s.j - s.bits ∨ (s.j = inlen ∧ s.bits = 0)))
    (fun s => 2 * (outlen - s.i) + (if s.j < inlen ∨ s.bits > 0 then 1 else 0)) ?_ ?_ _ ?_
  · rintro s ⟨hs, hp⟩ hc
    simp only [Bool.and_eq_true, Bool.or_eq_true, decide_eq_true_eq, beq_iff_eq] at hc
    have hp' : 8 * s.i = lsb * s.j - s.bits := by
      rcases hp with hp | ⟨h2, h3⟩
      · exact hp
      · omega
    refine (packOuter_ret h1 h16 hin hout hc.1 hs hp').mono ?_
    rintro s' ⟨hs', (⟨h2, h3⟩ | ⟨h2, h3, h4⟩)⟩
    · refine ⟨⟨hs', Or.inl h3⟩, ?_⟩
      split <;> split <;> omega
    · refine ⟨⟨hs', Or.inr ⟨h3, h4⟩⟩, ?_⟩
      rw [if_neg (by omega), if_pos (by omega)]
      omega
  · rintro s ⟨hs, hp⟩ hc
    rw [Ret_pure]
    have hex : s.i < outlen → s.j = inlen ∧ s.bits = 0 := by
      intro hi
      simp only [hi, decide_true, Bool.true_and, Bool.or_eq_false_iff, decide_eq_false_iff_not,
        Bool.and_eq_false_iff, beq_eq_false_iff_ne] at hc
      have := hs.j_le
      omega
    have hlen := hs.len
    apply ext_nth
    · simp [pack, chunks]; omega
    · intro i hi
      rw [nth_append]
      have hpl : (pack lsb outlen (inp.take inlen)).length = outlen := by simp [pack, chunks]
      rw [hpl]
      split
      · rename_i hio
        apply BitVec.eq_of_toNat_eq
        apply Nat.eq_of_testBit_eq
        intro k
        by_cases hk : k < 8
        · rw [hs.A i hio k hk]
          unfold pack chunks
          rw [List.map_map, nth_range_map, if_pos hio]
          simp only [Function.comp]
          rw [BitVec.toNat_ofNat, Nat.mod_eq_of_lt (natOf_lt _ _), testBit_natOf]
          simp only [hk, decide_true, Bool.true_and]
          rw [show 8 - 1 - k = 7 - k by omega]
          show _ = sbit lsb inlen inp (8 * i + (7 - k))
          by_cases hpp : 8 * i + (7 - k) < lsb * s.j - s.bits
          · simp [hpp]
          · simp only [hpp, decide_false, Bool.false_and]
            symm
            apply sbit_of_ge
            by_cases hsi : s.i < outlen
            · obtain ⟨h2, h3⟩ := hex hsi
              rw [h2, h3] at hpp; omega
            · rcases hp with hp | ⟨h2, h3⟩
              · omega
              · rw [h2, h3] at hpp; omega
        · rw [BitVec.testBit_toNat, BitVec.testBit_toNat, BitVec.getLsbD_of_ge _ _ (by omega),
            BitVec.getLsbD_of_ge _ _ (by omega)]
      · rename_i hio
        rw [hs.T i (by omega), nth_drop]
        congr 1; omega
  · refine ⟨⟨hlen0, by simp, by simp, by simp, by simp, ?_, ?_⟩, by simp⟩
    · intro i hi k hk
      simp only
      rw [nth_append, nth_replicate]
      simp [hi]
    · intro i hi
      simp only
      rw [nth_append, nth_drop, List.length_replicate, if_neg (by omega)]
      congr 1; omega

end Frodo
