import Verif.Proof.SnP4Fast

/-! # SHAKE of four messages with the fast loop -/

namespace Frodo

open Spec

theorem absorbBlocks_absorb {n : Nat} (hn : 0 < n) :
    ∀ (b : Nat) (S : List Bool) (P : List U8), P.length = 8 * n * b →
    absorbBlocks 24 S ((List.range b).map fun j => (P.drop (8 * n * j)).take (8 * n)) =
      absorb keccakF (8 * (8 * n)) S (bytesToBits P) := by
  intro b
  induction b with
  | zero =>
    intro S P h
    have : P = [] := List.length_eq_zero_iff.1 (by simpa using h)
    subst this
    rw [absorbBlocks_zero, show bytesToBits [] = [] from rfl, absorb_nil (by omega)]
  | succ b ih =>
    intro S P h
    have hl : P.length = 8 * n * b + 8 * n := by rw [h, Nat.mul_succ]
    have e : (List.range (b + 1)).map (fun j => (P.drop (8 * n * j)).take (8 * n)) =
        P.take (8 * n) ::
          (List.range b).map fun j => ((P.drop (8 * n)).drop (8 * n * j)).take (8 * n) := by
      rw [List.range_succ_eq_map, List.map_cons, List.map_map]
      refine congrArg₂ List.cons (by simp) (List.map_congr_left fun j _ => ?_)
      simp only [Function.comp, List.drop_drop, Nat.succ_eq_add_one]
      rw [Nat.mul_succ, Nat.add_comm (8 * n)]
    rw [e]
    unfold absorbBlocks
    rw [List.foldl_cons]
    have := ih (absorbBlock 24 S (P.take (8 * n))) (P.drop (8 * n)) (by simp; omega)
    unfold absorbBlocks at this
    rw [this]
    conv_rhs => rw [← List.take_append_drop (8 * n) P, bytesToBits_append]
    have ht : (P.take (8 * n)).length = 8 * n := by simp; omega
    rw [absorb_step (by omega) (by rw [length_bytesToBits, ht]), absorbBlock, ht, keccakPbits_24]

/-- The state after absorbing four padded messages that lie one after the other. -/
theorem shake4_state {E : Env} {sAddr : Nat} {ss : List U64} {n b dAddr : Nat} {data : List U8}
    {M : Fin 4 → List U8} (hE : E.rhoAligned) (hsA : sAddr % 32 = 0) (h : ss.length = 100)
    (hA : dAddr % 8 = 0) (hn0 : 0 < n) (hn : n ≤ 25) (hb : 0 < b) (hd : data.length = 4 * (8 * n * b))
    (hw : data.length < 2 ^ 32)
    (hP : ∀ t : Fin 4, bytesToBits ((data.drop (8 * n * b * t)).take (8 * n * b)) =
      padded (8 * n) (M t)) :
    Ret (KeccakP1600times4_InitializeAll ss >>= fun s =>
      KeccakF1600times4_FastLoop_Absorb E sAddr s n (n * b) n dAddr data data.length)
      (fun r => r.1.length = 100 ∧ r.2 = 8 * n * b ∧
        ∀ t, sbits (inst t r.1) = spongeState (8 * n) (M t)) := by
  refine (InitializeAll_ret h).bind fun s hs => ?_
  have e0 : 8 * n * b = 8 * (n * b) := Nat.mul_assoc _ _ _
  have hnb : n ≤ n * b := Nat.le_mul_of_pos_right _ hb
  have hN : fastBlocks (8 * (3 * (n * b) + n)) (8 * n) data.length = b := by
    unfold fastBlocks
    rw [if_neg (by omega), hd, e0,
      show 4 * (8 * (n * b)) - 8 * (3 * (n * b) + n) = (b - 1) * (8 * n) by
        rw [Nat.sub_mul, show b * (8 * n) = 8 * (n * b) by rw [Nat.mul_left_comm, Nat.mul_comm b]]
        omega, Nat.mul_div_cancel _ (by omega)]
    omega
  have e1 : b * (8 * n) = 8 * (n * b) := by rw [Nat.mul_left_comm, Nat.mul_comm b]
  have e2 : b * n = n * b := Nat.mul_comm _ _
  refine (fastLoop_ret (nr := 24) (fun v => ?_) (fun s hs => ?_) hE hsA hs.1 hA hn (by omega)
    (by omega) hn0 (Nat.le_refl _) (by omega) ?_ ?_).mono ?_
  · exact (rounds24_ret v).mono fun _ h t => by rw [keccakPn_24]; exact h t
  · exact (PermuteAll_ret hE hs).mono fun _ h => ⟨h.1, fun t => by rw [keccakPbits_24]; exact h.2 t⟩
  · rw [hN]; omega
  · intro _; rw [hN]; omega
  · rintro r ⟨h1, h2, h3⟩
    rw [hN] at h2 h3
    refine ⟨h1, by omega, fun t => ?_⟩
    have hz : sbits (inst t s) = List.replicate 1600 false := by
      rw [sbits_inst]
      apply ext_getD
      · rw [length_bytesToBits, instBytes, List.length_map, List.length_range, List.length_replicate]
      · intro i hi
        rw [length_bytesToBits, instBytes, List.length_map, List.length_range] at hi
        rw [bytesToBits_getD, instBytes, nth_range_map, if_pos (by omega),
          hs.2 t t.isLt (i / 8) (by omega)]
        have : (List.replicate 1600 false).getD i false = false := by
          simp only [List.getD, List.getElem?_replicate]
          split <;> rfl
        rw [this]
        simp
    rw [h3, hz, spongeState, ← hP, ← absorbBlocks_absorb hn0 b _ _ ?_]
    · refine congrArg _ (List.map_congr_left fun j hj => ?_)
      rw [List.mem_range] at hj
      have h5 : 8 * n * j + 8 * n ≤ 8 * n * b := by
        rw [← Nat.mul_succ]; exact Nat.mul_le_mul_left _ hj
      rw [blk, List.drop_take, List.take_take, List.drop_drop, Nat.min_eq_left (by omega)]
      refine congrArg (fun q => (data.drop q).take (8 * n)) ?_
      rw [Nat.mul_add, ← Nat.mul_assoc, ← Nat.mul_assoc, ← Nat.mul_assoc]
      omega
    · have := t.isLt
      have : 8 * n * b * t ≤ 8 * n * b * 3 := Nat.mul_le_mul_left _ (by omega)
      simp; omega

theorem stByte_sq {ss : List U64} {t : Fin 4} {r : Nat} {M : List U8} {p : Nat} (hp : p < r) (hr : r ≤ 200)
    (h : sbits (inst t ss) = spongeState r M) : stByte ss t p = xofByte r M p := by
  apply BitVec.eq_of_getLsbD_eq
  intro i hi
  rw [xofByte, sqByte_getLsbD _ _ _ _ hi, Nat.div_eq_of_lt hp, Nat.mod_eq_of_lt hp, ← h,
    Function.iterate_zero, id, sbits_inst, bytesToBits_getD, instBytes, nth_range_map,
    if_pos (by omega), show (8 * p + i) / 8 = p by omega, show (8 * p + i) % 8 = i by omega]

end Frodo
