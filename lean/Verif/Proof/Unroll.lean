import Verif.Model.Unroll
import Verif.Proof.SnP4Fast

/-! # The variants of unrolling -/

namespace Frodo

open Spec

/-- The rounds `lo` to `lo + k - 1` have been computed, the result is in the lanes `X##..` (proof device). -/
def RoundInv (lo : Nat) (v : VLanes) (X : Bank) (k : Nat) (r : Regs) : Prop :=
  ∀ t, r.C.col t = lC ((r.get X).lane t).get ∧
    ((r.get X).lane t).get.bits = (List.range k).foldl (fun A i => Rnd A (lo + i)) (v.lane t).get.bits

theorem get_put (r : Regs) (X : Bank) (v : VLanes) : (r.put X v).get X = v := by cases X <;> rfl

theorem get_put_C (r : Regs) (X : Bank) (v : VLanes) (c : VCols) : ({ r.put X v with C := c } : Regs).get X = v := by
  cases X <;> rfl

theorem put_C (r : Regs) (X : Bank) (v : VLanes) : (r.put X v).C = r.C := by cases X <;> rfl

theorem prepare_inv (lo : Nat) (r : Regs) : RoundInv lo r.A .A 0 (prepare r) := by
  intro t
  exact ⟨by funext x; exact prepareTheta_col r.A t x, rfl⟩

theorem roundPrepare_inv {lo k i : Nat} {v : VLanes} {X Y : Bank} {r : Regs} (h : RoundInv lo v X k r) (hi : i = lo + k)
    (hl : i < 24) : Ret (roundPrepare i X Y r) (RoundInv lo v Y (k + 1)) := by
  subst hi
  unfold roundPrepare
  simp only [CONST256_64, wp]
  refine ⟨by rw [constants_eq]; show lo + k < 24; omega, ?_⟩
  intro t
  rw [get_put_C]
  refine ⟨by funext x; exact roundV_col _ _ _ _ _, ?_⟩
  rw [roundV_get, (h t).1, lRoundC_eq, constants_eq, lRound_bits _ _ (by omega), (h t).2, List.range_succ,
    List.foldl_append]
  rfl

theorem roundLast_ret {lo k i : Nat} {v : VLanes} {X Y : Bank} {r : Regs} (h : RoundInv lo v X k r) (hi : i = lo + k)
    (hl : i < 24) : Ret (roundLast i X Y r) (fun r' => ∀ t, ((r'.get Y).lane t).get.bits =
      (List.range (k + 1)).foldl (fun A i => Rnd A (lo + i)) (v.lane t).get.bits) := by
  subst hi
  unfold roundLast
  simp only [CONST256_64, wp]
  refine ⟨by rw [constants_eq]; show lo + k < 24; omega, ?_⟩
  intro t
  rw [get_put, lastV_get, (h t).1, lRoundC_eq, constants_eq, lRound_bits _ _ (by omega), (h t).2, List.range_succ,
    List.foldl_append]
  rfl

theorem copy_inv {lo k : Nat} {v : VLanes} {X Y : Bank} {r : Regs} (h : RoundInv lo v X k r) :
    RoundInv lo v Y k (copyStateVariables Y X r) := by
  intro t
  unfold copyStateVariables
  rw [get_put, put_C]
  exact h t

theorem RoundInv.bits {lo n k : Nat} {v : VLanes} {X : Bank} {r : Regs} (h : RoundInv lo v X k r) (hk : k = n)
    (hn : 24 - n = lo) (t : Fin 4) : ((r.get X).lane t).get.bits = keccakPn n (v.lane t).get.bits := by
  subst hk
  unfold keccakPn
  rw [hn]
  exact (h t).2

/-- A block of rounds that goes through the loop body. -/
theorem loop_inv {lo u m : Nat} {v : VLanes} {r : Regs} {body : Nat → Regs → C Regs} (hm : lo + u * m = 24) (hu : 0 < u)
    (h0 : RoundInv lo v .A 0 r)
    (hb : ∀ k r, lo + k + u ≤ 24 → RoundInv lo v .A k r → Ret (body (lo + k) r) (RoundInv lo v .A (k + u))) :
    Ret (forC lo 24 u r body) (fun r' => ∀ t, (r'.A.lane t).get.bits = keccakPn (24 - lo) (v.lane t).get.bits) := by
  refine Ret.for m (fun j r => RoundInv lo v .A (u * j) r) ?_ h0 ?_ ?_
  · rw [show 24 - lo = u * m by omega, Nat.mul_add_div hu, Nat.div_eq_of_lt (by omega)]
    rfl
  · intro j s hj hI
    have : u * j + u ≤ u * m := by
      rw [← Nat.mul_succ]
      exact Nat.mul_le_mul_left _ hj
    exact hb _ _ (by omega) hI
  · intro s hI t
    exact RoundInv.bits hI (by omega) (by omega) t

/-- Discharges a straight sequence of rounds. -/
macro "rounds_tac" : tactic => `(tactic|
  (repeat (refine (roundPrepare_inv (by assumption) (by omega) (by omega)).bind fun _ _ => ?_)))

theorem rounds24Full_ret (r : Regs) :
    Ret (rounds24Full r) (fun r' => ∀ t, (r'.A.lane t).get.bits = keccakPn 24 (r.A.lane t).get.bits) := by
  unfold rounds24Full
  have h := prepare_inv 0 r
  rounds_tac
  exact (roundLast_ret (by assumption) (by omega) (by omega)).mono fun _ h => h

theorem rounds12Full_ret (r : Regs) :
    Ret (rounds12Full r) (fun r' => ∀ t, (r'.A.lane t).get.bits = keccakPn 12 (r.A.lane t).get.bits) := by
  unfold rounds12Full
  have h := prepare_inv 12 r
  rounds_tac
  exact (roundLast_ret (by assumption) (by omega) (by omega)).mono fun _ h => h

theorem rounds24By12_ret (r : Regs) :
    Ret (rounds24By12 r) (fun r' => ∀ t, (r'.A.lane t).get.bits = keccakPn 24 (r.A.lane t).get.bits) := by
  unfold rounds24By12
  refine loop_inv (lo := 0) (m := 2) rfl (by omega) (prepare_inv 0 r) ?_
  intro k r hk hI
  rounds_tac
  exact (roundPrepare_inv (by assumption) (by omega) (by omega)).mono fun _ h => h

theorem rounds24By6_ret (r : Regs) :
    Ret (rounds24By6 r) (fun r' => ∀ t, (r'.A.lane t).get.bits = keccakPn 24 (r.A.lane t).get.bits) := by
  unfold rounds24By6
  refine loop_inv (lo := 0) (m := 4) rfl (by omega) (prepare_inv 0 r) ?_
  intro k r hk hI
  rounds_tac
  exact (roundPrepare_inv (by assumption) (by omega) (by omega)).mono fun _ h => h

theorem rounds24By4_ret (r : Regs) :
    Ret (rounds24By4 r) (fun r' => ∀ t, (r'.A.lane t).get.bits = keccakPn 24 (r.A.lane t).get.bits) := by
  unfold rounds24By4
  refine loop_inv (lo := 0) (m := 6) rfl (by omega) (prepare_inv 0 r) ?_
  intro k r hk hI
  rounds_tac
  exact (roundPrepare_inv (by assumption) (by omega) (by omega)).mono fun _ h => h

theorem rounds24By3_ret (r : Regs) :
    Ret (rounds24By3 r) (fun r' => ∀ t, (r'.A.lane t).get.bits = keccakPn 24 (r.A.lane t).get.bits) := by
  unfold rounds24By3
  refine loop_inv (lo := 0) (m := 8) rfl (by omega) (prepare_inv 0 r) ?_
  intro k r hk hI
  rounds_tac
  exact ⟨_, _, rfl, copy_inv (by assumption)⟩

theorem rounds24By2_ret (r : Regs) :
    Ret (rounds24By2 r) (fun r' => ∀ t, (r'.A.lane t).get.bits = keccakPn 24 (r.A.lane t).get.bits) := by
  unfold rounds24By2
  refine loop_inv (lo := 0) (m := 12) rfl (by omega) (prepare_inv 0 r) ?_
  intro k r hk hI
  rounds_tac
  exact (roundPrepare_inv (by assumption) (by omega) (by omega)).mono fun _ h => h

theorem rounds24By1_ret (r : Regs) :
    Ret (rounds24By1 r) (fun r' => ∀ t, (r'.A.lane t).get.bits = keccakPn 24 (r.A.lane t).get.bits) := by
  unfold rounds24By1
  refine loop_inv (lo := 0) (m := 24) rfl (by omega) (prepare_inv 0 r) ?_
  intro k r hk hI
  rounds_tac
  exact ⟨_, _, rfl, copy_inv (by assumption)⟩

theorem rounds12By6_ret (r : Regs) :
    Ret (rounds12By6 r) (fun r' => ∀ t, (r'.A.lane t).get.bits = keccakPn 12 (r.A.lane t).get.bits) := by
  unfold rounds12By6
  refine loop_inv (lo := 12) (m := 2) rfl (by omega) (prepare_inv 12 r) ?_
  intro k r hk hI
  rounds_tac
  exact (roundPrepare_inv (by assumption) (by omega) (by omega)).mono fun _ h => h

theorem rounds12By4_ret (r : Regs) :
    Ret (rounds12By4 r) (fun r' => ∀ t, (r'.A.lane t).get.bits = keccakPn 12 (r.A.lane t).get.bits) := by
  unfold rounds12By4
  refine loop_inv (lo := 12) (m := 3) rfl (by omega) (prepare_inv 12 r) ?_
  intro k r hk hI
  rounds_tac
  exact (roundPrepare_inv (by assumption) (by omega) (by omega)).mono fun _ h => h

theorem rounds12By3_ret (r : Regs) :
    Ret (rounds12By3 r) (fun r' => ∀ t, (r'.A.lane t).get.bits = keccakPn 12 (r.A.lane t).get.bits) := by
  unfold rounds12By3
  refine loop_inv (lo := 12) (m := 4) rfl (by omega) (prepare_inv 12 r) ?_
  intro k r hk hI
  rounds_tac
  exact ⟨_, _, rfl, copy_inv (by assumption)⟩

theorem rounds12By2_ret (r : Regs) :
    Ret (rounds12By2 r) (fun r' => ∀ t, (r'.A.lane t).get.bits = keccakPn 12 (r.A.lane t).get.bits) := by
  unfold rounds12By2
  refine loop_inv (lo := 12) (m := 6) rfl (by omega) (prepare_inv 12 r) ?_
  intro k r hk hI
  rounds_tac
  exact (roundPrepare_inv (by assumption) (by omega) (by omega)).mono fun _ h => h

theorem rounds12By1_ret (r : Regs) :
    Ret (rounds12By1 r) (fun r' => ∀ t, (r'.A.lane t).get.bits = keccakPn 12 (r.A.lane t).get.bits) := by
  unfold rounds12By1
  refine loop_inv (lo := 12) (m := 12) rfl (by omega) (prepare_inv 12 r) ?_
  intro k r hk hI
  rounds_tac
  exact ⟨_, _, rfl, copy_inv (by assumption)⟩

theorem rounds24U_ret (u : Unrolling) (r : Regs) :
    Ret (rounds24U u r) (fun r' => ∀ t, (r'.A.lane t).get.bits = keccakPn 24 (r.A.lane t).get.bits) := by
  cases u
  exacts [rounds24Full_ret r, rounds24By12_ret r, rounds24By6_ret r, rounds24By4_ret r, rounds24By3_ret r,
    rounds24By2_ret r, rounds24By1_ret r]

theorem rounds12U_ret (u : Unrolling) (r : Regs) :
    Ret (rounds12U u r) (fun r' => ∀ t, (r'.A.lane t).get.bits = keccakPn 12 (r.A.lane t).get.bits) := by
  cases u
  exacts [rounds12Full_ret r, rounds12Full_ret r, rounds12By6_ret r, rounds12By4_ret r, rounds12By3_ret r,
    rounds12By2_ret r, rounds12By1_ret r]

/-- The loop of `roundsN` from an even round on. -/
theorem roundsLoop_ret {lo : Nat} {v : VLanes} (x : Nat × Regs) (hx : lo ≤ x.1) (he : x.1 % 2 = 0)
    (hl : x.1 ≤ 24) (h : RoundInv lo v .A (x.1 - lo) x.2) :
    Ret (whileC (fun x : Nat × Regs => decide (x.1 < 24)) roundsPair x)
      (fun y => RoundInv lo v .A (24 - lo) y.2) := by
  refine Ret.while (fun x : Nat × Regs => lo ≤ x.1 ∧ x.1 % 2 = 0 ∧ x.1 ≤ 24 ∧ RoundInv lo v .A (x.1 - lo) x.2)
    (fun x => 24 - x.1) ?_ ?_ x ⟨hx, he, hl, h⟩
  · rintro ⟨i, r⟩ ⟨h1, h2, h3, h4⟩ hc
    simp only [decide_eq_true_eq] at h1 h2 h3 h4 hc ⊢
    unfold roundsPair
    simp only
    refine (roundPrepare_inv h4 (by omega) (by omega)).bind fun r1 g1 => ?_
    refine (roundPrepare_inv g1 (by omega) (by omega)).bind fun r2 g2 => ?_
    have hu : u32 (i + 2) = i + 2 := Nat.mod_eq_of_lt (by omega)
    rw [hu]
    refine ⟨_, _, rfl, ⟨by simp only; omega, by simp only; omega, by simp only; omega, ?_⟩, by simp only; omega⟩
    simp only
    rw [show i + 2 - lo = i - lo + 1 + 1 by omega]
    exact g2
  · rintro ⟨i, r⟩ ⟨h1, h2, h3, h4⟩ hc
    simp only [decide_eq_false_iff_not] at h1 h2 h3 h4 hc ⊢
    rw [show 24 - lo = i - lo by omega]
    exact h4

theorem roundsN_ret (n : Nat) (hn : n ≤ 24) (r : Regs) :
    Ret (roundsN n r) (fun r' => ∀ t, (r'.A.lane t).get.bits = keccakPn n (r.A.lane t).get.bits) := by
  unfold roundsN
  have hi : u32 (24 + 2 ^ 32 - n) = 24 - n := by unfold u32; omega
  simp only
  rw [hi]
  have h0 := prepare_inv (24 - n) r
  have h1 : Ret (roundsOdd (24 - n) (prepare r)) (fun x => 24 - n ≤ x.1 ∧ x.1 % 2 = 0 ∧ x.1 ≤ 24 ∧
      RoundInv (24 - n) r.A .A (x.1 - (24 - n)) x.2) := by
    unfold roundsOdd
    simp only [wp]
    split
    · rename_i h
      refine (roundPrepare_inv h0 (by omega) (by omega)).bind fun r1 g1 => ?_
      have hu : u32 (24 - n + 1) = 24 - n + 1 := Nat.mod_eq_of_lt (by omega)
      rw [hu]
      refine ⟨_, _, rfl, by simp only; omega, by simp only; omega, by simp only; omega, ?_⟩
      simp only
      rw [show 24 - n + 1 - (24 - n) = 0 + 1 by omega]
      exact copy_inv g1
    · rename_i h
      refine ⟨_, _, rfl, by simp only; omega, by simp only; omega, by simp only; omega, ?_⟩
      simp only
      rw [Nat.sub_self]
      exact h0
  refine h1.bind fun x hx => ?_
  refine (roundsLoop_ret x hx.1 hx.2.1 hx.2.2.1 hx.2.2.2).bind fun y hy => ?_
  refine ⟨_, _, rfl, fun t => ?_⟩
  exact RoundInv.bits hy (by omega) (by omega) t

theorem roundsN_even (n : Nat) (hn : 24 < n) (hl : n < 2 ^ 32) (he : n % 2 = 0) (r : Regs) :
    Ret (roundsN n r) (fun r' => r'.A = r.A) := by
  unfold roundsN
  have hi : u32 (24 + 2 ^ 32 - n) = 24 + 2 ^ 32 - n := by unfold u32; omega
  simp only
  rw [hi]
  unfold roundsOdd
  simp only [wp]
  rw [if_neg (by omega)]
  simp only [wp]
  rw [Ret_bind_iff, Ret_while_unfold, if_neg (by simp only [decide_eq_true_eq]; omega)]
  exact ⟨_, _, rfl, ⟨_, _, rfl, rfl⟩⟩

theorem roundsN_odd (n : Nat) (hn : 24 < n) (hl : n < 2 ^ 32) (he : n % 2 = 1) (r : Regs) :
    roundsN n r = .ub .oobRead := by
  unfold roundsN
  have hi : u32 (24 + 2 ^ 32 - n) = 24 + 2 ^ 32 - n := by unfold u32; omega
  simp only
  rw [hi]
  have hc : CONST256_64 (24 + 2 ^ 32 - n) = .ub .oobRead := by
    unfold CONST256_64 rd
    have : ¬ (24 + 2 ^ 32 - n < KeccakF1600RoundConstants.length) := by
      rw [constants_eq]; show ¬ _ < 24; omega
    rw [List.getElem?_eq_none (by omega)]
    rfl
  unfold roundsOdd
  rw [if_pos (by omega)]
  unfold roundPrepare
  rw [hc]
  rfl

end Frodo
