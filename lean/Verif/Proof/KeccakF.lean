import Verif.Model.Keccak
import Verif.Spec.Keccak
import Verif.C.Logic
import Mathlib.Tactic.FinCases
import Mathlib.Data.Fintype.Basic

/-! # The C permutation is Keccak-f[1600] -/

namespace Frodo

open Spec

/-- State as 25 lanes (proof device). -/
abbrev LState := Fin 5 → Fin 5 → U64

/-- The lane at `(x, y)` (proof device). -/
def Lanes.get (a : Lanes) : LState := fun x y =>
  match y, x with
  | 0, 0 => a.ba | 0, 1 => a.be | 0, 2 => a.bi | 0, 3 => a.bo | 0, 4 => a.bu
  | 1, 0 => a.ga | 1, 1 => a.ge | 1, 2 => a.gi | 1, 3 => a.go | 1, 4 => a.gu
  | 2, 0 => a.ka | 2, 1 => a.ke | 2, 2 => a.ki | 2, 3 => a.ko | 2, 4 => a.ku
  | 3, 0 => a.ma | 3, 1 => a.me | 3, 2 => a.mi | 3, 3 => a.mo | 3, 4 => a.mu
  | 4, 0 => a.sa | 4, 1 => a.se | 4, 2 => a.si | 4, 3 => a.so | 4, 4 => a.su

/-- Rotation offsets (proof device). -/
def rotOff (x y : Fin 5) : Nat :=
  match y, x with
  | 0, 0 => 0 | 0, 1 => 1 | 0, 2 => 62 | 0, 3 => 28 | 0, 4 => 27
  | 1, 0 => 36 | 1, 1 => 44 | 1, 2 => 6 | 1, 3 => 55 | 1, 4 => 20
  | 2, 0 => 3 | 2, 1 => 10 | 2, 2 => 43 | 2, 3 => 25 | 2, 4 => 39
  | 3, 0 => 41 | 3, 1 => 45 | 3, 2 => 15 | 3, 3 => 21 | 3, 4 => 8
  | 4, 0 => 18 | 4, 1 => 2 | 4, 2 => 61 | 4, 3 => 56 | 4, 4 => 14

def lC (A : LState) (x : Fin 5) : U64 := A x 0 ^^^ A x 1 ^^^ A x 2 ^^^ A x 3 ^^^ A x 4
def lTheta (A : LState) : LState := fun x y => A x y ^^^ (lC A (x - 1) ^^^ ROL (lC A (x + 1)) 1)
def lRho (A : LState) : LState := fun x y => ROL (A x y) (rotOff x y)
def lPi (A : LState) : LState := fun x y => A (x + 3 * y) x
def lChi (A : LState) : LState := fun x y => A x y ^^^ (~~~ A (x + 1) y &&& A (x + 2) y)
def lIota (rc : U64) (A : LState) : LState := fun x y =>
  if x = 0 ∧ y = 0 then A x y ^^^ rc else A x y
def lRound (rc : U64) (A : LState) : LState := lIota rc (lChi (lPi (lRho (lTheta A))))

theorem ROL_zero (a : U64) : ROL a 0 = a := by
  unfold ROL
  simp only [BitVec.shiftLeft_zero, Nat.sub_zero]
  rw [BitVec.ushiftRight_eq_zero (Nat.le_refl _), BitVec.xor_zero]

theorem lRho_00 (A : LState) : lRho A 0 0 = A 0 0 := ROL_zero _

set_option maxRecDepth 4000 in
theorem roundAE_get (rc : U64) (a : Lanes) : (roundAE rc a).get = lRound rc a.get := by
  funext x y
  fin_cases y <;> fin_cases x <;>
    simp only [lRound, lIota, lChi, lPi, Fin.zero_eta, Fin.mk_one, Fin.reduceFinMk, Fin.isValue, Fin.reduceAdd,
      Fin.reduceMul, Fin.reduceEq, and_self, and_true, and_false, true_and, false_and, if_true, if_false,
      Fin.mul_zero, Fin.add_zero, Fin.zero_add, lRho_00, ↓reduceIte] <;> rfl

set_option maxRecDepth 4000 in
theorem roundEA_get (rc : U64) (a : Lanes) : (roundEA rc a).get = lRound rc a.get := by
  funext x y
  fin_cases y <;> fin_cases x <;>
    simp only [lRound, lIota, lChi, lPi, Fin.zero_eta, Fin.mk_one, Fin.reduceFinMk, Fin.isValue, Fin.reduceAdd,
      Fin.reduceMul, Fin.reduceEq, and_self, and_true, and_false, true_and, false_and, if_true, if_false,
      Fin.mul_zero, Fin.add_zero, Fin.zero_add, lRho_00, ↓reduceIte] <;> rfl

/-- Bits of lanes (proof device). -/
def LState.bits (A : LState) : KState := fun x y z => (A x y).getLsbD z

theorem ROL_bit (a : U64) (k : Nat) (hk : k < 64) (z : Fin 64) :
    (ROL a k).getLsbD z = a.getLsbD (z - Fin.ofNat 64 k : Fin 64) := by
  unfold ROL
  have hz := z.isLt
  have hv : ((z - Fin.ofNat 64 k : Fin 64) : Nat) = (64 - k + z) % 64 := by
    rw [Fin.sub_def]; simp [Nat.mod_eq_of_lt hk]
  simp only [BitVec.getLsbD_xor, BitVec.getLsbD_shiftLeft, BitVec.getLsbD_ushiftRight]
  rw [hv]
  by_cases h : (z : Nat) < k
  · rw [Nat.mod_eq_of_lt (by omega)]
    simp [h]
  · rw [show 64 - k + (z : Nat) = (z - k) + 64 by omega, Nat.add_mod_right,
      Nat.mod_eq_of_lt (show (z : Nat) - k < 64 by omega),
      BitVec.getLsbD_of_ge a ((z : Nat) - k + 64) (by omega)]
    simp [h, hz]

theorem lC_bits (A : LState) (x : Fin 5) (z : Fin 64) :
    (lC A x).getLsbD z = thetaC A.bits x z := by
  simp [lC, thetaC, LState.bits, Bool.xor_assoc]

theorem lTheta_bits (A : LState) : (lTheta A).bits = theta A.bits := by
  funext x y z
  simp only [lTheta, LState.bits, theta, BitVec.getLsbD_xor, ROL_bit _ 1 (by omega), lC_bits]
  rfl

theorem rho_eq (A : KState) (x y : Fin 5) (z : Fin 64) :
    rho A x y z = A x y (z - Fin.ofNat 64 (rotOff x y)) := by
  fin_cases y <;> fin_cases x <;> first | rfl | skip
  show A 0 0 z = A 0 0 (z - 0)
  have : ∀ z : Fin 64, z - 0 = z := by decide
  rw [this]

theorem rotOff_lt (x y : Fin 5) : rotOff x y < 64 := by
  revert x y; decide

theorem lRho_bits (A : LState) : (lRho A).bits = rho A.bits := by
  funext x y z
  rw [rho_eq]
  simp only [lRho, LState.bits, ROL_bit _ _ (rotOff_lt x y)]

theorem lPi_bits (A : LState) : (lPi A).bits = pi A.bits := rfl

theorem lChi_bits (A : LState) : (lChi A).bits = chi A.bits := by
  funext x y z
  simp [lChi, chi, LState.bits]

theorem lIota_bits (A : LState) (rc : U64) (ir : Nat)
    (h : ∀ z : Fin 64, rc.getLsbD z = (RC ir).getD z false) :
    (lIota rc A).bits = iota A.bits ir := by
  funext x y z
  simp only [lIota, iota, LState.bits]
  by_cases hxy : x = 0 ∧ y = 0
  · rw [if_pos hxy, if_pos hxy, BitVec.getLsbD_xor, h]
  · rw [if_neg hxy, if_neg hxy]

theorem RC_eq : ∀ ir : Fin 24, ∀ z : Fin 64,
    (nth KeccakF_RoundConstants ir).getLsbD z = (RC ir).getD z false := by
  decide +kernel

theorem lRound_bits (A : LState) (ir : Nat) (h : ir < 24) :
    (lRound (nth KeccakF_RoundConstants ir) A).bits = Rnd A.bits ir := by
  unfold lRound Rnd
  rw [lIota_bits _ _ ir (RC_eq ⟨ir, h⟩), lChi_bits, lPi_bits, lRho_bits, lTheta_bits]

/-- Lanes of the C state array (proof device). -/
def lanesOf (s : List U64) : LState := fun x y => nth s (5 * y + x)

/-- The state array of the C representation. -/
def kstate (s : List U64) : KState := (lanesOf s).bits

theorem copyFromState_ret {s : List U64} (h : s.length = 25) :
    Ret (copyFromState s) (fun a => a.get = lanesOf s) := by
  unfold copyFromState
  simp only [wp, h]
  refine ⟨by omega, ?_⟩
  repeat refine ⟨by omega, ?_⟩
  funext x y
  fin_cases y <;> fin_cases x <;> rfl

theorem length_25 {s : List U64} (h : s.length = 25) : ∃ a0 a1 a2 a3 a4 a5 a6 a7 a8 a9 a10 a11 a12
    a13 a14 a15 a16 a17 a18 a19 a20 a21 a22 a23 a24, s = [a0, a1, a2, a3, a4, a5, a6, a7, a8, a9,
    a10, a11, a12, a13, a14, a15, a16, a17, a18, a19, a20, a21, a22, a23, a24] := by
  refine ⟨nth s 0, nth s 1, nth s 2, nth s 3, nth s 4, nth s 5, nth s 6, nth s 7, nth s 8, nth s 9,
    nth s 10, nth s 11, nth s 12, nth s 13, nth s 14, nth s 15, nth s 16, nth s 17, nth s 18,
    nth s 19, nth s 20, nth s 21, nth s 22, nth s 23, nth s 24, ?_⟩
  have := eq_range_map s
  rw [h] at this
  exact this

theorem copyToState_ret {s : List U64} (h : s.length = 25) (a : Lanes) :
    Ret (copyToState s a) (fun s' => s'.length = 25 ∧ lanesOf s' = a.get) := by
  obtain ⟨a0, a1, a2, a3, a4, a5, a6, a7, a8, a9, a10, a11, a12, a13, a14, a15, a16, a17, a18, a19,
    a20, a21, a22, a23, a24, rfl⟩ := length_25 h
  unfold copyToState
  simp only [wp, List.set_cons_zero, List.set_cons_succ, List.length_cons, List.length_nil]
  repeat refine ⟨by omega, ?_⟩
  refine ⟨trivial, ?_⟩
  funext x y
  fin_cases y <;> fin_cases x <;> rfl

theorem KeccakF_ret {s : List U64} (h : s.length = 25) :
    Ret (KeccakF1600_StatePermute s)
      (fun s' => s'.length = 25 ∧ kstate s' = keccakP (kstate s)) := by
  unfold KeccakF1600_StatePermute
  refine (copyFromState_ret h).bind fun a ha => ?_
  refine Ret.bind (Q := fun a => a.get.bits = keccakP (kstate s)) ?_ ?_
  · refine Ret.forStep (m := 12) (fun k a => a.get.bits = (List.range (2 * k)).foldl Rnd (kstate s))
      (by omega) rfl ?_ ?_ ?_
    · simp [ha, kstate]
    · intro k a hk hI
      simp only [wp]
      have hl : KeccakF_RoundConstants.length = 24 := rfl
      refine ⟨by omega, by omega, ?_⟩
      rw [roundEA_get, roundAE_get, lRound_bits _ _ (by omega), lRound_bits _ _ (by omega), hI,
        show 2 * (k + 1) = 2 * k + 1 + 1 by omega, List.range_succ, List.range_succ]
      simp
    · intro a hI; exact hI
  · intro a ha'
    refine (copyToState_ret h a).mono ?_
    rintro s' ⟨h1, h2⟩
    exact ⟨h1, by rw [kstate, h2, ha']⟩

end Frodo
