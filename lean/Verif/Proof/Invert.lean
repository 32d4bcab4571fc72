import Verif.Spec.Invert
import Verif.Spec.SnP4
import Verif.Proof.Aes
import Verif.Proof.KeccakF
import Mathlib.Data.Fintype.Pi
import Mathlib.Data.Fintype.EquivFin
import Mathlib.Tactic.Abel

/-! # AES and Keccak-f are permutations: proofs -/

namespace Frodo

open Spec

/-! ## AES -/

theorem InvSBox_SBox (b : U8) : InvSBox (SBox b) = b := by
  rw [← nth_sbox]
  revert b
  decide +kernel

theorem gmul_as_xtime : ∀ b : U8, gmul 0x09 b = xtime (xtime (xtime b)) ^^^ b ∧
    gmul 0x0b b = xtime (xtime (xtime b)) ^^^ xtime b ^^^ b ∧
    gmul 0x0d b = xtime (xtime (xtime b)) ^^^ xtime (xtime b) ^^^ b ∧
    gmul 0x0e b = xtime (xtime (xtime b)) ^^^ xtime (xtime b) ^^^ xtime b := by
  decide +kernel

theorem gmul_xor (x y : U8) : gmul 0x09 (x ^^^ y) = gmul 0x09 x ^^^ gmul 0x09 y ∧
    gmul 0x0b (x ^^^ y) = gmul 0x0b x ^^^ gmul 0x0b y ∧ gmul 0x0d (x ^^^ y) = gmul 0x0d x ^^^ gmul 0x0d y ∧
    gmul 0x0e (x ^^^ y) = gmul 0x0e x ^^^ gmul 0x0e y := by
  simp only [gmul_as_xtime, xtime_xor]
  refine ⟨?_, ?_, ?_, ?_⟩ <;> ac_rfl

/-- The products of the coefficients of `InvMixColumns` and `MixColumns`. -/
theorem mix_products : ∀ x : U8,
    gmul 0x0e (gmul 2 x) ^^^ gmul 0x0b x ^^^ gmul 0x0d x ^^^ gmul 0x09 (gmul 3 x) = x ∧
    gmul 0x0e (gmul 3 x) ^^^ gmul 0x0b (gmul 2 x) ^^^ gmul 0x0d x ^^^ gmul 0x09 x = 0 ∧
    gmul 0x0e x ^^^ gmul 0x0b (gmul 3 x) ^^^ gmul 0x0d (gmul 2 x) ^^^ gmul 0x09 x = 0 ∧
    gmul 0x0e x ^^^ gmul 0x0b x ^^^ gmul 0x0d (gmul 3 x) ^^^ gmul 0x09 (gmul 2 x) = 0 := by
  decide +kernel

/-- One column. -/
theorem mix_column (a b c d : U8) :
    gmul 0x0e (gmul 2 a ^^^ gmul 3 b ^^^ c ^^^ d) ^^^ gmul 0x0b (a ^^^ gmul 2 b ^^^ gmul 3 c ^^^ d) ^^^
      gmul 0x0d (a ^^^ b ^^^ gmul 2 c ^^^ gmul 3 d) ^^^ gmul 0x09 (gmul 3 a ^^^ b ^^^ c ^^^ gmul 2 d) = a := by
  simp only [gmul_xor]
  obtain ⟨h1, -, -, -⟩ := mix_products a
  obtain ⟨-, h2, -, -⟩ := mix_products b
  obtain ⟨-, -, h3, -⟩ := mix_products c
  obtain ⟨-, -, -, h4⟩ := mix_products d
  have e : (gmul 0x0e (gmul 2 a) ^^^ gmul 0x0b a ^^^ gmul 0x0d a ^^^ gmul 0x09 (gmul 3 a)) ^^^
      (gmul 0x0e (gmul 3 b) ^^^ gmul 0x0b (gmul 2 b) ^^^ gmul 0x0d b ^^^ gmul 0x09 b) ^^^
      (gmul 0x0e c ^^^ gmul 0x0b (gmul 3 c) ^^^ gmul 0x0d (gmul 2 c) ^^^ gmul 0x09 c) ^^^
      (gmul 0x0e d ^^^ gmul 0x0b d ^^^ gmul 0x0d (gmul 3 d) ^^^ gmul 0x09 (gmul 2 d)) = a := by
    rw [h1, h2, h3, h4]; simp
  refine Eq.trans ?_ e
  ac_rfl

theorem InvMixColumns_MixColumns (s : AState) : InvMixColumns (MixColumns s) = s := by
  funext r c
  fin_cases r
  · exact mix_column (s 0 c) (s 1 c) (s 2 c) (s 3 c)
  · refine Eq.trans ?_ (mix_column (s 1 c) (s 2 c) (s 3 c) (s 0 c))
    simp only [InvMixColumns, MixColumns, gmul_xor]
    ac_rfl
  · refine Eq.trans ?_ (mix_column (s 2 c) (s 3 c) (s 0 c) (s 1 c))
    simp only [InvMixColumns, MixColumns, gmul_xor]
    ac_rfl
  · refine Eq.trans ?_ (mix_column (s 3 c) (s 0 c) (s 1 c) (s 2 c))
    simp only [InvMixColumns, MixColumns, gmul_xor]
    ac_rfl

theorem InvShiftRows_ShiftRows (s : AState) : InvShiftRows (ShiftRows s) = s := by
  funext r c
  show s r (c - r + r) = s r c
  rw [sub_add_cancel]

theorem InvSubBytes_SubBytes (s : AState) : InvSubBytes (SubBytes s) = s :=
  funext fun r => funext fun c => InvSBox_SBox (s r c)

theorem AddRoundKey_self (s : AState) (w : Nat → AWord) (k : Nat) :
    AddRoundKey (AddRoundKey s w k) w k = s := by
  funext r c
  show s r c ^^^ w (4 * k + c) r ^^^ w (4 * k + c) r = s r c
  rw [BitVec.xor_assoc, BitVec.xor_self, BitVec.xor_zero]

/-- FIPS 197: decryption inverts encryption, for every key schedule. -/
theorem InvCipher_Cipher (Nr : Nat) (s : AState) (w : Nat → AWord) : InvCipher Nr (Cipher Nr s w) w = s := by
  have key : ∀ (l : List Nat) (t : AState),
      l.reverse.foldl (fun s k => InvMixColumns (AddRoundKey (InvSubBytes (InvShiftRows s)) w (k + 1)))
        (ShiftRows (SubBytes (l.foldl
          (fun s k => AddRoundKey (MixColumns (ShiftRows (SubBytes s))) w (k + 1)) t))) =
      ShiftRows (SubBytes t) := by
    intro l
    induction l with
    | nil => intro t; rfl
    | cons a l ih =>
      intro t
      simp only [List.reverse_cons, List.foldl_append, List.foldl_cons, List.foldl_nil]
      rw [ih, InvShiftRows_ShiftRows, InvSubBytes_SubBytes, AddRoundKey_self, InvMixColumns_MixColumns]
  unfold InvCipher Cipher
  simp only
  rw [AddRoundKey_self, key, InvShiftRows_ShiftRows, InvSubBytes_SubBytes, AddRoundKey_self]

theorem stateOfBytes_bytesOfState (s : AState) : stateOfBytes (bytesOfState s) = s := by
  funext r c
  exact nth_bytesOfState s r c

theorem bytesOfState_stateOfBytes {l : List U8} (h : l.length = 16) : bytesOfState (stateOfBytes l) = l := by
  apply ext_nth
  · rw [length_bytesOfState, h]
  · intro i hi
    rw [length_bytesOfState] at hi
    have := nth_bytesOfState (stateOfBytes l) (Fin.ofNat 4 i) (Fin.ofNat 4 (i / 4))
    simp only [Fin.ofNat, stateOfBytes] at this
    rw [show 4 * (i / 4 % 4) + i % 4 = i by omega] at this
    exact this

theorem aesInv_aes (Nk : Nat) (key : List U8) {block : List U8} (h : block.length = 16) :
    aesInv Nk key (aes Nk key block) = block := by
  unfold aesInv aes
  rw [stateOfBytes_bytesOfState, InvCipher_Cipher, bytesOfState_stateOfBytes h]

/-! ## Keccak -/

/-- Theta on the parities of the columns (proof device). -/
def parTheta (k : Nat) (p : Fin 5 → Fin 64 → Bool) : Fin 5 → Fin 64 → Bool := fun x z =>
  p x z ^^ (p (x - Fin.ofNat 5 (2 ^ k)) z ^^ p (x + Fin.ofNat 5 (2 ^ k)) (z - Fin.ofNat 64 (2 ^ k)))

theorem thetaC_theta (A : KState) : thetaC (theta A) = parTheta 0 (thetaC A) := by
  funext x z
  show thetaC (theta A) x z = (thetaC A x z ^^ (thetaC A (x - 1) z ^^ thetaC A (x + 1) (z - 1)))
  conv_lhs => unfold thetaC theta
  generalize thetaC A (x - 1) z = e, thetaC A (x + 1) (z - 1) = f
  unfold thetaC
  generalize A x 0 z = a, A x 1 z = b, A x 2 z = c, A x 3 z = d, A x 4 z = g
  revert a b c d e f g
  decide

theorem ofNat_two_pow_succ (n : Nat) [NeZero n] (k : Nat) :
    Fin.ofNat n (2 ^ (k + 1)) = Fin.ofNat n (2 ^ k) + Fin.ofNat n (2 ^ k) := by
  apply Fin.ext
  simp only [Fin.ofNat, Fin.val_add, Nat.pow_succ]
  rw [← Nat.add_mod]
  congr 1; omega

theorem parTheta_parTheta (k : Nat) (p : Fin 5 → Fin 64 → Bool) :
    parTheta k (parTheta k p) = parTheta (k + 1) p := by
  funext x z
  unfold parTheta
  rw [ofNat_two_pow_succ, ofNat_two_pow_succ]
  generalize Fin.ofNat 5 (2 ^ k) = a, Fin.ofNat 64 (2 ^ k) = b
  rw [sub_add_cancel, add_sub_cancel_right, show x - a - a = x - (a + a) by abel, show x + a + a = x + (a + a) by abel,
    show z - b - b = z - (b + b) by abel]
  generalize p x z = c1, p (x - a) z = c2, p (x + a) (z - b) = c3, p (x - (a + a)) z = c4, p x (z - b) = c5,
    p (x + (a + a)) (z - (b + b)) = c6
  revert c1 c2 c3 c4 c5 c6
  decide

theorem parTheta_inj {p q : Fin 5 → Fin 64 → Bool} (h : parTheta 0 p = parTheta 0 q) : p = q := by
  have key : ∀ k, parTheta k p = parTheta k q := by
    intro k
    induction k with
    | zero => exact h
    | succ k ih => rw [← parTheta_parTheta, ← parTheta_parTheta, ih]
  have h6 := key 6
  have row : ∀ a b : Fin 5 → Bool, (∀ x, (a x ^^ (a (x - 4) ^^ a (x + 4))) = (b x ^^ (b (x - 4) ^^ b (x + 4)))) → a = b := by
    intro a b hab
    have h0 := hab 0
    have h1 := hab 1
    have h2 := hab 2
    have h3 := hab 3
    have h4 := hab 4
    have : ∀ a0 a1 a2 a3 a4 b0 b1 b2 b3 b4 : Bool, (a0 ^^ (a1 ^^ a4)) = (b0 ^^ (b1 ^^ b4)) →
        (a1 ^^ (a2 ^^ a0)) = (b1 ^^ (b2 ^^ b0)) → (a2 ^^ (a3 ^^ a1)) = (b2 ^^ (b3 ^^ b1)) →
        (a3 ^^ (a4 ^^ a2)) = (b3 ^^ (b4 ^^ b2)) → (a4 ^^ (a0 ^^ a3)) = (b4 ^^ (b0 ^^ b3)) →
        a0 = b0 ∧ a1 = b1 ∧ a2 = b2 ∧ a3 = b3 ∧ a4 = b4 := by decide +kernel
    obtain ⟨e0, e1, e2, e3, e4⟩ := this _ _ _ _ _ _ _ _ _ _ h0 h1 h2 h3 h4
    funext x
    fin_cases x <;> assumption
  funext x z
  refine congrFun (row (fun x => p x z) (fun x => q x z) fun x => ?_) x
  have := congrFun (congrFun h6 x) z
  unfold parTheta at this
  have e1 : Fin.ofNat 5 (2 ^ 6) = 4 := by decide
  have e2 : Fin.ofNat 64 (2 ^ 6) = 0 := by decide
  rwa [e1, e2, sub_zero] at this

theorem theta_inj {A B : KState} (h : theta A = theta B) : A = B := by
  have hp : thetaC A = thetaC B := parTheta_inj (by rw [← thetaC_theta, ← thetaC_theta, h])
  funext x y z
  have := congrFun (congrFun (congrFun h x) y) z
  unfold theta at this
  rw [hp] at this
  revert this
  generalize A x y z = a, B x y z = b, thetaC B (x - 1) z = c, thetaC B (x + 1) (z - 1) = d
  revert a b c d
  decide

theorem rho_inj {A B : KState} (h : rho A = rho B) : A = B := by
  funext x y z
  have := congrFun (congrFun (congrFun h x) y) (z + Fin.ofNat 64 (rotOff x y))
  rwa [rho_eq, rho_eq, add_sub_cancel_right] at this

theorem pi_inj {A B : KState} (h : pi A = pi B) : A = B := by
  funext x y z
  have := congrFun (congrFun (congrFun h y) (2 * (x - y))) z
  unfold pi at this
  rwa [show ∀ x y : Fin 5, y + 3 * (2 * (x - y)) = x by decide] at this

theorem chi_inj {A B : KState} (h : chi A = chi B) : A = B := by
  have row : ∀ a b : Fin 5 → Bool, (∀ x, (a x ^^ ((a (x + 1) ^^ true) && a (x + 2))) =
      (b x ^^ ((b (x + 1) ^^ true) && b (x + 2)))) → a = b := by
    intro a b hab
    have h0 := hab 0
    have h1 := hab 1
    have h2 := hab 2
    have h3 := hab 3
    have h4 := hab 4
    have : ∀ a0 a1 a2 a3 a4 b0 b1 b2 b3 b4 : Bool, (a0 ^^ ((a1 ^^ true) && a2)) = (b0 ^^ ((b1 ^^ true) && b2)) →
        (a1 ^^ ((a2 ^^ true) && a3)) = (b1 ^^ ((b2 ^^ true) && b3)) →
        (a2 ^^ ((a3 ^^ true) && a4)) = (b2 ^^ ((b3 ^^ true) && b4)) →
        (a3 ^^ ((a4 ^^ true) && a0)) = (b3 ^^ ((b4 ^^ true) && b0)) →
        (a4 ^^ ((a0 ^^ true) && a1)) = (b4 ^^ ((b0 ^^ true) && b1)) →
        a0 = b0 ∧ a1 = b1 ∧ a2 = b2 ∧ a3 = b3 ∧ a4 = b4 := by decide +kernel
    obtain ⟨e0, e1, e2, e3, e4⟩ := this _ _ _ _ _ _ _ _ _ _ h0 h1 h2 h3 h4
    funext x
    fin_cases x <;> assumption
  funext x y z
  exact congrFun (row (fun x => A x y z) (fun x => B x y z) fun x => congrFun (congrFun (congrFun h x) y) z) x

theorem iota_inj {A B : KState} {i : Nat} (h : iota A i = iota B i) : A = B := by
  funext x y z
  have := congrFun (congrFun (congrFun h x) y) z
  unfold iota at this
  split at this
  · revert this
    generalize A x y z = a, B x y z = b, (RC i).getD z false = c
    revert a b c
    decide
  · exact this

theorem Rnd_inj {A B : KState} {i : Nat} (h : Rnd A i = Rnd B i) : A = B :=
  theta_inj (rho_inj (pi_inj (chi_inj (iota_inj h))))

/-- Any sequence of rounds is a permutation of the states. -/
theorem rounds_bijective (l : List Nat) : Function.Bijective (fun A : KState => l.foldl Rnd A) := by
  refine Finite.injective_iff_bijective.1 ?_
  induction l with
  | nil => exact fun _ _ h => h
  | cons i l ih => exact fun A B h => Rnd_inj (ih h)

end Frodo
