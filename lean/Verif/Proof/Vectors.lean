import Verif.Proof.AesFast
import Verif.Proof.Sponge
import Verif.Proof.Matrix

/-! # Evaluation of the specification on published test vectors

These are checks of the specifications of AES and SHAKE: formulations that are proved equal to the
specifications are evaluated by the kernel. -/

namespace Frodo

/-- The result of a computation that returns normally (proof device). -/
def resultOf {α : Type} : C α → Option α
  | .ok a _ => some a
  | _ => none

theorem Ret.result {α : Type} {m : C α} {P : α → Prop} {v : α} (h : Ret m P)
    (hv : resultOf m = some v) : P v := by
  obtain ⟨a, t, h1, h2⟩ := h
  rw [h1] at hv
  injection hv with e
  exact e ▸ h2

theorem keccakP_eval {st st' : List U64} (hl : st.length = 25)
    (h : resultOf (KeccakF1600_StatePermute st) = some st') :
    Spec.keccakP (fun (x y : Fin 5) (z : Fin 64) => (nth st (5 * y + x)).getLsbD z) =
      fun (x y : Fin 5) (z : Fin 64) => (nth st' (5 * y + x)).getLsbD z :=
  ((KeccakF_ret hl).result h).2.symm

/-- The bits of a state of 25 words (proof device). -/
def stateBits (st : List U64) : List Bool := st.flatMap fun w => (List.range 64).map w.getLsbD

theorem stateOfBits_eval {st : List U64} (hl : st.length = 25) :
    Spec.stateOfBits (stateBits st) =
      fun (x y : Fin 5) (z : Fin 64) => (nth st (5 * y + x)).getLsbD z := by
  funext x y z
  unfold Spec.stateOfBits stateBits
  have : ∀ l : List Bool, ∀ k, l.getD k false = nth l k := fun l k => rfl
  rw [this, Nat.mul_comm 64, nth_flatMap_const _ _ 64 (by simp) _ _ (by omega) z.isLt,
    nth_range_map, if_pos z.isLt]

/-- SHAKE of a message that fits in one block together with its padding, with an output of at most one
block, in terms of the permutation. -/
theorem keccak_short {c n : Nat} {N : List Bool} {st st' : List U64} (hc : 1 ≤ c) (hc' : c < 1600)
    (hN : N.length + 2 ≤ 1600 - c) (hn : 8 * n ≤ 1600 - c) (hl : st.length = 25)
    (hst : Spec.xorBits (List.replicate 1600 false)
      (N ++ Spec.pad101 (1600 - c) N.length ++ List.replicate c false) = stateBits st)
    (hk : resultOf (KeccakF1600_StatePermute st) = some st') :
    Spec.bitsToBytes n (Spec.keccak c N (8 * n)) = Spec.bitsToBytes n (((Spec.bitsOfState
      fun (x y : Fin 5) (z : Fin 64) => (nth st' (5 * y + x)).getLsbD z).take (1600 - c)).take (8 * n)) := by
  have hlen : (N ++ Spec.pad101 (1600 - c) N.length).length = 1600 - c := by
    simp only [Spec.pad101, List.length_append, List.length_cons, List.length_nil,
      List.length_replicate]
    have : ((-(N.length : Int) - 2) % ((1600 - c : Nat) : Int)) = (1600 - c - (N.length + 2) : Nat) ∨
        N.length + 2 = 1600 - c := by
      by_cases h : N.length + 2 = 1600 - c
      · exact Or.inr h
      · left
        have e : (-(N.length : Int) - 2) = ((1600 - c - (N.length + 2) : Nat) : Int) +
          ((1600 - c : Nat) : Int) * (-1) := by omega
        rw [e, Int.add_mul_emod_self_left, Int.emod_eq_of_lt (by omega) (by omega)]
    rcases this with h | h
    · rw [h]; omega
    · have e : (-(N.length : Int) - 2) = ((1600 - c : Nat) : Int) * (-1) := by omega
      rw [e, Int.mul_emod_right]; simp; omega
  unfold Spec.keccak Spec.sponge
  rw [Spec.absorb, dif_neg (by omega), Spec.absorb, dif_pos (by rw [List.length_drop]; omega),
    Spec.squeeze, dif_pos (Or.inl hn), List.take_of_length_le (l := N ++ _) (by omega),
    show 1600 - (1600 - c) = c by omega]
  unfold Spec.keccakF
  rw [hst, stateOfBits_eval hl, keccakP_eval hl hk]

set_option maxRecDepth 100000

theorem AES128_zero : Spec.AES128 (List.replicate 16 0) (List.replicate 16 0) =
    [0x66, 0xe9, 0x4b, 0xd4, 0xef, 0x8a, 0x2c, 0x3b,
     0x88, 0x4c, 0xfa, 0x59, 0xca, 0x34, 0x2b, 0x2e] :=
  AesFast.AES128_eval (by decide +kernel)

/-- The example of FIPS 197, appendix C.1. -/
theorem AES128_fips : Spec.AES128 [0x00, 0x01, 0x02, 0x03, 0x04, 0x05, 0x06, 0x07, 0x08, 0x09, 0x0a,
      0x0b, 0x0c, 0x0d, 0x0e, 0x0f]
    [0x00, 0x11, 0x22, 0x33, 0x44, 0x55, 0x66, 0x77, 0x88, 0x99, 0xaa, 0xbb, 0xcc, 0xdd, 0xee,
      0xff] =
    [0x69, 0xc4, 0xe0, 0xd8, 0x6a, 0x7b, 0x04, 0x30, 0xd8, 0xcd, 0xb7, 0x80, 0x70, 0xb4, 0xc5,
      0x5a] :=
  AesFast.AES128_eval (by decide +kernel)

/-- The example of FIPS 197, appendix C.3. -/
theorem AES256_fips : Spec.AES256 [0x00, 0x01, 0x02, 0x03, 0x04, 0x05, 0x06, 0x07, 0x08, 0x09, 0x0a,
      0x0b, 0x0c, 0x0d, 0x0e, 0x0f, 0x10, 0x11, 0x12, 0x13, 0x14, 0x15, 0x16, 0x17, 0x18, 0x19, 0x1a,
      0x1b, 0x1c, 0x1d, 0x1e, 0x1f]
    [0x00, 0x11, 0x22, 0x33, 0x44, 0x55, 0x66, 0x77, 0x88, 0x99, 0xaa, 0xbb, 0xcc, 0xdd, 0xee,
      0xff] =
    [0x8e, 0xa2, 0xb7, 0xca, 0x51, 0x67, 0x45, 0xbf, 0xea, 0xfc, 0x49, 0x90, 0x4b, 0x49, 0x60,
      0x89] :=
  AesFast.AES256_eval (by decide +kernel)

/-- The state after absorbing the empty string with rate 168. -/
def empty128 : List U64 := [0x1f, 0, 0, 0, 0, 0, 0, 0, 0, 0, 0, 0, 0, 0, 0, 0, 0, 0, 0, 0,
  0x8000000000000000, 0, 0, 0, 0]

/-- The state after absorbing the empty string with rate 136. -/
def empty256 : List U64 := [0x1f, 0, 0, 0, 0, 0, 0, 0, 0, 0, 0, 0, 0, 0, 0, 0, 0x8000000000000000,
  0, 0, 0, 0, 0, 0, 0, 0]

/-- The permutation of `empty128`. -/
def empty128f : List U64 := [
  0x7d828fe8a42b9c7f, 0x3e85057650456061, 0x88bceff693803bd7, 0x26ef66faac6e1aeb, 0x934b0088a9eeb13c,
  0x682afdee0afb3c10, 0x63a3e8584afa016e, 0xe257aef9e3a1a89c, 0x62dc233c87ccb835, 0x752ffa9a1660d2b8,
  0x889174d9586a91ab, 0xb28550436a5ed235, 0xa559c3aadfd6dfba, 0x38d5594bcc7bbbef, 0xbcc8102e30049adf,
  0xea20513a0b1abf1c, 0x565f76adcfa7cd17, 0xafa8cc8c364d4723, 0x9f844c5e9fcd0700, 0xefbdaa140b587a16,
  0xa9fcb07cf4eee7ae, 0x0cc24e77baaeca4c, 0x65fc7ba985946aff, 0xedd158c94faa93aa, 0xcc7be53a2ec027b5]

/-- The permutation of `empty256`. -/
def empty256f : List U64 := [
  0x138da80b2bddb946, 0x24eb3e74eb3f3b23, 0x821bb862ea52cd3f, 0x2f76d56e64270cb5, 0x00f2c0d8ddc45dd7,
  0xf692b5679d0105cb, 0x86b49a47491c82fc, 0xbec4b7b3ac2e2940, 0x5739b16f61961e14, 0xe35ab4d0edc72c69,
  0x7b93928e3c2207dc, 0x532886ab0ebc84ef, 0xb78ff54655c79e34, 0x10502c46385c77c2, 0xe51151c185c146d8,
  0x86cf16cd6b2a5295, 0xdd1f3b9e1022d1f3, 0x3a875b0deff46433, 0xb8ff7998f9f60fe4, 0x0162d17ae444523d,
  0xe22da86c64fd3bd6, 0xd395c1c0d7fde4b7, 0xd8eb09f89dc15112, 0x71ddd284a934f091, 0xec77442301d68b89]

/-- SHAKE128 of the empty string (NIST examples). -/
theorem SHAKE128_empty : Spec.SHAKE128 [] 16 =
    [0x7f, 0x9c, 0x2b, 0xa4, 0xe8, 0x8f, 0x82, 0x7d, 0x61, 0x60, 0x45, 0x50, 0x76, 0x05, 0x85,
      0x3e] := by
  unfold Spec.SHAKE128
  rw [keccak_short (st := empty128) (st' := empty128f) (by decide) (by decide) (by decide)
    (by decide) (by decide) (by decide +kernel) (by decide +kernel)]
  decide +kernel

/-- SHAKE256 of the empty string (NIST examples). -/
theorem SHAKE256_empty : Spec.SHAKE256 [] 16 =
    [0x46, 0xb9, 0xdd, 0x2b, 0x0b, 0xa8, 0x8d, 0x13, 0x23, 0x3b, 0x3f, 0xeb, 0x74, 0x3e, 0xeb,
      0x24] := by
  unfold Spec.SHAKE256
  rw [keccak_short (st := empty256) (st' := empty256f) (by decide) (by decide) (by decide)
    (by decide) (by decide) (by decide +kernel) (by decide +kernel)]
  decide +kernel

end Frodo
