import Verif.Proof.Code
import Verif.Proof.CtMatrix

/-! # Properties of the small matrix functions and of message encoding -/

namespace Frodo.Props

open Spec

/-- C30, `frodo_mul_bs`: the product `b * sᵀ` modulo `q` (the array `s` holds the transposed
secret), for every content of the three buffers; nothing beyond the `nbar * nbar` outputs is
written.  In particular no multiplication or addition overflows (C31). -/
theorem C30_mul_bs (P : Params) (out b s : List U16) (hD : P.logq ≤ 16)
    (ho : P.nbar * P.nbar ≤ out.length) (hb : P.nbar * P.n ≤ b.length)
    (hs : P.nbar * P.n ≤ s.length) :
    Ret (frodo_mul_bs P out b s)
      (· = ofMat (toMat P.logq P.nbar P.n b * (toMat P.logq P.nbar P.n s).transpose)
        ++ out.drop (P.nbar * P.nbar)) :=
  frodo_mul_bs_ret hD ho hb hs

/-- C30, `frodo_mul_add_sb_plus_e`: `s * b + e` modulo `q`. -/
theorem C30_mul_add_sb_plus_e (P : Params) (out b s e : List U16) (hD : P.logq ≤ 16)
    (ho : P.nbar * P.nbar ≤ out.length) (hb : P.n * P.nbar ≤ b.length)
    (hs : P.nbar * P.n ≤ s.length) (he : P.nbar * P.nbar ≤ e.length) :
    Ret (frodo_mul_add_sb_plus_e P out b s e)
      (· = ofMat (toMat P.logq P.nbar P.n s * toMat P.logq P.n P.nbar b
          + toMat P.logq P.nbar P.nbar e)
        ++ out.drop (P.nbar * P.nbar)) :=
  frodo_mul_add_sb_plus_e_ret hD ho hb hs he

/-- C30, `frodo_add`, for operands that may be the output buffer. -/
theorem C30_add (P : Params) (out : List U16) (a b : Operand) (hD : P.logq ≤ 16)
    (ho : P.nbar * P.nbar ≤ out.length) (ha : P.nbar * P.nbar ≤ (a.get out).length)
    (hb : P.nbar * P.nbar ≤ (b.get out).length) :
    Ret (frodo_add P out a b)
      (· = ofMat (toMat P.logq P.nbar P.nbar (a.get out) + toMat P.logq P.nbar P.nbar (b.get out))
        ++ out.drop (P.nbar * P.nbar)) :=
  frodo_add_ret hD ho ha hb

/-- C30, `frodo_sub`, for operands that may be the output buffer. -/
theorem C30_sub (P : Params) (out : List U16) (a b : Operand) (hD : P.logq ≤ 16)
    (ho : P.nbar * P.nbar ≤ out.length) (ha : P.nbar * P.nbar ≤ (a.get out).length)
    (hb : P.nbar * P.nbar ≤ (b.get out).length) :
    Ret (frodo_sub P out a b)
      (· = ofMat (toMat P.logq P.nbar P.nbar (a.get out) - toMat P.logq P.nbar P.nbar (b.get out))
        ++ out.drop (P.nbar * P.nbar)) :=
  frodo_sub_ret hD ho ha hb

/-- The hypotheses of the four theorems hold for the buffers of kem.c with FrodoKEM-640. -/
example : frodo640.logq ≤ 16 ∧ frodo640.nbar * frodo640.nbar ≤ (List.replicate 64 (0 : U16)).length ∧
    frodo640.nbar * frodo640.nbar ≤ (Operand.out.get (List.replicate 64 (0 : U16))).length := by
  simp only [Operand.get, List.length_replicate]; decide

/-- The specification on a concrete case: `5 - 7 = 2^15 - 2` modulo `2^15`. -/
example : ofMat (toMat 15 1 1 [5#16] - toMat 15 1 1 [7#16]) = [0x7FFE#16] := by decide

/-- C31.  The products and accumulations of the matrix functions fit in `int`, for every operand. -/
theorem C31_no_overflow (acc y z : U16) :
    inInt ((y : Int) * i16 (z : Int)) ∧ inInt ((acc : Int) + (y : Int) * i16 (z : Int)) ∧
    inInt (i16 (z : Int) * (y : Int)) ∧ inInt ((acc : Int) + i16 (z : Int) * (y : Int)) := by
  have hy := y.isLt
  have ha := acc.isLt
  have hp := prod_bounds (i16_bounds (z.toNat : Int)) (y := (y.toNat : Int)) ⟨by omega, by omega⟩
  rw [Int.mul_comm (y.toNat : Int)]
  exact ⟨⟨by omega, by omega⟩, ⟨by omega, by omega⟩, ⟨by omega, by omega⟩, ⟨by omega, by omega⟩⟩

/-- The extreme case comes within 33000 of the limit. -/
example : (65535 : Int) + 65535 * 32767 = 2147450880 ∧ inInt 2147450880 := by decide

/-- `frodo_key_encode` computes the function Encode of the specification. -/
theorem C21_encode (P : Params) (out : List U16) (mu : List U8) (hP : P.WF)
    (ho : P.nbar * P.nbar ≤ out.length) (hi : P.B * (P.nbar * P.nbar) / 8 ≤ mu.length) :
    Ret (frodo_key_encode P out mu)
      (· = ofMat (encode P.logq P.B P.nbar P.nbar mu) ++ out.drop (P.nbar * P.nbar)) :=
  frodo_key_encode_ret hP.logq_le hP.B_lt.le hP.B_le (hP.nbar8.mul_right _) ho hi

/-- `frodo_key_decode` computes the function Decode of the specification, for every matrix. -/
theorem C21_decode (P : Params) (out : List U8) (c : List U16) (hP : P.WF)
    (ho : P.B * (P.nbar * P.nbar) / 8 ≤ out.length) (hi : P.nbar * P.nbar ≤ c.length) :
    Ret (frodo_key_decode P out c)
      (· = decode P.B (toMat P.logq P.nbar P.nbar c)
        ++ out.drop (P.B * (P.nbar * P.nbar) / 8)) :=
  frodo_key_decode_ret hP.logq_le hP.B_lt hP.B_le (hP.nbar8.mul_right _) ho hi

/-- C22.  Encode, add an error matrix, decode: the message comes back if and only if every entry of
the error is tolerable, i.e. represented in `[-q/2^(B+1), q/2^(B+1))`. -/
theorem C22_tolerance (P : Params) (out e : List U16) (out2 mu : List U8) (hP : P.WF)
    (ho : P.nbar * P.nbar ≤ out.length) (he : P.nbar * P.nbar ≤ e.length)
    (hmu : mu.length = P.B * (P.nbar * P.nbar) / 8) (ho2 : out2.length = mu.length) :
    Ret (do
        let c ← frodo_key_encode P out mu
        let c ← frodo_add P c .out (.buf e)
        frodo_key_decode P out2 c)
      (fun r => r = mu ↔ ∀ i j, tolerable P.logq P.B (toMat P.logq P.nbar P.nbar e i j)) := by
  refine Ret.bind_eq (C21_encode P out mu hP ho (by omega)) ?_
  have hl : P.nbar * P.nbar ≤ (ofMat (encode P.logq P.B P.nbar P.nbar mu) ++
      out.drop (P.nbar * P.nbar)).length := by simp [length_ofMat]
  refine Ret.bind_eq (C30_add P _ .out (.buf e) hP.logq_le hl hl he) ?_
  refine (C21_decode P out2 _ hP (by omega) (by simp [length_ofMat])).mono ?_
  rintro r rfl
  rw [toMat_ofMat hP.logq_le, ← hmu, ← ho2, List.drop_length, List.append_nil]
  simp only [Operand.get]
  rw [toMat_ofMat hP.logq_le]
  exact decode_encode_iff hP.B_pos hP.B_lt (hP.nbar8.mul_right _) _ _ hmu

/-- C21.  Decoding an encoded message gives the message. -/
theorem C21_decode_encode (P : Params) (out : List U16) (out2 mu : List U8) (hP : P.WF)
    (ho : P.nbar * P.nbar ≤ out.length)
    (hmu : mu.length = P.B * (P.nbar * P.nbar) / 8) (ho2 : out2.length = mu.length) :
    Ret (do
        let c ← frodo_key_encode P out mu
        frodo_key_decode P out2 c)
      (· = mu) := by
  refine Ret.bind_eq (C21_encode P out mu hP ho (by omega)) ?_
  refine (C21_decode P out2 _ hP (by omega) (by simp [length_ofMat])).mono ?_
  rintro r rfl
  rw [toMat_ofMat hP.logq_le, ← hmu, ← ho2, List.drop_length, List.append_nil]
  have h := (decode_encode_iff (D := P.logq) hP.B_pos hP.B_lt (hP.nbar8.mul_right P.nbar)
    (0 : Matrix (Fin P.nbar) (Fin P.nbar) _) mu hmu).2
    (fun i j => ⟨0, by simp, by simp, by simp⟩)
  rwa [add_zero] at h

/-- The three parameter sets satisfy the hypotheses of C21 and C22 with 16, 24 and 32 byte
messages. -/
example : frodo640.WF ∧ frodo976.WF ∧ frodo1344.WF ∧
    frodo640.B * (frodo640.nbar * frodo640.nbar) / 8 = 16 ∧
    frodo976.B * (frodo976.nbar * frodo976.nbar) / 8 = 24 ∧
    frodo1344.B * (frodo1344.nbar * frodo1344.nbar) / 8 = 32 :=
  ⟨frodo640_WF, frodo976_WF, frodo1344_WF, by decide, by decide, by decide⟩

/-- The interval is half open: for FrodoKEM-640, `-4096` is tolerable. -/
example : tolerable 15 2 ((-4096 : ℤ) : ZMod (2 ^ 15)) := ⟨-4096, by decide, by decide, rfl⟩

/-- The interval is half open: for FrodoKEM-640, `4096` is not tolerable. -/
example : ¬ tolerable 15 2 ((4096 : ℤ) : ZMod (2 ^ 15)) := by
  rintro ⟨e, h1, h2, h3⟩
  rw [ZMod.intCast_eq_intCast_iff] at h3
  have h4 : e % 32768 = 4096 % 32768 := h3
  omega

/-- C13/C14 for these functions: the leakage trace does not depend on the data. -/
theorem C13_matrix_trace (P : Params) (out out' b b' s s' e e' : List U16) :
    SameTrace (frodo_mul_bs P out b s) (frodo_mul_bs P out' b' s') ∧
    SameTrace (frodo_mul_add_sb_plus_e P out b s e) (frodo_mul_add_sb_plus_e P out' b' s' e') ∧
    SameTrace (frodo_add P out (.buf b) .out) (frodo_add P out' (.buf b') .out) ∧
    SameTrace (frodo_sub P out (.buf b) .out) (frodo_sub P out' (.buf b') .out) :=
  ⟨frodo_mul_bs_rel, frodo_mul_add_sb_plus_e_rel, frodo_add_rel, frodo_sub_rel⟩

/-- C13/C14 for these functions: the leakage trace does not depend on the data. -/
theorem C13_code_trace (P : Params) (out out' : List U16) (mu mu' : List U8) :
    SameTrace (frodo_key_encode P out mu) (frodo_key_encode P out' mu') ∧
    SameTrace (frodo_key_decode P mu out) (frodo_key_decode P mu' out') :=
  ⟨frodo_key_encode_rel, frodo_key_decode_rel⟩

end Frodo.Props
