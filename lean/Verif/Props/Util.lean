import Verif.Proof.Util
import Verif.Proof.CtUtil

/-! # Properties of packing, comparison, selection, clearing and sampling

Theorems are about the C functions of the model; the right-hand sides only use `Verif/Spec`. -/

namespace Frodo.Props

open Spec

/-- C17.  For every vector, lengths and `1 ≤ lsb ≤ 16`, `frodo_pack` terminates without undefined
behaviour, writes the documented bit string into the first `outlen` bytes, and leaves the rest of
the buffer alone. -/
theorem C17_pack (out : List U8) (outlen : Nat) (inp : List U16) (inlen lsb : Nat)
    (h1 : 1 ≤ lsb) (h16 : lsb ≤ 16) (hin : inlen ≤ inp.length) (hout : outlen ≤ out.length) :
    Ret (frodo_pack out outlen inp inlen lsb)
      (· = pack lsb outlen (inp.take inlen) ++ out.drop outlen) :=
  frodo_pack_ret h1 h16 hin hout

/-- The specification itself on a concrete case: 15-bit words 0x1234, 0xFFFF (top bit ignored). -/
example : pack 15 4 [0x1234#16, 0xFFFF#16] = [0x24#8, 0x69#8, 0xFF#8, 0xFC#8] := by decide

example : ∃ (out : List U8) (inp : List U16), 1 ≤ 15 ∧ 15 ≤ 16 ∧ 2 ≤ inp.length ∧ 4 ≤ out.length :=
  ⟨[1, 2, 3, 4, 5], [7, 8], by decide⟩

/-- C17, "ignoring higher bits": only the `lsb` low bits of the inputs matter. -/
theorem C17_pack_high_bits (out : List U8) (outlen : Nat) (inp inp' : List U16) (lsb : Nat)
    (h1 : 1 ≤ lsb) (h16 : lsb ≤ 16) (hl : inp.length = inp'.length) (hout : outlen ≤ out.length)
    (h : ∀ i, i < inp.length → (nth inp i).toNat % 2 ^ lsb = (nth inp' i).toNat % 2 ^ lsb) :
    ∃ r, Ret (frodo_pack out outlen inp inp.length lsb) (· = r) ∧
      Ret (frodo_pack out outlen inp' inp'.length lsb) (· = r) := by
  refine ⟨_, frodo_pack_ret h1 h16 (Nat.le_refl _) hout, ?_⟩
  refine (frodo_pack_ret h1 h16 (Nat.le_refl _) hout).mono ?_
  intro a ha
  rw [ha, List.take_length, List.take_length]
  congr 1
  apply ext_nth
  · simp
  · intro i hi
    rw [length_pack] at hi
    apply BitVec.eq_of_toNat_eq
    apply Nat.eq_of_testBit_eq
    intro k
    by_cases hk : k < 8
    · rw [pack_testBit _ hi hk, pack_testBit _ hi hk, stream16_getD (by omega),
        stream16_getD (by omega), hl]
      generalize 8 * i + (7 - k) = t
      by_cases ht : t < lsb * inp'.length
      · have h2 : t / lsb < inp.length := by
          rw [hl, Nat.div_lt_iff_lt_mul (by omega), Nat.mul_comm]; exact ht
        have h3 := congrArg (fun x => x.testBit (lsb - 1 - t % lsb)) (h (t / lsb) h2)
        simp only [Nat.testBit_mod_two_pow] at h3
        have h4 : lsb - 1 - t % lsb < lsb := by omega
        simp only [h4, decide_true, Bool.true_and] at h3
        rw [h3]
      · simp [ht]
    · rw [BitVec.testBit_toNat, BitVec.testBit_toNat, BitVec.getLsbD_of_ge _ _ (by omega),
        BitVec.getLsbD_of_ge _ _ (by omega)]

example : ∀ i, i < 2 → (nth [0x8001#16, 5#16] i).toNat % 2 ^ 15 = (nth [1#16, 5#16] i).toNat % 2 ^ 15 := by
  decide

/-- C18.  `frodo_unpack` terminates without undefined behaviour and reads the documented values. -/
theorem C18_unpack (out : List U16) (outlen : Nat) (inp : List U8) (inlen lsb : Nat)
    (h1 : 1 ≤ lsb) (h16 : lsb ≤ 16) (hin : inlen ≤ inp.length) (hout : outlen ≤ out.length) :
    Ret (frodo_unpack out outlen inp inlen lsb)
      (· = unpack lsb outlen (inp.take inlen) ++ out.drop outlen) :=
  frodo_unpack_ret h1 h16 hin hout

example : unpack 15 2 [0x24#8, 0x69#8, 0xFF#8, 0xFC#8] = [0x1234#16, 0x7FFF#16] := by decide

/-- C19.  Unpacking a packed vector gives every element modulo `2^lsb`, when the packed form is long
enough. -/
theorem C19_unpack_pack (out : List U8) (out2 : List U16) (m : Nat) (v : List U16) (lsb : Nat)
    (h1 : 1 ≤ lsb) (h16 : lsb ≤ 16) (hm : lsb * v.length ≤ 8 * m) (hout : out.length = m)
    (hout2 : out2.length = v.length) :
    Ret (do
        let p ← frodo_pack out m v v.length lsb
        frodo_unpack out2 v.length p m lsb)
      (· = v.map fun x => BitVec.ofNat 16 (x.toNat % 2 ^ lsb)) := by
  refine Ret.bind_eq (frodo_pack_ret h1 h16 (Nat.le_refl _) (by omega)) ?_
  refine (frodo_unpack_ret h1 h16 (by simp) (by omega)).mono ?_
  intro a ha
  rw [ha, List.take_length, ← hout, List.drop_length, List.append_nil,
    List.take_of_length_le (by simp), unpack_pack v h1 h16 (by omega), ← hout2, List.drop_length,
    List.append_nil]

example : ∃ (out : List U8) (out2 v : List U16), 15 * v.length ≤ 8 * 4 ∧ out.length = 4 ∧
    out2.length = v.length := ⟨[0, 0, 0, 0], [0, 0], [1, 2], by decide⟩

/-- C20.  Packing an unpacked byte string gives the byte string back when the bit counts match, so
every byte string is the encoding of exactly one vector. -/
theorem C20_pack_unpack (out : List U16) (out2 : List U8) (n : Nat) (v : List U8) (lsb : Nat)
    (h1 : 1 ≤ lsb) (h16 : lsb ≤ 16) (hm : lsb * n = 8 * v.length) (hout : out.length = n)
    (hout2 : out2.length = v.length) :
    Ret (do
        let u ← frodo_unpack out n v v.length lsb
        frodo_pack out2 v.length u n lsb)
      (· = v) := by
  refine Ret.bind_eq (frodo_unpack_ret h1 h16 (Nat.le_refl _) (by omega)) ?_
  refine (frodo_pack_ret h1 h16 (by simp) (by omega)).mono ?_
  intro a ha
  rw [ha, List.take_length, ← hout, List.drop_length, List.append_nil,
    List.take_of_length_le (by simp), pack_unpack v h1 h16 (by rw [hout]; exact hm), ← hout2, List.drop_length,
    List.append_nil]

/-- The parameter sets meet the hypothesis: B' of FrodoKEM-640 has 8*640 words of 15 bits. -/
example : 15 * (8 * 640) = 8 * 9600 := by decide

/-- C23.  `frodo_sample_n` replaces each of the first `n` words by the inverse-CDF sample and touches
nothing else.  The table entries must be below `2^15`, as the comment in the source says, and `n`
below `2^32`, the range of the loop counter. -/
theorem C23_sample (cdf s : List U16) (n : Nat) (hcdf : ∀ c ∈ cdf, c.toNat < 2 ^ 15)
    (hlen : cdf.length < 2 ^ 15) (hn : n ≤ s.length) (hn32 : n < 2 ^ 32) :
    Ret (frodo_sample_n cdf s n)
      (· = (s.take n).map (fun r => BitVec.ofInt 16 (sample (cdf.map BitVec.toNat) r.toNat))
        ++ s.drop n) :=
  frodo_sample_n_ret hcdf hlen hn hn32

/-- The bound on `n` is needed: `n` is a `size_t` but the counter an `unsigned int`, so that from
2^32 samples on the function never returns. -/
theorem C23_wraps (cdf s : List U16) (n : Nat) (hcdf : ∀ c ∈ cdf, c.toNat < 2 ^ 15)
    (hlen : cdf.length < 2 ^ 15) (hn : n ≤ s.length) (hn32 : 2 ^ 32 ≤ n) :
    frodo_sample_n cdf s n = .div :=
  frodo_sample_n_div hcdf hlen hn hn32

example : frodo_sample_n [4643, 32767] (List.replicate (2 ^ 32) 0) (2 ^ 32) = .div :=
  C23_wraps [4643, 32767] _ _ (by simp) (by simp) (by rw [List.length_replicate]; decide) (by simp)

example : sample [4643, 13363, 20579, 32767] (2 * 13364 + 1) = -2 := by decide

/-- C25.  `ct_verify` returns 0 on equal vectors and -1 otherwise. -/
theorem C25_ct_verify (a b : List U16) (len : Nat) (ha : len ≤ a.length) (hb : len ≤ b.length) :
    Ret (ct_verify a b len) (· = if a.take len = b.take len then 0 else -1) :=
  ct_verify_ret ha hb

/-- A pair that only differs in the top bit of one element is told apart. -/
example : [0#16, 0x8000#16].take 2 ≠ [0#16, 0#16].take 2 := by decide

/-- C26.  `ct_select` copies the first operand for selector 0, the second for selector -1. -/
theorem C26_ct_select (r a b : List U8) (len : Nat) (sel : Int) (hs : sel = 0 ∨ sel = -1)
    (hr : len ≤ r.length) (ha : len ≤ a.length) (hb : len ≤ b.length) :
    Ret (ct_select r a b len sel)
      (· = (if sel = 0 then a.take len else b.take len) ++ r.drop len) :=
  ct_select_ret hs hr ha hb

example : ∃ (r a b : List U8) (sel : Int), (sel = 0 ∨ sel = -1) ∧ 2 ≤ r.length ∧ 2 ≤ a.length ∧
    2 ≤ b.length := ⟨[0, 0, 9], [1, 2], [3, 4], -1, by decide⟩

/-- C27.  `clear_bytes` zeroes exactly the first `n` bytes. -/
theorem C27_clear_bytes (mem : List U8) (n : Nat) (h : n ≤ mem.length) :
    Ret (clear_bytes mem n) (· = List.replicate n 0 ++ mem.drop n) :=
  clear_bytes_ret h

example : 2 ≤ ([1, 2, 3] : List U8).length := by decide

/-- C13/C14 for the helpers: the leakage trace of `ct_verify` does not depend on the data. -/
theorem C13_ct_verify_trace (a b a' b' : List U16) (len : Nat) (ha : len ≤ a.length)
    (hb : len ≤ b.length) (ha' : len ≤ a'.length) (hb' : len ≤ b'.length) :
    ∃ t, traceOf (ct_verify a b len) = some t ∧ traceOf (ct_verify a' b' len) = some t :=
  ct_verify_rel.trace_eq (ct_verify_ret ha hb) (ct_verify_ret ha' hb')

/-- C13/C14 for the helpers: the trace of `ct_select` does not depend on data or selector. -/
theorem C13_ct_select_trace (r a b r' a' b' : List U8) (len : Nat) (sel sel' : Int)
    (hs : sel = 0 ∨ sel = -1) (hs' : sel' = 0 ∨ sel' = -1)
    (hr : len ≤ r.length) (ha : len ≤ a.length) (hb : len ≤ b.length)
    (hr' : len ≤ r'.length) (ha' : len ≤ a'.length) (hb' : len ≤ b'.length) :
    ∃ t, traceOf (ct_select r a b len sel) = some t ∧
      traceOf (ct_select r' a' b' len sel') = some t :=
  ct_select_rel.trace_eq (ct_select_ret hs hr ha hb) (ct_select_ret hs' hr' ha' hb')

/-- C14 for the helpers: the trace of `frodo_sample_n` does not depend on the random words. -/
theorem C14_sample_trace (cdf s s' : List U16) (n : Nat) (hcdf : ∀ c ∈ cdf, c.toNat < 2 ^ 15)
    (hlen : cdf.length < 2 ^ 15) (hn : n ≤ s.length) (hn' : n ≤ s'.length)
    (hn32 : n < 2 ^ 32) :
    ∃ t, traceOf (frodo_sample_n cdf s n) = some t ∧
      traceOf (frodo_sample_n cdf s' n) = some t :=
  frodo_sample_n_rel.trace_eq (frodo_sample_n_ret hcdf hlen hn hn32)
    (frodo_sample_n_ret hcdf hlen hn' hn32)

end Frodo.Props
