import Verif.Proof.Sponge
import Verif.Proof.CtKeccak

/-! # Properties of the SHAKE code -/

namespace Frodo.Props

open Spec

/-- C33.  The unrolled C permutation is Keccak-f[1600] of FIPS 202: bit `z` of lane `(x, y)`, which is
`state[5y + x]`, of the result is the one given by the standard. -/
theorem C33_keccakf (state : List U64) (h : state.length = 25) :
    Ret (KeccakF1600_StatePermute state) (fun s => s.length = 25 ∧
      ∀ (x y : Fin 5) (z : Fin 64), (nth s (5 * y + x)).getLsbD z =
        keccakP (fun x y z => (nth state (5 * y + x)).getLsbD z) x y z) :=
  (KeccakF_ret h).mono fun s hs => ⟨hs.1, fun x y z => congrFun (congrFun (congrFun hs.2 x) y) z⟩

example : (List.replicate 25 (0x0123456789abcdef : U64)).length = 25 := by decide

/-- C32 for `shake128`: every message, every output length, every uninitialised memory. -/
theorem C32_shake128 (J : Junk) (output : List U8) (outlen : Nat) (input : List U8) (inlen : Nat)
    (hi : inlen ≤ input.length) (ho : outlen ≤ output.length) :
    Ret (shake128 J output outlen input inlen)
      (· = SHAKE128 (input.take inlen) outlen ++ output.drop outlen) :=
  shake128_ret hi ho

/-- C32 for `shake256`. -/
theorem C32_shake256 (J : Junk) (output : List U8) (outlen : Nat) (input : List U8) (inlen : Nat)
    (hi : inlen ≤ input.length) (ho : outlen ≤ output.length) :
    Ret (shake256 J output outlen input inlen)
      (· = SHAKE256 (input.take inlen) outlen ++ output.drop outlen) :=
  shake256_ret hi ho

/-- Lengths met in practice: hashing a public key of FrodoKEM-640. -/
example : ∃ out inp : List U8, 9616 ≤ inp.length ∧ 16 ≤ out.length :=
  ⟨List.replicate 16 0, List.replicate 9616 1, by rw [List.length_replicate, List.length_replicate]; decide⟩

/-- C34.  Prefix consistency of `shake128`: a longer output starts with the shorter one. -/
theorem C34_prefix128 (J J' : Junk) (out out' : List U8) (n m : Nat) (input : List U8)
    (hnm : n ≤ m) (hn : out.length = n) (hm : out'.length = m) :
    ∃ a b, Ret (shake128 J out n input input.length) (· = a) ∧
      Ret (shake128 J' out' m input input.length) (· = b) ∧ a.length = n ∧ b.take n = a := by
  refine ⟨_, _, shake128_ret (Nat.le_refl _) (by omega), shake128_ret (Nat.le_refl _) (by omega),
    ?_, ?_⟩
  · rw [SHAKE128_eq, ← hn]; simp
  · rw [SHAKE128_eq, SHAKE128_eq, ← hn, ← hm, List.drop_length, List.drop_length, List.append_nil,
      List.append_nil, ← List.map_take, List.take_range, Nat.min_eq_left (by omega)]

/-- C34 for `shake256`. -/
theorem C34_prefix256 (J J' : Junk) (out out' : List U8) (n m : Nat) (input : List U8)
    (hnm : n ≤ m) (hn : out.length = n) (hm : out'.length = m) :
    ∃ a b, Ret (shake256 J out n input input.length) (· = a) ∧
      Ret (shake256 J' out' m input input.length) (· = b) ∧ a.length = n ∧ b.take n = a := by
  refine ⟨_, _, shake256_ret (Nat.le_refl _) (by omega), shake256_ret (Nat.le_refl _) (by omega),
    ?_, ?_⟩
  · rw [SHAKE256_eq, ← hn]; simp
  · rw [SHAKE256_eq, SHAKE256_eq, ← hn, ← hm, List.drop_length, List.drop_length, List.append_nil,
      List.append_nil, ← List.map_take, List.take_range, Nat.min_eq_left (by omega)]

example : ∃ (out out' : List U8) (n m : Nat), n ≤ m ∧ out.length = n ∧ out'.length = m ∧ n ≠ m :=
  ⟨[0], [0, 0], 1, 2, by decide⟩

/-- A client of the incremental interface: squeeze into the buffers one after the other, the k-th
call asking for `ns[k]` blocks.  (Test harness, not a part of /repo.) -/
def squeezeCalls (sq : List U8 → Nat → List U64 → C (List U8 × List U64)) (rate : Nat) :
    List Nat → List U64 → C (List U8)
  | [], _ => pure []
  | n :: ns, s => do
    let (o, s) ← sq (List.replicate (n * rate) 0) n s
    let rest ← squeezeCalls sq rate ns s
    pure (o ++ rest)

theorem squeezeCalls_ret {r : Nat} (hr0 : 0 < r) (hr : r ≤ 200) (hr8 : r % 8 = 0)
    (ns : List Nat) (s : List U64) (hs : s.length = 25) :
    Ret (squeezeCalls (fun o n s => keccak_squeezeblocks o n s r) r ns s)
      (· = (List.range (ns.sum * r)).map (sqByte r (keccakF (sbits s)))) := by
  induction ns generalizing s with
  | nil => simp [squeezeCalls, wp]
  | cons n ns ih =>
    unfold squeezeCalls
    refine (keccak_squeezeblocks_ret hs hr0 hr hr8 (by simp)).bind ?_
    rintro ⟨o, s'⟩ ⟨h1, h2, h3⟩
    simp only at h1 h2 h3
    refine (ih s' h2).bind_eq ?_
    simp only [wp]
    rw [h1, h3, List.drop_of_length_le (by simp), List.append_nil, List.sum_cons, Nat.add_mul,
      List.range_add, List.map_append, List.map_map]
    refine congrArg (fun l : List U8 => _ ++ l) ?_
    apply List.map_congr_left
    intro i _
    rw [← Function.iterate_succ_apply' keccakF, Function.iterate_succ_apply, sqByte_iter _ _ _ hr0]
    rfl

/-- C35 for SHAKE128: absorbing into a zero state and squeezing in any sequence of calls gives the
output of the one-shot function on the bytes absorbed; these are the first `inlen` modulo 2^32, as
the parameter is an `unsigned int`. -/
theorem C35_incremental128 (J : Junk) (input : List U8) (inlen : Nat) (hi : inlen ≤ input.length)
    (ns : List Nat) :
    Ret (do
        let s ← shake128_absorb J (List.replicate 25 0) input inlen
        squeezeCalls shake128_squeezeblocks SHAKE128_RATE ns s)
      (· = SHAKE128 (input.take (inlen % 2 ^ 32)) (ns.sum * SHAKE128_RATE)) := by
  refine (keccak_absorb_ret (by simp) (by decide) (by decide) (by decide)
    (Nat.le_trans (Nat.mod_le _ _) hi)).bind fun s hs => ?_
  refine (squeezeCalls_ret (by decide) (by decide) (by decide) ns s hs.1).mono ?_
  intro a ha
  rw [ha, hs.2, sbits_zero, SHAKE128_eq]
  rfl

/-- C35 for SHAKE256. -/
theorem C35_incremental256 (J : Junk) (input : List U8) (inlen : Nat) (hi : inlen ≤ input.length)
    (ns : List Nat) :
    Ret (do
        let s ← shake256_absorb J (List.replicate 25 0) input inlen
        squeezeCalls shake256_squeezeblocks SHAKE256_RATE ns s)
      (· = SHAKE256 (input.take (inlen % 2 ^ 32)) (ns.sum * SHAKE256_RATE)) := by
  refine (keccak_absorb_ret (by simp) (by decide) (by decide) (by decide)
    (Nat.le_trans (Nat.mod_le _ _) hi)).bind fun s hs => ?_
  refine (squeezeCalls_ret (by decide) (by decide) (by decide) ns s hs.1).mono ?_
  intro a ha
  rw [ha, hs.2, sbits_zero, SHAKE256_eq]
  rfl

example : ([2, 0, 1] : List Nat).sum * SHAKE128_RATE = 504 := by decide

/-- C35: below 2^32 bytes the incremental functions agree with the one-shot function, whatever the
sequence of calls. -/
theorem C35_agrees128 (J J' : Junk) (input : List U8) (inlen : Nat) (hi : inlen ≤ input.length)
    (h32 : inlen < 2 ^ 32) (ns : List Nat) (out : List U8)
    (ho : out.length = ns.sum * SHAKE128_RATE) :
    ∃ v, Ret (do
        let s ← shake128_absorb J (List.replicate 25 0) input inlen
        squeezeCalls shake128_squeezeblocks SHAKE128_RATE ns s) (· = v) ∧
      Ret (shake128 J' out (ns.sum * SHAKE128_RATE) input inlen) (· = v) := by
  refine ⟨_, C35_incremental128 J input inlen hi ns, ?_⟩
  rw [Nat.mod_eq_of_lt h32]
  refine (shake128_ret hi (by omega)).of_eq ?_
  rw [← ho, List.drop_length, List.append_nil]

/-- C35 for SHAKE256: agreement with the one-shot function below 2^32 bytes. -/
theorem C35_agrees256 (J J' : Junk) (input : List U8) (inlen : Nat) (hi : inlen ≤ input.length)
    (h32 : inlen < 2 ^ 32) (ns : List Nat) (out : List U8)
    (ho : out.length = ns.sum * SHAKE256_RATE) :
    ∃ v, Ret (do
        let s ← shake256_absorb J (List.replicate 25 0) input inlen
        squeezeCalls shake256_squeezeblocks SHAKE256_RATE ns s) (· = v) ∧
      Ret (shake256 J' out (ns.sum * SHAKE256_RATE) input inlen) (· = v) := by
  refine ⟨_, C35_incremental256 J input inlen hi ns, ?_⟩
  rw [Nat.mod_eq_of_lt h32]
  refine (shake256_ret hi (by omega)).of_eq ?_
  rw [← ho, List.drop_length, List.append_nil]

/-- C35: the bound is needed.  Of a message of 2^32 + l bytes only the first l are absorbed, so all
messages of 2^32 bytes get the output of the empty string. -/
theorem C35_truncates (J : Junk) (input : List U8) (hi : input.length = 2 ^ 32) (ns : List Nat) :
    Ret (do
        let s ← shake128_absorb J (List.replicate 25 0) input input.length
        squeezeCalls shake128_squeezeblocks SHAKE128_RATE ns s)
      (· = SHAKE128 [] (ns.sum * SHAKE128_RATE)) ∧
    Ret (do
        let s ← shake256_absorb J (List.replicate 25 0) input input.length
        squeezeCalls shake256_squeezeblocks SHAKE256_RATE ns s)
      (· = SHAKE256 [] (ns.sum * SHAKE256_RATE)) := by
  have h1 := C35_incremental128 J input input.length (Nat.le_refl _) ns
  have h2 := C35_incremental256 J input input.length (Nat.le_refl _) ns
  rw [show input.length % 2 ^ 32 = 0 by rw [hi], List.take_zero] at h1 h2
  exact ⟨h1, h2⟩

example : (List.replicate (2 ^ 32) 7#8).length = 2 ^ 32 := List.length_replicate

/-- C14 for hashing: the leakage trace of `shake128` depends on the lengths only. -/
theorem C14_shake128_trace (J J' : Junk) (out out' : List U8) (n : Nat) (inp inp' : List U8)
    (l : Nat) (h1 : l ≤ inp.length) (h2 : l ≤ inp'.length) (h3 : n ≤ out.length)
    (h4 : n ≤ out'.length) :
    ∃ t, traceOf (shake128 J out n inp l) = some t ∧ traceOf (shake128 J' out' n inp' l) = some t :=
  shake128_rel.trace_eq (shake128_ret h1 h3) (shake128_ret h2 h4)

/-- C14 for hashing: the leakage trace of `shake256` depends on the lengths only. -/
theorem C14_shake256_trace (J J' : Junk) (out out' : List U8) (n : Nat) (inp inp' : List U8)
    (l : Nat) (h1 : l ≤ inp.length) (h2 : l ≤ inp'.length) (h3 : n ≤ out.length)
    (h4 : n ≤ out'.length) :
    ∃ t, traceOf (shake256 J out n inp l) = some t ∧ traceOf (shake256 J' out' n inp' l) = some t :=
  shake256_rel.trace_eq (shake256_ret h1 h3) (shake256_ret h2 h4)

end Frodo.Props
