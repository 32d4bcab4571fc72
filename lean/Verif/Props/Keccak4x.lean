import Verif.Proof.CtKeccak4x

/-! # Properties of the four-way SHAKE code -/

namespace Frodo.Props

open Spec

/-- C36.  On every lane the four-way code computes SHAKE128 of that lane's input, writes exactly
`outlen` bytes, whatever the uninitialised memory, provided the compiler placed the tables `rho8` and
`rho56` on 32-byte boundaries. -/
theorem C36_shake128_4x (E : Env) (hE : E.addr .rho8 % 32 = 0 ∧ E.addr .rho56 % 32 = 0)
    (out : Four (List U8)) (outlen : Nat) (inp : Four (List U8)) (inlen : Nat)
    (hi : inlen ≤ inp.x0.length ∧ inlen ≤ inp.x1.length ∧ inlen ≤ inp.x2.length ∧ inlen ≤ inp.x3.length)
    (ho : outlen ≤ out.x0.length ∧ outlen ≤ out.x1.length ∧ outlen ≤ out.x2.length ∧
      outlen ≤ out.x3.length) :
    Ret (shake128_4x E out outlen inp inlen) (· =
      ⟨SHAKE128 (inp.x0.take inlen) outlen ++ out.x0.drop outlen,
       SHAKE128 (inp.x1.take inlen) outlen ++ out.x1.drop outlen,
       SHAKE128 (inp.x2.take inlen) outlen ++ out.x2.drop outlen,
       SHAKE128 (inp.x3.take inlen) outlen ++ out.x3.drop outlen⟩) :=
  (shake128_4x_ret hE (four_forall hi.1 hi.2.1 hi.2.2.1 hi.2.2.2)
    (four_forall ho.1 ho.2.1 ho.2.2.1 ho.2.2.2)).mono fun o h =>
    Four.ext' (four_forall (h 0) (h 1) (h 2) (h 3))

/-- C36, in terms of the one-way code: on every lane the result is that of `shake128`. -/
theorem C36_same_as_shake128 (E : Env) (J : Junk)
    (hE : E.addr .rho8 % 32 = 0 ∧ E.addr .rho56 % 32 = 0)
    (out : Four (List U8)) (outlen : Nat) (inp : Four (List U8)) (inlen : Nat)
    (hi : ∀ t, inlen ≤ (inp.get t).length) (ho : ∀ t, outlen ≤ (out.get t).length) :
    Ret (shake128_4x E out outlen inp inlen) fun o => ∀ t,
      Ret (shake128 J (out.get t) outlen (inp.get t) inlen) (· = o.get t) :=
  (shake128_4x_ret hE hi ho).mono fun o h t => by
    rw [h t]; exact shake128_ret (hi t) (ho t)

/-- The alignment hypothesis is needed: the tables are read with `_mm256_load_si256` but not declared
with an alignment attribute. -/
theorem C36_misaligned (E : Env) (hE : ¬ (E.addr .rho8 % 32 = 0 ∧ E.addr .rho56 % 32 = 0))
    (ss : List U64) : KeccakP1600times4_PermuteAll_24rounds E ss = .ub .misaligned := by
  unfold KeccakP1600times4_PermuteAll_24rounds C.require
  rw [if_neg hE]
  rfl

/-- An environment meeting the hypotheses. -/
example : ∃ E : Env, E.addr .rho8 % 32 = 0 ∧ E.addr .rho56 % 32 = 0 ∧ E.addr .rho8 ≠ 0 :=
  ⟨⟨fun _ _ => 0, fun _ => 4096, .ok⟩, by decide⟩

/-- An environment that C allows and that violates them. -/
example : ∃ E : Env, E.addr .rho8 % 8 = 0 ∧ ¬ (E.addr .rho8 % 32 = 0 ∧ E.addr .rho56 % 32 = 0) :=
  ⟨⟨fun _ _ => 0, fun _ => 4104, .ok⟩, by decide⟩

/-- A client of the incremental four-way interface: the k-th call asks for `ls[k]` bytes in each of four fresh
buffers and keeps the whole blocks.  (Test harness, not a part of /repo.) -/
def squeezeCalls4 (E : Env) : List Nat → List U64 → C (Four (List U8))
  | [], _ => pure ⟨[], [], [], []⟩
  | l :: ls, s => do
    let z := List.replicate l 0
    let (o, s) ← shake128_squeezeblocks4x E ⟨z, z, z, z⟩ l s
    let rest ← squeezeCalls4 E ls s
    let k := l / SHAKE128_RATE * SHAKE128_RATE
    pure ⟨o.x0.take k ++ rest.x0, o.x1.take k ++ rest.x1, o.x2.take k ++ rest.x2, o.x3.take k ++ rest.x3⟩

theorem squeezeCalls4_ret {E : Env} (hE : E.rhoAligned) (ls : List Nat) (s : List U64) (hs : s.length = 100) :
    Ret (squeezeCalls4 E ls s) (fun o => ∀ t, o.get t =
      (List.range ((ls.map (· / SHAKE128_RATE)).sum * SHAKE128_RATE)).map
        (sqByte SHAKE128_RATE (keccakF (sbits (inst t s))))) := by
  induction ls generalizing s with
  | nil =>
    simp only [squeezeCalls4, wp]
    exact four_forall (by simp [Four.get]) (by simp [Four.get]) (by simp [Four.get]) (by simp [Four.get])
  | cons l ls ih =>
    unfold squeezeCalls4 shake128_squeezeblocks4x
    have hr0 : 0 < SHAKE128_RATE := by decide
    refine (keccak_squeezeblocks4x_ret hE hs hr0 (by decide) (by decide) ?_).bind ?_
    · have := Nat.div_mul_le_self l SHAKE128_RATE
      exact four_forall (by simpa [Four.get] using this) (by simpa [Four.get] using this)
        (by simpa [Four.get] using this) (by simpa [Four.get] using this)
    rintro ⟨o, s'⟩ ⟨h1, h2⟩
    simp only at h1 h2
    refine (ih s' h1).bind fun rest hr => ?_
    simp only [wp]
    intro t
    have hg : Four.get ⟨o.x0.take (l / SHAKE128_RATE * SHAKE128_RATE) ++ rest.x0,
        o.x1.take (l / SHAKE128_RATE * SHAKE128_RATE) ++ rest.x1,
        o.x2.take (l / SHAKE128_RATE * SHAKE128_RATE) ++ rest.x2,
        o.x3.take (l / SHAKE128_RATE * SHAKE128_RATE) ++ rest.x3⟩ t =
        (o.get t).take (l / SHAKE128_RATE * SHAKE128_RATE) ++ rest.get t := by
      revert t; exact four_forall rfl rfl rfl rfl
    rw [hg, (h2 t).1, hr t, (h2 t).2, List.take_append_of_le_length (by simp), List.take_of_length_le (by simp),
      List.map_cons, List.sum_cons, Nat.add_mul, List.range_add, List.map_append, List.map_map]
    refine congrArg (fun l : List U8 => _ ++ l) ?_
    apply List.map_congr_left
    intro i _
    rw [← Function.iterate_succ_apply' keccakF, Function.iterate_succ_apply, sqByte_iter _ _ _ hr0]
    rfl

/-- C36, incremental interface (exported, not called by the library): absorbing and then squeezing in any
sequence of calls gives on every lane the output of SHAKE128, from whatever state the absorption starts.  A call
that asks for `l` bytes delivers only the whole blocks among them, and the next call continues after these. -/
theorem C36_incremental (E : Env) (hE : E.addr .rho8 % 32 = 0 ∧ E.addr .rho56 % 32 = 0) (ss : List U64)
    (hs : ss.length = 100) (inp : Four (List U8)) (inlen : Nat) (hi : ∀ t, inlen ≤ (inp.get t).length)
    (ls : List Nat) :
    Ret (do
        let s ← shake128_absorb4x E ss inp inlen
        squeezeCalls4 E ls s)
      (fun o => ∀ t, o.get t =
        SHAKE128 ((inp.get t).take inlen) ((ls.map (· / SHAKE128_RATE)).sum * SHAKE128_RATE)) := by
  unfold shake128_absorb4x
  simp only [bind_assoc]
  refine (zero4x_ret hs).bind ?_
  rintro s0 ⟨hl0, hz⟩
  refine (keccak_absorb4x_ret hE hl0 (by decide) (by decide) (by decide) hi).bind ?_
  rintro s ⟨hl, hsb⟩
  refine (squeezeCalls4_ret hE ls s hl).mono fun o ho t => ?_
  rw [ho t, hsb t, hz, sbits_zero, SHAKE128_eq]
  rfl

/-- C36, incremental interface: one call writes the whole blocks and nothing else, so that a call for less than a
block writes nothing and leaves the state as it is. -/
theorem C36_squeezeblocks (E : Env) (hE : E.addr .rho8 % 32 = 0 ∧ E.addr .rho56 % 32 = 0) (ss : List U64)
    (hs : ss.length = 100) (out : Four (List U8)) (outlen : Nat) (ho : ∀ t, outlen ≤ (out.get t).length) :
    Ret (shake128_squeezeblocks4x E out outlen ss) (fun x =>
      (∀ t, (x.1.get t).drop (outlen / 168 * 168) = (out.get t).drop (outlen / 168 * 168)) ∧
      (outlen < 168 → (∀ t, x.1.get t = out.get t) ∧ ∀ t, sbits (inst t x.2) = sbits (inst t ss))) := by
  refine (keccak_squeezeblocks4x_ret hE hs (by decide) (by decide) (by decide) (fun t => ?_)).mono ?_
  · exact le_trans (Nat.div_mul_le_self _ _) (ho t)
  · rintro x ⟨-, h2⟩
    change ∀ t, x.1.get t = (List.range (outlen / 168 * 168)).map (sqByte 168 _) ++
      (out.get t).drop (outlen / 168 * 168) ∧ sbits (inst t x.2) = keccakF^[outlen / 168] _ at h2
    refine ⟨fun t => ?_, fun h => ⟨fun t => ?_, fun t => ?_⟩⟩
    · rw [(h2 t).1, List.drop_left' (by simp)]
    · rw [(h2 t).1, Nat.div_eq_of_lt h]; simp
    · rw [(h2 t).2, Nat.div_eq_of_lt h]; rfl

example : ([168, 200, 100, 336].map (· / SHAKE128_RATE)).sum * SHAKE128_RATE = 672 := by decide

/-- C33 for the vector code: the permutation of each of the four interleaved states is
Keccak-f[1600]. -/
theorem C33_keccakf_4x (E : Env) (hE : E.addr .rho8 % 32 = 0 ∧ E.addr .rho56 % 32 = 0)
    (ss : List U64) (h : ss.length = 100) :
    Ret (KeccakP1600times4_PermuteAll_24rounds E ss) (fun s => s.length = 100 ∧
      ∀ (t : Fin 4) (x y : Fin 5) (z : Fin 64), (nth s (4 * (5 * y + x) + t)).getLsbD z =
        keccakP (fun x y z => (nth ss (4 * (5 * y + x) + t)).getLsbD z) x y z) := by
  refine (PermuteAll_kstate hE h).mono fun s hs => ⟨hs.1, fun t x y z => ?_⟩
  have e : ∀ s' : List U64, kstate (inst t s') =
      fun (x y : Fin 5) (z : Fin 64) => (nth s' (4 * (5 * y + x) + t)).getLsbD z := by
    intro s'
    funext x y z
    unfold kstate LState.bits lanesOf
    rw [nth_inst _ _ (by omega)]
  have := congrFun (congrFun (congrFun (hs.2 t) x) y) z
  rw [e, e] at this
  exact this

example : (List.replicate 100 (0x0123456789abcdef : U64)).length = 100 := by decide

/-- C14 for the four-way hashing: the leakage trace depends on the lengths only. -/
theorem C14_shake128_4x_trace (E E' : Env) (hE : E.rhoAligned) (hE' : E'.rhoAligned)
    (out out' : Four (List U8)) (n : Nat) (inp inp' : Four (List U8)) (l : Nat)
    (h1 : ∀ t, l ≤ (inp.get t).length) (h2 : ∀ t, l ≤ (inp'.get t).length)
    (h3 : ∀ t, n ≤ (out.get t).length) (h4 : ∀ t, n ≤ (out'.get t).length) :
    ∃ tr, traceOf (shake128_4x E out n inp l) = some tr ∧
      traceOf (shake128_4x E' out' n inp' l) = some tr :=
  shake128_4x_rel.trace_eq (shake128_4x_ret hE h1 h3) (shake128_4x_ret hE' h2 h4)

end Frodo.Props
