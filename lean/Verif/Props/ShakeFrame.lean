import Verif.Model.ShakeFrame
import Verif.Proof.Sponge
import Verif.Props.Invert
import Verif.Props.Kem
import Verif.Proof.SnP4Align

/-! # C72: what SHAKE leaves on the stack -/

namespace Frodo.Props

open Spec

/-! ## The frame variants are the functions -/

theorem absorb_frame_eq (J : Junk) (s : List U64) (r : Nat) (m : List U8) (mlen : Nat) (p : U8) :
    AbsorbFrame.s <$> keccak_absorb_frame J s r m mlen p = keccak_absorb J s r m mlen p := by
  simp only [keccak_absorb_frame, keccak_absorb, map_bind, map_pure, bind_pure]

theorem squeezeFrame_eq (r : Nat) (J : Junk) (output : List U8) (outlen : Nat) (f : AbsorbFrame) :
    ShakeFrame.output <$> squeezeFrame r J output outlen f = shakeTail r J output outlen f.s := by
  simp only [squeezeFrame, shakeTail, map_bind, ifC]
  refine congrArg _ (funext fun x => congrArg _ (funext fun _ => ?_))
  split <;> simp only [map_bind, map_pure, bind_pure]

theorem frame_eq (r : Nat) (J : Junk) (output : List U8) (outlen : Nat) (s : List U64) (m : List U8) (mlen : Nat) :
    ShakeFrame.output <$> (keccak_absorb_frame J s r m mlen 0x1F >>= squeezeFrame r J output outlen) =
      keccak_absorb J s r m mlen 0x1F >>= shakeTail r J output outlen := by
  rw [map_bind, ← absorb_frame_eq, bind_map_left]
  exact congrArg _ (funext fun f => squeezeFrame_eq r J output outlen f)

/-- C72.  The functions whose frames are described are those of the library: same output, same trace, same
undefined behaviour. -/
theorem C72_same (P : Params) (J : Junk) (out : List U8) (outlen : Nat) (inp : List U8) (inlen : Nat) :
    ShakeFrame.output <$> shake_frame P J out outlen inp inlen = shake P J out outlen inp inlen := by
  unfold shake_frame shake
  cases P.shake
  · have e : shake128 J out outlen inp inlen = (keccak_absorb J (List.replicate 25 0) SHAKE128_RATE inp inlen 0x1F >>=
      shakeTail SHAKE128_RATE J out outlen) := rfl
    simp only [e]
    exact frame_eq _ _ _ _ _ _ _
  · have e : shake256 J out outlen inp inlen = ((forC 0 25 1 (uninit J 3 64 25) fun i s => wr s i 0) >>= fun s =>
      keccak_absorb J s SHAKE256_RATE inp inlen 0x1F >>= shakeTail SHAKE256_RATE J out outlen) := rfl
    simp only [e, shake256_frame, map_bind]
    refine congrArg _ (funext fun s => ?_)
    rw [← frame_eq, map_bind]

/-! ## Absorbing is injective in the last block -/

theorem xorBits_cancel {S a b : List Bool} (ha : a.length = S.length) (hb : b.length = S.length)
    (h : xorBits S a = xorBits S b) : a = b := by
  unfold xorBits at h
  induction S generalizing a b with
  | nil => cases a <;> cases b <;> simp_all
  | cons x S ih =>
    cases a with
    | nil => simp at ha
    | cons y a =>
      cases b with
      | nil => simp at hb
      | cons z b =>
        simp only [List.zipWith_cons_cons, List.cons.injEq] at h
        rw [ih (by simpa using ha) (by simpa using hb) h.2]
        have := h.1
        revert this
        cases x <;> cases y <;> cases z <;> simp

theorem bytesToBits_inj {a b : List U8} (hl : a.length = b.length) (h : bytesToBits a = bytesToBits b) : a = b := by
  apply ext_nth hl
  intro i hi
  apply BitVec.eq_of_getLsbD_eq
  intro j hj
  have := congrArg (fun l => l.getD (8 * i + j) false) h
  simp only [bytesToBits_getD] at this
  rwa [show (8 * i + j) / 8 = i by omega, show (8 * i + j) % 8 = j by omega] at this

theorem exists_sbits {S : List Bool} (h : S.length = 1600) : ∃ s : List U64, s.length = 25 ∧ sbits s = S := by
  refine ⟨(List.range 25).map fun j => (BitVec.ofBoolListLE (S.drop (64 * j))).setWidth 64, by simp, ?_⟩
  apply ext_getD (by rw [length_sbits, h])
  intro i hi
  rw [length_sbits] at hi
  rw [sbits_getD, nth_range_map, if_pos (by omega), BitVec.getLsbD_setWidth, BitVec.getLsbD_ofBoolListLE]
  simp [hi, show i % 64 < 64 by omega, Nat.div_add_mod, List.getD]

theorem keccakF_inj {S S' : List Bool} (h : S.length = 1600) (h' : S'.length = 1600) (e : keccakF S = keccakF S') :
    S = S' := by
  obtain ⟨s, hs, rfl⟩ := exists_sbits h
  obtain ⟨s', hs', rfl⟩ := exists_sbits h'
  rw [← keccakPbits_24, ← keccakPbits_24] at e
  rw [keccakPbits_inj hs hs' e]

theorem iterate_keccakF_inj (n : Nat) {S S' : List Bool} (h : S.length = 1600) (h' : S'.length = 1600)
    (e : keccakF^[n] S = keccakF^[n] S') : S = S' := by
  induction n generalizing S S' with
  | zero => exact e
  | succ n ih =>
    rw [Function.iterate_succ_apply, Function.iterate_succ_apply] at e
    exact keccakF_inj h h' (ih (length_keccakF _) (length_keccakF _) e)

theorem absorb_inj {r : Nat} (hr0 : 0 < r) (hr : r ≤ 200) {S : List Bool} (hS : S.length = 1600) {M M' : List U8}
    (hl : M.length = M'.length) (hp : M.take (M.length / r * r) = M'.take (M.length / r * r))
    (h : absorb keccakF (8 * r) S (padded r M) = absorb keccakF (8 * r) S (padded r M')) : M = M' := by
  induction hn : M.length using Nat.strongRecOn generalizing S M M' with
  | ind n ih =>
    by_cases hlt : M.length < r
    · have e := length_padded hlt
      have e' := length_padded (hl ▸ hlt : M'.length < r)
      rw [← List.append_nil (padded r M), ← List.append_nil (padded r M'), absorb_step (by omega) e,
        absorb_step (by omega) e', absorb_nil (by omega), absorb_nil (by omega)] at h
      have hlen : ∀ P : List Bool, P.length = 8 * r → (xorBits S (P ++ List.replicate (1600 - 8 * r) false)).length = 1600 := by
        intro P hP
        simp only [xorBits, List.length_zipWith, List.length_append, List.length_replicate, hP, hS]
        omega
      have h := xorBits_cancel (by simp [e, hS]; omega) (by simp [e', hS]; omega)
        (keccakF_inj (hlen _ e) (hlen _ e') h)
      have h := (List.append_inj h (by rw [e, e'])).1
      unfold padded at h
      rw [List.append_assoc, List.append_assoc] at h
      exact bytesToBits_inj hl (List.append_inj h (by rw [length_bytesToBits, length_bytesToBits, hl])).1
    · have h1 : M.take r = M'.take r := by
        have := congrArg (List.take r) hp
        have hd : r ≤ M.length / r * r := by
          have := Nat.div_pos (show r ≤ M.length by omega) hr0
          exact Nat.le_mul_of_pos_left r this
        rwa [List.take_take, List.take_take, Nat.min_eq_left hd] at this
      rw [padded_drop (show r ≤ M.length by omega), padded_drop (show r ≤ M'.length by omega),
        absorb_step (by omega) (by rw [length_bytesToBits, List.length_take]; omega),
        absorb_step (by omega) (by rw [length_bytesToBits, List.length_take]; omega), h1] at h
      have h2 : M.drop r = M'.drop r := by
        refine ih (M.drop r).length (by simp; omega) (length_keccakF _) (by simp [hl]) ?_ h rfl
        have hd : (M.drop r).length / r * r = M.length / r * r - r := by
          have : M.length / r = (M.length - r) / r + 1 := by
            rw [← Nat.add_div_right _ hr0]; congr 1; omega
          rw [List.length_drop, this, Nat.succ_mul]
          omega
        rw [hd, ← List.drop_take, ← List.drop_take, hp]
      rw [← List.take_append_drop r M, ← List.take_append_drop r M', h1, h2]

/-! ## The frames -/

/-- The numbers of bytes of a block: 168 for SHAKE128, 136 for SHAKE256 (FIPS 202, Table 3: rate = 1600 - capacity). -/
def rateOf : ShakeVar → Nat
  | .shake128 => 168
  | .shake256 => 136

theorem absorb_frame_ret {J : Junk} {s : List U64} {r : Nat} {m : List U8} {mlen : Nat}
    (hs : s.length = 25) (hr0 : 0 < r) (hr : r ≤ 200) (hr8 : r % 8 = 0) (hm : mlen ≤ m.length) :
    Ret (keccak_absorb_frame J s r m mlen 0x1F) (fun f => f.s.length = 25 ∧
      keccakF (sbits f.s) = absorb keccakF (8 * r) (sbits s) (padded r (m.take mlen)) ∧
      f.t.take (mlen % r) = (m.take mlen).drop (mlen - mlen % r)) := by
  have h := keccak_absorb_ret (J := J) hs hr0 hr hr8 hm
  rw [← absorb_frame_eq] at h
  have h1 : Ret (keccak_absorb_frame J s r m mlen 0x1F) (fun f => f.s.length = 25 ∧
      keccakF (sbits f.s) = absorb keccakF (8 * r) (sbits s) (padded r (m.take mlen))) := by
    obtain ⟨a, t, h, hp⟩ := h
    rw [map_eq_pure_bind] at h
    have h2 : Ret (keccak_absorb_frame J s r m mlen 0x1F >>= fun f => pure f.s) (· = a) := ⟨a, t, h, rfl⟩
    simp only [wp, Ret_bind_iff] at h2
    exact h2.mono fun f hf => by rw [hf]; exact hp
  refine (h1.and ?_).mono fun f hf => ⟨hf.1.1, hf.1.2, hf.2⟩
  unfold keccak_absorb_frame
  refine Ret.bind (Q := fun st : AbsorbSt => st.s.length = 25 ∧ st.mlen = mlen % r ∧
    st.m = m.drop (mlen - mlen % r)) ?_ ?_
  · refine Ret.while (I := fun st : AbsorbSt => st.s.length = 25 ∧ st.mlen % r = mlen % r ∧ st.mlen ≤ mlen ∧
      st.m = m.drop (mlen - st.mlen)) (fun st => st.mlen) ?_ ?_ _ ?_
    · rintro st ⟨h1, h2, h3, h4⟩ hc
      have hc : r ≤ st.mlen := by simpa using hc
      have hl : st.m.length = m.length - (mlen - st.mlen) := by rw [h4, List.length_drop]
      refine (xorBlock_ret h1 hr hr8 (by omega)).bind fun s1 hs1 => ?_
      refine (KeccakF_bits hs1.1).bind fun s2 hs2 => ?_
      simp only [wp]
      refine ⟨by omega, ⟨hs2.1, ?_, by omega, ?_⟩, by omega⟩
      · rw [← h2, Nat.mod_eq_sub_mod hc]
      · rw [h4, List.drop_drop]; congr 1; omega
    · rintro st ⟨h1, h2, h3, h4⟩ hc
      have hc : st.mlen < r := by simpa using hc
      have e : st.mlen = mlen % r := by rw [← h2, Nat.mod_eq_of_lt hc]
      exact ⟨h1, e, by rw [h4, e]⟩
    · exact ⟨hs, rfl, le_refl _, by simp⟩
  · rintro st ⟨h1, h2, h3⟩
    have hlt := Nat.mod_lt mlen hr0
    have hle := Nat.mod_le mlen r
    have hl : st.m.length = m.length - (mlen - mlen % r) := by rw [h3, List.length_drop]
    refine Ret.bind (Q := fun t : List U8 => t.length = 200) ?_ ?_
    · refine Ret.for1 (fun i (t : List U8) => t.length = 200) (by simp) ?_ (fun t ht => ht)
      intro i t hi hl
      simp only [wp]
      exact ⟨by omega, by simp [hl]⟩
    intro t0 hl0
    refine Ret.bind (Q := fun t : List U8 => t.length = 200 ∧ ∀ i, i < st.mlen → nth t i = nth st.m i) ?_ ?_
    · refine Ret.for1 (fun k (t : List U8) => t.length = 200 ∧ ∀ i, i < k → nth t i = nth st.m i) ?_ ?_ ?_
      · exact ⟨hl0, by intro i hi; omega⟩
      · rintro k t hk ⟨hl, hI⟩
        simp only [wp]
        refine ⟨by omega, by omega, by simp [hl], ?_⟩
        intro j hj
        rw [nth_set]
        by_cases hij : k = j
        · rw [if_pos ⟨hij, by omega⟩, hij]
        · rw [if_neg (by simp [hij]), hI j (by omega)]
      · intro t ht; exact ht
    rintro t1 ⟨hl1, ht1⟩
    simp only [wp]
    refine ⟨by omega, by simp; omega, by simp; omega, ?_⟩
    refine (xorBlock_ret h1 hr hr8 (by simp; omega)).bind fun s' hs' => ?_
    simp only [wp]
    apply ext_nth (by simp; omega)
    intro i hi
    have hi : i < mlen % r := by simp at hi; omega
    rw [nth_take, if_pos hi, nth_set, if_neg (by omega), nth_set, if_neg (by omega), ht1 i (by omega), h3, nth_drop,
      nth_drop, nth_take, if_pos (by omega)]

theorem squeezeFrame_ret {r : Nat} {J : Junk} {output : List U8} {outlen : Nat} {f : AbsorbFrame}
    (hs : f.s.length = 25) (hr0 : 0 < r) (hr : r ≤ 200) (hr8 : r % 8 = 0) (ho : outlen ≤ output.length) :
    Ret (squeezeFrame r J output outlen f) (fun g => g.absorbT = f.t ∧ g.s.length = 25 ∧
      sbits g.s = keccakF^[outlen / r + if outlen % r = 0 then 0 else 1] (sbits f.s) ∧
      (outlen % r ≠ 0 → g.t = ((List.range ((outlen / r + 1) * r)).map (sqByte r (keccakF (sbits f.s)))).drop
        (outlen / r * r))) := by
  unfold squeezeFrame
  have hdm := Nat.div_add_mod outlen r
  have hml := Nat.mod_lt outlen hr0
  generalize hnb : outlen / r = nb at *
  have hle : nb * r ≤ outlen := by rw [Nat.mul_comm]; omega
  rw [Nat.mul_comm] at hdm
  refine (keccak_squeezeblocks_ret hs hr0 hr hr8 (by omega)).bind ?_
  rintro ⟨out1, s1⟩ ⟨h1, h2, h3⟩
  simp only at h1 h2 h3
  have hl1 : out1.length = output.length := by rw [h1]; simp; omega
  simp only [wp]
  by_cases hz : outlen - nb * r = 0
  · rw [if_neg (by simp [hz])]
    simp only [wp]
    have : outlen % r = 0 := by omega
    exact ⟨trivial, h2, by rw [h3, if_pos this, Nat.add_zero], fun h => absurd this h⟩
  · rw [if_pos (by simp [hz])]
    refine (keccak_squeezeblocks_ret h2 hr0 hr hr8 (by simp)).bind ?_
    rintro ⟨t, s2⟩ ⟨h4, h5, h6⟩
    simp only at h4 h5 h6
    have lt : t.length = r := by rw [h4]; simp
    simp only
    refine Ret.bind (Q := fun _ => True) ?_ fun out _ => ?_
    · refine Ret.for1 (fun i (out : List U8) => out.length = output.length) hl1 ?_ (fun _ _ => trivial)
      intro i out hi hl
      simp only [wp]
      exact ⟨by omega, by omega, by simp [hl]⟩
    · simp only [wp]
      refine ⟨trivial, h5, ?_, fun _ => ?_⟩
      · rw [h6, h3, if_neg (by omega), Nat.add_comm nb 1, Function.iterate_add_apply]
      · rw [h4]
        apply ext_nth
        · simp [Nat.succ_mul]
        · intro i hi
          have hi : i < r := by simpa using hi
          rw [nth_append, if_pos (by simp; omega), nth_range_map, if_pos (by omega), nth_drop, nth_range_map,
            if_pos (by rw [Nat.succ_mul]; omega), h3, ← Function.iterate_succ_apply' keccakF,
            Function.iterate_succ_apply, sqByte_iter _ _ _ hr0]

theorem frame_ret (P : Params) (J : Junk) (out : List U8) (outlen : Nat) (inp : List U8) (inlen : Nat)
    (hi : inlen ≤ inp.length) (ho : outlen ≤ out.length) :
    Ret (shake_frame P J out outlen inp inlen) fun f =>
      f.absorbT.take (inlen % rateOf P.shake) = (inp.take inlen).drop (inlen - inlen % rateOf P.shake) ∧
      f.s.length = 25 ∧
      (∃ S, S.length = 1600 ∧ keccakF S = spongeState (rateOf P.shake) (inp.take inlen) ∧
        sbits f.s = keccakF^[outlen / rateOf P.shake + if outlen % rateOf P.shake = 0 then 0 else 1] S) ∧
      (outlen % rateOf P.shake ≠ 0 → f.t = (P.shake.fn (inp.take inlen)
        ((outlen / rateOf P.shake + 1) * rateOf P.shake)).drop (outlen / rateOf P.shake * rateOf P.shake)) := by
  unfold shake_frame
  cases P.shake
  · refine (absorb_frame_ret (by simp) (by decide) (by decide) (by decide) hi).bind fun f hf => ?_
    refine (squeezeFrame_ret hf.1 (by decide) (by decide) (by decide) ho).mono fun g hg => ?_
    refine ⟨hg.1 ▸ hf.2.2, hg.2.1, ⟨_, length_sbits _, by rw [hf.2.1, sbits_zero]; rfl, hg.2.2.1⟩, fun h => ?_⟩
    rw [hg.2.2.2 h, hf.2.1, sbits_zero]
    show _ = (SHAKE128 _ _).drop _
    rw [SHAKE128_eq]
    rfl
  · show Ret (shake256_frame J out outlen inp inlen) _
    unfold shake256_frame
    refine Ret.bind (Q := fun s => s = List.replicate 25 0) ?_ ?_
    · refine Ret.for1 (fun i (s : List U64) => s.length = 25 ∧ ∀ j, j < i → nth s j = 0) ?_ ?_ ?_
      · exact ⟨by simp, by omega⟩
      · rintro i s hi ⟨hl, hI⟩
        simp only [wp]
        refine ⟨by omega, by simp [hl], ?_⟩
        intro j hj
        rw [nth_set]
        by_cases hij : i = j
        · rw [if_pos ⟨hij, by omega⟩]
        · rw [if_neg (by simp [hij]), hI j (by omega)]
      · rintro s ⟨hl, hI⟩
        apply ext_nth (by simp [hl])
        intro i hi
        rw [hI i (by omega), nth_replicate, if_pos (by omega)]
    rintro s rfl
    refine (absorb_frame_ret (by simp) (by decide) (by decide) (by decide) hi).bind fun f hf => ?_
    refine (squeezeFrame_ret hf.1 (by decide) (by decide) (by decide) ho).mono fun g hg => ?_
    refine ⟨hg.1 ▸ hf.2.2, hg.2.1, ⟨_, length_sbits _, by rw [hf.2.1, sbits_zero]; rfl, hg.2.2.1⟩, fun h => ?_⟩
    rw [hg.2.2.2 h, hf.2.1, sbits_zero]
    show _ = (SHAKE256 _ _).drop _
    rw [SHAKE256_eq]
    rfl

/-! ## Properties of one call -/

/-- C72.  When `shake` returns, the array `t` of `keccak_absorb` holds the last bytes of the message (as many as do
not fill a block) in clear, for every message and every output length. -/
theorem C72_message (P : Params) (J : Junk) (out : List U8) (outlen : Nat) (inp : List U8) (inlen : Nat)
    (hi : inlen ≤ inp.length) (ho : outlen ≤ out.length) :
    Ret (shake_frame P J out outlen inp inlen) fun f =>
      f.absorbT.take (inlen % rateOf P.shake) = (inp.take inlen).drop (inlen - inlen % rateOf P.shake) :=
  (frame_ret P J out outlen inp inlen hi ho).mono fun _ h => h.1

/-- C72.  If the output does not end with a block, the array `t` of `shake` holds the last block of the output in
clear, including the bytes that were not asked for. -/
theorem C72_output (P : Params) (J : Junk) (out : List U8) (outlen : Nat) (inp : List U8) (inlen : Nat)
    (hi : inlen ≤ inp.length) (ho : outlen ≤ out.length) (hr : outlen % rateOf P.shake ≠ 0) :
    Ret (shake_frame P J out outlen inp inlen) fun f =>
      f.t = (P.shake.fn (inp.take inlen) ((outlen / rateOf P.shake + 1) * rateOf P.shake)).drop
        (outlen / rateOf P.shake * rateOf P.shake) :=
  (frame_ret P J out outlen inp inlen hi ho).mono fun _ h => h.2.2.2 hr

/-- C72.  The state that `shake` leaves determines the rest of the message for those who know its whole blocks: two
messages of the same length with the same whole blocks, absorbed before outputs of the same length (into any
buffers), that leave the same state are the same message.  In particular the state determines a message shorter than
a block. -/
theorem C72_state (P : Params) (J J' : Junk) (out out' : List U8) (outlen : Nat) (inp inp' : List U8) (inlen : Nat)
    (hi : inlen ≤ inp.length) (hi' : inlen ≤ inp'.length) (ho : outlen ≤ out.length) (ho' : outlen ≤ out'.length)
    (hw : inp.take (inlen / rateOf P.shake * rateOf P.shake) = inp'.take (inlen / rateOf P.shake * rateOf P.shake))
    {f f' : ShakeFrame} (h : Ret (shake_frame P J out outlen inp inlen) (· = f))
    (h' : Ret (shake_frame P J' out' outlen inp' inlen) (· = f')) (e : f.s = f'.s) :
    inp.take inlen = inp'.take inlen := by
  obtain ⟨g, u, hg, -, -, ⟨S, hS, hS1, hS2⟩, -⟩ := frame_ret P J out outlen inp inlen hi ho
  obtain ⟨g', u', hg', -, -, ⟨S', hS', hS1', hS2'⟩, -⟩ := frame_ret P J' out' outlen inp' inlen hi' ho'
  have e1 := h.unique ⟨g, u, hg, rfl⟩
  have e1' := h'.unique ⟨g', u', hg', rfl⟩
  subst e1 e1'
  rw [e] at hS2
  have := iterate_keccakF_inj _ hS hS' (hS2.symm.trans hS2')
  rw [this, hS1'] at hS1
  have hr0 : 0 < rateOf P.shake := by cases P.shake <;> decide
  have hl : (inp.take inlen).length = inlen := by rw [List.length_take]; omega
  have hd := Nat.div_mul_le_self inlen (rateOf P.shake)
  refine absorb_inj hr0 (by cases P.shake <;> decide) List.length_replicate (by simp; omega) ?_ hS1.symm
  rw [hl, List.take_take, List.take_take, Nat.min_eq_left hd, hw]

/-! ## Properties of the KEM -/

theorem shake_bind {α : Type} (P : Params) (J : Junk) (out : List U8) (outlen : Nat) (inp : List U8) (inlen : Nat)
    (k : List U8 → C α) : (shake P J out outlen inp inlen >>= k) =
      shake_frame P J out outlen inp inlen >>= fun f => k f.output := by
  rw [← C72_same, bind_map_left]

theorem asBytes_frame_eq (a : Arch) (l : List U16) (off : Nat) (f : List U8 → C ShakeFrame) :
    Prod.fst <$> asBytes_frame a l off f = asBytes a l off fun b => ShakeFrame.output <$> f b := by
  unfold asBytes_frame asBytes
  split
  · simp only [map_bind, bind_map_left, map_pure]
  · rfl

theorem asBytes_bind {α : Type} (a : Arch) (l : List U16) (off : Nat) (P : Params) (J : Junk) (n : Nat) (inp : List U8)
    (m : Nat) (k : List U16 → C α) : (asBytes a l off (fun b => shake P J b n inp m) >>= k) =
      asBytes_frame a l off (fun b => shake_frame P J b n inp m) >>= fun x => k x.1 := by
  simp only [← C72_same]
  rw [← asBytes_frame_eq, bind_map_left]

theorem expandNoise_bind {α : Type} (B : Build) (E : Env) (P : Params) (dom : U8) (src : List U8) (len : Nat)
    (k : List U8 × List U16 → C α) : (expandNoise B E P dom src len >>= k) =
      expandNoise_frame B E P dom src len >>= fun x => k (x.1, x.2.1) := by
  simp only [expandNoise, expandNoise_frame, bind_assoc, asBytes_bind, pure_bind]

/-- C72.  The functions of kem.c whose frames are described are those of the library. -/
theorem C72_same_keypair (B : Build) (E : Env) (P : Params) (rb : RandomBytes) (pk sk : List U8) :
    Prod.fst <$> crypto_kem_keypair_frame B E P rb pk sk = crypto_kem_keypair B E P rb pk sk := by
  simp only [crypto_kem_keypair, crypto_kem_keypair_frame, map_bind, map_pure, expandNoise_bind]

/-- C72.  The functions of kem.c whose frames are described are those of the library. -/
theorem C72_same_enc (B : Build) (E : Env) (P : Params) (rb : RandomBytes) (ct ss pk : List U8) :
    Prod.fst <$> crypto_kem_enc_frame B E P rb ct ss pk = crypto_kem_enc B E P rb ct ss pk := by
  simp only [crypto_kem_enc, crypto_kem_enc_frame, map_bind, map_pure, shake_bind]

/-- C72.  The functions of kem.c whose frames are described are those of the library. -/
theorem C72_same_dec (B : Build) (E : Env) (P : Params) (skAddr : Nat) (ss ct sk : List U8) :
    Prod.fst <$> crypto_kem_dec_frame B E P skAddr ss ct sk = crypto_kem_dec B E P skAddr ss ct sk := by
  simp only [crypto_kem_dec, crypto_kem_dec_frame, map_bind, map_pure, shake_bind]

theorem _root_.Frodo.Ret.of_map {α β : Type} {m : C α} {g : α → β} {Q : β → Prop} (h : Ret (g <$> m) Q) : Ret m (fun a => Q (g a)) := by
  rw [map_eq_pure_bind] at h
  simpa only [wp, Ret_bind_iff] using h

theorem _root_.Frodo.Ret.post {α : Type} {m : C α} {Q : α → Prop} (h : Ret m Q) : Post m Q := by
  obtain ⟨a, t, h, hq⟩ := h
  intro b u hb
  rw [h] at hb
  injection hb with h1 h2
  exact h1 ▸ hq

theorem _root_.Frodo.Ret.and_post {α : Type} {m : C α} {Q R : α → Prop} (h : Ret m Q) (h' : Post m R) : Ret m (fun a => Q a ∧ R a) := by
  obtain ⟨a, t, h, hq⟩ := h
  exact ⟨a, t, h, hq, h' a t h⟩

theorem _root_.Frodo.Post.memcpy {α : Type} {d s : List α} {i j n : Nat} : Post (memcpy d i s j n) fun r =>
    i + n ≤ d.length ∧ j + n ≤ s.length ∧ r = d.take i ++ (s.drop j).take n ++ d.drop (i + n) := by
  unfold Frodo.memcpy
  split
  · split
    · exact Post.after fun _ => Post.after fun _ => Post.pure ⟨by assumption, by assumption, rfl⟩
    · intro a t h; cases h
  · intro a t h; cases h

theorem _root_.Frodo.Post.atPtr {α : Type} {l : List α} {off : Nat} {f : List α → C (List α)} {Q : List α → Prop}
    (h : Post (f (l.drop off)) Q) :
    Post (atPtr l off f) fun r => off ≤ l.length ∧ ∃ s, Q s ∧ r = l.take off ++ s := by
  unfold Frodo.atPtr
  split
  · exact Post.after fun _ => Post.bind h fun s hs => Post.pure ⟨by assumption, s, hs, rfl⟩
  · intro a t h; cases h

theorem _root_.Frodo.Post.forC {σ : Type} {lo hi step : Nat} {s : σ} {f : Nat → σ → C σ} (I : σ → Prop) (h0 : I s)
    (h : ∀ i s, I s → Post (f i s) I) : Post (forC lo hi step s f) I := by
  unfold Frodo.forC
  generalize (hi - lo + (step - 1)) / step = k
  induction k generalizing lo s with
  | zero => exact Post.after fun _ => Post.pure h0
  | succ k ih => exact Post.after fun _ => Post.bind (h _ _ h0) fun s hs => ih hs

theorem _root_.Frodo.Post.wr {α : Type} {l : List α} {i : Nat} {v : α} : Post (wr l i v) fun r => r.length = l.length := by
  unfold Frodo.wr
  split
  · exact Post.after fun _ => Post.pure (by simp)
  · intro a t h; cases h

theorem _root_.Frodo.Post.ct_select {r a b : List U8} {len : Nat} {sel : Int} :
    Post (ct_select r a b len sel) fun r' => r'.length = r.length :=
  Post.forC (fun r' : List U8 => r'.length = r.length) rfl fun _ _ hr' => Post.after fun _ => Post.after fun _ =>
    Post.wr.mono fun _ h => h.trans hr'

/-- C72.  After `crypto_kem_keypair` has expanded the secret seed, the array `t` of `keccak_absorb` holds that seed
in clear, from the second byte on; the secret key follows from it, from the public seed and from the rejection
secret. -/
theorem C72_keypair {P : Params} {K : KemParams} (B : Build) (E : Env) (rb : RandomBytes)
    (pk sk s seedSE z : List U8) (hS : Standard P B.gen K) (ha : AlignedKeypair B E P)
    (hs : s.length = K.len) (hse : seedSE.length = K.len) (hz : z.length = K.lenA)
    (hrb : Fills rb (s ++ seedSE ++ z))
    (hpk : P.pkBytes ≤ pk.length) (hsk : P.skBytes ≤ sk.length) :
    Ret (crypto_kem_keypair_frame B E P rb pk sk) (fun o =>
      o.1.sk = (keygen K s seedSE z).2 ++ sk.drop P.skBytes ∧ (o.2.absorbT.drop 1).take K.len = seedSE) := by
  have h := C05_keypair B E rb pk sk s seedSE z hS ha hs hse hz hrb hpk hsk
  rw [← C72_same_keypair] at h
  have hl : K.len = P.bytes := by rw [← hS.kem]; rfl
  have hlA : K.lenA = P.seedA := by rw [← hS.kem]; rfl
  have hlR : (s ++ seedSE ++ z).length = P.bytes + P.bytes + P.seedA := by
    simp only [List.length_append]; omega
  have hr := hrb (uninit E.junk 41 8 (2 * P.bytes + P.seedA)) (by simp; omega)
  rw [hlR] at hr
  refine ((Ret.of_map h).and_post (R := fun o => (o.2.absorbT.drop 1).take K.len = seedSE) ?_).mono
    fun o ho => ⟨ho.1.2.1, ho.2⟩
  unfold crypto_kem_keypair_frame
  refine Post.bind (Ret.post hr) ?_
  rintro ⟨R, _i⟩ hR
  simp only at hR
  subst hR
  refine Post.after fun _ => Post.after fun pk => ?_
  have e2 : ((s ++ seedSE ++ z).drop P.bytes).take P.bytes = seedSE := by
    rw [List.append_assoc, List.drop_left' (by omega)]; exact List.take_left' (by omega)
  refine Post.bind (P := fun r => r = (s ++ seedSE ++ z).drop P.bytes) ?_ fun r hr => ?_
  · unfold ptr
    split
    · exact Post.after fun _ => Post.pure rfl
    · intro a t h; cases h
  subst hr
  refine Post.bind (P := fun x => (x.2.2.absorbT.drop 1).take P.bytes = seedSE) ?_ ?_
  · unfold expandNoise_frame
    refine Post.bind (P := fun inp : List U8 => inp.length = 1 + P.bytes) (Post.wr.mono fun _ h => by rw [h]; simp) ?_
    intro inp hinp
    refine Post.bind Post.memcpy ?_
    rintro inp2 ⟨-, -, e⟩
    refine Post.bind (P := fun x => (x.2.absorbT.drop 1).take P.bytes = seedSE) ?_ ?_
    · unfold asBytes_frame
      rw [if_pos (by omega)]
      refine Post.after fun _ => ?_
      have l2 : inp2.length = 1 + P.bytes := by
        rw [e, List.drop_zero, e2]
        simp; omega
      refine Post.bind (Ret.post (C72_message P E.junk _ _ inp2 _ (by omega) (by rw [length_toBytes]; simp; omega))) fun f hf => Post.pure ?_
      have hlt : (1 + P.bytes) % rateOf P.shake = 1 + P.bytes := by cases hS <;> rfl
      rw [hlt, Nat.sub_self, List.drop_zero, List.take_of_length_le (le_of_eq l2)] at hf
      have := congrArg (List.drop 1) hf
      rw [List.drop_take, Nat.add_sub_cancel_left] at this
      show (f.absorbT.drop 1).take P.bytes = seedSE
      rw [this, e, List.drop_zero, e2]
      rw [List.append_assoc, List.drop_left' (by simp; omega), List.drop_of_length_le (by omega), List.append_nil]
    · rintro ⟨S, f⟩ hf
      exact Post.after fun _ => Post.after fun _ => Post.after fun _ => Post.pure hf
  · rintro ⟨inp, S, f⟩ hf
    rw [hl]
    iterate 12 refine Post.after fun _ => ?_
    exact Post.pure hf

/-- How much of the input of the last call of `shake` is left in clear: all the bytes after the ciphertext. -/
theorem last_block {P : Params} {K : KemParams} {g : MatGen} (hS : Standard P g K) {c : List U8} {J : Junk}
    {ss : List U8} {Fin : List U8} (hF : Fin.length = P.ctBytes + P.bytes) (hc : Fin.take P.ctBytes = c)
    (hss : P.bytes ≤ ss.length) :
    Ret (shake_frame P J ss P.bytes Fin (P.ctBytes + P.bytes)) fun f =>
      f.output = K.shake (c ++ (f.absorbT.drop (P.ctBytes % rateOf P.shake)).take P.bytes) P.bytes ++ ss.drop P.bytes := by
  have h := shake_ret (P := P) (J := J) (output := ss) (outlen := P.bytes) (input := Fin)
    (inlen := P.ctBytes + P.bytes) (by omega) hss
  rw [← C72_same] at h
  refine ((Ret.of_map h).and (C72_message P J ss P.bytes Fin (P.ctBytes + P.bytes) (by omega) hss)).mono ?_
  rintro f ⟨h1, h2⟩
  have hfn : P.shake.fn = K.shake := by rw [← hS.kem]; rfl
  have hm : (P.ctBytes + P.bytes) % rateOf P.shake = P.ctBytes % rateOf P.shake + P.bytes := by cases hS <;> rfl
  rw [List.take_of_length_le (le_of_eq hF)] at h1 h2
  rw [hm] at h2
  have hle := Nat.mod_le P.ctBytes (rateOf P.shake)
  have e : (f.absorbT.drop (P.ctBytes % rateOf P.shake)).take P.bytes = Fin.drop P.ctBytes := by
    have := congrArg (List.drop (P.ctBytes % rateOf P.shake)) h2
    rw [List.drop_take, Nat.add_sub_cancel_left, List.drop_drop] at this
    rw [this]
    congr 1
    omega
  rw [h1, e, ← hc, List.take_append_drop, hfn]

/-- C72.  When `crypto_kem_enc` returns, having cleared its copies of everything secret, the array `t` of the last call
of `keccak_absorb` still holds, in clear, the bytes from which together with the ciphertext the shared secret is
computed. -/
theorem C72_enc {P : Params} {K : KemParams} (B : Build) (E : Env) (rb : RandomBytes)
    (ct ss pk mu : List U8) (hS : Standard P B.gen K) (hB : Good B) (ha : AlignedKem B E P)
    (hmu : mu.length = K.len) (hrb : Fills rb mu)
    (hpk : P.pkBytes ≤ pk.length) (hct : P.ctBytes ≤ ct.length) (hss : P.bytes ≤ ss.length) :
    Ret (crypto_kem_enc_frame B E P rb ct ss pk) (fun o =>
      o.1.ct.take P.ctBytes = (encaps K (pk.take P.pkBytes) mu).1 ∧
      (encaps K (pk.take P.pkBytes) mu).2 =
        K.shake ((encaps K (pk.take P.pkBytes) mu).1 ++ (o.2.absorbT.drop (P.ctBytes % rateOf P.shake)).take K.len) K.len) := by
  have h := C06_enc B E rb ct ss pk mu hS hB ha hmu hrb hpk hct hss
  rw [← C72_same_enc] at h
  have hl : K.len = P.bytes := by rw [← hS.kem]; rfl
  refine ((Ret.of_map h).and_post (R := fun o => o.1.ss = K.shake (o.1.ct.take P.ctBytes ++
    (o.2.absorbT.drop (P.ctBytes % rateOf P.shake)).take P.bytes) P.bytes ++ ss.drop P.bytes) ?_).mono fun o ho => ?_
  · unfold crypto_kem_enc_frame
    iterate 4 refine Post.after fun _ => ?_
    refine Post.after fun x => ?_
    obtain ⟨inp, Sp⟩ := x
    refine Post.after fun x => ?_
    obtain ⟨Bp, Sp⟩ := x
    iterate 4 refine Post.after fun _ => ?_
    refine Post.after fun c => ?_
    refine Post.bind Post.memcpy ?_
    rintro F ⟨-, h0, rfl⟩
    refine Post.bind Post.memcpy ?_
    rintro F ⟨h1, h2, e⟩
    have l1 : ∀ x y : List U8, P.ctBytes ≤ x.length → y.length = P.ctBytes + P.bytes →
      (y.take 0 ++ (x.drop 0).take P.ctBytes ++ y.drop (0 + P.ctBytes)).take P.ctBytes = x.take P.ctBytes := by
      intro x y h h'
      rw [List.take_zero, List.nil_append, List.drop_zero, List.take_left' (by simp; omega)]
    refine Post.bind (Ret.post (last_block hS (c := c.take P.ctBytes) (Fin := F) ?_ ?_ hss)) fun f hf => ?_
    · rw [e]; simp; omega
    · rw [e, List.append_assoc, List.take_left' (by simp; omega), l1 _ _ (by omega) (by simp)]
    iterate 8 refine Post.after fun _ => ?_
    exact Post.pure hf
  · obtain ⟨⟨h1, h2, -⟩, h3⟩ := ho
    have e : o.1.ct.take P.ctBytes = (encaps K (pk.take P.pkBytes) mu).1 := by
      rw [h1]
      exact List.take_left' (by rw [length_encaps_ct, hS.ctLen])
    refine ⟨e, ?_⟩
    rw [h2, e] at h3
    rw [hl]
    exact (List.append_inj h3 (by rw [length_encaps_ss hS.kwf, hS.kwf.shake, hl])).1

/-- C72.  The same for `crypto_kem_dec`, whatever it is given. -/
theorem C72_dec {P : Params} {K : KemParams} (B : Build) (E : Env) (skAddr : Nat)
    (ss ct sk : List U8) (hS : Standard P B.gen K) (hB : Good B) (ha : AlignedKem B E P)
    (hal : skAddr % 2 = 0)
    (hss : P.bytes ≤ ss.length) (hct : P.ctBytes ≤ ct.length) (hsk : P.skBytes ≤ sk.length) :
    Ret (crypto_kem_dec_frame B E P skAddr ss ct sk) (fun o =>
      decaps K (ct.take P.ctBytes) (sk.take P.skBytes) =
        K.shake (ct.take P.ctBytes ++ (o.2.absorbT.drop (P.ctBytes % rateOf P.shake)).take K.len) K.len) := by
  have h := C07_dec B E skAddr ss ct sk hS hB ha hal hss hct hsk
  rw [← C72_same_dec] at h
  have hl : K.len = P.bytes := by rw [← hS.kem]; rfl
  refine ((Ret.of_map h).and_post (R := fun o => o.1.ss = K.shake (ct.take P.ctBytes ++
    (o.2.absorbT.drop (P.ctBytes % rateOf P.shake)).take P.bytes) P.bytes ++ ss.drop P.bytes) ?_).mono fun o ho => ?_
  · unfold crypto_kem_dec_frame
    refine Post.after fun _ => ?_
    refine Post.after fun x => ?_
    obtain ⟨Bp, Cm, W, G2in⟩ := x
    iterate 2 refine Post.after fun _ => ?_
    refine Post.after fun x => ?_
    obtain ⟨inp, Sp⟩ := x
    refine Post.after fun _ => ?_
    refine Post.after fun x => ?_
    obtain ⟨Bp, Sp⟩ := x
    iterate 3 refine Post.after fun _ => ?_
    refine Post.bind Post.memcpy ?_
    rintro F ⟨-, h0, e0⟩
    iterate 4 refine Post.after fun _ => ?_
    refine Post.bind (Post.atPtr Post.ct_select) ?_
    rintro F' ⟨h1, t, ht, e⟩
    have lF : F.length = P.ctBytes + P.bytes := by rw [e0]; simp; omega
    refine Post.bind (Ret.post (last_block hS (c := ct.take P.ctBytes) (Fin := F') ?_ ?_ hss)) fun f hf => ?_
    · rw [e]; simp [ht]; omega
    · rw [e, List.take_left' (by simp; omega), e0, List.take_zero, List.nil_append, List.drop_zero,
        List.take_left' (by simp; omega)]
    iterate 9 refine Post.after fun _ => ?_
    exact Post.pure hf
  · obtain ⟨⟨h2, -⟩, h3⟩ := ho
    rw [h2] at h3
    rw [hl]
    exact (List.append_inj h3 (by rw [length_decaps hS.kwf, hS.kwf.shake, hl])).1

/-! ## Cases -/

/-- Three bytes absorbed after a domain separator: they remain. -/
example (J : Junk) : Ret (shake_frame frodo640 J (List.replicate 16 0) 16 [0x5F, 1, 2, 3] 4) fun f =>
    f.absorbT.take 4 = [0x5F, 1, 2, 3] :=
  C72_message frodo640 J _ 16 [0x5F, 1, 2, 3] 4 (by simp) (by simp)

/-- One byte more than a block: only that byte remains in clear. -/
example (J : Junk) : Ret (shake_frame frodo976 J (List.replicate 24 0) 24 (List.replicate 136 7 ++ [9]) 137) fun f =>
    f.absorbT.take 1 = [9] :=
  C72_message frodo976 J _ 24 (List.replicate 136 7 ++ [9]) 137 (by simp) (by simp)

/-- An output of 16 bytes leaves 168. -/
example (J : Junk) : Ret (shake_frame frodo640 J (List.replicate 16 0) 16 [1] 1) fun f => f.t = SHAKE128 [1] 168 :=
  C72_output frodo640 J _ 16 [1] 1 (by simp) (by simp) (by decide)

/-- Different seeds leave different states. -/
example (J : Junk) {f f' : ShakeFrame} (h : Ret (shake_frame frodo640 J (List.replicate 16 0) 16 [0x5F, 1] 2) (· = f))
    (h' : Ret (shake_frame frodo640 J (List.replicate 16 0) 16 [0x5F, 2] 2) (· = f')) : f.s ≠ f'.s := fun e =>
  absurd (C72_state frodo640 J J _ _ 16 [0x5F, 1] [0x5F, 2] 2 (by simp) (by simp) (by simp) (by simp) rfl h h' e)
    (by decide)

/-- Key generation with a seed of sevens: the sevens remain. -/
example (B : Build) : Ret (crypto_kem_keypair_frame B E0 frodo640
    (rbConst (List.replicate 16 1 ++ List.replicate 16 7 ++ List.replicate 16 2)) (List.replicate 9616 0)
      (List.replicate 19888 0)) fun o => (o.2.absorbT.drop 1).take 16 = List.replicate 16 7 :=
  (C72_keypair B E0 (rbConst (List.replicate 16 1 ++ List.replicate 16 7 ++ List.replicate 16 2)) (List.replicate 9616 0)
    (List.replicate 19888 0) _ _ _ (.frodo640 _)
    (E0_keypair B) (by simp; rfl) (by simp; rfl) (by simp; rfl) (fills_const _)
    (by rw [List.length_replicate]; decide) (by rw [List.length_replicate]; decide)).mono fun _ h => h.2

/-- The position of the secret in the block is not the start of it. -/
example : frodo640.ctBytes % rateOf frodo640.shake = 144 ∧ frodo976.ctBytes % rateOf frodo976.shake = 104 ∧
    frodo1344.ctBytes % rateOf frodo1344.shake = 8 := ⟨rfl, rfl, rfl⟩

end Frodo.Props
