import Verif.Model.SnP4Overlap
import Verif.Proof.SnP4Lanes
import Verif.Proof.SnP4Align

/-! # `ExtractAndAdd` with input and output in one buffer: proofs -/

namespace Frodo

open Spec

/-- The bytes that the function writes (proof device): byte `p` is read from byte `p - d` of the output if
that one has already been written, where `d` is the distance from the input to the output. -/
def chain (mem : List U8) (ip op : Nat) (s : Nat → U8) (p : Nat) : U8 :=
  if _h : ip < op ∧ op ≤ ip + p then chain mem ip op s (p - (op - ip)) ^^^ s p else nth mem (ip + p) ^^^ s p
termination_by p

/-- The buffer after `done` bytes (proof device). -/
def OutAt (w : Nat → U8) (mem : List U8) (op done : Nat) (mem' : List U8) : Prop :=
  mem'.length = mem.length ∧ ∀ q, nth mem' q = if op ≤ q ∧ q < op + done then w (q - op) else nth mem q

theorem OutAt.zero {w : Nat → U8} {mem : List U8} {op : Nat} : OutAt w mem op 0 mem :=
  ⟨rfl, fun p => by rw [if_neg (by omega)]⟩

/-- What is read for byte `done + i`, if the distance is not too small. -/
theorem OutAt.read {mem mem' : List U8} {ip op done i : Nat} {s : Nat → U8}
    (h : OutAt (chain mem ip op s) mem op done mem') (hd : ip < op → ip + i < op) :
    nth mem' (ip + (done + i)) ^^^ s (done + i) = chain mem ip op s (done + i) := by
  rw [h.2, chain.eq_1 _ _ _ _ (done + i)]
  by_cases c : ip < op ∧ op ≤ ip + (done + i)
  · have := hd c.1
    rw [dif_pos c, if_pos (by omega)]
    congr 2; omega
  · rw [dif_neg c]
    by_cases c2 : op ≤ ip + (done + i) ∧ ip + (done + i) < op + done
    · omega
    · rw [if_neg c2]

theorem OutAt.step {w : Nat → U8} {mem mem' s : List U8} {op done n : Nat} (h : OutAt w mem op done mem')
    (hc : n ≤ s.length) (ha : op + done + n ≤ mem'.length)
    (hs : ∀ i, i < n → nth s i = w (done + i)) :
    OutAt w mem op (done + n)
      (mem'.take (op + done) ++ (s.drop 0).take n ++ mem'.drop (op + done + n)) := by
  refine ⟨by rw [length_splice (by omega) ha, h.1], fun p => ?_⟩
  rw [nth_splice (by omega) ha]
  by_cases c1 : op + done ≤ p ∧ p < op + done + n
  · rw [if_pos c1, if_pos (by omega), Nat.zero_add, hs _ (by omega)]
    congr 1; omega
  · rw [if_neg c1, h.2]
    by_cases c2 : op ≤ p ∧ p < op + done
    · rw [if_pos c2, if_pos (by omega)]
    · rw [if_neg c2, if_neg (by omega)]

theorem xorOutBytesMem_ret {s : Nat → U8} {mem mem' : List U8} {ip op cur n : Nat} {lane : U64}
    (h : OutAt (chain mem ip op s) mem op cur mem') (hi : ip + cur + n ≤ mem.length)
    (ho : op + cur + n ≤ mem.length) (hs : ∀ i, i < n → s (cur + i) = byteW lane i) :
    Ret (xorOutBytesMem mem' ip op cur n lane) (OutAt (chain mem ip op s) mem op (cur + n)) := by
  unfold xorOutBytesMem
  refine Ret.bind (Q := fun r : List U8 × U64 => OutAt (chain mem ip op s) mem op (cur + n) r.1) ?_ ?_
  · refine Ret.for1 (fun i (r : List U8 × U64) => OutAt (chain mem ip op s) mem op (cur + i) r.1 ∧
      r.2 = lane >>> (8 * i)) ?_ ?_ ?_
    · exact ⟨h, by simp⟩
    · rintro i ⟨o, la⟩ hin ⟨hO, hla⟩
      simp only at hO hla
      have hl := hO.1
      simp only [wp]
      refine ⟨by omega, by omega, ⟨by simp [hl], fun p => ?_⟩, ?_⟩
      · rw [nth_set]
        by_cases c : op + (cur + i) = p
        · rw [if_pos ⟨c, by omega⟩, if_pos (by omega), show p - op = cur + i + 0 by omega,
            ← hO.read (by omega), Nat.add_zero, hs i hin, hla]
          rfl
        · rw [if_neg (by omega), hO.2]
          by_cases c2 : op ≤ p ∧ p < op + (cur + i)
          · rw [if_pos c2, if_pos (by omega)]
          · rw [if_neg c2, if_neg (by omega)]
      · rw [hla, ← BitVec.shiftRight_add]; rfl
    · rintro ⟨o, la⟩ hh; exact hh.1
  · rintro r hr
    simpa only [wp] using hr

theorem ExtractAndAddBytes_mem_ret {sAddr : Nat} (hsA : sAddr % 8 = 0) {ss : List U64}
    (h : ss.length = 100) {k : Nat} (hk : k < 4) {mAddr : Nat} {mem : List U8} {ip op : Nat}
    {offset length : Nat} (hi : ip + length ≤ mem.length)
    (hd : op + length ≤ mem.length) (ho : offset + length ≤ 200)
    (hA : Whole offset length → (mAddr + ip) % 8 = offset % 8 ∧ (mAddr + op) % 8 = offset % 8) :
    Ret (KeccakP1600times4_ExtractAndAddBytes_mem sAddr ss k mAddr mem ip op offset length)
      (OutAt (chain mem ip op fun p => stByte ss k (offset + p)) mem op length) := by
  unfold KeccakP1600times4_ExtractAndAddBytes_mem
  simp only [Ret_require_bind]
  refine ⟨hsA, ?_⟩
  obtain ⟨p1, p2, p3⟩ := head_pos offset length
  generalize hs : (fun p => stByte ss k (offset + p)) = s
  have hs' : ∀ p, s p = stByte ss k (offset + p) := fun p => by rw [← hs]
  refine Ret.bind (Q := fun st : ExtrSt => OutAt (chain mem ip op s) mem op (headLen offset length) st.out ∧
    Pos offset length (headLen offset length) st.sizeLeft st.lanePosition st.cur) ?_ ?_
  · by_cases c : length > 0 ∧ offset % 8 ≠ 0
    · have hh : headLen offset length = min length (8 - offset % 8) := by
        unfold headLen; rw [if_neg c.2]
      simp only [Ret_ifC, decide_eq_true c, ↓reduceIte]
      simp only [Ret_rd_bind, laneIndex_eq hk (show offset / 8 < 25 by omega)]
      rw [Ret_bytesInLane_bind, ← hh]
      refine ⟨by omega, ?_⟩
      refine (xorOutBytesMem_ret (s := s) (cur := 0) OutAt.zero (by omega) (by omega)
        fun i hi => ?_).bind fun o ho => ?_
      · rw [hs', byteW_shift _ _ _ (by omega), ← stByte_lane _ (by omega)]
        congr 1; omega
      · simp only [wp]
        exact ⟨by simpa only [Nat.zero_add] using ho, by unfold Pos; omega⟩
    · have hh : headLen offset length = 0 := by
        unfold headLen; split <;> omega
      simp only [Ret_ifC, decide_eq_false c, Bool.false_eq_true, ↓reduceIte, wp]
      rw [hh] at p2 ⊢
      exact ⟨OutAt.zero, by unfold Pos; omega⟩
  · rintro st ⟨hU, hP⟩
    refine Ret.bind (Q := fun st : ExtrSt => ∃ done, OutAt (chain mem ip op s) mem op done
      st.out ∧ Pos offset length done st.sizeLeft st.lanePosition st.cur ∧ st.sizeLeft < 8) ?_ ?_
    · refine Ret.while (fun st : ExtrSt => ∃ done, OutAt (chain mem ip op s) mem op done
        st.out ∧ Pos offset length done st.sizeLeft st.lanePosition st.cur ∧
        (8 ≤ st.sizeLeft → Whole offset length ∧ done % 8 = (8 - offset % 8) % 8))
        (fun st => st.sizeLeft) ?_ ?_ _ ?_
      · rintro st ⟨done, hU, hP, hW⟩ hc
        have hc : 8 ≤ st.sizeLeft := by simpa using hc
        obtain ⟨q1, q2, q3, q4⟩ := hP
        obtain ⟨w1, w2⟩ := hW hc
        have hA := hA w1
        have hl : st.lanePosition < 25 := by omega
        have hlen := hU.1
        simp only [wp, laneIndex_eq hk hl]
        refine ⟨by omega, by omega, by omega, by omega, by omega,
          ⟨done + 8, ?_, by unfold Pos; omega, ?_⟩, by omega⟩
        · rw [q3]
          refine OutAt.step hU (by simp) (by omega) fun i hi => ?_
          rw [nth_bytes64 _ _ (by omega), byteW_xor, byteW_le64 _ _ _ hi, ← hU.read (by omega), hs',
            ← stByte_lane _ hi]
          congr 2 <;> omega
        · intro _; exact ⟨w1, by omega⟩
      · rintro st ⟨done, hU, hP, hW⟩ hc
        exact ⟨done, hU, hP, by simpa using hc⟩
      · exact ⟨_, hU, hP, fun h8 => p3 (by unfold Pos at hP; omega)⟩
    · rintro st ⟨done, hU, hP, h8⟩
      obtain ⟨q1, q2, q3, q4⟩ := hP
      by_cases c : st.sizeLeft ≠ 0
      · have hl : st.lanePosition < 25 := by omega
        have hlen := hU.1
        simp only [wp, decide_eq_true c, ↓reduceIte, laneIndex_eq hk hl]
        refine ⟨by omega, ?_⟩
        have e : length = done + st.sizeLeft := by omega
        rw [e, q3]
        refine xorOutBytesMem_ret hU (by omega) (by omega) fun i hi => ?_
        rw [hs', ← stByte_lane _ (by omega)]
        congr 1; omega
      · simp only [wp, decide_eq_false c, Bool.false_eq_true, ↓reduceIte]
        rw [show length = done by omega]
        exact hU

/-- The addresses that are needed. -/
theorem Needs.ExtractAndAddBytes_mem {sAddr : Nat} {ss : List U64} {k mAddr : Nat} {mem : List U8}
    {ip op : Nat} {offset length : Nat} :
    Needs (KeccakP1600times4_ExtractAndAddBytes_mem sAddr ss k mAddr mem ip op offset length)
      (sAddr % 8 = 0 ∧ (Whole offset length →
        (mAddr + ip) % 8 = offset % 8 ∧ (mAddr + op) % 8 = offset % 8)) := by
  refine Needs.and Needs.require.bind (Needs.imp fun hW => Needs.after fun _ => ?_)
  refine Needs.bindPost (P := fun st : ExtrSt => st.sizeLeft = length - headLen offset length ∧
    st.cur = headLen offset length) ?_ ?_
  · refine Post.ifC (fun c => ?_) (fun c => Post.pure ?_)
    · have c : length > 0 ∧ offset % 8 ≠ 0 := by simpa using c
      refine Post.after fun _ => (bytesInLane_post c.2).bind fun n hn => ?_
      subst hn
      refine Post.after fun _ => ?_
      exact Post.pure ⟨rfl, Nat.zero_add _⟩
    · have c := no_head (of_decide_eq_false c)
      rw [c]
      exact ⟨rfl, rfl⟩
  · rintro st ⟨h1, h2⟩
    obtain ⟨w1, w2⟩ := whole_cond (a := mAddr + ip) hW
    obtain ⟨-, w3⟩ := whole_cond (a := mAddr + op) hW
    refine Needs.bind (Needs.while (decide_eq_true (by omega)) (Needs.and
      (Needs.bind (Needs.ldU64.mono fun h => ?_))
      (Needs.after fun _ => Needs.after fun _ => Needs.bind (Needs.stU64.mono fun h => ?_))))
    · rw [h2, ← Nat.add_assoc] at h
      exact w2 h
    · rw [h2, ← Nat.add_assoc] at h
      exact w3 h

/-! ## Lanes -/

theorem LOut.fresh {w : Nat → Nat → U8} {L : Nat} {out out' : List U8} {c : Nat → Nat}
    (h : LOut w L out c out') {t o : Nat} (ho : o < 8 * L) (hc : 8 * c t ≤ o) :
    nth out' (8 * L * t + o) = nth out (8 * L * t + o) := by
  rw [h.2, if_neg]
  rw [Nat.mul_add_div (by omega), Nat.div_eq_of_lt (by omega), Nat.mul_add_mod,
    Nat.mod_eq_of_lt (by omega), Nat.add_zero]
  omega

theorem ExtractAndAddLanesAll_inPlace_ret {sAddr : Nat} (hsA : sAddr % 32 = 0) {ss : List U64}
    (h : ss.length = 100) {dAddr : Nat} {data : List U8} {n L : Nat}
    (hA : dAddr % 8 = 0) (hn : n ≤ 25) (hnL : n ≤ L)
    (hL : 24 * L < 2 ^ 32) (hd : 8 * (3 * L + n) ≤ data.length) :
    Ret (KeccakP1600times4_ExtractAndAddLanesAll_inPlace sAddr ss dAddr data n L)
      (LOut (fun k o => nth data (8 * L * k + o) ^^^ stByte ss k o) L data (fun _ => n)) := by
  unfold KeccakP1600times4_ExtractAndAddLanesAll_inPlace
  refine (lanePtrs_ret hA hL (by omega)).bind_eq ?_
  simp only [Ret_require_bind]
  refine ⟨hsA, ?_⟩
  generalize hw : (fun (k o : Nat) => nth data (8 * L * k + o) ^^^ stByte ss k o) = w
  have hw' : ∀ k o, w k o = nth data (8 * L * k + o) ^^^ stByte ss k o := fun k o => by rw [← hw]
  have key : ∀ (c : Nat → Nat) (s : List U8) (t : Fin 4) (i b : Nat), LOut w L data c s → b < 8 → i < L → c t ≤ i →
      byteW (le64 s ((offs L).get t + 8 * i) ^^^ nth ss (4 * i + t)) b = w t (8 * i + b) := by
    intro c s t i b hI hb hi hc
    rw [byteW_xor, byteW_le64 _ _ _ hb, offs_get, hw', stByte_lane _ hb,
      ← hI.fresh (t := t) (o := 8 * i + b) (by omega) (by omega)]
    congr 2
    rw [Nat.mul_assoc]; omega
  refine laneLoop_ret (fun i s => LOut w L data (fun _ => i) s) ?_ ?_ LOut.zero
  · intro i s hi' hI
    have hl := hI.1
    unfold ExtrXor4
    refine (loadStates_ret h (by omega)).bind fun v hv => ?_
    refine (loadLanes_ret (fun t => ?_)).bind fun x hx => ?_
    · have := offs_bound hd t; omega
    · refine storeLanes_out hI (by omega) (by omega) fun t j b hb => ?_
      rw [← key _ s t _ b hI hb (by omega) (by omega)]
      have e : V4.get ⟨XOR256 v.l0 x.l0, XOR256 v.l1 x.l1, XOR256 v.l2 x.l2, XOR256 v.l3 x.l3⟩ t =
          XOR256 (v.get t) (x.get t) := by
        revert t; exact four_forall rfl rfl rfl rfl
      rw [e, XOR256, hv, hx, laneV, BitVec.xor_comm]
  · intro i s hi' hI
    unfold ExtrXorInPlace
    have b0 := offs_bound hd 0
    have b1 := offs_bound hd 1
    have b2 := offs_bound hd 2
    have b3 := offs_bound hd 3
    have a0 := offs_aligned (L := L) hA 0
    have a1 := offs_aligned (L := L) hA 1
    have a2 := offs_aligned (L := L) hA 2
    have a3 := offs_aligned (L := L) hA 3
    simp only [Four.get] at b0 b1 b2 b3 a0 a1 a2 a3
    have hc : ∀ t : Fin 4, cnt i 1 t t ≤ i := fun t => by unfold cnt; rw [if_neg (by omega)]
    rw [← cnt_zero i 1] at hI
    have hl := hI.1
    simp only [Ret_rd_bind, Ret_ldU64_bind]
    refine ⟨by omega, by omega, by omega, ?_⟩
    refine (stU64_out (t := 0) hI hA (by omega) (by omega)
      fun b hb => key _ s 0 i b hI hb (by omega) (hc 0)).bind fun o ho => ?_
    have hl := ho.1
    simp only [Ret_rd_bind, Ret_ldU64_bind]
    refine ⟨by omega, by omega, by omega, ?_⟩
    refine (stU64_out (t := 1) ho hA (by omega) (by omega)
      fun b hb => key _ _ 1 i b ho hb (by omega) (hc 1)).bind fun o ho => ?_
    have hl := ho.1
    simp only [Ret_rd_bind, Ret_ldU64_bind]
    refine ⟨by omega, by omega, by omega, ?_⟩
    refine (stU64_out (t := 2) ho hA (by omega) (by omega)
      fun b hb => key _ _ 2 i b ho hb (by omega) (hc 2)).bind fun o ho => ?_
    have hl := ho.1
    simp only [Ret_rd_bind, Ret_ldU64_bind]
    refine ⟨by omega, by omega, by omega, ?_⟩
    exact (stU64_out (t := 3) ho hA (by omega) (by omega)
      fun b hb => key _ _ 3 i b ho hb (by omega) (hc 3)).mono fun o ho => ho.cnt4

end Frodo
