import Verif.Proof.SnP4Lanes
import Mathlib.Tactic.IntervalCases

/-! # The permutation with 12 rounds and the fast loops -/

namespace Frodo

open Spec

theorem keccakPn_24 (A : KState) : keccakPn 24 A = keccakP A := by
  unfold keccakPn keccakP
  simp

theorem keccakPbits_24 (S : List Bool) : keccakPbits 24 S = keccakF S := by
  rw [keccakPbits, keccakPn_24, keccakF]

theorem rounds12_ret (v : VLanes) :
    Ret (rounds12 v) (fun v' => ∀ t, (v'.lane t).get.bits = keccakPn 12 (v.lane t).get.bits) := by
  unfold rounds12
  refine (Ret.foldlM (fun n (x : VLanes × VCols) => ∀ t,
    x.2.col t = lC (x.1.lane t).get ∧
    (x.1.lane t).get.bits =
      (List.range n).foldl (fun A i => Rnd A (24 - 12 + i)) (v.lane t).get.bits) ?_ ?_).bind ?_
  · intro t
    exact ⟨by funext x; exact prepareTheta_col v t x, rfl⟩
  · rintro k ⟨w, c⟩ hk hI
    simp only at hI
    simp only [CONST256_64, wp]
    refine ⟨by rw [constants_eq]; show 12 + k < 24; omega, ?_⟩
    intro t
    refine ⟨by funext x; exact roundV_col _ _ _ _ _, ?_⟩
    rw [roundV_get, (hI t).1, lRoundC_eq, constants_eq, lRound_bits _ _ (by omega), (hI t).2,
      List.range_succ, List.foldl_append]
    rfl
  · rintro ⟨w, c⟩ hI
    simp only at hI
    simp only [CONST256_64, wp]
    refine ⟨by rw [constants_eq]; show 23 < 24; omega, ?_⟩
    intro t
    rw [lastV_get, (hI t).1, lRoundC_eq, constants_eq, lRound_bits _ _ (by omega), (hI t).2]
    unfold keccakPn
    rw [List.range_succ (n := 11), List.foldl_append]
    rfl

theorem keccakPbits_sbits {nr : Nat} {s s' : List U64} (h : kstate s' = keccakPn nr (kstate s)) :
    sbits s' = keccakPbits nr (sbits s) := by
  rw [keccakPbits, stateOfBits_sbits, ← h, bitsOfState_kstate]

theorem Permute12_ret {E : Env} {ss : List U64} (hE : E.rhoAligned) (h : ss.length = 100) :
    Ret (KeccakP1600times4_PermuteAll_12rounds E ss)
      (fun ss' => ss'.length = 100 ∧
        ∀ t, sbits (inst t ss') = keccakPbits 12 (sbits (inst t ss))) := by
  unfold KeccakP1600times4_PermuteAll_12rounds
  simp only [wp]
  refine ⟨hE, ?_⟩
  refine (copyFromState4x_ret h).bind fun v hv => ?_
  refine (rounds12_ret v).bind fun w hw => ?_
  refine (copyToState4x_ret h w).mono fun s' hs' => ⟨hs'.1, fun t => keccakPbits_sbits ?_⟩
  rw [kstate, hs'.2, hw, hv, kstate]

/-- The bytes of a state are its bits. -/
theorem sbits_inst (ss : List U64) (t : Fin 4) : sbits (inst t ss) = bytesToBits (instBytes ss t) := by
  apply ext_getD
  · rw [length_sbits, length_bytesToBits]; simp [instBytes]
  · intro i hi
    rw [length_sbits] at hi
    rw [sbits_getD, bytesToBits_getD, instBytes, nth_range_map, if_pos (by omega),
      nth_inst _ _ (by omega), stByte, BitVec.getLsbD_extractLsb']
    have h1 : i % 8 < 8 := Nat.mod_lt _ (by omega)
    simp only [hi, h1, decide_true, Bool.true_and]
    rw [show i / 8 / 8 = i / 64 by omega, show 8 * (i / 8 % 8) + i % 8 = i % 64 by omega]

theorem length_bitsOfState (A : KState) : (bitsOfState A).length = 1600 := by simp [bitsOfState]

/-! ## The lanes in registers -/

/-- The registers as an array of states (proof device). -/
def regs (v : VLanes) : List U64 := (List.range 100).map fun i => v.toFn (i / 4) (Fin.ofNat 4 i)

@[simp] theorem length_regs (v : VLanes) : (regs v).length = 100 := by simp [regs]

theorem nth_regs (v : VLanes) {l : Nat} (hl : l < 25) (t : Fin 4) :
    nth (regs v) (4 * l + t) = v.toFn l t := by
  unfold regs
  have := t.isLt
  rw [nth_range_map, if_pos (by omega), show (4 * l + t.val) / 4 = l by omega]
  congr 1
  ext; simp only [Fin.ofNat]; omega

/-- The register with lane number `i` (proof device). -/
theorem lane_toFn (v : VLanes) (t : Fin 4) (x y : Fin 5) :
    (v.lane t).get x y = v.toFn (5 * y + x) t := by
  fin_cases y <;> fin_cases x <;> rfl

theorem xorIn21_ret {dAddr : Nat} {data : List U8} {o : Four Nat} {v : VLanes}
    (hA : ∀ t, (dAddr + o.get t) % 8 = 0) (hd : ∀ t, o.get t + 168 ≤ data.length) :
    Ret (xorIn21 dAddr data o v) (fun v' => ∀ i t, v'.toFn i t =
      if i < 21 then v.toFn i t ^^^ laneV data o i t else v.toFn i t) := by
  unfold xorIn21
  have h : ∀ i, i < 21 → Ret (loadLane4 dAddr data o i) (· = laneV data o i) := fun i hi =>
    loadLane4_ret hA fun t => by have := hd t; omega
  iterate 21 refine (h _ (by omega)).bind_eq ?_
  simp only [wp]
  intro i t
  by_cases hi : i < 21
  · rw [if_pos hi]
    interval_cases i <;> rfl
  · rw [if_neg hi]
    by_cases h25 : i < 25
    · interval_cases i <;> rfl
    · unfold VLanes.toFn
      rw [nth_of_le (by simp; omega), nth_of_le (by simp; omega)]

theorem lanesOf_regs (v : VLanes) (t : Fin 4) : lanesOf (inst t (regs v)) = (v.lane t).get := by
  funext x y
  have := x.isLt
  have := y.isLt
  rw [lanesOf, nth_inst _ _ (by omega), nth_regs _ (by omega), lane_toFn]

theorem sbits_of_lanes {s s' : List U64} (h : lanesOf s = lanesOf s') : sbits s = sbits s' := by
  rw [← bitsOfState_kstate, ← bitsOfState_kstate, kstate, kstate, h]

/-! ## The loops -/

theorem absorbBlocks_succ (nr : Nat) (S : List Bool) (f : Nat → List U8) (j : Nat) :
    absorbBlocks nr S ((List.range (j + 1)).map f) =
      absorbBlock nr (absorbBlocks nr S ((List.range j).map f)) (f j) := by
  unfold absorbBlocks
  rw [List.range_succ, List.map_append, List.foldl_append, List.map_singleton, List.foldl_cons,
    List.foldl_nil]

theorem absorbBlocks_zero (nr : Nat) (S : List Bool) (f : Nat → List U8) :
    absorbBlocks nr S ((List.range 0).map f) = S := by
  unfold absorbBlocks
  rw [List.range_zero, List.map_nil, List.foldl_nil]

theorem lt_fastBlocks {need step len j : Nat} (hs : 0 < step)
    (hB : fastBlocks need step len * step ≤ len) (hj : j ≤ fastBlocks need step len) :
    (need ≤ len - j * step ↔ j < fastBlocks need step len) := by
  have hjs : j * step ≤ fastBlocks need step len * step := Nat.mul_le_mul_right _ hj
  unfold fastBlocks at *
  by_cases c : len < need
  · rw [if_pos c] at *
    omega
  · rw [if_neg c] at *
    rw [show (need ≤ len - j * step ↔ j * step ≤ len - need) by omega,
      ← Nat.le_div_iff_mul_le hs]
    omega

/-- Block `j` of instance `t` (proof device). -/
def blk (data : List U8) (n L los : Nat) (t : Fin 4) (j : Nat) : List U8 :=
  (data.drop (8 * (los * j + L * t))).take (8 * n)

theorem length_blk {data : List U8} {n L los : Nat} {t : Fin 4} {j : Nat}
    (h : 8 * (los * j + 3 * L + n) ≤ data.length) : (blk data n L los t j).length = 8 * n := by
  have := t.isLt
  have : L * t ≤ L * 3 := Nat.mul_le_mul_left _ (by omega)
  unfold blk
  simp only [List.length_take, List.length_drop]
  omega

/-- Exclusive or of a block into the states. -/
theorem sbits_block {s s' : List U64} {data : List U8} {n L los j : Nat} (hn : n ≤ 25)
    (h : 8 * (los * j + 3 * L + n) ≤ data.length) {t : Fin 4}
    (hx : ∀ l, l < 25 → nth s' (4 * l + t) =
      if l < n then nth s (4 * l + t) ^^^ le64 data (8 * (los * j + L * t) + 8 * l)
      else nth s (4 * l + t)) :
    sbits (inst t s') = xorBits (sbits (inst t s)) (bytesToBits (blk data n L los t j) ++
      List.replicate (1600 - 8 * (blk data n L los t j).length) false) := by
  rw [length_blk h, blk]
  have := t.isLt
  have : L * t ≤ L * 3 := Nat.mul_le_mul_left _ (by omega)
  refine sbits_xor (by omega) (by omega) (by simp; omega) fun l k hl hk => ?_
  rw [nth_inst _ _ hl, nth_inst _ _ hl, hx l hl, nth_drop]
  by_cases c : l < n
  · have c' : l < 8 * n / 8 := by omega
    rw [if_pos c, BitVec.getLsbD_xor, le64_getLsbD _ _ _ hk]
    simp only [c', decide_true, Bool.true_and]
    rw [Nat.add_assoc (8 * (los * j + L * t))]
  · have c' : ¬ l < 8 * n / 8 := by omega
    rw [if_neg c, decide_eq_false c', Bool.false_and, Bool.xor_false]

theorem sz64_sub {a b : Nat} (h : b ≤ a) (ha : a < 2 ^ 64) : sz64 ((a : Int) - (b : Int)) = a - b := by
  unfold sz64
  rw [← Int.ofNat_sub h]
  have : ((a - b : Nat) : Int) % 2 ^ 64 = ((a - b : Nat) : Int) :=
    Int.emod_eq_of_lt (by omega) (by omega)
  rw [this, Int.toNat_natCast]

theorem fastLoop_ret {rounds : VLanes → C VLanes} {permute : List U64 → C (List U64)} {nr : Nat}
    {E : Env} {sAddr : Nat} {ss : List U64} {n L los dAddr : Nat} {data : List U8} {len : Nat}
    (hr : ∀ v, Ret (rounds v) (fun v' => ∀ t,
      (v'.lane t).get.bits = keccakPn nr (v.lane t).get.bits))
    (hp : ∀ s, s.length = 100 → Ret (permute s) (fun s' => s'.length = 100 ∧
      ∀ t, sbits (inst t s') = keccakPbits nr (sbits (inst t s))))
    (hE : E.rhoAligned) (hsA : sAddr % 32 = 0) (h : ss.length = 100) (hA : dAddr % 8 = 0) (hn : n ≤ 25)
    (hw : 8 * (3 * L + n) < 2 ^ 32) (hlos : 8 * los < 2 ^ 32) (h0 : 0 < los)
    (hlen : len ≤ data.length) (h64 : len < 2 ^ 64)
    (hB : fastBlocks (8 * (3 * L + n)) (8 * los) len * (8 * los) ≤ len)
    (h21 : n = 21 → 8 * (3 * L + fastBlocks (8 * (3 * L + n)) (8 * los) len * los) ≤ data.length) :
    Ret (fastLoopAbsorb rounds permute E sAddr ss n L los dAddr data len)
      (fun r => r.1.length = 100 ∧ r.2 = fastBlocks (8 * (3 * L + n)) (8 * los) len * (8 * los) ∧
        ∀ t, sbits (inst t r.1) = absorbBlocks nr (sbits (inst t ss))
          ((List.range (fastBlocks (8 * (3 * L + n)) (8 * los) len)).map (blk data n L los t))) := by
  have hfb : fastBound L n = 8 * (3 * L + n) := by
    unfold fastBound u32; omega
  have hu : u32 (los * 8) = 8 * los := by unfold u32; omega
  unfold fastLoopAbsorb
  rw [Ret_ifC, hfb, hu]
  generalize hN : fastBlocks (8 * (3 * L + n)) (8 * los) len = N at *
  have hlt : ∀ j, j ≤ N → (8 * (3 * L + n) ≤ len - j * (8 * los) ↔ j < N) := by
    intro j hj
    subst hN
    exact lt_fastBlocks (by omega) hB hj
  have hmono : ∀ j, j ≤ N → j * (8 * los) ≤ N * (8 * los) := fun j hj => Nat.mul_le_mul_right _ hj
  have hsucc : ∀ j, (j + 1) * (8 * los) = j * (8 * los) + 8 * los := fun j => by
    rw [Nat.add_mul, Nat.one_mul]
  have hswap : ∀ j, j * (8 * los) = 8 * (los * j) := fun j => by
    rw [Nat.mul_comm, Nat.mul_assoc]
  by_cases c : n = 21
  · rw [decide_eq_true c, if_pos rfl]
    have h21 := h21 c
    refine (lanePtrs_ret hA (by omega) (by omega)).bind_eq ?_
    rw [Ret_require_bind]
    refine ⟨hsA, ?_⟩
    refine (copyFromState4x_ret h).bind fun v hv => ?_
    have hv' : ∀ t, sbits (inst t (regs v)) = sbits (inst t ss) := fun t =>
      sbits_of_lanes (by rw [lanesOf_regs, hv])
    refine Ret.bind (Q := fun st : Fast21St => st.o.x0 = N * (8 * los) ∧
      ∀ t, sbits (inst t (regs st.v)) = absorbBlocks nr (sbits (inst t ss))
        ((List.range N).map (blk data n L los t))) ?_ ?_
    · refine Ret.while (fun st : Fast21St => ∃ j, j ≤ N ∧ (∀ t, st.o.get t = 8 * (los * j + L * t)) ∧
        st.dataByteLen = len - j * (8 * los) ∧
        ∀ t, sbits (inst t (regs st.v)) = absorbBlocks nr (sbits (inst t ss))
          ((List.range j).map (blk data n L los t))) (fun st => st.dataByteLen) ?_ ?_ _ ?_
      · rintro st ⟨j, hj, ho, hb, hS⟩ hc
        have hc : 8 * (3 * L + n) ≤ st.dataByteLen := by simpa using hc
        have hjN : j < N := (hlt j hj).1 (by omega)
        have hm := hmono (j + 1) hjN
        have e1 := hsucc j
        have e2 := hswap j
        have hdat : 8 * (los * j + 3 * L + n) ≤ data.length := by omega
        have hL3 : ∀ t : Fin 4, L * t ≤ L * 3 := fun t =>
          Nat.mul_le_mul_left _ (by have := t.isLt; omega)
        refine (xorIn21_ret (fun t => ?_) (fun t => ?_)).bind fun w hw' => ?_
        · rw [ho]; omega
        · rw [ho]; have := hL3 t; omega
        rw [Ret_require_bind]
        refine ⟨hE, ?_⟩
        refine (hr w).bind fun z hz => ?_
        have hadv : ∀ t : Fin 4, st.o.get t + 8 * los ≤ data.length := by
          intro t
          rw [ho]
          have e3 : N * los * 8 = N * (8 * los) := by rw [Nat.mul_assoc, Nat.mul_comm los 8]
          have := hL3 t
          have h3 : 8 * (3 * L + N * los) = 24 * L + N * los * 8 := by omega
          omega
        have a0 := hadv 0
        have a1 := hadv 1
        have a2 := hadv 2
        have a3 := hadv 3
        simp only [Four.get] at a0 a1 a2 a3
        unfold advance
        simp only [wp]
        refine ⟨a0, a1, a2, a3, ⟨j + 1, hjN, ?_, ?_, ?_⟩, ?_⟩
        · have hj1 : los * (j + 1) = los * j + los := Nat.mul_succ _ _
          refine four_forall ?_ ?_ ?_ ?_
          · have := ho 0; simp only [Four.get] at this ⊢; omega
          · have := ho 1; simp only [Four.get] at this ⊢; omega
          · have := ho 2; simp only [Four.get] at this ⊢; omega
          · have := ho 3; simp only [Four.get] at this ⊢; omega
        · rw [sz64_sub (by omega) (by omega)]; omega
        · intro t
          have k1 : kstate (inst t (regs z)) = keccakPn nr (kstate (inst t (regs w))) := by
            rw [kstate, kstate, lanesOf_regs, lanesOf_regs, hz]
          rw [keccakPbits_sbits k1, absorbBlocks_succ, ← hS t, absorbBlock]
          refine congrArg (keccakPbits nr) ?_
          refine sbits_block hn hdat fun l hl => ?_
          rw [nth_regs _ hl, nth_regs _ hl, hw', c]
          simp only [laneV, ho]
        · rw [sz64_sub (by omega) (by omega)]; omega
      · rintro st ⟨j, hj, ho, hb, hS⟩ hc
        have hc : st.dataByteLen < 8 * (3 * L + n) := by simpa using hc
        have hjN : j = N := by
          by_contra hne
          have := (hlt j hj).2 (by omega)
          omega
        subst hjN
        refine ⟨?_, hS⟩
        have := ho 0
        simp only [Four.get] at this
        rw [this, hswap]
        simp
      · refine ⟨0, by omega, ?_, by simp, fun t => ?_⟩
        · intro t; rw [offs_get]; omega
        · rw [hv', absorbBlocks_zero]
    · rintro st ⟨ho, hS⟩
      refine (copyToState4x_ret h st.v).bind fun s' hs' => ?_
      simp only [wp]
      refine ⟨hs'.1, ho, fun t => ?_⟩
      rw [← hS t]
      exact sbits_of_lanes (by rw [lanesOf_regs, hs'.2])
  · rw [decide_eq_false c, if_neg (by simp)]
    refine Ret.bind (Q := fun st : FastSt => st.ss.length = 100 ∧ st.pos = N * (8 * los) ∧
      ∀ t, sbits (inst t st.ss) = absorbBlocks nr (sbits (inst t ss))
        ((List.range N).map (blk data n L los t))) ?_ ?_
    · refine Ret.while (fun st : FastSt => ∃ j, j ≤ N ∧ st.ss.length = 100 ∧ st.pos = j * (8 * los) ∧
        st.dataByteLen = len - j * (8 * los) ∧
        ∀ t, sbits (inst t st.ss) = absorbBlocks nr (sbits (inst t ss))
          ((List.range j).map (blk data n L los t))) (fun st => st.dataByteLen) ?_ ?_ _ ?_
      · rintro st ⟨j, hj, hl, ho, hb, hS⟩ hc
        have hc : 8 * (3 * L + n) ≤ st.dataByteLen := by simpa using hc
        have hjN : j < N := (hlt j hj).1 (by omega)
        have hm := hmono (j + 1) hjN
        have e1 := hsucc j
        have e2 := hswap j
        have hdat : 8 * (los * j + 3 * L + n) ≤ data.length := by omega
        refine (AddLanesAll_ret hsA hl (by omega) hn (by omega) (by simp; omega)).bind fun w hw' => ?_
        refine (hp w hw'.1).bind fun z hz => ?_
        simp only [wp]
        refine ⟨by omega, ⟨j + 1, hjN, hz.1, by omega, ?_, ?_⟩, ?_⟩
        · rw [sz64_sub (by omega) (by omega)]; omega
        · intro t
          rw [hz.2, absorbBlocks_succ, ← hS t, absorbBlock]
          refine congrArg (keccakPbits nr) ?_
          refine sbits_block hn hdat fun l hl' => ?_
          rw [hw'.2]
          have e3 : laneV (data.drop st.pos) (offs L) l t =
              le64 data (8 * (los * j + L * t) + 8 * l) := by
            apply BitVec.eq_of_getLsbD_eq
            intro i hi
            rw [laneV, le64_getLsbD _ _ _ hi, le64_getLsbD _ _ _ hi, nth_drop, offs_get, ho, e2]
            congr 2
            omega
          rw [e3]
        · rw [sz64_sub (by omega) (by omega)]; omega
      · rintro st ⟨j, hj, hl, ho, hb, hS⟩ hc
        have hc : st.dataByteLen < 8 * (3 * L + n) := by simpa using hc
        have hjN : j = N := by
          by_contra hne
          have := (hlt j hj).2 (by omega)
          omega
        subst hjN
        exact ⟨hl, ho, hS⟩
      · exact ⟨0, by omega, h, by simp, by simp, fun t => (absorbBlocks_zero ..).symm⟩
    · rintro st hst
      simpa only [wp] using hst

end Frodo
