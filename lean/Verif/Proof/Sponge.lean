import Verif.Proof.KeccakF
import Mathlib.Data.List.GetD
import Mathlib.Logic.Function.Iterate

/-! # The C sponge is the one of FIPS 202 -/

namespace Frodo

open Spec

/-! ## Bit strings -/

/-- The string of the C state (proof device). -/
def sbits (s : List U64) : List Bool :=
  (List.range 1600).map fun i => (nth s (i / 64)).getLsbD (i % 64)

@[simp] theorem length_sbits (s : List U64) : (sbits s).length = 1600 := by simp [sbits]

theorem getD_range_map {α : Type} (f : Nat → α) (n i : Nat) (d : α) :
    ((List.range n).map f).getD i d = if i < n then f i else d := by
  simp only [List.getD, List.getElem?_map]
  by_cases h : i < n <;> simp [h]

theorem sbits_getD (s : List U64) (i : Nat) :
    (sbits s).getD i false = (decide (i < 1600) && (nth s (i / 64)).getLsbD (i % 64)) := by
  rw [sbits, getD_range_map]
  by_cases h : i < 1600 <;> simp [h]

theorem ext_getD {a b : List Bool} (hl : a.length = b.length)
    (h : ∀ i, i < a.length → a.getD i false = b.getD i false) : a = b := by
  apply List.ext_getElem hl
  intro i h1 h2
  have := h i h1
  simpa [List.getD, h1, h2] using this

theorem stateOfBits_sbits (s : List U64) : stateOfBits (sbits s) = kstate s := by
  funext x y z
  unfold stateOfBits kstate LState.bits lanesOf
  rw [sbits_getD]
  have := x.isLt
  have := y.isLt
  have := z.isLt
  rw [show (64 * (5 * (y : Nat) + x) + z) / 64 = 5 * y + x by omega,
    show (64 * (5 * (y : Nat) + x) + z) % 64 = z by omega]
  simp
  omega

theorem bitsOfState_kstate (s : List U64) : bitsOfState (kstate s) = sbits s := by
  unfold bitsOfState sbits
  apply List.map_congr_left
  intro i hi
  rw [List.mem_range] at hi
  simp only [kstate, LState.bits, lanesOf, Fin.ofNat]
  rw [Nat.mod_eq_of_lt (show i / 64 / 5 < 5 by omega)]
  congr 2
  omega

theorem keccakF_sbits {s s' : List U64} (h : kstate s' = keccakP (kstate s)) :
    sbits s' = keccakF (sbits s) := by
  rw [keccakF, stateOfBits_sbits, ← h, bitsOfState_kstate]

theorem length_keccakF (S : List Bool) : (keccakF S).length = 1600 := by
  simp [keccakF, bitsOfState]

theorem KeccakF_bits {s : List U64} (h : s.length = 25) :
    Ret (KeccakF1600_StatePermute s) (fun s' => s'.length = 25 ∧ sbits s' = keccakF (sbits s)) :=
  (KeccakF_ret h).mono fun _ h => ⟨h.1, keccakF_sbits h.2⟩

@[simp] theorem length_bytesToBits (M : List U8) : (bytesToBits M).length = 8 * M.length := by
  induction M with
  | nil => rfl
  | cons a M ih =>
    simp only [bytesToBits, List.flatMap_cons, List.length_append, List.length_cons] at *
    rw [ih]; simp; omega

theorem bytesToBits_getD (M : List U8) (i : Nat) :
    (bytesToBits M).getD i false = (nth M (i / 8)).getLsbD (i % 8) := by
  induction M generalizing i with
  | nil =>
    show false = _
    rw [nth_of_le (by simp)]
    show _ = (0#8).getLsbD _
    simp
  | cons a M ih =>
    have e : bytesToBits (a :: M) = (List.range 8).map (fun i => a.getLsbD i) ++ bytesToBits M := rfl
    rw [e]
    by_cases h : i < 8
    · rw [List.getD_append _ _ _ _ (by simpa using h), getD_range_map, if_pos h,
        Nat.div_eq_of_lt h, nth_cons_zero, Nat.mod_eq_of_lt h]
    · rw [List.getD_append_right _ _ _ _ (by simpa using h)]
      simp only [List.length_map, List.length_range]
      rw [ih, show i / 8 = (i - 8) / 8 + 1 by omega, nth_cons_succ, show (i - 8) % 8 = i % 8 by omega]

theorem bytesToBits_append (M N : List U8) :
    bytesToBits (M ++ N) = bytesToBits M ++ bytesToBits N := by
  simp [bytesToBits]

/-! ## Loads and stores -/

theorem load64_ret {x : List U8} (h : 8 ≤ x.length) :
    Ret (load64 x) (fun r => ∀ k, k < 64 → r.getLsbD k = (nth x (k / 8)).getLsbD (k % 8)) := by
  unfold load64
  refine Ret.for1 (fun i (r : U64) => ∀ k, k < 64 → r.getLsbD k =
    (decide (k < 8 * i) && (nth x (k / 8)).getLsbD (k % 8))) ?_ ?_ ?_
  · intro k hk; simp
  · intro i r hi hI
    simp only [wp]
    refine ⟨by omega, ?_⟩
    intro k hk
    rw [BitVec.getLsbD_or, hI k hk, BitVec.getLsbD_shiftLeft, BitVec.getLsbD_setWidth]
    by_cases h1 : k < 8 * i
    · have h2 : k < 8 * (i + 1) := by omega
      simp [h1, h2]
    · by_cases h2 : k < 8 * (i + 1)
      · have e1 : k / 8 = i := by omega
        have e2 : k % 8 = k - 8 * i := by omega
        have h3 : k - 8 * i < 64 := by omega
        simp [h1, h2, hk, h3, e1, e2]
      · have : 8 ≤ k - 8 * i := by omega
        rw [BitVec.getLsbD_of_ge (nth x i) _ this]
        simp [h1, h2]
  · intro r hI k hk
    rw [hI k hk]
    simp [show k < 8 * 8 by omega]

/-- Byte `k` of a word in little-endian order (proof device). -/
def byteOf64 (u : U64) (k : Nat) : U8 := (u >>> (8 * k)).setWidth 8

theorem store64_ret {x : List U8} {u : U64} (h : 8 ≤ x.length) :
    Ret (store64 x u) (· = (List.range 8).map (byteOf64 u) ++ x.drop 8) := by
  unfold store64
  refine Ret.bind (Q := fun (st : List U8 × U64) =>
    st.1 = (List.range 8).map (byteOf64 u) ++ x.drop 8) ?_ ?_
  · refine Ret.for1 (fun i (st : List U8 × U64) => st.2 = u >>> (8 * i) ∧
      st.1 = (List.range i).map (byteOf64 u) ++ x.drop i) ?_ ?_ ?_
    · simp
    · rintro i ⟨y, v⟩ hi ⟨h1, h2⟩
      simp only at h1 h2
      simp only [wp]
      refine ⟨?_, ?_, ?_⟩
      · rw [h2]; simp; omega
      · rw [h1, ← BitVec.shiftRight_add]; rfl
      · rw [h2, h1, List.set_append_right _ _ (by simp), List.range_succ, List.map_append]
        simp only [List.length_map, List.length_range, Nat.sub_self]
        rw [List.drop_eq_getElem_cons (show i < x.length by omega), List.set_cons_zero]
        simp [byteOf64]
    · intro st hI; exact hI.2
  · rintro ⟨y, v⟩ hy
    simp only [wp]
    exact hy

/-- Exclusive or of a block into the state, from words to bits. -/
theorem sbits_xor {s s' : List U64} {r : Nat} {m : List U8} (hr : r ≤ 200) (hr8 : r % 8 = 0)
    (hm : r ≤ m.length) (hI : ∀ j k, j < 25 → k < 64 →
      (nth s' j).getLsbD k = ((nth s j).getLsbD k ^^
        (decide (j < r / 8) && (nth m (8 * j + k / 8)).getLsbD (k % 8)))) :
    sbits s' = xorBits (sbits s)
      (bytesToBits (m.take r) ++ List.replicate (1600 - 8 * r) false) := by
  have hlen : (bytesToBits (m.take r) ++ List.replicate (1600 - 8 * r) false).length = 1600 := by
    simp only [List.length_append, length_bytesToBits, List.length_take, List.length_replicate]
    omega
  apply ext_getD
  · rw [xorBits, List.length_zipWith, length_sbits, length_sbits, hlen, Nat.min_self]
  · intro t ht
    rw [length_sbits] at ht
    have e : (xorBits (sbits s) (bytesToBits (m.take r) ++
        List.replicate (1600 - 8 * r) false)).getD t false =
        ((sbits s).getD t false ^^ (bytesToBits (m.take r) ++
        List.replicate (1600 - 8 * r) false).getD t false) := by
      unfold xorBits
      rw [List.getD_eq_getElem _ _ (by rw [List.length_zipWith, length_sbits, hlen]; omega),
        List.getElem_zipWith, ← List.getD_eq_getElem _ false, ← List.getD_eq_getElem _ false]
    rw [e, sbits_getD, sbits_getD, hI _ _ (by omega) (Nat.mod_lt _ (by omega))]
    simp only [ht, decide_true, Bool.true_and]
    refine congrArg (Bool.xor _) ?_
    by_cases h : t < 8 * r
    · rw [List.getD_append _ _ _ _ (by simp; omega), bytesToBits_getD, nth_take, if_pos (by omega)]
      have h1 : t / 64 < r / 8 := by omega
      rw [show 8 * (t / 64) + t % 64 / 8 = t / 8 by omega, show t % 64 % 8 = t % 8 by omega]
      simp [h1]
    · rw [List.getD_append_right _ _ _ _ (by simp; omega)]
      have h1 : ¬ t / 64 < r / 8 := by omega
      simp only [h1, List.getD, List.getElem?_replicate, decide_false, Bool.false_and]
      split <;> rfl

/-- `xorBlock` at bit level. -/
theorem xorBlock_ret {s : List U64} {r : Nat} {m : List U8} (hs : s.length = 25) (hr : r ≤ 200)
    (hr8 : r % 8 = 0) (hm : r ≤ m.length) :
    Ret (xorBlock s r m) (fun s' => s'.length = 25 ∧ sbits s' = xorBits (sbits s)
      (bytesToBits (m.take r) ++ List.replicate (1600 - 8 * r) false)) := by
  unfold xorBlock
  refine Ret.for1 (fun i (s' : List U64) => s'.length = 25 ∧ ∀ j k, k < 64 →
    (nth s' j).getLsbD k = ((nth s j).getLsbD k ^^
      (decide (j < i) && (nth m (8 * j + k / 8)).getLsbD (k % 8)))) ?_ ?_ ?_
  · exact ⟨hs, by simp⟩
  · rintro i s' hi ⟨hl, hI⟩
    simp only [wp]
    refine ⟨by omega, by omega, ?_⟩
    refine (load64_ret (x := m.drop (8 * i)) (by simp; omega)).bind fun v hv => ?_
    simp only [wp]
    refine ⟨by omega, by simp [hl], ?_⟩
    intro j k hk
    rw [nth_set]
    by_cases hj : i = j
    · subst hj
      have h1 : i < s'.length := by omega
      rw [if_pos ⟨rfl, h1⟩, BitVec.getLsbD_xor, hI i k hk, hv k hk, nth_drop]
      simp
    · rw [if_neg (by simp [hj]), hI j k hk]
      congr 2
      rw [decide_eq_decide]; omega
  · rintro s' ⟨hl, hI⟩
    exact ⟨hl, sbits_xor hr hr8 hm fun j k _ hk => hI j k hk⟩

/-! ## Absorbing -/

/-- The string absorbed for a message of bytes: suffix and padding (proof device). -/
def padded (r : Nat) (M : List U8) : List Bool :=
  bytesToBits M ++ [true, true, true, true] ++ pad101 (8 * r) (8 * M.length + 4)

theorem pad101_sub {r n : Nat} (h : r ≤ n) :
    pad101 (8 * r) (8 * n + 4) = pad101 (8 * r) (8 * (n - r) + 4) := by
  unfold pad101
  congr 3
  have e : (-((8 * (n - r) + 4 : Nat) : Int) - 2) = (-((8 * n + 4 : Nat) : Int) - 2) +
      ((8 * r : Nat) : Int) := by omega
  rw [e, Int.add_emod_right]

theorem padded_drop {r : Nat} {M : List U8} (h : r ≤ M.length) :
    padded r M = bytesToBits (M.take r) ++ padded r (M.drop r) := by
  unfold padded
  rw [List.length_drop, ← pad101_sub h]
  conv_lhs => rw [← List.take_append_drop r M, bytesToBits_append]
  simp [List.append_assoc]

theorem pad_len {r k : Nat} (h : k < r) :
    ((-((8 * k + 4 : Nat) : Int) - 2) % ((8 * r : Nat) : Int)).toNat = 8 * r - 8 * k - 6 := by
  have e : (-((8 * k + 4 : Nat) : Int) - 2) = ((8 * r - 8 * k - 6 : Nat) : Int) +
      ((8 * r : Nat) : Int) * (-1) := by omega
  rw [e, Int.add_mul_emod_self_left]
  have : ((8 * r - 8 * k - 6 : Nat) : Int) % ((8 * r : Nat) : Int) = ((8 * r - 8 * k - 6 : Nat) : Int) :=
    Int.emod_eq_of_lt (by omega) (by omega)
  rw [this, Int.toNat_natCast]

theorem length_padded {r : Nat} {M : List U8} (h : M.length < r) :
    (padded r M).length = 8 * r := by
  unfold padded pad101
  rw [pad_len h]
  simp
  omega

theorem byte1F : ∀ i : Fin 8, BitVec.getLsbD (0x1F : U8) i = decide (i.val ≤ 4) := by decide
theorem byte80 : ∀ i : Fin 8, BitVec.getLsbD (128 : U8) i = decide (i.val = 7) := by decide

/-- The last block as bytes. -/
theorem padded_eq {r : Nat} {M t : List U8} (h : M.length < r) (ht : t.length = r)
    (hb : ∀ i, i < r → nth t i = (if i < M.length then nth M i else if i = M.length then 0x1F else 0)
      ||| (if i = r - 1 then 128 else 0)) : bytesToBits t = padded r M := by
  apply ext_getD
  · rw [length_padded h, length_bytesToBits, ht]
  · intro i hi
    rw [length_bytesToBits, ht] at hi
    have hm : i % 8 < 8 := Nat.mod_lt _ (by omega)
    have h1F := byte1F ⟨i % 8, hm⟩
    have h80 := byte80 ⟨i % 8, hm⟩
    simp only at h1F h80
    rw [bytesToBits_getD, hb _ (by omega), BitVec.getLsbD_or]
    unfold padded pad101
    rw [pad_len h]
    by_cases c1 : i < 8 * M.length
    · rw [List.append_assoc, List.getD_append _ _ _ _ (by simpa using c1), bytesToBits_getD,
        if_pos (show i / 8 < M.length by omega)]
      by_cases c2 : i / 8 = r - 1
      · omega
      · rw [if_neg c2]; simp
    · rw [List.append_assoc, List.getD_append_right _ _ _ _ (by simpa using c1), length_bytesToBits,
        if_neg (show ¬ i / 8 < M.length by omega)]
      by_cases c2 : i / 8 = M.length
      · rw [if_pos c2, h1F]
        have c3 : i - 8 * M.length = i % 8 := by omega
        rw [c3]
        by_cases c4 : i / 8 = r - 1
        · rw [if_pos c4, h80]
          have c5 : 8 * r - 8 * M.length - 6 = 2 := by omega
          rw [c5]
          generalize i % 8 = j at hm
          clear * - hm
          revert j; decide
        · rw [if_neg c4]
          have : ∃ q, 8 * r - 8 * M.length - 6 = q + 3 := ⟨8 * r - 8 * M.length - 9, by omega⟩
          obtain ⟨q, hq⟩ := this
          rw [hq, List.replicate_succ, List.replicate_succ, List.replicate_succ]
          generalize i % 8 = j at hm
          clear * - hm
          match j, hm with
          | 0, _ => rfl
          | 1, _ => rfl
          | 2, _ => rfl
          | 3, _ => rfl
          | 4, _ => rfl
          | 5, _ => rfl
          | 6, _ => rfl
          | 7, _ => rfl
      · rw [if_neg c2]
        have c3 : 8 ≤ i - 8 * M.length := by omega
        rw [List.getD_append_right _ _ _ _ (by simp; omega)]
        simp only [List.length_cons, List.length_nil]
        rw [List.append_assoc, List.getD_append_right _ _ _ _ (by simp; omega)]
        simp only [List.length_cons, List.length_nil]
        by_cases c4 : i = 8 * r - 1
        · rw [if_pos (by omega), h80, List.getD_append_right _ _ _ _ (by simp; omega)]
          simp only [List.length_replicate]
          rw [show i - 8 * M.length - (0 + 1 + 1 + 1 + 1) - (0 + 1) - (8 * r - 8 * M.length - 6) = 0
            by omega]
          simp [show i % 8 = 7 by omega]
        · rw [List.getD_append _ _ _ _ (by simp; omega)]
          have e : (List.replicate (8 * r - 8 * M.length - 6) false).getD
              (i - 8 * M.length - (0 + 1 + 1 + 1 + 1) - (0 + 1)) false = false := by
            simp only [List.getD, List.getElem?_replicate]
            split <;> rfl
          rw [e]
          by_cases c5 : i / 8 = r - 1
          · rw [if_pos c5, h80]
            have : i % 8 ≠ 7 := by omega
            simp [this]
          · rw [if_neg c5]; simp

theorem absorb_step {f : List Bool → List Bool} {r : Nat} {S P Q : List Bool} (hr : 0 < r)
    (hP : P.length = r) : absorb f r S (P ++ Q) =
      absorb f r (f (xorBits S (P ++ List.replicate (1600 - r) false))) Q := by
  rw [absorb, dif_neg (by rw [List.length_append]; omega), List.take_append_of_le_length (by omega),
    List.take_of_length_le (by omega), List.drop_append_of_le_length (by omega),
    List.drop_of_length_le (by omega), List.nil_append]

theorem absorb_nil {f : List Bool → List Bool} {r : Nat} {S : List Bool} (hr : 0 < r) :
    absorb f r S [] = S := by
  rw [absorb, dif_pos (by simp [hr])]

/-- The last block as the C code builds it. -/
theorem lastBlock {r : Nat} {t1 m : List U8} {mlen : Nat} (hr : r ≤ 200) (hl1 : t1.length = 200)
    (h2 : mlen < r) (h3 : mlen ≤ m.length)
    (ht1 : ∀ i, i < r → nth t1 i = if i < mlen then nth m i else 0) :
    bytesToBits (((t1.set mlen 0x1F).set (r - 1) (nth (t1.set mlen 0x1F) (r - 1) ||| 128)).take r) =
      padded r (m.take mlen) := by
  apply padded_eq (by simp; omega)
  · simp; omega
  · intro i hi
    have hml : (m.take mlen).length = mlen := by simp; omega
    rw [nth_take, if_pos hi, hml]
    have e1 : ∀ j, j < r → nth (t1.set mlen 0x1F) j =
        if j < mlen then nth (m.take mlen) j else if j = mlen then 0x1F else 0 := by
      intro j hj
      rw [nth_set]
      by_cases c : mlen = j
      · rw [if_pos ⟨c, by omega⟩, if_neg (by omega), if_pos c.symm]
      · rw [if_neg (by simp [c]), ht1 j hj]
        by_cases c2 : j < mlen
        · rw [if_pos c2, if_pos c2, nth_take, if_pos c2]
        · rw [if_neg c2, if_neg c2, if_neg (by omega)]
    rw [nth_set]
    by_cases c : r - 1 = i
    · rw [if_pos ⟨c, by simp; omega⟩, e1 _ (by omega), c, if_pos (show i = i from rfl)]
    · rw [if_neg (by simp [c]), e1 _ hi, if_neg (show ¬ i = r - 1 by omega)]; simp

theorem keccak_absorb_ret {J : Junk} {s : List U64} {r : Nat} {m : List U8} {mlen : Nat}
    (hs : s.length = 25) (hr0 : 0 < r) (hr : r ≤ 200) (hr8 : r % 8 = 0) (hm : mlen ≤ m.length) :
    Ret (keccak_absorb J s r m mlen 0x1F) (fun s' => s'.length = 25 ∧
      keccakF (sbits s') = absorb keccakF (8 * r) (sbits s) (padded r (m.take mlen))) := by
  unfold keccak_absorb
  refine Ret.bind (Q := fun st : AbsorbSt => st.s.length = 25 ∧ st.mlen < r ∧
    st.mlen ≤ st.m.length ∧ absorb keccakF (8 * r) (sbits st.s) (padded r (st.m.take st.mlen)) =
      absorb keccakF (8 * r) (sbits s) (padded r (m.take mlen))) ?_ ?_
  · refine Ret.while (I := fun st : AbsorbSt => st.s.length = 25 ∧
      st.mlen ≤ st.m.length ∧ absorb keccakF (8 * r) (sbits st.s) (padded r (st.m.take st.mlen)) =
      absorb keccakF (8 * r) (sbits s) (padded r (m.take mlen))) (fun st => st.mlen) ?_ ?_ _ ?_
    · rintro st ⟨h1, h2, h3⟩ hc
      have hc : r ≤ st.mlen := by simpa using hc
      refine (xorBlock_ret h1 hr hr8 (by omega)).bind fun s1 hs1 => ?_
      refine (KeccakF_bits hs1.1).bind fun s2 hs2 => ?_
      simp only [wp]
      refine ⟨by omega, ⟨hs2.1, by simp; omega, ?_⟩, by omega⟩
      rw [← h3, padded_drop (M := st.m.take st.mlen) (r := r) (by simp; omega), absorb_step (by omega)
        (by simp; omega), hs2.2, hs1.2]
      congr 3
      · rw [List.take_take, Nat.min_eq_left hc]
      · rw [List.drop_take]
    · rintro st ⟨h1, h2, h3⟩ hc
      exact ⟨h1, by simpa using hc, h2, h3⟩
    · exact ⟨hs, hm, rfl⟩
  · rintro st ⟨h1, h2, h3, h4⟩
    -- zeroing of `t`
    refine Ret.bind (Q := fun t : List U8 => t.length = 200 ∧ ∀ i, i < r → nth t i = 0) ?_ ?_
    · refine Ret.for1 (fun i (t : List U8) => t.length = 200 ∧ ∀ j, j < i → nth t j = 0) ?_ ?_ ?_
      · exact ⟨by simp, by omega⟩
      · rintro i t hi ⟨hl, hI⟩
        simp only [wp]
        refine ⟨by omega, by simp [hl], ?_⟩
        intro j hj
        rw [nth_set]
        by_cases hij : i = j
        · rw [if_pos ⟨hij, by omega⟩]
        · rw [if_neg (by simp [hij]), hI j (by omega)]
      · intro t ht; exact ht
    rintro t0 ⟨hl0, ht0⟩
    refine Ret.bind (Q := fun t : List U8 => t.length = 200 ∧ ∀ i, i < r → nth t i =
      if i < st.mlen then nth st.m i else 0) ?_ ?_
    · refine Ret.for1 (fun k (t : List U8) => t.length = 200 ∧ ∀ i, i < r → nth t i =
        if i < k then nth st.m i else 0) ?_ ?_ ?_
      · exact ⟨hl0, by intro i hi; rw [ht0 i hi, if_neg (by omega)]⟩
      · rintro k t hk ⟨hl, hI⟩
        simp only [wp]
        refine ⟨by omega, by omega, by simp [hl], ?_⟩
        intro j hj
        rw [nth_set]
        by_cases hij : k = j
        · rw [if_pos ⟨hij, by omega⟩, if_pos (by omega), hij]
        · rw [if_neg (by simp [hij]), hI j hj]
          by_cases hjk : j < k
          · rw [if_pos hjk, if_pos (by omega)]
          · rw [if_neg hjk, if_neg (by omega)]
      · intro t ht; exact ht
    rintro t1 ⟨hl1, ht1⟩
    simp only [wp]
    refine ⟨by omega, by simp; omega, by simp; omega, ?_⟩
    refine (xorBlock_ret h1 hr hr8 (by simp; omega)).mono ?_
    rintro s' ⟨h5, h6⟩
    refine ⟨h5, ?_⟩
    have key := lastBlock hr hl1 h2 h3 ht1
    generalize ((t1.set st.mlen 0x1F).set (r - 1)
      (nth (t1.set st.mlen 0x1F) (r - 1) ||| 128)).take r = t' at h6 key
    rw [← h4, ← key, ← List.append_nil (bytesToBits t'), absorb_step (by omega)
      (by rw [key]; exact length_padded (by simp; omega)), absorb_nil (by omega), h6,
      show 1600 - 8 * r = 1600 - 8 * r from rfl]

/-! ## Squeezing -/

theorem byteOfBits_aux : ∀ b0 b1 b2 b3 b4 b5 b6 b7 : Bool, ∀ k : Fin 8,
    (BitVec.ofNat 8 (0 + b0.toNat * 2 ^ 0 + b1.toNat * 2 ^ 1 + b2.toNat * 2 ^ 2 + b3.toNat * 2 ^ 3 +
      b4.toNat * 2 ^ 4 + b5.toNat * 2 ^ 5 + b6.toNat * 2 ^ 6 + b7.toNat * 2 ^ 7)).getLsbD k =
    [b0, b1, b2, b3, b4, b5, b6, b7].getD k false := by decide +kernel

theorem byteOfBits_getLsbD (bs : List Bool) (k : Nat) (hk : k < 8) :
    (byteOfBits bs).getLsbD k = bs.getD k false := by
  have h := byteOfBits_aux (bs.getD 0 false) (bs.getD 1 false) (bs.getD 2 false) (bs.getD 3 false)
    (bs.getD 4 false) (bs.getD 5 false) (bs.getD 6 false) (bs.getD 7 false) ⟨k, hk⟩
  refine Eq.trans ?_ (Eq.trans h ?_)
  · rfl
  · match k, hk with
    | 0, _ => rfl
    | 1, _ => rfl
    | 2, _ => rfl
    | 3, _ => rfl
    | 4, _ => rfl
    | 5, _ => rfl
    | 6, _ => rfl
    | 7, _ => rfl

/-- Byte `k` of the output stream from state `S` on (proof device). -/
def sqByte (r : Nat) (S : List Bool) (k : Nat) : U8 :=
  byteOfBits ((keccakF^[k / r] S).drop (8 * (k % r)))

theorem sqByte_getLsbD (r : Nat) (S : List Bool) (k b : Nat) (hb : b < 8) :
    (sqByte r S k).getLsbD b = (keccakF^[k / r] S).getD (8 * (k % r) + b) false := by
  unfold sqByte
  rw [byteOfBits_getLsbD _ _ hb]
  simp [List.getD]

theorem sqByte_iter {r : Nat} (S : List Bool) (n i : Nat) (hr : 0 < r) :
    sqByte r (keccakF^[n] S) i = sqByte r S (n * r + i) := by
  unfold sqByte
  rw [← Function.iterate_add_apply, Nat.mul_comm n r, Nat.mul_add_mod, Nat.mul_add_div hr,
    Nat.add_comm]

theorem length_iter {S : List Bool} (h : S.length = 1600) (n : Nat) :
    (keccakF^[n] S).length = 1600 := by
  cases n with
  | zero => exact h
  | succ n => rw [Function.iterate_succ_apply']; exact length_keccakF _

theorem squeeze_getD {r : Nat} (hr : 0 < r) (hr2 : r ≤ 1600) (S : List Bool) (hS : S.length = 1600)
    (d t : Nat) :
    (squeeze keccakF r S d).getD t false =
      (decide (t < d) && (keccakF^[t / r] S).getD (t % r) false) := by
  induction d using Nat.strongRecOn generalizing S t with
  | ind d ih =>
    rw [squeeze]
    by_cases h : d ≤ r
    · rw [dif_pos (Or.inl h), List.take_take, Nat.min_eq_left h]
      by_cases ht : t < d
      · rw [Nat.div_eq_of_lt (by omega), Nat.mod_eq_of_lt (by omega)]
        simp [List.getD, ht]
      · simp [List.getD, ht]
    · rw [dif_neg (by omega)]
      by_cases ht : t < r
      · rw [List.getD_append _ _ _ _ (by simp; omega), Nat.div_eq_of_lt (by omega),
          Nat.mod_eq_of_lt (by omega)]
        have : t < d := by omega
        simp [List.getD, ht, this]
      · rw [List.getD_append_right _ _ _ _ (by simp; omega)]
        rw [show (S.take r).length = r by simp; omega, ih (d - r) (by omega) _ (length_keccakF S)]
        have e : (t - r) / r + 1 = t / r := by
          rw [Nat.div_eq_sub_div hr (show r ≤ t by omega)]
        rw [← Nat.mod_eq_sub_mod (show r ≤ t by omega), ← e, Function.iterate_succ_apply]
        congr 1
        rw [decide_eq_decide]; omega

theorem bitsToBytes_squeeze {r : Nat} (hr : 0 < r) (hr2 : r ≤ 200) (S : List Bool)
    (hS : S.length = 1600) (n : Nat) :
    bitsToBytes n (squeeze keccakF (8 * r) S (8 * n)) = (List.range n).map (sqByte r S) := by
  unfold bitsToBytes
  apply List.map_congr_left
  intro k hk
  rw [List.mem_range] at hk
  apply BitVec.eq_of_getLsbD_eq
  intro b hb
  rw [byteOfBits_getLsbD _ _ hb, sqByte_getLsbD _ _ _ _ hb]
  have e : ∀ (l : List Bool), (l.drop (8 * k)).getD b false = l.getD (8 * k + b) false := by
    intro l; simp [List.getD]
  rw [e, squeeze_getD (by omega) (by omega) S hS]
  have h1 : 8 * k + b < 8 * n := by omega
  have h2 : (8 * k + b) / (8 * r) = k / r := by
    rw [← Nat.div_div_eq_div_mul]; congr 1; omega
  have h3 : (8 * k + b) % (8 * r) = 8 * (k % r) + b := by
    rw [Nat.mod_mul, show (8 * k + b) / 8 = k by omega]; omega
  simp [h1, h2, h3]

theorem keccak_squeezeblocks_ret {h : List U8} {nblocks : Nat} {s : List U64} {r : Nat}
    (hs : s.length = 25) (hr0 : 0 < r) (hr : r ≤ 200) (hr8 : r % 8 = 0)
    (hh : nblocks * r ≤ h.length) :
    Ret (keccak_squeezeblocks h nblocks s r) (fun x =>
      x.1 = (List.range (nblocks * r)).map (sqByte r (keccakF (sbits s))) ++ h.drop (nblocks * r) ∧
      x.2.length = 25 ∧ sbits x.2 = keccakF^[nblocks] (sbits s)) := by
  unfold keccak_squeezeblocks
  refine Ret.bind (Q := fun st : SqueezeSt =>
      st.h = (List.range (nblocks * r)).map (sqByte r (keccakF (sbits s))) ++ h.drop (nblocks * r) ∧
      st.s.length = 25 ∧ sbits st.s = keccakF^[nblocks] (sbits s)) ?_ ?_
  · refine Ret.while (I := fun st : SqueezeSt => ∃ n, n + st.nblocks = nblocks ∧ st.off = n * r ∧
      st.h = (List.range (n * r)).map (sqByte r (keccakF (sbits s))) ++ h.drop (n * r) ∧
      st.s.length = 25 ∧ sbits st.s = keccakF^[n] (sbits s)) (fun st => st.nblocks) ?_ ?_ _ ?_
    · rintro st ⟨n, h1, h2, h3, h4, h5⟩ hc
      have hc : 0 < st.nblocks := by simpa using hc
      have hle : n * r + r ≤ h.length := by
        have := Nat.mul_le_mul_right r (show n + 1 ≤ nblocks by omega)
        rw [Nat.succ_mul] at this; omega
      refine (KeccakF_bits h4).bind fun s' ⟨hl', hb'⟩ => ?_
      have hb2 : sbits s' = keccakF^[n + 1] (sbits s) := by
        rw [hb', h5, Function.iterate_succ_apply']
      refine Ret.bind (Q := fun h' => h' = (List.range (n * r + r)).map (sqByte r (keccakF (sbits s)))
        ++ h.drop (n * r + r)) ?_ ?_
      · refine Ret.for1 (fun i h' => h' = (List.range (n * r + 8 * i)).map
          (sqByte r (keccakF (sbits s))) ++ h.drop (n * r + 8 * i)) ?_ ?_ ?_
        · simpa using h3
        · intro i h' hi hI
          have hi : 8 * i + 8 ≤ r := by rw [Nat.shiftRight_eq_div_pow] at hi; omega
          simp only [wp]
          have hlen : h'.length = h.length := by rw [hI]; simp; omega
          refine ⟨by omega, by omega, ?_⟩
          refine (store64_ret (by simp; omega)).of_eq ?_
          rw [hI, h2]
          have e1 : ((List.range (n * r + 8 * i)).map (sqByte r (keccakF (sbits s)))).length =
            n * r + 8 * i := by simp
          rw [List.take_append_of_le_length (by omega), List.take_of_length_le (by omega),
            List.drop_append_of_le_length (by omega),
            List.drop_of_length_le (l := List.map _ _) (by omega),
            List.nil_append, List.drop_drop, ← List.append_assoc]
          rw [show n * r + 8 * (i + 1) = n * r + 8 * i + 8 by omega]
          refine congrArg (fun l : List U8 => l ++ _) ?_
          rw [List.range_add (n := n * r + 8 * i) (m := 8), List.map_append, List.map_map]
          refine congrArg (fun l : List U8 => _ ++ l) ?_
          apply List.map_congr_left
          intro k hk
          rw [List.mem_range] at hk
          apply BitVec.eq_of_getLsbD_eq
          intro b hb
          simp only [Function.comp]
          rw [sqByte_getLsbD _ _ _ _ hb, byteOf64, BitVec.getLsbD_setWidth,
            BitVec.getLsbD_ushiftRight, Nat.add_assoc, Nat.mul_comm n r, Nat.mul_add_mod,
            Nat.mul_add_div hr0, Nat.div_eq_of_lt (by omega), Nat.mod_eq_of_lt (by omega),
            Nat.add_zero, ← Function.iterate_succ_apply, ← hb2, sbits_getD,
            show (8 * (8 * i + k) + b) / 64 = i by omega,
            show (8 * (8 * i + k) + b) % 64 = 8 * k + b by omega]
          have h1 : 8 * (8 * i + k) + b < 1600 := by omega
          simp [hb, h1]
        · intro h' hI
          rw [hI, Nat.shiftRight_eq_div_pow, show 8 * (r / 2 ^ 3) = r by omega]
      · intro h' hI
        simp only [wp]
        refine ⟨⟨n + 1, by omega, by rw [h2, Nat.succ_mul], ?_, hl', hb2⟩, by omega⟩
        rw [hI, Nat.succ_mul]
    · rintro st ⟨n, h1, h2, h3, h4, h5⟩ hc
      have hc : st.nblocks = 0 := by simpa using hc
      have : n = nblocks := by omega
      subst this
      exact ⟨h3, h4, h5⟩
    · exact ⟨0, by simp, by simp, by simp, hs, rfl⟩
  · rintro st hst
    simp only [wp]
    exact hst

/-! ## SHAKE -/

/-- The state from which output is read (proof device). -/
def spongeState (r : Nat) (M : List U8) : List Bool :=
  absorb keccakF (8 * r) (List.replicate 1600 false) (padded r M)

/-- The stream of output bytes of SHAKE with rate `r` (proof device). -/
def xofByte (r : Nat) (M : List U8) (k : Nat) : U8 := sqByte r (spongeState r M) k

theorem sbits_zero : sbits (List.replicate 25 0) = List.replicate 1600 false := by
  apply ext_getD
  · rw [length_sbits, List.length_replicate]
  · intro i hi
    rw [length_sbits] at hi
    rw [sbits_getD, nth_replicate, if_pos (by omega)]
    have : (List.replicate 1600 false).getD i false = false := by
      simp only [List.getD, List.getElem?_replicate]
      split <;> rfl
    rw [this]
    simp

theorem padded_ne (r : Nat) (M : List U8) : (padded r M).length ≥ 6 := by
  unfold padded pad101; simp; omega

theorem length_absorb {r : Nat} (S P : List Bool) (hS : S.length = 1600) :
    (absorb keccakF r S P).length = 1600 := by
  induction hn : P.length using Nat.strongRecOn generalizing S P with
  | ind n ih =>
    rw [absorb]
    by_cases h : P.length < r ∨ r = 0
    · rw [dif_pos h]; exact hS
    · rw [dif_neg h]
      exact ih _ (by simp; omega) _ _ (length_keccakF _) rfl

theorem length_spongeState (r : Nat) (M : List U8) : (spongeState r M).length = 1600 :=
  length_absorb _ _ List.length_replicate

theorem sponge_eq {r : Nat} (hr : 0 < r) (hr2 : r ≤ 200) (M : List U8) (n : Nat) :
    bitsToBytes n (sponge keccakF (8 * r) (bytesToBits M ++ [true, true] ++ [true, true]) (8 * n)) =
      (List.range n).map (xofByte r M) := by
  unfold sponge
  rw [show bytesToBits M ++ [true, true] ++ [true, true] ++ pad101 (8 * r)
    (bytesToBits M ++ [true, true] ++ [true, true]).length = padded r M by
      unfold padded; simp [List.append_assoc]]
  exact bitsToBytes_squeeze hr hr2 _ (length_spongeState r M) n

theorem SHAKE128_eq (M : List U8) (n : Nat) : SHAKE128 M n = (List.range n).map (xofByte 168 M) := by
  unfold SHAKE128 keccak
  rw [show 1600 - 256 = 8 * 168 from rfl]
  exact sponge_eq (by omega) (by omega) M n

theorem SHAKE256_eq (M : List U8) (n : Nat) : SHAKE256 M n = (List.range n).map (xofByte 136 M) := by
  unfold SHAKE256 keccak
  rw [show 1600 - 512 = 8 * 136 from rfl]
  exact sponge_eq (by omega) (by omega) M n

/-- The part of `shake128` and `shake256` after the absorbing call, for any rate (proof device). -/
def shakeTail (r : Nat) (J : Junk) (output : List U8) (outlen : Nat) (s : List U64) :
    C (List U8) := do
  let t := uninit J 2 8 r
  let nblocks := outlen / r
  let (output, s) ← keccak_squeezeblocks output nblocks s r
  let off := nblocks * r
  let outlen := outlen - nblocks * r
  ifC (outlen != 0)
    (do
      let (t, _) ← keccak_squeezeblocks t 1 s r
      forC 0 outlen 1 output fun i output => do
        let x ← rd t i
        wr output (off + i) x)
    (pure output)

theorem shakeTail_ret {r : Nat} {J : Junk} {output : List U8} {outlen : Nat} {s : List U64}
    (hs : s.length = 25) (hr0 : 0 < r) (hr : r ≤ 200) (hr8 : r % 8 = 0)
    (ho : outlen ≤ output.length) :
    Ret (shakeTail r J output outlen s)
      (· = (List.range outlen).map (sqByte r (keccakF (sbits s))) ++ output.drop outlen) := by
  unfold shakeTail
  have hdm := Nat.div_add_mod outlen r
  have hml := Nat.mod_lt outlen hr0
  generalize hnb : outlen / r = nb at *
  have hle : nb * r ≤ outlen := by rw [Nat.mul_comm]; omega
  rw [Nat.mul_comm] at hdm
  refine (keccak_squeezeblocks_ret hs hr0 hr hr8 (by omega)).bind ?_
  rintro ⟨out1, s1⟩ ⟨h1, h2, h3⟩
  simp only at h1 h2 h3
  simp only [wp]
  by_cases hz : outlen - nb * r = 0
  · rw [if_neg (by simp [hz])]
    simp only [wp]
    have : outlen = nb * r := by omega
    rw [h1, ← this]
  · rw [if_pos (by simp [hz])]
    refine (keccak_squeezeblocks_ret h2 hr0 hr hr8 (by simp)).bind ?_
    rintro ⟨t, s2⟩ ⟨h4, -, -⟩
    simp only at h4
    simp only
    refine Ret.for1 (fun i out => out = (List.range (nb * r + i)).map (sqByte r (keccakF (sbits s)))
      ++ output.drop (nb * r + i)) ?_ ?_ ?_
    · rw [h1, Nat.add_zero]
    · intro i out hi hI
      simp only [wp]
      have hir : i < r := by omega
      have hlo : out.length = output.length := by rw [hI]; simp; omega
      refine ⟨by rw [h4]; simp; omega, by omega, ?_⟩
      rw [hI, List.set_append_right _ _ (by simp), ← Nat.add_assoc, List.range_succ, List.map_append]
      simp only [List.length_map, List.length_range, Nat.sub_self]
      rw [List.drop_eq_getElem_cons (show nb * r + i < output.length by omega), List.set_cons_zero,
        List.append_assoc]
      refine congrArg (fun l : List U8 => _ ++ l) ?_
      simp only [List.map_cons, List.map_nil, List.cons_append, List.nil_append]
      refine congrArg (fun x : U8 => x :: _) ?_
      rw [h4, nth_append, if_pos (by simp; omega), nth_range_map, if_pos (by omega), h3,
        ← Function.iterate_succ_apply' keccakF, Function.iterate_succ_apply, sqByte_iter _ _ _ hr0]
    · intro out hI
      rw [hI, show nb * r + (outlen - nb * r) = outlen by omega]

theorem shake128_ret {J : Junk} {output : List U8} {outlen : Nat} {input : List U8} {inlen : Nat}
    (hi : inlen ≤ input.length) (ho : outlen ≤ output.length) :
    Ret (shake128 J output outlen input inlen)
      (· = SHAKE128 (input.take inlen) outlen ++ output.drop outlen) := by
  have e : shake128 J output outlen input inlen =
    (keccak_absorb J (List.replicate 25 0) SHAKE128_RATE input inlen 0x1F >>=
      shakeTail SHAKE128_RATE J output outlen) := rfl
  rw [e, SHAKE128_eq]
  refine (keccak_absorb_ret (by simp) (by decide) (by decide) (by decide) hi).bind fun s hs => ?_
  refine (shakeTail_ret hs.1 (by decide) (by decide) (by decide) ho).mono ?_
  intro a ha
  rw [ha, hs.2, sbits_zero]
  rfl

theorem shake256_ret {J : Junk} {output : List U8} {outlen : Nat} {input : List U8} {inlen : Nat}
    (hi : inlen ≤ input.length) (ho : outlen ≤ output.length) :
    Ret (shake256 J output outlen input inlen)
      (· = SHAKE256 (input.take inlen) outlen ++ output.drop outlen) := by
  have e : shake256 J output outlen input inlen =
    ((forC 0 25 1 (uninit J 3 64 25) fun i s => wr s i 0) >>= fun s =>
     keccak_absorb J s SHAKE256_RATE input inlen 0x1F >>=
      shakeTail SHAKE256_RATE J output outlen) := rfl
  rw [e, SHAKE256_eq]
  refine Ret.bind (Q := fun s => s = List.replicate 25 0) ?_ ?_
  · refine Ret.for1 (fun i (s : List U64) => s.length = 25 ∧ ∀ j, j < i → nth s j = 0) ?_ ?_ ?_
    · exact ⟨by simp, by omega⟩
    · rintro i s hi ⟨hl, hI⟩
      simp only [wp]
      refine ⟨by omega, by simp [hl], ?_⟩
      intro j hj
      rw [nth_set]
      by_cases hij : i = j
      · rw [if_pos ⟨hij, by omega⟩]
      · rw [if_neg (by simp [hij]), hI j (by omega)]
    · rintro s ⟨hl, hI⟩
      apply ext_nth (by simp [hl])
      intro i hi
      rw [hI i (by omega), nth_replicate, if_pos (by omega)]
  rintro s rfl
  refine (keccak_absorb_ret (by simp) (by decide) (by decide) (by decide) hi).bind fun s hs => ?_
  refine (shakeTail_ret hs.1 (by decide) (by decide) (by decide) ho).mono ?_
  intro a ha
  rw [ha, hs.2, sbits_zero]
  rfl

end Frodo
