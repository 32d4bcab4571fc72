import Verif.Model.SnP4
import Verif.Spec.SnP4
import Verif.Proof.Keccak4x

/-! # The byte and lane functions of the four-fold Keccak -/

namespace Frodo

open Spec

/-! ## Words and bytes -/

theorem le64_getLsbD (l : List U8) (p k : Nat) (hk : k < 64) :
    (le64 l p).getLsbD k = (nth l (p + k / 8)).getLsbD (k % 8) := by
  have aux : ∀ n, n ≤ 8 → ((List.range n).foldl (fun x i => x |||
      ((nth l (p + i)).setWidth 64 <<< (8 * i))) (0 : U64)).getLsbD k =
      (decide (k < 8 * n) && (nth l (p + k / 8)).getLsbD (k % 8)) := by
    intro n
    induction n with
    | zero => intro _; simp
    | succ n ih =>
      intro hn
      rw [List.range_succ, List.foldl_append]
      simp only [List.foldl_cons, List.foldl_nil]
      rw [BitVec.getLsbD_or, ih (by omega), BitVec.getLsbD_shiftLeft, BitVec.getLsbD_setWidth]
      by_cases h1 : k < 8 * n
      · have h2 : k < 8 * (n + 1) := by omega
        simp [h1, h2]
      · by_cases h2 : k < 8 * (n + 1)
        · have e1 : k / 8 = n := by omega
          have e2 : k % 8 = k - 8 * n := by omega
          have h3 : k - 8 * n < 64 := by omega
          simp [h1, h2, hk, h3, e1, e2]
        · have : 8 ≤ k - 8 * n := by omega
          rw [BitVec.getLsbD_of_ge (nth l (p + n)) _ this]
          simp [h1, h2]
  rw [le64, aux 8 (by omega)]
  simp [show k < 64 from hk]

/-- Byte `i` of a word (proof device). -/
def byteW (u : U64) (i : Nat) : U8 := u.extractLsb' (8 * i) 8

theorem byteW_le64 (l : List U8) (p i : Nat) (hi : i < 8) : byteW (le64 l p) i = nth l (p + i) := by
  apply BitVec.eq_of_getLsbD_eq
  intro j hj
  rw [byteW, BitVec.getLsbD_extractLsb', le64_getLsbD _ _ _ (by omega),
    show (8 * i + j) / 8 = i by omega, show (8 * i + j) % 8 = j by omega]
  simp [hj]

theorem nth_bytes64 (u : U64) (i : Nat) (hi : i < 8) : nth (bytes64 u) i = byteW u i := by
  unfold bytes64
  rw [nth_range_map, if_pos hi]
  apply BitVec.eq_of_getLsbD_eq
  intro j hj
  rw [byteW, BitVec.getLsbD_extractLsb', BitVec.getLsbD_setWidth, BitVec.getLsbD_ushiftRight]

@[simp] theorem length_bytes64 (u : U64) : (bytes64 u).length = 8 := by simp [bytes64]

theorem byteW_xor (a b : U64) (i : Nat) : byteW (a ^^^ b) i = byteW a i ^^^ byteW b i := by
  apply BitVec.eq_of_getLsbD_eq
  intro j hj
  simp [byteW, hj]

theorem byteW_zero (i : Nat) : byteW 0 i = 0 := by
  apply BitVec.eq_of_getLsbD_eq
  intro j hj
  simp [byteW]

theorem stByte_eq (ss : List U64) (k o : Nat) :
    stByte ss k o = byteW (nth ss (4 * (o / 8) + k)) (o % 8) := rfl

theorem stByte_set {ss : List U64} {l k j o : Nat} {v : U64} (hk : k < 4) (hj : j < 4)
    (hl : 4 * l + k < ss.length) : stByte (ss.set (4 * l + k) v) j o =
      if j = k ∧ o / 8 = l then byteW v (o % 8) else stByte ss j o := by
  rw [stByte_eq, nth_set]
  by_cases h : j = k ∧ o / 8 = l
  · rw [if_pos ⟨by omega, hl⟩, if_pos h]
  · rw [if_neg (by omega), if_neg h, stByte_eq]

theorem laneIndex_eq {k l : Nat} (hk : k < 4) (hl : l < 25) : laneIndex k l = 4 * l + k := by
  unfold laneIndex u32; omega

/-- The bytes of a word after `memcpy` of `n` bytes into it. -/
theorem byteW_memcpy (u : U64) (d : List U8) (a c n i : Nat) (ha : a + n ≤ 8) (hi : i < 8)
    (hc : c + n ≤ d.length) :
    byteW (le64 ((bytes64 u).take a ++ (d.drop c).take n ++ (bytes64 u).drop (a + n)) 0) i =
      if a ≤ i ∧ i < a + n then nth d (c + (i - a)) else byteW u i := by
  rw [byteW_le64 _ _ _ hi, Nat.zero_add, nth_append, nth_append]
  simp only [List.length_append, List.length_take, length_bytes64, List.length_drop]
  rw [Nat.min_eq_left (show a ≤ 8 by omega), Nat.min_eq_left (show n ≤ d.length - c by omega)]
  by_cases h1 : i < a
  · rw [if_pos (by omega), if_pos h1, if_neg (by omega), nth_take, if_pos h1, nth_bytes64 _ _ hi]
  · by_cases h2 : i < a + n
    · rw [if_pos h2, if_neg h1, if_pos (by omega), nth_take, if_pos (by omega), nth_drop]
    · rw [if_neg h2, if_neg (by omega), nth_drop, ← nth_bytes64 _ _ hi]
      congr 1; omega

@[wp] theorem Ret_ldU64_bind {addr p : Nat} {l : List U8} {f : U64 → C β} {P : β → Prop} :
    Ret (ldU64 addr l p >>= f) P ↔ (addr + p) % 8 = 0 ∧ p + 8 ≤ l.length ∧ Ret (f (le64 l p)) P := by
  unfold ldU64
  simp only [wp]

@[wp] theorem Ret_bytesInLane_bind {a n : Nat} {f : Nat → C β} {P : β → Prop} :
    Ret (bytesInLane a n >>= f) P ↔ Ret (f (min n (8 - a))) P := by
  unfold bytesInLane
  simp only [wp]
  by_cases h : 8 - a > n
  · simp only [h, decide_true, ↓reduceIte]
    rw [Nat.min_eq_left (by omega), Ret_pure_bind]
  · simp only [h, decide_false, Bool.false_eq_true, ↓reduceIte]
    rw [Nat.min_eq_right (by omega), Ret_pure_bind]

/-! ## Bytes of one state -/

/-- What is left to do when `done` of the `length` bytes are processed (proof device). -/
def Pos (offset length done : Nat) (sizeLeft lanePosition cur : Nat) : Prop :=
  sizeLeft = length - done ∧ done ≤ length ∧ cur = done ∧
    (done < length → 8 * lanePosition = offset + done)

theorem InitializeAll_ret {ss : List U64} (h : ss.length = 100) :
    Ret (KeccakP1600times4_InitializeAll ss) (fun s' => s'.length = 100 ∧
      ∀ k, k < 4 → ∀ o, o < 200 → stByte s' k o = 0) := by
  unfold KeccakP1600times4_InitializeAll
  simp only [wp]
  refine ⟨by omega, by simp [h], fun k hk o ho => ?_⟩
  rw [stByte_eq, nth_append, if_pos (by simp; omega), nth_replicate, if_pos (by omega), byteW_zero]

theorem AddByte_ret {ss : List U64} (h : ss.length = 100) {k o : Nat} (hk : k < 4) (ho : o < 200)
    (b : U8) :
    Ret (KeccakP1600times4_AddByte ss k b o) (fun s' => s'.length = 100 ∧
      ∀ j, j < 4 → ∀ i, i < 200 → stByte s' j i =
        if j = k ∧ i = o then stByte ss j i ^^^ b else stByte ss j i) := by
  unfold KeccakP1600times4_AddByte
  simp only [wp]
  have e1 : (k * 8 + o / 8 * 4 * 8 + o % 8) / 8 = 4 * (o / 8) + k := by omega
  have e2 : (k * 8 + o / 8 * 4 * 8 + o % 8) % 8 = o % 8 := by omega
  rw [e1, e2]
  refine ⟨by omega, by simp; omega, by simp; omega, by omega, by simp [h], fun j hj i hi => ?_⟩
  rw [stByte_set hk hj (by omega)]
  by_cases c : j = k ∧ i / 8 = o / 8
  · rw [if_pos c, byteW_le64 _ _ _ (by omega), Nat.zero_add, nth_set, nth_bytes64 _ _ (by omega),
      nth_bytes64 _ _ (by omega)]
    by_cases c2 : i = o
    · rw [if_pos ⟨by omega, by simp; omega⟩, if_pos ⟨c.1, c2⟩, c2, c.1, stByte_eq]
    · rw [if_neg (by omega), if_neg (by omega), stByte_eq, c.1, c.2]
  · rw [if_neg c, if_neg (by omega)]

/-- The bytes written so far (proof device). -/
def Upd (g : U8 → U8 → U8) (ss : List U64) (k : Nat) (data : List U8) (offset done : Nat)
    (s' : List U64) : Prop :=
  s'.length = 100 ∧ ∀ j, j < 4 → ∀ i, i < 200 → stByte s' j i =
    if j = k ∧ offset ≤ i ∧ i < offset + done then g (stByte ss j i) (nth data (i - offset))
    else stByte ss j i

theorem Upd.zero {g : U8 → U8 → U8} {ss : List U64} {k : Nat} {data : List U8} {offset : Nat}
    (h : ss.length = 100) : Upd g ss k data offset 0 ss :=
  ⟨h, fun j _ i _ => by rw [if_neg (by omega)]⟩

theorem Upd.step {g : U8 → U8 → U8} {ss s' : List U64} {k : Nat} {data : List U8}
    {offset done n l : Nat} {v : U64} (hk : k < 4) (h : Upd g ss k data offset done s')
    (hl : l < 25) (h1 : 8 * l ≤ offset + done) (h2 : offset + done + n ≤ 8 * l + 8)
    (hv : ∀ b, b < 8 → byteW v b =
      if offset + done ≤ 8 * l + b ∧ 8 * l + b < offset + done + n then
        g (byteW (nth s' (4 * l + k)) b) (nth data (8 * l + b - offset))
      else byteW (nth s' (4 * l + k)) b) :
    Upd g ss k data offset (done + n) (s'.set (4 * l + k) v) := by
  obtain ⟨hs, hI⟩ := h
  refine ⟨by simp [hs], fun j hj i hi => ?_⟩
  rw [stByte_set hk hj (by omega)]
  by_cases c : j = k ∧ i / 8 = l
  · obtain ⟨cj, ci⟩ := c
    rw [if_pos ⟨cj, ci⟩, hv _ (by omega)]
    have ei : 8 * l + i % 8 = i := by omega
    have := hI j hj i hi
    rw [stByte_eq, ci, cj] at this
    rw [ei]
    by_cases c2 : offset + done ≤ i ∧ i < offset + done + n
    · rw [if_pos c2, if_pos ⟨cj, by omega, by omega⟩, this, if_neg (by omega), cj]
    · rw [if_neg c2, this]
      by_cases c3 : offset ≤ i ∧ i < offset + done
      · rw [if_pos ⟨rfl, c3⟩, if_pos ⟨cj, by omega, by omega⟩, cj]
      · rw [if_neg (by omega), if_neg (by omega), cj]
  · rw [if_neg c, hI j hj i hi]
    by_cases c3 : j = k ∧ offset ≤ i ∧ i < offset + done
    · rw [if_pos c3, if_pos (by omega)]
    · rw [if_neg c3, if_neg (by omega)]

/-- The number of bytes processed before the first whole lane (proof device). -/
def headLen (offset length : Nat) : Nat := if offset % 8 = 0 then 0 else min length (8 - offset % 8)

/-- Some lane is accessed as a word of the data (proof device). -/
def Whole (offset length : Nat) : Prop := 8 + (8 - offset % 8) % 8 ≤ length

theorem head_pos (offset length : Nat) : headLen offset length ≤ length ∧
    (headLen offset length < length → (offset + headLen offset length) % 8 = 0) ∧
    (8 ≤ length - headLen offset length → Whole offset length ∧
      headLen offset length % 8 = (8 - offset % 8) % 8) := by
  unfold headLen Whole
  split <;> omega

theorem AddBytes_ret {sAddr : Nat} (hsA : sAddr % 8 = 0) {ss : List U64} (h : ss.length = 100)
    {k : Nat} (hk : k < 4) {dAddr : Nat} {data : List U8} {offset length : Nat}
    (hd : length ≤ data.length) (ho : offset + length ≤ 200)
    (hA : Whole offset length → dAddr % 8 = offset % 8) :
    Ret (KeccakP1600times4_AddBytes sAddr ss k dAddr data offset length)
      (Upd (· ^^^ ·) ss k data offset length) := by
  unfold KeccakP1600times4_AddBytes
  simp only [Ret_require_bind]
  refine ⟨hsA, ?_⟩
  obtain ⟨p1, p2, p3⟩ := head_pos offset length
  refine Ret.bind (Q := fun st : ByteSt => Upd (· ^^^ ·) ss k data offset (headLen offset length) st.ss ∧
    Pos offset length (headLen offset length) st.sizeLeft st.lanePosition st.cur) ?_ ?_
  · by_cases c : length > 0 ∧ offset % 8 ≠ 0
    · have hh : headLen offset length = min length (8 - offset % 8) := by
        unfold headLen; rw [if_neg c.2]
      simp only [Ret_ifC, decide_eq_true c, ↓reduceIte]
      rw [Ret_bytesInLane_bind, ← hh]
      simp only [wp, length_bytes64, laneIndex_eq hk (show offset / 8 < 25 by omega)]
      refine ⟨by omega, by omega, by omega, by omega, ?_, by unfold Pos; omega⟩
      have := Upd.step (n := headLen offset length) (l := offset / 8)
        (v := nth ss (4 * (offset / 8) + k) ^^^ le64 ((bytes64 0).take (offset % 8) ++
          (data.drop 0).take (headLen offset length) ++
          (bytes64 0).drop (offset % 8 + headLen offset length)) 0) hk
        (Upd.zero (g := (· ^^^ ·)) (data := data) (offset := offset) h) (by omega) (by omega) (by omega)
        (fun b hb => by
          rw [byteW_xor, byteW_memcpy _ _ _ _ _ _ (by omega) hb (by omega)]
          by_cases c2 : offset % 8 ≤ b ∧ b < offset % 8 + headLen offset length
          · rw [if_pos c2, if_pos (by omega)]
            congr 2; omega
          · rw [if_neg c2, if_neg (by omega), byteW_zero]; simp)
      simpa only [Nat.zero_add] using this
    · have hh : headLen offset length = 0 := by
        unfold headLen; split <;> omega
      simp only [Ret_ifC, decide_eq_false c, Bool.false_eq_true, ↓reduceIte, wp]
      rw [hh] at p2 ⊢
      exact ⟨Upd.zero h, by unfold Pos; omega⟩
  · rintro st ⟨hU, hP⟩
    refine Ret.bind (Q := fun st : ByteSt => ∃ done, Upd (· ^^^ ·) ss k data offset done st.ss ∧
      Pos offset length done st.sizeLeft st.lanePosition st.cur ∧ st.sizeLeft < 8) ?_ ?_
    · refine Ret.while (fun st : ByteSt => ∃ done, Upd (· ^^^ ·) ss k data offset done st.ss ∧
        Pos offset length done st.sizeLeft st.lanePosition st.cur ∧
        (8 ≤ st.sizeLeft → Whole offset length ∧ done % 8 = (8 - offset % 8) % 8))
        (fun st => st.sizeLeft) ?_ ?_ _ ?_
      · rintro st ⟨done, hU, hP, hW⟩ hc
        have hc : 8 ≤ st.sizeLeft := by simpa using hc
        obtain ⟨q1, q2, q3, q4⟩ := hP
        obtain ⟨w1, w2⟩ := hW hc
        have hA := hA w1
        have hl : st.lanePosition < 25 := by omega
        simp only [wp, laneIndex_eq hk hl]
        have hlen := hU.1
        refine ⟨by omega, by omega, by omega, by omega, ⟨done + 8, ?_, by unfold Pos; omega, ?_⟩, by omega⟩
        · refine Upd.step hk hU hl (by omega) (by omega) fun b hb => ?_
          rw [byteW_xor, byteW_le64 _ _ _ hb, if_pos (by omega)]
          congr 2; omega
        · intro _; exact ⟨w1, by omega⟩
      · rintro st ⟨done, hU, hP, hW⟩ hc
        exact ⟨done, hU, hP, by simpa using hc⟩
      · exact ⟨_, hU, hP, fun h8 => p3 (by unfold Pos at hP; omega)⟩
    · rintro st ⟨done, hU, hP, h8⟩
      obtain ⟨q1, q2, q3, q4⟩ := hP
      by_cases c : st.sizeLeft > 0
      · have hl : st.lanePosition < 25 := by omega
        have hlen := hU.1
        simp only [wp, decide_eq_true c, ↓reduceIte, laneIndex_eq hk hl, length_bytes64]
        refine ⟨by omega, by omega, by omega, by omega, ?_⟩
        have e : length = done + st.sizeLeft := by omega
        rw [e]
        refine Upd.step hk hU hl (by omega) (by omega) fun b hb => ?_
        rw [byteW_xor, byteW_memcpy _ _ _ _ _ _ (by omega) hb (by omega)]
        by_cases c2 : 0 ≤ b ∧ b < 0 + st.sizeLeft
        · rw [if_pos c2, if_pos (by omega)]
          congr 2; omega
        · rw [if_neg c2, if_neg (by omega), byteW_zero]; simp
      · simp only [wp, decide_eq_false c, Bool.false_eq_true, ↓reduceIte]
        rw [show length = done by omega]
        exact hU

theorem OverwriteBytes_ret {sAddr : Nat} (hsA : sAddr % 8 = 0) {ss : List U64} (h : ss.length = 100)
    {k : Nat} (hk : k < 4) {dAddr : Nat} {data : List U8} {offset length : Nat}
    (hd : length ≤ data.length) (ho : offset + length ≤ 200)
    (hA : Whole offset length → dAddr % 8 = offset % 8) :
    Ret (KeccakP1600times4_OverwriteBytes sAddr ss k dAddr data offset length)
      (Upd (fun _ d => d) ss k data offset length) := by
  unfold KeccakP1600times4_OverwriteBytes
  simp only [Ret_require_bind]
  refine ⟨hsA, ?_⟩
  obtain ⟨p1, p2, p3⟩ := head_pos offset length
  refine Ret.bind (Q := fun st : ByteSt => Upd (fun _ d => d) ss k data offset (headLen offset length) st.ss ∧
    Pos offset length (headLen offset length) st.sizeLeft st.lanePosition st.cur) ?_ ?_
  · by_cases c : length > 0 ∧ offset % 8 ≠ 0
    · have hh : headLen offset length = min length (8 - offset % 8) := by
        unfold headLen; rw [if_neg c.2]
      simp only [Ret_ifC, decide_eq_true c, ↓reduceIte]
      rw [Ret_bytesInLane_bind, ← hh]
      simp only [wp, length_bytes64, laneIndex_eq hk (show offset / 8 < 25 by omega)]
      refine ⟨by omega, by omega, by omega, by omega, ?_, by unfold Pos; omega⟩
      have := Upd.step (n := headLen offset length) (l := offset / 8)
        (v := le64 ((bytes64 (nth ss (4 * (offset / 8) + k))).take (offset % 8) ++
          (data.drop 0).take (headLen offset length) ++
          (bytes64 (nth ss (4 * (offset / 8) + k))).drop (offset % 8 + headLen offset length)) 0) hk
        (Upd.zero (g := (fun _ d => d)) (data := data) (offset := offset) h) (by omega) (by omega) (by omega)
        (fun b hb => by
          rw [byteW_memcpy _ _ _ _ _ _ (by omega) hb (by omega)]
          by_cases c2 : offset % 8 ≤ b ∧ b < offset % 8 + headLen offset length
          · rw [if_pos c2, if_pos (by omega)]
            congr 1; omega
          · rw [if_neg c2, if_neg (by omega)])
      simpa only [Nat.zero_add] using this
    · have hh : headLen offset length = 0 := by
        unfold headLen; split <;> omega
      simp only [Ret_ifC, decide_eq_false c, Bool.false_eq_true, ↓reduceIte, wp]
      rw [hh] at p2 ⊢
      exact ⟨Upd.zero h, by unfold Pos; omega⟩
  · rintro st ⟨hU, hP⟩
    refine Ret.bind (Q := fun st : ByteSt => ∃ done, Upd (fun _ d => d) ss k data offset done st.ss ∧
      Pos offset length done st.sizeLeft st.lanePosition st.cur ∧ st.sizeLeft < 8) ?_ ?_
    · refine Ret.while (fun st : ByteSt => ∃ done, Upd (fun _ d => d) ss k data offset done st.ss ∧
        Pos offset length done st.sizeLeft st.lanePosition st.cur ∧
        (8 ≤ st.sizeLeft → Whole offset length ∧ done % 8 = (8 - offset % 8) % 8))
        (fun st => st.sizeLeft) ?_ ?_ _ ?_
      · rintro st ⟨done, hU, hP, hW⟩ hc
        have hc : 8 ≤ st.sizeLeft := by simpa using hc
        obtain ⟨q1, q2, q3, q4⟩ := hP
        obtain ⟨w1, w2⟩ := hW hc
        have hA := hA w1
        have hl : st.lanePosition < 25 := by omega
        simp only [wp, laneIndex_eq hk hl]
        have hlen := hU.1
        refine ⟨by omega, by omega, by omega, ⟨done + 8, ?_, by unfold Pos; omega, ?_⟩, by omega⟩
        · refine Upd.step hk hU hl (by omega) (by omega) fun b hb => ?_
          rw [byteW_le64 _ _ _ hb, if_pos (by omega)]
          congr 1; omega
        · intro _; exact ⟨w1, by omega⟩
      · rintro st ⟨done, hU, hP, hW⟩ hc
        exact ⟨done, hU, hP, by simpa using hc⟩
      · exact ⟨_, hU, hP, fun h8 => p3 (by unfold Pos at hP; omega)⟩
    · rintro st ⟨done, hU, hP, h8⟩
      obtain ⟨q1, q2, q3, q4⟩ := hP
      by_cases c : st.sizeLeft > 0
      · have hl : st.lanePosition < 25 := by omega
        have hlen := hU.1
        simp only [wp, decide_eq_true c, ↓reduceIte, laneIndex_eq hk hl, length_bytes64]
        refine ⟨by omega, by omega, by omega, by omega, ?_⟩
        have e : length = done + st.sizeLeft := by omega
        rw [e]
        refine Upd.step hk hU hl (by omega) (by omega) fun b hb => ?_
        rw [byteW_memcpy _ _ _ _ _ _ (by omega) hb (by omega)]
        by_cases c2 : 0 ≤ b ∧ b < 0 + st.sizeLeft
        · rw [if_pos c2, if_pos (by omega)]
          congr 1; omega
        · rw [if_neg c2, if_neg (by omega)]
      · simp only [wp, decide_eq_false c, Bool.false_eq_true, ↓reduceIte]
        rw [show length = done by omega]
        exact hU

theorem OverwriteWithZeroes_ret {sAddr : Nat} (hsA : sAddr % 8 = 0) {ss : List U64}
    (h : ss.length = 100) {k : Nat} (hk : k < 4) {n : Nat} (hn : n ≤ 200) :
    Ret (KeccakP1600times4_OverwriteWithZeroes sAddr ss k n) (Upd (fun _ _ => 0) ss k [] 0 n) := by
  unfold KeccakP1600times4_OverwriteWithZeroes
  simp only [Ret_require_bind]
  refine ⟨hsA, ?_⟩
  refine Ret.bind (Q := fun st : ByteSt => ∃ done, Upd (fun _ _ => 0) ss k [] 0 done st.ss ∧
    st.sizeLeft = n - done ∧ done ≤ n ∧ done = 8 * st.lanePosition ∧ st.sizeLeft < 8) ?_ ?_
  · refine Ret.while (fun st : ByteSt => ∃ done, Upd (fun _ _ => 0) ss k [] 0 done st.ss ∧
      st.sizeLeft = n - done ∧ done ≤ n ∧ done = 8 * st.lanePosition) (fun st => st.sizeLeft) ?_ ?_ _ ?_
    · rintro st ⟨done, hU, q1, q2, q3⟩ hc
      have hc : 8 ≤ st.sizeLeft := by simpa using hc
      have hl : st.lanePosition < 25 := by omega
      have hlen := hU.1
      simp only [wp, laneIndex_eq hk hl]
      refine ⟨by omega, ⟨done + 8, ?_, by omega, by omega, by omega⟩, by omega⟩
      refine Upd.step hk hU hl (by omega) (by omega) fun b hb => ?_
      rw [byteW_zero, if_pos (by omega)]
    · rintro st ⟨done, hU, q1, q2, q3⟩ hc
      exact ⟨done, hU, q1, q2, q3, by simpa using hc⟩
    · exact ⟨0, Upd.zero h, by simp, by simp, rfl⟩
  · rintro st ⟨done, hU, q1, q2, q3, h8⟩
    by_cases c : st.sizeLeft > 0
    · have hl : st.lanePosition < 25 := by omega
      have hlen := hU.1
      simp only [wp, decide_eq_true c, ↓reduceIte, laneIndex_eq hk hl, length_bytes64]
      refine ⟨by omega, by omega, by omega, ?_⟩
      have e : n = done + st.sizeLeft := by omega
      rw [e]
      refine Upd.step hk hU hl (by omega) (by omega) fun b hb => ?_
      rw [byteW_le64 _ _ _ hb, Nat.zero_add, nth_append]
      simp only [List.length_replicate]
      by_cases c2 : b < st.sizeLeft
      · rw [if_pos c2, if_pos (by omega), nth_replicate, if_pos c2]
      · rw [if_neg c2, if_neg (by omega), nth_drop, nth_bytes64 _ _ (by omega)]
        congr 1; omega
    · simp only [wp, decide_eq_false c, Bool.false_eq_true, ↓reduceIte]
      rw [show n = done by omega]
      exact hU

/-! ## Extraction -/

/-- The bytes of the output written so far (proof device). -/
def Out (w : Nat → U8) (out : List U8) (done : Nat) (out' : List U8) : Prop :=
  out'.length = out.length ∧ ∀ p, nth out' p = if p < done then w p else nth out p

theorem Out.zero {w : Nat → U8} {out : List U8} : Out w out 0 out :=
  ⟨rfl, fun p => by rw [if_neg (by omega)]⟩

theorem nth_splice {d s : List U8} {a c n p : Nat} (hc : c + n ≤ s.length) (ha : a + n ≤ d.length) :
    nth (d.take a ++ (s.drop c).take n ++ d.drop (a + n)) p =
      if a ≤ p ∧ p < a + n then nth s (c + (p - a)) else nth d p := by
  rw [nth_append, nth_append]
  simp only [List.length_append, List.length_take, List.length_drop]
  rw [Nat.min_eq_left (show a ≤ d.length by omega), Nat.min_eq_left (show n ≤ s.length - c by omega)]
  by_cases h1 : p < a
  · rw [if_pos (by omega), if_pos h1, if_neg (by omega), nth_take, if_pos h1]
  · by_cases h2 : p < a + n
    · rw [if_pos h2, if_neg h1, if_pos (by omega), nth_take, if_pos (by omega), nth_drop]
    · rw [if_neg h2, if_neg (by omega), nth_drop]
      congr 1; omega

theorem length_splice {d s : List U8} {a c n : Nat} (hc : c + n ≤ s.length) (ha : a + n ≤ d.length) :
    (d.take a ++ (s.drop c).take n ++ d.drop (a + n)).length = d.length := by
  simp only [List.length_append, List.length_take, List.length_drop]; omega

theorem Out.step {w : Nat → U8} {out out' s : List U8} {done c n : Nat} (h : Out w out done out')
    (hc : c + n ≤ s.length) (ha : done + n ≤ out'.length)
    (hs : ∀ i, i < n → nth s (c + i) = w (done + i)) :
    Out w out (done + n) (out'.take done ++ (s.drop c).take n ++ out'.drop (done + n)) := by
  refine ⟨by rw [length_splice hc ha, h.1], fun p => ?_⟩
  rw [nth_splice hc ha]
  by_cases c1 : done ≤ p ∧ p < done + n
  · rw [if_pos c1, if_pos c1.2, hs _ (by omega)]
    congr 1; omega
  · rw [if_neg c1, h.2]
    by_cases c2 : p < done
    · rw [if_pos c2, if_pos (by omega)]
    · rw [if_neg c2, if_neg (by omega)]

@[wp] theorem Ret_stU64_bind {addr p : Nat} {l : List U8} {v : U64} {f : List U8 → C β}
    {P : β → Prop} :
    Ret (stU64 addr l p v >>= f) P ↔ (addr + p) % 8 = 0 ∧ p + 8 ≤ l.length ∧
      Ret (f (l.take p ++ ((bytes64 v).drop 0).take 8 ++ l.drop (p + 8))) P := by
  unfold stU64
  simp only [wp, length_bytes64]
  constructor
  · rintro ⟨h1, h2, h3, h4⟩; exact ⟨h1, h3, h4⟩
  · rintro ⟨h1, h3, h4⟩; exact ⟨h1, by omega, h3, h4⟩

theorem xorOutBytes_ret {w : Nat → U8} {input out out' : List U8} {cur n : Nat} {lane : U64}
    (h : Out w out cur out') (hi : cur + n ≤ input.length) (ho : cur + n ≤ out.length)
    (hw : ∀ i, i < n → w (cur + i) = nth input (cur + i) ^^^ byteW lane i) :
    Ret (xorOutBytes input out' cur n lane) (Out w out (cur + n)) := by
  unfold xorOutBytes
  refine Ret.bind (Q := fun r : List U8 × U64 => Out w out (cur + n) r.1) ?_ ?_
  · refine Ret.for1 (fun i (r : List U8 × U64) => Out w out (cur + i) r.1 ∧ r.2 = lane >>> (8 * i)) ?_ ?_ ?_
    · exact ⟨h, by simp⟩
    · rintro i ⟨o, la⟩ hin ⟨hO, hla⟩
      simp only at hO hla
      have hl := hO.1
      simp only [wp]
      refine ⟨by omega, by omega, ⟨by simp [hl], fun p => ?_⟩, ?_⟩
      · rw [nth_set]
        by_cases c : cur + i = p
        · rw [if_pos ⟨c, by omega⟩, if_pos (by omega), ← c, hw i hin, hla]
          congr 1
        · rw [if_neg (by omega), hO.2]
          by_cases c2 : p < cur + i
          · rw [if_pos c2, if_pos (by omega)]
          · rw [if_neg c2, if_neg (by omega)]
      · rw [hla, ← BitVec.shiftRight_add]; rfl
    · rintro ⟨o, la⟩ hh; exact hh.1
  · rintro r hr
    simpa only [wp] using hr

theorem byteW_shift (u : U64) (a i : Nat) (_h : a + i < 8) : byteW (u >>> (8 * a)) i = byteW u (a + i) := by
  apply BitVec.eq_of_getLsbD_eq
  intro j hj
  rw [byteW, byteW, BitVec.getLsbD_extractLsb', BitVec.getLsbD_extractLsb', BitVec.getLsbD_ushiftRight]
  congr 2; omega

theorem stByte_lane (ss : List U64) {k l b : Nat} (hb : b < 8) :
    stByte ss k (8 * l + b) = byteW (nth ss (4 * l + k)) b := by
  rw [stByte_eq, show (8 * l + b) / 8 = l by omega, show (8 * l + b) % 8 = b by omega]

theorem ExtractBytes_ret {sAddr : Nat} (hsA : sAddr % 8 = 0) {ss : List U64} (h : ss.length = 100)
    {k : Nat} (hk : k < 4) {dAddr : Nat} {data : List U8} {offset length : Nat}
    (hd : length ≤ data.length) (ho : offset + length ≤ 200)
    (hA : Whole offset length → dAddr % 8 = offset % 8) :
    Ret (KeccakP1600times4_ExtractBytes sAddr ss k dAddr data offset length)
      (Out (fun p => stByte ss k (offset + p)) data length) := by
  unfold KeccakP1600times4_ExtractBytes
  simp only [Ret_require_bind]
  refine ⟨hsA, ?_⟩
  obtain ⟨p1, p2, p3⟩ := head_pos offset length
  refine Ret.bind (Q := fun st : ExtrSt => Out (fun p => stByte ss k (offset + p)) data
    (headLen offset length) st.out ∧
    Pos offset length (headLen offset length) st.sizeLeft st.lanePosition st.cur) ?_ ?_
  · by_cases c : length > 0 ∧ offset % 8 ≠ 0
    · have hh : headLen offset length = min length (8 - offset % 8) := by
        unfold headLen; rw [if_neg c.2]
      simp only [Ret_ifC, decide_eq_true c, ↓reduceIte]
      rw [Ret_bytesInLane_bind, ← hh]
      simp only [wp, length_bytes64, laneIndex_eq hk (show offset / 8 < 25 by omega)]
      refine ⟨by omega, by omega, by omega, ?_, by unfold Pos; omega⟩
      have := Out.step (c := offset % 8) (n := headLen offset length)
        (s := bytes64 (nth ss (4 * (offset / 8) + k)))
        (Out.zero (w := fun p => stByte ss k (offset + p)) (out := data))
        (by simp; omega) (by omega) (fun i hi => by
          rw [nth_bytes64 _ _ (by omega), ← stByte_lane _ (by omega)]
          congr 1; omega)
      simpa only [Nat.zero_add] using this
    · have hh : headLen offset length = 0 := by
        unfold headLen; split <;> omega
      simp only [Ret_ifC, decide_eq_false c, Bool.false_eq_true, ↓reduceIte, wp]
      rw [hh] at p2 ⊢
      exact ⟨Out.zero, by unfold Pos; omega⟩
  · rintro st ⟨hU, hP⟩
    refine Ret.bind (Q := fun st : ExtrSt => ∃ done, Out (fun p => stByte ss k (offset + p)) data done
      st.out ∧ Pos offset length done st.sizeLeft st.lanePosition st.cur ∧ st.sizeLeft < 8) ?_ ?_
    · refine Ret.while (fun st : ExtrSt => ∃ done, Out (fun p => stByte ss k (offset + p)) data done
        st.out ∧ Pos offset length done st.sizeLeft st.lanePosition st.cur ∧
        (8 ≤ st.sizeLeft → Whole offset length ∧ done % 8 = (8 - offset % 8) % 8))
        (fun st => st.sizeLeft) ?_ ?_ _ ?_
      · rintro st ⟨done, hU, hP, hW⟩ hc
        have hc : 8 ≤ st.sizeLeft := by simpa using hc
        obtain ⟨q1, q2, q3, q4⟩ := hP
        obtain ⟨w1, w2⟩ := hW hc
        have hA := hA w1
        have hl : st.lanePosition < 25 := by omega
        have hlen := hU.1
        simp only [wp, laneIndex_eq hk hl]
        refine ⟨by omega, by omega, by omega, ⟨done + 8, ?_, by unfold Pos; omega, ?_⟩, by omega⟩
        · rw [q3]
          refine Out.step hU (by simp) (by omega) fun i hi => ?_
          rw [nth_bytes64 _ _ (by omega), Nat.zero_add, ← stByte_lane _ hi]
          congr 1; omega
        · intro _; exact ⟨w1, by omega⟩
      · rintro st ⟨done, hU, hP, hW⟩ hc
        exact ⟨done, hU, hP, by simpa using hc⟩
      · exact ⟨_, hU, hP, fun h8 => p3 (by unfold Pos at hP; omega)⟩
    · rintro st ⟨done, hU, hP, h8⟩
      obtain ⟨q1, q2, q3, q4⟩ := hP
      by_cases c : st.sizeLeft > 0
      · have hl : st.lanePosition < 25 := by omega
        have hlen := hU.1
        simp only [wp, decide_eq_true c, ↓reduceIte, laneIndex_eq hk hl, length_bytes64]
        refine ⟨by omega, by omega, by omega, ?_⟩
        have e : length = done + st.sizeLeft := by omega
        rw [e, q3]
        refine Out.step hU (by simp; omega) (by omega) fun i hi => ?_
        rw [nth_bytes64 _ _ (by omega), Nat.zero_add, ← stByte_lane _ (by omega)]
        congr 1; omega
      · simp only [wp, decide_eq_false c, Bool.false_eq_true, ↓reduceIte]
        rw [show length = done by omega]
        exact hU

theorem ExtractAndAddBytes_ret {sAddr : Nat} (hsA : sAddr % 8 = 0) {ss : List U64}
    (h : ss.length = 100) {k : Nat} (hk : k < 4) {iAddr : Nat} {input : List U8} {oAddr : Nat}
    {output : List U8} {offset length : Nat} (hi : length ≤ input.length)
    (hd : length ≤ output.length) (ho : offset + length ≤ 200)
    (hA : Whole offset length → iAddr % 8 = offset % 8 ∧ oAddr % 8 = offset % 8) :
    Ret (KeccakP1600times4_ExtractAndAddBytes sAddr ss k iAddr input oAddr output offset length)
      (Out (fun p => nth input p ^^^ stByte ss k (offset + p)) output length) := by
  unfold KeccakP1600times4_ExtractAndAddBytes
  simp only [Ret_require_bind]
  refine ⟨hsA, ?_⟩
  obtain ⟨p1, p2, p3⟩ := head_pos offset length
  generalize hw : (fun p => nth input p ^^^ stByte ss k (offset + p)) = w
  have hw' : ∀ p, w p = nth input p ^^^ stByte ss k (offset + p) := fun p => by rw [← hw]
  refine Ret.bind (Q := fun st : ExtrSt => Out w output (headLen offset length) st.out ∧
    Pos offset length (headLen offset length) st.sizeLeft st.lanePosition st.cur) ?_ ?_
  · by_cases c : length > 0 ∧ offset % 8 ≠ 0
    · have hh : headLen offset length = min length (8 - offset % 8) := by
        unfold headLen; rw [if_neg c.2]
      simp only [Ret_ifC, decide_eq_true c, ↓reduceIte]
      simp only [Ret_rd_bind, laneIndex_eq hk (show offset / 8 < 25 by omega)]
      rw [Ret_bytesInLane_bind, ← hh]
      refine ⟨by omega, ?_⟩
      refine (xorOutBytes_ret (w := w) (out := output) (cur := 0) Out.zero (by omega) (by omega)
        fun i hi => ?_).bind fun o ho => ?_
      · rw [hw', byteW_shift _ _ _ (by omega), ← stByte_lane _ (by omega)]
        congr 2; omega
      · simp only [wp]
        exact ⟨by simpa only [Nat.zero_add] using ho, by unfold Pos; omega⟩
    · have hh : headLen offset length = 0 := by
        unfold headLen; split <;> omega
      simp only [Ret_ifC, decide_eq_false c, Bool.false_eq_true, ↓reduceIte, wp]
      rw [hh] at p2 ⊢
      exact ⟨Out.zero, by unfold Pos; omega⟩
  · rintro st ⟨hU, hP⟩
    refine Ret.bind (Q := fun st : ExtrSt => ∃ done, Out w output done
      st.out ∧ Pos offset length done st.sizeLeft st.lanePosition st.cur ∧ st.sizeLeft < 8) ?_ ?_
    · refine Ret.while (fun st : ExtrSt => ∃ done, Out w output done
        st.out ∧ Pos offset length done st.sizeLeft st.lanePosition st.cur ∧
        (8 ≤ st.sizeLeft → Whole offset length ∧ done % 8 = (8 - offset % 8) % 8))
        (fun st => st.sizeLeft) ?_ ?_ _ ?_
      · rintro st ⟨done, hU, hP, hW⟩ hc
        have hc : 8 ≤ st.sizeLeft := by simpa using hc
        obtain ⟨q1, q2, q3, q4⟩ := hP
        obtain ⟨w1, w2⟩ := hW hc
        have hA := hA w1
        have hl : st.lanePosition < 25 := by omega
        have hlen := hU.1
        simp only [wp, laneIndex_eq hk hl]
        refine ⟨by omega, by omega, by omega, by omega, by omega,
          ⟨done + 8, ?_, by unfold Pos; omega, ?_⟩, by omega⟩
        · rw [q3]
          refine Out.step hU (by simp) (by omega) fun i hi => ?_
          rw [nth_bytes64 _ _ (by omega), Nat.zero_add, byteW_xor, byteW_le64 _ _ _ hi, hw',
            ← stByte_lane _ hi]
          congr 2; omega
        · intro _; exact ⟨w1, by omega⟩
      · rintro st ⟨done, hU, hP, hW⟩ hc
        exact ⟨done, hU, hP, by simpa using hc⟩
      · exact ⟨_, hU, hP, fun h8 => p3 (by unfold Pos at hP; omega)⟩
    · rintro st ⟨done, hU, hP, h8⟩
      obtain ⟨q1, q2, q3, q4⟩ := hP
      by_cases c : st.sizeLeft ≠ 0
      · have hl : st.lanePosition < 25 := by omega
        have hlen := hU.1
        simp only [wp, decide_eq_true c, ↓reduceIte, laneIndex_eq hk hl]
        refine ⟨by omega, ?_⟩
        have e : length = done + st.sizeLeft := by omega
        rw [e, q3]
        refine xorOutBytes_ret hU (by omega) (by omega) fun i hi => ?_
        rw [hw', ← stByte_lane _ (by omega)]
        congr 2; omega
      · simp only [wp, decide_eq_false c, Bool.false_eq_true, ↓reduceIte]
        rw [show length = done by omega]
        exact hU

end Frodo
