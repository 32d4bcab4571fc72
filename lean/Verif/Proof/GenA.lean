import Verif.Model.MatrixA
import Verif.Proof.Mem
import Verif.Proof.Ossl
import Verif.Proof.Sponge
import Verif.Proof.Keccak4x

/-! # Generation of rows of A -/

namespace Frodo

open Spec

/-- Rows `base, …, base + R - 1` of `A` in row-major order (proof device). -/
def rowsA (g : MatGen) (n : Nat) (seed : List U8) (base R : Nat) : List U16 :=
  (List.range (R * n)).map fun k => BitVec.ofNat 16 (genWord g n seed (base + k / n) (k % n))

theorem length_rowsA (g : MatGen) (n : Nat) (seed : List U8) (base R : Nat) :
    (rowsA g n seed base R).length = R * n := by simp [rowsA]

theorem nth_rowsA {g : MatGen} {n : Nat} {seed : List U8} {base R r j : Nat} (hr : r < R)
    (hj : j < n) : nth (rowsA g n seed base R) (r * n + j) =
      BitVec.ofNat 16 (genWord g n seed (base + r) j) := by
  unfold rowsA
  rw [nth_range_map, if_pos (idx_lt hr hj)]
  have e1 : (r * n + j) / n = r := by
    rw [Nat.mul_comm, Nat.mul_add_div (by omega), Nat.div_eq_of_lt hj]; rfl
  have e2 : (r * n + j) % n = j := by
    rw [Nat.mul_comm, Nat.mul_add_mod, Nat.mod_eq_of_lt hj]
  rw [e1, e2]

theorem eq_rowsA {g : MatGen} {n : Nat} {seed : List U8} {base R : Nat} {l : List U16}
    (hl : l.length = R * n) (h : ∀ r j, r < R → j < n →
      nth l (r * n + j) = BitVec.ofNat 16 (genWord g n seed (base + r) j)) :
    l = rowsA g n seed base R := by
  apply ext_nth (by rw [hl, length_rowsA])
  intro t ht
  rw [hl] at ht
  have hn : 0 < n := Nat.pos_of_ne_zero (by rintro rfl; simp at ht)
  have e : t = t / n * n + t % n := by rw [Nat.mul_comm]; exact (Nat.div_add_mod _ _).symm
  have h1 : t / n < R := Nat.div_lt_of_lt_mul (by rw [Nat.mul_comm]; exact ht)
  have h2 := Nat.mod_lt t hn
  rw [e, h _ _ h1 h2, nth_rowsA h1 h2]

theorem word16_join (c : List U8) (k : Nat) :
    join16 .le (nth c (2 * k)) (nth c (2 * k + 1)) = BitVec.ofNat 16 (word16 c k) := by
  apply BitVec.eq_of_toNat_eq
  have h0 := (nth c (2 * k)).isLt
  have h1 := (nth c (2 * k + 1)).isLt
  rw [toNat_join, BitVec.toNat_ofNat, word16, Nat.mod_eq_of_lt (by omega)]

/-! ## SHAKE128 -/

theorem length_SHAKE128 (M : List U8) (n : Nat) : (SHAKE128 M n).length = n := by
  rw [SHAKE128_eq]; simp

theorem bytes16_u16 (x : Nat) : bytes16 .le (u16 x) = le16 x := by
  unfold bytes16 le16
  rw [u16_natCast]
  show [_, _] = [_, _]
  congr 1
  · apply BitVec.eq_of_toNat_eq; simp
  · congr 1
    apply BitVec.eq_of_toNat_eq
    simp only [BitVec.toNat_setWidth, BitVec.toNat_ushiftRight, BitVec.toNat_ofNat,
      Nat.shiftRight_eq_div_pow]
    omega

theorem bytes16_swap_u16 (a : Arch) (x : Nat) :
    bytes16 a (UINT16_TO_LE a (u16 x)) = le16 x := by rw [bytes_swap, bytes16_u16]

theorem store16_ret {a : Arch} {buf : List U8} {x : U16} (h : 2 ≤ buf.length) :
    Ret (store16 a buf x) (· = bytes16 a x ++ buf.drop 2) := by
  unfold store16
  simp only [wp, List.length_set]
  refine ⟨by omega, by omega, ?_⟩
  rw [bytes16_eq a x]
  match buf, h with
  | b0 :: b1 :: l, _ => rfl

theorem shakeRow_eq {n : Nat} {seed : List U8} {i j : Nat} (hj : j < n) :
    nth (ofBytes .le (SHAKE128 (le16 i ++ seed) (2 * n))) j =
      BitVec.ofNat 16 (genWord .shake n seed i j) := by
  rw [nth_ofBytes .le j n _ (length_SHAKE128 _ _) hj, word16_join]; rfl

/-- State of `seed_A_separated` (proof device). -/
def SepInv (seed sep : List U8) : Prop := sep.length = 18 ∧ sep.drop 2 = seed.take 16

theorem seedsep_ret {J : Junk} {tag : Nat} {P : Params} {seed : List U8} (hA : P.seedA = 16)
    (hs : 16 ≤ seed.length) :
    Ret (memcpy (uninit J tag 8 (2 + P.seedA)) 2 seed 0 P.seedA) (SepInv seed) := by
  rw [hA]
  simp only [wp, length_uninit]
  refine ⟨by omega, by omega, ?_, ?_⟩
  · simp; omega
  · rw [List.append_assoc, List.drop_append]
    simp

theorem store_sep {a : Arch} {seed sep : List U8} {i : Nat} (h : SepInv seed sep) :
    Ret (store16 a sep (UINT16_TO_LE a (u16 i))) (fun s => SepInv seed s ∧
      s.take 18 = le16 i ++ seed.take 16) := by
  refine (store16_ret (by have := h.1; omega)).of_eq ?_
  rw [bytes16_swap_u16, h.2]
  have h1 : (seed.take 16).length = 16 := by rw [← h.2, List.length_drop, h.1]
  refine ⟨⟨?_, ?_⟩, ?_⟩
  · rw [List.length_append, h1]; rfl
  · rfl
  · rw [List.take_of_length_le]; rw [List.length_append, h1]; simp [le16]

/-- Row `r` of a buffer holds (in memory order) row `i` of `A` (proof device). -/
def RowIs (a : Arch) (g : MatGen) (n : Nat) (seed : List U8) (A : List U16) (r i : Nat) : Prop :=
  ∀ j, j < n → LE_TO_UINT16 a (nth A (r * n + j)) = BitVec.ofNat 16 (genWord g n seed i j)

theorem shakeRow_ret {B : Build} {E : Env} {P : Params} {seed : List U8} {A : List U16}
    {sep : List U8} {i r : Nat} (hA : P.seedA = 16) (hs : SepInv seed sep)
    (hr : (r + 1) * P.n ≤ A.length) :
    Ret (shakeRow B E P i r (A, sep)) (fun x => SepInv seed x.2 ∧ x.1.length = A.length ∧
      RowIs B.arch .shake P.n (seed.take 16) x.1 r i ∧
      ∀ t, t < r * P.n ∨ (r + 1) * P.n ≤ t → nth x.1 t = nth A t) := by
  unfold shakeRow
  refine (store_sep hs).bind fun sep' hsep' => ?_
  rw [hA]
  rw [Nat.succ_mul] at hr
  have hlen : (SHAKE128 (le16 i ++ seed.take 16) (2 * P.n)).length = 2 * P.n := length_SHAKE128 _ _
  refine (Ret_asBytes_eq (n := P.n) hr hlen ?_).bind_eq ?_
  · intro b hb
    rw [← hsep'.2]
    exact shake128_ret (by rw [hsep'.1.1]) (by omega)
  · have hl := length_ofBytes B.arch P.n _ hlen
    simp only [wp]
    refine ⟨hsep'.1, ?_, ?_, ?_⟩
    · simp only [List.length_append, List.length_take, List.length_drop, hl]; omega
    · intro j hj
      rw [nth_append, nth_append, List.length_append, List.length_take, hl,
        if_pos (by omega), if_neg (by omega), show r * P.n + j - min (r * P.n) A.length = j by omega,
        ofBytes_eq, nth_map, if_pos (by rw [length_ofBytes .le P.n _ hlen]; exact hj), le_le,
        shakeRow_eq hj]
    · intro t ht
      rw [Nat.succ_mul] at ht
      rw [nth_append, nth_append, List.length_append, List.length_take, hl, nth_take, nth_drop]
      rcases ht with ht | ht
      · rw [if_pos (by omega), if_pos (by omega), if_pos (by omega)]
      · rw [if_neg (by omega)]; congr 1; omega

/-- The rows `0, …, R-1` of a buffer hold the rows `base, …` of `A` (proof device). -/
def RowsAre (a : Arch) (g : MatGen) (n : Nat) (seed : List U8) (A : List U16) (base R : Nat) :
    Prop := ∀ r, r < R → RowIs a g n seed A r (base + r)

theorem RowIs.congr {a : Arch} {g : MatGen} {n : Nat} {seed : List U8} {A A' : List U16}
    {r i : Nat} (h : RowIs a g n seed A r i)
    (hA : ∀ t, r * n ≤ t → t < (r + 1) * n → nth A' t = nth A t) : RowIs a g n seed A' r i := by
  intro j hj
  rw [hA _ (by omega) (by rw [Nat.succ_mul]; omega)]
  exact h j hj

/-- One more row (proof device). -/
theorem shakeRow_next {B : Build} {E : Env} {P : Params} {seed : List U8} {A : List U16}
    {sep : List U8} {i r R : Nat} (hA : P.seedA = 16) (hs : SepInv seed sep)
    (hl : A.length = R * P.n) (hr : r < R)
    (h : RowsAre B.arch .shake P.n (seed.take 16) A i r) :
    Ret (shakeRow B E P (i + r) r (A, sep)) (fun x => SepInv seed x.2 ∧ x.1.length = R * P.n ∧
      RowsAre B.arch .shake P.n (seed.take 16) x.1 i (r + 1)) := by
  refine (shakeRow_ret hA hs (by rw [hl]; exact Nat.mul_le_mul_right _ hr)).mono ?_
  rintro ⟨A', sep'⟩ ⟨h1, h2, h3, h4⟩
  refine ⟨h1, h2.trans hl, ?_⟩
  intro r' hr'
  rcases Nat.lt_succ_iff_lt_or_eq.mp hr' with hlt | rfl
  · refine (h r' hlt).congr fun t _ ht2 => h4 t (Or.inl ?_)
    exact Nat.lt_of_lt_of_le ht2 (Nat.mul_le_mul_right _ hlt)
  · exact h3

theorem as_gen_shake_ret {B : Build} {E : Env} {P : Params} {seed : List U8} {A : List U16}
    {sep : List U8} {i : Nat} (hA : P.seedA = 16) (hs : SepInv seed sep)
    (hl : A.length = 4 * P.n) :
    Ret (as_gen_shake B E P i (A, sep)) (fun x => SepInv seed x.2 ∧ x.1.length = 4 * P.n ∧
      RowsAre B.arch .shake P.n (seed.take 16) x.1 i 4) := by
  unfold as_gen_shake
  refine (shakeRow_next hA hs hl (by omega) (by intro r hr; omega)).bind ?_
  rintro ⟨A, sep⟩ ⟨hs, hl, h⟩
  refine (shakeRow_next hA hs hl (by omega) h).bind ?_
  rintro ⟨A, sep⟩ ⟨hs, hl, h⟩
  refine (shakeRow_next hA hs hl (by omega) h).bind ?_
  rintro ⟨A, sep⟩ ⟨hs, hl, h⟩
  exact shakeRow_next hA hs hl (by omega) h

theorem sa_gen_shake_ret {B : Build} {E : Env} {P : Params} {seed : List U8} {A : List U16}
    {sep : List U8} {i : Nat} (hA : P.seedA = 16) (hs : SepInv seed sep)
    (hl : A.length = 8 * P.n) :
    Ret (sa_gen_shake B E P i (A, sep)) (fun x => SepInv seed x.2 ∧ x.1.length = 8 * P.n ∧
      RowsAre B.arch .shake P.n (seed.take 16) x.1 i 8) := by
  unfold sa_gen_shake
  refine (shakeRow_next hA hs hl (by omega) (by intro r hr; omega)).bind ?_
  rintro ⟨A, sep⟩ ⟨hs, hl, h⟩
  refine (shakeRow_next hA hs hl (by omega) h).bind ?_
  rintro ⟨A, sep⟩ ⟨hs, hl, h⟩
  refine (shakeRow_next hA hs hl (by omega) h).bind ?_
  rintro ⟨A, sep⟩ ⟨hs, hl, h⟩
  refine (shakeRow_next hA hs hl (by omega) h).bind ?_
  rintro ⟨A, sep⟩ ⟨hs, hl, h⟩
  refine (shakeRow_next hA hs hl (by omega) h).bind ?_
  rintro ⟨A, sep⟩ ⟨hs, hl, h⟩
  refine (shakeRow_next hA hs hl (by omega) h).bind ?_
  rintro ⟨A, sep⟩ ⟨hs, hl, h⟩
  refine (shakeRow_next hA hs hl (by omega) h).bind ?_
  rintro ⟨A, sep⟩ ⟨hs, hl, h⟩
  exact shakeRow_next hA hs hl (by omega) h

/-- State of the four copies (proof device). -/
def SepInv4 (seed : List U8) (sep : Four (List U8)) : Prop := ∀ t, SepInv seed (sep.get t)

theorem seeds4_ret {E : Env} {P : Params} {seed : List U8} (hA : P.seedA = 16)
    (hs : 16 ≤ seed.length) (he : ∀ k, E.addr (.sep k) % 2 = 0) :
    Ret (seeds4 E P seed) (SepInv4 seed) := by
  unfold seeds4
  rw [Ret_require_bind]
  refine ⟨he, ?_⟩
  refine (seedsep_ret hA hs).bind fun s0 h0 => ?_
  refine (seedsep_ret hA hs).bind fun s1 h1 => ?_
  refine (seedsep_ret hA hs).bind fun s2 h2 => ?_
  refine (seedsep_ret hA hs).bind fun s3 h3 => ?_
  simp only [wp]
  intro t
  match t with
  | 0 => exact h0
  | 1 => exact h1
  | 2 => exact h2
  | 3 => exact h3

theorem four_iff {p : Fin 4 → Prop} : (∀ t, p t) ↔ p 0 ∧ p 1 ∧ p 2 ∧ p 3 := by
  constructor
  · intro h; exact ⟨h 0, h 1, h 2, h 3⟩
  · rintro ⟨h0, h1, h2, h3⟩ t
    match t with
    | 0 => exact h0
    | 1 => exact h1
    | 2 => exact h2
    | 3 => exact h3

theorem length_rowBytes {a : Arch} {n : Nat} {A : List U16} {r : Nat} (h : (r + 1) * n ≤ A.length) :
    (rowBytes a n A r).length = 2 * n := by
  unfold rowBytes
  rw [Nat.succ_mul] at h
  rw [length_toBytes, List.length_take, List.length_drop]; omega

theorem shakeRows4_ret {B : Build} {E : Env} (hE : E.rhoAligned) {P : Params} {seed : List U8}
    {A : List U16} {sep : Four (List U8)} {i r R : Nat} (hA : P.seedA = 16) (hs : SepInv4 seed sep)
    (hl : A.length = R * P.n) (hr : r + 4 ≤ R)
    (h : RowsAre B.arch .shake P.n (seed.take 16) A i r) :
    Ret (shakeRows4 B E P (i + r) r (A, sep)) (fun x => SepInv4 seed x.2 ∧ x.1.length = R * P.n ∧
      RowsAre B.arch .shake P.n (seed.take 16) x.1 i (r + 4)) := by
  unfold shakeRows4
  refine (store_sep (hs 0)).bind fun s0 h0 => ?_
  refine (store_sep (hs 1)).bind fun s1 h1 => ?_
  refine (store_sep (hs 2)).bind fun s2 h2 => ?_
  refine (store_sep (hs 3)).bind fun s3 h3 => ?_
  rw [Ret_require_bind, hA]
  have hb : ∀ k, k ≤ R → k * P.n ≤ A.length := fun k hk => by
    rw [hl]; exact Nat.mul_le_mul_right _ hk
  refine ⟨hb _ hr, ?_⟩
  have hlen : ∀ k, (SHAKE128 (le16 k ++ seed.take 16) (2 * P.n)).length = 2 * P.n :=
    fun k => length_SHAKE128 _ _
  have hr0 := length_rowBytes (a := B.arch) (r := r + 0) (hb (r + 0 + 1) (by omega))
  have hr1 := length_rowBytes (a := B.arch) (r := r + 1) (hb (r + 1 + 1) (by omega))
  have hr2 := length_rowBytes (a := B.arch) (r := r + 2) (hb (r + 2 + 1) (by omega))
  have hr3 := length_rowBytes (a := B.arch) (r := r + 3) (hb (r + 3 + 1) (by omega))
  refine (shake128_4x_ret hE (four_iff.mpr ⟨?_, ?_, ?_, ?_⟩)
    (four_iff.mpr ⟨?_, ?_, ?_, ?_⟩)).bind fun o ho => ?_
  all_goals (try simp only [Four.get])
  · exact Nat.le_of_eq h0.1.1.symm
  · exact Nat.le_of_eq h1.1.1.symm
  · exact Nat.le_of_eq h2.1.1.symm
  · exact Nat.le_of_eq h3.1.1.symm
  · exact Nat.le_of_eq hr0.symm
  · exact Nat.le_of_eq hr1.symm
  · exact Nat.le_of_eq hr2.symm
  · exact Nat.le_of_eq hr3.symm
  obtain ⟨e0, e1, e2, e3⟩ := four_iff.mp ho
  simp only [Four.get] at e0 e1 e2 e3
  rw [h0.2, List.drop_of_length_le (Nat.le_of_eq hr0), List.append_nil] at e0
  rw [h1.2, List.drop_of_length_le (Nat.le_of_eq hr1), List.append_nil] at e1
  rw [h2.2, List.drop_of_length_le (Nat.le_of_eq hr2), List.append_nil] at e2
  rw [h3.2, List.drop_of_length_le (Nat.le_of_eq hr3), List.append_nil] at e3
  rw [e0, e1, e2, e3]
  have hol := fun k => length_ofBytes B.arch P.n _ (hlen k)
  have hole := fun k => length_ofBytes .le P.n _ (hlen k)
  have hR := hb _ hr
  have hm : (r + 4) * P.n = r * P.n + 4 * P.n := Nat.add_mul _ _ _
  rw [hm] at hR ⊢
  simp only [wp]
  refine ⟨four_iff.mpr ⟨h0.1, h1.1, h2.1, h3.1⟩, ?_, ?_⟩
  · simp only [List.length_append, List.length_take, List.length_drop, hol]; omega
  · intro r' hr'
    rcases Nat.lt_or_ge r' r with hlt | hge
    · refine (h r' hlt).congr fun t _ ht2 => ?_
      have : (r' + 1) * P.n ≤ r * P.n := Nat.mul_le_mul_right _ hlt
      rw [nth_append, nth_append, nth_append, nth_append, nth_append]
      simp only [List.length_append, List.length_take, hol]
      rw [if_pos (by omega), if_pos (by omega), if_pos (by omega), if_pos (by omega),
        if_pos (by omega), nth_take, if_pos (by omega)]
    · intro j hj
      have key : ∀ k, LE_TO_UINT16 B.arch (nth (ofBytes B.arch
          (SHAKE128 (le16 k ++ seed.take 16) (2 * P.n))) j) =
          BitVec.ofNat 16 (genWord .shake P.n (seed.take 16) k j) := fun k => by
        rw [ofBytes_eq, nth_map, if_pos (by rw [hole]; exact hj), le_le, shakeRow_eq hj]
      obtain ⟨d, hd, rfl⟩ : ∃ d, d < 4 ∧ r' = r + d := ⟨r' - r, by omega, by omega⟩
      have hm' : (r + d) * P.n = r * P.n + d * P.n := Nat.add_mul _ _ _
      rw [hm', ← Nat.add_assoc i r d, ← key]
      congr 1
      rw [nth_append, nth_append, nth_append, nth_append, nth_append]
      simp only [List.length_append, List.length_take, hol]
      match d, hd with
      | 0, _ =>
        rw [if_pos (by omega), if_pos (by omega), if_pos (by omega), if_pos (by omega),
          if_neg (by omega)]
        congr 1; omega
      | 1, _ =>
        rw [if_pos (by omega), if_pos (by omega), if_pos (by omega), if_neg (by omega)]
        congr 1; omega
      | 2, _ =>
        rw [if_pos (by omega), if_pos (by omega), if_neg (by omega)]
        congr 1; omega
      | 3, _ =>
        rw [if_pos (by omega), if_neg (by omega)]
        congr 1; omega

theorem sa_gen_shake4_ret {B : Build} {E : Env} (hE : E.rhoAligned) {P : Params} {seed : List U8}
    {A : List U16} {sep : Four (List U8)} {i : Nat} (hA : P.seedA = 16) (hs : SepInv4 seed sep)
    (hl : A.length = 8 * P.n) :
    Ret (sa_gen_shake4 B E P i (A, sep)) (fun x => SepInv4 seed x.2 ∧ x.1.length = 8 * P.n ∧
      RowsAre B.arch .shake P.n (seed.take 16) x.1 i 8) := by
  unfold sa_gen_shake4
  refine (shakeRows4_ret hE hA hs hl (r := 0) (by omega) (by intro r hr; omega)).bind ?_
  rintro ⟨A, sep⟩ ⟨hs, hl, h⟩
  exact shakeRows4_ret hE hA hs hl (by omega) h

/-! ## AES128 -/

theorem nth_ecb {E : List U8 → List U8} (hE : ∀ x, (E x).length = 16) {n b t : Nat} (hb : b < n)
    (ht : t < 16) (pt : List U8) :
    nth (ecb E n pt) (b * 16 + t) = nth (E ((pt.drop (16 * b)).take 16)) t := by
  unfold ecb
  rw [nth_flatMap_const _ _ 16 (fun _ _ => hE _) b t (by simpa using hb) ht,
    nth_eq_getElem (l := List.range n) (by simpa using hb), List.getElem_range]

/-- The columns that do not depend on the row number are set (proof device). -/
def AesInit (a : Arch) (n R : Nat) (X : List U16) : Prop :=
  X.length = R * n ∧ ∀ r c, r < R → c < n → c % 8 ≠ 0 →
    nth X (r * n + c) = if c % 8 = 1 then UINT16_TO_LE a (u16 ((c - 1 : Nat) : Int)) else 0

/-- The input of AES for the rows `base, …, base + R - 1` (proof device). -/
def AesFull (a : Arch) (n R base : Nat) (X : List U16) : Prop :=
  AesInit a n R X ∧ ∀ r c, r < R → c < n → c % 8 = 0 →
    nth X (r * n + c) = UINT16_TO_LE a (u16 ((base + r : Nat) : Int))

theorem swap_zero (a : Arch) : UINT16_TO_LE a 0 = 0 := by cases a <;> rfl

theorem bytes16_zero (a : Arch) : bytes16 a 0 = [0, 0] := by cases a <;> rfl

theorem aes_block {a : Arch} {n R base r c : Nat} {X : List U16} (h : AesFull a n R base X)
    (hr : r < R) (hc : c < n) (h8 : 8 ∣ n) :
    ((toBytes a X).drop (2 * (r * n + 8 * (c / 8)))).take 16 =
      le16 (base + r) ++ le16 (8 * (c / 8)) ++ List.replicate 12 0 := by
  obtain ⟨m, rfl⟩ := h8
  rw [toBytes_drop, show 16 = 2 * 8 from rfl, toBytes_take]
  have hlt : r * (8 * m) + (8 * (c / 8) + 7) < R * (8 * m) := idx_lt hr (by omega)
  have e : (X.drop (r * (8 * m) + 8 * (c / 8))).take 8 =
      [UINT16_TO_LE a (u16 ((base + r : Nat) : Int)), UINT16_TO_LE a (u16 ((8 * (c / 8) : Nat) : Int)),
        0, 0, 0, 0, 0, 0] := by
    apply ext_nth
    · have := h.1.1
      simp; omega
    · intro t ht
      rw [List.length_take, List.length_drop, h.1.1] at ht
      have ht : t < 8 := by omega
      rw [nth_take, if_pos ht, nth_drop, Nat.add_assoc]
      have hc8 : 8 * (c / 8) + t < 8 * m := by omega
      by_cases h0 : t = 0
      · subst h0
        rw [h.2 r _ hr hc8 (by omega)]; rfl
      · rw [h.1.2 r _ hr hc8 (by omega)]
        by_cases h1 : t = 1
        · subst h1
          rw [if_pos (by omega)]; rfl
        · rw [if_neg (by omega)]
          match t, ht, h0, h1 with
          | 2, _, _, _ => rfl
          | 3, _, _, _ => rfl
          | 4, _, _, _ => rfl
          | 5, _, _, _ => rfl
          | 6, _, _, _ => rfl
          | 7, _, _, _ => rfl
  rw [e]
  simp only [toBytes, List.flatMap_cons, List.flatMap_nil, bytes16_swap_u16, bytes16_zero]
  simp [List.replicate]

theorem aes_rows {a : Arch} {n R base : Nat} {X A : List U16} {seed : List U8} (h8 : 8 ∣ n)
    (h : AesFull a n R base X)
    (hA : A = ofBytes a (ecb (AES128 seed) (R * n / 8) (toBytes a X))) :
    A.length = R * n ∧ RowsAre a .aes n (seed.take 16) A base R := by
  obtain ⟨m, rfl⟩ := h8
  have hE := length_AES128 seed
  have hd : R * (8 * m) / 8 = R * m := by
    rw [Nat.mul_left_comm]; exact Nat.mul_div_cancel_left _ (by omega)
  rw [hd] at hA
  have hl : (ecb (AES128 seed) (R * m) (toBytes a X)).length = 2 * (R * (8 * m)) := by
    rw [length_ecb hE, Nat.mul_left_comm R 8 m]; omega
  refine ⟨by rw [hA]; exact length_ofBytes a _ _ hl, ?_⟩
  intro r hr j hj
  have hlt := idx_lt hr hj
  rw [hA, ofBytes_eq, nth_map, if_pos (by rw [length_ofBytes .le _ _ hl]; exact hlt), le_le,
    nth_ofBytes .le _ _ _ hl hlt]
  have hb : r * m + j / 8 < R * m := idx_lt hr (by omega)
  have e1 : 2 * (r * (8 * m) + j) = (r * m + j / 8) * 16 + 2 * (j % 8) := by
    rw [Nat.mul_left_comm r 8 m]; omega
  have e2 : 2 * (r * (8 * m) + j) + 1 = (r * m + j / 8) * 16 + (2 * (j % 8) + 1) := by omega
  rw [e2, e1, nth_ecb hE hb (by omega), nth_ecb hE hb (by omega)]
  have e3 : 16 * (r * m + j / 8) = 2 * (r * (8 * m) + 8 * (j / 8)) := by
    rw [Nat.mul_left_comm r 8 m]; omega
  rw [e3, aes_block h hr hj ⟨m, rfl⟩, word16_join, ← AES128_key_take]
  rfl

end Frodo
