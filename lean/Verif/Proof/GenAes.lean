import Verif.Proof.GenA

/-! # Generation of rows of A with AES128, and the whole matrix -/

namespace Frodo

open Spec

theorem idx_inj {n r c r' c' : Nat} (hc : c < n) (hc' : c' < n) (h : r * n + c = r' * n + c') :
    r = r' ∧ c = c' := by
  have e1 : (r * n + c) / n = r := by
    rw [Nat.mul_comm, Nat.mul_add_div (by omega), Nat.div_eq_of_lt hc]; rfl
  have e2 : (r' * n + c') / n = r' := by
    rw [Nat.mul_comm, Nat.mul_add_div (by omega), Nat.div_eq_of_lt hc']; rfl
  have : r = r' := by rw [← e1, ← e2, h]
  subst this
  exact ⟨rfl, by omega⟩

theorem nth_set_idx {X : List U16} {R n r c r' c' : Nat} {v : U16} (hX : R * n ≤ X.length)
    (hr : r < R) (hc : c < n) (hc' : c' < n) :
    nth (X.set (r' * n + c') v) (r * n + c) = if r = r' ∧ c = c' then v else nth X (r * n + c) := by
  have := idx_lt hr hc
  split
  · rename_i h; obtain ⟨rfl, rfl⟩ := h
    rw [nth_set_eq (by omega)]
  · rename_i h
    rw [nth_set_ne]
    intro e
    exact h ⟨(idx_inj hc' hc e).1.symm, (idx_inj hc' hc e).2.symm⟩

/-! ## Four rows -/

theorem nth_set4rows {X : List U16} {n col r c : Nat} (v : Nat → U16) (hX : X.length = 4 * n)
    (hr : r < 4) (hc : c < n) (hcol : col < n) :
    nth ((((X.set (col + 0 * n) (v 0)).set (col + 1 * n) (v 1)).set (col + 2 * n) (v 2)).set
      (col + 3 * n) (v 3)) (r * n + c) = if c = col then v r else nth X (r * n + c) := by
  simp only [Nat.add_comm col]
  rw [nth_set_idx (R := 4) (by simp [hX]) hr hc hcol,
    nth_set_idx (R := 4) (by simp [hX]) hr hc hcol,
    nth_set_idx (R := 4) (by simp [hX]) hr hc hcol,
    nth_set_idx (R := 4) (by simp [hX]) hr hc hcol]
  by_cases h : c = col
  · simp only [h, and_true]
    match r, hr with
    | 0, _ => rfl
    | 1, _ => rfl
    | 2, _ => rfl
    | 3, _ => rfl
  · simp [h]

theorem as_init_ret {B : Build} {P : Params} (h8 : 8 ∣ P.n) (hstripe : P.stripe = 8) :
    Ret (forC 0 P.n P.stripe (List.replicate (4 * P.n) (0 : U16)) fun j temp => do
      let temp ← wr temp (j + 1 + 0 * P.n) (UINT16_TO_LE B.arch (u16 j))
      let temp ← wr temp (j + 1 + 1 * P.n) (UINT16_TO_LE B.arch (u16 j))
      let temp ← wr temp (j + 1 + 2 * P.n) (UINT16_TO_LE B.arch (u16 j))
      wr temp (j + 1 + 3 * P.n) (UINT16_TO_LE B.arch (u16 j)))
      (AesInit B.arch P.n 4) := by
  obtain ⟨m, hm⟩ := h8
  rw [hstripe]
  refine Ret.forStep (fun k X => X.length = 4 * P.n ∧ ∀ r c, r < 4 → c < P.n →
    nth X (r * P.n + c) = if c % 8 = 1 ∧ c < 8 * k then
      UINT16_TO_LE B.arch (u16 ((c - 1 : Nat) : Int)) else 0) (by omega) hm ?_ ?_ ?_
  · refine ⟨by simp, fun r c hr hc => ?_⟩
    have := idx_lt hr hc
    rw [nth_replicate, if_pos (by omega), if_neg (by omega)]
  · rintro k X hk ⟨hl, hX⟩
    simp only [wp, List.length_set]
    refine ⟨by omega, by omega, by omega, by omega, hl, fun r c hr hc => ?_⟩
    rw [nth_set4rows (fun _ => UINT16_TO_LE B.arch (u16 ((8 * k : Nat) : Int))) hl hr hc (by omega)]
    split
    · rename_i e; subst e
      rw [if_pos (by omega), Nat.add_sub_cancel]
    · rw [hX r c hr hc]
      by_cases hh : c % 8 = 1 ∧ c < 8 * k
      · rw [if_pos hh, if_pos (by omega)]
      · rw [if_neg hh, if_neg (by omega)]
  · rintro X ⟨hl, hX⟩
    refine ⟨hl, fun r c hr hc h0 => ?_⟩
    rw [hX r c hr hc]
    by_cases h1 : c % 8 = 1
    · rw [if_pos (by omega), if_pos h1]
    · rw [if_neg (by omega), if_neg h1]

theorem as_gen_aes_ret {B : Build} {E : Env} {P : Params} {seed : List U8} {A X : List U16}
    {i : Nat} (h8 : 8 ∣ P.n) (hn : P.n < 2 ^ 15) (hstripe : P.stripe = 8)
    (ha : B.aes.ready E.ossl (E.addr .aesSched))
    (hl : A.length = 4 * P.n) (hX : AesInit B.arch P.n 4 X) :
    Ret (as_gen_aes B E P (B.aes.sched128 seed) i (A, X)) (fun x =>
      AesInit B.arch P.n 4 x.2 ∧ x.1.length = 4 * P.n ∧
      RowsAre B.arch .aes P.n (seed.take 16) x.1 i 4) := by
  have h8' := h8
  obtain ⟨m, hm⟩ := h8
  unfold as_gen_aes
  simp only
  refine Ret.bind (Q := AesFull B.arch P.n 4 i) ?_ ?_
  · rw [hstripe]
    refine Ret.forStep (fun k X => AesInit B.arch P.n 4 X ∧ ∀ r c, r < 4 → c < P.n → c % 8 = 0 →
      c < 8 * k → nth X (r * P.n + c) = UINT16_TO_LE B.arch (u16 ((i + r : Nat) : Int)))
      (by omega) hm ⟨hX, by intro r c _ _ _ h; omega⟩ ?_ ?_
    · rintro k X hk ⟨⟨hl, h1⟩, h2⟩
      simp only [wp, List.length_set]
      refine ⟨by omega, by omega, by omega, by omega, ⟨by simpa using hl, fun r c hr hc h0 => ?_⟩,
        fun r c hr hc h0 hck => ?_⟩
      · refine (nth_set4rows (fun r => UINT16_TO_LE B.arch (u16 ((i : Int) + (r : Int)))) hl hr hc
          (by omega)).trans ?_
        rw [if_neg (by omega)]
        exact h1 r c hr hc h0
      · refine (nth_set4rows (fun r => UINT16_TO_LE B.arch (u16 ((i : Int) + (r : Int)))) hl hr hc
          (by omega)).trans ?_
        split
        · push_cast; rfl
        · exact h2 r c hr hc h0 (by omega)
    · rintro X ⟨h1, h2⟩
      exact ⟨h1, fun r c hr hc h0 => h2 r c hr hc h0 (by omega)⟩
  · intro X hX
    have hd : 4 * P.n * 2 = 16 * (4 * P.n / 8) := by omega
    have hlen : (ecb (AES128 seed) (4 * P.n / 8) (toBytes B.arch X)).length = 2 * (4 * P.n) := by
      rw [length_ecb (length_AES128 seed)]; omega
    refine (Ret_asBytes_eq (n := 4 * P.n) (by omega) hlen ?_).bind_eq ?_
    · intro b hb
      rw [hd, show 2 * (4 * P.n) = 16 * (4 * P.n / 8) by omega]
      exact encrypt128_ret ha (by omega) (by rw [length_toBytes, hX.1.1]; omega) (by omega)
    · simp only [wp]
      rw [List.take_zero, List.nil_append, List.drop_of_length_le (by omega), List.append_nil]
      obtain ⟨r1, r2⟩ := aes_rows h8' hX rfl (seed := seed)
      exact ⟨hX.1, r1, r2⟩

/-! ## Eight rows -/

theorem sa_init_ret {B : Build} {P : Params} (h8 : 8 ∣ P.n) :
    Ret (forC 0 P.n 8 (List.replicate (P.n * 8) (0 : U16)) fun j Ainit => do
      let Ainit ← wr Ainit (0 * P.n + j + 1) (UINT16_TO_LE B.arch (u16 j))
      let Ainit ← wr Ainit (1 * P.n + j + 1) (UINT16_TO_LE B.arch (u16 j))
      let Ainit ← wr Ainit (2 * P.n + j + 1) (UINT16_TO_LE B.arch (u16 j))
      let Ainit ← wr Ainit (3 * P.n + j + 1) (UINT16_TO_LE B.arch (u16 j))
      let Ainit ← wr Ainit (4 * P.n + j + 1) (UINT16_TO_LE B.arch (u16 j))
      let Ainit ← wr Ainit (5 * P.n + j + 1) (UINT16_TO_LE B.arch (u16 j))
      let Ainit ← wr Ainit (6 * P.n + j + 1) (UINT16_TO_LE B.arch (u16 j))
      wr Ainit (7 * P.n + j + 1) (UINT16_TO_LE B.arch (u16 j)))
      (AesInit B.arch P.n 8) := by
  obtain ⟨m, hm⟩ := h8
  refine Ret.forStep (fun k X => X.length = 8 * P.n ∧ ∀ r c, r < 8 → c < P.n →
    nth X (r * P.n + c) = if c % 8 = 1 ∧ c < 8 * k then
      UINT16_TO_LE B.arch (u16 ((c - 1 : Nat) : Int)) else 0) (by omega) hm ?_ ?_ ?_
  · refine ⟨by simp; omega, fun r c hr hc => ?_⟩
    have := idx_lt hr hc
    rw [nth_replicate, if_pos (by omega), if_neg (by omega)]
  · rintro k X hk ⟨hl, hX⟩
    simp only [wp, List.length_set]
    refine ⟨by omega, by omega, by omega, by omega, by omega, by omega, by omega, by omega, hl,
      fun r c hr hc => ?_⟩
    have hcol : 8 * k + 1 < P.n := by omega
    simp only [Nat.add_assoc _ (8 * k) 1]
    rw [nth_set_idx (R := 8) (by simp [hl]) hr hc hcol,
      nth_set_idx (R := 8) (by simp [hl]) hr hc hcol,
      nth_set_idx (R := 8) (by simp [hl]) hr hc hcol,
      nth_set_idx (R := 8) (by simp [hl]) hr hc hcol,
      nth_set_idx (R := 8) (by simp [hl]) hr hc hcol,
      nth_set_idx (R := 8) (by simp [hl]) hr hc hcol,
      nth_set_idx (R := 8) (by simp [hl]) hr hc hcol,
      nth_set_idx (R := 8) (by simp [hl]) hr hc hcol]
    by_cases e : c = 8 * k + 1
    · subst e
      rw [if_pos (show (8 * k + 1) % 8 = 1 ∧ 8 * k + 1 < 8 * (k + 1) from ⟨by omega, by omega⟩)]
      simp only [and_true, Nat.add_sub_cancel]
      match r, hr with
      | 0, _ => rfl
      | 1, _ => rfl
      | 2, _ => rfl
      | 3, _ => rfl
      | 4, _ => rfl
      | 5, _ => rfl
      | 6, _ => rfl
      | 7, _ => rfl
    · simp only [e, and_false, if_false]
      rw [hX r c hr hc]
      by_cases hh : c % 8 = 1 ∧ c < 8 * k
      · rw [if_pos hh, if_pos (by omega)]
      · rw [if_neg hh, if_neg (by omega)]
  · rintro X ⟨hl, hX⟩
    refine ⟨hl, fun r c hr hc h0 => ?_⟩
    rw [hX r c hr hc]
    by_cases h1 : c % 8 = 1
    · rw [if_pos (by omega), if_pos h1]
    · rw [if_neg (by omega), if_neg h1]

/-- Writing the row numbers of row `q` in the columns `0, 8, …, 8(k-1)` and of the rows before
(proof device). -/
def RowNums (a : Arch) (n R base q k : Nat) (X : List U16) : Prop :=
  AesInit a n R X ∧ ∀ r c, r < R → c < n → c % 8 = 0 → (r < q ∨ (r = q ∧ c < 8 * k)) →
    nth X (r * n + c) = UINT16_TO_LE a (u16 ((base + r : Nat) : Int))

theorem RowNums.set {a : Arch} {n R base q k : Nat} {X : List U16} (h : RowNums a n R base q k X)
    (hq : q < R) (hk : 8 * k < n) :
    RowNums a n R base q (k + 1)
      (X.set (q * n + 8 * k) (UINT16_TO_LE a (u16 ((base + q : Nat) : Int)))) := by
  obtain ⟨⟨hl, h1⟩, h2⟩ := h
  refine ⟨⟨by simpa using hl, fun r c hr hc h0 => ?_⟩, fun r c hr hc h0 hck => ?_⟩
  · rw [nth_set_idx (Nat.le_of_eq hl.symm) hr hc hk, if_neg (by omega)]
    exact h1 r c hr hc h0
  · rw [nth_set_idx (Nat.le_of_eq hl.symm) hr hc hk]
    split
    · rename_i e; rw [e.1]
    · exact h2 r c hr hc h0 (by omega)

theorem RowNums.row {a : Arch} {n R base q k : Nat} {X : List U16} (h : RowNums a n R base q k X)
    (hk : n ≤ 8 * k) : RowNums a n R base (q + 1) 0 X :=
  ⟨h.1, fun r c hr hc h0 hh => h.2 r c hr hc h0 (by omega)⟩

theorem sa_gen_aes_ret {B : Build} {E : Env} {P : Params} {seed : List U8} {A X : List U16}
    {i : Nat} (h8 : 8 ∣ P.n) (hn : P.n < 2 ^ 15) (ha : B.aes.ready E.ossl (E.addr .aesSched))
    (hl : A.length = 8 * P.n) (hX : AesInit B.arch P.n 8 X) :
    Ret (sa_gen_aes B E P (B.aes.sched128 seed) i (A, X)) (fun x =>
      AesInit B.arch P.n 8 x.2 ∧ x.1.length = 8 * P.n ∧
      RowsAre B.arch .aes P.n (seed.take 16) x.1 i 8) := by
  have h8' := h8
  obtain ⟨m, hm⟩ := h8
  unfold sa_gen_aes
  simp only
  refine Ret.bind (Q := AesFull B.arch P.n 8 i) ?_ ?_
  · refine Ret.for1 (fun q X => RowNums B.arch P.n 8 i q 0 X)
      ⟨hX, by intro r c _ _ _ h; omega⟩ ?_ ?_
    · intro q X hq hI
      refine Ret.forStep (fun k X => RowNums B.arch P.n 8 i q k X) (by omega) hm hI ?_ ?_
      · intro k X hk hI
        have := idx_lt hq (show 8 * k < P.n by omega)
        have hl := hI.1.1
        simp only [wp]
        refine ⟨by omega, ?_⟩
        have := hI.set hq (by omega)
        push_cast at this
        exact this
      · intro X hI
        exact hI.row (by omega)
    · rintro X ⟨h1, h2⟩
      exact ⟨h1, fun r c hr hc h0 => h2 r c hr hc h0 (by omega)⟩
  · intro X hX
    have hd : 8 * P.n * 2 = 16 * (8 * P.n / 8) := by omega
    have hlen : (ecb (AES128 seed) (8 * P.n / 8) (toBytes B.arch X)).length = 2 * (8 * P.n) := by
      rw [length_ecb (length_AES128 seed)]; omega
    refine (Ret_asBytes_eq (n := 8 * P.n) (by omega) hlen ?_).bind_eq ?_
    · intro b hb
      rw [hd, show 2 * (8 * P.n) = 16 * (8 * P.n / 8) by omega]
      exact encrypt128_ret ha (by omega) (by rw [length_toBytes, hX.1.1]; omega) (by omega)
    · simp only [wp]
      rw [List.take_zero, List.nil_append, List.drop_of_length_le (by omega), List.append_nil]
      obtain ⟨r1, r2⟩ := aes_rows h8' hX rfl (seed := seed)
      exact ⟨hX.1, r1, r2⟩

end Frodo
