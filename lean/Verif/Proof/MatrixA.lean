import Verif.Proof.GenAes

/-! # Multiplication by A -/

namespace Frodo

open Spec

theorem zq_ofNat {D : Nat} (h : D ≤ 16) (x : Nat) : zq D (BitVec.ofNat 16 x) = (x : ZMod (2 ^ D)) := by
  have := zq_u16 h (x : Int)
  rw [u16_natCast] at this
  simpa using this

theorem zq16_val (x : U16) : BitVec.ofNat 16 (zq 16 x).val = x := by
  apply BitVec.eq_of_toNat_eq
  unfold zq
  have := x.isLt
  rw [ZMod.val_natCast, BitVec.toNat_ofNat]
  omega

/-- An array from its entries (proof device). -/
theorem eq_ofMat {r c : Nat} {M : Matrix (Fin r) (Fin c) (ZMod (2 ^ 16))} {o out : List U16}
    (hl : o.length = out.length) (hout : r * c ≤ out.length)
    (h : ∀ (i : Fin r) (j : Fin c), zq 16 (nth o (i * c + j)) = M i j)
    (ht : ∀ t, r * c ≤ t → nth o t = nth out t) : o = ofMat M ++ out.drop (r * c) := by
  apply ext_nth
  · simp only [List.length_append, length_ofMat, List.length_drop]; omega
  · intro t _
    rw [nth_append, length_ofMat, nth_drop]
    split
    · rename_i hlt
      have hc : 0 < c := Nat.pos_of_ne_zero (by rintro rfl; simp at hlt)
      have hi : t / c < r := Nat.div_lt_of_lt_mul (by rw [Nat.mul_comm]; exact hlt)
      have hj : t % c < c := Nat.mod_lt _ hc
      have e : t = t / c * c + t % c := by rw [Nat.mul_comm]; exact (Nat.div_add_mod _ _).symm
      have := h ⟨_, hi⟩ ⟨_, hj⟩
      simp only at this
      rw [e, nth_ofMat _ hi hj, ← this, zq16_val]
    · rw [ht t (by omega)]; congr 1; omega

/-- Conversion of a whole array from little-endian byte order. -/
theorem le_loop_ret {a : Arch} {A : List U16} {m : Nat} (hm : A.length = m) :
    Ret (forC 0 m 1 A fun k A => do
      let x ← rd A k
      wr A k (LE_TO_UINT16 a x)) (· = A.map (LE_TO_UINT16 a)) := by
  refine Ret.for1 (fun k o => o.length = m ∧ ∀ t, t < m → nth o t =
    if t < k then LE_TO_UINT16 a (nth A t) else nth A t) ⟨hm, fun t _ => by simp⟩ ?_ ?_
  · rintro k o hk ⟨hl, ho⟩
    simp only [wp]
    refine ⟨by omega, by omega, by simpa using hl, fun t ht => ?_⟩
    rw [ho k hk, if_neg (by omega), nth_set]
    by_cases e : k = t
    · subst e; rw [if_pos ⟨rfl, by omega⟩, if_pos (by omega)]
    · rw [if_neg (by tauto), ho t ht]
      by_cases h : t < k
      · rw [if_pos h, if_pos (by omega)]
      · rw [if_neg h, if_neg (by omega)]
  · rintro o ⟨hl, ho⟩
    apply ext_nth (by simp [hl, hm])
    intro t ht
    rw [ho t (by omega), if_pos (by omega), nth_map, if_pos (by omega)]

theorem rows_map {a : Arch} {g : MatGen} {n : Nat} {seed : List U8} {A : List U16} {base R : Nat}
    (hl : A.length = R * n) (h : RowsAre a g n seed A base R) :
    A.map (LE_TO_UINT16 a) = rowsA g n seed base R := by
  refine eq_rowsA (by simpa using hl) fun r j hr hj => ?_
  rw [nth_map, if_pos (by rw [hl]; exact idx_lt hr hj)]
  exact h r hr j hj

/-! ## Reference code -/

/-- A key schedule of which nothing is left: it does not exist without AES (proof device). -/
def Erased (B : Build) (s : Sched) : Prop := B.gen = .aes → s = B.aes.freed 176

theorem freeSched_ret {B : Build} {s : Sched} {seed : List U8}
    (h : B.gen = .aes → s = B.aes.sched128 seed) : Ret (freeSched B s) (Erased B) := by
  unfold freeSched
  cases hg : B.gen
  · simp only [h hg]
    exact free128_ret.mono fun _ h _ => h
  · simp only [wp]
    intro h
    rw [hg] at h
    cases h

/-- What the code path requires of the environment: alignment of the key schedule with AES-NI, success of
the calls with OpenSSL, alignment of the shuffle tables with AVX2 and SHAKE128, even addresses of the
copies of the seed with SHAKE128. -/
def Build.alignedGen (B : Build) (E : Env) : Prop :=
  (B.gen = .aes → B.aes.ready E.ossl (E.addr .aesSched)) ∧
  (B.impl = .avx2 → B.gen = .shake → E.rhoAligned) ∧
  (B.gen = .shake → ∀ k, k = 0 ∨ B.impl = .avx2 → E.addr (.sep k) % 2 = 0)

theorem genA_memory_ret {B : Build} {E : Env} {P : Params} (hP : P.WF) {seed : List U8}
    (hs : 16 ≤ seed.length) (ha : B.alignedGen E) :
    Ret (genA_memory B E P seed) (fun x => (x.1.length = P.n * P.n ∧
      RowsAre B.arch B.gen P.n (seed.take 16) x.1 0 P.n) ∧ (B.gen = .aes → x.2 = B.aes.sched128 seed)) := by
  have h8 : 8 ∣ P.n := Dvd.dvd.trans (by decide) hP.n16
  unfold genA_memory
  cases hg : B.gen
  · have ha := ha.1 hg
    simp only
    refine Ret.bind (Q := AesFull B.arch P.n P.n 0) ?_ fun X hX => ?_
    · obtain ⟨m, hm⟩ := h8
      rw [hP.stripe]
      have h0 : ∀ r c, r < P.n → c < P.n →
          nth (List.replicate (P.n * P.n) (0 : U16)) (r * P.n + c) = 0 := fun r c hr hc => by
        rw [nth_replicate, if_pos (idx_lt hr hc)]
      refine Ret.for1 (fun q X => X.length = P.n * P.n ∧ ∀ r c, r < P.n → c < P.n →
        nth X (r * P.n + c) = if r < q then (if c % 8 = 0 then UINT16_TO_LE B.arch (u16 (r : Int))
          else if c % 8 = 1 then UINT16_TO_LE B.arch (u16 ((c - 1 : Nat) : Int)) else 0) else 0)
        ⟨by simp, fun r c hr hc => by rw [h0 r c hr hc, if_neg (by omega)]⟩ ?_ ?_
      · rintro q X hq hI
        refine Ret.forStep (fun k X => X.length = P.n * P.n ∧ ∀ r c, r < P.n → c < P.n →
          nth X (r * P.n + c) = if r < q ∨ (r = q ∧ c < 8 * k) then
            (if c % 8 = 0 then UINT16_TO_LE B.arch (u16 (r : Int))
            else if c % 8 = 1 then UINT16_TO_LE B.arch (u16 ((c - 1 : Nat) : Int)) else 0) else 0)
          (by omega) hm ⟨hI.1, fun r c hr hc => ?_⟩ ?_ ?_
        · rw [hI.2 r c hr hc]
          by_cases h : r < q
          · rw [if_pos h, if_pos (Or.inl h)]
          · rw [if_neg h, if_neg (by omega)]
        · rintro k X hk ⟨hl, hX⟩
          have h1 := idx_lt hq (show 8 * k + 1 < P.n by omega)
          simp only [wp, List.length_set]
          refine ⟨by omega, by omega, by simpa using hl, fun r c hr hc => ?_⟩
          rw [Nat.add_assoc, nth_set_idx (R := P.n) (by simp [hl]) hr hc (by omega),
            nth_set_idx (R := P.n) (by simp [hl]) hr hc (by omega), hX r c hr hc]
          by_cases e1 : r = q ∧ c = 8 * k + 1
          · obtain ⟨rfl, rfl⟩ := e1
            rw [if_pos ⟨rfl, rfl⟩, if_pos (by omega), if_neg (by omega), if_pos (by omega),
              Nat.add_sub_cancel]
          · rw [if_neg e1]
            by_cases e2 : r = q ∧ c = 8 * k
            · obtain ⟨rfl, rfl⟩ := e2
              rw [if_pos ⟨rfl, rfl⟩, if_pos (by omega), if_pos (by omega)]
            · rw [if_neg e2]
              by_cases e3 : r < q ∨ (r = q ∧ c < 8 * k)
              · rw [if_pos e3, if_pos (show r < q ∨ (r = q ∧ c < 8 * (k + 1)) by omega)]
              · rw [if_neg e3]
                by_cases e4 : r < q ∨ (r = q ∧ c < 8 * (k + 1))
                · rw [if_pos e4, if_neg (by omega), if_neg (by omega)]
                · rw [if_neg e4]
        · rintro X ⟨hl, hX⟩
          refine ⟨hl, fun r c hr hc => ?_⟩
          rw [hX r c hr hc]
          by_cases h : r < q + 1
          · rw [if_pos h, if_pos (by omega)]
          · rw [if_neg h, if_neg (by omega)]
      · rintro X ⟨hl, hX⟩
        refine ⟨⟨hl, fun r c hr hc h0 => ?_⟩, fun r c hr hc h0 => ?_⟩
        · rw [hX r c hr hc, if_pos hr, if_neg h0]
        · rw [hX r c hr hc, if_pos hr, if_pos h0, Nat.zero_add]
    · refine (setup128_ret ha hs).bind_eq ?_
      have hn : P.n * P.n * 2 = 16 * (P.n * P.n / 8) := by
        obtain ⟨m, hm⟩ := h8
        have e : P.n * P.n = 8 * (m * P.n) := by rw [← Nat.mul_assoc, ← hm]
        rw [e]; omega
      have hlen : (ecb (AES128 seed) (P.n * P.n / 8) (toBytes B.arch X)).length = 2 * (P.n * P.n) := by
        rw [length_ecb (length_AES128 seed)]; omega
      have hXl := hX.1.1
      refine Ret.bind (Ret_asBytes (a := B.arch) (P := fun A => A = ofBytes B.arch
        (ecb (AES128 seed) (P.n * P.n / 8) (toBytes B.arch X))) (Nat.zero_le _) ?_) ?_
      · rw [hn, List.drop_zero]
        have hnn := Nat.mul_lt_mul_of_lt_of_lt hP.n_lt hP.n_lt
        refine (encrypt128_inplace_ret ha (by omega) (by rw [length_toBytes, hXl]; omega)).of_eq ?_
        rw [List.take_zero, List.nil_append, List.drop_of_length_le, List.append_nil]
        rw [length_toBytes, hXl]; omega
      · rintro A rfl
        simp only [wp]
        exact ⟨aes_rows h8 hX rfl, fun _ => trivial⟩
  · simp only
    rw [Ret_require_bind]
    refine ⟨ha.2.2 hg 0 (.inl rfl), ?_⟩
    refine (seedsep_ret hP.seedA hs).bind fun sep hsep => ?_
    refine Ret.bind (Q := fun x : List U16 × List U8 => SepInv seed x.2 ∧ x.1.length = P.n * P.n ∧
      RowsAre B.arch .shake P.n (seed.take 16) x.1 0 P.n) ?_ ?_
    · refine Ret.for1 (fun i x => SepInv seed x.2 ∧ x.1.length = P.n * P.n ∧
        RowsAre B.arch .shake P.n (seed.take 16) x.1 0 i)
        ⟨hsep, by simp, by intro r hr; omega⟩ ?_ (fun _ h => h)
      rintro i ⟨A, sep⟩ hi ⟨h1, h2, h3⟩
      have := shakeRow_next (B := B) (E := E) hP.seedA h1 h2 hi h3
      rw [Nat.zero_add] at this
      exact this
    · rintro ⟨A, sep⟩ ⟨h1, h2, h3⟩
      simp only [wp]
      exact ⟨⟨h2, h3⟩, by simp⟩

theorem genA_reference_ret {B : Build} {E : Env} {P : Params} (hP : P.WF) {seed : List U8}
    (hs : 16 ≤ seed.length) (ha : B.alignedGen E) :
    Ret (genA_reference B E P seed) (fun x => x.1 = rowsA B.gen P.n (seed.take 16) 0 P.n ∧
      (B.gen = .aes → x.2 = B.aes.sched128 seed)) := by
  unfold genA_reference
  refine (genA_memory_ret hP hs ha).bind ?_
  rintro ⟨A, sched⟩ ⟨⟨hl, h⟩, hsch⟩
  simp only
  refine (le_loop_ret hl).bind_eq ?_
  simp only [wp]
  exact ⟨rows_map hl h, hsch⟩

/-- Inner product of a row of words and a row of `s`, as all the accumulating loops compute it
(proof device). -/
theorem acc_step {x y v : U16} {z : ZMod (2 ^ 16)} (hv : zq 16 v = z) :
    inInt (i16 (x.toNat : Int) * (y.toNat : Int)) ∧
    inInt ((v.toNat : Int) + i16 (x.toNat : Int) * (y.toNat : Int)) ∧
    zq 16 (u16 ((v.toNat : Int) + i16 (x.toNat : Int) * (y.toNat : Int))) = z + zq 16 x * zq 16 y := by
  have hy := y.isLt
  have hvl := v.isLt
  have hp := prod_bounds (i16_bounds (x.toNat : Int)) (y := (y.toNat : Int)) ⟨by omega, by omega⟩
  refine ⟨⟨by omega, by omega⟩, ⟨by omega, by omega⟩, ?_⟩
  rw [zq_u16 (by omega), ← hv, Int.cast_add, Int.cast_mul, i16_cast (D := 16) (by omega)]
  simp [zq]

theorem add_step {v w : U16} {y z : ZMod (2 ^ 16)} (hv : zq 16 v = y) (hw : zq 16 w = z) :
    inInt ((v.toNat : Int) + (w.toNat : Int)) ∧
    zq 16 (u16 ((v.toNat : Int) + (w.toNat : Int))) = y + z := by
  have h1 := v.isLt
  have h2 := w.isLt
  refine ⟨⟨by omega, by omega⟩, ?_⟩
  rw [zq_u16 (by omega), ← hv, ← hw]
  simp [zq]

/-- Entry `(r, c)` of `A * s^T` (proof device). -/
def prodAS (g : MatGen) (n : Nat) (seed : List U8) (s : List U16) (r c : Nat) : ZMod (2 ^ 16) :=
  ∑ j ∈ Finset.range n, (genWord g n seed r j : ZMod (2 ^ 16)) * zq 16 (nth s (c * n + j))

/-- Entry `(k, i)` of `s * A` with the rows of `A` below `R` only (proof device). -/
def prodSA (w : Nat → Nat → ZMod (2 ^ 16)) (n : Nat) (s : List U16) (R k i : Nat) : ZMod (2 ^ 16) :=
  ∑ j ∈ Finset.range R, zq 16 (nth s (k * n + j)) * w j i

/-- Entries of `A` (proof device). -/
def wordA (g : MatGen) (n : Nat) (seed : List U8) (j i : Nat) : ZMod (2 ^ 16) :=
  (genWord g n seed j i : ZMod (2 ^ 16))

theorem prodAS_eq (g : MatGen) (n m : Nat) (seed : List U8) (s : List U16) (r : Fin n) (c : Fin m) :
    (genA g 16 n seed * (toMat 16 m n s).transpose) r c = prodAS g n seed s r c := by
  rw [Matrix.mul_apply, prodAS, Finset.sum_range]
  rfl

theorem prodSA_eq (w : Nat → Nat → ZMod (2 ^ 16)) (n m : Nat) (s : List U16) (k : Fin m) (i : Fin n) :
    (toMat 16 m n s * Matrix.of fun a b : Fin n => w a b) k i = prodSA w n s n k i := by
  rw [Matrix.mul_apply, prodSA, Finset.sum_range]
  rfl

theorem genA_wordA (g : MatGen) (n : Nat) (seed : List U8) :
    genA g 16 n seed = Matrix.of fun a b : Fin n => wordA g n seed a b := rfl

/-- The result of `A*s + e` in an array of at least the size of `n x nbar` (proof device). -/
def asResult (g : MatGen) (P : Params) (seed : List U8) (s e out : List U16) : List U16 :=
  ofMat (genA g 16 P.n (seed.take 16) * (toMat 16 P.nbar P.n s).transpose + toMat 16 P.n P.nbar e)
    ++ out.drop (P.n * P.nbar)

/-- The result of `s*A + e` in an array of at least the size of `nbar x n` (proof device). -/
def saResult (g : MatGen) (P : Params) (seed : List U8) (s e out : List U16) : List U16 :=
  ofMat (toMat 16 P.nbar P.n s * genA g 16 P.n (seed.take 16) + toMat 16 P.nbar P.n e)
    ++ out.drop (P.nbar * P.n)

theorem as_plus_e_reference_full_ret {B : Build} {E : Env} {P : Params} (hP : P.WF)
    {out s e : List U16} {seed : List U8} (hs : 16 ≤ seed.length)
    (ha : B.alignedGen E)
    (hout : P.n * P.nbar ≤ out.length) (hsl : P.nbar * P.n ≤ s.length)
    (hel : P.n * P.nbar ≤ e.length) :
    Ret (as_plus_e_reference_full B E P out s e seed) (fun x =>
      x.1 = asResult B.gen P seed s e out ∧ Erased B x.2) := by
  unfold as_plus_e_reference_full
  refine (genA_reference_ret hP hs ha).bind ?_
  rintro ⟨A, sched⟩ ⟨hA, hsch⟩
  simp only at hA hsch ⊢
  subst hA
  have hlA := length_rowsA B.gen P.n (seed.take 16) 0 P.n
  rw [Ret_memcpy_bind]
  refine ⟨by rw [Nat.mul_comm]; omega, by rw [Nat.mul_comm]; omega, ?_⟩
  rw [List.take_zero, List.nil_append, List.drop_zero, Nat.zero_add, Nat.mul_comm P.nbar P.n]
  have hl0 : (e.take (P.n * P.nbar) ++ out.drop (P.n * P.nbar)).length = out.length := by
    simp; omega
  have hd0 : (e.take (P.n * P.nbar) ++ out.drop (P.n * P.nbar)).drop (P.n * P.nbar) =
      out.drop (P.n * P.nbar) := List.drop_left' (by simp; omega)
  have hn0 : ∀ t, t < P.n * P.nbar →
      nth (e.take (P.n * P.nbar) ++ out.drop (P.n * P.nbar)) t = nth e t := fun t ht => by
    rw [nth_append, if_pos (by simp; omega), nth_take, if_pos ht]
  generalize e.take (P.n * P.nbar) ++ out.drop (P.n * P.nbar) = o0 at hl0 hd0 hn0 ⊢
  refine Ret.bind (Q := (· = asResult B.gen P seed s e out)) ?_ ?_
  · unfold asResult
    rw [← hd0]
    refine Ret.fill2 _ (length_ofMat _) (by omega) ?_
    intro i k o hi hk hlt hlen ho
    have ho0 := (ho _ (Nat.le_refl _)).trans (hn0 _ hlt)
    refine Ret.bind (Q := fun v => zq 16 v = prodAS B.gen P.n (seed.take 16) s i k) ?_ fun v hv => ?_
    · refine Ret.for1 (fun K v => zq 16 v = ∑ j ∈ Finset.range K,
        (genWord B.gen P.n (seed.take 16) i j : ZMod (2 ^ 16)) * zq 16 (nth s (k * P.n + j)))
        (by simp [zq]) ?_ (fun _ h => h)
      intro j v hj hv
      have h1 := idx_lt hi hj
      have h2 := idx_lt hk hj
      simp only [wp]
      rw [nth_rowsA hi hj, Nat.zero_add]
      obtain ⟨a1, a2, a3⟩ := acc_step (x := BitVec.ofNat 16 (genWord B.gen P.n (seed.take 16) i j))
        (y := nth s (k * P.n + j)) hv
      refine ⟨by omega, by omega, a1, a2, ?_⟩
      rw [a3, Finset.sum_range_succ, zq_ofNat (by omega)]
    · simp only [wp]
      obtain ⟨a1, a2⟩ := add_step (v := nth o (i * P.nbar + k)) rfl hv
      refine ⟨by omega, a1, by omega, ?_⟩
      rw [nth_ofMat _ hi hk, Matrix.add_apply, prodAS_eq, ← zq16_val (u16 _), a2, ho0,
        add_comm (zq 16 _)]
      rfl
  · rintro o rfl
    refine (freeSched_ret hsch).bind fun k hk => ?_
    simp only [wp]
    exact ⟨trivial, hk⟩

theorem as_plus_e_reference_ret {B : Build} {E : Env} {P : Params} (hP : P.WF)
    {out s e : List U16} {seed : List U8} (hs : 16 ≤ seed.length)
    (ha : B.alignedGen E)
    (hout : P.n * P.nbar ≤ out.length) (hsl : P.nbar * P.n ≤ s.length)
    (hel : P.n * P.nbar ≤ e.length) :
    Ret (as_plus_e_reference B E P out s e seed) (· = asResult B.gen P seed s e out) := by
  unfold as_plus_e_reference
  refine (as_plus_e_reference_full_ret hP hs ha hout hsl hel).bind fun x hx => ?_
  simp only [wp]
  exact hx.1

theorem sa_plus_e_reference_full_ret {B : Build} {E : Env} {P : Params} (hP : P.WF)
    {out s e : List U16} {seed : List U8} (hs : 16 ≤ seed.length)
    (ha : B.alignedGen E)
    (hout : P.nbar * P.n ≤ out.length) (hsl : P.nbar * P.n ≤ s.length)
    (hel : P.nbar * P.n ≤ e.length) :
    Ret (sa_plus_e_reference_full B E P out s e seed) (fun x =>
      x.1 = saResult B.gen P seed s e out ∧ Erased B x.2) := by
  unfold sa_plus_e_reference_full
  refine (genA_reference_ret hP hs ha).bind ?_
  rintro ⟨A, sched⟩ ⟨hA, hsch⟩
  simp only at hA hsch ⊢
  subst hA
  have hlA := length_rowsA B.gen P.n (seed.take 16) 0 P.n
  rw [Ret_memcpy_bind]
  refine ⟨by omega, by omega, ?_⟩
  rw [List.take_zero, List.nil_append, List.drop_zero, Nat.zero_add]
  have hl0 : (e.take (P.nbar * P.n) ++ out.drop (P.nbar * P.n)).length = out.length := by
    simp; omega
  have hn0 : ∀ t, t < P.nbar * P.n →
      nth (e.take (P.nbar * P.n) ++ out.drop (P.nbar * P.n)) t = nth e t := fun t ht => by
    rw [nth_append, if_pos (by simp; omega), nth_take, if_pos ht]
  have hd0 : ∀ t, P.nbar * P.n ≤ t →
      nth (e.take (P.nbar * P.n) ++ out.drop (P.nbar * P.n)) t = nth out t := fun t ht => by
    rw [nth_append, if_neg (by simp; omega), nth_drop]; congr 1; simp; omega
  generalize e.take (P.nbar * P.n) ++ out.drop (P.nbar * P.n) = o0 at hl0 hd0 hn0 ⊢
  let J : Nat → Nat → List U16 → Prop := fun i k o => o.length = out.length ∧
    (∀ r c, r < P.nbar → c < P.n → zq 16 (nth o (r * P.n + c)) =
      (if c < i ∨ (c = i ∧ r < k) then prodSA (wordA B.gen P.n (seed.take 16)) P.n s P.n r c else 0)
        + zq 16 (nth e (r * P.n + c))) ∧ ∀ t, P.nbar * P.n ≤ t → nth o t = nth out t
  refine Ret.bind (Q := (· = saResult B.gen P seed s e out)) ?_ ?_
  · refine Ret.for1 (fun i o => J i 0 o) ⟨hl0, fun r c hr hc => ?_, hd0⟩ ?_ ?_
    · rw [hn0 _ (idx_lt hr hc), if_neg (by omega), zero_add]
    · intro i o hi hJ
      refine Ret.for1 (fun k o => J i k o) hJ ?_ ?_
      · rintro k o hk ⟨hl, hv, ht⟩
        have hki := idx_lt hk hi
        refine Ret.bind (Q := fun v => zq 16 v = prodSA (wordA B.gen P.n (seed.take 16)) P.n s P.n k i)
          ?_ fun v hv' => ?_
        · refine Ret.for1 (fun K v => zq 16 v = prodSA (wordA B.gen P.n (seed.take 16)) P.n s K k i)
            (by simp [zq, prodSA]) ?_ (fun _ h => h)
          intro j v hj hv
          have h1 := idx_lt hj hi
          have h2 := idx_lt hk hj
          simp only [wp]
          rw [nth_rowsA hj hi, Nat.zero_add]
          obtain ⟨a1, a2, a3⟩ := acc_step
            (x := BitVec.ofNat 16 (genWord B.gen P.n (seed.take 16) j i))
            (y := nth s (k * P.n + j)) hv
          refine ⟨by omega, by omega, a1, a2, ?_⟩
          rw [a3, prodSA, prodSA, Finset.sum_range_succ, zq_ofNat (by omega), mul_comm (zq 16 _),
            wordA]
        · simp only [wp]
          obtain ⟨a1, a2⟩ := add_step (v := nth o (k * P.n + i)) (hv k i hk hi) hv'
          refine ⟨by omega, a1, by omega, by simpa using hl, fun r c hr hc => ?_, fun t ht' => ?_⟩
          · rw [nth_set_idx (R := P.nbar) (by omega) hr hc hi]
            by_cases e1 : r = k ∧ c = i
            · obtain ⟨rfl, rfl⟩ := e1
              rw [if_pos ⟨rfl, rfl⟩, a2, if_neg (by omega), if_pos (by omega), zero_add, add_comm]
            · rw [if_neg e1, hv r c hr hc]
              by_cases e2 : c < i ∨ (c = i ∧ r < k)
              · rw [if_pos e2, if_pos (by omega)]
              · rw [if_neg e2, if_neg (by omega)]
          · rw [nth_set_ne (by omega)]; exact ht t ht'
      · rintro o ⟨hl, hv, ht⟩
        refine ⟨hl, fun r c hr hc => ?_, ht⟩
        rw [hv r c hr hc]
        by_cases e2 : c < i + 1
        · rw [if_pos (by omega), if_pos (by omega)]
        · rw [if_neg (by omega), if_neg (by omega)]
    · rintro o ⟨hl, hv, ht⟩
      refine eq_ofMat hl hout (fun r c => ?_) ht
      rw [hv r c r.isLt c.isLt, if_pos (Or.inl c.isLt), Matrix.add_apply, genA_wordA, prodSA_eq]
      rfl
  · rintro o rfl
    refine (freeSched_ret hsch).bind fun k hk => ?_
    simp only [wp]
    exact ⟨trivial, hk⟩

theorem sa_plus_e_reference_ret {B : Build} {E : Env} {P : Params} (hP : P.WF)
    {out s e : List U16} {seed : List U8} (hs : 16 ≤ seed.length)
    (ha : B.alignedGen E)
    (hout : P.nbar * P.n ≤ out.length) (hsl : P.nbar * P.n ≤ s.length)
    (hel : P.nbar * P.n ≤ e.length) :
    Ret (sa_plus_e_reference B E P out s e seed) (· = saResult B.gen P seed s e out) := by
  unfold sa_plus_e_reference
  refine (sa_plus_e_reference_full_ret hP hs ha hout hsl hel).bind fun x hx => ?_
  simp only [wp]
  exact hx.1

end Frodo
