import Verif.Proof.PyBits

/-! # Encoding, sampling and the remaining functions of the Python implementation -/

namespace Frodo.Py

open C Spec

variable {r c D : Nat} {X Y : Mat}

theorem encode_ret {o : Obj} {B : Nat} {mu : List U8} (hq : o.q = 2 ^ D) (hB : o.B = B) (hBD : B ≤ D)
    (hr : o.mbar = r) (hc : o.nbar = c) (hmu : B * (r * c) ≤ 8 * mu.length) :
    Ret (encode o mu) (fun X => Rep X (Spec.encode D B r c mu)) := by
  unfold encode
  refine Ret.bind_eq (bytes_to_bit_array_ret mu) ?_
  rw [hq, hB, hr, hc]
  refine (fill_ret Shape_zeros
    (fun i j => ((msgPart B mu (i * c + j) : Nat) : Int) * ((2 ^ D / 2 ^ B : Nat) : Int)) ?_).mono ?_
  · intro i j R hi hj hS _
    have hlt := idx_lt hi hj
    refine Ret.bind_eq (v := ((msgPart B mu (i * c + j) : Nat) : Int)) ?_ (set2_ret hS hi hj)
    refine Ret.for1 (fun l tmp => tmp = ((∑ t ∈ Finset.range l,
      ((bytesToBits mu).getD ((i * c + j) * B + t) false).toNat * 2 ^ t : Nat) : Int)) ?_ ?_ ?_
    · simp
    · rintro l _ hl rfl
      have hlt2 : (i * c + j) * B + l < mu.length * 8 := by
        have := Nat.mul_le_mul_right B (Nat.succ_le_of_lt hlt)
        rw [Nat.succ_mul, Nat.mul_comm (r * c)] at this
        omega
      simp only [wp]
      refine ⟨by rw [length_bytesToBits]; exact hlt2, ?_⟩
      rw [Finset.sum_range_succ]
      have e : nth (bytesToBits mu) ((i * c + j) * B + l)
        = (bytesToBits mu).getD ((i * c + j) * B + l) false := rfl
      rw [e]
      cases (bytesToBits mu).getD ((i * c + j) * B + l) false
      · simp
      · simp
    · rintro _ rfl; rfl
  · rintro R ⟨hS, hE⟩
    refine ⟨hS, ?_⟩
    intro i j
    rw [hE i j i.isLt j.isLt]
    show _ = ((ec D B (msgPart B mu (i * c + j)) : Nat) : ZMod (2 ^ D))
    rw [ec_eq hBD, Nat.pow_div hBD (by omega)]
    push_cast
    rfl

theorem round_eq (x : ℚ) : round x =
    if x + 1 / 2 = ⌊x + 1 / 2⌋ ∧ ⌊x + 1 / 2⌋ % 2 = 1 then ⌊x + 1 / 2⌋ - 1 else ⌊x + 1 / 2⌋ := by
  unfold round
  have h1 := Int.floor_le x
  have h2 := Int.lt_floor_add_one x
  by_cases ha : x - ⌊x⌋ < 1 / 2
  · have e : ⌊x + 1 / 2⌋ = ⌊x⌋ := by
      rw [Int.floor_eq_iff]; constructor <;> linarith
    rw [if_pos ha, e, if_neg]
    rintro ⟨h, _⟩
    have : (⌊x⌋ : ℚ) + 1 / 2 ≤ ⌊x⌋ := by linarith
    linarith
  · have e : ⌊x + 1 / 2⌋ = ⌊x⌋ + 1 := by
      rw [Int.floor_eq_iff]; push_cast; constructor <;> linarith
    rw [if_neg ha, e]
    by_cases hb : 1 / 2 < x - ⌊x⌋
    · rw [if_pos hb, if_neg]
      rintro ⟨h, _⟩
      push_cast at h
      linarith
    · rw [if_neg hb]
      have hx : x + 1 / 2 = ((⌊x⌋ + 1 : Int) : ℚ) := by push_cast; linarith
      by_cases hc : ⌊x⌋ % 2 = 0
      · rw [if_pos hc, if_pos ⟨hx, by omega⟩]; omega
      · rw [if_neg hc, if_neg]
        rintro ⟨_, h⟩; omega

theorem round_dcEven {D B x : Nat} :
    round ((x : ℚ) * 2 ^ B / ((2 ^ D : Nat) : ℚ)) % 2 ^ B = (dcEven D B x : Int) := by
  unfold dcEven
  simp only
  rw [Int.toNat_of_nonneg (Int.emod_nonneg _ (by positivity)), round_eq]
  push_cast
  rfl

theorem decodeEven_bits {D m n B : Nat} (K : Matrix (Fin m) (Fin n) (ZMod (2 ^ D))) {i j l : Nat}
    (hi : i < m) (hj : j < n) (hl : l < B) :
    nth ((List.finRange m).flatMap fun i => (List.finRange n).flatMap fun j =>
      (List.range B).map fun l => (dcEven D B (K i j).val).testBit l) ((i * n + j) * B + l) =
    (dcEven D B (K ⟨i, hi⟩ ⟨j, hj⟩).val).testBit l := by
  have : Inhabited (Fin m) := ⟨⟨i, hi⟩⟩
  have : Inhabited (Fin n) := ⟨⟨j, hj⟩⟩
  rw [show (i * n + j) * B + l = i * (n * B) + (j * B + l) by ring,
    nth_flatMap_const _ _ (n * B) _ i _ (by simpa using hi) (idx_lt hj hl),
    nth_flatMap_const _ _ B (by simp) j l (by simpa using hj) hl, nth_range_map, if_pos hl,
    nth_eq_getElem (by simpa using hi), nth_eq_getElem (by simpa using hj)]
  · simp
  · intro a _
    rw [length_flatMap_const _ _ B (by simp)]; simp

theorem decode_ret {o : Obj} {B : Nat} (hq : o.q = 2 ^ D) (hB : o.B = B)
    (hr : o.mbar = r) (hc : o.nbar = c) {M : Matrix (Fin r) (Fin c) (ZMod (2 ^ D))} (hX : IsZ X M) :
    Ret (decode o X) (· = decodeEven B M) := by
  unfold decode
  rw [hq, hB, hr, hc]
  have hlen : ((List.finRange r).flatMap fun i => (List.finRange c).flatMap fun j =>
      (List.range B).map fun l => (dcEven D B (M i j).val).testBit l).length = r * (c * B) := by
    rw [length_flatMap_const _ _ (c * B)]
    · simp
    · intro a _
      rw [length_flatMap_const _ _ B (by simp)]; simp
  refine Ret.bind_eq (v := (List.finRange r).flatMap fun i => (List.finRange c).flatMap fun j =>
      (List.range B).map fun l => (dcEven D B (M i j).val).testBit l) ?_ ?_
  · refine (windows_ret (d := B) (nth ((List.finRange r).flatMap fun i =>
      (List.finRange c).flatMap fun j =>
      (List.range B).map fun l => (dcEven D B (M i j).val).testBit l)) ?_).mono ?_
    · intro i j b hi hj hb
      refine Ret.bind_eq (get2_ret hX.1 hi hj) ?_
      rw [hX.2 ⟨i, hi⟩ ⟨j, hj⟩, Int.cast_natCast, round_dcEven]
      refine (splitBits_ret _ _).bind ?_
      rintro ⟨bits, tmp⟩ ⟨hl, hE⟩
      simp only at hl hE ⊢
      have hlt := idx_lt hi hj
      have hle : (i * c + j) * B + B ≤ b.length := by
        rw [hb, List.length_replicate, ← Nat.succ_mul, Nat.mul_assoc, Nat.mul_comm B]
        exact Nat.mul_le_mul_right _ hlt
      refine window_ret _ _ hle ?_
      intro l b' hl' hb'
      simp only [wp]
      refine ⟨by omega, by omega, ?_⟩
      rw [decodeEven_bits M hi hj hl', hE _ (by omega)]
      congr 1
      cases (dcEven D B (M ⟨i, hi⟩ ⟨j, hj⟩).val).testBit l <;> simp
    · rintro b ⟨hb, hE⟩
      rw [List.length_replicate] at hb
      apply ext_nth
      · rw [hb, hlen]; ring
      · intro t ht
        apply hE
        rw [hb] at ht
        rw [Nat.mul_assoc, Nat.mul_comm] at ht; exact ht
  · refine (bit_array_to_bytes_ret _).mono ?_
    rintro _ rfl
    unfold decodeEven
    rw [hlen, show r * (c * B) = B * (r * c) by ring]

theorem sample_ret {o : Obj} {T : List Nat} (hT : o.T_chi = T.map (fun x : Nat => (x : Int))) (x : Nat) :
    Ret (sample o (x : Int)) (· = Spec.sample T x) := by
  unfold sample
  refine Ret.bind_eq (v := ((T.dropLast.countP fun z => decide (z < x / 2) : Nat) : Int)) ?_ ?_
  · rw [hT, List.length_map]
    refine Ret.for1 (fun k e => e = (((T.take k).countP fun z => decide (z < x / 2) : Nat) : Int)) ?_ ?_ ?_
    · simp
    · rintro k _ hk rfl
      simp only [wp, List.length_map]
      refine ⟨by omega, ?_⟩
      have e : nth (T.map (fun x : Nat => (x : Int))) k = ((nth T k : Nat) : Int) := by
        rw [nth_map, if_pos (by omega)]
      rw [e, List.take_succ, List.countP_append, getElem?_eq_nth (by omega)]
      by_cases h : nth T k < x / 2
      · rw [if_pos (by omega)]; simp [h]
      · rw [if_neg (by omega)]; simp [h]
    · rintro _ rfl
      rw [List.dropLast_eq_take]
  · simp only [wp]
    unfold Spec.sample
    by_cases h : x % 2 = 0
    · rw [show ((x : Int) % 2).toNat = 0 by omega, if_pos h]; simp
    · rw [show ((x : Int) % 2).toNat = 1 by omega, if_neg h]; simp

theorem sample_matrix_ret {o : Obj} {T : List Nat} (hT : o.T_chi = T.map (fun x : Nat => (x : Int)))
    {rb : List U8} {off : Nat} {v : List Int} (hv : v.length = r * c)
    (hE : ∀ t, t < r * c → nth v t = ((word16 rb (off + t) : Nat) : Int)) :
    Ret (sample_matrix o v r c) (fun X => IsI X (sampleMatrix T r c rb off)) := by
  unfold sample_matrix
  refine (fill_ret Shape_zeros (fun i j => Spec.sample T (word16 rb (off + (i * c + j)))) ?_).mono ?_
  · intro i j R hi hj hS _
    have hlt := idx_lt hi hj
    simp only [Ret_rd_bind]
    refine ⟨by omega, ?_⟩
    rw [hE _ hlt]
    refine Ret.bind_eq (sample_ret hT _) (set2_ret hS hi hj)
  · rintro R ⟨hS, hE⟩
    exact ⟨hS, fun i j => hE i j i.isLt j.isLt⟩

theorem unpackH_ret {b : List U8} {k : Nat} (h : 2 * k + 1 < b.length) :
    Ret (unpackH b (2 * k)) (· = ((word16 b k : Nat) : Int)) := by
  unfold unpackH
  simp only [wp]
  exact ⟨by omega, h, rfl⟩

theorem packH_ret {x y : U8} {l l' : List U8} {k v : Nat} (hv : v < 65536) (hk : l.length = k) :
    Ret (packH (l ++ x :: y :: l') k v) (· = l ++ le16 v ++ l') := by
  unfold packH le16
  simp only [wp]
  refine ⟨hv, by simp; omega, by simp; omega, ?_⟩
  subst hk
  simp

theorem comp_words {rb : List U8} {n : Nat} (h : 2 * n ≤ rb.length) :
    Ret (comp n fun i => unpackH rb (2 * i)) (· = (List.range n).map fun i => ((word16 rb i : Nat) : Int)) := by
  refine (comp_ret (fun i a => a = ((word16 rb i : Nat) : Int)) (fun i hi => unpackH_ret (by omega))).mono ?_
  rintro l ⟨hl, hE⟩
  apply ext_nth
  · simp [hl]
  · intro i hi
    rw [hE i (by omega), nth_range_map, if_pos (by omega)]

theorem gen_ret {o : Obj} {n : Nat} {seedA : List U8} (hq : o.q = 2 ^ D) (hn : o.n = n)
    (h8 : o.gen = .aes → 8 ∣ n ∧ seedA.length = 16) (h16 : n ≤ 65536) :
    Ret (gen o seedA) (fun X => IsZ X (genA o.gen D n seedA)) := by
  have fin : ∀ R, (Shape n n R ∧ ∀ i j, i < n → j < n →
      ent R i j = ((genWord o.gen n seedA i j : Nat) : Int) % ((2 ^ D : Nat) : Int)) →
      IsZ R (genA o.gen D n seedA) := by
    rintro R ⟨hS, hE⟩
    refine ⟨hS, ?_⟩
    intro i j
    rw [hE i j i.isLt j.isLt]
    apply emod_val
    show _ = ((genWord o.gen n seedA i j : Nat) : ZMod (2 ^ D))
    push_cast; rfl
  unfold gen
  cases hg : o.gen with
  | aes =>
    obtain ⟨⟨m, hm⟩, hs⟩ := h8 hg
    rw [hg] at fin
    simp only
    unfold genAES128
    rw [hn, hq]
    simp only [Ret_require_bind]
    refine ⟨hs, ?_⟩
    let g : Nat → Nat → Int := fun i j => ((genWord .aes n seedA i j : Nat) : Int) % ((2 ^ D : Nat) : Int)
    refine Ret.mono (P := fun R => Shape n n R ∧ ∀ i j, i < n → j < n → ent R i j = g i j) ?_ fin
    refine Ret.for1 (fun a R => Shape n n R ∧ ∀ i j, i < a → j < n → ent R i j = g i j)
      ⟨Shape_zeros, by intro i j hi; omega⟩ ?_ (fun _ h => h)
    rintro i R hi ⟨hS, hE⟩
    refine Ret.forStep (m := m) (fun b R' => Shape n n R' ∧
      (∀ i' j, i' ≠ i → ent R' i' j = ent R i' j) ∧ ∀ j, j < 8 * b → ent R' i j = g i j)
      (by omega) hm ⟨hS, fun _ _ _ => rfl, by intro j hj; omega⟩ ?_ ?_
    · rintro b R' hb ⟨hS', hO, hE'⟩
      have hj8 : 8 * b + 8 ≤ n := by omega
      refine Ret.bind_eq (v := le16 i ++ List.replicate 14 0)
        (packH_ret (l := []) (by omega) rfl) ?_
      refine Ret.bind_eq (v := le16 i ++ le16 (8 * b) ++ List.replicate 12 0)
        (packH_ret (l := le16 i) (l' := List.replicate 12 0) (by omega) rfl) ?_
      refine Ret.for1 (fun k R2 => Shape n n R2 ∧
        (∀ i' j, i' ≠ i → ent R2 i' j = ent R i' j) ∧ ∀ j, j < 8 * b + k → ent R2 i j = g i j)
        ⟨hS', hO, hE'⟩ ?_ ?_
      · rintro k R2 hk ⟨hS2, hO2, hE2⟩
        have hlen : (AES128 seedA (le16 i ++ le16 (8 * b) ++ List.replicate 12 0)).length = 16 := by
          simp [AES128, aes, bytesOfState]
        refine Ret.bind_eq (unpackH_ret (by omega)) ?_
        refine (set2_ret hS2 hi (by omega)).mono ?_
        rintro _ rfl
        refine ⟨hS2.upd _, ?_, ?_⟩
        · intro i' j hi'
          rw [ent_upd hS2 _ hi (by omega), if_neg (by tauto)]; exact hO2 i' j hi'
        · intro j hj
          rw [ent_upd hS2 _ hi (by omega)]
          by_cases e : j = 8 * b + k
          · rw [if_pos ⟨rfl, e⟩, e]
            show _ = ((word16 (AES128 seedA (le16 i ++ le16 (8 * ((8 * b + k) / 8)) ++ List.replicate 12 0))
              ((8 * b + k) % 8) : Nat) : Int) % ((2 ^ D : Nat) : Int)
            rw [show (8 * b + k) / 8 = b by omega, show (8 * b + k) % 8 = k by omega]
          · rw [if_neg (by tauto)]; exact hE2 j (by omega)
      · rintro R2 ⟨h1, h2, h3⟩
        exact ⟨h1, h2, fun j hj => h3 j (by omega)⟩
    · rintro R' ⟨h1, h2, h3⟩
      refine ⟨h1, ?_⟩
      intro i' j hi' hj
      by_cases e : i' = i
      · subst e; exact h3 j (by omega)
      · rw [h2 i' j e]; exact hE i' j (by omega) hj
  | shake =>
    rw [hg] at fin
    simp only
    unfold genSHAKE128
    rw [hn, hq]
    let g : Nat → Nat → Int := fun i j => ((genWord .shake n seedA i j : Nat) : Int) % ((2 ^ D : Nat) : Int)
    refine Ret.mono (P := fun R => Shape n n R ∧ ∀ i j, i < n → j < n → ent R i j = g i j) ?_ fin
    refine Ret.for1 (fun a R => Shape n n R ∧ ∀ i j, i < a → j < n → ent R i j = g i j)
      ⟨Shape_zeros, by intro i j hi; omega⟩ ?_ (fun _ h => h)
    rintro i R hi ⟨hS, hE⟩
    refine Ret.bind_eq (v := le16 i) ((packH_ret (l := []) (l' := []) (by omega) rfl).mono ?_) ?_
    · rintro _ rfl; simp
    simp only
    rw [show 16 * n / 8 = 2 * n by omega]
    refine Ret.bind_eq (comp_words (by simp [SHAKE128, bitsToBytes])) ?_
    refine Ret.for1 (fun b R' => Shape n n R' ∧
      (∀ i' j, i' ≠ i → ent R' i' j = ent R i' j) ∧ ∀ j, j < b → ent R' i j = g i j)
      ⟨hS, fun _ _ _ => rfl, by intro j hj; omega⟩ ?_ ?_
    · rintro b R' hb ⟨hS', hO, hE'⟩
      simp only [Ret_rd_bind]
      refine ⟨by simpa using hb, ?_⟩
      rw [nth_range_map, if_pos hb]
      refine (set2_ret hS' hi hb).mono ?_
      rintro _ rfl
      refine ⟨hS'.upd _, ?_, ?_⟩
      · intro i' j hi'
        rw [ent_upd hS' _ hi hb, if_neg (by tauto)]; exact hO i' j hi'
      · intro j hj
        rw [ent_upd hS' _ hi hb]
        by_cases e : j = b
        · rw [if_pos ⟨rfl, e⟩, e]; rfl
        · rw [if_neg (by tauto)]; exact hE' j (by omega)
    · rintro R' ⟨h1, h2, h3⟩
      refine ⟨h1, ?_⟩
      intro i' j hi' hj
      by_cases e : i' = i
      · subst e; exact h3 j hj
      · rw [h2 i' j e]; exact hE i' j (by omega) hj

end Frodo.Py
