import Verif.Proof.PyCt

/-! # The KEM of the Python implementation -/

namespace Frodo.Py

open C Spec

/-- The object with the parameters `K` (proof device). -/
def objOf (K : KemParams) (g : MatGen) : Obj where
  T_chi := K.T.map (fun x : Nat => (x : Int))
  D := K.D
  q := 2 ^ K.D
  n := K.n
  nbar := K.nbar
  mbar := K.nbar
  B := K.B
  len_seedA_bytes := K.lenA
  len_z_bytes := K.lenA
  len_mu_bytes := K.len
  len_seedSE_bytes := K.len
  len_s_bytes := K.len
  len_k_bytes := K.len
  len_pkh_bytes := K.len
  len_chi_bytes := 2
  len_sk_bytes := K.len + (K.lenA + K.lenB) + 2 * K.n * K.nbar + K.len
  len_pk_bytes := K.lenA + K.lenB
  len_ct_bytes := K.lenB + K.lenC
  len_ss_bytes := K.len
  shake := K.shake
  gen := g

section
variable {K : KemParams} {g : MatGen}
theorem objOf_T : (objOf K g).T_chi = K.T.map (fun x : Nat => (x : Int)) := rfl
theorem objOf_D : (objOf K g).D = K.D := rfl
theorem objOf_q : (objOf K g).q = 2 ^ K.D := rfl
theorem objOf_n : (objOf K g).n = K.n := rfl
theorem objOf_nbar : (objOf K g).nbar = K.nbar := rfl
theorem objOf_mbar : (objOf K g).mbar = K.nbar := rfl
theorem objOf_B : (objOf K g).B = K.B := rfl
theorem objOf_seedA : (objOf K g).len_seedA_bytes = K.lenA := rfl
theorem objOf_z : (objOf K g).len_z_bytes = K.lenA := rfl
theorem objOf_seedSE : (objOf K g).len_seedSE_bytes = K.len := rfl
theorem objOf_s : (objOf K g).len_s_bytes = K.len := rfl
theorem objOf_k : (objOf K g).len_k_bytes = K.len := rfl
theorem objOf_pkh : (objOf K g).len_pkh_bytes = K.len := rfl
theorem objOf_chi : (objOf K g).len_chi_bytes = 2 := rfl
theorem objOf_sk : (objOf K g).len_sk_bytes = K.len + (K.lenA + K.lenB) + 2 * K.n * K.nbar + K.len := rfl
theorem objOf_pk : (objOf K g).len_pk_bytes = K.lenA + K.lenB := rfl
theorem objOf_ct : (objOf K g).len_ct_bytes = K.lenB + K.lenC := rfl
theorem objOf_ss : (objOf K g).len_ss_bytes = K.len := rfl
theorem objOf_shake : (objOf K g).shake = K.shake := rfl
theorem objOf_gen : (objOf K g).gen = g := rfl
end

/-- What the proofs use of the parameters (proof device). -/
structure PWF (K : KemParams) (g : MatGen) : Prop extends KWF K where
  n_pos : 0 < K.n
  nbar_pos : 0 < K.nbar
  n8 : 8 ∣ K.n
  n_le : K.n ≤ 65536
  lenA16 : K.lenA = 16
  T_le : K.T.length ≤ 32767
  A : K.A = genA g K.D K.n

theorem PWF.d8 {K : KemParams} {g : MatGen} (h : PWF K g) (r : Nat) : 8 ∣ K.D * r * K.nbar :=
  Dvd.dvd.mul_left h.nbar8 _

theorem PWF.d8' {K : KemParams} {g : MatGen} (h : PWF K g) (r : Nat) : 8 ∣ K.D * K.nbar * r :=
  Dvd.dvd.mul_right (Dvd.dvd.mul_left h.nbar8 _) _

theorem slice_words {rb : List U8} {N a b : Nat} (hab : a ≤ b) (hb : b ≤ N) :
    (slice ((List.range N).map fun i => ((word16 rb i : Nat) : Int)) a b).length = b - a ∧
    ∀ t, t < b - a → nth (slice ((List.range N).map fun i => ((word16 rb i : Nat) : Int)) a b) t =
      ((word16 rb (a + t) : Nat) : Int) := by
  unfold slice
  refine ⟨by simp; omega, ?_⟩
  intro t ht
  rw [nth_take, if_pos ht, nth_drop, nth_range_map, if_pos (by omega)]

theorem sample_slice {K : KemParams} {g : MatGen} {rb : List U8} {N a b r c : Nat}
    (hab : b = a + r * c) (hb : b ≤ N) :
    Ret (sample_matrix (objOf K g) (slice ((List.range N).map fun i => ((word16 rb i : Nat) : Int)) a b) r c)
      (fun X => IsI X (sampleMatrix K.T r c rb a)) := by
  have h := slice_words (rb := rb) (show a ≤ b by omega) hb
  refine sample_matrix_ret (objOf_T) (by rw [h.1]; omega) ?_
  intro t ht
  exact h.2 t (by omega)

theorem sample_bound (T : List Nat) (x : Nat) : -(T.length : Int) ≤ Spec.sample T x ∧
    Spec.sample T x ≤ T.length := by
  unfold Spec.sample
  have h : T.dropLast.countP (fun z => decide (z < x / 2)) ≤ T.dropLast.length := List.countP_le_length
  have h2 : T.dropLast.length ≤ T.length := by rw [List.length_dropLast]; omega
  simp only
  split <;> constructor <;> omega

theorem length_encodeS' {m n : Nat} (M : Matrix (Fin m) (Fin n) ℤ) :
    (encodeS M).length = 2 * (m * n) := by
  unfold encodeS
  rw [length_flatMap_const _ _ (n * 2)]
  · simp; ring
  · intro a _
    rw [length_flatMap_const _ _ 2 (by simp [le16])]; simp

theorem nth_encodeS {m n : Nat} (M : Matrix (Fin m) (Fin n) ℤ) (i : Fin m) (j : Fin n) {t : Nat}
    (ht : t < 2) : nth (encodeS M) (2 * (i.val * n + j.val) + t) =
      nth (le16 (M i j % 2 ^ 16).toNat) t := by
  have : Inhabited (Fin m) := ⟨i⟩
  have : Inhabited (Fin n) := ⟨j⟩
  unfold encodeS
  rw [show 2 * (i.val * n + j.val) + t = i.val * (n * 2) + (j.val * 2 + t) by ring,
    nth_flatMap_const _ _ (n * 2) _ _ _ (by simp) (idx_lt j.isLt ht),
    nth_flatMap_const _ _ 2 (by simp [le16]) _ _ (by simp) ht]
  · rw [nth_eq_getElem (l := List.finRange m) (by simp), nth_eq_getElem (l := List.finRange n) (by simp)]
    simp
  · intro a _
    rw [length_flatMap_const _ _ 2 (by simp [le16])]; simp

theorem take_encodeS {m n : Nat} (M : Matrix (Fin m) (Fin n) ℤ) (i : Fin m) (j : Fin n) :
    (encodeS M).take (2 * (i.val * n + j.val + 1)) =
      (encodeS M).take (2 * (i.val * n + j.val)) ++ le16 (M i j % 65536).toNat := by
  have hlt := idx_lt i.isLt j.isLt
  have hl := length_encodeS' M
  apply ext_nth
  · simp [hl, le16]; omega
  · intro t ht
    rw [List.length_take, hl] at ht
    rw [nth_append, List.length_take, hl, nth_take, nth_take]
    by_cases h : t < 2 * (i.val * n + j.val)
    · rw [if_pos (by omega), if_pos (by omega), if_pos h]
    · rw [if_pos (by omega), if_neg (by omega)]
      have := nth_encodeS M i j (t := t - 2 * (i.val * n + j.val)) (by omega)
      rw [show 2 * (i.val * n + j.val) + (t - 2 * (i.val * n + j.val)) = t by omega] at this
      rw [this]
      congr 1
      omega

/-- The object of the sample `Sᵀ` is written as 16-bit little-endian integers. -/
theorem writeS_ret {m n : Nat} {X : Mat} {M : Matrix (Fin m) (Fin n) ℤ} (hX : IsI X M)
    (hb : ∀ i j, -32768 ≤ M i j ∧ M i j < 32768) (sk : List U8) :
    Ret (forC 0 m 1 sk fun i sk => forC 0 n 1 sk fun j sk => do
      let v ← get2 X i j
      let w ← intle16 v
      pure (sk ++ w)) (· = sk ++ encodeS M) := by
  refine Ret.for1 (fun i s => s = sk ++ (encodeS M).take (2 * (i * n))) (by simp) ?_ ?_
  · rintro i _ hi rfl
    refine Ret.for1 (fun j s => s = sk ++ (encodeS M).take (2 * (i * n + j))) rfl ?_ ?_
    · rintro j _ hj rfl
      refine Ret.bind_eq (get2_ret hX.1 hi hj) ?_
      rw [hX.2 ⟨i, hi⟩ ⟨j, hj⟩]
      unfold intle16
      simp only [wp]
      refine ⟨hb _ _, ?_⟩
      rw [← Nat.add_assoc, take_encodeS M ⟨i, hi⟩ ⟨j, hj⟩, List.append_assoc]
    · rintro _ rfl
      rw [show (i + 1) * n = i * n + n by ring]
  · rintro _ rfl
    rw [List.take_of_length_le (by rw [length_encodeS'])]

variable {K : KemParams} {g : MatGen}

theorem slice_zero {α : Type} (l : List α) (b : Nat) : slice l 0 b = l.take b := rfl

theorem gen_objOf (h : PWF K g) {seedA : List U8} (hs : seedA.length = K.lenA) :
    Ret (gen (objOf K g) seedA) (fun X => IsZ X (K.A seedA)) := by
  have := gen_ret (o := objOf K g) (D := K.D) (n := K.n) (seedA := seedA) rfl rfl
    (fun _ => ⟨h.n8, by rw [hs, h.lenA16]⟩) h.n_le
  rw [objOf_gen] at this
  rw [h.A]; exact this

theorem kem_keygen_ret (h : PWF K g) {s seedSE z : List U8} (hs : s.length = K.len)
    (hse : seedSE.length = K.len) (hz : z.length = K.lenA) :
    Ret (kem_keygen (objOf K g) (s ++ seedSE ++ z)) (· = keygen K s seedSE z) := by
  unfold kem_keygen
  simp only [objOf_q, objOf_n, objOf_nbar, objOf_seedA, objOf_z, objOf_seedSE, objOf_s, objOf_pkh,
    objOf_chi, objOf_sk, objOf_pk, objOf_shake]
  have e1 : slice (s ++ seedSE ++ z) 0 K.len = s := by
    unfold slice; rw [List.append_assoc]; simp [← hs]
  have e2 : slice (s ++ seedSE ++ z) K.len (K.len + K.len) = seedSE := by
    unfold slice
    rw [List.append_assoc, ← hs, List.drop_left, Nat.add_sub_cancel, hs, ← hse, List.take_left]
  have e3 : slice (s ++ seedSE ++ z) (K.len + K.len) (K.len + K.len + K.lenA) = z := by
    unfold slice
    rw [show K.len + K.len = (s ++ seedSE).length by simp [hs, hse], List.drop_left,
      Nat.add_sub_cancel_left, ← hz, List.take_length]
  simp only [e1, e2, e3]
  have lA : (K.shake z K.lenA).length = K.lenA := h.shake _ _
  refine (gen_objOf h lA).bind ?_
  intro A hA
  refine Ret.bind_eq (comp_words (by rw [h.shake]; omega)) ?_
  refine (sample_slice (r := K.nbar) (c := K.n) (by ring) (by nlinarith)).bind ?_
  intro St hSt
  refine (matrix_transpose_ret (D := K.D) h.nbar_pos hSt.rep).bind ?_
  intro S hS
  refine (sample_slice (r := K.n) (c := K.nbar) (by ring) (le_refl _)).bind ?_
  intro E hE
  refine (matrix_mul_ret h.n_pos h.n_pos hA.rep hS).bind ?_
  intro AS hAS
  refine (matrix_add_ret h.n_pos hAS.rep hE.rep).bind ?_
  intro B hB
  refine Ret.bind_eq (pack_ret (o := objOf K g) (D := K.D) rfl h.D_le h.n_pos (h.d8 _) hB) ?_
  have lpk : (K.shake z K.lenA ++ packMat (K.A (K.shake z K.lenA) * (modQ K.D (sampleMatrix K.T K.nbar K.n
      (K.shake (0x5F :: seedSE) (2 * K.n * K.nbar * 2)) 0)).transpose + modQ K.D (sampleMatrix K.T K.n K.nbar
      (K.shake (0x5F :: seedSE) (2 * K.n * K.nbar * 2)) (K.n * K.nbar)))).length = K.lenA + K.lenB := by
    rw [List.length_append, length_packMat, lA]; rfl
  simp only [Ret_require_bind]
  refine ⟨lpk, ?_⟩
  refine Ret.bind_eq (writeS_ret hSt ?_ _) ?_
  · intro i j
    have := sample_bound K.T (word16 (K.shake (0x5F :: seedSE) (2 * K.n * K.nbar * 2)) (0 + (i * K.n + j)))
    have := h.T_le
    show -32768 ≤ Spec.sample K.T _ ∧ Spec.sample K.T _ < 32768
    omega
  · simp only [Ret_require_bind, Ret_pure]
    refine ⟨?_, ?_⟩
    · rw [List.length_append, List.length_append, length_encodeS', h.shake, List.append_assoc,
        List.length_append, lpk, hs]
      ring
    · show _ = (keygen K s seedSE z)
      unfold keygen keygenNoise
      simp only
      rw [List.append_assoc s]

theorem drop_take_slice {α : Type} (l : List α) (a b : Nat) : (l.drop a).take (b - a) = slice l a b := rfl

theorem kem_encaps_ret (h : PWF K g) {pk mu : List U8} (hpk : pk.length = K.lenA + K.lenB)
    (hmu : mu.length = K.len) :
    Ret (kem_encaps (objOf K g) pk mu) (· = encaps K pk mu) := by
  have hdB := h.dvdB
  unfold kem_encaps
  simp only [Ret_require_bind]
  refine ⟨by
    show 8 * pk.length = 8 * K.lenA + K.D * K.n * K.nbar
    rw [hpk, Nat.mul_assoc, hdB]; ring, ?_⟩
  simp only [objOf_D, objOf_q, objOf_n, objOf_nbar, objOf_mbar, objOf_seedA, objOf_seedSE, objOf_k, objOf_pkh,
    objOf_chi, objOf_ct, objOf_ss, objOf_shake]
  have er : (2 * K.nbar * K.n + K.nbar * K.nbar) * 2 = (2 * K.n + K.nbar) * K.nbar * 2 := by ring
  have e1 : slice (K.shake (K.shake pk K.len ++ mu) (K.len + K.len)) 0 K.len
      = (deriveSeeds K (K.shake pk K.len) mu).1 := by
    unfold deriveSeeds; rw [slice_zero, two_mul]
  have e2 : slice (K.shake (K.shake pk K.len ++ mu) (K.len + K.len)) K.len (K.len + K.len)
      = (deriveSeeds K (K.shake pk K.len) mu).2 := by
    unfold deriveSeeds slice
    rw [two_mul]
    exact List.take_of_length_le (by rw [List.length_drop, h.shake])
  have e0 : slice pk 0 K.lenA = pk.take K.lenA := rfl
  simp only [er, e0, e1, e2]
  generalize hsd : (deriveSeeds K (K.shake pk K.len) mu).1 = seedSE
  generalize hkk : (deriveSeeds K (K.shake pk K.len) mu).2 = k
  have hb2 : (pk.drop K.lenA).length = K.lenB := by rw [List.length_drop, hpk]; omega
  have hA16 : (pk.take K.lenA).length = K.lenA := by rw [List.length_take, hpk]; omega
  refine Ret.bind_eq (comp_words (by rw [h.shake]; nlinarith)) ?_
  refine (sample_slice (a := 0) (r := K.nbar) (c := K.n) (by ring) (by nlinarith)).bind ?_
  intro S' hS'
  refine (sample_slice (r := K.nbar) (c := K.n) (by ring) (by nlinarith)).bind ?_
  intro E' hE'
  refine (gen_objOf h hA16).bind ?_
  intro A hA
  refine (matrix_mul_ret h.nbar_pos h.n_pos hS'.rep hA.rep).bind ?_
  intro SA hSA
  refine (matrix_add_ret h.nbar_pos hSA.rep hE'.rep).bind ?_
  intro B' hB'
  refine Ret.bind_eq (pack_ret (o := objOf K g) (D := K.D) rfl h.D_le h.nbar_pos (h.d8' _) hB') ?_
  refine (sample_slice (r := K.nbar) (c := K.nbar) (by ring) (by nlinarith)).bind ?_
  intro E'' hE''
  refine (unpack_ret (o := objOf K g) (D := K.D) rfl h.D_le (by rw [hb2, hdB])).bind ?_
  intro B hB
  refine (matrix_mul_ret h.nbar_pos h.n_pos hS'.rep hB.rep).bind ?_
  intro SB hSB
  refine (matrix_add_ret h.nbar_pos hSB.rep hE''.rep).bind ?_
  intro V hV
  refine (encode_ret (o := objOf K g) (D := K.D) (B := K.B) (r := K.nbar) (c := K.nbar) rfl rfl h.B_lt.le rfl rfl (by
    have := h.len
    obtain ⟨t, ht⟩ := h.nbar8
    rw [hmu, this, ht, show K.B * (8 * t * (8 * t)) = 8 * (K.B * (8 * t * t)) by ring]
    omega)).bind ?_
  intro M hM
  refine (matrix_add_ret h.nbar_pos hV.rep hM).bind ?_
  intro C' hC'
  refine Ret.bind_eq (pack_ret (o := objOf K g) (D := K.D) rfl h.D_le h.nbar_pos (h.d8' _) hC') ?_
  refine Ret_require_bind.2 ⟨?_, Ret_require_bind.2 ⟨h.shake _ _, Ret_pure.2 ?_⟩⟩
  · rw [List.length_append, length_packMat, length_packMat, KemParams.lenB, KemParams.lenC,
      show K.D * K.nbar * K.n = K.D * K.n * K.nbar by ring]
  · unfold encaps encrypt encapsNoise
    simp only [hsd, hkk]
    rw [show K.nbar * K.n = K.n * K.nbar from Nat.mul_comm _ _,
      show 2 * K.nbar * K.n = 2 * K.n * K.nbar by ring]

/-- The secret matrix is read from the secret key. -/
theorem readS_ret {m n : Nat} {b : List U8} (hD : K.D ≤ 16) (hb : 2 * (m * n) ≤ b.length) :
    Ret (forC 0 m 1 (zeros m n, 0) fun i (x : Mat × Nat) =>
      forC 0 n 1 (x.1, x.2) fun j (x : Mat × Nat) => do
        let y ← readIntle16 b x.2
        let St ← set2 x.1 i j y.1
        pure (St, y.2)) (fun p => Rep p.1 (decodeS K.D m n b)) := by
  let J : Nat → Nat → Mat × Nat → Prop := fun a e p => p.2 = 2 * (a * n + e) ∧ Shape m n p.1 ∧
    ∀ i j, i < m → j < n → (i < a ∨ (i = a ∧ j < e)) →
      ((ent p.1 i j : Int) : ZMod (2 ^ K.D)) = ((word16 b (i * n + j) : Nat) : ZMod (2 ^ K.D))
  refine Ret.for1 (fun i p => J i 0 p) ⟨by simp, Shape_zeros, by intro i j _ _ h; omega⟩ ?_ ?_
  · rintro i ⟨St, pos⟩ hi hJ
    refine Ret.for1 (fun j p => J i j p) hJ ?_ ?_
    · rintro j ⟨St, pos⟩ hj ⟨hp, hS, hE⟩
      simp only at hp hS hE ⊢
      subst hp
      have hlt := idx_lt hi hj
      unfold readIntle16
      rw [Ret_assoc]
      refine Ret.bind_eq (unpackH_ret (by omega)) ?_
      rw [Ret_pure_bind]
      refine Ret.bind_eq (set2_ret hS hi hj) ?_
      rw [Ret_pure]
      refine ⟨by show _ = _; ring, hS.upd _, ?_⟩
      intro i' j' hi' hj' hlt'
      show ((ent (upd St i j _) i' j' : Int) : ZMod (2 ^ K.D)) = _
      rw [ent_upd hS _ hi hj]
      by_cases e : i' = i ∧ j' = j
      · rw [if_pos e, e.1, e.2]
        split
        · simp
        · rw [Int.cast_sub, Int.cast_natCast]
          have : ((65536 : Int) : ZMod (2 ^ K.D)) = 0 := by
            rw [ZMod.intCast_zmod_eq_zero_iff_dvd]
            push_cast
            exact (show (65536 : Int) = 2 ^ 16 by norm_num) ▸ pow_dvd_pow _ hD
          rw [this, sub_zero]
      · rw [if_neg e]
        exact hE i' j' hi' hj' (by omega)
    · rintro ⟨St, pos⟩ ⟨hp, hS, hE⟩
      simp only at hp hS hE
      refine ⟨by show pos = _; rw [hp]; ring, hS, ?_⟩
      intro i' j' hi' hj' h
      exact hE i' j' hi' hj' (by omega)
  · rintro ⟨St, pos⟩ ⟨_, hS, hE⟩
    exact ⟨hS, fun i j => hE i j i.isLt j.isLt (by omega)⟩

theorem append_eq_iff {r c c' : Nat} {D : Nat} {X X' Y Y' : Mat}
    {M M' : Matrix (Fin r) (Fin c) (ZMod (2 ^ D))} {N N' : Matrix (Fin r) (Fin c') (ZMod (2 ^ D))}
    (hX : IsZ X M) (hX' : IsZ X' M') (hY : IsZ Y N) (hY' : IsZ Y' N') :
    X ++ Y = X' ++ Y' ↔ (M, N) = (M', N') := by
  constructor
  · intro h
    obtain ⟨rfl, rfl⟩ := List.append_inj h (by rw [hX.1.1, hX'.1.1])
    rw [Prod.mk.injEq]
    constructor
    · ext i j
      apply ZMod.val_injective
      have := (hX.2 i j).symm.trans (hX'.2 i j)
      exact_mod_cast this
    · ext i j
      apply ZMod.val_injective
      have := (hY.2 i j).symm.trans (hY'.2 i j)
      exact_mod_cast this
  · intro h
    rw [Prod.mk.injEq] at h
    obtain ⟨rfl, rfl⟩ := h
    rw [IsZ_ext hX hX', IsZ_ext hY hY']

theorem ent_append (X Y : Mat) (i j : Nat) :
    ent (X ++ Y) i j = if i < X.length then ent X i j else ent Y (i - X.length) j := by
  unfold ent
  rw [nth_append]; split <;> rfl

theorem IsZ.nonneg {D r c : Nat} {X : Mat} {M : Matrix (Fin r) (Fin c) (ZMod (2 ^ D))} (h : IsZ X M)
    (i j : Nat) : 0 ≤ ent X i j := by
  by_cases hi : i < r
  · by_cases hj : j < c
    · rw [h.2 ⟨i, hi⟩ ⟨j, hj⟩]; omega
    · unfold ent; rw [nth_of_le (by rw [h.1.2 i hi]; omega)]; decide
  · unfold ent
    rw [nth_of_le (l := X) (by rw [h.1.1]; omega), nth_of_le (show List.length default ≤ j from Nat.zero_le j)]
    decide

theorem ctverify_append {r c c' : Nat} {D : Nat} {X X' Y Y' : Mat}
    {M M' : Matrix (Fin r) (Fin c) (ZMod (2 ^ D))} {N N' : Matrix (Fin r) (Fin c') (ZMod (2 ^ D))}
    (hX : IsZ X M) (hX' : IsZ X' M') (hY : IsZ Y N) (hY' : IsZ Y' N') :
    Ret (ctverify (X ++ Y) (X' ++ Y')) (· = decide ((M, N) = (M', N'))) := by
  refine (ctverify_ret ?_ ?_ ?_ ?_).mono ?_
  · rw [List.length_append, List.length_append, hX.1.1, hX'.1.1, hY.1.1, hY'.1.1]
  · intro i hi
    rw [List.length_append, hX.1.1, hY.1.1] at hi
    rw [nth_append, nth_append, hX.1.1, hX'.1.1]
    by_cases e : i < r
    · rw [if_pos e, if_pos e, hX.1.2 i e, hX'.1.2 i e]
    · rw [if_neg e, if_neg e, hY.1.2 _ (by omega), hY'.1.2 _ (by omega)]
  · intro i j
    rw [ent_append]; split
    · exact hX.nonneg i j
    · exact hY.nonneg _ j
  · intro i j
    rw [ent_append]; split
    · exact hX'.nonneg i j
    · exact hY'.nonneg _ j
  · rintro _ rfl
    simp only [append_eq_iff hX hX' hY hY']

theorem length_decodeEven {D m n B : Nat} (M : Matrix (Fin m) (Fin n) (ZMod (2 ^ D))) :
    (decodeEven B M).length = B * (m * n) / 8 := by
  simp [decodeEven, bitsToBytes]

theorem kem_decaps_ret (h : PWF K g) {ct sk : List U8} (hct : ct.length = K.lenB + K.lenC)
    (hsk : sk.length = K.len + (K.lenA + K.lenB) + 2 * K.n * K.nbar + K.len) :
    Ret (kem_decaps (objOf K g) sk ct) (· = decapsWith K (decodeEven K.B) ct sk) := by
  have hdB := h.dvdB
  have hdC := h.dvdC
  unfold kem_decaps
  simp only [Ret_require_bind]
  refine ⟨hct, hsk, ?_⟩
  simp only [objOf_D, objOf_q, objOf_n, objOf_nbar, objOf_mbar, objOf_seedA, objOf_seedSE, objOf_s, objOf_k,
    objOf_pkh, objOf_chi, objOf_ct, objOf_sk, objOf_ss, objOf_shake]
  have er : (2 * K.nbar * K.n + K.nbar * K.nbar) * 2 = (2 * K.n + K.nbar) * K.nbar * 2 := by ring
  have l1 : K.nbar * K.n * K.D / 8 = K.lenB := by
    unfold KemParams.lenB; congr 1; ring
  have l2 : K.nbar * K.nbar * K.D / 8 = K.lenC := by
    unfold KemParams.lenC; congr 1; ring
  have l3 : K.D * K.n * K.nbar / 8 = K.lenB := rfl
  have l4 : K.n * K.nbar * 16 / 8 = 2 * K.n * K.nbar := by
    rw [show K.n * K.nbar * 16 = 2 * K.n * K.nbar * 8 by ring, Nat.mul_div_cancel _ (by omega)]
  have s1 : slice ct 0 (0 + K.lenB) = ct.take K.lenB := by rw [Nat.zero_add]; rfl
  have s2 : slice ct (0 + K.lenB) (0 + K.lenB + K.lenC) = ct.drop K.lenB := by
    unfold slice
    rw [Nat.zero_add, Nat.add_sub_cancel_left]
    exact List.take_of_length_le (by rw [List.length_drop]; omega)
  have s3 : slice sk 0 (0 + K.len) = sk.take K.len := by rw [Nat.zero_add]; rfl
  have s4 : slice sk (0 + K.len) (0 + K.len + K.lenA) = (parseSk K sk).pk.take K.lenA := by
    unfold slice parseSk
    simp only [Nat.zero_add]
    rw [Nat.add_sub_cancel_left, List.take_take, Nat.min_eq_left (by omega)]
  have s5 : slice sk (0 + K.len + K.lenA) (0 + K.len + K.lenA + K.lenB) = (parseSk K sk).pk.drop K.lenA := by
    unfold slice parseSk
    simp only [Nat.zero_add]
    rw [Nat.add_sub_cancel_left, List.drop_take, List.drop_drop, Nat.add_sub_cancel_left]
  have s6 : slice sk (0 + K.len + K.lenA + K.lenB + 2 * K.n * K.nbar)
      (0 + K.len + K.lenA + K.lenB + 2 * K.n * K.nbar + K.len) = (parseSk K sk).pkh := by
    unfold slice parseSk
    simp only [Nat.zero_add]
    rw [Nat.add_sub_cancel_left, Nat.add_assoc K.len K.lenA K.lenB]
  have s7 : decodeS K.D K.nbar K.n (slice sk (0 + K.len + K.lenA + K.lenB)
      (0 + K.len + K.lenA + K.lenB + 2 * K.n * K.nbar)) = (parseSk K sk).St := by
    unfold parseSk decodeS
    ext i j
    simp only [Matrix.of_apply]
    congr 1
    unfold word16 slice
    have hlt := idx_lt i.isLt j.isLt
    have e : K.nbar * K.n = K.n * K.nbar := Nat.mul_comm _ _
    have e2 : 2 * K.n * K.nbar = 2 * (K.n * K.nbar) := Nat.mul_assoc _ _ _
    rw [nth_take, if_pos (by omega), nth_take, if_pos (by omega), Nat.zero_add,
      Nat.add_assoc K.len K.lenA K.lenB]
  simp only [er, l1, l2, l3, l4, s1, s2, s3, s4, s5, s6]
  refine (readS_ret (K := K) h.D_le (by unfold slice; rw [List.length_take, List.length_drop, hsk]
                                        have e : K.nbar * K.n = K.n * K.nbar := Nat.mul_comm _ _
                                        have e2 : 2 * K.n * K.nbar = 2 * (K.n * K.nbar) := Nat.mul_assoc _ _ _
                                        omega)).bind ?_
  rintro ⟨St, pos⟩ hSt
  rw [s7] at hSt
  simp only at hSt ⊢
  refine (matrix_transpose_ret h.nbar_pos hSt).bind ?_
  intro S hS
  have ec : K.nbar * K.n = K.n * K.nbar := Nat.mul_comm _ _
  refine (unpack_ret (o := objOf K g) (D := K.D) rfl h.D_le (by
    rw [ec, hdB, List.length_take, hct]; omega)).bind ?_
  intro B' hB'
  refine (unpack_ret (o := objOf K g) (D := K.D) rfl h.D_le (by
    rw [hdC, List.length_drop, hct]; omega)).bind ?_
  intro C' hC'
  refine (matrix_mul_ret h.nbar_pos h.n_pos hB'.rep hS).bind ?_
  intro BS hBS
  refine (matrix_sub_ret h.nbar_pos hC'.rep hBS.rep).bind ?_
  intro M hM
  refine Ret.bind_eq (decode_ret (o := objOf K g) (D := K.D) (B := K.B) (r := K.nbar) (c := K.nbar) rfl rfl rfl rfl hM) ?_
  have hmu : (decodeEven K.B (unpackMat K.D K.nbar K.nbar (ct.drop K.lenB) -
      unpackMat K.D K.nbar K.n (ct.take K.lenB) * (parseSk K sk).St.transpose)).length = K.len := by
    rw [length_decodeEven, ← h.len]
  generalize hmu' : decodeEven K.B (unpackMat K.D K.nbar K.nbar (ct.drop K.lenB) -
      unpackMat K.D K.nbar K.n (ct.take K.lenB) * (parseSk K sk).St.transpose) = mu at hmu
  have e1 : slice (K.shake ((parseSk K sk).pkh ++ mu) (K.len + K.len)) 0 K.len
      = (deriveSeeds K (parseSk K sk).pkh mu).1 := by
    unfold deriveSeeds; rw [slice_zero, two_mul]
  have e2 : slice (K.shake ((parseSk K sk).pkh ++ mu) (K.len + K.len)) K.len (K.len + K.len)
      = (deriveSeeds K (parseSk K sk).pkh mu).2 := by
    unfold deriveSeeds slice
    rw [two_mul]
    exact List.take_of_length_le (by rw [List.length_drop, h.shake])
  have hk' : (deriveSeeds K (parseSk K sk).pkh mu).2.length = K.len := by
    rw [← e2]; unfold slice; rw [List.length_take, List.length_drop, h.shake]; omega
  simp only [e1, e2]
  generalize hsd : (deriveSeeds K (parseSk K sk).pkh mu).1 = seedSE
  generalize hkk : (deriveSeeds K (parseSk K sk).pkh mu).2 = k at hk'
  have hlpk : (parseSk K sk).pk.length = K.lenA + K.lenB := by
    unfold parseSk; simp only; rw [List.length_take, List.length_drop, hsk]; omega
  generalize hpk : (parseSk K sk).pk = pk at hlpk
  have hb2 : (pk.drop K.lenA).length = K.lenB := by rw [List.length_drop, hlpk]; omega
  have hA16 : (pk.take K.lenA).length = K.lenA := by rw [List.length_take, hlpk]; omega
  refine Ret.bind_eq (comp_words (by rw [h.shake]; nlinarith)) ?_
  refine (sample_slice (a := 0) (r := K.nbar) (c := K.n) (by ring) (by nlinarith)).bind ?_
  intro S' hS'
  refine (sample_slice (r := K.nbar) (c := K.n) (by ring) (by nlinarith)).bind ?_
  intro E' hE'
  refine (gen_objOf h hA16).bind ?_
  intro A hA
  refine (matrix_mul_ret h.nbar_pos h.n_pos hS'.rep hA.rep).bind ?_
  intro SA hSA
  refine (matrix_add_ret h.nbar_pos hSA.rep hE'.rep).bind ?_
  intro BB hBB
  refine (sample_slice (r := K.nbar) (c := K.nbar) (by ring) (by nlinarith)).bind ?_
  intro E'' hE''
  refine (unpack_ret (o := objOf K g) (D := K.D) rfl h.D_le (by rw [hb2, hdB])).bind ?_
  intro B hB
  refine (matrix_mul_ret h.nbar_pos h.n_pos hS'.rep hB.rep).bind ?_
  intro SB hSB
  refine (matrix_add_ret h.nbar_pos hSB.rep hE''.rep).bind ?_
  intro V hV
  refine (encode_ret (o := objOf K g) (D := K.D) (B := K.B) (r := K.nbar) (c := K.nbar) rfl rfl h.B_lt.le rfl rfl (by
    have := h.len
    obtain ⟨t, ht⟩ := h.nbar8
    rw [hmu, this, ht, show K.B * (8 * t * (8 * t)) = 8 * (K.B * (8 * t * t)) by ring]
    omega)).bind ?_
  intro Mu hMu
  refine (matrix_add_ret h.nbar_pos hV.rep hMu).bind ?_
  intro CC hCC
  refine Ret.bind_eq (ctverify_append hB' hBB hC' hCC) ?_
  refine Ret.bind_eq (ctselect_ret (by rw [hk', List.length_take, hsk]; omega) _) ?_
  simp only [Ret_require_bind, Ret_pure]
  refine ⟨h.shake _ _, ?_⟩
  have hs : (parseSk K sk).s = sk.take K.len := rfl
  have hM2 : decapsM K ct (parseSk K sk).St = unpackMat K.D K.nbar K.nbar (ct.drop K.lenB) -
      unpackMat K.D K.nbar K.n (ct.take K.lenB) * (parseSk K sk).St.transpose := rfl
  unfold decapsWith
  simp only [hM2, hmu', hsd, hkk, hpk, hs]
  unfold parseCt encrypt encapsNoise
  simp only [List.take_append_drop]
  have e3 : 2 * K.nbar * K.n = 2 * K.n * K.nbar := by ring
  simp only [ec, e3, decide_eq_true_eq]
  split <;> rfl

end Frodo.Py
