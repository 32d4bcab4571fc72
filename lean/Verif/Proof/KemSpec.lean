import Verif.Proof.KemDec
import Verif.Spec.Python

/-! # The specified KEM: round trip, acceptance, layout -/

namespace Frodo

open Spec

/-- What the proofs about the specification use (proof device). -/
structure KWF (K : KemParams) : Prop where
  D_pos : 1 ≤ K.D
  D_le : K.D ≤ 16
  B_pos : 1 ≤ K.B
  B_lt : K.B < K.D
  nbar8 : 8 ∣ K.nbar
  len : K.len = K.B * (K.nbar * K.nbar) / 8
  shake : ∀ m n, (K.shake m n).length = n

theorem KWF.dvdB {K : KemParams} (h : KWF K) : K.D * (K.n * K.nbar) = 8 * K.lenB := by
  obtain ⟨c, hc⟩ := h.nbar8
  unfold KemParams.lenB
  rw [hc, show K.D * K.n * (8 * c) = 8 * (K.D * K.n * c) by ring, Nat.mul_div_cancel_left _ (by omega)]
  ring

theorem KWF.dvdC {K : KemParams} (h : KWF K) : K.D * (K.nbar * K.nbar) = 8 * K.lenC := by
  obtain ⟨c, hc⟩ := h.nbar8
  unfold KemParams.lenC
  rw [hc, show K.D * (8 * c) * (8 * c) = 8 * (K.D * (8 * c) * c) by ring,
    Nat.mul_div_cancel_left _ (by omega)]
  ring

theorem unpackMat_packMat {D r c : Nat} (h1 : 1 ≤ D) (hD : D ≤ 16) (h8 : 8 ∣ D * r * c)
    (M : Matrix (Fin r) (Fin c) (ZMod (2 ^ D))) : unpackMat D r c (packMat M) = M := by
  obtain ⟨k, hk⟩ := h8
  have h := unpack_pack (m := D * r * c / 8) (ofMat M) h1 hD (by
    rw [length_ofMat, ← Nat.mul_assoc, hk, Nat.mul_div_cancel_left _ (by omega)])
  rw [length_ofMat] at h
  have hM := toMat_ofMat hD M []
  rw [List.append_nil] at hM
  have hmap : (ofMat M).map (fun x => BitVec.ofNat 16 (x.toNat % 2 ^ D)) = ofMat M := by
    apply ext_nth
    · simp
    · intro i hi
      rw [List.length_map, length_ofMat] at hi
      rw [nth_map, if_pos (by rw [length_ofMat]; exact hi)]
      obtain ⟨hi', hj, e⟩ := idx_split hi
      rw [e, nth_ofMat _ hi' hj, ofNat_val_toNat hD]
      have : NeZero (2 ^ D) := ⟨by positivity⟩
      rw [Nat.mod_eq_of_lt (ZMod.val_lt _)]
  unfold unpackMat packMat
  rw [h, hmap, hM]

theorem packMat_unpackMat {D r c : Nat} {b : List U8} (h1 : 1 ≤ D) (hD : D ≤ 16)
    (h8 : D * (r * c) = 8 * b.length) : packMat (unpackMat D r c b) = b := by
  unfold packMat
  rw [← unpack_eq_ofMat hD, Nat.mul_assoc, h8, Nat.mul_div_cancel_left _ (by omega)]
  exact pack_unpack b h1 hD h8

/-- Comparing matrices is comparing the bytes of the ciphertext. -/
theorem parseCt_eq_iff {K : KemParams} (h : KWF K) {ct : List U8} (hct : ct.length = K.lenB + K.lenC)
    (M : Matrix (Fin K.nbar) (Fin K.n) (ZMod (2 ^ K.D)) ×
      Matrix (Fin K.nbar) (Fin K.nbar) (ZMod (2 ^ K.D))) :
    parseCt K ct = M ↔ ct = packMat M.1 ++ packMat M.2 := by
  have hb := h.dvdB
  have hc := h.dvdC
  have ec : K.nbar * K.n = K.n * K.nbar := Nat.mul_comm _ _
  constructor
  · intro he
    rw [← he]
    show ct = packMat (unpackMat _ _ _ _) ++ packMat (unpackMat _ _ _ _)
    rw [packMat_unpackMat h.D_pos h.D_le, packMat_unpackMat h.D_pos h.D_le, List.take_append_drop]
    · rw [List.length_drop]; omega
    · rw [List.length_take, ec]; omega
  · intro he
    have l1 : (packMat M.1).length = K.lenB := by
      rw [length_packMat, KemParams.lenB, show K.D * K.nbar * K.n = K.D * K.n * K.nbar by ring]
    show (unpackMat _ _ _ _, unpackMat _ _ _ _) = M
    rw [he, List.take_left' l1, List.drop_left' l1,
      unpackMat_packMat h.D_pos h.D_le ⟨K.lenB, by rw [← hb]; ring⟩,
      unpackMat_packMat h.D_pos h.D_le ⟨K.lenC, by rw [← hc]; ring⟩]

theorem parseCt_pack {K : KemParams} (h : KWF K)
    (M : Matrix (Fin K.nbar) (Fin K.n) (ZMod (2 ^ K.D)) ×
      Matrix (Fin K.nbar) (Fin K.nbar) (ZMod (2 ^ K.D))) :
    parseCt K (packMat M.1 ++ packMat M.2) = M := by
  rw [parseCt_eq_iff h]
  rw [List.length_append, length_packMat, length_packMat, KemParams.lenB, KemParams.lenC,
    show K.D * K.nbar * K.n = K.D * K.n * K.nbar by ring]

theorem word16_encodeS {m n : Nat} (M : Matrix (Fin m) (Fin n) ℤ) (x : List U8) (i : Fin m)
    (j : Fin n) : word16 (encodeS M ++ x) (i * n + j) = (M i j % 2 ^ 16).toNat := by
  have hlt := idx_lt i.isLt j.isLt
  have key : ∀ t, t < 2 → nth (encodeS M) (2 * (i.val * n + j.val) + t) =
      nth (le16 (M i j % 2 ^ 16).toNat) t := by
    intro t ht
    have : Inhabited (Fin m) := ⟨i⟩
    have : Inhabited (Fin n) := ⟨j⟩
    unfold encodeS
    rw [show 2 * (i.val * n + j.val) + t = i.val * (n * 2) + (j.val * 2 + t) by ring,
      nth_flatMap_const _ _ (n * 2) _ i.val _ (by simp) (by have := j.isLt; omega),
      nth_flatMap_const _ _ 2 _ j.val _ (by simp) ht]
    · simp [nth]
    · intros; rfl
    · intro a _
      rw [length_flatMap_const _ _ 2 (by intros; rfl), List.length_finRange]
  have hl := length_encodeS M
  unfold word16
  rw [nth_append, if_pos (by omega), nth_append, if_pos (by omega), key 1 (by omega)]
  have h0 := key 0 (by omega)
  rw [Nat.add_zero] at h0
  rw [h0]
  have h1 : (M i j % 2 ^ 16).toNat < 65536 := by omega
  generalize (M i j % 2 ^ 16).toNat = v at h1
  show (BitVec.ofNat 8 v).toNat + 256 * (BitVec.ofNat 8 (v / 256)).toNat = v
  rw [BitVec.toNat_ofNat, BitVec.toNat_ofNat]
  omega

theorem decodeS_encodeS {D m n : Nat} (hD : D ≤ 16) (M : Matrix (Fin m) (Fin n) ℤ) (x : List U8) :
    decodeS D m n (encodeS M ++ x) = modQ D M := by
  ext i j
  show ((word16 (encodeS M ++ x) (i * n + j) : Nat) : ZMod (2 ^ D)) = ((M i j : ℤ) : ZMod (2 ^ D))
  rw [word16_encodeS]
  have h : (((M i j % 2 ^ 16).toNat : ℤ) : ZMod (2 ^ D)) = ((M i j : ℤ) : ZMod (2 ^ D)) := by
    rw [Int.toNat_of_nonneg (Int.emod_nonneg _ (by norm_num)), ZMod.intCast_eq_intCast_iff]
    have e : ((2 ^ D : Nat) : ℤ) ∣ 2 ^ 16 := by
      push_cast; exact pow_dvd_pow _ hD
    exact (Int.mod_modEq _ _).of_dvd e
  rw [← h, Int.cast_natCast]

theorem keygen_snd (K : KemParams) (s seedSE z : List U8) : (keygen K s seedSE z).2 =
    s ++ ((keygen K s seedSE z).1 ++ (encodeS (keygenNoise K seedSE).1 ++
      K.shake (keygen K s seedSE z).1 K.len)) := by
  show s ++ _ ++ _ ++ _ = _
  rw [List.append_assoc, List.append_assoc]; rfl

theorem length_keygen_pk {K : KemParams} (h : KWF K) (s seedSE z : List U8) :
    (keygen K s seedSE z).1.length = K.lenA + K.lenB := by
  show (_ ++ packMat _).length = _
  rw [List.length_append, length_packMat, h.shake]; rfl

theorem length_keygen_sk {K : KemParams} (h : KWF K) {s : List U8} (hs : s.length = K.len)
    (seedSE z : List U8) : (keygen K s seedSE z).2.length =
      K.len + (K.lenA + K.lenB) + 2 * K.n * K.nbar + K.len := by
  rw [keygen_snd, List.length_append, List.length_append, List.length_append, length_encodeS,
    length_keygen_pk h, h.shake, hs, Nat.mul_comm K.nbar, ← Nat.mul_assoc]
  omega

theorem length_encaps_ct (K : KemParams) (pk mu : List U8) :
    (encaps K pk mu).1.length = K.lenB + K.lenC := by
  show (packMat _ ++ packMat _).length = _
  rw [List.length_append, length_packMat, length_packMat, Nat.mul_right_comm]; rfl

theorem length_encaps_ss {K : KemParams} (h : KWF K) (pk mu : List U8) :
    (encaps K pk mu).2.length = K.len := h.shake _ _

theorem length_decaps {K : KemParams} (h : KWF K) (ct sk : List U8) :
    (decaps K ct sk).length = K.len := by
  rw [decaps_eq]; split <;> exact h.shake _ _

theorem parse_keygen {K : KemParams} (h : KWF K) {s seedSE z : List U8} (hs : s.length = K.len) :
    parseSk K (keygen K s seedSE z).2 =
      ⟨s, (keygen K s seedSE z).1, modQ K.D (keygenNoise K seedSE).1,
        K.shake (keygen K s seedSE z).1 K.len⟩ := by
  have e := keygen_snd K s seedSE z
  have lpk := length_keygen_pk h s seedSE z
  have lE := length_encodeS (keygenNoise K seedSE).1
  have lsh := h.shake (keygen K s seedSE z).1 K.len
  rw [e]
  generalize (keygen K s seedSE z).1 = pk at *
  generalize K.shake pk K.len = pkh at *
  unfold parseSk
  congr 1
  · exact List.take_left' hs
  · rw [List.drop_left' hs, List.take_left' lpk]
  · rw [← List.drop_drop, List.drop_left' hs, List.drop_left' lpk, decodeS_encodeS h.D_le]
  · rw [Nat.add_assoc, ← List.drop_drop, List.drop_left' hs, ← List.drop_drop, List.drop_left' lpk,
      List.drop_left' (by rw [lE]; ring), List.take_of_length_le (by omega)]

theorem modQ_mul {D m n k : Nat} (M : Matrix (Fin m) (Fin n) ℤ) (N : Matrix (Fin n) (Fin k) ℤ) :
    modQ D (M * N) = modQ D M * modQ D N :=
  Matrix.map_mul (f := Int.castRingHom (ZMod (2 ^ D)))

theorem modQ_add {D m n : Nat} (M N : Matrix (Fin m) (Fin n) ℤ) :
    modQ D (M + N) = modQ D M + modQ D N := by
  ext i j; simp [modQ]

theorem modQ_sub {D m n : Nat} (M N : Matrix (Fin m) (Fin n) ℤ) :
    modQ D (M - N) = modQ D M - modQ D N := by
  ext i j; simp [modQ]

theorem modQ_transpose {D m n : Nat} (M : Matrix (Fin m) (Fin n) ℤ) :
    modQ D M.transpose = (modQ D M).transpose := rfl

/-- The matrix that is decoded when key generation uses `K.A` and encryption uses `A'`. -/
theorem decapsM_encrypt_two {K : KemParams} (h : KWF K)
    (A' : List U8 → Matrix (Fin K.n) (Fin K.n) (ZMod (2 ^ K.D))) (s seedSE z mu seedSE' : List U8) :
    decapsM K (packMat (encrypt { K with A := A' } (keygen K s seedSE z).1 mu seedSE').1 ++
      packMat (encrypt { K with A := A' } (keygen K s seedSE z).1 mu seedSE').2)
        (modQ K.D (keygenNoise K seedSE).1) =
    encode K.D K.B K.nbar K.nbar mu +
      (modQ K.D (encapsNoise K seedSE').1 * (K.A (K.shake z K.lenA) - A' (K.shake z K.lenA)) *
        (modQ K.D (keygenNoise K seedSE).1).transpose + modQ K.D (totalNoise K seedSE seedSE')) := by
  have hb := h.dvdB
  generalize hAA : K.A (K.shake z K.lenA) = A
  have hpk : (keygen K s seedSE z).1 = K.shake z K.lenA ++ packMat (A *
      (modQ K.D (keygenNoise K seedSE).1).transpose + modQ K.D (keygenNoise K seedSE).2) := by
    rw [← hAA]; rfl
  have he : encrypt { K with A := A' } (keygen K s seedSE z).1 mu seedSE' =
      (modQ K.D (encapsNoise K seedSE').1 * A' (K.shake z K.lenA) +
        modQ K.D (encapsNoise K seedSE').2.1,
       modQ K.D (encapsNoise K seedSE').1 * (A *
      (modQ K.D (keygenNoise K seedSE).1).transpose + modQ K.D (keygenNoise K seedSE).2) +
        modQ K.D (encapsNoise K seedSE').2.2 + encode K.D K.B K.nbar K.nbar mu) := by
    have h1 : (keygen K s seedSE z).1.take K.lenA = K.shake z K.lenA := by
      rw [hpk]; exact List.take_left' (h.shake _ _)
    have h2 : unpackMat K.D K.n K.nbar ((keygen K s seedSE z).1.drop K.lenA) = A *
      (modQ K.D (keygenNoise K seedSE).1).transpose + modQ K.D (keygenNoise K seedSE).2 := by
      rw [hpk, List.drop_left' (h.shake _ _),
        unpackMat_packMat h.D_pos h.D_le ⟨K.lenB, by rw [← hb]; ring⟩]
    rw [← h2, ← h1]; rfl
  have hd : ∀ (M : Matrix (Fin K.nbar) (Fin K.n) (ZMod (2 ^ K.D)) ×
      Matrix (Fin K.nbar) (Fin K.nbar) (ZMod (2 ^ K.D))) St,
      decapsM K (packMat M.1 ++ packMat M.2) St = M.2 - M.1 * St.transpose := by
    intro M St
    show (parseCt K _).2 - (parseCt K _).1 * _ = _
    rw [parseCt_pack h]
  rw [he, hd]
  congr 1
  unfold totalNoise
  rw [modQ_sub, modQ_add, modQ_mul, modQ_mul, modQ_transpose]
  generalize (modQ K.D (keygenNoise K seedSE).1).transpose = S
  generalize modQ K.D (keygenNoise K seedSE).2 = E
  generalize modQ K.D (encapsNoise K seedSE').1 = S'
  generalize modQ K.D (encapsNoise K seedSE').2.1 = E'
  generalize modQ K.D (encapsNoise K seedSE').2.2 = E''
  simp only [Matrix.mul_add, Matrix.add_mul, Matrix.mul_assoc, Matrix.mul_sub, Matrix.sub_mul]
  abel

/-- What is decoded when key generation uses `K.A` and encryption uses `A'`. -/
theorem decrypt_encrypt_two {K : KemParams} (h : KWF K)
    (A' : List U8 → Matrix (Fin K.n) (Fin K.n) (ZMod (2 ^ K.D))) (s seedSE z mu seedSE' : List U8) :
    decrypt K (packMat (encrypt { K with A := A' } (keygen K s seedSE z).1 mu seedSE').1 ++
      packMat (encrypt { K with A := A' } (keygen K s seedSE z).1 mu seedSE').2)
        (modQ K.D (keygenNoise K seedSE).1) =
    decode K.B (encode K.D K.B K.nbar K.nbar mu +
      (modQ K.D (encapsNoise K seedSE').1 * (K.A (K.shake z K.lenA) - A' (K.shake z K.lenA)) *
        (modQ K.D (keygenNoise K seedSE).1).transpose + modQ K.D (totalNoise K seedSE seedSE'))) :=
  congrArg (decode K.B) (decapsM_encrypt_two h A' s seedSE z mu seedSE')

/-- The matrix that is decoded in decapsulation of an honest ciphertext. -/
theorem decapsM_encrypt {K : KemParams} (h : KWF K) (s seedSE z mu seedSE' : List U8) :
    decapsM K (packMat (encrypt K (keygen K s seedSE z).1 mu seedSE').1 ++
      packMat (encrypt K (keygen K s seedSE z).1 mu seedSE').2) (modQ K.D (keygenNoise K seedSE).1) =
    encode K.D K.B K.nbar K.nbar mu + modQ K.D (totalNoise K seedSE seedSE') := by
  have := decapsM_encrypt_two h K.A s seedSE z mu seedSE'
  rwa [sub_self, Matrix.mul_zero, Matrix.zero_mul, zero_add] at this

/-- What is decoded in decapsulation of an honest ciphertext. -/
theorem decrypt_encrypt {K : KemParams} (h : KWF K) (s seedSE z mu seedSE' : List U8) :
    decrypt K (packMat (encrypt K (keygen K s seedSE z).1 mu seedSE').1 ++
      packMat (encrypt K (keygen K s seedSE z).1 mu seedSE').2) (modQ K.D (keygenNoise K seedSE).1) =
    decode K.B (encode K.D K.B K.nbar K.nbar mu + modQ K.D (totalNoise K seedSE seedSE')) := by
  have := decrypt_encrypt_two h K.A s seedSE z mu seedSE'
  rwa [sub_self, Matrix.mul_zero, Matrix.zero_mul, zero_add] at this

/-- Round trip of the specification. -/
theorem decaps_encaps {K : KemParams} (h : KWF K) {s seedSE z mu : List U8} (hs : s.length = K.len)
    (hmu : mu.length = K.len)
    (hn : ∀ i j, tolerable K.D K.B ((totalNoise K seedSE (deriveSeeds K
      (K.shake (keygen K s seedSE z).1 K.len) mu).1 i j : ℤ) : ZMod (2 ^ K.D))) :
    decaps K (encaps K (keygen K s seedSE z).1 mu).1 (keygen K s seedSE z).2 =
      (encaps K (keygen K s seedSE z).1 mu).2 := by
  have hpk := parse_keygen h (seedSE := seedSE) (z := z) hs
  generalize hpkd : (keygen K s seedSE z).1 = pk at *
  generalize hsdd : (deriveSeeds K (K.shake pk K.len) mu).1 = sd at *
  have hen : encaps K pk mu = (packMat (encrypt K pk mu sd).1 ++ packMat (encrypt K pk mu sd).2,
      K.shake (packMat (encrypt K pk mu sd).1 ++ packMat (encrypt K pk mu sd).2 ++
        (deriveSeeds K (K.shake pk K.len) mu).2) K.len) := by rw [← hsdd]; rfl
  have hdm : decrypt K (packMat (encrypt K pk mu sd).1 ++ packMat (encrypt K pk mu sd).2)
      (modQ K.D (keygenNoise K seedSE).1) = mu := by
    rw [← hpkd, decrypt_encrypt h,
      decode_encode_iff h.B_pos h.B_lt (h.nbar8.mul_right _) _ _ (by rw [hmu, h.len])]
    exact hn
  rw [decaps_eq, hpk, hen]
  simp only
  rw [hdm, hsdd, if_pos (parseCt_pack h _)]

end Frodo
