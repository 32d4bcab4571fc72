import Verif.Proof.KemEnc

/-! # Decapsulation -/

namespace Frodo

open Spec

theorem nth_ofBytes' (a : Arch) : ∀ (k : Nat) (b : List U8), 2 * k + 1 < b.length →
    k < (ofBytes a b).length ∧ nth (ofBytes a b) k = join16 a (nth b (2 * k)) (nth b (2 * k + 1))
  | 0, b0 :: b1 :: l, _ => ⟨by rw [ofBytes]; simp, rfl⟩
  | k + 1, b0 :: b1 :: l, h => by
    simp only [List.length_cons] at h
    obtain ⟨h1, h2⟩ := nth_ofBytes' a k l (by omega)
    rw [ofBytes]
    exact ⟨by simp only [List.length_cons]; omega, by rw [nth_cons_succ, h2]; rfl⟩
  | 0, [], h => by simp at h
  | 0, [_], h => by simp at h
  | _ + 1, [], h => by simp at h
  | _ + 1, [_], h => by simp at h

theorem unpack_lt {d m i : Nat} (h16 : d ≤ 16) (v : List U8) (hi : i < m) :
    (nth (unpack d m v) i).toNat < 2 ^ d := by
  apply Nat.lt_pow_two_of_testBit
  intro k hk
  rw [unpack_testBit h16 v hi]
  simp; omega

/-- An array with values below `q` stores a matrix modulo `q`. -/
theorem eq_ofMat_toMat {D r c : Nat} {l : List U16} (hD : D ≤ 16) (hl : l.length = r * c)
    (h : ∀ k, k < r * c → (nth l k).toNat < 2 ^ D) : l = ofMat (toMat D r c l) := by
  apply ext_nth
  · rw [hl, length_ofMat]
  · intro k hk
    rw [hl] at hk
    obtain ⟨hi, hj, e⟩ := idx_split hk
    have h1 := h k hk
    rw [e] at h1 ⊢
    rw [nth_ofMat _ hi hj, toMat_apply]
    apply BitVec.eq_of_toNat_eq
    rw [ofNat_val_toNat hD]
    show _ = (zq D _).val
    unfold zq
    rw [ZMod.val_natCast, Nat.mod_eq_of_lt h1]

theorem unpack_eq_ofMat {D r c : Nat} (hD : D ≤ 16) (b : List U8) :
    unpack D (r * c) b = ofMat (unpackMat D r c b) :=
  eq_ofMat_toMat hD (by simp) fun _ hk => unpack_lt hD b hk

theorem ofMat_injective {D r c : Nat} (hD : D ≤ 16) {M N : Matrix (Fin r) (Fin c) (ZMod (2 ^ D))}
    (h : ofMat M = ofMat N) : M = N := by
  have h1 := toMat_ofMat hD M []
  have h2 := toMat_ofMat hD N []
  rw [h] at h1
  exact h1.symm.trans h2

theorem reduceLoop_ret {P : Params} {X : List U16} (hP : P.WF) (h : X.length = P.n * P.nbar) :
    Ret (reduceLoop P X) (· = ofMat (toMat P.logq P.nbar P.n X)) := by
  have hD := hP.logq_le
  have ec : P.nbar * P.n = P.n * P.nbar := Nat.mul_comm _ _
  refine Ret.for1 (fun k (l : List U16) => l.length = X.length ∧
    (∀ i, i < k → nth l i = nth (ofMat (toMat P.logq P.nbar P.n X)) i) ∧
    ∀ i, k ≤ i → nth l i = nth X i) ⟨rfl, by intro t ht; omega, fun _ _ => rfl⟩ ?_ ?_
  · rintro k l hk ⟨hl, h1, h2⟩
    simp only [wp]
    refine ⟨by omega, (qMask_ret hD).bind_eq ?_⟩
    simp only [wp]
    refine ⟨by omega, by simpa using hl, ?_, ?_⟩
    · intro t ht
      by_cases he : t = k
      · subst he
        rw [← ec] at hk
        obtain ⟨hi, hj, e⟩ := idx_split hk
        rw [nth_set_eq (by omega), iand_mask _ hD, h2 t (Nat.le_refl _)]
        conv_rhs => rw [e]
        rw [nth_ofMat _ hi hj]
        apply u16_mask
        rw [toMat_apply]
        simp only [← e]
        unfold zq
        simp
      · rw [nth_set_ne (Ne.symm he)]; exact h1 t (by omega)
    · intro t ht
      rw [nth_set_ne (by omega)]; exact h2 t (by omega)
  · rintro l ⟨hl, h1, h2⟩
    apply ext_nth
    · rw [hl, h, length_ofMat, ec]
    · intro i hi
      exact h1 i (by omega)

theorem loadS_ret {B : Build} {E : Env} {P : Params} {skAddr : Nat} {sk : List U8} (hP : P.WF)
    (hal : (skAddr + (P.bytes + P.pkBytes)) % 2 = 0)
    (hsk : P.bytes + P.pkBytes + 2 * (P.n * P.nbar) ≤ sk.length) :
    Ret (loadS B E P skAddr sk) (fun S => S.length = P.n * P.nbar ∧
      toMat P.logq P.nbar P.n S = decodeS P.logq P.nbar P.n (sk.drop (P.bytes + P.pkBytes))) := by
  have ec : P.nbar * P.n = P.n * P.nbar := Nat.mul_comm _ _
  unfold loadS
  simp only [wp]
  refine ⟨hal, by omega, ?_⟩
  generalize hb : sk.drop (P.bytes + P.pkBytes) = b
  have lb : 2 * (P.n * P.nbar) ≤ b.length := by rw [← hb, List.length_drop]; omega
  refine Ret.for1 (fun k (l : List U16) => l.length = P.n * P.nbar ∧
    ∀ i, i < k → nth l i = BitVec.ofNat 16 (word16 b i)) ⟨by simp, by intro t ht; omega⟩ ?_ ?_
  · rintro k l hk ⟨hl, h1⟩
    obtain ⟨h2, h3⟩ := nth_ofBytes' B.arch k b (by omega)
    simp only [wp]
    refine ⟨h2, by omega, by simpa using hl, ?_⟩
    intro t ht
    by_cases he : t = k
    · subst he
      rw [nth_set_eq (by omega), h3, le_join]
      apply BitVec.eq_of_toNat_eq
      rw [toNat_join, BitVec.toNat_ofNat, Nat.mod_eq_of_lt (word16_lt b t)]
      rfl
    · rw [nth_set_ne (Ne.symm he)]; exact h1 t (by omega)
  · rintro l ⟨hl, h1⟩
    refine ⟨hl, ?_⟩
    ext i j
    have := idx_lt i.isLt j.isLt
    rw [toMat_apply, h1 _ (by omega)]
    unfold zq
    rw [BitVec.toNat_ofNat, Nat.mod_eq_of_lt (word16_lt b _)]
    rfl

theorem decryptMu_ret {P : Params} {muAddr : Nat} {S : List U16} {G2in ct : List U8} (hP : P.WF)
    (ha : muAddr % 2 = 0)
    (hS : S.length = P.n * P.nbar) (hG : G2in.length = P.bytes + P.bytesMu)
    (hct : P.ctBytes ≤ ct.length) :
    Ret (decryptMu P muAddr S G2in ct) (fun x =>
      x.1 = ofMat (unpackMat P.logq P.nbar P.n ((ct.take P.ctBytes).take (P.logq * P.n * P.nbar / 8))) ∧
      x.2.1 = ofMat (unpackMat P.logq P.nbar P.nbar
        ((ct.take P.ctBytes).drop (P.logq * P.n * P.nbar / 8))) ∧
      x.2.2.1.length = P.nbar * P.nbar ∧
      x.2.2.2 = G2in.take P.bytes ++ decode P.B
        (unpackMat P.logq P.nbar P.nbar ((ct.take P.ctBytes).drop (P.logq * P.n * P.nbar / 8)) -
          unpackMat P.logq P.nbar P.n ((ct.take P.ctBytes).take (P.logq * P.n * P.nbar / 8)) *
            (toMat P.logq P.nbar P.n S).transpose)) := by
  have hD := hP.logq_le
  have hctl := hP.ct
  have ec : P.nbar * P.n = P.n * P.nbar := Nat.mul_comm _ _
  have hq : 1 ≤ P.logq := by have := hP.B_lt; omega
  have hbm : P.bytesMu = P.B * (P.nbar * P.nbar) / 8 := by
    unfold Params.bytesMu; rw [Nat.mul_assoc]
  have hm : ∀ {r c : Nat} (M : Matrix (Fin r) (Fin c) (ZMod (2 ^ P.logq))),
      toMat P.logq r c (ofMat M) = M := by
    intro r c M
    have := toMat_ofMat hD M []
    rwa [List.append_nil] at this
  unfold decryptMu
  refine Ret.bind_eq (frodo_unpack_ret hq hD (by omega) (by simp)) ?_
  rw [List.drop_eq_nil_of_le (as := List.replicate (P.n * P.nbar) _) (by simp), List.append_nil, ← ec,
    unpack_eq_ofMat hD]
  rw [show ct.take (P.logq * P.n * P.nbar / 8) =
    (ct.take P.ctBytes).take (P.logq * P.n * P.nbar / 8) by
      rw [List.take_take, Nat.min_eq_left (by omega)]]
  generalize unpackMat P.logq P.nbar P.n ((ct.take P.ctBytes).take (P.logq * P.n * P.nbar / 8)) = M1
  simp only [wp]
  refine ⟨by omega, ?_⟩
  refine Ret.bind_eq (frodo_unpack_ret hq hD (by rw [List.length_drop]; omega) (by simp)) ?_
  rw [List.drop_eq_nil_of_le (as := List.replicate (P.nbar * P.nbar) _) (by simp), List.append_nil,
    unpack_eq_ofMat hD]
  rw [show (ct.drop (P.logq * P.n * P.nbar / 8)).take (P.logq * P.nbar * P.nbar / 8) =
    (ct.take P.ctBytes).drop (P.logq * P.n * P.nbar / 8) by
      rw [List.drop_take]; congr 1; omega]
  generalize unpackMat P.logq P.nbar P.nbar ((ct.take P.ctBytes).drop (P.logq * P.n * P.nbar / 8)) = M2
  refine Ret.bind_eq (frodo_mul_bs_ret hD (by simp) (by rw [length_ofMat]) (by omega)) ?_
  rw [List.drop_eq_nil_of_le (as := List.replicate (P.nbar * P.nbar) _) (by simp), List.append_nil, hm]
  refine Ret.bind_eq (frodo_sub_ret hD (by rw [length_ofMat]) (by simp [Operand.get, length_ofMat])
    (by simp [Operand.get, length_ofMat])) ?_
  simp only [Operand.get]
  rw [List.drop_eq_nil_of_le (as := ofMat _) (by rw [length_ofMat]), List.append_nil, hm, hm]
  simp only [wp]
  refine ⟨ha, by omega, ?_⟩
  refine Ret.bind_eq (frodo_key_decode_ret hD hP.B_lt hP.B_le (hP.nbar8.mul_right _)
    (by rw [List.length_drop]; omega) (by rw [length_ofMat])) ?_
  rw [List.drop_eq_nil_of_le (as := G2in.drop _) (by rw [List.length_drop]; omega), List.append_nil, hm]
  simp only [wp]
  exact ⟨trivial, trivial, by rw [length_ofMat], trivial⟩

theorem decaps_eq (K : KemParams) (ct sk : List U8) : decaps K ct sk =
    if parseCt K ct = encrypt K (parseSk K sk).pk (decrypt K ct (parseSk K sk).St)
      (deriveSeeds K (parseSk K sk).pkh (decrypt K ct (parseSk K sk).St)).1
    then K.shake (ct ++ (deriveSeeds K (parseSk K sk).pkh (decrypt K ct (parseSk K sk).St)).2) K.len
    else K.shake (ct ++ (parseSk K sk).s) K.len := rfl

/-- Decapsulation in terms of its intermediate values. -/
theorem decaps_of {P : Params} {A : List U8 → Matrix (Fin P.n) (Fin P.n) (ZMod (2 ^ P.logq))}
    {ct sk mu sd k : List U8} {M1 E1 : Matrix (Fin P.nbar) (Fin P.n) (ZMod (2 ^ P.logq))}
    {M2 E2 : Matrix (Fin P.nbar) (Fin P.nbar) (ZMod (2 ^ P.logq))} {T : List U8}
    (h1 : unpackMat P.logq P.nbar P.n (ct.take (P.logq * P.n * P.nbar / 8)) = M1)
    (h2 : unpackMat P.logq P.nbar P.nbar (ct.drop (P.logq * P.n * P.nbar / 8)) = M2)
    (hmu : decode P.B (M2 - M1 * (decodeS P.logq P.nbar P.n (sk.drop
      (P.bytes + (P.seedA + P.logq * P.n * P.nbar / 8)))).transpose) = mu)
    (hd : deriveSeeds (P.kem A) ((sk.drop (P.bytes + (P.seedA + P.logq * P.n * P.nbar / 8) +
      2 * P.n * P.nbar)).take P.bytes) mu = (sd, k))
    (he : encrypt (P.kem A) ((sk.drop P.bytes).take (P.seedA + P.logq * P.n * P.nbar / 8)) mu sd =
      (E1, E2))
    (hT : M1 = E1 ∧ M2 = E2 ∧ T = k ∨ ¬(M1 = E1 ∧ M2 = E2) ∧ T = sk.take P.bytes) :
    decaps (P.kem A) ct sk = P.shake.fn (ct ++ T) P.bytes := by
  have hp : parseCt (P.kem A) ct = (M1, M2) := by rw [← h1, ← h2]; rfl
  have hm : decrypt (P.kem A) ct (parseSk (P.kem A) sk).St = mu := by rw [← hmu, ← h1, ← h2]; rfl
  have hd' : deriveSeeds (P.kem A) (parseSk (P.kem A) sk).pkh mu = (sd, k) := hd
  have he' : encrypt (P.kem A) (parseSk (P.kem A) sk).pk mu sd = (E1, E2) := he
  have hc : parseCt (P.kem A) ct = encrypt (P.kem A) (parseSk (P.kem A) sk).pk mu sd ↔
      M1 = E1 ∧ M2 = E2 := by
    rw [hp, he']; exact Prod.mk_inj
  rw [decaps_eq, hm, hd']
  rcases hT with ⟨ha, hb, rfl⟩ | ⟨hn, rfl⟩
  · exact if_pos (hc.2 ⟨ha, hb⟩)
  · exact if_neg fun h => hn (hc.1 h)

theorem decodeS_take {D m n k : Nat} {b : List U8} (h : 2 * (m * n) ≤ k) :
    decodeS D m n (b.take k) = decodeS D m n b := by
  ext i j
  have := idx_lt i.isLt j.isLt
  show ((word16 _ _ : Nat) : ZMod (2 ^ D)) = (word16 _ _ : Nat)
  unfold word16
  rw [nth_take, nth_take, if_pos (by omega), if_pos (by omega)]

theorem reencrypt_of {P : Params} {A : List U8 → Matrix (Fin P.n) (Fin P.n) (ZMod (2 ^ P.logq))}
    {ct sk mu sd k : List U8} {M1 E1 : Matrix (Fin P.nbar) (Fin P.n) (ZMod (2 ^ P.logq))}
    {M2 E2 : Matrix (Fin P.nbar) (Fin P.nbar) (ZMod (2 ^ P.logq))}
    (h1 : unpackMat P.logq P.nbar P.n (ct.take (P.logq * P.n * P.nbar / 8)) = M1)
    (h2 : unpackMat P.logq P.nbar P.nbar (ct.drop (P.logq * P.n * P.nbar / 8)) = M2)
    (hmu : decode P.B (M2 - M1 * (decodeS P.logq P.nbar P.n (sk.drop
      (P.bytes + (P.seedA + P.logq * P.n * P.nbar / 8)))).transpose) = mu)
    (hd : deriveSeeds (P.kem A) ((sk.drop (P.bytes + (P.seedA + P.logq * P.n * P.nbar / 8) +
      2 * P.n * P.nbar)).take P.bytes) mu = (sd, k))
    (he : encrypt (P.kem A) ((sk.drop P.bytes).take (P.seedA + P.logq * P.n * P.nbar / 8)) mu sd =
      (E1, E2)) :
    reencrypt (P.kem A) ct sk = (packMat E1 ++ packMat E2, k) := by
  have hm : decrypt (P.kem A) ct (parseSk (P.kem A) sk).St = mu := by rw [← hmu, ← h1, ← h2]; rfl
  have hd' : deriveSeeds (P.kem A) (parseSk (P.kem A) sk).pkh mu = (sd, k) := hd
  have he' : encrypt (P.kem A) (parseSk (P.kem A) sk).pk mu sd = (E1, E2) := he
  unfold reencrypt
  simp only
  rw [hm, hd', he']
  rfl

/-- The result of `crypto_kem_dec` in every build. -/
theorem crypto_kem_dec_ret {B : Build} {E : Env} {P : Params} {skAddr : Nat} {ss ct sk : List U8}
    (hP : P.WF) (ha : B.alignedSa E (E.addr .Sp + 2 * (P.n * P.nbar)))
    (hg2 : (E.addr .G2in + P.bytes) % 2 = 0)
    (hal : (skAddr + (P.bytes + P.pkBytes)) % 2 = 0)
    (hss : P.bytes ≤ ss.length) (hct : P.ctBytes ≤ ct.length) (hsk : P.skBytes ≤ sk.length) :
    Ret (crypto_kem_dec B E P skAddr ss ct sk) (fun o =>
      o.ss = decaps (P.kem (B.matA P.logq P.n)) (ct.take P.ctBytes) (sk.take P.skBytes) ++
        ss.drop P.bytes ∧
      o.W = List.replicate (P.nbar * P.nbar) 0 ∧
      o.Sp = List.replicate (2 * (P.n * P.nbar) + P.nbar * P.nbar) 0 ∧
      o.S = List.replicate (P.n * P.nbar) 0 ∧
      o.G2in = (sk.drop (P.bytes + P.pkBytes + 2 * P.n * P.nbar)).take P.bytes ++
        List.replicate P.bytesMu 0 ∧
      o.G2out = List.replicate (2 * P.bytes) 0 ∧
      o.Fin = ct.take P.ctBytes ++ List.replicate P.bytes 0 ∧
      o.shake_input_seedSEprime = List.replicate (1 + P.bytes) 0 ∧
      o.ret = 0 ∧
      pack P.logq (P.logq * P.nbar * P.n / 8) o.BBp ++
          pack P.logq (P.logq * P.nbar * P.nbar / 8) o.CC =
        (reencrypt (P.kem (B.matA P.logq P.n)) (ct.take P.ctBytes) (sk.take P.skBytes)).1) := by
  have hA := hP.seedA
  have hpkl := hP.pk
  have hctl := hP.ct
  have hskl := hP.sk
  have hmu := hP.bytes
  have hD := hP.logq_le
  have e2 : 2 * P.n * P.nbar = 2 * (P.n * P.nbar) := Nat.mul_assoc _ _ _
  have e3 : (2 * P.n + P.nbar) * P.nbar = 2 * (P.n * P.nbar) + P.nbar * P.nbar := by ring
  have ec : P.nbar * P.n = P.n * P.nbar := Nat.mul_comm _ _
  have hq : 1 ≤ P.logq := by have := hP.B_lt; omega
  have hbm : P.bytesMu = P.B * (P.nbar * P.nbar) / 8 := by
    unfold Params.bytesMu; rw [Nat.mul_assoc]
  unfold crypto_kem_dec
  refine Ret.bind (loadS_ret hP hal (by omega)) ?_
  rintro S ⟨lS, hS⟩
  refine Ret.bind (decryptMu_ret hP hg2 lS (by simp) hct) ?_
  rintro ⟨Bp, Cm, W, G⟩ ⟨hBp, hCm, lW, hG⟩
  simp only at hBp hCm lW hG ⊢
  generalize hM1 : unpackMat P.logq P.nbar P.n
    ((ct.take P.ctBytes).take (P.logq * P.n * P.nbar / 8)) = M1 at hBp hG
  generalize hM2 : unpackMat P.logq P.nbar P.nbar
    ((ct.take P.ctBytes).drop (P.logq * P.n * P.nbar / 8)) = M2 at hCm hG
  generalize hmu' : decode P.B (M2 - M1 * (toMat P.logq P.nbar P.n S).transpose) = mu at hG
  have lmu : mu.length = P.bytesMu := by rw [← hmu', length_decode, hbm]
  rw [Ret_memcpy_bind]
  refine ⟨by omega, by rw [hG]; simp, ?_⟩
  rw [List.take_zero, List.nil_append, Nat.zero_add, hG, List.drop_left' (by simp)]
  generalize hpkh : (sk.drop (P.bytes + P.pkBytes + 2 * P.n * P.nbar)).take P.bytes = pkh
  have lpkh : pkh.length = P.bytes := by
    rw [← hpkh, List.length_take, List.length_drop]; omega
  refine Ret.bind_eq (shake_ret (by simp; omega) (by simp; omega)) ?_
  rw [List.take_of_length_le (l := pkh ++ mu) (by simp; omega),
    List.drop_eq_nil_of_le (as := uninit _ _ _ _) (by simp; omega), List.append_nil,
    ← Nat.two_mul]
  generalize hg : P.shake.fn (pkh ++ mu) (2 * P.bytes) = g
  have lg : g.length = 2 * P.bytes := by rw [← hg]; exact length_shakeFn _ _ _
  rw [e3]
  refine Ret.bind_eq (expandNoise_ret hP (by omega) (by omega)) ?_
  simp only
  generalize hr : P.shake.fn (0x96 :: g.take P.bytes)
    ((2 * (P.n * P.nbar) + P.nbar * P.nbar) * 2) = r
  simp only [wp]
  refine ⟨by omega, ?_⟩
  have lpk : P.pkBytes ≤ (sk.drop P.bytes).length := by rw [List.length_drop]; omega
  refine Ret.bind (mulSA_ret hP ha (by omega) (by simp)) ?_
  rintro ⟨BBp, Sp⟩ ⟨h1, h2, h3⟩
  simp only at h1 h2 h3 ⊢
  rw [← e3] at hr
  simp only [wp]
  refine ⟨by omega, by simp; omega, ?_⟩
  rw [List.drop_left' lpkh]
  refine Ret.bind (encryptMu_ret hP hg2 h3 (by simp) lW (by simp)
    (by rw [List.length_drop]; omega) (by omega)) ?_
  rintro ⟨Sp2, B2, V2, C2⟩ ⟨h4, h5, h6⟩
  simp only at h4 h5 h6 ⊢
  generalize hE2 : modQ P.logq (sampleMatrix (P.cdf.map BitVec.toNat) P.nbar P.n r 0) *
          unpackMat P.logq P.n P.nbar
            (((sk.drop P.bytes).drop P.seedA).take (P.pkBytes - P.seedA)) +
        modQ P.logq (sampleMatrix (P.cdf.map BitVec.toNat) P.nbar P.nbar r (2 * P.n * P.nbar)) +
        encode P.logq P.B P.nbar P.nbar mu = E2 at h6
  rw [Ret_memcpy_bind]
  refine ⟨by omega, by simp, ?_⟩
  rw [List.take_zero, List.nil_append, List.drop_zero, Nat.zero_add]
  generalize hct' : ct.take P.ctBytes = c at hM1 hM2
  have lc : c.length = P.ctBytes := by rw [← hct', List.length_take]; omega
  refine Ret.bind_eq (reduceLoop_ret hP h1) ?_
  subst hBp hCm h6
  refine Ret.bind_eq (ct_verify_ret (by rw [length_ofMat, ec]) (by rw [length_ofMat, ec])) ?_
  refine Ret.bind_eq (ct_verify_ret (by rw [length_ofMat]) (by rw [length_ofMat])) ?_
  rw [List.take_of_length_le (by rw [length_ofMat, ec]),
    List.take_of_length_le (l := ofMat (toMat P.logq P.nbar P.n BBp)) (by rw [length_ofMat, ec]),
    List.take_of_length_le (l := ofMat M2) (by rw [length_ofMat]),
    List.take_of_length_le (l := ofMat E2) (by rw [length_ofMat])]
  have hsel : ∃ s : Int, i8 (ior (if ofMat M1 = ofMat (toMat P.logq P.nbar P.n BBp) then 0 else -1)
      (if ofMat M2 = ofMat E2 then 0 else -1)) = s ∧
      (s = 0 ∧ M1 = toMat P.logq P.nbar P.n BBp ∧ M2 = E2 ∨
       s = -1 ∧ ¬(M1 = toMat P.logq P.nbar P.n BBp ∧ M2 = E2)) := by
    refine ⟨_, rfl, ?_⟩
    by_cases ha : M1 = toMat P.logq P.nbar P.n BBp <;> by_cases hb : M2 = E2
    · left; rw [if_pos (by rw [ha]), if_pos (by rw [hb])]; exact ⟨by decide, ha, hb⟩
    · right
      rw [if_pos (by rw [ha]), if_neg (fun h => hb (ofMat_injective hD h))]
      exact ⟨by decide, fun h => hb h.2⟩
    · right
      rw [if_neg (fun h => ha (ofMat_injective hD h)), if_pos (by rw [hb])]
      exact ⟨by decide, fun h => ha h.1⟩
    · right
      rw [if_neg (fun h => ha (ofMat_injective hD h)), if_neg (fun h => hb (ofMat_injective hD h))]
      exact ⟨by decide, fun h => hb h.2⟩
  obtain ⟨s, hs, hs'⟩ := hsel
  simp only [hs]
  simp only [wp]
  refine ⟨by omega, by simp; omega, ?_⟩
  rw [fill_take lc, fill_drop0 lc]
  refine Ret.bind_eq (ct_select_ret (by rcases hs' with h | h <;> simp [h.1])
    (by rw [List.length_drop]; simp) (by rw [List.length_drop]; omega) (by omega)) ?_
  rw [List.drop_eq_nil_of_le (as := List.drop P.ctBytes _) (by simp), List.append_nil,
    List.take_of_length_le (l := g.drop P.bytes) (by rw [List.length_drop]; omega)]
  generalize hT : (if s = 0 then g.drop P.bytes else sk.take P.bytes) = T
  have lT : T.length = P.bytes := by
    rw [← hT]; split
    · rw [List.length_drop]; omega
    · rw [List.length_take]; omega
  refine Ret.bind_eq (shake_ret (by simp; omega) hss) ?_
  rw [List.take_of_length_le (l := c ++ T) (by simp; omega)]
  have hE : encrypt (P.kem (B.matA P.logq P.n))
      (((sk.take P.skBytes).drop P.bytes).take (P.seedA + P.logq * P.n * P.nbar / 8)) mu
      (g.take P.bytes) = (toMat P.logq P.nbar P.n BBp, E2) := by
    have ht : ((sk.take P.skBytes).drop P.bytes).take (P.seedA + P.logq * P.n * P.nbar / 8) =
        (sk.drop P.bytes).take P.pkBytes := by
      rw [List.drop_take, List.take_take, ← hpkl, Nat.min_eq_left (by omega)]
    have ht2 : ((sk.drop P.bytes).take P.pkBytes).take P.seedA = (sk.drop P.bytes).take 16 := by
      rw [List.take_take, hA, Nat.min_eq_left (by omega)]
    rw [ht, encrypt_eq, hr, ht2, h2, ← hE2, List.drop_take]
  have hm3 : decode P.B (M2 - M1 * (decodeS P.logq P.nbar P.n ((sk.take P.skBytes).drop
      (P.bytes + (P.seedA + P.logq * P.n * P.nbar / 8)))).transpose) = mu := by
    rw [← hmu', hS, ← hpkl]
    rw [List.drop_take, decodeS_take (by omega)]
  have hd3 : deriveSeeds (P.kem (B.matA P.logq P.n)) (((sk.take P.skBytes).drop (P.bytes +
      (P.seedA + P.logq * P.n * P.nbar / 8) + 2 * P.n * P.nbar)).take P.bytes) mu =
      (g.take P.bytes, g.drop P.bytes) := by
    rw [deriveSeeds_eq, ← hpkl, List.drop_take, List.take_take, Nat.min_eq_left (by omega), hpkh, hg]
  have hre : (reencrypt (P.kem (B.matA P.logq P.n)) c (sk.take P.skBytes)).1 =
      pack P.logq (P.logq * P.nbar * P.n / 8) (ofMat (toMat P.logq P.nbar P.n BBp)) ++
          pack P.logq (P.logq * P.nbar * P.nbar / 8) (ofMat E2) := by
    rw [reencrypt_of hM1 hM2 hm3 hd3 hE]; rfl
  have hdec : decaps (P.kem (B.matA P.logq P.n)) c (sk.take P.skBytes) =
      P.shake.fn (c ++ T) P.bytes := by
    refine decaps_of (mu := mu) (sd := g.take P.bytes) (k := g.drop P.bytes) hM1 hM2 hm3 hd3 hE ?_
    rcases hs' with ⟨h, h7, h8⟩ | ⟨h, h7⟩
    · left; exact ⟨h7, h8, by rw [← hT, if_pos h]⟩
    · right; exact ⟨h7, by
        rw [← hT, if_neg (by omega), List.take_take, Nat.min_eq_left (by omega)]⟩
  rw [hdec]
  refine Ret.bind_eq (clearWords_ret (by omega)) ?_
  rw [List.take_zero, List.nil_append, Nat.zero_add, List.drop_eq_nil_of_le (as := V2) (by omega),
    List.append_nil, e2]
  refine Ret.bind_eq (clearWords_ret (by omega)) ?_
  rw [List.take_zero, List.nil_append, Nat.zero_add]
  refine Ret.bind_eq (clearWords_ret (by omega)) ?_
  rw [List.take_zero, List.nil_append, Nat.zero_add, List.drop_eq_nil_of_le (as := S) (by omega),
    List.append_nil]
  refine Ret.bind_eq (clearWords_ret (by simp; omega)) ?_
  rw [fill_take (by simp), fill_drop _ (by simp), ← List.replicate_add, ← Nat.two_mul]
  refine Ret.bind_eq (clearWords_ret (by simp; omega)) ?_
  rw [fill_take (by simp), fill_drop _ (by simp), List.drop_eq_nil_of_le (as := Sp2) (by omega),
    List.append_nil, ← List.replicate_add]
  rw [Ret_atPtr_bind]
  refine ⟨by simp; omega, ?_⟩
  rw [List.take_left' lpkh, List.drop_left' lpkh]
  refine Ret.bind_eq (clear_bytes_ret (by omega)) ?_
  rw [List.drop_eq_nil_of_le (as := mu) (by omega), List.append_nil]
  refine Ret.bind_eq (clear_bytes_ret (by omega)) ?_
  rw [List.drop_eq_nil_of_le (as := g) (i := 2 * P.bytes) (by omega), List.append_nil]
  rw [Ret_atPtr_bind]
  refine ⟨by simp; omega, ?_⟩
  rw [List.take_left' lc, List.drop_left' lc]
  refine Ret.bind_eq (clear_bytes_ret (by omega)) ?_
  rw [List.drop_eq_nil_of_le (as := T) (by omega), List.append_nil]
  refine Ret.bind_eq (clear_bytes_ret (by simp; omega)) ?_
  simp only [wp]
  refine ⟨trivial, trivial, trivial, trivial, trivial, trivial, trivial, ?_, trivial, hre.symm⟩
  rw [List.drop_eq_nil_of_le (by simp), List.append_nil]

end Frodo
