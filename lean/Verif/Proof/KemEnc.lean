import Verif.Proof.Kem

/-! # Encapsulation -/

namespace Frodo

open Spec

/-- What the callers know about `Sp` after `mulSA`: the words of `S'` are sampled, those of `E''` are
not yet (proof device). -/
structure SpInv (P : Params) (r : List U8) (Sp : List U16) : Prop where
  len : Sp.length = 2 * (P.n * P.nbar) + P.nbar * P.nbar
  s : ∀ k, k < P.n * P.nbar →
    nth Sp k = BitVec.ofInt 16 (sample (P.cdf.map BitVec.toNat) (word16 r k))
  e : ∀ k, k < P.nbar * P.nbar → nth Sp (2 * (P.n * P.nbar) + k) =
    BitVec.ofNat 16 (word16 r (2 * (P.n * P.nbar) + k))

theorem mulSA_ret {B : Build} {E : Env} {P : Params} {r seedA : List U8} {out : List U16}
    (hP : P.WF) (ha : B.alignedSa E (E.addr .Sp + 2 * (P.n * P.nbar))) (hs : 16 ≤ seedA.length)
    (ho : out.length = P.n * P.nbar) :
    Ret (mulSA B E P out (noiseW (P.cdf.map BitVec.toNat) r
        (2 * (P.n * P.nbar) + P.nbar * P.nbar) (P.n * P.nbar + P.n * P.nbar)) seedA)
      (fun x => x.1.length = P.n * P.nbar ∧
        toMat P.logq P.nbar P.n x.1 =
          modQ P.logq (sampleMatrix (P.cdf.map BitVec.toNat) P.nbar P.n r 0) *
            B.matA P.logq P.n (seedA.take 16) +
          modQ P.logq (sampleMatrix (P.cdf.map BitVec.toNat) P.nbar P.n r (P.n * P.nbar)) ∧
        SpInv P r x.2) := by
  have ec : P.nbar * P.n = P.n * P.nbar := Nat.mul_comm _ _
  generalize hT : P.cdf.map BitVec.toNat = T
  generalize hW : noiseW T r (2 * (P.n * P.nbar) + P.nbar * P.nbar) (P.n * P.nbar + P.n * P.nbar) = W
  have lW : W.length = 2 * (P.n * P.nbar) + P.nbar * P.nbar := by
    rw [← hW]; exact length_noiseW _ _ _ _
  have nW : ∀ k, k < 2 * (P.n * P.nbar) → nth W k = BitVec.ofInt 16 (sample T (word16 r k)) := by
    intro k hk
    rw [← hW, nth_noiseW (by omega), if_pos (by omega)]
  have nW' : ∀ k, k < P.nbar * P.nbar → nth W (2 * (P.n * P.nbar) + k) =
      BitVec.ofNat 16 (word16 r (2 * (P.n * P.nbar) + k)) := by
    intro k hk
    rw [← hW, nth_noiseW (by omega), if_neg (by omega)]
  unfold mulSA
  simp only [wp]
  refine ⟨by omega, ?_⟩
  refine Ret.bind (frodo_mul_add_sa_plus_e_any hP ha hs (by omega)
    (by rw [List.length_take]; omega) (by rw [List.length_drop]; omega)) ?_
  rintro ⟨o, e⟩ ⟨h1, X, hX, h2⟩
  simp only at h1 h2
  simp only [wp]
  rw [List.drop_eq_nil_of_le (as := out) (by omega), List.append_nil] at h1
  rw [ec, List.drop_drop] at h2
  refine ⟨by rw [h1, length_ofMat, ec], ?_, ⟨?_, ?_, ?_⟩⟩
  · have := toMat_ofMat (le_refl 16) (toMat 16 P.nbar P.n (W.take (P.n * P.nbar)) *
      B.matA 16 P.n (seedA.take 16) + toMat 16 P.nbar P.n (W.drop (P.n * P.nbar))) []
    rw [List.append_nil] at this
    rw [h1, ← redQ_toMat hP.logq_le, this, redQ_add, redQ_mul, redQ_matA, redQ_toMat, redQ_toMat]
    congr 1
    · congr 1
      refine toMat_noise hP.logq_le fun k hk => ?_
      rw [nth_take, if_pos (by omega), nW k (by omega), Nat.zero_add]
    · refine toMat_noise hP.logq_le fun k hk => ?_
      rw [nth_drop, nW _ (by omega)]
  · rw [h2]; simp; omega
  · intro k hk
    rw [nth_append, List.length_take, if_pos (by omega), nth_take, if_pos hk, nW k (by omega), hT]
  · intro k hk
    rw [h2, nth_append, List.length_take, if_neg (by omega), nth_append, if_neg (by omega), nth_drop,
      ← nW' k hk]
    congr 1; omega

/-- The matrices that `encryptMu` computes. -/
theorem encryptMu_ret {P : Params} {muAddr : Nat} {r pkb mu : List U8} {Sp Bm V Cm : List U16}
    (hP : P.WF) (ha : muAddr % 2 = 0) (hSp : SpInv P r Sp) (hB : Bm.length = P.n * P.nbar)
    (hV : V.length = P.nbar * P.nbar) (hC : Cm.length = P.nbar * P.nbar)
    (hpk : P.pkBytes - P.seedA ≤ pkb.length) (hmu : P.bytesMu ≤ mu.length) :
    Ret (encryptMu P muAddr Sp Bm V Cm pkb mu) (fun o =>
      o.Sp.length = 2 * (P.n * P.nbar) + P.nbar * P.nbar ∧ o.V.length = P.nbar * P.nbar ∧
      o.C = ofMat (modQ P.logq (sampleMatrix (P.cdf.map BitVec.toNat) P.nbar P.n r 0) *
          unpackMat P.logq P.n P.nbar (pkb.take (P.pkBytes - P.seedA)) +
        modQ P.logq (sampleMatrix (P.cdf.map BitVec.toNat) P.nbar P.nbar r (2 * P.n * P.nbar)) +
        encode P.logq P.B P.nbar P.nbar mu)) := by
  have e2 : 2 * P.n * P.nbar = 2 * (P.n * P.nbar) := Nat.mul_assoc _ _ _
  have ec : P.nbar * P.n = P.n * P.nbar := Nat.mul_comm _ _
  have hq : 1 ≤ P.logq := by have := hP.B_lt; omega
  have hmu' : P.B * (P.nbar * P.nbar) / 8 ≤ mu.length := by
    unfold Params.bytesMu at hmu; rwa [Nat.mul_assoc] at hmu
  unfold encryptMu
  rw [e2]
  simp only [wp]
  refine ⟨by rw [hSp.len]; omega, ?_⟩
  refine Ret.bind_eq (frodo_sample_n_ret hP.cdf hP.cdf_len
    (by rw [List.length_drop, hSp.len]; omega) (by have := hP.bb_lt; omega)) ?_
  generalize hT : P.cdf.map BitVec.toNat = T
  generalize hS2 : Sp.take (2 * (P.n * P.nbar)) ++ (((Sp.drop (2 * (P.n * P.nbar))).take
    (P.nbar * P.nbar)).map (fun r => BitVec.ofInt 16 (sample T r.toNat)) ++
    (Sp.drop (2 * (P.n * P.nbar))).drop (P.nbar * P.nbar)) = S2
  have l2 : S2.length = 2 * (P.n * P.nbar) + P.nbar * P.nbar := by
    rw [← hS2]; simp [hSp.len]
  have n2 : ∀ k, k < P.n * P.nbar → nth S2 k = BitVec.ofInt 16 (sample T (word16 r k)) := by
    intro k hk
    rw [← hS2, nth_append, List.length_take, hSp.len, if_pos (by omega), nth_take, if_pos (by omega),
      hSp.s k hk, hT]
  have n2' : ∀ k, k < P.nbar * P.nbar → nth S2 (2 * (P.n * P.nbar) + k) =
      BitVec.ofInt 16 (sample T (word16 r (2 * (P.n * P.nbar) + k))) := by
    intro k hk
    have hlen := hSp.len
    rw [← hS2, nth_append, List.length_take, if_neg (by omega),
      Nat.min_eq_left (show 2 * (P.n * P.nbar) ≤ Sp.length by omega), Nat.add_sub_cancel_left,
      nth_append, if_pos (by simp; omega), nth_map, if_pos (by simp; omega), nth_take, if_pos hk,
      nth_drop, hSp.e k hk, BitVec.toNat_ofNat, Nat.mod_eq_of_lt (word16_lt _ _)]
  refine Ret.bind_eq (frodo_unpack_ret hq hP.logq_le hpk (by omega)) ?_
  rw [List.drop_eq_nil_of_le (as := Bm) (by omega), List.append_nil]
  simp only [wp]
  refine ⟨by omega, ?_⟩
  refine Ret.bind_eq (frodo_mul_add_sb_plus_e_ret hP.logq_le (by omega) (by simp) (by omega)
    (by rw [List.length_drop]; omega)) ?_
  rw [List.drop_eq_nil_of_le (as := V) (by omega), List.append_nil]
  rw [Ret_require_bind]
  refine ⟨ha, ?_⟩
  refine Ret.bind_eq (frodo_key_encode_ret hP.logq_le hP.B_lt.le hP.B_le (hP.nbar8.mul_right _)
    (by omega) hmu') ?_
  rw [List.drop_eq_nil_of_le (as := Cm) (by omega), List.append_nil]
  refine Ret.bind_eq (frodo_add_ret hP.logq_le (by simp [length_ofMat])
    (by simp [Operand.get, length_ofMat]) (by simp [Operand.get, length_ofMat])) ?_
  simp only [wp]
  refine ⟨l2, by rw [length_ofMat], ?_⟩
  rw [List.drop_eq_nil_of_le (as := ofMat _) (by rw [length_ofMat]), List.append_nil]
  have hm : ∀ M : Matrix (Fin P.nbar) (Fin P.nbar) (ZMod (2 ^ P.logq)),
      toMat P.logq P.nbar P.nbar (ofMat M) = M := by
    intro M
    have := toMat_ofMat hP.logq_le M []
    rwa [List.append_nil] at this
  simp only [Operand.get]
  rw [hm, hm]
  congr 2
  congr 1
  · congr 1
    refine toMat_noise hP.logq_le fun k hk => ?_
    rw [n2 k (by omega), Nat.zero_add]
  · refine toMat_noise hP.logq_le fun k hk => ?_
    rw [nth_drop, n2' k hk]

theorem encrypt_eq (P : Params) (A : List U8 → Matrix (Fin P.n) (Fin P.n) (ZMod (2 ^ P.logq)))
    (pk mu sd : List U8) : encrypt (P.kem A) pk mu sd =
    (modQ P.logq (sampleMatrix (P.cdf.map BitVec.toNat) P.nbar P.n
          (P.shake.fn (0x96 :: sd) ((2 * P.n + P.nbar) * P.nbar * 2)) 0) * A (pk.take P.seedA) +
        modQ P.logq (sampleMatrix (P.cdf.map BitVec.toNat) P.nbar P.n
          (P.shake.fn (0x96 :: sd) ((2 * P.n + P.nbar) * P.nbar * 2)) (P.n * P.nbar)),
     modQ P.logq (sampleMatrix (P.cdf.map BitVec.toNat) P.nbar P.n
          (P.shake.fn (0x96 :: sd) ((2 * P.n + P.nbar) * P.nbar * 2)) 0) *
          unpackMat P.logq P.n P.nbar (pk.drop P.seedA) +
        modQ P.logq (sampleMatrix (P.cdf.map BitVec.toNat) P.nbar P.nbar
          (P.shake.fn (0x96 :: sd) ((2 * P.n + P.nbar) * P.nbar * 2)) (2 * P.n * P.nbar)) +
        encode P.logq P.B P.nbar P.nbar mu) := rfl

theorem encaps_eq (P : Params) (A : List U8 → Matrix (Fin P.n) (Fin P.n) (ZMod (2 ^ P.logq)))
    (pk mu : List U8) : encaps (P.kem A) pk mu =
    (packMat (encrypt (P.kem A) pk mu (deriveSeeds (P.kem A) (P.shake.fn pk P.bytes) mu).1).1 ++
      packMat (encrypt (P.kem A) pk mu (deriveSeeds (P.kem A) (P.shake.fn pk P.bytes) mu).1).2,
     P.shake.fn (packMat (encrypt (P.kem A) pk mu
        (deriveSeeds (P.kem A) (P.shake.fn pk P.bytes) mu).1).1 ++
      packMat (encrypt (P.kem A) pk mu (deriveSeeds (P.kem A) (P.shake.fn pk P.bytes) mu).1).2 ++
      (deriveSeeds (P.kem A) (P.shake.fn pk P.bytes) mu).2) P.bytes) := rfl

theorem deriveSeeds_eq (P : Params) (A : List U8 → Matrix (Fin P.n) (Fin P.n) (ZMod (2 ^ P.logq)))
    (pkh mu : List U8) : deriveSeeds (P.kem A) pkh mu =
    ((P.shake.fn (pkh ++ mu) (2 * P.bytes)).take P.bytes,
      (P.shake.fn (pkh ++ mu) (2 * P.bytes)).drop P.bytes) := rfl

theorem clear3_ret {a : Arch} {Sp : List U16} {n m : Nat} (h : Sp.length = 2 * n + m)
    {β : Type} {f : List U16 → C β} {Q : β → Prop} (hf : Ret (f (List.replicate (2 * n + m) 0)) Q) :
    Ret (clearWords a Sp 0 n >>= fun Sp => clearWords a Sp n n >>= fun Sp =>
      clearWords a Sp (2 * n) m >>= f) Q := by
  refine Ret.bind_eq (clearWords_ret (by omega)) ?_
  rw [List.take_zero, List.nil_append, Nat.zero_add]
  refine Ret.bind_eq (clearWords_ret (by simp; omega)) ?_
  rw [fill_take (by simp), fill_drop _ (by simp), ← List.replicate_add, ← Nat.two_mul]
  refine Ret.bind_eq (clearWords_ret (by simp; omega)) ?_
  rw [fill_take (by simp), fill_drop _ (by simp), List.drop_eq_nil_of_le (by omega), List.append_nil,
    ← List.replicate_add]
  exact hf

/-- The result of `crypto_kem_enc` in every build, for whatever bytes `R` are in the buffer after the
call of `randombytes`. -/
theorem crypto_kem_enc_ret {B : Build} {E : Env} {P : Params} {rb : RandomBytes}
    {ct ss pk R : List U8} (hP : P.WF) (ha : B.alignedSa E (E.addr .Sp + 2 * (P.n * P.nbar)))
    (hg2 : (E.addr .G2in + P.bytes) % 2 = 0)
    (hrb : Ret (rb ((uninit E.junk 42 8 (P.bytes + P.bytesMu)).drop P.bytes) P.bytesMu) (·.1 = R))
    (hR : R.length = P.bytesMu) (hpk : P.pkBytes ≤ pk.length) (hct : P.ctBytes ≤ ct.length)
    (hss : P.bytes ≤ ss.length) :
    Ret (crypto_kem_enc B E P rb ct ss pk) (fun o =>
      o.ct = (encaps (P.kem (B.matA P.logq P.n)) (pk.take P.pkBytes) R).1 ++ ct.drop P.ctBytes ∧
      o.ss = (encaps (P.kem (B.matA P.logq P.n)) (pk.take P.pkBytes) R).2 ++ ss.drop P.bytes ∧
      o.V = List.replicate (P.nbar * P.nbar) 0 ∧
      o.Sp = List.replicate (2 * (P.n * P.nbar) + P.nbar * P.nbar) 0 ∧
      o.G2in = P.shake.fn (pk.take P.pkBytes) P.bytes ++ List.replicate P.bytesMu 0 ∧
      o.G2out = List.replicate (2 * P.bytes) 0 ∧
      o.Fin = (encaps (P.kem (B.matA P.logq P.n)) (pk.take P.pkBytes) R).1 ++
        List.replicate P.bytes 0 ∧
      o.shake_input_seedSE = List.replicate (1 + P.bytes) 0 ∧
      o.ret = 0 ∧
      pack P.logq (P.logq * P.nbar * P.n / 8) o.Bp ++ pack P.logq (P.logq * P.nbar * P.nbar / 8) o.C =
        (encaps (P.kem (B.matA P.logq P.n)) (pk.take P.pkBytes) R).1) := by
  have hA := hP.seedA
  have hpkl := hP.pk
  have hctl := hP.ct
  have hmu := hP.bytes
  have e2 : 2 * P.n * P.nbar = 2 * (P.n * P.nbar) := Nat.mul_assoc _ _ _
  have e3 : (2 * P.n + P.nbar) * P.nbar = 2 * (P.n * P.nbar) + P.nbar * P.nbar := by ring
  have ec : P.nbar * P.n = P.n * P.nbar := Nat.mul_comm _ _
  have ecl : P.logq * P.nbar * P.n = P.logq * P.n * P.nbar := by ring
  have hq : 1 ≤ P.logq := by have := hP.B_lt; omega
  unfold crypto_kem_enc
  refine Ret.bind_eq (shake_ret hpk (by simp)) ?_
  generalize hpkh : P.shake.fn (pk.take P.pkBytes) P.bytes = pkh
  have lpkh : pkh.length = P.bytes := by rw [← hpkh]; exact length_shakeFn _ _ _
  simp only [wp]
  refine ⟨by simp; omega, ?_⟩
  rw [fill_drop0 lpkh, fill_take lpkh]
  refine hrb.bind fun x hx => ?_
  obtain ⟨R', rv⟩ := x
  simp only at hx
  subst hx
  simp only
  refine Ret.bind_eq (shake_ret (by simp; omega) (by simp; omega)) ?_
  rw [List.take_of_length_le (l := pkh ++ R') (by simp; omega),
    List.drop_eq_nil_of_le (as := uninit _ _ _ _) (by simp; omega), List.append_nil,
    ← Nat.two_mul]
  generalize hg : P.shake.fn (pkh ++ R') (2 * P.bytes) = g
  have lg : g.length = 2 * P.bytes := by rw [← hg]; exact length_shakeFn _ _ _
  rw [e3]
  refine Ret.bind_eq (expandNoise_ret hP (by omega) (by omega)) ?_
  simp only
  generalize hr : P.shake.fn (0x96 :: g.take P.bytes)
    ((2 * (P.n * P.nbar) + P.nbar * P.nbar) * 2) = r
  refine Ret.bind (mulSA_ret hP ha (by omega) (by simp)) ?_
  rintro ⟨Bp, Sp⟩ ⟨h1, h2, h3⟩
  simp only at h1 h2 h3 ⊢
  rw [← e3] at hr
  obtain ⟨M2, hM2⟩ : ∃ M2, M2 =
      modQ P.logq (sampleMatrix (P.cdf.map BitVec.toNat) P.nbar P.n r 0) *
          unpackMat P.logq P.n P.nbar ((pk.drop P.seedA).take (P.pkBytes - P.seedA)) +
        modQ P.logq (sampleMatrix (P.cdf.map BitVec.toNat) P.nbar P.nbar r (2 * P.n * P.nbar)) +
        encode P.logq P.B P.nbar P.nbar R' := ⟨_, rfl⟩
  have hE : encrypt (P.kem (B.matA P.logq P.n)) (pk.take P.pkBytes) R' (g.take P.bytes) =
      (toMat P.logq P.nbar P.n Bp, M2) := by
    have ht : (pk.take P.pkBytes).take P.seedA = pk.take 16 := by
      rw [List.take_take, hA, Nat.min_eq_left (by omega)]
    rw [encrypt_eq, hr, ht, h2, hM2, List.drop_take]
  have hEn : encaps (P.kem (B.matA P.logq P.n)) (pk.take P.pkBytes) R' =
      (packMat (toMat P.logq P.nbar P.n Bp) ++ packMat M2,
       P.shake.fn (packMat (toMat P.logq P.nbar P.n Bp) ++ packMat M2 ++ g.drop P.bytes)
         P.bytes) := by
    rw [encaps_eq, deriveSeeds_eq, hpkh, hg, hE]; rfl
  rw [hEn]
  clear hE hEn
  refine Ret.bind_eq (frodo_pack_ret hq hP.logq_le (by omega) (by omega)) ?_
  rw [List.take_of_length_le (l := Bp) (by omega),
    pack_toMat hq hP.logq_le (r := P.nbar) (c := P.n) (by omega), ← ecl]
  generalize hc1 : packMat (toMat P.logq P.nbar P.n Bp) = c1
  have lc1 : c1.length = P.logq * P.nbar * P.n / 8 := by rw [← hc1]; exact length_packMat _
  rw [show pack P.logq (P.logq * P.nbar * P.n / 8) (ofMat (toMat P.logq P.nbar P.n Bp)) = c1 from hc1]
  rw [← ecl] at hctl hpkl
  simp only [wp]
  refine ⟨by omega, by simp; omega, ?_⟩
  rw [List.drop_left' lpkh]
  refine Ret.bind (encryptMu_ret hP hg2 h3 (by simp) (by simp) (by simp)
    (by rw [List.length_drop]; omega) (by omega)) ?_
  rintro ⟨Sp2, B2, V2, C2⟩ ⟨h4, h5, h6⟩
  simp only at h4 h5 h6 ⊢
  rw [← hM2] at h6
  rw [Ret_atPtr_bind]
  refine ⟨by simp; omega, ?_⟩
  rw [fill_take lc1, fill_drop0 lc1]
  refine Ret.bind_eq (frodo_pack_ret hq hP.logq_le (by rw [h6, length_ofMat])
    (by rw [List.length_drop]; omega)) ?_
  rw [h6, List.take_of_length_le (by rw [length_ofMat])]
  generalize hc2 : packMat M2 = c2
  have lc2 : c2.length = P.logq * P.nbar * P.nbar / 8 := by rw [← hc2]; exact length_packMat _
  rw [show pack P.logq (P.logq * P.nbar * P.nbar / 8) (ofMat M2) = c2 from hc2, List.drop_drop, ← hctl,
    ← List.append_assoc]
  have lc : (c1 ++ c2).length = P.ctBytes := by rw [List.length_append]; omega
  have hpb : pack P.logq (P.logq * P.nbar * P.n / 8) Bp ++
      pack P.logq (P.logq * P.nbar * P.nbar / 8) (ofMat M2) = c1 ++ c2 := by
    rw [← hc1, ← hc2, pack_toMat hq hP.logq_le (r := P.nbar) (c := P.n) (by omega)]; rfl
  generalize c1 ++ c2 = c at lc hpb
  rw [Ret_memcpy_bind]
  refine ⟨by simp; omega, by simp, ?_⟩
  rw [List.take_zero, List.nil_append, List.drop_zero, fill_take lc, Nat.zero_add]
  rw [Ret_memcpy_bind]
  refine ⟨by omega, by simp; omega, ?_⟩
  rw [fill_take lc, List.take_of_length_le (l := g.drop _) (by rw [List.length_drop]; omega),
    List.drop_eq_nil_of_le (as := c ++ _) (by simp; omega), List.append_nil]
  have lgd : (g.drop P.bytes).length = P.bytes := by rw [List.length_drop]; omega
  refine Ret.bind_eq (shake_ret (by simp; omega) hss) ?_
  rw [List.take_of_length_le (l := c ++ _) (by simp; omega)]
  refine Ret.bind_eq (clearWords_ret (by omega)) ?_
  rw [List.take_zero, List.nil_append, Nat.zero_add, List.drop_eq_nil_of_le (as := V2) (by omega),
    List.append_nil, e2]
  refine clear3_ret h4 ?_
  rw [Ret_atPtr_bind]
  refine ⟨by simp; omega, ?_⟩
  rw [List.take_left' lpkh, List.drop_left' lpkh]
  refine Ret.bind_eq (clear_bytes_ret (by omega)) ?_
  rw [List.drop_eq_nil_of_le (as := R') (by omega), List.append_nil]
  refine Ret.bind_eq (clear_bytes_ret (by omega)) ?_
  rw [List.drop_eq_nil_of_le (as := g) (i := 2 * P.bytes) (by omega), List.append_nil]
  rw [Ret_atPtr_bind]
  refine ⟨by simp; omega, ?_⟩
  rw [List.take_left' lc, List.drop_left' lc]
  refine Ret.bind_eq (clear_bytes_ret (by omega)) ?_
  rw [List.drop_eq_nil_of_le (as := g.drop _) (by omega), List.append_nil]
  refine Ret.bind_eq (clear_bytes_ret (by simp; omega)) ?_
  simp only [wp]
  refine ⟨trivial, trivial, trivial, trivial, trivial, trivial, trivial, ?_, trivial, hpb⟩
  rw [List.drop_eq_nil_of_le (by simp), List.append_nil]

end Frodo
