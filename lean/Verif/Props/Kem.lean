import Verif.Proof.KemSpec

/-! # Properties of key generation, encapsulation and decapsulation -/

namespace Frodo.Props

open Spec

/-- The parameters of the code, the generator of `A`, and the specified KEM that belongs to them. -/
inductive Standard : Params → MatGen → KemParams → Prop where
  | frodo640 (g : MatGen) : Standard frodo640 g (Frodo640 g)
  | frodo976 (g : MatGen) : Standard frodo976 g (Frodo976 g)
  | frodo1344 (g : MatGen) : Standard frodo1344 g (Frodo1344 g)

theorem Standard.wf {P : Params} {g : MatGen} {K : KemParams} (h : Standard P g K) : P.WF := by
  cases h
  · exact frodo640_WF
  · exact frodo976_WF
  · exact frodo1344_WF

theorem Standard.kem {P : Params} {g : MatGen} {K : KemParams} (h : Standard P g K) :
    P.kem (genA g P.logq P.n) = K := by
  cases h <;> rfl

theorem kwf {P : Params} (hP : P.WF)
    (A : List U8 → Matrix (Fin P.n) (Fin P.n) (ZMod (2 ^ P.logq))) : KWF (P.kem A) where
  D_pos := by have := hP.B_lt; exact Nat.le_of_lt (Nat.lt_of_le_of_lt hP.B_pos this)
  D_le := hP.logq_le
  B_pos := hP.B_pos
  B_lt := hP.B_lt
  nbar8 := hP.nbar8
  len := by rw [← Nat.mul_assoc]; exact hP.bytes
  shake := length_shakeFn P.shake

theorem Standard.kwf {P : Params} {g : MatGen} {K : KemParams} (h : Standard P g K) : KWF K := by
  rw [← h.kem]; exact Props.kwf h.wf _

theorem Standard.pkLen {P : Params} {g : MatGen} {K : KemParams} (h : Standard P g K) :
    P.pkBytes = K.lenA + K.lenB := by
  rw [h.wf.pk, ← h.kem]; rfl

theorem Standard.skLen {P : Params} {g : MatGen} {K : KemParams} (h : Standard P g K) :
    P.skBytes = K.len + (K.lenA + K.lenB) + 2 * K.n * K.nbar + K.len := by
  rw [h.wf.sk, h.pkLen, ← h.kem]; rfl

theorem Standard.ctLen {P : Params} {g : MatGen} {K : KemParams} (h : Standard P g K) :
    P.ctBytes = K.lenB + K.lenC := by
  rw [h.wf.ct, ← h.kem]; rfl

theorem Standard.ssLen {P : Params} {g : MatGen} {K : KemParams} (h : Standard P g K) :
    P.bytes = K.len := by
  rw [← h.kem]; rfl

/-- The three parameter sets differ in everything that matters. -/
example : (Frodo640 .aes).D = 15 ∧ (Frodo976 .aes).n = 976 ∧ (Frodo1344 .shake).B = 4 := ⟨rfl, rfl, rfl⟩

/-- `rb` puts the bytes `R` into any buffer of that size (its return value is left open). -/
def Fills (rb : RandomBytes) (R : List U8) : Prop :=
  ∀ buf : List U8, buf.length = R.length → Ret (rb buf R.length) (·.1 = R)

/-- A random generator that delivers given bytes, and one that fails. -/
def rbConst (R : List U8) : RandomBytes := fun _ _ => pure (R, 0)
def rbFail : RandomBytes := fun buf _ => pure (buf, 1)

theorem fills_const (R : List U8) : Fills (rbConst R) R := fun _ _ => ⟨_, _, rfl, rfl⟩

/-- The builds that compute `s*A + e` with the specified matrix: the reference code on any target and
the optimised code on a little-endian target. -/
def Good (B : Build) : Prop := B.impl = .reference ∨ B.arch = .le

/-- The alignment that a build needs in `crypto_kem_enc` and `crypto_kem_dec`: that of the product
`S'*A + E'`, and that of the message in `G2in`, which is accessed as an array of `uint16_t`. -/
def AlignedKem (B : Build) (E : Env) (P : Params) : Prop :=
  B.alignedSa E (E.addr .Sp + 2 * (P.n * P.nbar)) ∧ (E.addr .G2in + P.bytes) % 2 = 0

/-- The alignment that a build needs in `crypto_kem_keypair`: that of the product `A*S + E`, whose
result is in `B` and whose error matrix is the second half of the array `S`. -/
def AlignedKeypair (B : Build) (E : Env) (P : Params) : Prop :=
  B.alignedAs E (E.addr .B) (E.addr .S + 2 * (P.n * P.nbar))

/-- The alignment that a build needs in all three functions. -/
def AlignedAll (B : Build) (E : Env) (P : Params) : Prop :=
  AlignedKeypair B E P ∧ AlignedKem B E P

theorem E0_keypair (B : Build) : AlignedKeypair B E0 frodo640 := ⟨E0_gen B, fun _ => ⟨rfl, rfl⟩⟩

theorem E0_kem (B : Build) : AlignedKem B E0 frodo640 := ⟨⟨E0_gen B, fun _ => ⟨rfl, rfl⟩⟩, rfl⟩

theorem E0_all (B : Build) : AlignedAll B E0 frodo640 := ⟨E0_keypair B, E0_kem B⟩

theorem matA_kem {B : Build} {P : Params} {K : KemParams} (hS : Standard P B.gen K) (hB : Good B) :
    P.kem (B.matA P.logq P.n) = K := by
  rw [← hS.kem]
  congr 1
  funext s
  exact Build.matA_good hB _ _ _

/-- C05.  `crypto_kem_keypair` writes the public and secret key of Algorithm 12 for the three random
strings that `randombytes` delivers, in every build and on both byte orders. -/
theorem C05_keypair {P : Params} {K : KemParams} (B : Build) (E : Env) (rb : RandomBytes)
    (pk sk s seedSE z : List U8) (hS : Standard P B.gen K) (ha : AlignedKeypair B E P)
    (hs : s.length = K.len) (hse : seedSE.length = K.len) (hz : z.length = K.lenA)
    (hrb : Fills rb (s ++ seedSE ++ z))
    (hpk : P.pkBytes ≤ pk.length) (hsk : P.skBytes ≤ sk.length) :
    Ret (crypto_kem_keypair B E P rb pk sk) (fun o =>
      o.pk = (keygen K s seedSE z).1 ++ pk.drop P.pkBytes ∧
      o.sk = (keygen K s seedSE z).2 ++ sk.drop P.skBytes ∧ o.ret = 0) := by
  have hl : K.len = P.bytes := by rw [← hS.kem]; rfl
  have hlA : K.lenA = P.seedA := by rw [← hS.kem]; rfl
  have hlR : (s ++ seedSE ++ z).length = 2 * P.bytes + P.seedA := by
    simp only [List.length_append]; omega
  have hr := hrb (uninit E.junk 41 8 (2 * P.bytes + P.seedA)) (by simp; omega)
  rw [hlR, Nat.two_mul] at hr
  rw [← Nat.two_mul] at hr
  refine (crypto_kem_keypair_ret (R := s ++ seedSE ++ z) hS.wf ha
    (by rw [← Nat.two_mul]; exact hr) hlR hpk hsk).mono fun o ho => ?_
  obtain ⟨h1, h2, _, _, _, h6⟩ := ho
  have e1 : (s ++ seedSE ++ z).take P.bytes = s := by
    rw [List.append_assoc]; exact List.take_left' (by omega)
  have e2 : ((s ++ seedSE ++ z).drop P.bytes).take P.bytes = seedSE := by
    rw [List.append_assoc, List.drop_left' (by omega)]; exact List.take_left' (by omega)
  have e3 : (s ++ seedSE ++ z).drop (2 * P.bytes) = z :=
    List.drop_left' (by rw [List.length_append]; omega)
  rw [e1, e2, e3, hS.kem] at h1 h2
  exact ⟨h1, h2, h6⟩

/-- C06.  `crypto_kem_enc` writes the ciphertext and shared secret of Algorithm 13 for any public key
bytes and the message that `randombytes` delivers. -/
theorem C06_enc {P : Params} {K : KemParams} (B : Build) (E : Env) (rb : RandomBytes)
    (ct ss pk mu : List U8) (hS : Standard P B.gen K) (hB : Good B) (ha : AlignedKem B E P)
    (hmu : mu.length = K.len) (hrb : Fills rb mu)
    (hpk : P.pkBytes ≤ pk.length) (hct : P.ctBytes ≤ ct.length) (hss : P.bytes ≤ ss.length) :
    Ret (crypto_kem_enc B E P rb ct ss pk) (fun o =>
      o.ct = (encaps K (pk.take P.pkBytes) mu).1 ++ ct.drop P.ctBytes ∧
      o.ss = (encaps K (pk.take P.pkBytes) mu).2 ++ ss.drop P.bytes ∧ o.ret = 0) := by
  have hl : K.len = P.bytes := by rw [← hS.kem]; rfl
  have hb := hS.wf.bytes
  have hr := hrb ((uninit E.junk 42 8 (P.bytes + P.bytesMu)).drop P.bytes) (by simp; omega)
  rw [show mu.length = P.bytesMu by omega] at hr
  refine (crypto_kem_enc_ret hS.wf ha.1 ha.2 hr (by omega) hpk hct hss).mono fun o ho => ?_
  rw [matA_kem hS hB] at ho
  exact ⟨ho.1, ho.2.1, ho.2.2.2.2.2.2.2.2.1⟩

/-- C07.  `crypto_kem_dec` writes the shared secret of Algorithm 14 for any ciphertext bytes and any
secret key bytes (at an address such that the cast of `sk_S` to `uint16_t *` is aligned). -/
theorem C07_dec {P : Params} {K : KemParams} (B : Build) (E : Env) (skAddr : Nat)
    (ss ct sk : List U8) (hS : Standard P B.gen K) (hB : Good B) (ha : AlignedKem B E P)
    (hal : skAddr % 2 = 0)
    (hss : P.bytes ≤ ss.length) (hct : P.ctBytes ≤ ct.length) (hsk : P.skBytes ≤ sk.length) :
    Ret (crypto_kem_dec B E P skAddr ss ct sk) (fun o =>
      o.ss = decaps K (ct.take P.ctBytes) (sk.take P.skBytes) ++ ss.drop P.bytes ∧ o.ret = 0) := by
  have hev : (P.bytes + P.pkBytes) % 2 = 0 := by cases hS <;> rfl
  refine (crypto_kem_dec_ret hS.wf ha.1 ha.2 (by omega) hss hct hsk).mono fun o ho => ?_
  rw [matA_kem hS hB] at ho
  exact ⟨ho.1, ho.2.2.2.2.2.2.2.2.1⟩

/-- C11, a way to violate C: if the secret key is at an odd address, the conversion of `sk_S` to
`uint16_t *` (and the accesses through it) are undefined, in every build. -/
theorem C11_dec_odd_address {P : Params} {K : KemParams} {g : MatGen} (B : Build) (E : Env)
    (skAddr : Nat) (ss ct sk : List U8) (hS : Standard P g K) (hal : skAddr % 2 = 1) :
    crypto_kem_dec B E P skAddr ss ct sk = .ub .misaligned := by
  have hev : (P.bytes + P.pkBytes) % 2 = 0 := by cases hS <;> rfl
  have h : ¬(skAddr + (P.bytes + P.pkBytes)) % 2 = 0 := by omega
  unfold crypto_kem_dec loadS C.require
  rw [if_neg h]
  rfl

/-- The hypotheses of C05, C06 and C07 can be met in every good build, for instance with
FrodoKEM-640. -/
example (B : Build) (hB : Good B) : ∃ K, Standard frodo640 B.gen K ∧ AlignedKeypair B E0 frodo640 ∧
    AlignedKem B E0 frodo640 ∧
    Fills (rbConst (List.replicate 16 1 ++ List.replicate 16 2 ++ List.replicate 16 3))
      (List.replicate 16 1 ++ List.replicate 16 2 ++ List.replicate 16 3) ∧
    frodo640.pkBytes ≤ (List.replicate 9616 (0 : U8)).length ∧
    (∃ o, Ret (crypto_kem_dec B E0 frodo640 4096 (List.replicate 16 0) (List.replicate 9720 7)
      (List.replicate 19888 9)) (· = o)) := by
  have ha := E0_kem B
  refine ⟨_, .frodo640 _, E0_keypair B, ha, fills_const _, ?_, ?_⟩
  · rw [List.length_replicate]; exact Nat.le_refl _
  · obtain ⟨o, t, h, _⟩ := C07_dec B E0 4096 (List.replicate 16 0) (List.replicate 9720 7)
      (List.replicate 19888 9) (.frodo640 _) hB ha rfl (by rw [List.length_replicate]; exact Nat.le_refl _)
      (by rw [List.length_replicate]; exact Nat.le_refl _)
      (by rw [List.length_replicate]; exact Nat.le_refl _)
    exact ⟨o, o, t, h, rfl⟩

/-- The noise of an honest exchange is within the half-open interval that decoding corrects. -/
def NoiseBound (K : KemParams) (seedSE pk mu : List U8) : Prop :=
  ∀ i j, -(2 ^ K.D : ℤ) ≤ 2 ^ (K.B + 1) *
      totalNoise K seedSE (deriveSeeds K (K.shake pk K.len) mu).1 i j ∧
    2 ^ (K.B + 1) * totalNoise K seedSE (deriveSeeds K (K.shake pk K.len) mu).1 i j < 2 ^ K.D

/-- C01.  Key generation, encapsulation and decapsulation, each in any good build with the same
generator: if the accumulated noise is within bounds, both parties hold the same secret. -/
theorem C01_round_trip {P : Params} {K : KemParams} (B B' B'' : Build) (E E' E'' : Env)
    (rb rb' : RandomBytes) (skAddr : Nat) (pk sk ct ss ss' s seedSE z mu : List U8)
    (hS : Standard P B.gen K) (hg' : B'.gen = B.gen) (hg'' : B''.gen = B.gen)
    (hB' : Good B') (hB'' : Good B'')
    (ha : AlignedKeypair B E P) (ha' : AlignedKem B' E' P) (ha'' : AlignedKem B'' E'' P)
    (hal : skAddr % 2 = 0)
    (hs : s.length = K.len) (hse : seedSE.length = K.len) (hz : z.length = K.lenA)
    (hmu : mu.length = K.len) (hrb : Fills rb (s ++ seedSE ++ z)) (hrb' : Fills rb' mu)
    (hpk : pk.length = P.pkBytes) (hsk : sk.length = P.skBytes) (hct : ct.length = P.ctBytes)
    (hss : ss.length = P.bytes) (hss' : ss'.length = P.bytes)
    (hn : NoiseBound K seedSE (keygen K s seedSE z).1 mu) :
    Ret (do
      let kp ← crypto_kem_keypair B E P rb pk sk
      let en ← crypto_kem_enc B' E' P rb' ct ss kp.pk
      let de ← crypto_kem_dec B'' E'' P skAddr ss' en.ct kp.sk
      pure (en.ss, de.ss)) (fun r => r.1 = r.2 ∧ r.1 = (encaps K (keygen K s seedSE z).1 mu).2) := by
  have hS' : Standard P B'.gen K := by rw [hg']; exact hS
  have hS'' : Standard P B''.gen K := by rw [hg'']; exact hS
  have hl : K.len = P.bytes := by rw [← hS.kem]; rfl
  have hk := hS.kwf
  have lpk : (keygen K s seedSE z).1.length = P.pkBytes := by
    rw [length_keygen_pk hk, hS.pkLen]
  have lsk : (keygen K s seedSE z).2.length = P.skBytes := by
    rw [length_keygen_sk hk hs, hS.skLen]
  have lct : (encaps K (keygen K s seedSE z).1 mu).1.length = P.ctBytes := by
    rw [length_encaps_ct, hS.ctLen]
  refine (C05_keypair B E rb pk sk s seedSE z hS ha hs hse hz hrb (by omega) (by omega)).bind
    fun kp hkp => ?_
  rw [List.drop_eq_nil_of_le (by omega), List.append_nil, List.drop_eq_nil_of_le (by omega),
    List.append_nil] at hkp
  refine (C06_enc B' E' rb' ct ss kp.pk mu hS' hB' ha' hmu hrb' (by rw [hkp.1]; omega) (by omega)
    (by omega)).bind fun en hen => ?_
  rw [List.drop_eq_nil_of_le (by omega), List.append_nil, List.drop_eq_nil_of_le (by omega),
    List.append_nil, hkp.1, List.take_of_length_le (by omega)] at hen
  refine (C07_dec B'' E'' skAddr ss' en.ct kp.sk hS'' hB'' ha'' hal (by omega)
    (by rw [hen.1]; omega) (by rw [hkp.2.1]; omega)).bind fun de hde => ?_
  rw [List.drop_eq_nil_of_le (by omega), List.append_nil, hen.1, hkp.2.1,
    List.take_of_length_le (by omega), List.take_of_length_le (by omega),
    decaps_encaps hk hs hmu (fun i j => ⟨_, (hn i j).1, (hn i j).2, rfl⟩)] at hde
  exact ⟨_, _, rfl, by rw [hen.2.1, hde.1], hen.2.1⟩

/-- C01, the exact condition: what decapsulation decodes is the message if and only if every entry of
the accumulated noise is congruent to an integer of the half-open interval. -/
theorem C01_decrypts_iff {P : Params} {K : KemParams} {g : MatGen} (hS : Standard P g K)
    (s seedSE z mu : List U8) (hmu : mu.length = K.len) :
    decrypt K (encaps K (keygen K s seedSE z).1 mu).1 (modQ K.D (keygenNoise K seedSE).1) = mu ↔
    ∀ i j, tolerable K.D K.B ((totalNoise K seedSE (deriveSeeds K
      (K.shake (keygen K s seedSE z).1 K.len) mu).1 i j : ℤ) : ZMod (2 ^ K.D)) := by
  have hk := hS.kwf
  have h := decrypt_encrypt hk s seedSE z mu (deriveSeeds K (K.shake (keygen K s seedSE z).1 K.len) mu).1
  have e : (encaps K (keygen K s seedSE z).1 mu).1 =
      packMat (encrypt K (keygen K s seedSE z).1 mu
        (deriveSeeds K (K.shake (keygen K s seedSE z).1 K.len) mu).1).1 ++
      packMat (encrypt K (keygen K s seedSE z).1 mu
        (deriveSeeds K (K.shake (keygen K s seedSE z).1 K.len) mu).1).2 := rfl
  rw [e, h, decode_encode_iff hk.B_pos hk.B_lt (hk.nbar8.mul_right _) _ _ (by rw [hmu, hk.len])]
  rfl

theorem decaps_reencrypt {K : KemParams} (hk : KWF K) {ct sk : List U8}
    (hct : ct.length = K.lenB + K.lenC) : decaps K ct sk =
    if ct = (reencrypt K ct sk).1 then K.shake (ct ++ (reencrypt K ct sk).2) K.len
    else K.shake (ct ++ sk.take K.len) K.len := by
  rw [decaps_eq]
  by_cases h : ct = (reencrypt K ct sk).1
  · rw [if_pos h, if_pos ((parseCt_eq_iff hk hct _).2 h)]; rfl
  · rw [if_neg h, if_neg (fun h' => h ((parseCt_eq_iff hk hct _).1 h'))]; rfl

/-- C03.  For every ciphertext and every secret key `crypto_kem_dec` returns 0 and writes
`SHAKE(ct || k')` if the ciphertext is, byte for byte, the re-encryption of what it decrypts to, and
`SHAKE(ct || s)` otherwise. -/
theorem C03_implicit_rejection {P : Params} {K : KemParams} (B : Build) (E : Env) (skAddr : Nat)
    (ss ct sk : List U8) (hS : Standard P B.gen K) (hB : Good B) (ha : AlignedKem B E P)
    (hal : skAddr % 2 = 0) (hss : ss.length = P.bytes) (hct : ct.length = P.ctBytes)
    (hsk : sk.length = P.skBytes) :
    Ret (crypto_kem_dec B E P skAddr ss ct sk) (fun o => o.ret = 0 ∧
      (ct = (reencrypt K ct sk).1 → o.ss = K.shake (ct ++ (reencrypt K ct sk).2) K.len) ∧
      (ct ≠ (reencrypt K ct sk).1 → o.ss = K.shake (ct ++ sk.take K.len) K.len)) := by
  refine (C07_dec B E skAddr ss ct sk hS hB ha hal (by omega) (by omega) (by omega)).mono
    fun o ho => ?_
  rw [List.take_of_length_le (by omega), List.take_of_length_le (by omega),
    List.drop_eq_nil_of_le (by omega), List.append_nil,
    decaps_reencrypt hS.kwf (by rw [hct, hS.ctLen])] at ho
  refine ⟨ho.2, fun h => ?_, fun h => ?_⟩
  · rw [ho.1, if_pos h]
  · rw [ho.1, if_neg h]

/-- C04.  Of two different ciphertexts that decrypt to the same message under a secret key, at least
one is rejected: `crypto_kem_dec` gives `SHAKE(ct || s)`. -/
theorem C04_non_malleable {P : Params} {K : KemParams} (B : Build) (E : Env) (skAddr : Nat)
    (ss ct₁ ct₂ sk : List U8) (hS : Standard P B.gen K) (hB : Good B) (ha : AlignedKem B E P)
    (hal : skAddr % 2 = 0) (hss : ss.length = P.bytes) (hct₁ : ct₁.length = P.ctBytes)
    (hct₂ : ct₂.length = P.ctBytes) (hsk : sk.length = P.skBytes) (hne : ct₁ ≠ ct₂)
    (hmu : decrypt K ct₁ (parseSk K sk).St = decrypt K ct₂ (parseSk K sk).St) :
    Ret (crypto_kem_dec B E P skAddr ss ct₁ sk) (·.ss = K.shake (ct₁ ++ sk.take K.len) K.len) ∨
    Ret (crypto_kem_dec B E P skAddr ss ct₂ sk) (·.ss = K.shake (ct₂ ++ sk.take K.len) K.len) := by
  have he : reencrypt K ct₁ sk = reencrypt K ct₂ sk := by
    unfold reencrypt; simp only; rw [hmu]
  by_cases h : ct₁ = (reencrypt K ct₁ sk).1
  · right
    refine (C03_implicit_rejection B E skAddr ss ct₂ sk hS hB ha hal hss hct₂ hsk).mono
      fun o ho => ho.2.2 fun h2 => hne ?_
    rw [h, he, ← h2]
  · left
    exact (C03_implicit_rejection B E skAddr ss ct₁ sk hS hB ha hal hss hct₁ hsk).mono
      fun o ho => ho.2.2 h

/-- C04 is not vacuous: two different ciphertexts can decrypt to the same message. -/
example : ∃ K : KemParams, K = Frodo640 .aes ∧ ∃ M N : Matrix (Fin 8) (Fin 8) (ZMod (2 ^ 15)),
    M ≠ N ∧ decode K.B M = decode K.B N := by
  refine ⟨_, rfl, encode 15 2 8 8 (List.replicate 16 0) + 0,
    encode 15 2 8 8 (List.replicate 16 0) + Matrix.of fun _ _ => 1, ?_, ?_⟩
  · intro h
    have h1 := congrFun (congrFun h 0) 0
    rw [Matrix.add_apply, Matrix.add_apply] at h1
    have h1 := add_left_cancel h1
    simp only [Matrix.zero_apply, Matrix.of_apply] at h1
    exact absurd h1 (by decide)
  · show decode 2 _ = decode 2 _
    rw [(decode_encode_iff (by omega) (by omega) (by decide) _ _ (by simp)).2,
      (decode_encode_iff (by omega) (by omega) (by decide) _ _ (by simp)).2]
    · intro i j; exact ⟨1, by norm_num, by norm_num, by simp⟩
    · intro i j; exact ⟨0, by norm_num, by norm_num, by simp⟩

end Frodo.Props
