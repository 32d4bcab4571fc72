import Verif.Proof.Cca

/-! # C63 and C64: security of encryption and of encapsulation -/

namespace Frodo.Props

open Spec

/-! ## C63: encryption is as secure as LWE -/

/-- C63.  Whoever tells the encryptions of two messages apart tells LWE samples from uniform matrices, in one of four
explicit ways: with the public key (`B = A S + E`) or with the ciphertext (`B' = S' A + E'`, `V = S' B + E''`), for one of
the messages.  For every parameter set, matrix generation and attacker. -/
theorem C63_cpa {K : KemParams} (hK : KWF K) {Ω : Type} [Finite Ω] (D : FrodoCpa K Ω) : advCpa (frodoPke K) D ≤
    advKey K (onKey D false) + advEnc K (onEnc D false) + advEnc K (onEnc D true) + advKey K (onKey D true) :=
  advCpa_le hK D

/-- C63 where the noise is made from seeds, as in the code: whoever tells encryptions apart does so for uniform strings
too, or tells one of the three functions that expand seeds from a random string. -/
theorem C63_seed (K : KemParams) {Ω : Type} [Finite Ω] (D : FrodoCpa K Ω) :
    advCpa (frodoSeedPke K) D ≤ advCpa (frodoPke K) D +
    (advPrg (expandZ K) (onZ D false) + advPrg (expandKey K) (onSeedKey D false) +
      advPrg (expandEnc K) (onSeedEnc D false)) +
    (advPrg (expandZ K) (onZ D true) + advPrg (expandKey K) (onSeedKey D true) +
      advPrg (expandEnc K) (onSeedEnc D true)) :=
  advCpa_seed_le D

/-- The public key of the game is that of key generation. -/
theorem C63_keygen {K : KemParams} (hK : KWF K) (s : List U8) (z : List.Vector U8 K.lenA) (seedSE : List.Vector U8 K.len) :
    (frodoSeedPke K).pk (z, seedSE) = (keygen K s seedSE.toList z.toList).1 := by
  show pkBytes K (expandZ K z) (lweKey K (expandZ K z) (expandKey K seedSE)) = _
  unfold pkBytes lweKey expandZ expandKey
  rw [toList_vec (hK.shake _ _), toList_vec (hK.shake _ _)]
  rfl

/-- Encryption of the game is that of the specification, for every public key. -/
theorem C63_encrypt {K : KemParams} (hK : KWF K) (pk : List U8) (hpk : K.lenA ≤ pk.length)
    (mu : List.Vector U8 K.len) (seedSE : List.Vector U8 K.len) :
    ((frodoSeedPke K).enc pk mu seedSE).toList =
      packMat (encrypt K pk mu.toList seedSE.toList).1 ++ packMat (encrypt K pk mu.toList seedSE.toList).2 := by
  have h1 : (Spec.vec K.lenA pk).toList = pk.take K.lenA := by
    show (pk ++ List.replicate K.lenA 0).take K.lenA = _
    rw [List.take_append_of_le_length hpk]
  show (encr K (Spec.vec _ pk) (unpackMat K.D K.n K.nbar (pk.drop K.lenA)) mu (expandEnc K seedSE)).toList = _
  unfold encr
  simp only
  rw [toList_ctBytes]
  unfold lweEnc encrypt encapsNoise expandEnc
  simp only
  rw [toList_vec (hK.shake _ _), h1]
  rfl

/-- Decryption of the game is that of the specification. -/
theorem C63_decrypt {K : KemParams} (hK : KWF K) (z : List.Vector U8 K.lenA) (seedSE : List.Vector U8 K.len)
    (c : List.Vector U8 (K.lenB + K.lenC)) :
    ((frodoSeedPke K).dec (z, seedSE) c).toList =
      decrypt K c.toList (modQ K.D (keygenNoise K seedSE.toList).1) := by
  show (decr K (expandKey K seedSE) c).toList = _
  unfold decr expandKey
  rw [toList_vec, toList_vec (hK.shake _ _)]
  · rfl
  · show (decode K.B _).length = K.len
    rw [length_decode, hK.len]

theorem head_vec {l : Nat} (h : 0 < l) (a : U8) : (Spec.vec l [a]).toList.head? = some a := by
  cases l with
  | zero => omega
  | succ l => rfl

/-- An attacker that chooses two different messages and looks at the ciphertext; one that does not look at it has no
advantage. -/
example (g : MatGen) : ∃ D D' : FrodoCpa (Frodo640 g) Unit, (D.choose () []).1 ≠ (D.choose () []).2 ∧
    (∃ c c', D.guess () [] c ∧ ¬ D.guess () [] c') ∧ D'.choose = D.choose ∧ advCpa (frodoPke (Frodo640 g)) D' = 0 := by
  refine ⟨⟨fun _ _ => (Spec.vec _ [1], Spec.vec _ [2]), fun _ _ c => c = Spec.vec _ [3]⟩,
    ⟨fun _ _ => (Spec.vec _ [1], Spec.vec _ [2]), fun _ _ _ => True⟩, ?_, ⟨Spec.vec _ [3], Spec.vec _ [4], rfl, ?_⟩,
    rfl, by simp [advCpa]⟩
  · intro h
    have h := congrArg (fun v => v.toList.head?) h
    simp only [head_vec (show 0 < (Frodo640 g).len by cases g <;> decide)] at h
    exact absurd h (by decide)
  · intro h
    have h := congrArg (fun v => v.toList.head?) h
    simp only [head_vec (show 0 < (Frodo640 g).lenB + (Frodo640 g).lenC by cases g <;> decide)] at h
    exact absurd h (by decide)

/-! ## C64: encapsulation is as secure as encryption, in the random oracle model -/

/-- An attacker on FrodoKEM. -/
abbrev FrodoCca (K : KemParams) (Ω : Type) : Type := CcaAttacker (List.Vector U8 K.len) (List.Vector U8 K.len)
  (List.Vector U8 K.len) (List.Vector U8 K.len) (List.Vector U8 (K.lenB + K.lenC)) Ω

/-- C64.  Let the hash functions `mu ↦ (seedSE', k)` and `(c, k) ↦ ss` be random functions which the attacker can ask, at
most `a` and `b` times, and let it ask for any number of decapsulations.  Whoever tells the shared secret of an
encapsulation from a random string tells encryptions of two random messages apart, except with a small probability. -/
theorem C64_cca {P : Params} {K : KemParams} {g : MatGen} (hS : Standard P g K) {Ω : Type} [Finite Ω] [Nonempty Ω]
    (A : FrodoCca K Ω) {a b : Nat} (hA : ∀ ω pk c x, (A ω pk c x).Asks a b) : advCca (frodoSeedPke K) A ≤
    2 * (advCpa (frodoSeedPke K) (cpaOfCca (frodoSeedPke K) A) + (a + 3 * b) / 2 ^ (8 * K.len) +
      (a + 1) * (1 / 2 ^ failExp K.n + advPrg (expandKey K) (testKey K) + advPrg (expandEnc K) (testEnc K))) := by
  have h := advCca_le (frodoSeedPke K) (fun k sd => ¬ Within K (noiseOf K (expandKey K k.2).toList
    (expandEnc K sd).toList)) (fun k m sd hw => decr_encr hS.kwf (expandZ K k.1, expandKey K k.2) m (expandEnc K sd)
      (not_not.1 hw)) A hA
  have h3 := mul_le_mul_of_nonneg_left (seed_noise_le hS) (show (0 : ℚ) ≤ a + 1 by positivity)
  rw [card_vector] at h
  rw [← mul_one_div ((a : ℚ) + 3 * b)]
  linarith

/-- C64 in terms of LWE and of the functions that expand seeds. -/
theorem C64_lwe {P : Params} {K : KemParams} {g : MatGen} (hS : Standard P g K) {Ω : Type} [Finite Ω] [Nonempty Ω]
    (A : FrodoCca K Ω) {a b : Nat} (hA : ∀ ω pk c x, (A ω pk c x).Asks a b) :
    let D := cpaOfCca (frodoSeedPke K) A
    advCca (frodoSeedPke K) A ≤
    2 * ((advKey K (onKey D false) + advEnc K (onEnc D false) + advEnc K (onEnc D true) + advKey K (onKey D true)) +
      (advPrg (expandZ K) (onZ D false) + advPrg (expandKey K) (onSeedKey D false) +
        advPrg (expandEnc K) (onSeedEnc D false)) +
      (advPrg (expandZ K) (onZ D true) + advPrg (expandKey K) (onSeedKey D true) +
        advPrg (expandEnc K) (onSeedEnc D true)) + (a + 3 * b) / 2 ^ (8 * K.len) +
      (a + 1) * (1 / 2 ^ failExp K.n + advPrg (expandKey K) (testKey K) + advPrg (expandEnc K) (testEnc K))) := by
  intro D
  have h1 := C64_cca hS A hA
  have h2 := C63_seed K D
  have h3 := C63_cpa hS.kwf D
  linarith

/-- C64 where the first hash function gives the noise strings themselves: no assumption on the functions that expand
seeds is left. -/
theorem C64_strings {P : Params} {K : KemParams} {g : MatGen} (hS : Standard P g K) {Ω : Type} [Finite Ω] [Nonempty Ω]
    (A : CcaAttacker (List.Vector U8 K.len) (List.Vector U8 K.lenR') (List.Vector U8 K.len) (List.Vector U8 K.len)
      (List.Vector U8 (K.lenB + K.lenC)) Ω) {a b : Nat} (hA : ∀ ω pk c x, (A ω pk c x).Asks a b) :
    advCca (frodoPke K) A ≤
    2 * (advCpa (frodoPke K) (cpaOfCca (frodoPke K) A) + (a + 3 * b) / 2 ^ (8 * K.len) + (a + 1) / 2 ^ failExp K.n) := by
  have h := advCca_le (frodoPke K) (fun k r' => ¬ Within K (noiseOf K k.2.toList r'.toList))
    (fun k m r' hw => decr_encr hS.kwf k m r' (not_not.1 hw)) A hA
  have e : (Pr fun p : (List.Vector U8 K.lenA × List.Vector U8 K.lenR) × List.Vector U8 K.lenR' =>
      ¬ Within K (noiseOf K p.1.2.toList p.2.toList)) =
      Pr fun p : Strings K => ¬ Within K (noiseOf K p.1.toList p.2.toList) := by
    rw [Pr_eq, Pr_eq]
    simp only [ex_prod, ex_const]
  rw [e, card_vector] at h
  have h3 := mul_le_mul_of_nonneg_left (noise_le hS) (show (0 : ℚ) ≤ a + 1 by positivity)
  rw [← mul_one_div ((a : ℚ) + 3 * b), ← mul_one_div ((a : ℚ) + 1)]
  linarith

/-- The hash functions of the specification. -/
def hashG (K : KemParams) (pk : List U8) (mu : List.Vector U8 K.len) : List.Vector U8 K.len × List.Vector U8 K.len :=
  (Spec.vec _ (deriveSeeds K (K.shake pk K.len) mu.toList).1,
    Spec.vec _ (deriveSeeds K (K.shake pk K.len) mu.toList).2)
def hashF (K : KemParams) (c : List.Vector U8 (K.lenB + K.lenC)) (k : List.Vector U8 K.len) : List.Vector U8 K.len :=
  Spec.vec _ (K.shake (c.toList ++ k.toList) K.len)

theorem length_deriveSeeds {K : KemParams} (hK : KWF K) (pkh mu : List U8) :
    (deriveSeeds K pkh mu).1.length = K.len ∧ (deriveSeeds K pkh mu).2.length = K.len := by
  show ((K.shake (pkh ++ mu) (2 * K.len)).take K.len).length = _ ∧
    ((K.shake (pkh ++ mu) (2 * K.len)).drop K.len).length = _
  rw [List.length_drop, List.length_take, hK.shake]
  omega

/-- Encapsulation of the specification is that of the game, with these hash functions, for every public key. -/
theorem C64_encaps {K : KemParams} (hK : KWF K) (pk : List U8) (hpk : K.lenA ≤ pk.length) (mu : List.Vector U8 K.len) :
    encaps K pk mu.toList =
      (((frodoSeedPke K).enc pk mu (hashG K pk mu).1).toList,
        (foSecret ((frodoSeedPke K).enc pk) (hashG K pk) (hashF K) mu).toList) := by
  have hl := length_deriveSeeds hK (K.shake pk K.len) mu.toList
  have h1 := C63_encrypt hK pk hpk mu (hashG K pk mu).1
  have h2 : (hashG K pk mu).1.toList = (deriveSeeds K (K.shake pk K.len) mu.toList).1 := toList_vec hl.1
  have h3 : (hashG K pk mu).2.toList = (deriveSeeds K (K.shake pk K.len) mu.toList).2 := toList_vec hl.2
  unfold foSecret hashF
  rw [toList_vec (hK.shake _ _), h1, h2, h3]
  rfl

/-- Decapsulation of the specification, with the secret key of key generation, is that of the game with these hash
functions, for every ciphertext. -/
theorem C64_decaps {K : KemParams} (hK : KWF K) (s seedSE : List.Vector U8 K.len) (z : List.Vector U8 K.lenA)
    (c : List.Vector U8 (K.lenB + K.lenC)) :
    decaps K c.toList (keygen K s.toList seedSE.toList z.toList).2 =
      (foDecaps ((frodoSeedPke K).enc ((frodoSeedPke K).pk (z, seedSE))) ((frodoSeedPke K).dec (z, seedSE))
        (hashG K ((frodoSeedPke K).pk (z, seedSE))) (hashF K) s c).toList := by
  have hpk := C63_keygen hK s.toList z seedSE
  have lpk := length_keygen_pk hK s.toList seedSE.toList z.toList
  have hsk := parse_keygen hK (seedSE := seedSE.toList) (z := z.toList) s.toList_length
  have hdec := C63_decrypt hK z seedSE c
  rw [decaps_eq, hsk]
  simp only
  rw [← hdec, ← hpk]
  rw [← hpk] at lpk
  generalize (frodoSeedPke K).pk (z, seedSE) = pk at *
  generalize (frodoSeedPke K).dec (z, seedSE) = dc at *
  have hl := length_deriveSeeds hK (K.shake pk K.len) (dc c).toList
  have e1 : (hashG K pk (dc c)).1.toList = (deriveSeeds K (K.shake pk K.len) (dc c).toList).1 := toList_vec hl.1
  have e2 : (hashG K pk (dc c)).2.toList = (deriveSeeds K (K.shake pk K.len) (dc c).toList).2 := toList_vec hl.2
  have h1 := C63_encrypt hK pk (by omega) (dc c) (hashG K pk (dc c)).1
  rw [← e1, ← e2]
  have h2 : (parseCt K c.toList = encrypt K pk (dc c).toList (hashG K pk (dc c)).1.toList) ↔
      (frodoSeedPke K).enc pk (dc c) (hashG K pk (dc c)).1 = c := by
    rw [parseCt_eq_iff hK c.toList_length, ← h1]
    exact ⟨fun h => List.Vector.eq _ _ h.symm, fun h => congrArg List.Vector.toList h.symm⟩
  show _ = (if (frodoSeedPke K).enc pk (dc c) (hashG K pk (dc c)).1 = c then hashF K c (hashG K pk (dc c)).2
    else hashF K c s).toList
  unfold hashF
  by_cases h : (frodoSeedPke K).enc pk (dc c) (hashG K pk (dc c)).1 = c
  · rw [if_pos h, if_pos (h2.2 h), toList_vec (hK.shake _ _)]
  · rw [if_neg h, if_neg fun h' => h (h2.1 h'), toList_vec (hK.shake _ _)]

/-- The C code computes what the game computes with these hash functions: the public key, the ciphertext and the shared
secret of an encapsulation, and the decapsulation of every ciphertext with a generated key. -/
theorem C64_code {P : Params} {K : KemParams} (B : Build) (E : Env) (rb rb' : RandomBytes)
    (pk sk ct ss ss' : List U8) (s seedSE mu : List.Vector U8 K.len) (z : List.Vector U8 K.lenA)
    (c : List.Vector U8 (K.lenB + K.lenC))
    (skAddr : Nat) (hS : Standard P B.gen K) (hB : Good B) (ha : AlignedAll B E P) (hal : skAddr % 2 = 0)
    (hrb : Fills rb (s.toList ++ seedSE.toList ++ z.toList))
    (hrb' : Fills rb' mu.toList) (hpk : pk.length = P.pkBytes) (hsk : sk.length = P.skBytes)
    (hct : ct.length = P.ctBytes) (hss : ss.length = P.bytes) (hss' : ss'.length = P.bytes) :
    let S := frodoSeedPke K
    let p := S.pk (z, seedSE)
    let G := hashG K p
    Ret (do
      let kp ← crypto_kem_keypair B E P rb pk sk
      let en ← crypto_kem_enc B E P rb' ct ss kp.pk
      let de ← crypto_kem_dec B E P skAddr ss' c.toList kp.sk
      pure (kp.pk, en.ct, en.ss, de.ss)) (fun o =>
      o.1 = p ∧ o.2.1 = (S.enc p mu (G mu).1).toList ∧
      o.2.2.1 = (foSecret (S.enc p) G (hashF K) mu).toList ∧
      o.2.2.2 = (foDecaps (S.enc p) (S.dec (z, seedSE)) G (hashF K) s c).toList) := by
  intro S p G
  have hK := hS.kwf
  have hkg := C63_keygen hK s.toList z seedSE
  have lpk := length_keygen_pk hK s.toList seedSE.toList z.toList
  have lsk := length_keygen_sk hK s.toList_length seedSE.toList z.toList
  have hdc := C64_decaps hK s seedSE z c
  have l1 := hS.pkLen
  have l2 := hS.skLen
  have l3 := hS.ctLen
  refine (C05_keypair B E rb pk sk s.toList seedSE.toList z.toList hS ha.1 s.toList_length seedSE.toList_length
    z.toList_length hrb (by omega) (by omega)).bind ?_
  intro kp hkp
  have e1 : kp.pk = (keygen K s.toList seedSE.toList z.toList).1 := by rw [hkp.1, ← hpk, List.drop_length, List.append_nil]
  have e2 : kp.sk = (keygen K s.toList seedSE.toList z.toList).2 := by rw [hkp.2.1, ← hsk, List.drop_length, List.append_nil]
  refine (C06_enc B E rb' ct ss kp.pk mu.toList hS hB ha.2 mu.toList_length hrb' (by rw [e1]; omega) (by omega)
    (by omega)).bind ?_
  intro en hen
  refine (C07_dec B E skAddr ss' c.toList kp.sk hS hB ha.2 hal (by omega) (by rw [c.toList_length]; omega)
    (by rw [e2]; omega)).bind ?_
  intro de hde
  have e3 : de.ss = (foDecaps (S.enc p) (S.dec (z, seedSE)) G (hashF K) s c).toList := by
    have t1 : c.toList.take P.ctBytes = c.toList := List.take_of_length_le (by rw [c.toList_length]; omega)
    have t2 : kp.sk.take P.skBytes = (keygen K s.toList seedSE.toList z.toList).2 := by
      rw [e2]; exact List.take_of_length_le (by omega)
    rw [hde.1, ← hss', List.drop_length, List.append_nil, t1, t2, hdc]
  have e4 := C64_encaps hK p (show K.lenA ≤ ((frodoSeedPke K).pk (z, seedSE)).length by rw [hkg]; omega) mu
  have t3 : kp.pk.take P.pkBytes = p := by
    rw [e1]; refine Eq.trans ?_ hkg.symm; exact List.take_of_length_le (by omega)
  rw [t3] at hen
  rw [e4, ← hct, List.drop_length, List.append_nil, ← hss, List.drop_length, List.append_nil] at hen
  exact ⟨_, _, rfl, e1.trans hkg.symm, hen.1, hen.2.1, e3⟩

/-- A case of `C64_code`. -/
example (B : Build) (hB : Good B) (c : List.Vector U8 ((Frodo640 B.gen).lenB + (Frodo640 B.gen).lenC)) :=
  C64_code B E0 (rbConst ((Spec.vec (Frodo640 B.gen).len [1, 2]).toList ++ (Spec.vec (Frodo640 B.gen).len [3]).toList ++
    (Spec.vec (Frodo640 B.gen).lenA [4]).toList))
    (rbConst (Spec.vec (Frodo640 B.gen).len [5]).toList) (List.replicate 9616 0) (List.replicate 19888 0)
    (List.replicate 9720 0) (List.replicate 16 0) (List.replicate 16 0) (Spec.vec _ [1, 2])
    (Spec.vec _ [3]) (Spec.vec _ [5]) (Spec.vec _ [4]) c 4096 (.frodo640 _) hB (E0_all B) rfl (fills_const _) (fills_const _)
    List.length_replicate List.length_replicate List.length_replicate List.length_replicate List.length_replicate

/-- An attacker that asks both hash functions and for a decapsulation, and uses the answers. -/
example (g : MatGen) : ∃ A : FrodoCca (Frodo640 g) Unit, (∀ ω pk c x, (A ω pk c x).Asks 1 1) ∧
    ∀ pk c x, ¬ (A () pk c x).Asks 0 1 :=
  ⟨fun _ _ c x => .askD c fun y => .askG (y.getD x) fun rv => .askF c rv.2 fun z => .answer (z = x),
    fun _ _ _ _ _ => ⟨by decide, fun _ => ⟨by decide, fun _ => trivial⟩⟩,
    fun _ _ _ h => absurd (h none).1 (by decide)⟩

end Frodo.Props
