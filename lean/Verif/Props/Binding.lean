import Verif.Spec.Binding
import Verif.Props.Kem
import Verif.Proof.Failure

/-! # C62: what the shared secret binds -/

namespace Frodo.Props

open Frodo Frodo.Spec

/-- Two decapsulations: possibly in different builds, with different keys and different ciphertexts. -/
structure TwoRuns (P : Params) (K : KemParams) where
  (B₁ B₂ : Build)
  (E₁ E₂ : Env)
  (a₁ a₂ : Nat)
  (ss₁ ss₂ ct₁ ct₂ sk₁ sk₂ : List U8)
  std₁ : Standard P B₁.gen K
  std₂ : Standard P B₂.gen K
  good₁ : Good B₁
  good₂ : Good B₂
  al₁ : AlignedKem B₁ E₁ P
  al₂ : AlignedKem B₂ E₂ P
  even₁ : a₁ % 2 = 0
  even₂ : a₂ % 2 = 0
  lss₁ : ss₁.length = P.bytes
  lss₂ : ss₂.length = P.bytes
  lct₁ : ct₁.length = P.ctBytes
  lct₂ : ct₂.length = P.ctBytes
  lsk₁ : sk₁.length = P.skBytes
  lsk₂ : sk₂.length = P.skBytes

variable {P : Params} {K : KemParams}

/-- Both decapsulations return, with shared secrets that satisfy `Q`. -/
def TwoRuns.gives (T : TwoRuns P K) (Q : List U8 → List U8 → Prop) : Prop :=
  Ret (crypto_kem_dec T.B₁ T.E₁ P T.a₁ T.ss₁ T.ct₁ T.sk₁) fun o₁ =>
    Ret (crypto_kem_dec T.B₂ T.E₂ P T.a₂ T.ss₂ T.ct₂ T.sk₂) fun o₂ => Q o₁.ss o₂.ss

theorem dec_confirmation (B : Build) (E : Env) (skAddr : Nat)
    (ss ct sk : List U8) (hS : Standard P B.gen K) (hB : Good B) (ha : AlignedKem B E P)
    (hal : skAddr % 2 = 0) (hss : ss.length = P.bytes) (hct : ct.length = P.ctBytes)
    (hsk : sk.length = P.skBytes) :
    Ret (crypto_kem_dec B E P skAddr ss ct sk) (·.ss = hashF K (ct ++ confirmation K ct sk)) := by
  refine (C03_implicit_rejection B E skAddr ss ct sk hS hB ha hal hss hct hsk).mono fun o ho => ?_
  unfold confirmation hashF
  split
  · next h => exact ho.2.1 h
  · next h => exact ho.2.2 h

/-- The shared secrets of two decapsulations are the hashes of the ciphertexts with what confirms them. -/
theorem TwoRuns.gives_of (T : TwoRuns P K) {Q : List U8 → List U8 → Prop}
    (h : Q (hashF K (T.ct₁ ++ confirmation K T.ct₁ T.sk₁)) (hashF K (T.ct₂ ++ confirmation K T.ct₂ T.sk₂))) :
    T.gives Q := by
  refine (dec_confirmation _ _ _ _ _ _ T.std₁ T.good₁ T.al₁ T.even₁ T.lss₁ T.lct₁ T.lsk₁).mono fun o₁ h₁ => ?_
  refine (dec_confirmation _ _ _ _ _ _ T.std₂ T.good₂ T.al₂ T.even₂ T.lss₂ T.lct₂ T.lsk₂).mono fun o₂ h₂ => ?_
  rw [h₁, h₂]
  exact h

theorem TwoRuns.input_eq_iff (T : TwoRuns P K) (x y : List U8) :
    T.ct₁ ++ x = T.ct₂ ++ y ↔ T.ct₁ = T.ct₂ ∧ x = y := by
  constructor
  · intro h
    exact List.append_inj h (by rw [T.lct₁, T.lct₂])
  · rintro ⟨h, rfl⟩
    rw [h]

/-- C62 (ciphertexts).  Decapsulations of different ciphertexts, whatever the keys, builds and outcomes, give the
same shared secret exactly if the strings `ct || k'` or `ct || s` that they hash are a collision of SHAKE. -/
theorem C62_ct (T : TwoRuns P K) (h : T.ct₁ ≠ T.ct₂) : T.gives fun s₁ s₂ => s₁ = s₂ ↔
    Collides (hashF K) (T.ct₁ ++ confirmation K T.ct₁ T.sk₁) (T.ct₂ ++ confirmation K T.ct₂ T.sk₂) := by
  refine T.gives_of ⟨fun e => ⟨fun hi => h ((T.input_eq_iff _ _).1 hi).1, e⟩, fun e => e.2⟩

/-- C62 (same ciphertext).  Decapsulations of one ciphertext with two keys give the same shared secret exactly if what
confirms the ciphertext is the same, or there is a collision. -/
theorem C62_same_ct (T : TwoRuns P K) (h : T.ct₁ = T.ct₂) : T.gives fun s₁ s₂ => s₁ = s₂ ↔
    confirmation K T.ct₁ T.sk₁ = confirmation K T.ct₂ T.sk₂ ∨
    Collides (hashF K) (T.ct₁ ++ confirmation K T.ct₁ T.sk₁) (T.ct₂ ++ confirmation K T.ct₂ T.sk₂) := by
  refine T.gives_of ⟨fun e => ?_, ?_⟩
  · by_cases hi : confirmation K T.ct₁ T.sk₁ = confirmation K T.ct₂ T.sk₂
    · exact Or.inl hi
    · exact Or.inr ⟨fun hj => hi ((T.input_eq_iff _ _).1 hj).2, e⟩
  · rintro (e | e)
    · rw [e, h]
    · exact e.2

theorem confirmation_accepted {ct sk : List U8} (h : Accepts K ct sk) :
    confirmation K ct sk = hashG K ((parseSk K sk).pkh ++ messageOf K ct sk) := if_pos h

theorem confirmation_rejected {ct sk : List U8} (h : ¬ Accepts K ct sk) :
    confirmation K ct sk = sk.take K.len := if_neg h

/-- C62 (accepted).  If both ciphertexts are accepted and the shared secrets are equal, then the ciphertexts, the
messages and the hashes `pkh` of the public keys are equal, or there is a collision of one of the two hashes. -/
theorem C62_accepted (T : TwoRuns P K) (h₁ : Accepts K T.ct₁ T.sk₁) (h₂ : Accepts K T.ct₂ T.sk₂) :
    T.gives fun s₁ s₂ => s₁ = s₂ →
      (T.ct₁ = T.ct₂ ∧ (parseSk K T.sk₁).pkh = (parseSk K T.sk₂).pkh ∧
        messageOf K T.ct₁ T.sk₁ = messageOf K T.ct₂ T.sk₂) ∨
      Collides (hashF K) (T.ct₁ ++ confirmation K T.ct₁ T.sk₁) (T.ct₂ ++ confirmation K T.ct₂ T.sk₂) ∨
      Collides (hashG K) ((parseSk K T.sk₁).pkh ++ messageOf K T.ct₁ T.sk₁)
        ((parseSk K T.sk₂).pkh ++ messageOf K T.ct₂ T.sk₂) := by
  refine T.gives_of fun e => ?_
  by_cases hi : T.ct₁ ++ confirmation K T.ct₁ T.sk₁ = T.ct₂ ++ confirmation K T.ct₂ T.sk₂
  · obtain ⟨hc, hk⟩ := (T.input_eq_iff _ _).1 hi
    by_cases hj : (parseSk K T.sk₁).pkh ++ messageOf K T.ct₁ T.sk₁ =
        (parseSk K T.sk₂).pkh ++ messageOf K T.ct₂ T.sk₂
    · refine Or.inl ⟨hc, List.append_inj' hj ?_⟩
      unfold messageOf decrypt
      simp only
      rw [length_decode, length_decode]
    · rw [confirmation_accepted h₁, confirmation_accepted h₂] at hk
      exact Or.inr (Or.inr ⟨hj, hk⟩)
  · exact Or.inr (Or.inl ⟨hi, e⟩)

/-- C62 (public keys).  If moreover the secret keys contain the hashes of their public keys, as those of key generation
do, then the public keys are equal, or there is a collision. -/
theorem C62_pk (T : TwoRuns P K) (h₁ : Accepts K T.ct₁ T.sk₁) (h₂ : Accepts K T.ct₂ T.sk₂)
    (hp₁ : (parseSk K T.sk₁).pkh = hashPk K (parseSk K T.sk₁).pk)
    (hp₂ : (parseSk K T.sk₂).pkh = hashPk K (parseSk K T.sk₂).pk) :
    T.gives fun s₁ s₂ => s₁ = s₂ → (parseSk K T.sk₁).pk = (parseSk K T.sk₂).pk ∨
      Collides (hashF K) (T.ct₁ ++ confirmation K T.ct₁ T.sk₁) (T.ct₂ ++ confirmation K T.ct₂ T.sk₂) ∨
      Collides (hashG K) ((parseSk K T.sk₁).pkh ++ messageOf K T.ct₁ T.sk₁)
        ((parseSk K T.sk₂).pkh ++ messageOf K T.ct₂ T.sk₂) ∨
      Collides (hashPk K) (parseSk K T.sk₁).pk (parseSk K T.sk₂).pk := by
  refine (C62_accepted T h₁ h₂).mono fun o₁ h => h.mono fun o₂ h e => ?_
  rcases h e with ⟨-, hp, -⟩ | h | h
  · by_cases hpk : (parseSk K T.sk₁).pk = (parseSk K T.sk₂).pk
    · exact Or.inl hpk
    · rw [hp₁, hp₂] at hp
      exact Or.inr (Or.inr (Or.inr ⟨hpk, hp⟩))
  · exact Or.inr (Or.inl h)
  · exact Or.inr (Or.inr (Or.inl h))

/-- C62 (rejected, refutation).  A ciphertext that two keys with the same `s` reject gives the same shared secret with
both: it says nothing about the public keys. -/
theorem C62_rejected (T : TwoRuns P K) (h : T.ct₁ = T.ct₂) (h₁ : ¬ Accepts K T.ct₁ T.sk₁)
    (h₂ : ¬ Accepts K T.ct₂ T.sk₂) (hs : T.sk₁.take K.len = T.sk₂.take K.len) :
    T.gives fun s₁ s₂ => s₁ = s₂ := by
  refine T.gives_of ?_
  rw [confirmation_rejected h₁, confirmation_rejected h₂, hs, h]

/-- The number of strings of `n` bytes. -/
theorem card_bytes (n : Nat) : Nat.card (List.Vector U8 n) = 2 ^ (8 * n) := by
  rw [Nat.card_eq_fintype_card, card_vector, card_U8, show 256 = 2 ^ 8 by norm_num, ← pow_mul]

/-- C62 (how many are accepted).  A secret key accepts at most one ciphertext per message, so at most
`2^(8 * len)` of all the `2^(8 * ctBytes)`. -/
theorem C62_accepted_count {g : MatGen} (hS : Standard P g K) (sk : List U8) :
    Nat.card {c : List.Vector U8 P.ctBytes // Accepts K c.toList sk} ≤ 2 ^ (8 * K.len) := by
  rw [← card_bytes]
  have hk := hS.kwf
  have hl : ∀ ct, (messageOf K ct sk).length = K.len := by
    intro ct
    unfold messageOf decrypt
    simp only
    rw [length_decode, hk.len]
  refine Nat.card_le_card_of_injective (fun c => ⟨messageOf K c.1.toList sk, hl _⟩) ?_
  rintro ⟨c, hc⟩ ⟨d, hd⟩ e
  have e : messageOf K c.toList sk = messageOf K d.toList sk := congrArg Subtype.val e
  refine Subtype.ext (List.Vector.toList_injective ?_)
  have : reencrypt K c.toList sk = reencrypt K d.toList sk := by
    unfold messageOf at e
    unfold reencrypt; simp only; rw [e]
  show c.toList = d.toList
  rw [show c.toList = _ from hc, this]
  exact (show d.toList = _ from hd).symm

/-- There is a ciphertext that two given keys reject. -/
theorem exists_rejected {g : MatGen} (hS : Standard P g K) (sk₁ sk₂ : List U8) :
    ∃ ct : List U8, ct.length = P.ctBytes ∧ ¬ Accepts K ct sk₁ ∧ ¬ Accepts K ct sk₂ := by
  by_contra hne
  push Not at hne
  have hlt : 2 ^ (8 * K.len) + 2 ^ (8 * K.len) < Nat.card (List.Vector U8 P.ctBytes) := by
    rw [card_bytes, ← Nat.two_mul, ← Nat.pow_succ']
    refine Nat.pow_lt_pow_right (by omega) ?_
    cases hS <;> cases g <;> decide
  have h1 := C62_accepted_count hS sk₁
  have h2 := C62_accepted_count hS sk₂
  have : Nat.card (List.Vector U8 P.ctBytes) ≤
      Nat.card ({c : List.Vector U8 P.ctBytes // Accepts K c.toList sk₁} ⊕
        {c : List.Vector U8 P.ctBytes // Accepts K c.toList sk₂}) := by
    refine Nat.card_le_card_of_surjective
      (Sum.elim Subtype.val Subtype.val : _ ⊕ _ → List.Vector U8 P.ctBytes) fun c => ?_
    by_cases h : Accepts K c.toList sk₁
    · exact ⟨Sum.inl ⟨c, h⟩, rfl⟩
    · exact ⟨Sum.inr ⟨c, hne c.toList c.2 h⟩, rfl⟩
  rw [Nat.card_sum] at this
  omega

/-- C62 (public keys, refutation).  For any two secret keys with the same `s`, for instance with different public keys,
there is a ciphertext that gives the same shared secret with both, in all builds: without the condition that it is
accepted the shared secret does not bind the public key, whatever the hash function. -/
theorem C62_pk_unbound {g : MatGen} (hS : Standard P g K) (sk₁ sk₂ : List U8) (hs : sk₁.take K.len = sk₂.take K.len) :
    ∃ ct : List U8, ct.length = P.ctBytes ∧ ∀ T : TwoRuns P K, T.ct₁ = ct → T.ct₂ = ct → T.sk₁ = sk₁ → T.sk₂ = sk₂ →
      T.gives fun s₁ s₂ => s₁ = s₂ := by
  obtain ⟨ct, hl, h1, h2⟩ := exists_rejected hS sk₁ sk₂
  refine ⟨ct, hl, ?_⟩
  rintro T e1 e2 e3 e4
  refine C62_rejected T (by rw [e1, e2]) ?_ ?_ (by rw [e3, e4]; exact hs)
  · rw [e1, e3]; exact h1
  · rw [e2, e4]; exact h2

/-- The hypotheses of C62_accepted and C62_pk are met by the keys of key generation and the ciphertexts of
encapsulation, if the noise is within the bounds of C01. -/
theorem C62_honest {g : MatGen} (hS : Standard P g K) {s seedSE z mu : List U8} (hs : s.length = K.len)
    (hmu : mu.length = K.len)
    (hn : ∀ i j, tolerable K.D K.B ((totalNoise K seedSE (deriveSeeds K
      (K.shake (keygen K s seedSE z).1 K.len) mu).1 i j : ℤ) : ZMod (2 ^ K.D))) :
    Accepts K (encaps K (keygen K s seedSE z).1 mu).1 (keygen K s seedSE z).2 ∧
    (parseSk K (keygen K s seedSE z).2).pkh = hashPk K (parseSk K (keygen K s seedSE z).2).pk := by
  have hd := (C01_decrypts_iff hS s seedSE z mu hmu).2 hn
  have hp := parse_keygen hS.kwf (seedSE := seedSE) (z := z) hs
  refine ⟨?_, by rw [hp]; rfl⟩
  unfold Accepts reencrypt
  simp only
  rw [hp]
  simp only
  rw [hd]
  rfl

/-- Two keys with the same `s` and different public keys, and a ciphertext, in two builds. -/
def exRuns (ct : List U8) (h : ct.length = frodo640.ctBytes) : TwoRuns frodo640 (Frodo640 .aes) where
  B₁ := ⟨.le, .generic, .c, .aes⟩
  B₂ := ⟨.le, .reference, .c, .aes⟩
  E₁ := E0
  E₂ := E0
  a₁ := 4096
  a₂ := 4096
  ss₁ := List.replicate 16 0
  ss₂ := List.replicate 16 0
  ct₁ := ct
  ct₂ := ct
  sk₁ := List.replicate 19888 9
  sk₂ := List.replicate 16 9 ++ List.replicate 19872 7
  std₁ := .frodo640 _
  std₂ := .frodo640 _
  good₁ := Or.inr rfl
  good₂ := Or.inl rfl
  al₁ := E0_kem _
  al₂ := E0_kem _
  even₁ := rfl
  even₂ := rfl
  lss₁ := List.length_replicate
  lss₂ := List.length_replicate
  lct₁ := h
  lct₂ := h
  lsk₁ := List.length_replicate
  lsk₂ := by rw [List.length_append, List.length_replicate, List.length_replicate]; rfl

/-- The hypotheses of C62_pk_unbound and of C62_rejected can be met: the keys above share a secret although their
public keys are different. -/
example : ∃ ct, ∃ h : ct.length = frodo640.ctBytes, (exRuns ct h).gives (fun s₁ s₂ => s₁ = s₂) ∧
    (parseSk (Frodo640 .aes) (exRuns ct h).sk₁).pk ≠ (parseSk (Frodo640 .aes) (exRuns ct h).sk₂).pk := by
  obtain ⟨ct, h, hT⟩ := C62_pk_unbound (.frodo640 .aes) (List.replicate 19888 9)
    (List.replicate 16 9 ++ List.replicate 19872 7) (by
      rw [List.take_replicate, List.take_left' (by rw [List.length_replicate]; rfl)]; rfl)
  refine ⟨ct, h, hT (exRuns ct h) rfl rfl rfl rfl, fun e => ?_⟩
  have e : ((List.replicate 19888 (9 : U8)).drop 16).take 9616 =
    ((List.replicate 16 9 ++ List.replicate 19872 (7 : U8)).drop 16).take 9616 := e
  rw [List.drop_left' List.length_replicate, List.drop_replicate, List.take_replicate, List.take_replicate] at e
  exact absurd (congrArg (fun l => nth l 0) e) (by
    rw [nth_replicate, nth_replicate, if_pos (by decide), if_pos (by decide)]
    decide)

end Frodo.Props
