import Verif.Props.Kem2
import Verif.Proof.CtKem

/-! # C13, C14: the KEM is constant time

The leakage trace of a run lists every branch outcome, every array index read or written, and every
block and address computation (`Event` in Verif/C/Monad.lean). -/

namespace Frodo.Props

open Spec

/-- C13.  The leakage trace of decapsulation is the same for any two secret keys and ciphertexts,
contents of memory and even addresses; only with the portable AES does it depend on the public seed of
`A` stored in the secret key. -/
theorem C13_dec_trace {P : Params} {K : KemParams} (B : Build) (E E' : Env) (skAddr skAddr' : Nat)
    (ss ss' ct ct' sk sk' : List U8) (hS : Standard P B.gen K)
    (ha : AlignedKem B E P) (ha' : AlignedKem B E' P)
    (hal : skAddr % 2 = 0) (hal' : skAddr' % 2 = 0)
    (hss : P.bytes ≤ ss.length) (hss' : P.bytes ≤ ss'.length)
    (hct : P.ctBytes ≤ ct.length) (hct' : P.ctBytes ≤ ct'.length)
    (hsk : P.skBytes ≤ sk.length) (hsk' : P.skBytes ≤ sk'.length)
    (hseed : B.gen = .aes → B.aes ≠ .ni →
      (sk.drop P.bytes).take 16 = (sk'.drop P.bytes).take 16) :
    ∃ t, traceOf (crypto_kem_dec B E P skAddr ss ct sk) = some t ∧
      traceOf (crypto_kem_dec B E' P skAddr' ss' ct' sk') = some t := by
  have hev : (P.bytes + P.pkBytes) % 2 = 0 := by cases hS <;> rfl
  exact (crypto_kem_dec_rel hseed).trace_eq
    (crypto_kem_dec_ret hS.wf ha.1 ha.2 (by omega) hss hct hsk)
    (crypto_kem_dec_ret hS.wf ha'.1 ha'.2 (by omega) hss' hct' hsk')

/-- C13 in particular: whether a ciphertext is accepted or rejected does not show in the trace. -/
theorem C13_no_rejection_oracle {P : Params} {K : KemParams} (B : Build) (E : Env) (skAddr : Nat)
    (ss ct ct' sk : List U8) (hS : Standard P B.gen K) (ha : AlignedKem B E P)
    (hal : skAddr % 2 = 0) (hss : P.bytes ≤ ss.length)
    (hct : P.ctBytes ≤ ct.length) (hct' : P.ctBytes ≤ ct'.length) (hsk : P.skBytes ≤ sk.length) :
    traceOf (crypto_kem_dec B E P skAddr ss ct sk) =
      traceOf (crypto_kem_dec B E P skAddr ss ct' sk) := by
  obtain ⟨t, h1, h2⟩ := C13_dec_trace B E E skAddr skAddr ss ss ct ct' sk sk hS ha ha hal hal hss hss
    hct hct' hsk hsk fun _ _ => rfl
  rw [h1, h2]

/-- C14.  The leakage trace of encapsulation is the same for any two messages delivered by
`randombytes` and any two public keys; only with the portable AES does it depend on the seed of `A` in
the public key.  (`randombytes` itself is required not to leak.) -/
theorem C14_enc_trace {P : Params} {K : KemParams} (B : Build) (E E' : Env) (rb rb' : RandomBytes)
    (ct ct' ss ss' pk pk' : List U8) (hS : Standard P B.gen K)
    (ha : AlignedKem B E P) (ha' : AlignedKem B E' P)
    (hrb : Behaves rb) (hrb' : Behaves rb') (hleak : ∀ b b' n, SameTrace (rb b n) (rb' b' n))
    (hpk : P.pkBytes ≤ pk.length) (hpk' : P.pkBytes ≤ pk'.length)
    (hct : P.ctBytes ≤ ct.length) (hct' : P.ctBytes ≤ ct'.length)
    (hss : P.bytes ≤ ss.length) (hss' : P.bytes ≤ ss'.length)
    (hseed : B.gen = .aes → B.aes ≠ .ni → pk.take 16 = pk'.take 16) :
    ∃ t, traceOf (crypto_kem_enc B E P rb ct ss pk) = some t ∧
      traceOf (crypto_kem_enc B E' P rb' ct' ss' pk') = some t :=
  (crypto_kem_enc_rel hseed hleak).trace_eq
    (C12_enc B E rb ct ss pk hS ha hrb hpk hct hss)
    (C12_enc B E' rb' ct' ss' pk' hS ha' hrb' hpk' hct' hss')

/-- C14.  The leakage trace of key generation is the same for any two seeds delivered by
`randombytes`; only with the portable AES does it depend on the public seed of `A`. -/
theorem C14_keypair_trace {P : Params} {K : KemParams} (B : Build) (E E' : Env)
    (rb rb' : RandomBytes) (pk pk' sk sk' s s' seedSE seedSE' z z' : List U8)
    (hS : Standard P B.gen K) (ha : AlignedKeypair B E P) (ha' : AlignedKeypair B E' P)
    (hs : s.length = K.len) (hse : seedSE.length = K.len) (hz : z.length = K.lenA)
    (hs' : s'.length = K.len) (hse' : seedSE'.length = K.len) (hz' : z'.length = K.lenA)
    (hrb : Fills rb (s ++ seedSE ++ z)) (hrb' : Fills rb' (s' ++ seedSE' ++ z'))
    (hleak : ∀ b b' n, SameTrace (rb b n) (rb' b' n))
    (hpk : P.pkBytes ≤ pk.length) (hpk' : P.pkBytes ≤ pk'.length)
    (hsk : P.skBytes ≤ sk.length) (hsk' : P.skBytes ≤ sk'.length)
    (hseed : B.gen = .aes → B.aes ≠ .ni → K.shake z K.lenA = K.shake z' K.lenA) :
    ∃ t, traceOf (crypto_kem_keypair B E P rb pk sk) = some t ∧
      traceOf (crypto_kem_keypair B E' P rb' pk' sk') = some t := by
  have hl : K.len = P.bytes := by rw [← hS.kem]; rfl
  have hlA : K.lenA = P.seedA := by rw [← hS.kem]; rfl
  have hKs : K.shake = P.shake.fn := by rw [← hS.kem]; rfl
  have h16 := hS.wf.seedA
  have hp := hS.wf.pk
  have key : ∀ (E : Env) (rb : RandomBytes) (s seedSE z : List U8), s.length = K.len →
      seedSE.length = K.len → z.length = K.lenA → Fills rb (s ++ seedSE ++ z) →
      ∀ r t, rb (uninit E.junk 41 8 (2 * P.bytes + P.seedA)) (P.bytes + P.bytes + P.seedA) = .ok r t →
        r.1 = s ++ seedSE ++ z := by
    intro E rb s seedSE z hs hse hz hrb r t h
    have hr := hrb (uninit E.junk 41 8 (2 * P.bytes + P.seedA)) (by simp; omega)
    have he : (s ++ seedSE ++ z).length = P.bytes + P.bytes + P.seedA := by simp; omega
    rw [he] at hr
    exact hr.elim _ _ h
  refine (crypto_kem_keypair_rel h16 (by omega) (by omega) ?_).trace_eq
    (C05_keypair B E rb pk sk s seedSE z hS ha hs hse hz hrb hpk hsk)
    (C05_keypair B E' rb' pk' sk' s' seedSE' z' hS ha' hs' hse' hz' hrb' hpk' hsk')
  refine ((hleak _ _ _).strengthen (key E rb s seedSE z hs hse hz hrb)
    (key E' rb' s' seedSE' z' hs' hse' hz' hrb')).mono ?_
  rintro r r' ⟨-, h1, h2⟩
  have d : ∀ (s seedSE z : List U8), s.length = K.len → seedSE.length = K.len → z.length = K.lenA →
      ((s ++ seedSE ++ z).drop (2 * P.bytes)).take P.seedA = z := by
    intro s seedSE z hs hse hz
    rw [List.drop_left' (by simp; omega), List.take_of_length_le (by omega)]
  refine ⟨by rw [h1]; simp; omega, by rw [h2]; simp; omega, fun g1 g2 => ?_⟩
  have := hseed g1 g2
  rw [h1, h2, d s seedSE z hs hse hz, d s' seedSE' z' hs' hse' hz', ← hKs, ← hlA, this]

/-- The hypotheses on `randombytes` are met by generators that deliver different bytes. -/
example : (∀ b b' n, SameTrace (rbConst (List.replicate 16 1) b n)
    (rbConst (List.replicate 16 2) b' n)) ∧ Fills (rbConst (List.replicate 16 1))
      (List.replicate 16 1) := ⟨fun _ _ _ => Rel.pure trivial, fills_const _⟩

/-- Decapsulation of an honest looking and of an all-zero ciphertext under two different keys. -/
example (E : Env) (ha : AlignedKem ⟨.le, .avx2, .ni, .aes⟩ E frodo976) (ct sk : List U8)
    (hct : ct.length = 15744) (hsk : sk.length = 31296) :
    ∃ t, traceOf (crypto_kem_dec ⟨.le, .avx2, .ni, .aes⟩ E frodo976 0 (List.replicate 24 0) ct sk) =
        some t ∧
      traceOf (crypto_kem_dec ⟨.le, .avx2, .ni, .aes⟩ E frodo976 0 (List.replicate 24 0)
        (List.replicate 15744 0) (List.replicate 31296 0)) = some t :=
  C13_dec_trace _ E E 0 0 _ _ ct _ sk _ (.frodo976 _) ha ha rfl rfl
    (List.length_replicate ▸ Nat.le_refl 24) (List.length_replicate ▸ Nat.le_refl 24)
    (hct ▸ Nat.le_refl _) (List.length_replicate ▸ Nat.le_refl 15744)
    (hsk ▸ Nat.le_refl _) (List.length_replicate ▸ Nat.le_refl 31296) (fun _ h => nomatch h)

end Frodo.Props
