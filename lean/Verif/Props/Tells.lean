import Verif.Proof.Tells
import Verif.Props.KemTrace

/-! # C61: exactly what the traces tell

C13 and C14 say that the traces of the KEM functions depend on no secret, and with the portable AES on nothing but the seed
of `A`.  Here the other direction: with the portable AES the trace determines this seed, so the hypotheses on the seeds in
C13 and C14 are needed for every pair of seeds, not just for an example. -/

namespace Frodo.Props

open Spec

/-- The portable AES is used to generate `A`. -/
def TableAes (B : Build) : Prop := B.gen = .aes ∧ B.aes = .c

/-- C61.  The key schedules of the portable AES, whatever is in memory: equal traces if and only if equal keys. -/
theorem C61_schedule (J J' : Junk) (key key' rk rk' : List U8) :
    (key.length = 16 → key'.length = 16 → 176 ≤ rk.length → 176 ≤ rk'.length → rk.length = rk'.length →
      (traceOf (aes128_load_schedule_c J key rk) = traceOf (aes128_load_schedule_c J' key' rk') ↔ key = key')) ∧
    (key.length = 32 → key'.length = 32 → 240 ≤ rk.length → 240 ≤ rk'.length → rk.length = rk'.length →
      (traceOf (aes256_load_schedule_c J key rk) = traceOf (aes256_load_schedule_c J' key' rk') ↔ key = key')) := by
  have main : ∀ Nk Nr, (Nk = 4 ∧ Nr = 10) ∨ (Nk = 8 ∧ Nr = 14) → key.length = 4 * Nk → key'.length = 4 * Nk →
      16 * (Nr + 1) ≤ rk.length → 16 * (Nr + 1) ≤ rk'.length → rk.length = rk'.length →
      (traceOf (load_schedule_c J Nk Nr key rk) = traceOf (load_schedule_c J' Nk Nr key' rk') ↔ key = key') := by
    intro Nk Nr hN hk hk' hr hr' hrr
    constructor
    · intro h
      obtain ⟨a, t, e, -⟩ := load_schedule_c_ret (J := J) hN (by omega) hr (key := key)
      have h1 : traceOf (load_schedule_c J Nk Nr key rk) = some t := by rw [e]; rfl
      have := (load_schedule_c_tells (J := J) (J' := J') hN (by omega) (by omega) hr hr' (key := key) (key' := key')).of_trace
        h1 (h ▸ h1)
      rwa [List.take_of_length_le (by omega), List.take_of_length_le (by omega)] at this
    · rintro rfl
      have hrel : SameTrace (load_schedule_c J Nk Nr key rk) (load_schedule_c J' Nk Nr key rk') :=
        (load_schedule_c_rel (by omega) (by omega) (fun _ _ => rfl) rfl hrr.symm).same
      obtain ⟨t, h1, h2⟩ := hrel.trace_eq (load_schedule_c_ret hN (by omega) hr) (load_schedule_c_ret hN (by omega) hr')
      rw [h1, h2]
  exact ⟨main 4 10 (.inl ⟨rfl, rfl⟩), main 8 14 (.inr ⟨rfl, rfl⟩)⟩

/-- C61.  Decapsulation with the portable AES: the trace tells the seed of `A` that is stored in the secret key, and nothing else,
neither about the rest of the key nor about the ciphertext or the contents of memory. -/
theorem C61_dec {P : Params} {K : KemParams} (B : Build) (E E' : Env) (skAddr skAddr' : Nat)
    (ss ss' ct ct' sk sk' : List U8) (hS : Standard P B.gen K) (hB : TableAes B)
    (ha : AlignedKem B E P) (ha' : AlignedKem B E' P)
    (hal : skAddr % 2 = 0) (hal' : skAddr' % 2 = 0)
    (hss : P.bytes ≤ ss.length) (hss' : P.bytes ≤ ss'.length)
    (hct : P.ctBytes ≤ ct.length) (hct' : P.ctBytes ≤ ct'.length)
    (hsk : P.skBytes ≤ sk.length) (hsk' : P.skBytes ≤ sk'.length) :
    traceOf (crypto_kem_dec B E P skAddr ss ct sk) = traceOf (crypto_kem_dec B E' P skAddr' ss' ct' sk') ↔
      (sk.drop P.bytes).take 16 = (sk'.drop P.bytes).take 16 := by
  have hl : P.bytes + 16 ≤ P.skBytes := by cases hS <;> decide
  constructor
  · intro h
    obtain ⟨t, h1, -⟩ := C13_dec_trace B E E skAddr skAddr ss ss ct ct sk sk hS ha ha hal hal hss hss hct hct hsk hsk
      fun _ _ => rfl
    exact (crypto_kem_dec_tells hB.1 hB.2 (by omega) (by omega)).of_trace h1 (h ▸ h1)
  · intro h
    obtain ⟨t, h1, h2⟩ := C13_dec_trace B E E' skAddr skAddr' ss ss' ct ct' sk sk' hS ha ha' hal hal' hss hss' hct hct'
      hsk hsk' fun _ _ => h
    rw [h1, h2]

/-- C61.  Encapsulation with the portable AES: the trace tells the seed of `A` in the public key and nothing else. -/
theorem C61_enc {P : Params} {K : KemParams} (B : Build) (E E' : Env) (rb rb' : RandomBytes)
    (ct ct' ss ss' pk pk' : List U8) (hS : Standard P B.gen K) (hB : TableAes B)
    (ha : AlignedKem B E P) (ha' : AlignedKem B E' P)
    (hrb : Behaves rb) (hrb' : Behaves rb') (hleak : ∀ b b' n, SameTrace (rb b n) (rb' b' n))
    (hpk : P.pkBytes ≤ pk.length) (hpk' : P.pkBytes ≤ pk'.length)
    (hct : P.ctBytes ≤ ct.length) (hct' : P.ctBytes ≤ ct'.length)
    (hss : P.bytes ≤ ss.length) (hss' : P.bytes ≤ ss'.length) :
    traceOf (crypto_kem_enc B E P rb ct ss pk) = traceOf (crypto_kem_enc B E' P rb' ct' ss' pk') ↔
      pk.take 16 = pk'.take 16 := by
  have hl : 16 ≤ P.pkBytes := by cases hS <;> decide
  constructor
  · intro h
    obtain ⟨o, t, e, -⟩ := C12_enc B E rb ct ss pk hS ha hrb hpk hct hss
    have h1 : traceOf (crypto_kem_enc B E P rb ct ss pk) = some t := by rw [e]; rfl
    exact (crypto_kem_enc_tells hB.1 hB.2 (by omega) (by omega) hleak).of_trace h1 (h ▸ h1)
  · intro h
    obtain ⟨t, h1, h2⟩ := C14_enc_trace B E E' rb rb' ct ct' ss ss' pk pk' hS ha ha' hrb hrb' hleak hpk hpk' hct hct'
      hss hss' fun _ _ => h
    rw [h1, h2]

/-- C61.  Key generation with the portable AES: the trace tells the seed of `A` that becomes a part of the public key, and nothing
about the secrets. -/
theorem C61_keypair {P : Params} {K : KemParams} (B : Build) (E E' : Env)
    (rb rb' : RandomBytes) (pk pk' sk sk' s s' seedSE seedSE' z z' : List U8)
    (hS : Standard P B.gen K) (hB : TableAes B) (ha : AlignedKeypair B E P) (ha' : AlignedKeypair B E' P)
    (hs : s.length = K.len) (hse : seedSE.length = K.len) (hz : z.length = K.lenA)
    (hs' : s'.length = K.len) (hse' : seedSE'.length = K.len) (hz' : z'.length = K.lenA)
    (hrb : Fills rb (s ++ seedSE ++ z)) (hrb' : Fills rb' (s' ++ seedSE' ++ z'))
    (hleak : ∀ b b' n, SameTrace (rb b n) (rb' b' n))
    (hpk : P.pkBytes ≤ pk.length) (hpk' : P.pkBytes ≤ pk'.length)
    (hsk : P.skBytes ≤ sk.length) (hsk' : P.skBytes ≤ sk'.length) :
    traceOf (crypto_kem_keypair B E P rb pk sk) = traceOf (crypto_kem_keypair B E' P rb' pk' sk') ↔
      K.shake z K.lenA = K.shake z' K.lenA := by
  constructor
  · intro h
    obtain ⟨o, t, e, -⟩ := C05_keypair B E rb pk sk s seedSE z hS ha hs hse hz hrb hpk hsk
    have h1 : traceOf (crypto_kem_keypair B E P rb pk sk) = some t := by rw [e]; rfl
    have hl : K.len = P.bytes := by rw [← hS.kem]; rfl
    have hlA : K.lenA = P.seedA := by rw [← hS.kem]; rfl
    have hKs : K.shake = P.shake.fn := by rw [← hS.kem]; rfl
    have h16 := hS.wf.seedA
    have hp : 16 ≤ P.pkBytes := by cases hS <;> decide
    have key : ∀ (E : Env) (rb : RandomBytes) (s seedSE z : List U8), s.length = K.len →
        seedSE.length = K.len → z.length = K.lenA → Fills rb (s ++ seedSE ++ z) →
        ∀ r t, rb (uninit E.junk 41 8 (2 * P.bytes + P.seedA)) (P.bytes + P.bytes + P.seedA) = .ok r t →
          r.1 = s ++ seedSE ++ z := by
      intro E rb s seedSE z hs hse hz hrb r t h
      have hr := hrb (uninit E.junk 41 8 (2 * P.bytes + P.seedA)) (by simp; omega)
      have he : (s ++ seedSE ++ z).length = P.bytes + P.bytes + P.seedA := by simp; omega
      rw [he] at hr
      exact hr.elim _ _ h
    have d : ∀ (s seedSE z : List U8), s.length = K.len → seedSE.length = K.len → z.length = K.lenA →
        ((s ++ seedSE ++ z).drop (2 * P.bytes)).take P.seedA = z := by
      intro s seedSE z hs hse hz
      rw [List.drop_left' (by simp; omega), List.take_of_length_le (by omega)]
    refine (crypto_kem_keypair_tells (pk := pk) (pk' := pk') (sk := sk) (sk' := sk') h16 hB.1 hB.2 (by omega) (by omega) ?_).of_trace
      h1 (h ▸ h1)
    refine ((hleak _ _ _).strengthen (key E rb s seedSE z hs hse hz hrb)
      (key E' rb' s' seedSE' z' hs' hse' hz' hrb')).mono ?_
    rintro r r' ⟨-, h1, h2⟩
    refine ⟨by rw [h1]; simp; omega, by rw [h2]; simp; omega, fun g => ?_⟩
    rwa [h1, h2, d s seedSE z hs hse hz, d s' seedSE' z' hs' hse' hz', ← hKs, ← hlA] at g
  · intro h
    obtain ⟨t, h1, h2⟩ := C14_keypair_trace B E E' rb rb' pk pk' sk sk' s s' seedSE seedSE' z z' hS ha ha' hs hse hz hs' hse' hz'
      hrb hrb' hleak hpk hpk' hsk hsk' fun _ _ => h
    rw [h1, h2]

/-- C61.  The check with `DO_VALGRIND_CHECK` marks the whole secret key as secret (/repo/src/kem.c:184-186).  With the library's own
AES, the trace of decapsulation is independent of the secret key, as the check demands, if and only if the portable AES is not used:
with the portable AES the check must complain, although what shows in the trace is public. -/
theorem C61_valgrind_dec {P : Params} {K : KemParams} (B : Build) (I : AesImpl) (E : Env) (skAddr : Nat)
    (ss ct : List U8) (hS : Standard P B.gen K) (hI : B.aes = .standalone I) (ha : AlignedKem B E P) (hal : skAddr % 2 = 0)
    (hss : P.bytes ≤ ss.length) (hct : P.ctBytes ≤ ct.length) :
    (∀ sk sk' : List U8, sk.length = P.skBytes → sk'.length = P.skBytes →
      traceOf (crypto_kem_dec B E P skAddr ss ct sk) = traceOf (crypto_kem_dec B E P skAddr ss ct sk')) ↔ ¬ TableAes B := by
  have hl : P.bytes + 16 ≤ P.skBytes := by cases hS <;> decide
  constructor
  · intro h hB
    have := (C61_dec B E E skAddr skAddr ss ss ct ct (List.replicate P.skBytes 0) (List.replicate P.skBytes 1) hS hB ha ha hal hal
      hss hss hct hct (by simp) (by simp)).1 (h _ _ (by simp) (by simp))
    rw [List.drop_replicate, List.drop_replicate, List.take_replicate, List.take_replicate, Nat.min_eq_left (by omega)] at this
    exact absurd this (by decide)
  · intro h sk sk' h1 h2
    obtain ⟨t, e1, e2⟩ := C13_dec_trace B E E skAddr skAddr ss ss ct ct sk sk' hS ha ha hal hal hss hss hct hct (by omega)
      (by omega) fun hg hn => by
        cases I
        · exact absurd ⟨hg, hI⟩ h
        · exact absurd hI hn
    rw [e1, e2]

/-! ## Examples -/

example : TableAes ⟨.le, .generic, .c, .aes⟩ ∧ ¬ TableAes ⟨.le, .avx2, .ni, .aes⟩ ∧ ¬ TableAes ⟨.be, .reference, .c, .shake⟩ :=
  ⟨⟨rfl, rfl⟩, ⟨fun h => (by cases h.2), fun h => (by cases h.1)⟩⟩

/-- Two secret keys that differ in one bit of the seed have different traces. -/
example (E : Env) (ha : AlignedKem ⟨.le, .generic, .c, .aes⟩ E frodo976) (ct : List U8) (hct : ct.length = 15744) :
    traceOf (crypto_kem_dec ⟨.le, .generic, .c, .aes⟩ E frodo976 0 (List.replicate 24 0) ct (List.replicate 31296 0)) ≠
    traceOf (crypto_kem_dec ⟨.le, .generic, .c, .aes⟩ E frodo976 0 (List.replicate 24 0) ct ((List.replicate 31296 0).set 24 1)) := by
  intro h
  have := (C61_dec _ E E 0 0 _ _ ct ct _ _ (.frodo976 _) ⟨rfl, rfl⟩ ha ha rfl rfl
    (List.length_replicate ▸ Nat.le_refl 24) (List.length_replicate ▸ Nat.le_refl 24)
    (hct ▸ Nat.le_refl _) (hct ▸ Nat.le_refl _) (List.length_replicate ▸ Nat.le_refl 31296)
    (by rw [List.length_set]; exact List.length_replicate ▸ Nat.le_refl 31296)).1 h
  have h0 := congrArg (fun l => l[0]?) this
  simp only [List.getElem?_take, List.getElem?_drop, List.getElem?_set, List.getElem?_replicate, List.length_replicate] at h0
  revert h0
  decide

end Frodo.Props
