import Verif.Props.Kem
import Verif.Proof.SelfTest

/-! # C50: the self-test of the library -/

namespace Frodo.Props

open Spec

/-- The random bytes of an iteration have the right lengths. -/
structure TestRand.WF (K : KemParams) (r : TestRand) : Prop where
  s : r.s.length = K.len
  seedSE : r.seedSE.length = K.len
  z : r.z.length = K.lenA
  mu : r.mu.length = K.len
  bytes : r.bytes.length = 4

/-- The three calls of `randombytes` in iteration `i` deliver the bytes `R i`. -/
def Delivers (rb : Nat → RandomBytes) (r : TestRand) : Prop :=
  Fills (rb 0) (r.s ++ r.seedSE ++ r.z) ∧ Fills (rb 1) r.mu ∧ Fills (rb 2) r.bytes

/-- The buffers of `kem_test` have the declared lengths. -/
structure TestSt.WF (P : Params) (s : TestSt) : Prop where
  pk : s.pk.length = P.pkBytes
  sk : s.sk.length = P.skBytes
  ss_encap : s.ss_encap.length = P.bytes
  ss_decap : s.ss_decap.length = P.bytes
  ct : s.ct.length = P.ctBytes

theorem Standard.ctEven {P : Params} {g : MatGen} {K : KemParams} (h : Standard P g K) :
    P.ctBytes = 2 * (P.ctBytes / 2) ∧ 2 ≤ P.ctBytes / 2 ∧ P.ctBytes / 2 < 2 ^ 16 := by
  cases h <;> decide

theorem testPos_lt {a : Arch} {bytes : List U8} {n : Nat} (h : 2 ≤ n / 2) :
    1 ≤ testPos a bytes n ∧ testPos a bytes n < n / 2 := by
  have := Nat.mod_lt (memVal a bytes) (show 0 < n / 2 by omega)
  unfold testPos
  omega

/-- C50 (the change): the test changes every ciphertext, in one digit and nowhere else. -/
theorem C50_tampered {P : Params} {g : MatGen} {K : KemParams} (hS : Standard P g K) (a : Arch)
    (r : TestRand) :
    ∃ p, 1 ≤ p ∧ 2 * p + 1 < K.lenB + K.lenC ∧ r.bad K a ≠ (r.enc K).1 ∧
      (r.bad K a).length = (r.enc K).1.length ∧
      ∀ i, i ≠ 2 * p → i ≠ 2 * p + 1 → nth (r.bad K a) i = nth (r.enc K).1 i := by
  have hl : (r.enc K).1.length = K.lenB + K.lenC := length_encaps_ct _ _ _
  have he := hS.ctEven
  rw [hS.ctLen] at he
  obtain ⟨h1, h2⟩ := testPos_lt (a := a) (bytes := r.bytes) he.2.1
  refine ⟨testPos a r.bytes (K.lenB + K.lenC), h1, by omega, ?_, length_tampered _ _ _, ?_⟩
  · unfold TestRand.bad
    generalize testPos a r.bytes (K.lenB + K.lenC) = p at h1 h2 ⊢
    intro h
    have hx : ∀ (x : U8) (v : Nat), v < 256 → x ^^^ BitVec.ofNat 8 v = x → v = 0 := by
      intro x v hv h
      have h := congrArg (x ^^^ ·) h
      simp only [← BitVec.xor_assoc, BitVec.xor_self, BitVec.zero_xor] at h
      have := congrArg BitVec.toNat h
      rwa [BitVec.toNat_ofNat, BitVec.toNat_zero, Nat.mod_eq_of_lt (by omega)] at this
    have e0 := congrArg (nth · (2 * p)) h
    have e1 := congrArg (nth · (2 * p + 1)) h
    cases a <;> simp only [tampered] at e0 e1 <;>
      rw [nth_xorAt (by rw [length_xorAt]; omega), nth_xorAt (by omega)] at e0 e1 <;>
      rw [if_neg (by omega), if_pos rfl] at e0 <;>
      rw [if_pos rfl, if_neg (by omega)] at e1 <;>
      have e0 := hx _ _ (by omega) e0 <;> have e1 := hx _ _ (by omega) e1 <;> omega
  · intro i hi1 hi2
    unfold TestRand.bad
    generalize testPos a r.bytes (K.lenB + K.lenC) = p at hi1 hi2 ⊢
    by_cases hi : i < (r.enc K).1.length
    · cases a <;> simp only [tampered] <;>
        rw [nth_xorAt (by rw [length_xorAt]; omega), nth_xorAt (by omega), if_neg (by omega),
          if_neg (by omega)]
    · rw [nth_of_le (by rw [length_tampered]; omega), nth_of_le (by omega)]

open Classical in
theorem tamperTest_ret {P : Params} {K : KemParams} (B : Build) (E : Env) (a : TestAddr)
    (rb : RandomBytes) (s : TestSt) (bytes : List U8) (hS : Standard P B.gen K) (hB : Good B)
    (ha : AlignedAll B E P) (hsk : a.sk % 2 = 0) (hct : a.ct % 2 = 0) (hw : TestSt.WF P s)
    (hb : bytes.length = 4) (hrb : Fills rb bytes) :
    Ret (tamperTest B E P a rb s) (fun s' => TestSt.WF P s' ∧
      (s'.failed = false ↔
        decaps K (tampered B.arch s.ct (testPos B.arch bytes P.ctBytes)) s.sk =
        K.shake (tampered B.arch s.ct (testPos B.arch bytes P.ctBytes) ++ s.sk.take K.len) K.len)) := by
  have hl := hS.ssLen
  have hskl : P.bytes ≤ P.skBytes := by rw [hS.skLen]; omega
  obtain ⟨c1, c2, c3⟩ := hS.ctEven
  obtain ⟨p1, p2⟩ := testPos_lt (a := B.arch) (bytes := bytes) c2
  unfold tamperTest
  have hr := hrb (uninit E.junk 60 8 4) (by rw [hb]; simp)
  rw [hb] at hr
  refine hr.bind ?_
  rintro ⟨b, r⟩ rfl
  refine (choosePos_ret (P := P) hb).bind_eq ?_
  rw [Ret_require_bind]
  refine ⟨hct, (changeDigit_ret (n := P.ctBytes / 2) (by rw [hw.ct]; exact c1) p2).bind_eq ?_⟩
  have hcl : (tampered B.arch s.ct (testPos B.arch b P.ctBytes)).length = P.ctBytes := by
    rw [length_tampered, hw.ct]
  generalize tampered B.arch s.ct (testPos B.arch b P.ctBytes) = ct at hcl ⊢
  refine (C07_dec B E a.sk s.ss_decap ct s.sk hS hB ha.2 hsk (by rw [hw.ss_decap])
    (by rw [hcl]) (by rw [hw.sk])).bind ?_
  rintro de ⟨hd, -⟩
  rw [List.take_of_length_le (by rw [hcl]), List.take_of_length_le (by rw [hw.sk]),
    List.drop_eq_nil_of_le (by rw [hw.ss_decap]), List.append_nil] at hd
  rw [Ret_memcpy_bind]
  refine ⟨by omega, by simp, ?_⟩
  rw [Ret_memcpy_bind]
  refine ⟨by rw [hw.sk]; omega, by simp; omega, ?_⟩
  have hF : ∀ l : List U8, (List.take P.ctBytes (List.take 0 l ++ List.take P.ctBytes (List.drop 0 ct) ++
      List.drop (0 + P.ctBytes) l) ++ List.take P.bytes (List.drop 0 s.sk)) =
      ct ++ s.sk.take P.bytes := by
    intro l
    simp only [List.take_zero, List.nil_append, List.drop_zero]
    rw [List.take_of_length_le (l := ct) (by omega), List.take_left' hcl]
  rw [hF, List.drop_eq_nil_of_le (by simp [hcl]), List.append_nil]
  have hFl : (ct ++ s.sk.take P.bytes).length = P.ctBytes + P.bytes := by
    rw [List.length_append, List.length_take, hw.sk, hcl]; omega
  refine (shake_ret (by omega) (by rw [hw.ss_encap])).bind_eq ?_
  rw [List.take_of_length_le (by omega), List.drop_eq_nil_of_le (by rw [hw.ss_encap]), List.append_nil]
  have hsf : ∀ x n, P.shake.fn x n = K.shake x n := by
    intro x n
    rw [← hS.kem]; rfl
  have hdl : de.ss.length = P.bytes := by
    rw [hd, decaps_reencrypt hS.kwf (by rw [hcl, hS.ctLen]), hl]
    split <;> exact hS.kwf.shake _ _
  refine (memcmp_ret (by rw [hsf, hS.kwf.shake]) (by omega)).bind_eq ?_
  rw [hsf, List.take_of_length_le (l := K.shake _ _) (by rw [hS.kwf.shake]),
    List.take_of_length_le (l := de.ss) (by omega), ← hl]
  by_cases h : K.shake (ct ++ s.sk.take P.bytes) P.bytes = de.ss
  · rw [if_pos h]
    refine ⟨_, _, rfl, ⟨hw.pk, hw.sk, hS.kwf.shake _ _, hdl, hcl⟩, ?_⟩
    rw [h, hd]
    simp
  · rw [if_neg h]
    refine ⟨_, _, rfl, ⟨hw.pk, hw.sk, hS.kwf.shake _ _, hdl, hcl⟩, ?_⟩
    rw [← hd]
    simp [Ne.symm h]

theorem testRound_ret {P : Params} {K : KemParams} (B : Build) (E : Env) (a : TestAddr)
    (rb : Nat → RandomBytes) (s : TestSt) (r : TestRand) (hS : Standard P B.gen K) (hB : Good B)
    (ha : AlignedAll B E P) (hsk : a.sk % 2 = 0) (hct : a.ct % 2 = 0) (hw : TestSt.WF P s)
    (hr : TestRand.WF K r) (hrb : Delivers rb r) :
    Ret (testRound B E P a rb s) (fun s' => TestSt.WF P s' ∧
      (s'.failed = false ↔ r.passes K B.arch)) := by
  have hl := hS.ssLen
  have hk := hS.kwf
  have lpk : (r.keys K).1.length = P.pkBytes := by
    unfold TestRand.keys
    rw [length_keygen_pk hk, hS.pkLen]
  have lsk : (r.keys K).2.length = P.skBytes := by
    unfold TestRand.keys
    rw [length_keygen_sk hk hr.s, hS.skLen]
  have lct : (r.enc K).1.length = P.ctBytes := by
    unfold TestRand.enc
    rw [length_encaps_ct, hS.ctLen]
  have lss : (r.enc K).2.length = P.bytes := by
    rw [hl]; exact hk.shake _ _
  unfold testRound
  refine (C05_keypair B E (rb 0) s.pk s.sk r.s r.seedSE r.z hS ha.1 hr.s hr.seedSE hr.z hrb.1
    (by rw [hw.pk]) (by rw [hw.sk])).bind ?_
  rintro kp ⟨k1, k2, -⟩
  change kp.pk = (r.keys K).1 ++ _ at k1
  change kp.sk = (r.keys K).2 ++ _ at k2
  rw [List.drop_eq_nil_of_le (by rw [hw.pk]), List.append_nil] at k1
  rw [List.drop_eq_nil_of_le (by rw [hw.sk]), List.append_nil] at k2
  refine (C06_enc B E (rb 1) s.ct s.ss_encap kp.pk r.mu hS hB ha.2 hr.mu hrb.2.1
    (by rw [k1, lpk]) (by rw [hw.ct]) (by rw [hw.ss_encap])).bind ?_
  rintro en ⟨e1, e2, -⟩
  rw [k1, List.take_of_length_le (by rw [lpk])] at e1 e2
  change en.ct = (r.enc K).1 ++ _ at e1
  change en.ss = (r.enc K).2 ++ _ at e2
  rw [List.drop_eq_nil_of_le (by rw [hw.ct]), List.append_nil] at e1
  rw [List.drop_eq_nil_of_le (by rw [hw.ss_encap]), List.append_nil] at e2
  refine (C07_dec B E a.sk s.ss_decap en.ct kp.sk hS hB ha.2 hsk (by rw [hw.ss_decap])
    (by rw [e1, lct]) (by rw [k2, lsk])).bind ?_
  rintro de ⟨hd, -⟩
  rw [List.drop_eq_nil_of_le (by rw [hw.ss_decap]), List.append_nil, e1, k2,
    List.take_of_length_le (by rw [lct]), List.take_of_length_le (by rw [lsk])] at hd
  have hdl : de.ss.length = P.bytes := by
    rw [hd, decaps_reencrypt hk (by rw [lct, hS.ctLen]), hl]
    split <;> exact hk.shake _ _
  refine (memcmp_ret (by rw [e2, lss]) (by omega)).bind_eq ?_
  rw [e2, List.take_of_length_le (by rw [lss]), List.take_of_length_le (by omega)]
  by_cases h : (r.enc K).2 = de.ss
  · rw [if_pos h]
    simp only [ne_eq, not_true_eq_false, decide_false]
    rw [Ret_ifC, if_neg (by simp)]
    have hskt : (r.keys K).2.take K.len = r.s := by
      unfold TestRand.keys
      rw [← hr.s]
      unfold keygen
      simp only [List.append_assoc, List.take_left]
    refine (tamperTest_ret B E a (rb 2) ⟨kp.pk, kp.sk, (r.enc K).2, de.ss, en.ct, false⟩ r.bytes hS hB ha
      hsk hct ⟨by rw [k1, lpk], by rw [k2, lsk], lss, hdl, by rw [e1, lct]⟩ hr.bytes hrb.2.2).mono ?_
    rintro s' ⟨h1, h2⟩
    refine ⟨h1, h2.trans ?_⟩
    simp only [e1, k2, hskt]
    unfold TestRand.passes TestRand.bad
    rw [← hS.ctLen, ← hd]
    simp [h]
  · rw [if_neg h]
    refine ⟨_, _, rfl, ⟨by rw [k1, lpk], by rw [k2, lsk], lss, hdl, by rw [e1, lct]⟩, ?_⟩
    unfold TestRand.passes
    rw [← hd]
    simp [Ne.symm h]

/-- C50.  `kem_test` returns `true` if and only if in every iteration both requirements hold of the
specified KEM with the random bytes of that iteration; it does not violate C. -/
theorem C50_kem_test {P : Params} {K : KemParams} (B : Build) (E : Env) (a : TestAddr)
    (rb : Nat → RandomBytes) (R : Nat → TestRand) (n : Nat) (hS : Standard P B.gen K) (hB : Good B)
    (ha : AlignedAll B E P) (hsk : a.sk % 2 = 0) (hct : a.ct % 2 = 0) (hby : a.bytes % 4 = 0)
    (hR : ∀ i, i < n → TestRand.WF K (R i) ∧ Delivers (fun k => rb (3 * i + k)) (R i)) :
    Ret (kem_test B E P a rb n) (fun ok => ok = true ↔ ∀ i, i < n → (R i).passes K B.arch) := by
  unfold kem_test
  rw [Ret_require_bind]
  refine ⟨hby, ?_⟩
  simp only
  refine Ret.bind (Q := fun r : TestSt × Nat => r.1.failed = false ↔
    ∀ i, i < n → (R i).passes K B.arch) ?_ ?_
  · refine Ret.while (fun r : TestSt × Nat => TestSt.WF P r.1 ∧ r.2 ≤ n ∧
      (r.1.failed = false ↔ ∀ i, i < r.2 → (R i).passes K B.arch)) (fun r => n - r.2) ?_ ?_ _ ?_
    · rintro ⟨s, i⟩ ⟨hw, hi, hf⟩ hc
      simp only [Bool.and_eq_true, Bool.not_eq_true', decide_eq_true_eq] at hc hw hi hf
      refine (testRound_ret B E a _ s (R i) hS hB ha hsk hct hw (hR i hc.2).1 (hR i hc.2).2).bind ?_
      rintro s' ⟨hw', hf'⟩
      refine ⟨_, _, rfl, ⟨hw', by omega, hf'.trans ?_⟩, by show n - (i + 1) < n - i; omega⟩
      constructor
      · intro h j hj
        rcases Nat.lt_succ_iff_lt_or_eq.1 hj with hj | rfl
        · exact hf.1 hc.1 j hj
        · exact h
      · intro h
        exact h i (Nat.lt_succ_self i)
    · rintro ⟨s, i⟩ ⟨hw, hi, hf⟩ hc
      simp only at hi hf hc ⊢
      rcases Nat.lt_or_ge i n with h | h
      · cases hs : s.failed
        · simp [hs, h] at hc
        · rw [hs] at hf
          constructor
          · intro h; cases h
          · intro h'
            exact hf.2 fun j hj => h' j (by omega)
      · have : i = n := by omega
        subst this
        exact hf
    · exact ⟨⟨by simp, by simp, by simp, by simp, by simp⟩, Nat.zero_le _, by simp⟩
  · rintro ⟨s, i⟩ h
    refine ⟨_, _, rfl, ?_⟩
    rw [← h]
    cases s.failed <;> simp

/-- C50 (no false alarm): if in every iteration the noise is within bounds and the changed ciphertext is
not by accident the encryption of what it decrypts to, the test passes. -/
theorem C50_passes {P : Params} {K : KemParams} (B : Build) (E : Env) (a : TestAddr)
    (rb : Nat → RandomBytes) (R : Nat → TestRand) (n : Nat) (hS : Standard P B.gen K) (hB : Good B)
    (ha : AlignedAll B E P) (hsk : a.sk % 2 = 0) (hct : a.ct % 2 = 0) (hby : a.bytes % 4 = 0)
    (hR : ∀ i, i < n → TestRand.WF K (R i) ∧ Delivers (fun k => rb (3 * i + k)) (R i))
    (hn : ∀ i, i < n → NoiseBound K (R i).seedSE ((R i).keys K).1 (R i).mu)
    (hb : ∀ i, i < n → (R i).bad K B.arch ≠ (reencrypt K ((R i).bad K B.arch) ((R i).keys K).2).1) :
    Ret (kem_test B E P a rb n) (· = true) := by
  refine (C50_kem_test B E a rb R n hS hB ha hsk hct hby hR).mono fun ok h => h.2 fun i hi => ?_
  obtain ⟨hw, -⟩ := hR i hi
  have hlen : ((R i).bad K B.arch).length = K.lenB + K.lenC := by
    unfold TestRand.bad
    rw [length_tampered]
    exact length_encaps_ct _ _ _
  refine ⟨decaps_encaps hS.kwf hw.s hw.mu fun k l => ⟨_, (hn i hi k l).1, (hn i hi k l).2, rfl⟩, ?_⟩
  rw [decaps_reencrypt hS.kwf hlen, if_neg (hb i hi)]
  congr 2
  unfold TestRand.keys keygen
  rw [← hw.s]
  simp only [List.append_assoc, List.take_left]

/-- C50 (a change that decoding corrects is always detected): if the noise is within bounds and the
changed ciphertext decrypts to the same message, it is not the encryption of that message. -/
theorem C50_corrected {P : Params} {g : MatGen} {K : KemParams} (hS : Standard P g K) (a : Arch)
    (r : TestRand) (hw : TestRand.WF K r) (hn : NoiseBound K r.seedSE (r.keys K).1 r.mu)
    (hd : decrypt K (r.bad K a) (parseSk K (r.keys K).2).St =
      decrypt K (r.enc K).1 (parseSk K (r.keys K).2).St) :
    r.bad K a ≠ (reencrypt K (r.bad K a) (r.keys K).2).1 := by
  obtain ⟨p, -, -, hne, -⟩ := C50_tampered hS a r
  have he : reencrypt K (r.bad K a) (r.keys K).2 = reencrypt K (r.enc K).1 (r.keys K).2 := by
    unfold reencrypt; simp only; rw [hd]
  rw [he]
  intro h
  apply hne
  rw [h]
  have hpk := parse_keygen hS.kwf (seedSE := r.seedSE) (z := r.z) hw.s
  have hdm := (C01_decrypts_iff hS r.s r.seedSE r.z r.mu hw.mu).2
    fun i j => ⟨_, (hn i j).1, (hn i j).2, rfl⟩
  unfold reencrypt
  simp only
  unfold TestRand.enc TestRand.keys
  rw [hpk]
  simp only
  rw [hdm]
  rfl

/-- C50 (a way to violate C): if the array `bytes` of `unsigned char` is not at a multiple of 4, the
conversion to `uint32_t *` is undefined. -/
theorem C50_misaligned (B : Build) (E : Env) (P : Params) (a : TestAddr) (rb : Nat → RandomBytes)
    (n : Nat) (hby : a.bytes % 4 ≠ 0) : kem_test B E P a rb n = .ub .misaligned := by
  unfold kem_test C.require
  rw [if_neg hby]
  rfl

/-! ## Concrete cases -/

/-- Random bytes for FrodoKEM-640. -/
def testRand0 : TestRand := ⟨List.replicate 16 1, List.replicate 16 2, List.replicate 16 3,
  List.replicate 16 4, [0xfc, 0x12, 0, 0]⟩

/-- `randombytes` delivers them again and again. -/
def testRb0 (k : Nat) : RandomBytes :=
  if k % 3 = 0 then rbConst (List.replicate 16 1 ++ List.replicate 16 2 ++ List.replicate 16 3)
  else if k % 3 = 1 then rbConst (List.replicate 16 4)
  else rbConst [0xfc, 0x12, 0, 0]

/-- The hypotheses of C50_kem_test can be met in every good build, with any number of iterations. -/
example (B : Build) (hB : Good B) (n : Nat) := C50_kem_test (P := frodo640) B E0 ⟨64, 128, 256⟩ testRb0
  (fun _ => testRand0) n (.frodo640 _) hB
  (E0_all _) rfl rfl rfl
  fun i _ => ⟨⟨rfl, rfl, rfl, rfl, rfl⟩, by
    unfold Delivers testRb0
    simp only [show (3 * i + 0) % 3 = 0 by omega, show (3 * i + 1) % 3 = 1 by omega,
      show (3 * i + 2) % 3 = 2 by omega]
    exact ⟨fills_const _, fills_const _, fills_const _⟩⟩

/-- The positions: a multiple of the number of digits is replaced by 1. -/
example : testPos .le [0xfc, 0x12, 0, 0] 9720 = 1 ∧ testPos .le [0xfd, 0x12, 0, 0] 9720 = 1 ∧
    testPos .le [0xfe, 0x12, 0, 0] 9720 = 2 ∧ testPos .be [0, 0, 0x12, 0xfb] 9720 = 4859 := by
  decide

/-- A change of digit 2 on either byte order. -/
example : tampered .le [1, 2, 3, 4, 5, 6] 2 = [1, 2, 3, 4, 7, 6] ∧
    tampered .be [1, 2, 3, 4, 5, 6] 2 = [1, 2, 3, 4, 5, 4] := by decide

example : Ret (changeDigit .be [1, 2, 3, 4, 5, 6] 2) (· = [1, 2, 3, 4, 5, 4]) :=
  (changeDigit_ret (n := 3) rfl (by decide)).of_eq (by decide)

end Frodo.Props
