import Verif.Props.Kem

/-! # Further properties of the KEM: builds, byte order, memory, wiping, layout, randomness -/

namespace Frodo.Props

open Spec

/-! ## C08, C09: builds and byte order -/

/-- C08.  Any two builds with the same generator of `A` produce the same key pair, whatever the byte
order of their targets. -/
theorem C08_keypair {P : Params} {K : KemParams} (B B' : Build) (E E' : Env) (rb rb' : RandomBytes)
    (pk sk s seedSE z : List U8) (hS : Standard P B.gen K) (hg : B'.gen = B.gen)
    (ha : AlignedKeypair B E P) (ha' : AlignedKeypair B' E' P)
    (hs : s.length = K.len) (hse : seedSE.length = K.len) (hz : z.length = K.lenA)
    (hrb : Fills rb (s ++ seedSE ++ z)) (hrb' : Fills rb' (s ++ seedSE ++ z))
    (hpk : P.pkBytes ≤ pk.length) (hsk : P.skBytes ≤ sk.length) :
    ∃ v, Ret (crypto_kem_keypair B E P rb pk sk) (fun o => (o.pk, o.sk, o.ret) = v) ∧
      Ret (crypto_kem_keypair B' E' P rb' pk sk) (fun o => (o.pk, o.sk, o.ret) = v) :=
  ⟨(_, _, 0), (C05_keypair B E rb pk sk s seedSE z hS ha hs hse hz hrb hpk hsk).mono fun o h => by
      rw [h.1, h.2.1, h.2.2],
    (C05_keypair B' E' rb' pk sk s seedSE z (hg ▸ hS) ha' hs hse hz hrb' hpk hsk).mono fun o h => by
      rw [h.1, h.2.1, h.2.2]⟩

/-- C08.  Any two good builds with the same generator of `A` produce the same ciphertext and shared
secret. -/
theorem C08_enc {P : Params} {K : KemParams} (B B' : Build) (E E' : Env) (rb rb' : RandomBytes)
    (ct ss pk mu : List U8) (hS : Standard P B.gen K) (hg : B'.gen = B.gen) (hB : Good B)
    (hB' : Good B') (ha : AlignedKem B E P) (ha' : AlignedKem B' E' P)
    (hmu : mu.length = K.len) (hrb : Fills rb mu) (hrb' : Fills rb' mu)
    (hpk : P.pkBytes ≤ pk.length) (hct : P.ctBytes ≤ ct.length) (hss : P.bytes ≤ ss.length) :
    ∃ v, Ret (crypto_kem_enc B E P rb ct ss pk) (fun o => (o.ct, o.ss, o.ret) = v) ∧
      Ret (crypto_kem_enc B' E' P rb' ct ss pk) (fun o => (o.ct, o.ss, o.ret) = v) :=
  ⟨(_, _, 0), (C06_enc B E rb ct ss pk mu hS hB ha hmu hrb hpk hct hss).mono fun o h => by
      rw [h.1, h.2.1, h.2.2],
    (C06_enc B' E' rb' ct ss pk mu (hg ▸ hS) hB' ha' hmu hrb' hpk hct hss).mono fun o h => by
      rw [h.1, h.2.1, h.2.2]⟩

/-- C08.  Any two good builds with the same generator of `A` decapsulate to the same secret. -/
theorem C08_dec {P : Params} {K : KemParams} (B B' : Build) (E E' : Env) (skAddr skAddr' : Nat)
    (ss ct sk : List U8) (hS : Standard P B.gen K) (hg : B'.gen = B.gen) (hB : Good B)
    (hB' : Good B') (ha : AlignedKem B E P) (ha' : AlignedKem B' E' P)
    (hal : skAddr % 2 = 0) (hal' : skAddr' % 2 = 0)
    (hss : P.bytes ≤ ss.length) (hct : P.ctBytes ≤ ct.length) (hsk : P.skBytes ≤ sk.length) :
    ∃ v, Ret (crypto_kem_dec B E P skAddr ss ct sk) (fun o => (o.ss, o.ret) = v) ∧
      Ret (crypto_kem_dec B' E' P skAddr' ss ct sk) (fun o => (o.ss, o.ret) = v) :=
  ⟨(_, 0), (C07_dec B E skAddr ss ct sk hS hB ha hal hss hct hsk).mono fun o h => by
      rw [h.1, h.2],
    (C07_dec B' E' skAddr' ss ct sk (hg ▸ hS) hB' ha' hal' hss hct hsk).mono fun o h => by
      rw [h.1, h.2]⟩

/-- Portable big-endian reference code and little-endian AVX2 code with AES-NI are two good builds
with the same generator. -/
example : Good ⟨.be, .reference, .c, .aes⟩ ∧ Good ⟨.le, .avx2, .ni, .aes⟩ ∧
    ¬ Good ⟨.be, .generic, .c, .aes⟩ := ⟨.inl rfl, .inr rfl, by
  rintro (h | h)
  · exact nomatch h
  · exact nomatch h⟩

/-- The matrix `A` with the two bytes of every entry exchanged. -/
def swappedA (K : KemParams) (g : MatGen) (seedA : List U8) :
    Matrix (Fin K.n) (Fin K.n) (ZMod (2 ^ K.D)) :=
  Matrix.of fun i j => (byteSwap (genWord g K.n seedA i j) : ZMod (2 ^ K.D))

/-- The KEM in which the two bytes of every entry of `A` are exchanged. -/
def swapped (K : KemParams) (g : MatGen) : KemParams := { K with A := swappedA K g }

theorem matA_swapped {B : Build} {P : Params} {K : KemParams} (hS : Standard P B.gen K)
    (hB : ¬ Good B) : P.kem (B.matA P.logq P.n) = swapped K B.gen := by
  rw [← hS.kem]
  show P.kem _ = P.kem _
  congr 1
  funext s
  exact if_neg hB

/-- C09 is false for encapsulation with the optimised code: on a big-endian target it encapsulates for
a KEM with a different matrix `A`. -/
theorem C09_enc_big_endian {P : Params} {K : KemParams} (B : Build) (E : Env) (rb : RandomBytes)
    (ct ss pk mu : List U8) (hS : Standard P B.gen K) (hB : B.impl ≠ .reference) (hbe : B.arch = .be)
    (ha : AlignedKem B E P) (hmu : mu.length = K.len) (hrb : Fills rb mu)
    (hpk : P.pkBytes ≤ pk.length) (hct : P.ctBytes ≤ ct.length) (hss : P.bytes ≤ ss.length) :
    Ret (crypto_kem_enc B E P rb ct ss pk) (fun o =>
      o.ct = (encaps (swapped K B.gen) (pk.take P.pkBytes) mu).1 ++ ct.drop P.ctBytes ∧
      o.ss = (encaps (swapped K B.gen) (pk.take P.pkBytes) mu).2 ++ ss.drop P.bytes ∧
      o.ret = 0) := by
  have hl : K.len = P.bytes := by rw [← hS.kem]; rfl
  have hb := hS.wf.bytes
  have hr := hrb ((uninit E.junk 42 8 (P.bytes + P.bytesMu)).drop P.bytes) (by simp; omega)
  rw [show mu.length = P.bytesMu by omega] at hr
  have hG : ¬ Good B := by
    rintro (h | h)
    · exact hB h
    · rw [hbe] at h; exact nomatch h
  refine (crypto_kem_enc_ret hS.wf ha.1 ha.2 hr (by omega) hpk hct hss).mono fun o ho => ?_
  rw [matA_swapped hS hG] at ho
  exact ⟨ho.1, ho.2.1, ho.2.2.2.2.2.2.2.2.1⟩

/-- C09 is false for decapsulation with the optimised code on a big-endian target. -/
theorem C09_dec_big_endian {P : Params} {K : KemParams} (B : Build) (E : Env) (skAddr : Nat)
    (ss ct sk : List U8) (hS : Standard P B.gen K) (hB : B.impl ≠ .reference) (hbe : B.arch = .be)
    (ha : AlignedKem B E P) (hal : skAddr % 2 = 0)
    (hss : P.bytes ≤ ss.length) (hct : P.ctBytes ≤ ct.length) (hsk : P.skBytes ≤ sk.length) :
    Ret (crypto_kem_dec B E P skAddr ss ct sk) (fun o =>
      o.ss = decaps (swapped K B.gen) (ct.take P.ctBytes) (sk.take P.skBytes) ++ ss.drop P.bytes ∧
      o.ret = 0) := by
  have hev : (P.bytes + P.pkBytes) % 2 = 0 := by cases hS <;> rfl
  have hG : ¬ Good B := by
    rintro (h | h)
    · exact hB h
    · rw [hbe] at h; exact nomatch h
  refine (crypto_kem_dec_ret hS.wf ha.1 ha.2 (by omega) hss hct hsk).mono fun o ho => ?_
  rw [matA_swapped hS hG] at ho
  exact ⟨ho.1, ho.2.2.2.2.2.2.2.2.1⟩

/-- C09, consequence: on a big-endian target the optimised code does not even agree with itself.
Key generation uses `A`, encapsulation and decapsulation use the matrix `A'` with exchanged bytes, and
what is decoded is the message disturbed by `S'(A - A')S` besides the usual noise. -/
theorem C09_round_trip_big_endian {P : Params} {K : KemParams} {g : MatGen} (hS : Standard P g K)
    (s seedSE z mu : List U8) :
    decrypt K (encaps (swapped K g) (keygen K s seedSE z).1 mu).1 (modQ K.D (keygenNoise K seedSE).1) =
    decode K.B (encode K.D K.B K.nbar K.nbar mu +
      (modQ K.D (encapsNoise K (deriveSeeds K (K.shake (keygen K s seedSE z).1 K.len) mu).1).1 *
        (K.A (K.shake z K.lenA) - swappedA K g (K.shake z K.lenA)) *
        (modQ K.D (keygenNoise K seedSE).1).transpose +
      modQ K.D (totalNoise K seedSE
        (deriveSeeds K (K.shake (keygen K s seedSE z).1 K.len) mu).1))) :=
  decrypt_encrypt_two hS.kwf (swappedA K g) s seedSE z mu _

/-! ## C10: uninitialised memory -/

/-- C10.  The outputs do not depend on what was in the local variables, in the output buffers, or in
the addresses of objects, in any build. -/
theorem C10_keypair {P : Params} {K : KemParams} (B : Build) (E E' : Env) (rb : RandomBytes)
    (pk sk pk' sk' s seedSE z : List U8) (hS : Standard P B.gen K)
    (ha : AlignedKeypair B E P) (ha' : AlignedKeypair B E' P)
    (hs : s.length = K.len) (hse : seedSE.length = K.len) (hz : z.length = K.lenA)
    (hrb : Fills rb (s ++ seedSE ++ z))
    (hpk : pk.length = P.pkBytes) (hsk : sk.length = P.skBytes)
    (hpk' : pk'.length = P.pkBytes) (hsk' : sk'.length = P.skBytes) :
    ∃ v, Ret (crypto_kem_keypair B E P rb pk sk) (fun o => (o.pk, o.sk, o.ret) = v) ∧
      Ret (crypto_kem_keypair B E' P rb pk' sk') (fun o => (o.pk, o.sk, o.ret) = v) :=
  ⟨((keygen K s seedSE z).1, (keygen K s seedSE z).2, 0),
    (C05_keypair B E rb pk sk s seedSE z hS ha hs hse hz hrb (by omega) (by omega)).mono fun o h => by
      rw [h.1, h.2.1, h.2.2, List.drop_eq_nil_of_le (by omega), List.drop_eq_nil_of_le (by omega),
        List.append_nil, List.append_nil],
    (C05_keypair B E' rb pk' sk' s seedSE z hS ha' hs hse hz hrb (by omega) (by omega)).mono
      fun o h => by
      rw [h.1, h.2.1, h.2.2, List.drop_eq_nil_of_le (by omega), List.drop_eq_nil_of_le (by omega),
        List.append_nil, List.append_nil]⟩

/-- C10 for encapsulation, in any build (good or not). -/
theorem C10_enc {P : Params} {K : KemParams} (B : Build) (E E' : Env) (rb : RandomBytes)
    (ct ss ct' ss' pk mu : List U8) (hS : Standard P B.gen K)
    (ha : AlignedKem B E P) (ha' : AlignedKem B E' P)
    (hmu : mu.length = K.len) (hrb : Fills rb mu) (hpk : P.pkBytes ≤ pk.length)
    (hct : ct.length = P.ctBytes) (hss : ss.length = P.bytes)
    (hct' : ct'.length = P.ctBytes) (hss' : ss'.length = P.bytes) :
    ∃ v, Ret (crypto_kem_enc B E P rb ct ss pk) (fun o => (o.ct, o.ss, o.ret) = v) ∧
      Ret (crypto_kem_enc B E' P rb ct' ss' pk) (fun o => (o.ct, o.ss, o.ret) = v) := by
  have hl : K.len = P.bytes := by rw [← hS.kem]; rfl
  have hb := hS.wf.bytes
  have hr : ∀ E : Env, Ret (rb ((uninit E.junk 42 8 (P.bytes + P.bytesMu)).drop P.bytes) P.bytesMu)
      (·.1 = mu) := by
    intro E
    have := hrb ((uninit E.junk 42 8 (P.bytes + P.bytesMu)).drop P.bytes) (by simp; omega)
    rwa [show mu.length = P.bytesMu by omega] at this
  refine ⟨((encaps (P.kem (B.matA P.logq P.n)) (pk.take P.pkBytes) mu).1,
    (encaps (P.kem (B.matA P.logq P.n)) (pk.take P.pkBytes) mu).2, 0),
    (crypto_kem_enc_ret hS.wf ha.1 ha.2 (hr E) (by omega) hpk (by omega) (by omega)).mono fun o h => ?_,
    (crypto_kem_enc_ret hS.wf ha'.1 ha'.2 (hr E') (by omega) hpk (by omega) (by omega)).mono fun o h => ?_⟩
  · rw [h.1, h.2.1, h.2.2.2.2.2.2.2.2.1, List.drop_eq_nil_of_le (by omega),
      List.drop_eq_nil_of_le (by omega), List.append_nil, List.append_nil]
  · rw [h.1, h.2.1, h.2.2.2.2.2.2.2.2.1, List.drop_eq_nil_of_le (by omega),
      List.drop_eq_nil_of_le (by omega), List.append_nil, List.append_nil]

/-- C10 for decapsulation, in any build (good or not). -/
theorem C10_dec {P : Params} {K : KemParams} (B : Build) (E E' : Env) (skAddr skAddr' : Nat)
    (ss ss' ct sk : List U8) (hS : Standard P B.gen K)
    (ha : AlignedKem B E P) (ha' : AlignedKem B E' P)
    (hal : skAddr % 2 = 0) (hal' : skAddr' % 2 = 0)
    (hss : ss.length = P.bytes) (hss' : ss'.length = P.bytes)
    (hct : P.ctBytes ≤ ct.length) (hsk : P.skBytes ≤ sk.length) :
    ∃ v, Ret (crypto_kem_dec B E P skAddr ss ct sk) (fun o => (o.ss, o.ret) = v) ∧
      Ret (crypto_kem_dec B E' P skAddr' ss' ct sk) (fun o => (o.ss, o.ret) = v) := by
  have hev : (P.bytes + P.pkBytes) % 2 = 0 := by cases hS <;> rfl
  refine ⟨(decaps (P.kem (B.matA P.logq P.n)) (ct.take P.ctBytes) (sk.take P.skBytes), 0),
    (crypto_kem_dec_ret hS.wf ha.1 ha.2 (by omega) (by omega) hct hsk).mono fun o h => ?_,
    (crypto_kem_dec_ret hS.wf ha'.1 ha'.2 (by omega) (by omega) hct hsk).mono fun o h => ?_⟩
  · rw [h.1, h.2.2.2.2.2.2.2.2.1, List.drop_eq_nil_of_le (by omega), List.append_nil]
  · rw [h.1, h.2.2.2.2.2.2.2.2.1, List.drop_eq_nil_of_le (by omega), List.append_nil]

/-- Two environments with different contents of the local variables and different addresses. -/
example (B : Build) : AlignedKem B E0 frodo640 ∧
    AlignedKem B ⟨fun _ _ => 0x17, fun _ => 8192, .ok⟩ frodo640 ∧
    E0.junk 42 0 ≠ (fun _ _ => 0x17 : Junk) 42 0 :=
  ⟨(E0_kem _),
    ⟨⟨⟨fun _ => ready_ok _ rfl rfl, fun _ _ => ⟨rfl, rfl⟩, fun _ _ _ => show 8192 % 2 = 0 from rfl⟩, fun _ => ⟨rfl, rfl⟩⟩, rfl⟩, by decide⟩

/-! ## C11: no undefined behaviour -/

/-- A computation that terminates without undefined behaviour. -/
def Safe {α : Type} (m : C α) : Prop := m ≠ .div ∧ ∀ u, m ≠ .ub u

theorem Safe.of_ret {α : Type} {m : C α} {Q : α → Prop} (h : Ret m Q) : Safe m := by
  obtain ⟨a, t, rfl, _⟩ := h
  exact ⟨fun h => (nomatch h), fun _ h => (nomatch h)⟩

/-- A random generator that terminates, does not overrun the buffer, and keeps its size. -/
def Behaves (rb : RandomBytes) : Prop :=
  ∀ (buf : List U8) (n : Nat), buf.length = n → Ret (rb buf n) (·.1.length = n)

/-- C11.  With output buffers of at least the documented sizes, key generation terminates without
undefined behaviour in every build, whatever `randombytes` delivers. -/
theorem C11_keypair {P : Params} {K : KemParams} (B : Build) (E : Env) (rb : RandomBytes)
    (pk sk : List U8) (hS : Standard P B.gen K) (ha : AlignedKeypair B E P) (hrb : Behaves rb)
    (hpk : P.pkBytes ≤ pk.length) (hsk : P.skBytes ≤ sk.length) :
    Safe (crypto_kem_keypair B E P rb pk sk) := by
  obtain ⟨⟨R, rv⟩, t, h, hl⟩ := hrb (uninit E.junk 41 8 (2 * P.bytes + P.seedA))
    (P.bytes + P.bytes + P.seedA) (by simp; omega)
  exact .of_ret (crypto_kem_keypair_ret hS.wf ha ⟨_, t, h, rfl⟩ (by simp only at hl ⊢; omega) hpk hsk)

/-- C11 for encapsulation: any public key bytes, any build. -/
theorem C11_enc {P : Params} {K : KemParams} (B : Build) (E : Env) (rb : RandomBytes)
    (ct ss pk : List U8) (hS : Standard P B.gen K) (ha : AlignedKem B E P) (hrb : Behaves rb)
    (hpk : P.pkBytes ≤ pk.length) (hct : P.ctBytes ≤ ct.length) (hss : P.bytes ≤ ss.length) :
    Safe (crypto_kem_enc B E P rb ct ss pk) := by
  obtain ⟨⟨R, rv⟩, t, h, hl⟩ := hrb ((uninit E.junk 42 8 (P.bytes + P.bytesMu)).drop P.bytes)
    P.bytesMu (by simp)
  exact .of_ret (crypto_kem_enc_ret hS.wf ha.1 ha.2 ⟨_, t, h, rfl⟩ hl hpk hct hss)

/-- C11 for decapsulation: any ciphertext and secret key bytes at an even address, any build.
(For an odd address see `C11_dec_odd_address`.) -/
theorem C11_dec {P : Params} {K : KemParams} (B : Build) (E : Env) (skAddr : Nat)
    (ss ct sk : List U8) (hS : Standard P B.gen K) (ha : AlignedKem B E P) (hal : skAddr % 2 = 0)
    (hss : P.bytes ≤ ss.length) (hct : P.ctBytes ≤ ct.length) (hsk : P.skBytes ≤ sk.length) :
    Safe (crypto_kem_dec B E P skAddr ss ct sk) := by
  have hev : (P.bytes + P.pkBytes) % 2 = 0 := by cases hS <;> rfl
  exact .of_ret (crypto_kem_dec_ret hS.wf ha.1 ha.2 (by omega) hss hct hsk)

theorem rbFail_behaves : Behaves rbFail := fun _ _ h => ⟨_, _, rfl, h⟩

/-- A generator that repeats one byte behaves; encapsulation to an ill-formed public key is safe. -/
example (B : Build) : Safe (crypto_kem_enc B E0 frodo1344 (fun _ n => pure (List.replicate n 7, 0))
    (List.replicate 21632 0) (List.replicate 32 0) (List.replicate 21520 255)) :=
  C11_enc B E0 _ _ _ _ (.frodo1344 _)
    ⟨⟨E0_gen _, fun _ => ⟨rfl, rfl⟩⟩, rfl⟩
    (fun _ _ _ => ⟨_, _, rfl, List.length_replicate⟩)
    (List.length_replicate ▸ Nat.le_refl 21520) (List.length_replicate ▸ Nat.le_refl 21632)
    (List.length_replicate ▸ Nat.le_refl 32)

/-! ## C12: wiping -/

/-- C12.  When `crypto_kem_keypair` returns, `S` and `E`, the first two parts of `randomness`, and
`shake_input_seedSE` are zero. -/
theorem C12_keypair {P : Params} {K : KemParams} (B : Build) (E : Env) (rb : RandomBytes)
    (pk sk : List U8) (hS : Standard P B.gen K) (ha : AlignedKeypair B E P) (hrb : Behaves rb)
    (hpk : P.pkBytes ≤ pk.length) (hsk : P.skBytes ≤ sk.length) :
    Ret (crypto_kem_keypair B E P rb pk sk) (fun o =>
      o.S = List.replicate (2 * P.n * P.nbar) 0 ∧
      o.randomness.take (2 * P.bytes) = List.replicate (2 * P.bytes) 0 ∧
      o.shake_input_seedSE = List.replicate (1 + P.bytes) 0) := by
  obtain ⟨⟨R, rv⟩, t, h, hl⟩ := hrb (uninit E.junk 41 8 (2 * P.bytes + P.seedA))
    (P.bytes + P.bytes + P.seedA) (by simp; omega)
  refine (crypto_kem_keypair_ret hS.wf ha ⟨_, t, h, rfl⟩ (by simp only at hl ⊢; omega) hpk
    hsk).mono fun o ho => ⟨ho.2.2.1, ?_, ho.2.2.2.2.1⟩
  rw [ho.2.2.2.1]
  exact List.take_left' (by simp)

/-- C12.  When `crypto_kem_enc` returns, `V`, `Sp`, `Ep`, `Epp`, `mu`, `G2out`, the key part of `Fin`
and `shake_input_seedSE` are zero. -/
theorem C12_enc {P : Params} {K : KemParams} (B : Build) (E : Env) (rb : RandomBytes)
    (ct ss pk : List U8) (hS : Standard P B.gen K) (ha : AlignedKem B E P) (hrb : Behaves rb)
    (hpk : P.pkBytes ≤ pk.length) (hct : P.ctBytes ≤ ct.length) (hss : P.bytes ≤ ss.length) :
    Ret (crypto_kem_enc B E P rb ct ss pk) (fun o =>
      o.V = List.replicate (P.nbar * P.nbar) 0 ∧
      o.Sp = List.replicate (2 * (P.n * P.nbar) + P.nbar * P.nbar) 0 ∧
      o.G2in.drop P.bytes = List.replicate P.bytesMu 0 ∧
      o.G2out = List.replicate (2 * P.bytes) 0 ∧
      o.Fin.drop P.ctBytes = List.replicate P.bytes 0 ∧
      o.shake_input_seedSE = List.replicate (1 + P.bytes) 0) := by
  obtain ⟨⟨R, rv⟩, t, h, hl⟩ := hrb ((uninit E.junk 42 8 (P.bytes + P.bytesMu)).drop P.bytes)
    P.bytesMu (by simp)
  refine (crypto_kem_enc_ret hS.wf ha.1 ha.2 ⟨_, t, h, rfl⟩ hl hpk hct hss).mono fun o ho => ?_
  obtain ⟨_, _, h1, h2, h3, h4, h5, h6, _⟩ := ho
  refine ⟨h1, h2, ?_, h4, ?_, h6⟩
  · rw [h3, List.drop_left' (length_shakeFn _ _ _)]
  · rw [h5, List.drop_left']
    show (encaps (P.kem _) _ _).1.length = _
    rw [length_encaps_ct, hS.wf.ct]; rfl

/-- C12.  When `crypto_kem_dec` returns, `W`, `Sp`, `Ep`, `Epp`, `S`, `muprime`, `G2out`, the key part
of `Fin` and `shake_input_seedSEprime` are zero. -/
theorem C12_dec {P : Params} {K : KemParams} (B : Build) (E : Env) (skAddr : Nat)
    (ss ct sk : List U8) (hS : Standard P B.gen K) (ha : AlignedKem B E P) (hal : skAddr % 2 = 0)
    (hss : P.bytes ≤ ss.length) (hct : P.ctBytes ≤ ct.length) (hsk : P.skBytes ≤ sk.length) :
    Ret (crypto_kem_dec B E P skAddr ss ct sk) (fun o =>
      o.W = List.replicate (P.nbar * P.nbar) 0 ∧
      o.Sp = List.replicate (2 * (P.n * P.nbar) + P.nbar * P.nbar) 0 ∧
      o.S = List.replicate (P.n * P.nbar) 0 ∧
      o.G2in.drop P.bytes = List.replicate P.bytesMu 0 ∧
      o.G2out = List.replicate (2 * P.bytes) 0 ∧
      o.Fin.drop P.ctBytes = List.replicate P.bytes 0 ∧
      o.shake_input_seedSEprime = List.replicate (1 + P.bytes) 0) := by
  have hev : (P.bytes + P.pkBytes) % 2 = 0 := by cases hS <;> rfl
  have hskl := hS.wf.sk
  refine (crypto_kem_dec_ret hS.wf ha.1 ha.2 (by omega) hss hct hsk).mono fun o ho => ?_
  obtain ⟨_, h1, h2, h3, h4, h5, h6, h7, _⟩ := ho
  refine ⟨h1, h2, h3, ?_, h5, ?_, h7⟩
  · rw [h4, List.drop_left']
    rw [List.length_take, List.length_drop]; omega
  · rw [h6, List.drop_left']
    rw [List.length_take]; omega

/-- C47.  What is not wiped: after encapsulation the arrays `Bp` and `C` hold nothing but the
ciphertext, which is public. -/
theorem C47_enc_leftovers {P : Params} {K : KemParams} (B : Build) (E : Env) (rb : RandomBytes)
    (ct ss pk : List U8) (hS : Standard P B.gen K) (ha : AlignedKem B E P) (hrb : Behaves rb)
    (hpk : P.pkBytes ≤ pk.length) (hct : P.ctBytes ≤ ct.length) (hss : P.bytes ≤ ss.length) :
    Ret (crypto_kem_enc B E P rb ct ss pk) (fun o =>
      pack P.logq K.lenB o.Bp ++ pack P.logq K.lenC o.C = o.ct.take P.ctBytes) := by
  obtain ⟨⟨R, rv⟩, t, h, hl⟩ := hrb ((uninit E.junk 42 8 (P.bytes + P.bytesMu)).drop P.bytes)
    P.bytesMu (by simp)
  refine (crypto_kem_enc_ret hS.wf ha.1 ha.2 ⟨_, t, h, rfl⟩ hl hpk hct hss).mono fun o ho => ?_
  rw [ho.1, List.take_left']
  · rw [← ho.2.2.2.2.2.2.2.2.2, ← hS.kem]
    show pack P.logq (P.logq * P.n * P.nbar / 8) _ ++ _ = _
    rw [Nat.mul_right_comm]; rfl
  · show (encaps (P.kem _) _ _).1.length = _
    rw [length_encaps_ct, hS.wf.ct]; rfl

/-- C47.  What is not wiped: after decapsulation the arrays `BBp` and `CC` hold the re-encryption of
the decoded message.  For an accepted ciphertext that is the ciphertext itself; for a rejected one it
is a value that depends on the secret key and is left on the stack. -/
theorem C47_dec_leftovers {P : Params} {K : KemParams} (B : Build) (E : Env) (skAddr : Nat)
    (ss ct sk : List U8) (hS : Standard P B.gen K) (hB : Good B) (ha : AlignedKem B E P)
    (hal : skAddr % 2 = 0) (hss : P.bytes ≤ ss.length) (hct : ct.length = P.ctBytes)
    (hsk : sk.length = P.skBytes) :
    Ret (crypto_kem_dec B E P skAddr ss ct sk) (fun o =>
      pack P.logq K.lenB o.BBp ++ pack P.logq K.lenC o.CC = (reencrypt K ct sk).1) := by
  have hev : (P.bytes + P.pkBytes) % 2 = 0 := by cases hS <;> rfl
  refine (crypto_kem_dec_ret hS.wf ha.1 ha.2 (by omega) hss (by omega) (by omega)).mono fun o ho => ?_
  have h := ho.2.2.2.2.2.2.2.2.2
  rw [matA_kem hS hB, List.take_of_length_le (by omega), List.take_of_length_le (by omega)] at h
  rw [← h, ← hS.kem]
  show pack P.logq (P.logq * P.n * P.nbar / 8) _ ++ _ = _
  rw [Nat.mul_right_comm]; rfl

/-! ## C15: sizes and layout -/

/-- C15.  The sizes of the API. -/
theorem C15_sizes : (frodo640.pkBytes, frodo640.skBytes, frodo640.ctBytes, frodo640.bytes) =
      (9616, 19888, 9720, 16) ∧
    (frodo976.pkBytes, frodo976.skBytes, frodo976.ctBytes, frodo976.bytes) =
      (15632, 31296, 15744, 24) ∧
    (frodo1344.pkBytes, frodo1344.skBytes, frodo1344.ctBytes, frodo1344.bytes) =
      (21520, 43088, 21632, 32) := ⟨rfl, rfl, rfl⟩

/-- C15.  Key generation keeps the sizes of the buffers and everything beyond the API sizes; the secret
key consists of `s`, the public key, the secret matrix and the hash of the public key. -/
theorem C15_keypair {P : Params} {K : KemParams} (B : Build) (E : Env) (rb : RandomBytes)
    (pk sk s seedSE z : List U8) (hS : Standard P B.gen K) (ha : AlignedKeypair B E P)
    (hs : s.length = K.len) (hse : seedSE.length = K.len) (hz : z.length = K.lenA)
    (hrb : Fills rb (s ++ seedSE ++ z))
    (hpk : P.pkBytes ≤ pk.length) (hsk : P.skBytes ≤ sk.length) :
    Ret (crypto_kem_keypair B E P rb pk sk) (fun o =>
      o.pk.length = pk.length ∧ o.sk.length = sk.length ∧
      o.pk.drop P.pkBytes = pk.drop P.pkBytes ∧ o.sk.drop P.skBytes = sk.drop P.skBytes ∧
      o.pk.take 16 = K.shake z 16 ∧
      o.sk.take P.bytes = s ∧
      (o.sk.drop P.bytes).take P.pkBytes = o.pk.take P.pkBytes ∧
      (o.sk.drop (P.bytes + P.pkBytes)).take (2 * P.n * P.nbar) =
        encodeS (keygenNoise K seedSE).1 ∧
      (o.sk.drop (P.bytes + P.pkBytes + 2 * P.n * P.nbar)).take P.bytes =
        K.shake (o.pk.take P.pkBytes) P.bytes) := by
  have hk := hS.kwf
  have lpk : (keygen K s seedSE z).1.length = P.pkBytes := by
    rw [length_keygen_pk hk, hS.pkLen]
  have lsk : (keygen K s seedSE z).2.length = P.skBytes := by
    rw [length_keygen_sk hk hs, hS.skLen]
  have ls : s.length = P.bytes := by rw [hs, hS.ssLen]
  have lE : (encodeS (keygenNoise K seedSE).1).length = 2 * P.n * P.nbar := by
    rw [length_encodeS, ← hS.kem]
    show 2 * (P.nbar * P.n) = _
    ring
  have lA : K.lenA = 16 := by rw [← hS.kem]; exact hS.wf.seedA
  have lsh : (K.shake (keygen K s seedSE z).1 K.len).length = P.bytes := by rw [hk.shake, hS.ssLen]
  refine (C05_keypair B E rb pk sk s seedSE z hS ha hs hse hz hrb hpk hsk).mono fun o ho => ?_
  obtain ⟨h1, h2, -⟩ := ho
  have e1 : o.pk.take P.pkBytes = (keygen K s seedSE z).1 := by rw [h1]; exact List.take_left' lpk
  have e2 : o.sk = s ++ ((keygen K s seedSE z).1 ++ (encodeS (keygenNoise K seedSE).1 ++
      (K.shake (keygen K s seedSE z).1 K.len ++ sk.drop P.skBytes))) := by
    rw [h2, keygen_snd]; simp only [List.append_assoc]
  have hz16 : (keygen K s seedSE z).1.take 16 = K.shake z 16 := by
    have : (keygen K s seedSE z).1.take K.lenA = K.shake z K.lenA := List.take_left' (hk.shake _ _)
    rwa [lA] at this
  refine ⟨?_, ?_, ?_, ?_, ?_, ?_, ?_, ?_, ?_⟩
  · rw [h1, List.length_append, List.length_drop]; omega
  · rw [h2, List.length_append, List.length_drop]; omega
  · rw [h1]; exact List.drop_left' lpk
  · rw [h2]; exact List.drop_left' lsk
  · have := hS.wf.pk; have := hS.wf.seedA
    rw [← hz16, ← e1, List.take_take, Nat.min_eq_left (by omega)]
  · rw [e2]; exact List.take_left' ls
  · rw [e1, e2, List.drop_left' ls]; exact List.take_left' lpk
  · rw [e2, ← List.drop_drop, List.drop_left' ls, List.drop_left' lpk]; exact List.take_left' lE
  · rw [e1, e2, Nat.add_assoc, ← List.drop_drop, List.drop_left' ls, ← List.drop_drop,
      List.drop_left' lpk, List.drop_left' lE, hS.ssLen]
    exact List.take_left' (by rw [lsh, hS.ssLen])

/-- C15.  Encapsulation keeps the sizes of the buffers and everything beyond the API sizes. -/
theorem C15_enc {P : Params} {K : KemParams} (B : Build) (E : Env) (rb : RandomBytes)
    (ct ss pk : List U8) (hS : Standard P B.gen K) (ha : AlignedKem B E P) (hrb : Behaves rb)
    (hpk : P.pkBytes ≤ pk.length) (hct : P.ctBytes ≤ ct.length) (hss : P.bytes ≤ ss.length) :
    Ret (crypto_kem_enc B E P rb ct ss pk) (fun o =>
      o.ct.length = ct.length ∧ o.ss.length = ss.length ∧
      o.ct.drop P.ctBytes = ct.drop P.ctBytes ∧ o.ss.drop P.bytes = ss.drop P.bytes) := by
  obtain ⟨⟨R, rv⟩, t, h, hl⟩ := hrb ((uninit E.junk 42 8 (P.bytes + P.bytesMu)).drop P.bytes)
    P.bytesMu (by simp)
  have l1 : (encaps (P.kem (B.matA P.logq P.n)) (pk.take P.pkBytes) R).1.length = P.ctBytes := by
    rw [length_encaps_ct, hS.wf.ct]; rfl
  have l2 : (encaps (P.kem (B.matA P.logq P.n)) (pk.take P.pkBytes) R).2.length = P.bytes :=
    length_encaps_ss (kwf hS.wf _) _ _
  refine (crypto_kem_enc_ret hS.wf ha.1 ha.2 ⟨_, t, h, rfl⟩ hl hpk hct hss).mono fun o ho => ?_
  rw [ho.1, ho.2.1]
  simp only
  refine ⟨?_, ?_, List.drop_left' l1, List.drop_left' l2⟩
  · rw [List.length_append, List.length_drop]; omega
  · rw [List.length_append, List.length_drop]; omega

/-- C15.  Decapsulation keeps the size of the buffer and everything beyond the API size. -/
theorem C15_dec {P : Params} {K : KemParams} (B : Build) (E : Env) (skAddr : Nat)
    (ss ct sk : List U8) (hS : Standard P B.gen K) (ha : AlignedKem B E P) (hal : skAddr % 2 = 0)
    (hss : P.bytes ≤ ss.length) (hct : P.ctBytes ≤ ct.length) (hsk : P.skBytes ≤ sk.length) :
    Ret (crypto_kem_dec B E P skAddr ss ct sk) (fun o =>
      o.ss.length = ss.length ∧ o.ss.drop P.bytes = ss.drop P.bytes) := by
  have hev : (P.bytes + P.pkBytes) % 2 = 0 := by cases hS <;> rfl
  have l1 : (decaps (P.kem (B.matA P.logq P.n)) (ct.take P.ctBytes) (sk.take P.skBytes)).length =
    P.bytes := length_decaps (kwf hS.wf _) _ _
  refine (crypto_kem_dec_ret hS.wf ha.1 ha.2 (by omega) hss hct hsk).mono fun o ho => ?_
  rw [ho.1]
  refine ⟨?_, List.drop_left' l1⟩
  rw [List.length_append, List.length_drop]; omega

/-! ## C16: failures of the random generator -/

/-- C16 is false for key generation: `randombytes` returns 1 (failure) and leaves the buffer alone;
`crypto_kem_keypair` returns 0, and the keys are those of Algorithm 12 for whatever was in the
uninitialised buffer. -/
theorem C16_keypair_ignores_failure {P : Params} {K : KemParams} (B : Build) (E : Env)
    (pk sk : List U8) (hS : Standard P B.gen K) (ha : AlignedKeypair B E P)
    (hpk : pk.length = P.pkBytes) (hsk : sk.length = P.skBytes) :
    Ret (crypto_kem_keypair B E P rbFail pk sk) (fun o => o.ret = 0 ∧
      (o.pk, o.sk) = keygen K ((uninit E.junk 41 8 (2 * P.bytes + P.seedA)).take P.bytes)
        (((uninit E.junk 41 8 (2 * P.bytes + P.seedA)).drop P.bytes).take P.bytes)
        ((uninit E.junk 41 8 (2 * P.bytes + P.seedA)).drop (2 * P.bytes))) := by
  refine (crypto_kem_keypair_ret hS.wf ha ⟨_, _, rfl, rfl⟩ (by simp) (by omega) (by omega)).mono
    fun o ho => ⟨ho.2.2.2.2.2, ?_⟩
  have e1 : pk.drop P.pkBytes = [] := List.drop_eq_nil_of_le (by omega)
  have e2 : sk.drop P.skBytes = [] := List.drop_eq_nil_of_le (by omega)
  rw [ho.1, ho.2.1, hS.kem, e1, e2, List.append_nil, List.append_nil]

/-- C16 is false for encapsulation: the message is whatever was in the uninitialised buffer. -/
theorem C16_enc_ignores_failure {P : Params} {K : KemParams} (B : Build) (E : Env)
    (ct ss pk : List U8) (hS : Standard P B.gen K) (hB : Good B) (ha : AlignedKem B E P)
    (hpk : P.pkBytes ≤ pk.length) (hct : ct.length = P.ctBytes) (hss : ss.length = P.bytes) :
    Ret (crypto_kem_enc B E P rbFail ct ss pk) (fun o => o.ret = 0 ∧
      (o.ct, o.ss) = encaps K (pk.take P.pkBytes)
        ((uninit E.junk 42 8 (P.bytes + P.bytesMu)).drop P.bytes)) := by
  refine (crypto_kem_enc_ret hS.wf ha.1 ha.2 ⟨_, _, rfl, rfl⟩ (by simp) hpk (by omega) (by omega)).mono
    fun o ho => ⟨ho.2.2.2.2.2.2.2.2.1, ?_⟩
  have e1 : ct.drop P.ctBytes = [] := List.drop_eq_nil_of_le (by omega)
  have e2 : ss.drop P.bytes = [] := List.drop_eq_nil_of_le (by omega)
  rw [ho.1, ho.2.1, matA_kem hS hB, e1, e2, List.append_nil, List.append_nil]

/-- C16, the worst case: if the stack happens to be zero, everybody gets the same key pair, the one
for the all-zero strings. -/
example (B : Build) : Ret (crypto_kem_keypair B { E0 with junk := fun _ _ => 0 } frodo640 rbFail
      (List.replicate 9616 1) (List.replicate 19888 1)) (fun o => o.ret = 0 ∧
      (o.pk, o.sk) = keygen (Frodo640 B.gen) (List.replicate 16 0) (List.replicate 16 0)
        (List.replicate 16 0)) :=
  C16_keypair_ignores_failure B _ _ _ (.frodo640 _) (E0_keypair _)
    List.length_replicate List.length_replicate

end Frodo.Props
