import Verif.Proof.DrbgVector
import Verif.Props.Kem

/-! # Properties of the generator of the known answer tests (C44, C48) -/

namespace Frodo.Props
open Frodo Frodo.Spec

/-- C44 (counter): `V` is incremented as a 128-bit big-endian number modulo 2^128. -/
theorem C44_counter (V : List U8) (h : V.length = 16) :
    Ret (incV V) (fun V' => V'.length = 16 ∧ beNat V' = (beNat V + 1) % 2 ^ 128) :=
  (incV_ret h).of_eq ⟨length_addV _ _, by
    unfold addV
    rw [beNat_beBytes]
    norm_num⟩

/-- C44 (update): `AES256_CTR_DRBG_Update` is `CTR_DRBG_Update` of SP 800-90A. -/
theorem C44_update (A : AesBackend) (E : Env) (a : Nat) (data key V : List U8) (ha : A.ready E.ossl a)
    (hk : key.length = 32) (hV : V.length = 16) (hd : data.length = 48) :
    Ret (AES256_CTR_DRBG_Update A E a (some data) key V) (· = drbgUpdate data key V) :=
  update_ret ha hk hV (by omega) (Or.inl rfl)

/-- C44 (instantiation): with and without personalization string. -/
theorem C44_init (A : AesBackend) (E : Env) (a : Nat) (ctx : Drbg) (entropy pers : List U8)
    (ha : A.ready E.ossl a) (hk : ctx.key.length = 32) (hV : ctx.V.length = 16)
    (he : entropy.length = 48) (hp : pers.length = 48) :
    Ret (randombytes_init A E a ctx entropy (some pers)) (fun c =>
      (c.key, c.V) = drbgInit entropy pers ∧ c.reseed = 1) ∧
    Ret (randombytes_init A E a ctx entropy none) (fun c =>
      (c.key, c.V) = drbgInit entropy (List.replicate 48 0) ∧ c.reseed = 1) :=
  ⟨randombytes_init_ret ha hk hV he hp (Or.inl rfl),
    randombytes_init_ret ha hk hV he (by simp) (Or.inr ⟨rfl, rfl⟩)⟩

/-- C44 (generation): below 2^31 bytes, `randombytes` is `CTR_DRBG_Generate`; the rest of the buffer is
unchanged. -/
theorem C44_generate (A : AesBackend) (E : Env) (a : Nat) (ctx : Drbg) (x : List U8) (n : Nat)
    (ha : A.ready E.ossl a) (hk : ctx.key.length = 32) (hV : ctx.V.length = 16) (hx : n ≤ x.length)
    (hn : n < 2 ^ 31) (h0 : 0 ≤ ctx.reseed) (hr : ctx.reseed + 1 < 2 ^ 31) :
    Ret (randombytes_drbg A E a ctx x n) (fun r =>
      r.2.1 = (drbgGenerate ctx.key ctx.V n).1 ++ x.drop n ∧ r.2.2 = 0 ∧
      (r.1.key, r.1.V) = (drbgGenerate ctx.key ctx.V n).2 ∧ r.1.reseed = ctx.reseed + 1) :=
  randombytes_drbg_ret ha hk hV hx hn h0 hr

/-- C44 (generation) fails from 2^31 bytes on: the index `i` has type `int` and overflows. -/
theorem C44_overflow (A : AesBackend) (E : Env) (a : Nat) (ctx : Drbg) (x : List U8) (n : Nat)
    (ha : A.ready E.ossl a) (hk : ctx.key.length = 32) (hV : ctx.V.length = 16) (hx : n ≤ x.length)
    (hn : 2 ^ 31 ≤ n) : randombytes_drbg A E a ctx x n = .ub .overflow :=
  randombytes_drbg_ub ha hk hV hx hn

/-- C44 (ratchet): after every request the key and `V` are the three blocks that follow the returned
ones, encrypted under the old key. -/
theorem C44_ratchet (A : AesBackend) (E : Env) (a : Nat) (ctx : Drbg) (x : List U8) (n : Nat)
    (ha : A.ready E.ossl a) (hk : ctx.key.length = 32) (hV : ctx.V.length = 16) (hx : n ≤ x.length)
    (hn : n < 2 ^ 31) (h0 : 0 ≤ ctx.reseed) (hr : ctx.reseed + 1 < 2 ^ 31) :
    Ret (randombytes_drbg A E a ctx x n) (fun r =>
      r.1.key = AES256 ctx.key (addV ctx.V ((n + 15) / 16 + 1)) ++
        AES256 ctx.key (addV ctx.V ((n + 15) / 16 + 2)) ∧
      r.1.V = AES256 ctx.key (addV ctx.V ((n + 15) / 16 + 3))) := by
  refine (C44_generate A E a ctx x n ha hk hV hx hn h0 hr).mono ?_
  rintro r ⟨-, -, h, -⟩
  generalize hm : (n + 15) / 16 = m at *
  have e : List.zipWith (fun a b : U8 => a ^^^ b) (ctrBlocks ctx.key (addV ctx.V m) 3)
      (List.replicate 48 0) = ctrBlocks ctx.key (addV ctx.V m) 3 := by
    refine ext_nth (by rw [List.length_zipWith, length_ctrBlocks, List.length_replicate]; rfl)
      fun k hk => ?_
    rw [List.length_zipWith, length_ctrBlocks, List.length_replicate] at hk
    rw [nth_zipWith _ _ _ _ (by rw [length_ctrBlocks]; omega) (by simp; omega), nth_replicate,
      if_pos (by omega)]
    simp
  have e2 : ctrBlocks ctx.key (addV ctx.V m) 3 = AES256 ctx.key (addV ctx.V (m + 1)) ++
      AES256 ctx.key (addV ctx.V (m + 2)) ++ AES256 ctx.key (addV ctx.V (m + 3)) := by
    rw [ctrBlocks_succ, ctrBlocks_succ, ctrBlocks_succ, addV_addV, addV_addV, addV_addV]
    rfl
  have hl := length_AES256 ctx.key
  simp only [drbgGenerate, drbgUpdate, hm] at h
  rw [e, e2] at h
  injection h with h1 h2
  rw [List.take_left' (by rw [List.length_append, hl, hl])] at h1
  rw [List.drop_left' (by rw [List.length_append, hl, hl])] at h2
  exact ⟨h1, h2⟩

/-- A history of requests to the generator: each buffer is filled in turn. -/
def serve (A : AesBackend) (E : Env) (a : Nat) : Drbg → List (List U8) → C (List (List U8))
  | _, [] => pure []
  | ctx, x :: xs => do
    let (ctx, x, _) ← randombytes_drbg A E a ctx x x.length
    let xs ← serve A E a ctx xs
    pure (x :: xs)

/-- The outputs of the standard for a history of lengths. -/
def drbgOutputs : List U8 → List U8 → List Nat → List (List U8)
  | _, _, [] => []
  | key, V, n :: ns =>
    let (out, key, V) := drbgGenerate key V n
    out :: drbgOutputs key V ns

theorem length_drbgGenerate (key V : List U8) (n : Nat) : (drbgGenerate key V n).1.length = n ∧
    (drbgGenerate key V n).2.1.length = 32 ∧ (drbgGenerate key V n).2.2.length = 16 := by
  refine ⟨?_, length_drbgUpdate _ _ _ (by simp)⟩
  simp only [drbgGenerate, List.length_take, length_ctrBlocks]
  omega

/-- C44 (histories): from every seed, every sequence of requests gets the outputs of the standard. -/
theorem C44_history (A : AesBackend) (E : Env) (a : Nat) (ctx : Drbg) (entropy : List U8)
    (xs : List (List U8)) (ha : A.ready E.ossl a) (hk : ctx.key.length = 32) (hV : ctx.V.length = 16)
    (he : entropy.length = 48) (hx : ∀ x ∈ xs, x.length < 2 ^ 31) (hl : xs.length < 2 ^ 31 - 1) :
    Ret (do let ctx ← randombytes_init A E a ctx entropy none; serve A E a ctx xs)
      (· = drbgOutputs (drbgInit entropy (List.replicate 48 0)).1
        (drbgInit entropy (List.replicate 48 0)).2 (xs.map List.length)) := by
  have key : ∀ (xs : List (List U8)) (c : Drbg), c.key.length = 32 → c.V.length = 16 →
      0 ≤ c.reseed → c.reseed + xs.length < 2 ^ 31 → (∀ x ∈ xs, x.length < 2 ^ 31) →
      Ret (serve A E a c xs) (· = drbgOutputs c.key c.V (xs.map List.length)) := by
    intro xs
    induction xs with
    | nil => intro c _ _ _ _ _; exact ⟨_, [], rfl, rfl⟩
    | cons x xs ih =>
      intro c h1 h2 h3 h4 h5
      rw [List.length_cons] at h4
      unfold serve
      refine (C44_generate A E a c x x.length ha h1 h2 (Nat.le_refl _) (h5 x (by simp)) h3
        (by omega)).bind ?_
      rintro ⟨c', y, r⟩ ⟨g1, -, g3, g4⟩
      simp only at g1 g3 g4 ⊢
      obtain ⟨-, l1, l2⟩ := length_drbgGenerate c.key c.V x.length
      rw [← g3] at l1 l2
      refine (ih c' l1 l2 (by omega) (by omega) fun z hz => h5 z (by simp [hz])).bind_eq ?_
      refine ⟨_, [], rfl, ?_⟩
      rw [List.map_cons, drbgOutputs, g1]
      simp only [List.drop_length, List.append_nil, ← g3]
  refine (C44_init A E a ctx entropy (List.replicate 48 0) ha hk hV he (by simp)).2.bind ?_
  rintro c ⟨h1, h2⟩
  have l := length_drbgUpdate (List.zipWith (· ^^^ ·) entropy (List.replicate 48 0))
    (List.replicate 32 0) (List.replicate 16 0) (by rw [List.length_zipWith]; simp; omega)
  change (drbgInit _ _).1.length = 32 ∧ (drbgInit _ _).2.length = 16 at l
  rw [← h1] at l ⊢
  exact key xs c l.1 l.2 (by omega) (by omega) hx

/-- C44 (key schedule): `AES256_ECB` erases the key schedule, or frees the context of OpenSSL, before
it returns. -/
theorem C44_schedule_erased (A : AesBackend) (E : Env) (a : Nat) (key ctr buffer : List U8)
    (ha : A.ready E.ossl a) (hk : key.length = 32) (hc : ctr.length = 16) (hb : 16 ≤ buffer.length) :
    Ret (AES256_ECB A E a key ctr buffer) (fun r => r.2 = A.freed 240) :=
  (AES256_ECB_fn_ret ha (by omega) (by omega) hb).of_eq rfl

theorem fills_drbg (A : AesBackend) (E : Env) (a : Nat) (ctx : Drbg) (n : Nat)
    (ha : A.ready E.ossl a) (hk : ctx.key.length = 32) (hV : ctx.V.length = 16)
    (hn : n < 2 ^ 31) (h0 : 0 ≤ ctx.reseed) (hr : ctx.reseed + 1 < 2 ^ 31) :
    Fills (rbDrbg A E a ctx) (drbgGenerate ctx.key ctx.V n).1 := by
  intro buf hb
  rw [(length_drbgGenerate _ _ _).1] at *
  unfold rbDrbg
  refine (C44_generate A E a ctx buf n ha hk hV (by omega) hn h0 hr).bind ?_
  rintro ⟨c, x, r⟩ ⟨h, -⟩
  refine ⟨_, [], rfl, ?_⟩
  rw [List.drop_eq_nil_of_le (by omega), List.append_nil] at h
  exact h

/-- C48.  The known answers as a function of the seed: CTR_DRBG instantiated with the seed gives the
`2 len + lenA` bytes of key generation, then the `len` bytes of encapsulation. -/
def katSpec (K : KemParams) (seed : List U8) : List U8 × List U8 × List U8 × List U8 :=
  let i := drbgInit seed (List.replicate 48 0)
  let g := drbgGenerate i.1 i.2 (2 * K.len + K.lenA)
  let k := keygen K (g.1.take K.len) ((g.1.drop K.len).take K.len) (g.1.drop (2 * K.len))
  let e := encaps K k.1 (drbgGenerate g.2.1 g.2.2 K.len).1
  (k.1, k.2, e.1, e.2)

theorem C48_kat {P : Params} {K : KemParams} (B : Build) (E : Env) (A : AesBackend) (a : Nat)
    (ctx : Drbg) (seed pk sk ct ss : List U8) (hS : Standard P B.gen K) (hB : Good B)
    (hal : AlignedAll B E P) (ha : A.ready E.ossl a) (hk : ctx.key.length = 32) (hV : ctx.V.length = 16)
    (hs : seed.length = 48) (hpk : pk.length = P.pkBytes) (hsk : sk.length = P.skBytes)
    (hct : ct.length = P.ctBytes) (hss : ss.length = P.bytes) :
    Ret (katRound B E P A a ctx seed pk sk ct ss) (fun r =>
      (r.pk, r.sk, r.ct, r.ss) = katSpec K seed) := by
  have hl : K.len = P.bytes := by rw [← hS.kem]; rfl
  have hlA : K.lenA = P.seedA := by rw [← hS.kem]; rfl
  have hsm : 2 * P.bytes + P.seedA < 2 ^ 31 := by cases hS <;> decide
  unfold katRound
  refine (C44_init A E a ctx seed (List.replicate 48 0) ha hk hV hs (by simp)).2.bind ?_
  rintro c ⟨h1, h2⟩
  have l := length_drbgUpdate (List.zipWith (· ^^^ ·) seed (List.replicate 48 0))
    (List.replicate 32 0) (List.replicate 16 0) (by rw [List.length_zipWith]; simp; omega)
  change (drbgInit _ _).1.length = 32 ∧ (drbgInit _ _).2.length = 16 at l
  rw [← h1] at l
  simp only at l
  obtain ⟨g0, g1, g2⟩ := length_drbgGenerate c.key c.V (2 * P.bytes + P.seedA)
  have hf := fills_drbg A E a c (2 * P.bytes + P.seedA) ha l.1 l.2 hsm (by omega) (by omega)
  have hsp : (drbgGenerate c.key c.V (2 * P.bytes + P.seedA)).1 =
      (drbgGenerate c.key c.V (2 * P.bytes + P.seedA)).1.take K.len ++
      ((drbgGenerate c.key c.V (2 * P.bytes + P.seedA)).1.drop K.len).take K.len ++
      (drbgGenerate c.key c.V (2 * P.bytes + P.seedA)).1.drop (2 * K.len) := by
    rw [Nat.two_mul K.len, ← List.drop_drop, List.append_assoc, List.take_append_drop,
      List.take_append_drop]
  rw [hsp] at hf
  refine (C05_keypair B E _ pk sk _ _ _ hS hal.1 (by rw [List.length_take]; omega)
    (by rw [List.length_take, List.length_drop]; omega) (by rw [List.length_drop]; omega)
    hf (by omega) (by omega)).bind ?_
  rintro kp ⟨k1, k2, -⟩
  simp only
  refine (C44_generate A E a c _ (2 * P.bytes + P.seedA) ha l.1 l.2 (by simp) hsm (by omega)
    (by omega)).bind ?_
  rintro ⟨c', y, r⟩ ⟨-, -, g3, g4⟩
  simp only at g3 g4 ⊢
  rw [← g3] at g1 g2
  rw [List.drop_eq_nil_of_le (as := pk) (by omega), List.append_nil] at k1
  rw [List.drop_eq_nil_of_le (as := sk) (by omega), List.append_nil] at k2
  have hf2 := fills_drbg A E a c' K.len ha g1 g2 (by omega) (by omega) (by omega)
  have hpl : kp.pk.length = P.pkBytes := by
    rw [k1, hS.pkLen]
    exact length_keygen_pk hS.kwf _ _ _
  refine (C06_enc B E _ ct ss kp.pk _ hS hB hal.2 (length_drbgGenerate _ _ _).1 hf2 (by omega)
    (by omega) (by omega)).bind ?_
  rintro en ⟨e1, e2, -⟩
  refine ⟨_, [], rfl, ?_⟩
  rw [List.drop_eq_nil_of_le (as := ct) (by omega), List.append_nil,
    List.take_of_length_le (l := kp.pk) (by omega)] at e1
  rw [List.drop_eq_nil_of_le (as := ss) (by omega), List.append_nil,
    List.take_of_length_le (l := kp.pk) (by omega)] at e2
  simp only [katSpec, ← h1, hl, hlA, ← g3, e1, e2, k1, k2]

/-! ## Concrete cases -/

/-- The counter overflows to zero. -/
example : Ret (incV (List.replicate 16 0xff)) (· = List.replicate 16 0) :=
  (incV_ret rfl).of_eq (by decide +kernel)

/-- The first seed of the known answers of NIST: 48 bytes from the generator with the entropy
`00 01 … 2f`. -/
example : drbgOutputs (drbgInit ((List.range 48).map (BitVec.ofNat 8)) (List.replicate 48 0)).1
    (drbgInit ((List.range 48).map (BitVec.ofNat 8)) (List.replicate 48 0)).2 [48] =
    [[0x06, 0x15, 0x50, 0x23, 0x4D, 0x15, 0x8C, 0x5E, 0xC9, 0x55, 0x95, 0xFE, 0x04, 0xEF, 0x7A, 0x25,
      0x76, 0x7F, 0x2E, 0x24, 0xCC, 0x2B, 0xC4, 0x79, 0xD0, 0x9D, 0x86, 0xDC, 0x9A, 0xBC, 0xFD, 0xE7,
      0x05, 0x6A, 0x8C, 0x26, 0x6F, 0x9E, 0xF9, 0x7E, 0xD0, 0x85, 0x41, 0xDB, 0xD2, 0xE1, 0xFF,
      0xA1]] := by
  rw [nist_init]
  unfold drbgOutputs
  simp only
  rw [nist_seed]
  rfl

/-- The hypotheses of C44_history can be met. -/
example := C44_history .ni E0 32 ⟨List.replicate 32 1, List.replicate 16 2, -5⟩
  (List.replicate 48 3) [[], [1, 2, 3], List.replicate 40 0] (fun _ => rfl) (by simp) (by simp) (by simp)
  (by simp) (by simp)

/-- The same with any OpenSSL. -/
example (L : OsslCode) := C44_history (.openssl L) E0 0 ⟨List.replicate 32 1, List.replicate 16 2, -5⟩
  (List.replicate 48 3) [[], [1, 2, 3], List.replicate 40 0] OsslRun.works_ok (by simp) (by simp)
  (by simp) (by simp) (by simp)

/-- Those of C44_overflow too. -/
example := C44_overflow .c E0 5 ⟨List.replicate 32 1, List.replicate 16 2, 1⟩
  (List.replicate (2 ^ 31) 0) (2 ^ 31) (by intro h; cases h) (by simp) (by simp)
  (List.length_replicate ▸ Nat.le_refl (2 ^ 31)) (Nat.le_refl _)

/-- Those of C48_kat, in every good build. -/
example (B : Build) (hB : Good B) := C48_kat B E0 .ni 0
  ⟨List.replicate 32 1, List.replicate 16 2, 0⟩ (List.replicate 48 3) (List.replicate 9616 0)
  (List.replicate 19888 0) (List.replicate 9720 0) (List.replicate 16 0) (.frodo640 _) hB
  (E0_all _) (fun _ => rfl) (by simp) (by simp)
  (by simp) List.length_replicate List.length_replicate List.length_replicate List.length_replicate

end Frodo.Props
