import Verif.Props.TextTrace

/-! # C93: the KEM with A from AES128, with the text of SHAKE

The text of kem.c, noise.c, util.c, frodo_macrify_reference.c or frodo_macrify.c, and fips202.c together, given functions for AES128; the
reference implementation needs them to work in place.  If they have no secret indices either, then the traces of the whole KEM do not
depend on secrets. -/

namespace Frodo.Props

open Src Spec

theorem fipsFile_noAes : fipsFile.NoAes := ⟨by kernel_rfl, by kernel_rfl, by kernel_rfl⟩

theorem aes_fips {X : Ctx} {J : Junk} {d : Nat} (hA : AesAt X J) : AesAt (link [fipsFile] X d) J := by
  obtain ⟨u1, u2, u3⟩ := fipsFile_noAes
  exact hA.link (by simp only [List.findSome?, u1]) (by simp only [List.findSome?, u2]) (by simp only [List.findSome?, u3])

theorem inPlace_fips {X : Ctx} {d : Nat} (hI : AesInPlace X) : AesInPlace (link [fipsFile] X d) := by
  obtain ⟨-, u2, -⟩ := fipsFile_noAes
  exact hI.link (by simp only [List.findSome?, u2])

/-- The uninitialised arrays of AES and those of SHAKE (/repo/src/aes/aes_c.c:61, /repo/src/sha3/fips202.c:347, 404, 442-443). -/
def bothJunk (X : Ctx) (J : Junk) : Junk := fun t i => if t = 0 then J 0 i else fipsJunk X t i

section

variable {G : File} {P : Params} {K : KemParams} {nm : String} {X Y : Ctx} {J J' : Junk} {rb rb' : RandomBytes} {m m' : Mem} {next : Nat}

theorem refAes_calls (hT : KemTextRefAes G P K nm) (ha : X.arch = .le) (hA : AesAt X J) (hI : AesInPlace X) (hR : Rand X rb) (se : String)
    {bc bq : Nat} (hq : X.glob "KeccakF_RoundConstants" = some (.ptr bq 0 false 8)) (h1 : X.glob "CDF_TABLE" = some (.ptr bc 0 false 2))
    (h2 : X.glob "CDF_TABLE_LEN" = some (.int false 2 P.cdf.length)) :
    Calls (link [utilFile, G] (link [fipsFile] X 3) 1) refAesBuild (refAesEnv (link [fipsFile] X 3) (bothJunk X J) se) P rb bc bq
      (u64s KeccakF_RoundConstants) :=
  refAesEnv_calls hT (by rw [link_arch, ha]) (SpongeAt.junk (J' := bothJunk X J) (fips_sponge (d := 0) ha hq) rfl rfl rfl)
    (aes_fips (AesAt.junk (J' := bothJunk X J) hA rfl))
    (inPlace_fips hI) (Rand.fips hR) se 0 (by rw [link_glob, h1]) (by rw [link_glob, h2])

/-- C93, `crypto_kem_keypair`: the text with the text of SHAKE returns 0, with the keys of Algorithm 12, given functions for AES128 that
work in place. -/
theorem C93_keypair (hT : KemTextRefAes G P K nm) {bp bk : Nat} (h : Ready G X rb m next [bp, bk]) (hA : AesAt X J) (hI : AesInPlace X)
    {s seedSE z pk sk : List U8}
    (hs : s.length = K.len) (hse : seedSE.length = K.len) (hz : z.length = K.lenA) (hrb : Fills rb (s ++ seedSE ++ z))
    (hp : m bp = u8s pk) (hk : m bk = u8s sk) (hlp : pk.length = P.pkBytes) (hlk : sk.length = P.skBytes) :
    Ret (callKem G X ("crypto_kem_keypair_" ++ nm) [bp, bk] m next) fun x =>
      x.1 = .int true 4 0 ∧ x.2.1 bp = u8s (keygen K s seedSE z).1 ∧ x.2.1 bk = u8s (keygen K s seedSE z).2 ∧
        ∀ b, b < next → b ≠ bp → b ≠ bk → x.2.1 b = m b := by
  have hd := h.distinct
  simp only [List.nodup_cons, List.mem_singleton, List.not_mem_nil, not_false_eq_true, List.nodup_nil, and_true] at hd
  have ha : ∀ x b s n, X.glob x = some (.ptr b 0 s n) → b < next ∧ b ≠ bp ∧ b ≠ bk := fun x b s n e => by
    simpa using h.apart x b s n e
  obtain ⟨bq, k1, k2⟩ := loaded_table h.rounds
  obtain ⟨g1, g2, g3⟩ := ha _ _ _ _ k1
  obtain ⟨bc, hc, hcl, hmc⟩ := loaded_cdf_refAes hT h.table
  obtain ⟨c1, c2, c3⟩ := ha _ _ _ _ hc
  exact (keypair_calls (B := refAesBuild) (E := refAesEnv (link [fipsFile] X 3) (bothJunk X J) "shake_input_seedSE") hT.kem hT.standard
    hT.small rfl refAes_aligned (fun _ => rfl) _ rb
    (refAes_calls hT h.arch hA hI h.rand "shake_input_seedSE" k1 hc hcl) (refAesEnv_junk fun i => rfl) (refAesEnv_junk fun i => rfl)
    s seedSE z hs hse hz hrb m next bp bk pk sk hp hk hlp hlk (h.below _ (by simp)) (h.below _ (by simp)) hd hmc c1 c2 c3 k2 g1 g2 g3).mono
    fun x h => ⟨h.1, h.2.1, h.2.2.1, h.2.2.2.1⟩

/-- C93, `crypto_kem_enc`: the ciphertext and the secret of Algorithm 13. -/
theorem C93_enc (hT : KemTextRefAes G P K nm) {bt bs bp : Nat} (h : Ready G X rb m next [bt, bs, bp]) (hA : AesAt X J) (hI : AesInPlace X)
    {mu ct ss pk : List U8} (hmu : mu.length = K.len) (hrb : Fills rb mu) (ht : m bt = u8s ct) (hs : m bs = u8s ss) (hp : m bp = u8s pk)
    (hlt : ct.length = P.ctBytes) (hls : ss.length = P.bytes) (hlp : pk.length = P.pkBytes) :
    Ret (callKem G X ("crypto_kem_enc_" ++ nm) [bt, bs, bp] m next) fun x =>
      x.1 = .int true 4 0 ∧ x.2.1 bt = u8s (encaps K pk mu).1 ∧ x.2.1 bs = u8s (encaps K pk mu).2 ∧
        ∀ b, b < next → b ≠ bt → b ≠ bs → x.2.1 b = m b := by
  have hd := h.distinct
  simp only [List.nodup_cons, List.mem_cons, List.not_mem_nil, not_false_eq_true, List.nodup_nil, and_true, not_or, or_false] at hd
  have ha : ∀ x b s n, X.glob x = some (.ptr b 0 s n) → b < next ∧ b ≠ bt ∧ b ≠ bs := fun x b s n e => by
    have := h.apart x b s n e
    simp only [List.mem_cons, not_or] at this
    exact ⟨this.1, this.2.1, this.2.2.1⟩
  obtain ⟨bq, k1, k2⟩ := loaded_table h.rounds
  obtain ⟨g1, g2, g3⟩ := ha _ _ _ _ k1
  obtain ⟨bc, hc, hcl, hmc⟩ := loaded_cdf_refAes hT h.table
  obtain ⟨c1, c2, c3⟩ := ha _ _ _ _ hc
  exact (enc_calls (B := refAesBuild) (E := refAesEnv (link [fipsFile] X 3) (bothJunk X J) "shake_input_seedSE") hT.kem hT.standard
    hT.small (.inl rfl) rfl (by decide) refAes_aligned (fun _ => rfl) _ rb
    (refAes_calls hT h.arch hA hI h.rand "shake_input_seedSE" k1 hc hcl)
    (refAesEnv_junk fun i => rfl) (refAesEnv_junk fun i => rfl) (refAesEnv_junk fun i => rfl) (refAesEnv_junk fun i => rfl)
    mu hmu hrb m next bt bs bp ct ss pk ht hs hp hlt (by omega) hlp (h.below _ (by simp)) (h.below _ (by simp)) (h.below _ (by simp))
    hd.1.1 (Ne.symm hd.1.2) (Ne.symm hd.2) hmc c1 c2 c3 k2 g1 g2 g3).mono
    fun x h => ⟨h.1, h.2.1, by rw [h.2.2.1, List.drop_eq_nil_of_le (by omega), List.append_nil], h.2.2.2.1⟩

/-- C93, `crypto_kem_dec`: the secret of Algorithm 14, for accepted and for rejected ciphertexts. -/
theorem C93_dec (hT : KemTextRefAes G P K nm) {bs bt bk : Nat} (h : Ready G X rb m next [bs, bt, bk]) (hA : AesAt X J) (hI : AesInPlace X)
    {ss ct sk : List U8} (hs : m bs = u8s ss) (ht : m bt = u8s ct) (hk : m bk = u8s sk) (hls : ss.length = P.bytes)
    (hlt : ct.length = P.ctBytes) (hlk : sk.length = P.skBytes) :
    Ret (callKem G X ("crypto_kem_dec_" ++ nm) [bs, bt, bk] m next) fun x =>
      x.1 = .int true 4 0 ∧ x.2.1 bs = u8s (decaps K ct sk) ∧ ∀ b, b < next → b ≠ bs → x.2.1 b = m b := by
  have hd := h.distinct
  simp only [List.nodup_cons, List.mem_cons, List.not_mem_nil, not_false_eq_true, List.nodup_nil, and_true, not_or, or_false] at hd
  have ha : ∀ x b s n, X.glob x = some (.ptr b 0 s n) → b < next ∧ b ≠ bt ∧ b ≠ bs := fun x b s n e => by
    have := h.apart x b s n e
    simp only [List.mem_cons, not_or] at this
    exact ⟨this.1, this.2.2.1, this.2.1⟩
  obtain ⟨bq, k1, k2⟩ := loaded_table h.rounds
  obtain ⟨g1, g2, g3⟩ := ha _ _ _ _ k1
  obtain ⟨bc, hc, hcl, hmc⟩ := loaded_cdf_refAes hT h.table
  obtain ⟨c1, c2, c3⟩ := ha _ _ _ _ hc
  exact (dec_calls (B := refAesBuild) (E := refAesEnv (link [fipsFile] X 3) (bothJunk X J) "shake_input_seedSEprime") hT.kem hT.standard
    hT.small (.inl rfl) rfl (by decide) refAes_aligned (fun _ => rfl) _ rb
    (refAes_calls hT h.arch hA hI h.rand "shake_input_seedSEprime" k1 hc hcl) (by rw [link_arch, link_arch, h.arch])
    (refAesEnv_junk fun i => rfl) (refAesEnv_junk fun i => rfl) (refAesEnv_junk fun i => rfl) (refAesEnv_junk fun i => rfl)
    (refAesEnv_junk fun i => rfl)
    m next bs bt bk ss ct sk hs ht hk (by omega) hlt hlk (h.below _ (by simp)) (h.below _ (by simp)) (h.below _ (by simp))
    (Ne.symm hd.1.1) (Ne.symm hd.2) (Ne.symm hd.1.2) hmc c1 c2 c3 k2 g1 g2 g3).mono
    fun x h => ⟨h.1, by rw [h.2.1, List.drop_eq_nil_of_le (by omega), List.append_nil], h.2.2.1⟩

/-! ## Traces -/

theorem callKem_aes (hT : KemTextRefAes G P K nm) (Z : Ctx) {f : String} {g : Fun}
    (hf : f = "crypto_kem_keypair_" ++ nm ∨ f = "crypto_kem_enc_" ++ nm ∨ f = "crypto_kem_dec_" ++ nm) (hg : G.fn f = some g) (bs : List Nat)
    (m : Mem) (next : Nat) : callKem G Z f bs m next =
      (link [utilFile, G] (link [fipsFile] Z 3) 2).call f (bs.map fun b => .ptr b 0 false 1) m next := by
  cases hT <;> (rcases hf with rfl | rfl | rfl) <;>
    exact callKem_eq (by kernel_rfl) hg (by decide) (by decide) bs m next

/-- C93, key generation: with whatever random bytes the same trace, and the keys of the specification. -/
theorem C93_trace_keypair (hT : KemTextRefAes G P K nm) (h : AlikeAes X Y) {bp bk : Nat} (hX : Ready G X rb m next [bp, bk])
    (hY : Ready G Y rb' m' next [bp, bk]) (hA : AesAt X J) (hA' : AesAt Y J') (hI : AesInPlace X) (hI' : AesInPlace Y)
    (hm : SameShape m m') {s seedSE z pk sk s' seedSE' z' pk' sk' : List U8}
    (hs : s.length = K.len) (hse : seedSE.length = K.len) (hz : z.length = K.lenA) (hrb : Fills rb (s ++ seedSE ++ z))
    (hp : m bp = u8s pk) (hk : m bk = u8s sk) (hlp : pk.length = P.pkBytes) (hlk : sk.length = P.skBytes)
    (hs' : s'.length = K.len) (hse' : seedSE'.length = K.len) (hz' : z'.length = K.lenA) (hrb' : Fills rb' (s' ++ seedSE' ++ z'))
    (hp' : m' bp = u8s pk') (hk' : m' bk = u8s sk') (hlp' : pk'.length = P.pkBytes) (hlk' : sk'.length = P.skBytes) :
    ∃ t r q, callKem G X ("crypto_kem_keypair_" ++ nm) [bp, bk] m next = .ok r t ∧
      callKem G Y ("crypto_kem_keypair_" ++ nm) [bp, bk] m' next = .ok q t ∧
      r.2.1 bk = u8s (keygen K s seedSE z).2 ∧ q.2.1 bk = u8s (keygen K s' seedSE' z').2 := by
  obtain ⟨r, t, e1, h1⟩ := C93_keypair hT hX hA hI hs hse hz hrb hp hk hlp hlk
  obtain ⟨q, u, e2, h2⟩ := C93_keypair hT hY hA' hI' hs' hse' hz' hrb' hp' hk' hlp' hlk'
  rw [callKem_aes hT X (.inl rfl) hT.kem.keypair] at e1 ⊢
  rw [callKem_aes hT Y (.inl rfl) hT.kem.keypair] at e2 ⊢
  obtain ⟨rfl, -⟩ := C92_aes_ref hT h (k := 2) (by simp [kemFuns]) rfl hm e1 e2
  exact ⟨t, r, q, e1, e2, h1.2.2.1, h2.2.2.1⟩

/-- C93, encapsulation: with whatever public keys and messages the same trace. -/
theorem C93_trace_enc (hT : KemTextRefAes G P K nm) (h : AlikeAes X Y) {bt bs bp : Nat} (hX : Ready G X rb m next [bt, bs, bp])
    (hY : Ready G Y rb' m' next [bt, bs, bp]) (hA : AesAt X J) (hA' : AesAt Y J') (hI : AesInPlace X) (hI' : AesInPlace Y)
    (hm : SameShape m m') {mu ct ss pk mu' ct' ss' pk' : List U8}
    (hmu : mu.length = K.len) (hrb : Fills rb mu) (ht : m bt = u8s ct) (hs : m bs = u8s ss) (hp : m bp = u8s pk)
    (hlt : ct.length = P.ctBytes) (hls : ss.length = P.bytes) (hlp : pk.length = P.pkBytes)
    (hmu' : mu'.length = K.len) (hrb' : Fills rb' mu') (ht' : m' bt = u8s ct') (hs' : m' bs = u8s ss') (hp' : m' bp = u8s pk')
    (hlt' : ct'.length = P.ctBytes) (hls' : ss'.length = P.bytes) (hlp' : pk'.length = P.pkBytes) :
    ∃ t r q, callKem G X ("crypto_kem_enc_" ++ nm) [bt, bs, bp] m next = .ok r t ∧
      callKem G Y ("crypto_kem_enc_" ++ nm) [bt, bs, bp] m' next = .ok q t ∧
      r.2.1 bs = u8s (encaps K pk mu).2 ∧ q.2.1 bs = u8s (encaps K pk' mu').2 := by
  obtain ⟨r, t, e1, h1⟩ := C93_enc hT hX hA hI hmu hrb ht hs hp hlt hls hlp
  obtain ⟨q, u, e2, h2⟩ := C93_enc hT hY hA' hI' hmu' hrb' ht' hs' hp' hlt' hls' hlp'
  rw [callKem_aes hT X (.inr (.inl rfl)) hT.kem.enc] at e1 ⊢
  rw [callKem_aes hT Y (.inr (.inl rfl)) hT.kem.enc] at e2 ⊢
  obtain ⟨rfl, -⟩ := C92_aes_ref hT h (k := 3) (by simp [kemFuns]) rfl hm e1 e2
  exact ⟨t, r, q, e1, e2, h1.2.2.1, h2.2.2.1⟩

/-- C93, decapsulation: with whatever ciphertexts and secret keys the same trace, accepted or rejected. -/
theorem C93_trace_dec (hT : KemTextRefAes G P K nm) (h : AlikeAes X Y) {bs bt bk : Nat} (hX : Ready G X rb m next [bs, bt, bk])
    (hY : Ready G Y rb' m' next [bs, bt, bk]) (hA : AesAt X J) (hA' : AesAt Y J') (hI : AesInPlace X) (hI' : AesInPlace Y)
    (hm : SameShape m m') {ss ct sk ss' ct' sk' : List U8}
    (hs : m bs = u8s ss) (ht : m bt = u8s ct) (hk : m bk = u8s sk) (hls : ss.length = P.bytes) (hlt : ct.length = P.ctBytes)
    (hlk : sk.length = P.skBytes) (hs' : m' bs = u8s ss') (ht' : m' bt = u8s ct') (hk' : m' bk = u8s sk') (hls' : ss'.length = P.bytes)
    (hlt' : ct'.length = P.ctBytes) (hlk' : sk'.length = P.skBytes) :
    ∃ t r q, callKem G X ("crypto_kem_dec_" ++ nm) [bs, bt, bk] m next = .ok r t ∧
      callKem G Y ("crypto_kem_dec_" ++ nm) [bs, bt, bk] m' next = .ok q t ∧
      r.2.1 bs = u8s (decaps K ct sk) ∧ q.2.1 bs = u8s (decaps K ct' sk') := by
  obtain ⟨r, t, e1, h1⟩ := C93_dec hT hX hA hI hs ht hk hls hlt hlk
  obtain ⟨q, u, e2, h2⟩ := C93_dec hT hY hA' hI' hs' ht' hk' hls' hlt' hlk'
  rw [callKem_aes hT X (.inr (.inr rfl)) hT.kem.dec] at e1 ⊢
  rw [callKem_aes hT Y (.inr (.inr rfl)) hT.kem.dec] at e2 ⊢
  obtain ⟨rfl, -⟩ := C92_aes_ref hT h (k := 3) (by simp [kemFuns]) rfl hm e1 e2
  exact ⟨t, r, q, e1, e2, h1.2.1, h2.2.1⟩

/-! ## The optimised implementation -/

theorem optAes_aligned {X : Ctx} {J : Junk} {se : String} : aesBuild.alignedGen (refAesEnv X J se) :=
  ⟨fun _ => nofun, nofun, nofun⟩

theorem optAes_calls (hT : KemTextAes G P K nm) (ha : X.arch = .le) (hA : AesAt X J) (hR : Rand X rb) (se : String)
    {bc bq : Nat} (hq : X.glob "KeccakF_RoundConstants" = some (.ptr bq 0 false 8)) (h1 : X.glob "CDF_TABLE" = some (.ptr bc 0 false 2))
    (h2 : X.glob "CDF_TABLE_LEN" = some (.int false 2 P.cdf.length)) :
    Calls (link [utilFile, G] (link [fipsFile] X 3) 1) aesBuild (refAesEnv (link [fipsFile] X 3) (bothJunk X J) se) P rb bc bq
      (u64s KeccakF_RoundConstants) := by
  refine calls hT.unit hT.standard.wf (by rw [link_arch, ha]) (by rw [link_glob, h1]) (by rw [link_glob, h2]) hT.cdf.1 hT.cdf.2 ?_
  have j1 : JunkAt (refAesEnv (link [fipsFile] X 3) (bothJunk X J) se) (link [fipsFile] X 3) 30 8 "aes_key_schedule" :=
    fun i => BitVec.ofNat_toNat ..
  have j2 : JunkAt (refAesEnv (link [fipsFile] X 3) (bothJunk X J) se) (link [fipsFile] X 3) 36 16 "sp" := fun i => BitVec.ofNat_toNat ..
  exact othersAes hT.opt hT.leaves hT.noAes hT.small hT.stripe rfl rfl rfl rfl (by rw [link_arch, ha]) j1 j2
    (SpongeAt.junk (J' := (refAesEnv (link [fipsFile] X 3) (bothJunk X J) se).junk) (fips_sponge (d := 0) ha hq) rfl rfl rfl)
    (aes_fips (AesAt.junk (J' := (refAesEnv (link [fipsFile] X 3) (bothJunk X J) se).junk) hA rfl)) (Rand.fips hR)

/-- C93, optimised implementation, `crypto_kem_keypair`: the text with the text of SHAKE returns 0, with the keys of
Algorithm 12, given functions for AES128. -/
theorem C93_opt_keypair (hT : KemTextAes G P K nm) {bp bk : Nat} (h : Ready G X rb m next [bp, bk]) (hA : AesAt X J)
    {s seedSE z pk sk : List U8}
    (hs : s.length = K.len) (hse : seedSE.length = K.len) (hz : z.length = K.lenA) (hrb : Fills rb (s ++ seedSE ++ z))
    (hp : m bp = u8s pk) (hk : m bk = u8s sk) (hlp : pk.length = P.pkBytes) (hlk : sk.length = P.skBytes) :
    Ret (callKem G X ("crypto_kem_keypair_" ++ nm) [bp, bk] m next) fun x =>
      x.1 = .int true 4 0 ∧ x.2.1 bp = u8s (keygen K s seedSE z).1 ∧ x.2.1 bk = u8s (keygen K s seedSE z).2 ∧
        ∀ b, b < next → b ≠ bp → b ≠ bk → x.2.1 b = m b := by
  have hd := h.distinct
  simp only [List.nodup_cons, List.mem_singleton, List.not_mem_nil, not_false_eq_true, List.nodup_nil, and_true] at hd
  have ha : ∀ x b s n, X.glob x = some (.ptr b 0 s n) → b < next ∧ b ≠ bp ∧ b ≠ bk := fun x b s n e => by
    simpa using h.apart x b s n e
  obtain ⟨bq, k1, k2⟩ := loaded_table h.rounds
  obtain ⟨g1, g2, g3⟩ := ha _ _ _ _ k1
  obtain ⟨bc, hc, hcl, hmc⟩ := loaded_cdf_aes hT h.table
  obtain ⟨c1, c2, c3⟩ := ha _ _ _ _ hc
  exact (keypair_calls (B := aesBuild) (E := refAesEnv (link [fipsFile] X 3) (bothJunk X J) "shake_input_seedSE") hT.kem hT.standard
    hT.small rfl optAes_aligned (fun _ => rfl) _ rb
    (optAes_calls hT h.arch hA h.rand "shake_input_seedSE" k1 hc hcl) (refAesEnv_junk fun i => rfl) (refAesEnv_junk fun i => rfl)
    s seedSE z hs hse hz hrb m next bp bk pk sk hp hk hlp hlk (h.below _ (by simp)) (h.below _ (by simp)) hd hmc c1 c2 c3 k2 g1 g2 g3).mono
    fun x h => ⟨h.1, h.2.1, h.2.2.1, h.2.2.2.1⟩

/-- C93, optimised implementation, `crypto_kem_enc`: the ciphertext and the secret of Algorithm 13. -/
theorem C93_opt_enc (hT : KemTextAes G P K nm) {bt bs bp : Nat} (h : Ready G X rb m next [bt, bs, bp]) (hA : AesAt X J)
    {mu ct ss pk : List U8} (hmu : mu.length = K.len) (hrb : Fills rb mu) (ht : m bt = u8s ct) (hs : m bs = u8s ss) (hp : m bp = u8s pk)
    (hlt : ct.length = P.ctBytes) (hls : ss.length = P.bytes) (hlp : pk.length = P.pkBytes) :
    Ret (callKem G X ("crypto_kem_enc_" ++ nm) [bt, bs, bp] m next) fun x =>
      x.1 = .int true 4 0 ∧ x.2.1 bt = u8s (encaps K pk mu).1 ∧ x.2.1 bs = u8s (encaps K pk mu).2 ∧
        ∀ b, b < next → b ≠ bt → b ≠ bs → x.2.1 b = m b := by
  have hd := h.distinct
  simp only [List.nodup_cons, List.mem_cons, List.not_mem_nil, not_false_eq_true, List.nodup_nil, and_true, not_or, or_false] at hd
  have ha : ∀ x b s n, X.glob x = some (.ptr b 0 s n) → b < next ∧ b ≠ bt ∧ b ≠ bs := fun x b s n e => by
    have := h.apart x b s n e
    simp only [List.mem_cons, not_or] at this
    exact ⟨this.1, this.2.1, this.2.2.1⟩
  obtain ⟨bq, k1, k2⟩ := loaded_table h.rounds
  obtain ⟨g1, g2, g3⟩ := ha _ _ _ _ k1
  obtain ⟨bc, hc, hcl, hmc⟩ := loaded_cdf_aes hT h.table
  obtain ⟨c1, c2, c3⟩ := ha _ _ _ _ hc
  exact (enc_calls (B := aesBuild) (E := refAesEnv (link [fipsFile] X 3) (bothJunk X J) "shake_input_seedSE") hT.kem hT.standard
    hT.small (.inr rfl) rfl (by decide) optAes_aligned (fun _ => rfl) _ rb
    (optAes_calls hT h.arch hA h.rand "shake_input_seedSE" k1 hc hcl)
    (refAesEnv_junk fun i => rfl) (refAesEnv_junk fun i => rfl) (refAesEnv_junk fun i => rfl) (refAesEnv_junk fun i => rfl)
    mu hmu hrb m next bt bs bp ct ss pk ht hs hp hlt (by omega) hlp (h.below _ (by simp)) (h.below _ (by simp)) (h.below _ (by simp))
    hd.1.1 (Ne.symm hd.1.2) (Ne.symm hd.2) hmc c1 c2 c3 k2 g1 g2 g3).mono
    fun x h => ⟨h.1, h.2.1, by rw [h.2.2.1, List.drop_eq_nil_of_le (by omega), List.append_nil], h.2.2.2.1⟩

/-- C93, optimised implementation, `crypto_kem_dec`: the secret of Algorithm 14, for accepted and for rejected ciphertexts. -/
theorem C93_opt_dec (hT : KemTextAes G P K nm) {bs bt bk : Nat} (h : Ready G X rb m next [bs, bt, bk]) (hA : AesAt X J)
    {ss ct sk : List U8} (hs : m bs = u8s ss) (ht : m bt = u8s ct) (hk : m bk = u8s sk) (hls : ss.length = P.bytes)
    (hlt : ct.length = P.ctBytes) (hlk : sk.length = P.skBytes) :
    Ret (callKem G X ("crypto_kem_dec_" ++ nm) [bs, bt, bk] m next) fun x =>
      x.1 = .int true 4 0 ∧ x.2.1 bs = u8s (decaps K ct sk) ∧ ∀ b, b < next → b ≠ bs → x.2.1 b = m b := by
  have hd := h.distinct
  simp only [List.nodup_cons, List.mem_cons, List.not_mem_nil, not_false_eq_true, List.nodup_nil, and_true, not_or, or_false] at hd
  have ha : ∀ x b s n, X.glob x = some (.ptr b 0 s n) → b < next ∧ b ≠ bt ∧ b ≠ bs := fun x b s n e => by
    have := h.apart x b s n e
    simp only [List.mem_cons, not_or] at this
    exact ⟨this.1, this.2.2.1, this.2.1⟩
  obtain ⟨bq, k1, k2⟩ := loaded_table h.rounds
  obtain ⟨g1, g2, g3⟩ := ha _ _ _ _ k1
  obtain ⟨bc, hc, hcl, hmc⟩ := loaded_cdf_aes hT h.table
  obtain ⟨c1, c2, c3⟩ := ha _ _ _ _ hc
  exact (dec_calls (B := aesBuild) (E := refAesEnv (link [fipsFile] X 3) (bothJunk X J) "shake_input_seedSEprime") hT.kem hT.standard
    hT.small (.inr rfl) rfl (by decide) optAes_aligned (fun _ => rfl) _ rb
    (optAes_calls hT h.arch hA h.rand "shake_input_seedSEprime" k1 hc hcl) (by rw [link_arch, link_arch, h.arch])
    (refAesEnv_junk fun i => rfl) (refAesEnv_junk fun i => rfl) (refAesEnv_junk fun i => rfl) (refAesEnv_junk fun i => rfl)
    (refAesEnv_junk fun i => rfl)
    m next bs bt bk ss ct sk hs ht hk (by omega) hlt hlk (h.below _ (by simp)) (h.below _ (by simp)) (h.below _ (by simp))
    (Ne.symm hd.1.1) (Ne.symm hd.2) (Ne.symm hd.1.2) hmc c1 c2 c3 k2 g1 g2 g3).mono
    fun x h => ⟨h.1, by rw [h.2.1, List.drop_eq_nil_of_le (by omega), List.append_nil], h.2.2.1⟩

/-! ## Traces of the optimised implementation -/

theorem callKem_opt (hT : KemTextAes G P K nm) (Z : Ctx) {f : String} {g : Fun}
    (hf : f = "crypto_kem_keypair_" ++ nm ∨ f = "crypto_kem_enc_" ++ nm ∨ f = "crypto_kem_dec_" ++ nm) (hg : G.fn f = some g) (bs : List Nat)
    (m : Mem) (next : Nat) : callKem G Z f bs m next =
      (link [utilFile, G] (link [fipsFile] Z 3) 2).call f (bs.map fun b => .ptr b 0 false 1) m next := by
  cases hT <;> (rcases hf with rfl | rfl | rfl) <;>
    exact callKem_eq (by kernel_rfl) hg (by decide) (by decide) bs m next

/-- C93, optimised implementation, key generation: with whatever random bytes the same trace, and the keys of the specification. -/
theorem C93_opt_trace_keypair (hT : KemTextAes G P K nm) (h : AlikeAes X Y) {bp bk : Nat} (hX : Ready G X rb m next [bp, bk])
    (hY : Ready G Y rb' m' next [bp, bk]) (hA : AesAt X J) (hA' : AesAt Y J')
    (hm : SameShape m m') {s seedSE z pk sk s' seedSE' z' pk' sk' : List U8}
    (hs : s.length = K.len) (hse : seedSE.length = K.len) (hz : z.length = K.lenA) (hrb : Fills rb (s ++ seedSE ++ z))
    (hp : m bp = u8s pk) (hk : m bk = u8s sk) (hlp : pk.length = P.pkBytes) (hlk : sk.length = P.skBytes)
    (hs' : s'.length = K.len) (hse' : seedSE'.length = K.len) (hz' : z'.length = K.lenA) (hrb' : Fills rb' (s' ++ seedSE' ++ z'))
    (hp' : m' bp = u8s pk') (hk' : m' bk = u8s sk') (hlp' : pk'.length = P.pkBytes) (hlk' : sk'.length = P.skBytes) :
    ∃ t r q, callKem G X ("crypto_kem_keypair_" ++ nm) [bp, bk] m next = .ok r t ∧
      callKem G Y ("crypto_kem_keypair_" ++ nm) [bp, bk] m' next = .ok q t ∧
      r.2.1 bk = u8s (keygen K s seedSE z).2 ∧ q.2.1 bk = u8s (keygen K s' seedSE' z').2 := by
  obtain ⟨r, t, e1, h1⟩ := C93_opt_keypair hT hX hA hs hse hz hrb hp hk hlp hlk
  obtain ⟨q, u, e2, h2⟩ := C93_opt_keypair hT hY hA' hs' hse' hz' hrb' hp' hk' hlp' hlk'
  rw [callKem_opt hT X (.inl rfl) hT.kem.keypair] at e1 ⊢
  rw [callKem_opt hT Y (.inl rfl) hT.kem.keypair] at e2 ⊢
  obtain ⟨rfl, -⟩ := C92_aes hT h (k := 2) (by simp [kemFuns]) rfl hm e1 e2
  exact ⟨t, r, q, e1, e2, h1.2.2.1, h2.2.2.1⟩

/-- C93, optimised implementation, encapsulation: with whatever public keys and messages the same trace. -/
theorem C93_opt_trace_enc (hT : KemTextAes G P K nm) (h : AlikeAes X Y) {bt bs bp : Nat} (hX : Ready G X rb m next [bt, bs, bp])
    (hY : Ready G Y rb' m' next [bt, bs, bp]) (hA : AesAt X J) (hA' : AesAt Y J')
    (hm : SameShape m m') {mu ct ss pk mu' ct' ss' pk' : List U8}
    (hmu : mu.length = K.len) (hrb : Fills rb mu) (ht : m bt = u8s ct) (hs : m bs = u8s ss) (hp : m bp = u8s pk)
    (hlt : ct.length = P.ctBytes) (hls : ss.length = P.bytes) (hlp : pk.length = P.pkBytes)
    (hmu' : mu'.length = K.len) (hrb' : Fills rb' mu') (ht' : m' bt = u8s ct') (hs' : m' bs = u8s ss') (hp' : m' bp = u8s pk')
    (hlt' : ct'.length = P.ctBytes) (hls' : ss'.length = P.bytes) (hlp' : pk'.length = P.pkBytes) :
    ∃ t r q, callKem G X ("crypto_kem_enc_" ++ nm) [bt, bs, bp] m next = .ok r t ∧
      callKem G Y ("crypto_kem_enc_" ++ nm) [bt, bs, bp] m' next = .ok q t ∧
      r.2.1 bs = u8s (encaps K pk mu).2 ∧ q.2.1 bs = u8s (encaps K pk' mu').2 := by
  obtain ⟨r, t, e1, h1⟩ := C93_opt_enc hT hX hA hmu hrb ht hs hp hlt hls hlp
  obtain ⟨q, u, e2, h2⟩ := C93_opt_enc hT hY hA' hmu' hrb' ht' hs' hp' hlt' hls' hlp'
  rw [callKem_opt hT X (.inr (.inl rfl)) hT.kem.enc] at e1 ⊢
  rw [callKem_opt hT Y (.inr (.inl rfl)) hT.kem.enc] at e2 ⊢
  obtain ⟨rfl, -⟩ := C92_aes hT h (k := 3) (by simp [kemFuns]) rfl hm e1 e2
  exact ⟨t, r, q, e1, e2, h1.2.2.1, h2.2.2.1⟩

/-- C93, optimised implementation, decapsulation: with whatever ciphertexts and secret keys the same trace, accepted or rejected. -/
theorem C93_opt_trace_dec (hT : KemTextAes G P K nm) (h : AlikeAes X Y) {bs bt bk : Nat} (hX : Ready G X rb m next [bs, bt, bk])
    (hY : Ready G Y rb' m' next [bs, bt, bk]) (hA : AesAt X J) (hA' : AesAt Y J')
    (hm : SameShape m m') {ss ct sk ss' ct' sk' : List U8}
    (hs : m bs = u8s ss) (ht : m bt = u8s ct) (hk : m bk = u8s sk) (hls : ss.length = P.bytes) (hlt : ct.length = P.ctBytes)
    (hlk : sk.length = P.skBytes) (hs' : m' bs = u8s ss') (ht' : m' bt = u8s ct') (hk' : m' bk = u8s sk') (hls' : ss'.length = P.bytes)
    (hlt' : ct'.length = P.ctBytes) (hlk' : sk'.length = P.skBytes) :
    ∃ t r q, callKem G X ("crypto_kem_dec_" ++ nm) [bs, bt, bk] m next = .ok r t ∧
      callKem G Y ("crypto_kem_dec_" ++ nm) [bs, bt, bk] m' next = .ok q t ∧
      r.2.1 bs = u8s (decaps K ct sk) ∧ q.2.1 bs = u8s (decaps K ct' sk') := by
  obtain ⟨r, t, e1, h1⟩ := C93_opt_dec hT hX hA hs ht hk hls hlt hlk
  obtain ⟨q, u, e2, h2⟩ := C93_opt_dec hT hY hA' hs' ht' hk' hls' hlt' hlk'
  rw [callKem_opt hT X (.inr (.inr rfl)) hT.kem.dec] at e1 ⊢
  rw [callKem_opt hT Y (.inr (.inr rfl)) hT.kem.dec] at e2 ⊢
  obtain ⟨rfl, -⟩ := C92_aes hT h (k := 3) (by simp [kemFuns]) rfl hm e1 e2
  exact ⟨t, r, q, e1, e2, h1.2.1, h2.2.1⟩

end

/-! ## Exchanges -/

/-- The text of the reference or of the optimised implementation with A from AES128 (/repo/src/frodo640.c:41-45), in a program with the functions
for AES128 that it needs. -/
def WithAes128 (G : File) (P : Params) (K : KemParams) (nm : String) (X : Ctx) : Prop :=
  ∃ J, AesAt X J ∧ (KemTextRefAes G P K nm ∧ AesInPlace X ∨ KemTextAes G P K nm)

namespace WithAes128

variable {G : File} {P : Params} {K : KemParams} {nm : String} {X : Ctx} {rb : RandomBytes} {m : Mem} {next : Nat}

theorem standard (h : WithAes128 G P K nm X) : Standard P .aes K := by
  obtain ⟨_, -, ⟨h, -⟩ | h⟩ := h
  · exact h.standard
  · exact h.standard

theorem keypair (hT : WithAes128 G P K nm X) {bp bk : Nat} (h : Ready G X rb m next [bp, bk]) {s seedSE z pk sk : List U8}
    (hs : s.length = K.len) (hse : seedSE.length = K.len) (hz : z.length = K.lenA) (hrb : Fills rb (s ++ seedSE ++ z))
    (hp : m bp = u8s pk) (hk : m bk = u8s sk) (hlp : pk.length = P.pkBytes) (hlk : sk.length = P.skBytes) :
    Ret (callKem G X ("crypto_kem_keypair_" ++ nm) [bp, bk] m next) fun x =>
      x.1 = .int true 4 0 ∧ x.2.1 bp = u8s (keygen K s seedSE z).1 ∧ x.2.1 bk = u8s (keygen K s seedSE z).2 := by
  obtain ⟨_, hA, ⟨hT, hI⟩ | hT⟩ := hT
  · exact (C93_keypair hT h hA hI hs hse hz hrb hp hk hlp hlk).mono fun _ e => ⟨e.1, e.2.1, e.2.2.1⟩
  · exact (C93_opt_keypair hT h hA hs hse hz hrb hp hk hlp hlk).mono fun _ e => ⟨e.1, e.2.1, e.2.2.1⟩

theorem enc (hT : WithAes128 G P K nm X) {bt bs bp : Nat} (h : Ready G X rb m next [bt, bs, bp]) {mu ct ss pk : List U8}
    (hmu : mu.length = K.len) (hrb : Fills rb mu) (ht : m bt = u8s ct) (hs : m bs = u8s ss) (hp : m bp = u8s pk)
    (hlt : ct.length = P.ctBytes) (hls : ss.length = P.bytes) (hlp : pk.length = P.pkBytes) :
    Ret (callKem G X ("crypto_kem_enc_" ++ nm) [bt, bs, bp] m next) fun x =>
      x.1 = .int true 4 0 ∧ x.2.1 bt = u8s (encaps K pk mu).1 ∧ x.2.1 bs = u8s (encaps K pk mu).2 := by
  obtain ⟨_, hA, ⟨hT, hI⟩ | hT⟩ := hT
  · exact (C93_enc hT h hA hI hmu hrb ht hs hp hlt hls hlp).mono fun _ e => ⟨e.1, e.2.1, e.2.2.1⟩
  · exact (C93_opt_enc hT h hA hmu hrb ht hs hp hlt hls hlp).mono fun _ e => ⟨e.1, e.2.1, e.2.2.1⟩

theorem dec (hT : WithAes128 G P K nm X) {bs bt bk : Nat} (h : Ready G X rb m next [bs, bt, bk]) {ss ct sk : List U8} (hs : m bs = u8s ss)
    (ht : m bt = u8s ct) (hk : m bk = u8s sk) (hls : ss.length = P.bytes) (hlt : ct.length = P.ctBytes) (hlk : sk.length = P.skBytes) :
    Ret (callKem G X ("crypto_kem_dec_" ++ nm) [bs, bt, bk] m next) fun x => x.1 = .int true 4 0 ∧ x.2.1 bs = u8s (decaps K ct sk) := by
  obtain ⟨_, hA, ⟨hT, hI⟩ | hT⟩ := hT
  · exact (C93_dec hT h hA hI hs ht hk hls hlt hlk).mono fun _ e => ⟨e.1, e.2.1⟩
  · exact (C93_opt_dec hT h hA hs ht hk hls hlt hlk).mono fun _ e => ⟨e.1, e.2.1⟩

end WithAes128

section

variable {P : Params} {K : KemParams} {nm : String}

/-- C93, exchanges between implementations.  If the accumulated noise is within the bounds of C01, then after key generation by one program,
encapsulation by a second and decapsulation by a third, each with the text of the reference or of the optimised implementation with A from
AES128, both parties hold the same shared secret. -/
theorem C93_round_trip {G G' G'' : File} {X X' X'' : Ctx} (hT : WithAes128 G P K nm X) (hT' : WithAes128 G' P K nm X')
    (hT'' : WithAes128 G'' P K nm X'') {rb rb' rb'' : RandomBytes} {m : Mem} {next bp bk : Nat} (h : Ready G X rb m next [bp, bk])
    {s seedSE z mu pk sk : List U8} (hs : s.length = K.len) (hse : seedSE.length = K.len) (hz : z.length = K.lenA)
    (hmu : mu.length = K.len) (hrb : Fills rb (s ++ seedSE ++ z)) (hrb' : Fills rb' mu) (hp : m bp = u8s pk) (hk : m bk = u8s sk)
    (hlp : pk.length = P.pkBytes) (hlk : sk.length = P.skBytes) (hn : NoiseBound K seedSE (keygen K s seedSE z).1 mu) :
    Ret (callKem G X ("crypto_kem_keypair_" ++ nm) [bp, bk] m next) fun x => x.1 = .int true 4 0 ∧
      ∀ (m' : Mem) (next' bt' bs' bp' : Nat) (ct ss : List U8), Ready G' X' rb' m' next' [bt', bs', bp'] → m' bt' = u8s ct →
        m' bs' = u8s ss → ct.length = P.ctBytes → ss.length = P.bytes → m' bp' = x.2.1 bp →
      Ret (callKem G' X' ("crypto_kem_enc_" ++ nm) [bt', bs', bp'] m' next') fun y => y.1 = .int true 4 0 ∧
        ∀ (m'' : Mem) (next'' bs'' bt'' bk'' : Nat) (ss'' : List U8), Ready G'' X'' rb'' m'' next'' [bs'', bt'', bk''] →
          m'' bs'' = u8s ss'' → ss''.length = P.bytes → m'' bt'' = y.2.1 bt' → m'' bk'' = x.2.1 bk →
        Ret (callKem G'' X'' ("crypto_kem_dec_" ++ nm) [bs'', bt'', bk''] m'' next'') fun w => w.1 = .int true 4 0 ∧
          w.2.1 bs'' = y.2.1 bs' := by
  have hS := hT.standard
  refine (hT.keypair h hs hse hz hrb hp hk hlp hlk).mono ?_
  rintro x ⟨x1, x2, x3⟩
  refine ⟨x1, fun m' next' bt' bs' bp' ct ss h' ht' hs' hlt hls hp' => ?_⟩
  have lp : (keygen K s seedSE z).1.length = P.pkBytes := by rw [length_keygen_pk hS.kwf, hS.pkLen]
  refine (hT'.enc h' hmu hrb' ht' hs' (hp'.trans x2) hlt hls lp).mono ?_
  rintro y ⟨y1, y2, y3⟩
  refine ⟨y1, fun m'' next'' bs'' bt'' bk'' ss'' h'' hs'' hls'' ht'' hk'' => ?_⟩
  refine (hT''.dec h'' hs'' (ht''.trans y2) (hk''.trans x3) hls'' (by rw [length_encaps_ct, hS.ctLen])
    (by rw [length_keygen_sk hS.kwf hs, hS.skLen])).mono ?_
  rintro w ⟨w1, w2⟩
  exact ⟨w1, by rw [w2, y3, decaps_encaps hS.kwf hs hmu (fun i j => ⟨_, (hn i j).1, (hn i j).2, rfl⟩)]⟩

/-- C93, any ciphertext and any secret key, honest or not: the two implementations with A from AES128 compute the same shared secret. -/
theorem C93_agree {G G' : File} {X X' : Ctx} (hT : WithAes128 G P K nm X) (hT' : WithAes128 G' P K nm X') {rb rb' : RandomBytes} {m m' : Mem}
    {next bs bt bk next' bs' bt' bk' : Nat} (h : Ready G X rb m next [bs, bt, bk]) (h' : Ready G' X' rb' m' next' [bs', bt', bk'])
    {ss ss' ct sk : List U8} (hs : m bs = u8s ss) (ht : m bt = u8s ct) (hk : m bk = u8s sk) (hs' : m' bs' = u8s ss')
    (ht' : m' bt' = u8s ct) (hk' : m' bk' = u8s sk) (hls : ss.length = P.bytes) (hls' : ss'.length = P.bytes)
    (hlt : ct.length = P.ctBytes) (hlk : sk.length = P.skBytes) :
    Ret (callKem G X ("crypto_kem_dec_" ++ nm) [bs, bt, bk] m next) fun x =>
      Ret (callKem G' X' ("crypto_kem_dec_" ++ nm) [bs', bt', bk'] m' next') fun y => x.2.1 bs = y.2.1 bs' :=
  (hT.dec h hs ht hk hls hlt hlk).mono fun _ e => (hT'.dec h' hs' ht' hk' hls' hlt hlk).mono fun _ e' => e.2.trans e'.2.symm

/-- C93, a ciphertext that is not the encryption of what it decrypts to: the shared secret is the hash of the ciphertext and of
the secret string `s` at the start of the secret key. -/
theorem C93_reject {G : File} {X : Ctx} (hT : WithAes128 G P K nm X) {rb : RandomBytes} {m : Mem} {next bs bt bk : Nat}
    (h : Ready G X rb m next [bs, bt, bk]) {ss ct sk : List U8} (hs : m bs = u8s ss) (ht : m bt = u8s ct) (hk : m bk = u8s sk)
    (hls : ss.length = P.bytes) (hlt : ct.length = P.ctBytes) (hlk : sk.length = P.skBytes) (hne : ct ≠ (reencrypt K ct sk).1) :
    Ret (callKem G X ("crypto_kem_dec_" ++ nm) [bs, bt, bk] m next) fun x => x.1 = .int true 4 0 ∧
      x.2.1 bs = u8s (K.shake (ct ++ sk.take K.len) K.len) :=
  (hT.dec h hs ht hk hls hlt hlk).mono fun _ e => ⟨e.1, by
    rw [e.2, decaps_reencrypt hT.standard.kwf (by rw [hlt, hT.standard.ctLen]), if_neg hne]⟩

end

/-! ## Concrete cases -/

/-- What is returned, if anything, is `Q` (proof device, not a part of /repo). -/
def After (mo : C α) (Q : α → Prop) : Prop := ∀ a t, mo = .ok a t → Q a

namespace After

variable {N : Nat}

theorem bind {mo : C α} {k : α → C β} {R : α → Prop} {Q : β → Prop} (h : After mo R) (hk : ∀ a, R a → After (k a) Q) : After (mo >>= k) Q := by
  intro b t e
  cases mo with
  | ok a u =>
    cases e' : k a with
    | ok c w =>
      simp only [C.bind_def, C.bind', e'] at e
      cases e
      exact hk a (h a u rfl) _ _ e'
    | ub => simp only [C.bind_def, C.bind', e'] at e; cases e
    | div => simp only [C.bind_def, C.bind', e'] at e; cases e
  | ub => cases e
  | div => cases e

theorem any {mo : C α} {k : α → C β} {Q : β → Prop} (hk : ∀ a, After (k a) Q) : After (mo >>= k) Q :=
  bind (R := fun _ => True) (fun _ _ _ => trivial) fun a _ => hk a

theorem ret {a : α} {Q : α → Prop} (h : Q a) : After (pure a : C α) Q := fun _ _ e => by cases e; exact h

theorem wr {l : List U8} {i : Nat} {v : U8} (h : l.length = N) : After (Frodo.wr l i v) (·.length = N) := by
  unfold Frodo.wr
  split
  · exact any fun _ => ret (by rw [List.length_set, h])
  · nofun

theorem memset {l : List U8} {v : U8} {n : Nat} (h : l.length = N) : After (Frodo.memset l v n) (·.length = N) := by
  unfold Frodo.memset
  split
  · exact any fun _ => ret (by rw [List.length_append, List.length_replicate, List.length_drop]; omega)
  · nofun

theorem memcpy {l s : List U8} {i j n : Nat} (h : l.length = N) : After (Frodo.memcpy l i s j n) (·.length = N) := by
  unfold Frodo.memcpy
  split
  · split
    · exact any fun _ => any fun _ => ret (by
        simp only [List.length_append, List.length_take, List.length_drop]; omega)
    · nofun
  · nofun

theorem atPtr {l : List U8} {i : Nat} {f : List U8 → C (List U8)} (h : l.length = N) (hf : ∀ x : List U8, After (f x) (·.length = x.length)) :
    After (Frodo.atPtr l i f) (·.length = N) := by
  unfold Frodo.atPtr
  split
  · exact any fun _ => bind (hf _) fun a ha => ret (by rw [List.length_append, List.length_take, ha, List.length_drop]; omega)
  · nofun

theorem loop {Q : σ → Prop} {lo hi step : Nat} {s : σ} {body : Nat → σ → C σ} (h : Q s) (hb : ∀ i s, Q s → After (body i s) Q) :
    After (forC lo hi step s body) Q := by
  unfold forC
  generalize (hi - lo + (step - 1)) / step = k
  induction k generalizing lo s with
  | zero => exact any fun _ => ret h
  | succ k ih => exact any fun _ => bind (hb _ _ h) fun a ha => ih ha

end After

/-- Goes through assignments to elements and other statements. -/
macro "after" n:term : tactic => `(tactic| repeat' first
  | exact After.wr (N := $n) (by assumption)
  | refine After.bind (After.wr (N := $n) (by assumption)) (fun _ _ => ?_)
  | refine After.any (fun _ => ?_))

section

variable {N : Nat} {st rk : List U8}

theorem addRoundKey_len {round : Nat} (h : st.length = N) : After (addRoundKey_c rk round st) (·.length = N) :=
  After.loop h fun _ _ h => After.loop h fun _ _ h => by after N

theorem subBytes_len (h : st.length = N) : After (subBytes_c st) (·.length = N) :=
  After.loop h fun _ _ h => After.loop h fun _ _ h => by after N

theorem shiftRows_len (h : st.length = N) : After (shiftRows_c st) (·.length = N) := by
  unfold shiftRows_c
  after N

theorem mixColumns_len (h : st.length = N) : After (mixColumns_c st) (·.length = N) :=
  After.loop h fun _ _ h => by
    unfold mixColumn_c
    after N

theorem cipher_len {Nr : Nat} (h : st.length = N) : After (cipher_c rk Nr st) (·.length = N) :=
  (addRoundKey_len h).bind fun _ h => (After.loop (Q := fun l : List U8 => l.length = N) h fun _ _ h => (subBytes_len h).bind fun _ h => (shiftRows_len h).bind fun _ h =>
    (mixColumns_len h).bind fun _ h => addRoundKey_len h).bind fun _ h => (subBytes_len h).bind fun _ h => (shiftRows_len h).bind fun _ h =>
      addRoundKey_len h

theorem enc_len {p c : List U8} : After (aes128_enc .c 0 p rk c) (·.length = c.length) :=
  (After.memcpy rfl).bind fun _ h => cipher_len h

theorem load_len {J : Junk} {key : List U8} : After (AES128_load_schedule .c J 0 key rk) (·.length = rk.length) := by
  generalize h0 : rk.length = N
  refine After.bind (R := fun l : List U8 => l.length = N) (After.loop h0 fun i l h => by after N) fun l h => ?_
  refine After.bind (R := fun s : List U8 × List U8 => s.1.length = N) (After.loop h fun i s h => ?_) fun s h => After.ret h
  obtain ⟨k, tempa⟩ := s
  unfold schedStep
  have h : k.length = N := h
  repeat' first
    | exact After.ret (by assumption)
    | refine After.bind (After.wr (N := N) (by assumption)) (fun _ _ => ?_)
    | refine After.any (fun _ => ?_)

theorem ecb_len {p c : List U8} {len : Nat} : After (AES128_ECB_enc_sch .c 0 p len rk c) (·.length = c.length) :=
  After.any fun _ => After.loop rfl fun _ _ h => After.any fun _ => After.atPtr h fun _ => enc_len

theorem inplace_len {c : List U8} {len : Nat} : After (AES128_ECB_enc_sch_inplace .c 0 len rk c) (·.length = c.length) :=
  After.any fun _ => After.loop rfl fun _ _ h => After.any fun _ => After.atPtr h fun _ => enc_len

theorem free_len : After (AES128_free_schedule rk) (·.length = rk.length) := After.memset rfl

end

/-- The result without the trace (proof device, not a part of /repo). -/
def noTrace (mo : C α) : C α :=
  match mo with
  | .ok a _ => .ok a []
  | .ub u => .ub u
  | .div => .div

/-- The functions for AES128 (/repo/src/aes/aes.c:16-44) as the model has them but without traces, as with the instructions of the processor;
other calls `X`. -/
def quietAes (J : Junk) (X : Ctx) : Ctx :=
  { X with call := fun f args m nx =>
      if f = "AES128_load_schedule" ∨ f = "AES128_ECB_enc_sch" ∨ f = "AES128_free_schedule" then
        match args with
        | [.ptr bk ki _ _, .ptr br _ _ _] =>
          noTrace (AES128_load_schedule .c J 0 ((demoBytes (m bk)).drop ki) (demoBytes (m br))) >>= fun r =>
            pure (.undef .void, m.set br (demoPut (m br) r), nx)
        | [.ptr bi _ _ _, .int _ _ len, .ptr br _ _ _, .ptr bo _ _ _] =>
          noTrace (if bi = bo then AES128_ECB_enc_sch_inplace .c 0 len.toNat (demoBytes (m br)) (demoBytes (m bo))
            else AES128_ECB_enc_sch .c 0 (demoBytes (m bi)) len.toNat (demoBytes (m br)) (demoBytes (m bo))) >>= fun r =>
            pure (.undef .void, m.set bo (demoPut (m bo) r), nx)
        | [.ptr br _ _ _] => noTrace (AES128_free_schedule (demoBytes (m br))) >>= fun r =>
            pure (.undef .void, m.set br (demoPut (m br) r), nx)
        | _ => C.ub .oobWrite
      else X.call f args m nx }

theorem quiet_step {mo : C α} {N nx b : Nat} {M F : Mem} {w : α → Val} {y : α → Blk} (hN : N ≤ nx) (hM : MAgree N M F) :
    Refines False mo (noTrace mo >>= fun r => pure (w r, M.set b (y r), nx))
      fun a x => x.1 = w a ∧ N ≤ x.2.2 ∧ MAgree N x.2.1 (F.set b (y a)) := by
  intro a t e
  subst e
  exact ⟨_, _, rfl, ⟨rfl, hN, hM.set _ _⟩, nofun⟩

theorem quiet_aes {J : Junk} {X : Ctx} : AesAt (quietAes J X) J := by
  refine ⟨?_, ?_, ?_⟩
  · intro N F bk ki br a K R h1 h2 h3 h4 h5 h6 M nx hN hM
    simp only [quietAes, true_or, if_true, hM bk h3, hM br h4, h1, h2, show ∀ l, demoBytes (u8s l) = l from fun l => demoBytes_blk .u8 l (.inr rfl),
      show ∀ l, demoPut (u8s R) l = u8s l from demoPut_blk .u8 R]
    exact quiet_step hN hM
  · intro N F bi br bo a v I R O len h1 h2 h3 h4 h5 h6 h7 h8 h9 h10 h11 h12 M nx hN hM
    simp only [quietAes, true_or, or_true, if_true, if_neg h9, hM bi h6, hM br h7, hM bo h8, h1, h2, h3, demoBytes_blk v I (.inl h4),
      demoBytes_blk v O (.inl h5), show demoBytes (u8s R) = R from demoBytes_blk .u8 R (.inr rfl), demoPut_blk, Int.toNat_natCast]
    exact quiet_step hN hM
  · intro N F br R h1 h2 M nx hN hM
    simp only [quietAes, or_true, if_true, hM br h2, h1, show ∀ l, demoBytes (u8s l) = l from fun l => demoBytes_blk .u8 l (.inr rfl),
      show ∀ l, demoPut (u8s R) l = u8s l from demoPut_blk .u8 R]
    exact quiet_step hN hM

theorem quiet_inPlace {J : Junk} {X : Ctx} : AesInPlace (quietAes J X) := by
  intro N F br bo a v R O len h1 h2 h3 h4 h5 h6 h7 M nx hN hM
  simp only [quietAes, true_or, or_true, if_true, hM bo h5, hM br h4, h1, h2, demoBytes_blk v O (.inl h3), demoPut_blk,
    show demoBytes (u8s R) = R from demoBytes_blk .u8 R (.inr rfl), Int.toNat_natCast]
  exact quiet_step hN hM

theorem quiet_ok {mo mo' : C (List U8)} {m m' : Mem} {b nx : Nat} {r q t u} (hm : SameShape m m')
    (h : After mo (·.length = (demoBytes (m b)).length)) (h' : After mo' (·.length = (demoBytes (m' b)).length))
    (h1 : (noTrace mo >>= fun r => pure (Val.undef .void, m.set b (demoPut (m b) r), nx)) = .ok r t)
    (h2 : (noTrace mo' >>= fun r => pure (Val.undef .void, m'.set b (demoPut (m' b) r), nx)) = .ok q u) :
    t = u ∧ r.1 = q.1 ∧ SameShape r.2.1 q.2.1 ∧ r.2.2 = q.2.2 := by
  cases mo with
  | ok a w =>
    cases mo' with
    | ok a' w' =>
      cases h1
      cases h2
      have e := demoPut_shape (l := a) (l' := a') ⟨(hm b).1, (hm b).2.1⟩ (by rw [h _ _ rfl, h' _ _ rfl, length_demoBytes (hm b).2])
      exact ⟨rfl, rfl, MRel.set hm e.1 e.2.1 e.2.2, rfl⟩
    | ub => cases h2
    | div => cases h2
  | ub => cases h1
  | div => cases h1

/-- The hypothesis about traces for these functions. -/
theorem quiet_alike {X Y : Ctx} (J J' : Junk) (h : Alike X Y) : AlikeAes (quietAes J X) (quietAes J' Y) where
  arch := h.arch
  glob := h.glob
  names := h.names
  rand p n m m' next r q t u hm h1 h2 := h.rand p n m m' next r q t u hm h1 h2
  aes f args m m' next r q t u hf hm h1 h2 := by
    simp only [quietAes, if_pos hf] at h1 h2
    split at h1
    · exact quiet_ok hm load_len load_len h1 h2
    · refine quiet_ok hm ?_ ?_ h1 h2
      · split
        · exact inplace_len
        · exact ecb_len
      · split
        · exact inplace_len
        · exact ecb_len
    · exact quiet_ok hm free_len free_len h1 h2
    · cases h1

theorem quiet_ready {G : File} {X : Ctx} {rb : RandomBytes} {m : Mem} {next : Nat} {bs : List Nat} {J : Junk} (h : Ready G X rb m next bs) :
    Ready G (quietAes J X) rb m next bs where
  arch := h.arch
  rand := @fun _ _ _ _ s n _ _ e1 e2 e3 e4 => h.rand (s := s) (n := n) e1 e2 e3 e4
  table := h.table
  rounds := h.rounds
  below := h.below
  distinct := h.distinct
  apart := h.apart

theorem demoRefFips_loaded (rb : RandomBytes) (m : Mem) (h : m 0 = u16s frodo640.cdf) :
    unitRefAes640.Loaded (demoFips frodo640 rb) m := by
  have h0 : unitRefAes640.globals.map (·.name) = ["CDF_TABLE", "CDF_TABLE_LEN"] := by kernel_rfl
  intro x g hg
  have hx : x = "CDF_TABLE" ∨ x = "CDF_TABLE_LEN" := by
    have h1 := List.find?_some hg
    have h2 : g.name ∈ unitRefAes640.globals.map (·.name) := List.mem_map_of_mem (List.mem_of_find?_eq_some hg)
    rw [h0] at h2
    have h3 : g.name = x := by simpa using h1
    rw [← h3]
    simpa using h2
  rcases hx with rfl | rfl
  · rw [unitRefAes640_isUnit.cdf] at hg
    cases hg
    exact ⟨0, rfl, by rw [h, List.map_map]; rfl⟩
  · rw [unitRefAes640_isUnit.cdfLen] at hg
    cases hg
    exact ⟨_, rfl, rfl⟩

/-- C93_trace_dec: ciphertexts of all `c` and of all `c'` with keys of all `k` and of all `k'`. -/
example (c k c' k' : U8) (J : Junk) : ∃ t r q,
    callKem unitRefAes640 (quietAes J (demoFips frodo640 (rbConst []))) "crypto_kem_dec_Frodo640" [2, 1, 4] (demoDecMem c k) 10 = .ok r t ∧
    callKem unitRefAes640 (quietAes J (demoFips frodo640 (rbConst []))) "crypto_kem_dec_Frodo640" [2, 1, 4] (demoDecMem c' k') 10 = .ok q t ∧
    r.2.1 2 = u8s (decaps (Frodo640 .aes) (List.replicate 9720 c) (List.replicate 19888 k)) ∧
    q.2.1 2 = u8s (decaps (Frodo640 .aes) (List.replicate 9720 c') (List.replicate 19888 k')) :=
  C93_trace_dec .frodo640 (quiet_alike J J (demo_alike _ _ _ rfl))
    (quiet_ready (demo_ready _ _ _ (demoRefFips_loaded _ _ rfl) rfl (by decide) (by decide)))
    (quiet_ready (demo_ready _ _ _ (demoRefFips_loaded _ _ rfl) rfl (by decide) (by decide)))
    quiet_aes quiet_aes quiet_inPlace quiet_inPlace (demoDecMem_shape c k c' k')
    rfl rfl rfl List.length_replicate List.length_replicate List.length_replicate rfl rfl rfl List.length_replicate List.length_replicate
    List.length_replicate

/-- C93_trace_keypair: random bytes of all `a` and of all `b`. -/
example (a b : U8) (J : Junk) (m : Mem) (h0 : m 0 = u16s frodo640.cdf) (h9 : m 9 = u64s KeccakF_RoundConstants)
    (h1 : m 1 = u8s (List.replicate 9616 0)) (h2 : m 2 = u8s (List.replicate 19888 0)) : ∃ t r q,
    callKem unitRefAes640 (quietAes J (demoFips frodo640 (rbConst (List.replicate 48 a)))) "crypto_kem_keypair_Frodo640" [1, 2] m 10 = .ok r t ∧
    callKem unitRefAes640 (quietAes J (demoFips frodo640 (rbConst (List.replicate 48 b)))) "crypto_kem_keypair_Frodo640" [1, 2] m 10 = .ok q t ∧
    r.2.1 2 = u8s (keygen (Frodo640 .aes) (List.replicate 16 a) (List.replicate 16 a) (List.replicate 16 a)).2 ∧
    q.2.1 2 = u8s (keygen (Frodo640 .aes) (List.replicate 16 b) (List.replicate 16 b) (List.replicate 16 b)).2 :=
  C93_trace_keypair .frodo640 (quiet_alike J J (demo_alike _ _ _ (by simp)))
    (quiet_ready (demo_ready _ _ _ (demoRefFips_loaded _ _ h0) h9 (by decide) (by decide)))
    (quiet_ready (demo_ready _ _ _ (demoRefFips_loaded _ _ h0) h9 (by decide) (by decide)))
    quiet_aes quiet_aes quiet_inPlace quiet_inPlace (fun _ => ⟨rfl, rfl, rfl⟩) rfl rfl rfl (fills_const _) h1 h2
    List.length_replicate List.length_replicate rfl rfl rfl (fills_const _) h1 h2 List.length_replicate List.length_replicate

/-- C93_enc, C93_trace_enc: public keys of all `p` and of all `p'`, messages of all `a` and of all `b`. -/
example (a b p p' : U8) (J : Junk) (m m' : Mem) (hm : SameShape m m') (h0 : m 0 = u16s frodo640.cdf)
    (h9 : m 9 = u64s KeccakF_RoundConstants) (h0' : m' 0 = u16s frodo640.cdf)
    (h9' : m' 9 = u64s KeccakF_RoundConstants) (h1 : m 1 = u8s (List.replicate 9720 0)) (h2 : m 2 = u8s (List.replicate 16 0))
    (h3 : m 3 = u8s (List.replicate 9616 p)) (h1' : m' 1 = u8s (List.replicate 9720 0)) (h2' : m' 2 = u8s (List.replicate 16 0))
    (h3' : m' 3 = u8s (List.replicate 9616 p')) : ∃ t r q,
    callKem unitRefAes640 (quietAes J (demoFips frodo640 (rbConst (List.replicate 16 a)))) "crypto_kem_enc_Frodo640" [1, 2, 3] m 10 = .ok r t ∧
    callKem unitRefAes640 (quietAes J (demoFips frodo640 (rbConst (List.replicate 16 b)))) "crypto_kem_enc_Frodo640" [1, 2, 3] m' 10 = .ok q t ∧
    r.2.1 2 = u8s (encaps (Frodo640 .aes) (List.replicate 9616 p) (List.replicate 16 a)).2 ∧
    q.2.1 2 = u8s (encaps (Frodo640 .aes) (List.replicate 9616 p') (List.replicate 16 b)).2 :=
  C93_trace_enc .frodo640 (quiet_alike J J (demo_alike _ _ _ (by simp)))
    (quiet_ready (demo_ready _ _ _ (demoRefFips_loaded _ _ h0) h9 (by decide) (by decide)))
    (quiet_ready (demo_ready _ _ _ (demoRefFips_loaded _ _ h0') h9' (by decide) (by decide)))
    quiet_aes quiet_aes quiet_inPlace quiet_inPlace hm rfl (fills_const _) h1 h2 h3
    List.length_replicate List.length_replicate List.length_replicate rfl (fills_const _) h1' h2' h3'
    List.length_replicate List.length_replicate List.length_replicate

/-- C93_opt_trace_dec: ciphertexts of all `c` and of all `c'` with keys of all `k` and of all `k'`. -/
example (c k c' k' : U8) (J : Junk) : ∃ t r q,
    callKem unitOpt640 (quietAes J (demoFips frodo640 (rbConst []))) "crypto_kem_dec_Frodo640" [2, 1, 4] (demoDecMem c k) 10 = .ok r t ∧
    callKem unitOpt640 (quietAes J (demoFips frodo640 (rbConst []))) "crypto_kem_dec_Frodo640" [2, 1, 4] (demoDecMem c' k') 10 = .ok q t ∧
    r.2.1 2 = u8s (decaps (Frodo640 .aes) (List.replicate 9720 c) (List.replicate 19888 k)) ∧
    q.2.1 2 = u8s (decaps (Frodo640 .aes) (List.replicate 9720 c') (List.replicate 19888 k')) :=
  C93_opt_trace_dec .frodo640 (quiet_alike J J (demo_alike _ _ _ rfl))
    (quiet_ready (demo_ready _ _ _ (demoOpt_loaded _ _ rfl) rfl (by decide) (by decide)))
    (quiet_ready (demo_ready _ _ _ (demoOpt_loaded _ _ rfl) rfl (by decide) (by decide)))
    quiet_aes quiet_aes (demoDecMem_shape c k c' k')
    rfl rfl rfl List.length_replicate List.length_replicate List.length_replicate rfl rfl rfl List.length_replicate List.length_replicate
    List.length_replicate

/-- C93_opt_trace_keypair: random bytes of all `a` and of all `b`. -/
example (a b : U8) (J : Junk) (m : Mem) (h0 : m 0 = u16s frodo640.cdf) (h9 : m 9 = u64s KeccakF_RoundConstants)
    (h1 : m 1 = u8s (List.replicate 9616 0)) (h2 : m 2 = u8s (List.replicate 19888 0)) : ∃ t r q,
    callKem unitOpt640 (quietAes J (demoFips frodo640 (rbConst (List.replicate 48 a)))) "crypto_kem_keypair_Frodo640" [1, 2] m 10 = .ok r t ∧
    callKem unitOpt640 (quietAes J (demoFips frodo640 (rbConst (List.replicate 48 b)))) "crypto_kem_keypair_Frodo640" [1, 2] m 10 = .ok q t ∧
    r.2.1 2 = u8s (keygen (Frodo640 .aes) (List.replicate 16 a) (List.replicate 16 a) (List.replicate 16 a)).2 ∧
    q.2.1 2 = u8s (keygen (Frodo640 .aes) (List.replicate 16 b) (List.replicate 16 b) (List.replicate 16 b)).2 :=
  C93_opt_trace_keypair .frodo640 (quiet_alike J J (demo_alike _ _ _ (by simp)))
    (quiet_ready (demo_ready _ _ _ (demoOpt_loaded _ _ h0) h9 (by decide) (by decide)))
    (quiet_ready (demo_ready _ _ _ (demoOpt_loaded _ _ h0) h9 (by decide) (by decide)))
    quiet_aes quiet_aes (fun _ => ⟨rfl, rfl, rfl⟩) rfl rfl rfl (fills_const _) h1 h2
    List.length_replicate List.length_replicate rfl rfl rfl (fills_const _) h1 h2 List.length_replicate List.length_replicate

/-- C93_agree: the reference and the optimised implementation on the same ciphertext of all `c` and key of all `k`. -/
example (c k : U8) (J : Junk) :
    Ret (callKem unitRefAes640 (quietAes J (demoFips frodo640 (rbConst []))) "crypto_kem_dec_Frodo640" [2, 1, 4] (demoDecMem c k) 10) fun x =>
      Ret (callKem unitOpt640 (quietAes J (demoFips frodo640 (rbConst []))) "crypto_kem_dec_Frodo640" [2, 1, 4] (demoDecMem c k) 10) fun y =>
        x.2.1 2 = y.2.1 2 :=
  C93_agree (K := Frodo640 .aes) ⟨J, quiet_aes, .inl ⟨.frodo640, quiet_inPlace⟩⟩ ⟨J, quiet_aes, .inr .frodo640⟩
    (quiet_ready (demo_ready _ _ _ (demoRefFips_loaded _ _ rfl) rfl (by decide) (by decide)))
    (quiet_ready (demo_ready _ _ _ (demoOpt_loaded _ _ rfl) rfl (by decide) (by decide)))
    rfl rfl rfl rfl rfl rfl List.length_replicate List.length_replicate List.length_replicate List.length_replicate

/-- The hypotheses of `C93_round_trip` on the programs and on the first memory. -/
example (J : Junk) (m : Mem) (h0 : m 0 = u16s frodo640.cdf) (h9 : m 9 = u64s KeccakF_RoundConstants) :
    WithAes128 unitRefAes640 frodo640 (Frodo640 .aes) "Frodo640" (quietAes J (demoFips frodo640 (rbConst (List.replicate 48 7)))) ∧
    WithAes128 unitOpt640 frodo640 (Frodo640 .aes) "Frodo640" (quietAes J (demoFips frodo640 (rbConst (List.replicate 16 7)))) ∧
    Ready unitRefAes640 (quietAes J (demoFips frodo640 (rbConst (List.replicate 48 7)))) (rbConst (List.replicate 48 7)) m 10 [1, 2] ∧
    Fills (rbConst (List.replicate 48 7)) (List.replicate 16 7 ++ List.replicate 16 7 ++ List.replicate 16 7) :=
  ⟨⟨J, quiet_aes, .inl ⟨.frodo640, quiet_inPlace⟩⟩, ⟨J, quiet_aes, .inr .frodo640⟩,
    quiet_ready (demo_ready _ _ _ (demoRefFips_loaded _ _ h0) h9 (by decide) (by decide)), fills_const _⟩

/-- C93_reject: the reference implementation rejects some ciphertext under the key of all 4. -/
example (J : Junk) : ∃ (m : Mem) (ct : List U8),
    Ret (callKem unitRefAes640 (quietAes J (demoFips frodo640 (rbConst []))) "crypto_kem_dec_Frodo640" [2, 1, 4] m 10) fun x =>
      x.1 = .int true 4 0 ∧ x.2.1 2 = u8s ((Frodo640 .aes).shake (ct ++ (List.replicate 19888 4).take 16) 16) := by
  obtain ⟨ct, h1, h2, -⟩ := exists_rejected (Standard.frodo640 .aes) (List.replicate 19888 4) []
  exact ⟨fun b => if b = 0 then u16s frodo640.cdf else if b = 1 then u8s ct else if b = 2 then u8s (List.replicate 16 0) else
      if b = 9 then u64s KeccakF_RoundConstants else u8s (List.replicate 19888 4), ct,
    C93_reject (K := Frodo640 .aes) ⟨J, quiet_aes, .inl ⟨.frodo640, quiet_inPlace⟩⟩
      (quiet_ready (demo_ready _ _ _ (demoRefFips_loaded _ _ rfl) rfl (by decide) (by decide))) rfl rfl rfl
      List.length_replicate h1 List.length_replicate h2⟩

end Frodo.Props
