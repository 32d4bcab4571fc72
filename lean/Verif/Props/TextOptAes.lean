import Verif.Props.TextRandom
import Verif.Proof.TextWithAes

/-! # Properties of the source text of the optimised implementation with A from AES128

The text of `frodo_mul_add_as_plus_e` and `frodo_mul_add_sa_plus_e` in /repo/src/frodo_macrify.c without intrinsics, with rows from the
text of /repo/src/aes/aes.c and /repo/src/aes/aes_c.c, and the KEM on top of it. -/

namespace Frodo.Props

open Spec Src

/-- The parsed file of a parameter set (optimised implementation without intrinsics, A from AES128), its parameters, the specified KEM
that belongs to them, and the end of the names of its functions. -/
inductive KemTextAes : File → Params → KemParams → String → Prop where
  | frodo640 : KemTextAes unitOpt640 frodo640 (Frodo640 .aes) "Frodo640"
  | frodo976 : KemTextAes unitOpt976 frodo976 (Frodo976 .aes) "Frodo976"
  | frodo1344 : KemTextAes unitOpt1344 frodo1344 (Frodo1344 .aes) "Frodo1344"

namespace KemTextAes

variable {G : File} {P : Params} {K : KemParams} {nm : String}

theorem standard (h : KemTextAes G P K nm) : Standard P .aes K := by cases h <;> constructor

theorem unit (h : KemTextAes G P K nm) : G.IsUnit P := by
  cases h
  · exact unitOpt640_isUnit
  · exact unitOpt976_isUnit
  · exact unitOpt1344_isUnit

theorem kem (h : KemTextAes G P K nm) : G.IsKem P nm := by
  cases h
  · exact unitOpt640_isKem
  · exact unitOpt976_isKem
  · exact unitOpt1344_isKem

theorem opt (h : KemTextAes G P K nm) : G.IsOptAes P := by
  cases h
  · exact unitOpt640_isOptAes
  · exact unitOpt976_isOptAes
  · exact unitOpt1344_isOptAes

theorem leaves (h : KemTextAes G P K nm) : G.Leaves := by
  cases h
  · exact unitOpt640_leaves
  · exact unitOpt976_leaves
  · exact unitOpt1344_leaves

theorem noAes (h : KemTextAes G P K nm) : G.NoAes := by
  cases h
  · exact unitOpt640_noAes
  · exact unitOpt976_noAes
  · exact unitOpt1344_noAes

theorem small (h : KemTextAes G P K nm) : P.Small := by cases h <;> constructor <;> decide

theorem stripe (h : KemTextAes G P K nm) : P.stripe = 8 := by cases h <;> rfl

theorem cdf (h : KemTextAes G P K nm) : 0 < P.cdf.length ∧ P.cdf.length < 2 ^ 16 := by cases h <;> decide

end KemTextAes

/-- C83.  The files of the parameter sets parse with the options for the optimised implementation and AES128. -/
theorem C83_parse : parseText optAes sources frodo640Text = some unitOpt640 ∧
    parseText optAes sources frodo976Text = some unitOpt976 ∧ parseText optAes sources frodo1344Text = some unitOpt1344 :=
  ⟨unitOpt640_parse, unitOpt976_parse, unitOpt1344_parse⟩

/-- The environment of the model that has the uninitialised arrays of the text, with those of AES. -/
def aesEnv (X : Ctx) (J : Junk) (se : String) : Env where
  junk t i :=
    if t = 0 then (BitVec.ofInt 8 (X.junk "tempa" i)).toNat
    else if t = 30 then (BitVec.ofInt 8 (X.junk "aes_key_schedule" i)).toNat
    else (textEnv X J se).junk t i
  addr _ := 0
  ossl := .ok

/-- The optimised implementation without intrinsics on a little-endian machine, A from AES128 in C. -/
def aesBuild : Build := ⟨.le, .generic, .c, .aes⟩

theorem aes_aligned {X : Ctx} {J : Junk} {se : String} : aesBuild.alignedGen (aesEnv X J se) :=
  ⟨fun _ => nofun, nofun, nofun⟩

theorem withAes_sponge {X : Ctx} {J : Junk} {bk : Nat} {xk : Blk} (h : SpongeAt X J bk xk) : SpongeAt (withAes X) J bk xk := by
  constructor
  · intro N F bo ko bi ki s n s' n' v L I outlen inlen a1 a2 a3 a4 a5 a6 a7 a8 a9 a10 a11 a12 a13
    have := h.s128 (s := s) (n := n) (s' := s') (n' := n') a1 a2 a3 a4 a5 a6 a7 a8 a9 a10 a11 a12 a13
    exact this
  · intro N F bo ko bi ki s n s' n' v L I outlen inlen a1 a2 a3 a4 a5 a6 a7 a8 a9 a10 a11 a12 a13
    have := h.s256 (s := s) (n := n) (s' := s') (n' := n') a1 a2 a3 a4 a5 a6 a7 a8 a9 a10 a11 a12 a13
    exact this

theorem withAes_rand {X : Ctx} {rb : RandomBytes} (h : Rand X rb) : Rand (withAes X) rb := by
  intro N F bo ko s n L len e1 e2 e3 e4
  exact h (s := s) (n := n) e1 e2 e3 e4

theorem aes_files {G : File} {X : Ctx} {J : Junk} {d : Nat} (hN : G.NoAes) (hA : AesAt X J) : AesAt (link [utilFile, G] X d) J := by
  obtain ⟨u1, u2, u3⟩ := utilFile_noAes
  exact hA.link (by simp only [List.findSome?, u1, hN.load]) (by simp only [List.findSome?, u2, hN.enc])
    (by simp only [List.findSome?, u3, hN.free])

section

variable {G : File} {P : Params} {K : KemParams} {nm : String} (hT : KemTextAes G P K nm) (X : Ctx) (d : Nat) (ha : X.arch = .le)
include hT ha

/-- C83, `frodo_mul_add_as_plus_e`: the text of the optimised implementation, with rows from the text of AES, returns 1, with `A*s + e`
modulo `2^16` in the buffer for it, where A is Frodo.Gen of the seed with AES128, and nothing else in memory changed. -/
theorem C83_as (m : Mem) (next bo bs be bi ks ke ki : Nat) (O S Z : List U16) (I : List U8)
    (ho : m bo = u16s O) (hs : m bs = u16s S) (he : m be = u16s Z) (hi : m bi = u8s I) (b1 : bo < next) (b2 : bs < next)
    (b3 : be < next) (b4 : bi < next) (n1 : bs ≠ bo) (n2 : be ≠ bo) (n3 : bi ≠ bo) (lo : P.n * P.nbar ≤ O.length)
    (ls : ks + P.nbar * P.n ≤ S.length) (le : ke + P.n * P.nbar ≤ Z.length) (li : ki + 16 ≤ I.length) (hke : ke % 2 = 0) :
    Ret (G.run (link [utilFile, G] (withAes X) d) "frodo_mul_add_as_plus_e"
        [.ptr bo 0 false 2, .ptr bs ks false 2, .ptr be ke false 2, .ptr bi ki false 1] m next)
      fun x => x.1 = .int true 4 1 ∧
        x.2.1 bo = u16s (ofMat (genA .aes 16 P.n ((I.drop ki).take 16) * (toMat 16 P.nbar P.n (S.drop ks)).transpose +
          toMat 16 P.n P.nbar (Z.drop ke)) ++ O.drop (P.n * P.nbar)) ∧
        ∀ b, b < next → b ≠ bo → x.2.1 b = m b := by
  have hA := aes_files (d := d) hT.noAes (withAes_aes (X := X) (J := (aesEnv X (fun _ _ => 0) "").junk) rfl)
  have j1 : JunkAt (aesEnv X (fun _ _ => 0) "") (withAes X) 30 8 "aes_key_schedule" := fun i => BitVec.ofNat_toNat ..
  have hC := C28_as_plus_e aesBuild (aesEnv X (fun _ _ => 0) "") P 0 0 O (S.drop ks) (Z.drop ke) (I.drop ki) hT.standard.wf
    ⟨aes_aligned, fun _ => ⟨rfl, rfl⟩⟩ (by rw [List.length_drop]; omega) lo (by rw [List.length_drop]; omega)
    (by rw [List.length_drop]; omega)
  have hR : Refines False (frodo_mul_add_as_plus_e aesBuild (aesEnv X (fun _ _ => 0) "") P 0 0 O (S.drop ks) (Z.drop ke) (I.drop ki))
      (G.run (link [utilFile, G] (withAes X) d) "frodo_mul_add_as_plus_e"
        [.ptr bo 0 false 2, .ptr bs ks false 2, .ptr be ke false 2, .ptr bi ki false 1] m next)
      fun r x => x.1 = .int true 4 1 ∧ next ≤ x.2.2 ∧ MAgree next x.2.1 (m.set bo (u16s r)) := by
    rw [run_eq hT.opt.mulAs, show frodo_mul_add_as_plus_e aesBuild (aesEnv X (fun _ _ => 0) "") P 0 0 O (S.drop ks) (Z.drop ke) (I.drop ki) =
      as_plus_e_optimized aesBuild (aesEnv X (fun _ _ => 0) "") P 0 0 O (S.drop ks) (Z.drop ke) (I.drop ki) from rfl]
    exact text_mul_as_aes (X := withAes X) hT.small hT.stripe rfl rfl rfl ha hA j1 ho hs he hi b1 b2 b3 b4 n1 n2 n3 (by omega) (by omega) (by omega) hke
  refine ret_refines hR hC ?_
  rintro r x rfl ⟨e1, -, e3⟩
  exact ⟨e1, by rw [e3 bo b1, set_same]; rfl, fun b l1 l2 => by rw [e3 b l1, set_ne _ _ l2]⟩

/-- C83, `frodo_mul_add_sa_plus_e`: the text returns 1, with `s*A + e` modulo `2^16` in the buffer for it and in the place of `e`, and
nothing else in memory changed.  `s` and `e` are in one block, as in /repo/src/kem.c. -/
theorem C83_sa (m : Mem) (next bo bs bi k ki : Nat) (O S : List U16) (I : List U8)
    (ho : m bo = u16s O) (hs : m bs = u16s S) (hi : m bi = u8s I) (b1 : bo < next) (b2 : bs < next) (b4 : bi < next) (n1 : bs ≠ bo)
    (lo : P.nbar * P.n ≤ O.length) (lk : P.nbar * P.n ≤ k) (ls : k + P.nbar * P.n ≤ S.length) (li : ki + 16 ≤ I.length) :
    Ret (G.run (link [utilFile, G] (withAes X) d) "frodo_mul_add_sa_plus_e"
        [.ptr bo 0 false 2, .ptr bs 0 false 2, .ptr bs k false 2, .ptr bi ki false 1] m next)
      fun x => x.1 = .int true 4 1 ∧ ∃ R : List U16,
        R = ofMat (toMat 16 P.nbar P.n (S.take k) * genA .aes 16 P.n ((I.drop ki).take 16) + toMat 16 P.nbar P.n (S.drop k)) ∧
        x.2.1 bo = u16s (R ++ O.drop (P.nbar * P.n)) ∧ x.2.1 bs = u16s (S.take k ++ (R ++ S.drop (k + P.nbar * P.n))) ∧
        ∀ b, b < next → b ≠ bo → b ≠ bs → x.2.1 b = m b := by
  have hA := aes_files (d := d) hT.noAes (withAes_aes (X := X) (J := (aesEnv X (fun _ _ => 0) "").junk) rfl)
  have j1 : JunkAt (aesEnv X (fun _ _ => 0) "") (withAes X) 30 8 "aes_key_schedule" := fun i => BitVec.ofNat_toNat ..
  have j2 : JunkAt (aesEnv X (fun _ _ => 0) "") (withAes X) 36 16 "sp" := fun i => BitVec.ofNat_toNat ..
  have hC := C29_sa_plus_e aesBuild (aesEnv X (fun _ _ => 0) "") P 0 O (S.take k) (S.drop k) (I.drop ki) hT.standard.wf (.inr rfl)
    ⟨aes_aligned, nofun⟩ (by rw [List.length_drop]; omega) lo (by rw [List.length_take]; omega)
    (by rw [List.length_drop]; omega)
  have hR : Refines False (frodo_mul_add_sa_plus_e aesBuild (aesEnv X (fun _ _ => 0) "") P 0 O (S.take k) (S.drop k) (I.drop ki))
      (G.run (link [utilFile, G] (withAes X) d) "frodo_mul_add_sa_plus_e"
        [.ptr bo 0 false 2, .ptr bs 0 false 2, .ptr bs k false 2, .ptr bi ki false 1] m next)
      fun r x => x.1 = .int true 4 1 ∧ MAgree next x.2.1 ((m.set bo (u16s r.1)).set bs (u16s (S.take k ++ r.2))) := by
    rw [run_eq hT.opt.mulSa, show frodo_mul_add_sa_plus_e aesBuild (aesEnv X (fun _ _ => 0) "") P 0 O (S.take k) (S.drop k) (I.drop ki) =
      sa_plus_e_optimized aesBuild (aesEnv X (fun _ _ => 0) "") P 0 O (S.take k) (S.drop k) (I.drop ki) from rfl]
    exact (text_mul_sa_aes (X := withAes X) hT.small rfl rfl rfl rfl ha hA j1 j2 ho hs hi b1 b2 b4 n1 (by omega) (by omega)).mono fun _ _ h => ⟨h.1, h.2.2⟩
  refine ret_refines hR hC ?_
  rintro ⟨r, z⟩ x ⟨h1, h2⟩ ⟨e1, e3⟩
  dsimp only at h1 h2
  refine ⟨e1, _, rfl, ?_, ?_, fun b l1 l2 l3 => ?_⟩
  · rw [e3 bo b1, set_ne _ _ (Ne.symm n1), set_same, h1]; rfl
  · rw [e3 bs b2, set_same, h2, if_neg nofun, List.drop_drop]; rfl
  · rw [e3 b l1, set_ne _ _ l3, set_ne _ _ l2]

end

section

variable {G : File} {P : Params} {K : KemParams} {nm : String} {X : Ctx} {J : Junk} {rb : RandomBytes} {m : Mem} {bc bq : Nat} {xk : Blk}

theorem aesEnv_calls (hT : KemTextAes G P K nm) (ha : X.arch = .le) (hS : SpongeAt X J bq xk) (hR : Rand X rb) (se : String) (d : Nat)
    (h1 : X.glob "CDF_TABLE" = some (.ptr bc 0 false 2)) (h2 : X.glob "CDF_TABLE_LEN" = some (.int false 2 P.cdf.length)) :
    Calls (link [utilFile, G] (withAes X) (d + 1)) aesBuild (aesEnv X J se) P rb bc bq xk := by
  refine calls hT.unit hT.standard.wf ha h1 h2 hT.cdf.1 hT.cdf.2 ?_
  have j1 : JunkAt (aesEnv X J se) (withAes X) 30 8 "aes_key_schedule" := fun i => BitVec.ofNat_toNat ..
  have j2 : JunkAt (aesEnv X J se) (withAes X) 36 16 "sp" := fun i => BitVec.ofNat_toNat ..
  exact othersAes hT.opt hT.leaves hT.noAes hT.small hT.stripe rfl rfl rfl rfl ha j1 j2
    (withAes_sponge (SpongeAt.junk (J' := (aesEnv X J se).junk) hS rfl rfl rfl)) (withAes_aes rfl) (withAes_rand hR)

theorem aesEnv_junk {se : String} {d t w : Nat} {x : String}
    (h : ∀ i, (aesEnv X J se).junk t i = (BitVec.ofInt w (X.junk x i)).toNat) :
    JunkAt (aesEnv X J se) (link [utilFile, G] (withAes X) d) t w x := by
  intro i
  rw [h, link_junk, BitVec.ofNat_toNat, BitVec.setWidth_eq]
  rfl

theorem loaded_cdf_aes (hT : KemTextAes G P K nm) (h : G.Loaded X m) : ∃ bc, X.glob "CDF_TABLE" = some (.ptr bc 0 false 2) ∧
    X.glob "CDF_TABLE_LEN" = some (.int false 2 P.cdf.length) ∧ m bc = u16s P.cdf := by
  obtain ⟨bc, hc, hm⟩ := h _ _ hT.unit.cdf
  obtain ⟨e, he, hL⟩ := h _ _ hT.unit.cdfLen
  cases he
  refine ⟨bc, hc, hL, ?_⟩
  rw [hm, List.map_map]
  rfl

end

/-- C84, `crypto_kem_keypair`: the text of kem.c, noise.c, util.c, frodo_macrify.c, aes.c, aes_c.c and fips202.c together returns 0, with the
two keys of Algorithm 12 in the buffers for them, nothing else in memory changed, and zeros in the arrays of the function that held
secrets. -/
theorem C84_keypair {G : File} {P : Params} {K : KemParams} {nm : String} (hT : KemTextAes G P K nm) (X : Ctx)
    (rb : RandomBytes) (d e : Nat) (ha : X.arch = .le) (hR : Rand X rb) (s seedSE z : List U8)
    (hs : s.length = K.len) (hse : seedSE.length = K.len) (hz : z.length = K.lenA) (hrb : Fills rb (s ++ seedSE ++ z))
    (m : Mem) (next bp bs : Nat) (pk sk : List U8) (hL : G.Loaded X m) (hL' : fipsFile.Loaded X m) (hp : m bp = u8s pk)
    (hk : m bs = u8s sk) (hlp : pk.length = P.pkBytes) (hls : sk.length = P.skBytes) (hb : bp < next) (hb' : bs < next) (ne : bp ≠ bs)
    (hg : ∀ b, X.glob "CDF_TABLE" = some (.ptr b 0 false 2) → b < next ∧ b ≠ bp ∧ b ≠ bs)
    (hg' : ∀ b, X.glob "KeccakF_RoundConstants" = some (.ptr b 0 false 8) → b < next ∧ b ≠ bp ∧ b ≠ bs) :
    Ret (G.run (link [utilFile, G] (withAes (link [fipsFile] X (e + 3))) (d + 1)) ("crypto_kem_keypair_" ++ nm)
        [.ptr bp 0 false 1, .ptr bs 0 false 1] m next)
      fun x => x.1 = .int true 4 0 ∧ x.2.1 bp = u8s (keygen K s seedSE z).1 ∧ x.2.1 bs = u8s (keygen K s seedSE z).2 ∧
        (∀ b, b < next → b ≠ bp → b ≠ bs → x.2.1 b = m b) ∧
        x.2.1 (next + 1) = u16s (List.replicate (2 * P.n * P.nbar) 0) ∧
        x.2.1 (next + 2) = u8s (List.replicate (2 * P.bytes) 0 ++ z) ∧
        x.2.1 (next + 3) = u8s (List.replicate (1 + P.bytes) 0) := by
  obtain ⟨bk, k1, k2⟩ := loaded_table hL'
  obtain ⟨g1, g2, g3⟩ := hg' _ k1
  have hLf : G.Loaded (link [fipsFile] X (e + 3)) m := Loaded.fips hL
  obtain ⟨bc, hc, hcl, hmc⟩ := loaded_cdf_aes hT hLf
  obtain ⟨c1, c2, c3⟩ := hg _ (by rwa [link_glob] at hc)
  have ha' : (link [fipsFile] X (e + 3)).arch = .le := by rw [link_arch, ha]
  exact keypair_calls (B := aesBuild) (E := aesEnv (link [fipsFile] X (e + 3)) (fipsJunk X) "shake_input_seedSE") hT.kem hT.standard
    hT.small rfl aes_aligned (fun _ => rfl) _ rb
    (aesEnv_calls hT ha' (fips_sponge ha k1) (Rand.fips hR) "shake_input_seedSE" d hc hcl) (aesEnv_junk fun i => rfl) (aesEnv_junk fun i => rfl)
    s seedSE z hs hse hz hrb m next bp bs pk sk hp hk hlp hls hb hb' ne hmc c1 c2 c3 k2 g1 g2 g3

/-- C84, `crypto_kem_enc`. -/
theorem C84_enc {G : File} {P : Params} {K : KemParams} {nm : String} (hT : KemTextAes G P K nm) (X : Ctx)
    (rb : RandomBytes) (d e : Nat) (ha : X.arch = .le) (hR : Rand X rb) (mu : List U8)
    (hmu : mu.length = K.len) (hrb : Fills rb mu)
    (m : Mem) (next bt bs bp : Nat) (ct ss pk : List U8) (hL : G.Loaded X m) (hL' : fipsFile.Loaded X m) (ht : m bt = u8s ct)
    (hs : m bs = u8s ss) (hp : m bp = u8s pk) (hlt : ct.length = P.ctBytes) (hls : P.bytes ≤ ss.length) (hlp : pk.length = P.pkBytes)
    (hb : bt < next) (hb' : bs < next) (hb'' : bp < next) (ne : bt ≠ bs) (ne' : bp ≠ bt) (ne'' : bp ≠ bs)
    (hg : ∀ b, X.glob "CDF_TABLE" = some (.ptr b 0 false 2) → b < next ∧ b ≠ bt ∧ b ≠ bs)
    (hg' : ∀ b, X.glob "KeccakF_RoundConstants" = some (.ptr b 0 false 8) → b < next ∧ b ≠ bt ∧ b ≠ bs) :
    Ret (G.run (link [utilFile, G] (withAes (link [fipsFile] X (e + 3))) (d + 1)) ("crypto_kem_enc_" ++ nm)
        [.ptr bt 0 false 1, .ptr bs 0 false 1, .ptr bp 0 false 1] m next)
      fun x => x.1 = .int true 4 0 ∧ x.2.1 bt = u8s (encaps K pk mu).1 ∧
        x.2.1 bs = u8s ((encaps K pk mu).2 ++ ss.drop P.bytes) ∧
        (∀ b, b < next → b ≠ bt → b ≠ bs → x.2.1 b = m b) ∧
        x.2.1 (next + 1) = u16s (List.replicate (P.nbar * P.nbar) 0) ∧
        x.2.1 (next + 4) = u16s (List.replicate (2 * (P.n * P.nbar) + P.nbar * P.nbar) 0) ∧
        x.2.1 (next + 5) = u8s (P.shake.fn pk P.bytes ++ List.replicate P.bytes 0) ∧
        x.2.1 (next + 6) = u8s (List.replicate (2 * P.bytes) 0) ∧
        x.2.1 (next + 7) = u8s ((encaps K pk mu).1 ++ List.replicate P.bytes 0) ∧
        x.2.1 (next + 8) = u8s (List.replicate (1 + P.bytes) 0) := by
  obtain ⟨bk, k1, k2⟩ := loaded_table hL'
  obtain ⟨g1, g2, g3⟩ := hg' _ k1
  have hLf : G.Loaded (link [fipsFile] X (e + 3)) m := Loaded.fips hL
  obtain ⟨bc, hc, hcl, hmc⟩ := loaded_cdf_aes hT hLf
  obtain ⟨c1, c2, c3⟩ := hg _ (by rwa [link_glob] at hc)
  have ha' : (link [fipsFile] X (e + 3)).arch = .le := by rw [link_arch, ha]
  exact enc_calls (B := aesBuild) (E := aesEnv (link [fipsFile] X (e + 3)) (fipsJunk X) "shake_input_seedSE") hT.kem hT.standard
    hT.small (.inr rfl) rfl (by decide) aes_aligned (fun _ => rfl) _ rb
    (aesEnv_calls hT ha' (fips_sponge ha k1) (Rand.fips hR) "shake_input_seedSE" d hc hcl)
    (aesEnv_junk fun i => rfl) (aesEnv_junk fun i => rfl) (aesEnv_junk fun i => rfl) (aesEnv_junk fun i => rfl)
    mu hmu hrb m next bt bs bp ct ss pk ht hs hp hlt hls hlp hb hb' hb'' ne ne' ne'' hmc c1 c2 c3 k2 g1 g2 g3

/-- C84, `crypto_kem_dec`. -/
theorem C84_dec {G : File} {P : Params} {K : KemParams} {nm : String} (hT : KemTextAes G P K nm) (X : Ctx)
    (rb : RandomBytes) (d e : Nat) (ha : X.arch = .le) (hR : Rand X rb)
    (m : Mem) (next bs bt bk : Nat) (ss ct sk : List U8) (hL : G.Loaded X m) (hL' : fipsFile.Loaded X m) (hs : m bs = u8s ss)
    (ht : m bt = u8s ct) (hk : m bk = u8s sk) (hls : P.bytes ≤ ss.length) (hlt : ct.length = P.ctBytes) (hlk : sk.length = P.skBytes)
    (hb : bs < next) (hb' : bt < next) (hb'' : bk < next) (ne : bt ≠ bs) (ne' : bk ≠ bt) (ne'' : bk ≠ bs)
    (hg : ∀ b, X.glob "CDF_TABLE" = some (.ptr b 0 false 2) → b < next ∧ b ≠ bt ∧ b ≠ bs)
    (hg' : ∀ b, X.glob "KeccakF_RoundConstants" = some (.ptr b 0 false 8) → b < next ∧ b ≠ bt ∧ b ≠ bs) :
    Ret (G.run (link [utilFile, G] (withAes (link [fipsFile] X (e + 3))) (d + 1)) ("crypto_kem_dec_" ++ nm)
        [.ptr bs 0 false 1, .ptr bt 0 false 1, .ptr bk 0 false 1] m next)
      fun x => x.1 = .int true 4 0 ∧ x.2.1 bs = u8s (decaps K ct sk ++ ss.drop P.bytes) ∧
        (∀ b, b < next → b ≠ bs → x.2.1 b = m b) ∧
        x.2.1 (next + 2) = u16s (List.replicate (P.nbar * P.nbar) 0) ∧
        x.2.1 (next + 6) = u16s (List.replicate (2 * (P.n * P.nbar) + P.nbar * P.nbar) 0) ∧
        x.2.1 (next + 7) = u16s (List.replicate (P.n * P.nbar) 0) ∧
        x.2.1 (next + 8) = u8s ((sk.drop (P.bytes + P.pkBytes + 2 * P.n * P.nbar)).take P.bytes ++ List.replicate P.bytes 0) ∧
        x.2.1 (next + 9) = u8s (List.replicate (2 * P.bytes) 0) ∧
        x.2.1 (next + 10) = u8s (ct ++ List.replicate P.bytes 0) ∧
        x.2.1 (next + 11) = u8s (List.replicate (1 + P.bytes) 0) := by
  obtain ⟨bq, k1, k2⟩ := loaded_table hL'
  obtain ⟨g1, g2, g3⟩ := hg' _ k1
  have hLf : G.Loaded (link [fipsFile] X (e + 3)) m := Loaded.fips hL
  obtain ⟨bc, hc, hcl, hmc⟩ := loaded_cdf_aes hT hLf
  obtain ⟨c1, c2, c3⟩ := hg _ (by rwa [link_glob] at hc)
  have ha' : (link [fipsFile] X (e + 3)).arch = .le := by rw [link_arch, ha]
  exact dec_calls (B := aesBuild) (E := aesEnv (link [fipsFile] X (e + 3)) (fipsJunk X) "shake_input_seedSEprime") hT.kem hT.standard
    hT.small (.inr rfl) rfl (by decide) aes_aligned (fun _ => rfl) _ rb
    (aesEnv_calls hT ha' (fips_sponge ha k1) (Rand.fips hR) "shake_input_seedSEprime" d hc hcl) (by rw [link_arch]; exact ha')
    (aesEnv_junk fun i => rfl) (aesEnv_junk fun i => rfl) (aesEnv_junk fun i => rfl) (aesEnv_junk fun i => rfl) (aesEnv_junk fun i => rfl)
    m next bs bt bk ss ct sk hs ht hk hls hlt hlk hb hb' hb'' ne ne' ne'' hmc c1 c2 c3 k2 g1 g2 g3

/-! ## Exchanges -/

/-- The call of a function of the KEM with pointers to the given blocks, A from AES128 (/repo/src/kem.c:36, 80, 158). -/
def callKemAes (G : File) (X : Ctx) (f : String) (bs : List Nat) (m : Mem) (next : Nat) : C (Val × Mem × Nat) :=
  G.run (link [utilFile, G] (withAes (link [fipsFile] X 3)) 1) f (bs.map fun b => .ptr b 0 false 1) m next

section

variable {P : Params} {K : KemParams} {nm : String}

theorem Ready.aes_keypair {G X rb m next bp bk} (hT : KemTextAes G P K nm) (h : Ready G X rb m next [bp, bk]) {s seedSE z pk sk : List U8}
    (hs : s.length = K.len) (hse : seedSE.length = K.len) (hz : z.length = K.lenA) (hrb : Fills rb (s ++ seedSE ++ z))
    (hp : m bp = u8s pk) (hk : m bk = u8s sk) (hlp : pk.length = P.pkBytes) (hlk : sk.length = P.skBytes) :
    Ret (callKemAes G X ("crypto_kem_keypair_" ++ nm) [bp, bk] m next) fun x =>
      x.1 = .int true 4 0 ∧ x.2.1 bp = u8s (keygen K s seedSE z).1 ∧ x.2.1 bk = u8s (keygen K s seedSE z).2 := by
  have hd := h.distinct
  simp only [List.nodup_cons, List.mem_singleton, List.not_mem_nil, not_false_eq_true, List.nodup_nil, and_true] at hd
  have ha : ∀ x b s n, X.glob x = some (.ptr b 0 s n) → b < next ∧ b ≠ bp ∧ b ≠ bk := fun x b s n e => by
    simpa using h.apart x b s n e
  exact (C84_keypair hT X rb 0 0 h.arch h.rand s seedSE z hs hse hz hrb m next bp bk pk sk h.table h.rounds hp hk hlp hlk
    (h.below _ (by simp)) (h.below _ (by simp)) hd (fun b e => ha _ _ _ _ e) (fun b e => ha _ _ _ _ e)).mono
    fun x h => ⟨h.1, h.2.1, h.2.2.1⟩

theorem Ready.aes_enc {G X rb m next bt bs bp} (hT : KemTextAes G P K nm) (h : Ready G X rb m next [bt, bs, bp]) {mu ct ss pk : List U8}
    (hmu : mu.length = K.len) (hrb : Fills rb mu) (ht : m bt = u8s ct) (hs : m bs = u8s ss) (hp : m bp = u8s pk)
    (hlt : ct.length = P.ctBytes) (hls : ss.length = P.bytes) (hlp : pk.length = P.pkBytes) :
    Ret (callKemAes G X ("crypto_kem_enc_" ++ nm) [bt, bs, bp] m next) fun x =>
      x.1 = .int true 4 0 ∧ x.2.1 bt = u8s (encaps K pk mu).1 ∧ x.2.1 bs = u8s (encaps K pk mu).2 := by
  have hd := h.distinct
  simp only [List.nodup_cons, List.mem_cons, List.not_mem_nil, not_false_eq_true, List.nodup_nil, and_true, not_or, or_false] at hd
  have ha : ∀ x b s n, X.glob x = some (.ptr b 0 s n) → b < next ∧ b ≠ bt ∧ b ≠ bs := fun x b s n e => by
    have := h.apart x b s n e
    simp only [List.mem_cons, not_or] at this
    exact ⟨this.1, this.2.1, this.2.2.1⟩
  exact (C84_enc hT X rb 0 0 h.arch h.rand mu hmu hrb m next bt bs bp ct ss pk h.table h.rounds ht hs hp hlt (by omega) hlp
    (h.below _ (by simp)) (h.below _ (by simp)) (h.below _ (by simp)) hd.1.1 (Ne.symm hd.1.2) (Ne.symm hd.2)
    (fun b e => ha _ _ _ _ e) (fun b e => ha _ _ _ _ e)).mono
    fun x h => ⟨h.1, h.2.1, by rw [h.2.2.1, List.drop_eq_nil_of_le (by omega), List.append_nil]⟩

theorem Ready.aes_dec {G X rb m next bs bt bk} (hT : KemTextAes G P K nm) (h : Ready G X rb m next [bs, bt, bk]) {ss ct sk : List U8}
    (hs : m bs = u8s ss) (ht : m bt = u8s ct) (hk : m bk = u8s sk) (hls : ss.length = P.bytes) (hlt : ct.length = P.ctBytes)
    (hlk : sk.length = P.skBytes) :
    Ret (callKemAes G X ("crypto_kem_dec_" ++ nm) [bs, bt, bk] m next) fun x =>
      x.1 = .int true 4 0 ∧ x.2.1 bs = u8s (decaps K ct sk) := by
  have hd := h.distinct
  simp only [List.nodup_cons, List.mem_cons, List.not_mem_nil, not_false_eq_true, List.nodup_nil, and_true, not_or, or_false] at hd
  have ha : ∀ x b s n, X.glob x = some (.ptr b 0 s n) → b < next ∧ b ≠ bt ∧ b ≠ bs := fun x b s n e => by
    have := h.apart x b s n e
    simp only [List.mem_cons, not_or] at this
    exact ⟨this.1, this.2.2.1, this.2.1⟩
  exact (C84_dec hT X rb 0 0 h.arch h.rand m next bs bt bk ss ct sk h.table h.rounds hs ht hk (by omega) hlt hlk
    (h.below _ (by simp)) (h.below _ (by simp)) (h.below _ (by simp)) (Ne.symm hd.1.1) (Ne.symm hd.2) (Ne.symm hd.1.2)
    (fun b e => ha _ _ _ _ e) (fun b e => ha _ _ _ _ e)).mono
    fun x h => ⟨h.1, by rw [h.2.1, List.drop_eq_nil_of_le (by omega), List.append_nil]⟩

/-- C84.  If the accumulated noise is within the bounds of C01, then after key generation by one program, encapsulation by a second
and decapsulation by a third, all given by their text, with A from AES128, both parties hold the same shared secret. -/
theorem C84_round_trip {G G' G'' : File} (hT : KemTextAes G P K nm) (hT' : KemTextAes G' P K nm) (hT'' : KemTextAes G'' P K nm)
    {X X' X'' : Ctx} {rb rb' rb'' : RandomBytes} {m : Mem} {next bp bk : Nat} (h : Ready G X rb m next [bp, bk])
    {s seedSE z mu pk sk : List U8} (hs : s.length = K.len) (hse : seedSE.length = K.len) (hz : z.length = K.lenA)
    (hmu : mu.length = K.len) (hrb : Fills rb (s ++ seedSE ++ z)) (hrb' : Fills rb' mu) (hp : m bp = u8s pk) (hk : m bk = u8s sk)
    (hlp : pk.length = P.pkBytes) (hlk : sk.length = P.skBytes) (hn : NoiseBound K seedSE (keygen K s seedSE z).1 mu) :
    Ret (callKemAes G X ("crypto_kem_keypair_" ++ nm) [bp, bk] m next) fun x => x.1 = .int true 4 0 ∧
      ∀ (m' : Mem) (next' bt' bs' bp' : Nat) (ct ss : List U8), Ready G' X' rb' m' next' [bt', bs', bp'] → m' bt' = u8s ct →
        m' bs' = u8s ss → ct.length = P.ctBytes → ss.length = P.bytes → m' bp' = x.2.1 bp →
      Ret (callKemAes G' X' ("crypto_kem_enc_" ++ nm) [bt', bs', bp'] m' next') fun y => y.1 = .int true 4 0 ∧
        ∀ (m'' : Mem) (next'' bs'' bt'' bk'' : Nat) (ss'' : List U8), Ready G'' X'' rb'' m'' next'' [bs'', bt'', bk''] →
          m'' bs'' = u8s ss'' → ss''.length = P.bytes → m'' bt'' = y.2.1 bt' → m'' bk'' = x.2.1 bk →
        Ret (callKemAes G'' X'' ("crypto_kem_dec_" ++ nm) [bs'', bt'', bk''] m'' next'') fun w => w.1 = .int true 4 0 ∧
          w.2.1 bs'' = y.2.1 bs' := by
  have hS := hT.standard
  refine (h.aes_keypair hT hs hse hz hrb hp hk hlp hlk).mono ?_
  rintro x ⟨x1, x2, x3⟩
  refine ⟨x1, fun m' next' bt' bs' bp' ct ss h' ht' hs' hlt hls hp' => ?_⟩
  have lp : (keygen K s seedSE z).1.length = P.pkBytes := by rw [length_keygen_pk hS.kwf, hS.pkLen]
  refine (h'.aes_enc hT' hmu hrb' ht' hs' (hp'.trans x2) hlt hls lp).mono ?_
  rintro y ⟨y1, y2, y3⟩
  refine ⟨y1, fun m'' next'' bs'' bt'' bk'' ss'' h'' hs'' hls'' ht'' hk'' => ?_⟩
  refine (h''.aes_dec hT'' hs'' (ht''.trans y2) (hk''.trans x3) hls'' (by rw [length_encaps_ct, hS.ctLen])
    (by rw [length_keygen_sk hS.kwf hs, hS.skLen])).mono ?_
  rintro w ⟨w1, w2⟩
  exact ⟨w1, by rw [w2, y3, decaps_encaps hS.kwf hs hmu (fun i j => ⟨_, (hn i j).1, (hn i j).2, rfl⟩)]⟩

/-- C84, a ciphertext that is not the encryption of what it decrypts to: the shared secret is the hash of the ciphertext and of
the secret string `s` at the start of the secret key. -/
theorem C84_reject {G : File} (hT : KemTextAes G P K nm) {X : Ctx} {rb : RandomBytes} {m : Mem} {next bs bt bk : Nat}
    (h : Ready G X rb m next [bs, bt, bk]) {ss ct sk : List U8} (hs : m bs = u8s ss) (ht : m bt = u8s ct) (hk : m bk = u8s sk)
    (hls : ss.length = P.bytes) (hlt : ct.length = P.ctBytes) (hlk : sk.length = P.skBytes) (hne : ct ≠ (reencrypt K ct sk).1) :
    Ret (callKemAes G X ("crypto_kem_dec_" ++ nm) [bs, bt, bk] m next) fun x => x.1 = .int true 4 0 ∧
      x.2.1 bs = u8s (K.shake (ct ++ sk.take K.len) K.len) :=
  (h.aes_dec hT hs ht hk hls hlt hlk).mono fun _ e => ⟨e.1, by
    rw [e.2, decaps_reencrypt hT.standard.kwf (by rw [hlt, hT.standard.ctLen]), if_neg hne]⟩

theorem aes_sizes (hS : Standard P .aes K) : K.len = P.bytes ∧ K.lenA = P.seedA ∧ 2 * P.bytes + P.seedA < 2 ^ 31 :=
  ⟨by rw [← hS.kem]; rfl, by rw [← hS.kem]; rfl, by cases hS <;> decide⟩

/-- C84, with the text of `randombytes` too, on an operating system where the device opens sometime and delivers enough:
`crypto_kem_keypair` leaves the key pair that the specification generates from the next bytes of /dev/urandom. -/
theorem C84_os_keypair {G : File} (hT : KemTextAes G P K nm) {X : Ctx} {m : Mem} {next bp bk : Nat} (h : Placed G X m next [bp, bk])
    {Y : Nat → Ctx} {W : OS} (hY : Machine Y W) {st : OSState} (h0 : -2147483648 ≤ st.lock) (h1 : st.lock ≤ 2147483647)
    (hd : Opens W st) (hr : ∃ k, 2 * P.bytes + P.seedA ≤ osAvail W st.reads k) {pk sk : List U8}
    (hp : m bp = u8s pk) (hk : m bk = u8s sk) (hlp : pk.length = P.pkBytes) (hlk : sk.length = P.skBytes) :
    Ret (callKemAes G (withRandom X Y st) ("crypto_kem_keypair_" ++ nm) [bp, bk] m next) fun x => x.1 = .int true 4 0 ∧
      x.2.1 bp = u8s (keygen K (osBytes W st.pos P.bytes) (osBytes W (st.pos + P.bytes) P.bytes)
        (osBytes W (st.pos + 2 * P.bytes) P.seedA)).1 ∧
      x.2.1 bk = u8s (keygen K (osBytes W st.pos P.bytes) (osBytes W (st.pos + P.bytes) P.bytes)
        (osBytes W (st.pos + 2 * P.bytes) P.seedA)).2 := by
  obtain ⟨hl, hlA, hsm⟩ := aes_sizes hT.standard
  have e := fills_nix W st _ hsm hd hr
  rw [← osBytes_append, Nat.two_mul, ← osBytes_append, ← Nat.two_mul] at e
  exact (h.ready hY h0 h1).aes_keypair hT (by rw [length_osBytes, hl]) (by rw [length_osBytes, hl]) (by rw [length_osBytes, hlA]) e hp hk
    hlp hlk

/-- C84, encapsulation with the text of `randombytes`. -/
theorem C84_os_enc {G : File} (hT : KemTextAes G P K nm) {X : Ctx} {m : Mem} {next bt bs bp : Nat} (h : Placed G X m next [bt, bs, bp])
    {Y : Nat → Ctx} {W : OS} (hY : Machine Y W) {st : OSState} (h0 : -2147483648 ≤ st.lock) (h1 : st.lock ≤ 2147483647)
    (hd : Opens W st) (hr : ∃ k, P.bytes ≤ osAvail W st.reads k) {ct ss pk : List U8} (ht : m bt = u8s ct) (hs : m bs = u8s ss)
    (hp : m bp = u8s pk) (hlt : ct.length = P.ctBytes) (hls : ss.length = P.bytes) (hlp : pk.length = P.pkBytes) :
    Ret (callKemAes G (withRandom X Y st) ("crypto_kem_enc_" ++ nm) [bt, bs, bp] m next) fun x => x.1 = .int true 4 0 ∧
      x.2.1 bt = u8s (encaps K pk (osBytes W st.pos P.bytes)).1 ∧ x.2.1 bs = u8s (encaps K pk (osBytes W st.pos P.bytes)).2 := by
  obtain ⟨hl, hlA, hsm⟩ := aes_sizes hT.standard
  exact (h.ready hY h0 h1).aes_enc hT (by rw [length_osBytes, hl]) (fills_nix W st _ (by omega) hd hr) ht hs hp hlt hls hlp

end

/-! ## Concrete cases -/

theorem demoOpt_loaded (rb : RandomBytes) (m : Mem) (h : m 0 = u16s frodo640.cdf) :
    unitOpt640.Loaded (demoFips frodo640 rb) m := by
  have h0 : unitOpt640.globals.map (·.name) = ["CDF_TABLE", "CDF_TABLE_LEN"] := by kernel_rfl
  intro x g hg
  have hx : x = "CDF_TABLE" ∨ x = "CDF_TABLE_LEN" := by
    have h1 := List.find?_some hg
    have h2 : g.name ∈ unitOpt640.globals.map (·.name) := List.mem_map_of_mem (List.mem_of_find?_eq_some hg)
    rw [h0] at h2
    have h3 : g.name = x := by simpa using h1
    rw [← h3]
    simpa using h2
  rcases hx with rfl | rfl
  · rw [unitOpt640_isUnit.cdf] at hg
    cases hg
    exact ⟨0, rfl, by rw [h, List.map_map]; rfl⟩
  · rw [unitOpt640_isUnit.cdfLen] at hg
    cases hg
    exact ⟨_, rfl, rfl⟩

/-- C83_as: `s` from the first, `e` from the third of the elements of one array, and the seed from byte 48 of another. -/
example (rb : RandomBytes) (S : List U16) (hS : S.length = 10242) (I : List U8) (hI : I.length = 64) (m : Mem) (h1 : m 1 = u16s
    (List.replicate 5120 0)) (h2 : m 2 = u16s S) (h3 : m 3 = u8s I) :
    Ret (unitOpt640.run (link [utilFile, unitOpt640] (withAes (demoFips frodo640 rb)) 1) "frodo_mul_add_as_plus_e"
        [.ptr 1 0 false 2, .ptr 2 0 false 2, .ptr 2 2 false 2, .ptr 3 48 false 1] m 10)
      fun x => x.2.1 1 = u16s (ofMat (genA .aes 16 640 ((I.drop 48).take 16) * (toMat 16 8 640 S).transpose +
        toMat 16 640 8 (S.drop 2))) :=
  (C83_as .frodo640 _ _ rfl m 10 1 2 2 3 0 2 48 (List.replicate 5120 0) S S I h1 h2 h2 h3 (by decide)
    (by decide) (by decide) (by decide) (by decide) (by decide) (by decide) (by rw [List.length_replicate]; decide) (by rw [hS]; decide)
    (by rw [hS]; decide) (by rw [hI]) (by decide)).mono fun _ h =>
      h.2.1.trans (congrArg u16s (by rw [List.drop_replicate, show 5120 - frodo640.n * frodo640.nbar = 0 from rfl, List.replicate_zero, List.append_nil]; rfl))

/-- C83_sa for FrodoKEM-1344. -/
example (rb : RandomBytes) (S : List U16) (hS : S.length = 21504) (I : List U8) (hI : I.length = 16) (m : Mem) (h1 : m 1 = u16s
    (List.replicate 10752 0)) (h2 : m 2 = u16s S) (h3 : m 3 = u8s I) :
    Ret (unitOpt1344.run (link [utilFile, unitOpt1344] (withAes (demoFips frodo1344 rb)) 1) "frodo_mul_add_sa_plus_e"
        [.ptr 1 0 false 2, .ptr 2 0 false 2, .ptr 2 10752 false 2, .ptr 3 0 false 1] m 10)
      fun x => ∃ R, x.2.1 1 = u16s (ofMat R) ∧
        R = toMat 16 8 1344 (S.take 10752) * genA .aes 16 1344 (I.take 16) + toMat 16 8 1344 (S.drop 10752) :=
  (C83_sa .frodo1344 _ _ rfl m 10 1 2 3 10752 0 (List.replicate 10752 0) S I h1 h2 h3 (by decide)
    (by decide) (by decide) (by decide) (Nat.le_of_eq List.length_replicate.symm) (Nat.le_refl _) (Nat.le_of_eq hS.symm)
    (by rw [hI])).mono fun _ h => by
      obtain ⟨-, R, e, h, -⟩ := h
      refine ⟨_, h.trans (congrArg u16s ?_), rfl⟩
      rw [List.drop_replicate, show 10752 - frodo1344.nbar * frodo1344.n = 0 from rfl, List.replicate_zero, List.append_nil, e]
      rfl

/-- C84_keypair: the keys of FrodoKEM-640-AES for given random bytes. -/
example : ∃ m : Mem, Ret (unitOpt640.run (link [utilFile, unitOpt640] (withAes (link [fipsFile]
      (demoFips frodo640 (rbConst ((List.range 48).map (BitVec.ofNat 8)))) 3)) 1)
      "crypto_kem_keypair_Frodo640" [.ptr 1 0 false 1, .ptr 2 0 false 1] m 10)
    fun x => x.1 = .int true 4 0 ∧ x.2.1 1 = u8s (keygen (Frodo640 .aes) ((List.range 16).map (BitVec.ofNat 8))
      ((List.range' 16 16).map (BitVec.ofNat 8)) ((List.range' 32 16).map (BitVec.ofNat 8))).1 :=
  ⟨fun b => if b = 0 then u16s frodo640.cdf else if b = 1 then u8s (List.replicate 9616 0) else if b = 9 then
      u64s KeccakF_RoundConstants else u8s (List.replicate 19888 0),
  (C84_keypair .frodo640 _ _ 0 0 rfl (demoFips_rand _ _) ((List.range 16).map (BitVec.ofNat 8))
    ((List.range' 16 16).map (BitVec.ofNat 8)) ((List.range' 32 16).map (BitVec.ofNat 8)) rfl rfl rfl (fills_const _)
    _ 10 1 2 (List.replicate 9616 0) (List.replicate 19888 0) (demoOpt_loaded _ _ rfl) (demoFips_table _ _ _ rfl) rfl rfl
    List.length_replicate List.length_replicate (by decide) (by decide) (by decide) (fun b h => by cases h; decide)
    (fun b h => by cases h; decide)).mono fun _ h => ⟨h.1, h.2.1⟩⟩

/-- C84_enc, C84_dec: the calls of an exchange, with the arguments in different blocks. -/
example : ∃ m m' : Mem,
    Ret (callKemAes unitOpt640 (demoFips frodo640 (rbConst (List.replicate 16 7))) "crypto_kem_enc_Frodo640" [1, 2, 3] m 10) fun x =>
      x.2.1 1 = u8s (encaps (Frodo640 .aes) (List.replicate 9616 4) (List.replicate 16 7)).1 ∧
      Ret (callKemAes unitOpt640 (demoFips frodo640 (rbConst [])) "crypto_kem_dec_Frodo640" [3, 5, 8] m' 10) fun y =>
        y.2.1 3 = u8s (decaps (Frodo640 .aes) (List.replicate 9720 1) (List.replicate 19888 4)) :=
  ⟨fun b => if b = 0 then u16s frodo640.cdf else if b = 1 then u8s (List.replicate 9720 0) else if b = 9 then
      u64s KeccakF_RoundConstants else if b = 2 then u8s (List.replicate 16 0) else u8s (List.replicate 9616 4),
    fun b => if b = 0 then u16s frodo640.cdf else if b = 5 then u8s (List.replicate 9720 1) else if b = 9 then
      u64s KeccakF_RoundConstants else if b = 8 then u8s (List.replicate 19888 4) else u8s (List.replicate 16 0),
    ((demo_ready _ _ _ (demoOpt_loaded _ _ rfl) rfl (by decide) (by decide)).aes_enc .frodo640 rfl (fills_const _) rfl rfl rfl
      List.length_replicate List.length_replicate List.length_replicate).mono fun _ h =>
      ⟨h.2.1, ((demo_ready _ _ _ (demoOpt_loaded _ _ rfl) rfl (by decide) (by decide)).aes_dec .frodo640 rfl rfl rfl
        List.length_replicate List.length_replicate List.length_replicate).mono fun _ h => h.2⟩⟩

/-- The hypotheses of `C84_round_trip` on the first memory, and of `C84_reject` for some ciphertext. -/
example : ∃ (m : Mem) (ct : List U8), Ready unitOpt640 (demoFips frodo640 (rbConst (List.replicate 48 7))) (rbConst (List.replicate 48 7))
      m 10 [1, 2] ∧ Fills (rbConst (List.replicate 48 7)) (List.replicate 16 7 ++ List.replicate 16 7 ++ List.replicate 16 7) ∧
    m 1 = u8s (List.replicate 9616 0) ∧ m 2 = u8s (List.replicate 19888 4) ∧ ct.length = frodo640.ctBytes ∧
    ct ≠ (reencrypt (Frodo640 .aes) ct (List.replicate 19888 4)).1 := by
  obtain ⟨ct, h1, h2, -⟩ := exists_rejected (Standard.frodo640 .aes) (List.replicate 19888 4) []
  exact ⟨fun b => if b = 0 then u16s frodo640.cdf else if b = 1 then u8s (List.replicate 9616 0) else if b = 9 then
      u64s KeccakF_RoundConstants else u8s (List.replicate 19888 4), ct, demo_ready _ _ _ (demoOpt_loaded _ _ rfl) rfl (by decide)
      (by decide), fills_const _, rfl, rfl, h1, h2⟩

/-- C84_os_keypair on the slow system. -/
example : ∃ m : Mem, Ret (callKemAes unitOpt640 (withRandom (demoFips frodo640 (rbConst [])) (osMachine slowOS) .init)
    "crypto_kem_keypair_Frodo640" [1, 2] m 10) fun x => x.1 = .int true 4 0 :=
  ⟨fun b => if b = 0 then u16s frodo640.cdf else if b = 1 then u8s (List.replicate 9616 0) else if b = 9 then
      u64s KeccakF_RoundConstants else u8s (List.replicate 19888 4),
    (C84_os_keypair .frodo640 (demo_placed _ _ _ (demoOpt_loaded _ _ rfl) rfl (by decide) (by decide))
      (osMachine_machine _ slowOS_descriptors) (st := .init) (by decide) (by decide) (slowOS_opens _) ⟨24, by decide +kernel⟩ rfl rfl
      List.length_replicate List.length_replicate).mono fun _ h => h.1⟩

/-- C84_os_enc. -/
example : ∃ m : Mem, Ret (callKemAes unitOpt640 (withRandom (demoFips frodo640 (rbConst [])) (osMachine slowOS) .init)
    "crypto_kem_enc_Frodo640" [1, 2, 3] m 10) fun x => x.1 = .int true 4 0 :=
  ⟨fun b => if b = 0 then u16s frodo640.cdf else if b = 1 then u8s (List.replicate 9720 0) else if b = 9 then
      u64s KeccakF_RoundConstants else if b = 2 then u8s (List.replicate 16 0) else u8s (List.replicate 9616 4),
    (C84_os_enc .frodo640 (demo_placed _ _ _ (demoOpt_loaded _ _ rfl) rfl (by decide) (by decide))
      (osMachine_machine _ slowOS_descriptors) (st := .init) (by decide) (by decide) (slowOS_opens _) ⟨24, by decide +kernel⟩ rfl rfl rfl
      List.length_replicate List.length_replicate List.length_replicate).mono fun _ h => h.1⟩

end Frodo.Props
