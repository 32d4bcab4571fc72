import Verif.Props.TextOptAes
import Verif.Proof.TextRefAes
import Verif.Proof.TextInPlace
import Verif.Text.UnitRefAes640
import Verif.Text.UnitRefAes976
import Verif.Text.UnitRefAes1344

/-! # Properties of the source text of the reference implementation with A from AES128

The text of `frodo_mul_add_as_plus_e` and `frodo_mul_add_sa_plus_e` in /repo/src/frodo_macrify_reference.c encrypts A in place, in one
call.  C85 and C86 say what it does with any AES that works in place; C87 says that the text of /repo/src/aes/aes_c.c is not such. -/

namespace Frodo.Props

open Spec Src

/-- The parsed file of a parameter set (reference implementation, A from AES128), its parameters, the specified KEM that belongs to
them, and the end of the names of its functions. -/
inductive KemTextRefAes : File → Params → KemParams → String → Prop where
  | frodo640 : KemTextRefAes unitRefAes640 frodo640 (Frodo640 .aes) "Frodo640"
  | frodo976 : KemTextRefAes unitRefAes976 frodo976 (Frodo976 .aes) "Frodo976"
  | frodo1344 : KemTextRefAes unitRefAes1344 frodo1344 (Frodo1344 .aes) "Frodo1344"

namespace KemTextRefAes

variable {G : File} {P : Params} {K : KemParams} {nm : String}

theorem standard (h : KemTextRefAes G P K nm) : Standard P .aes K := by cases h <;> constructor

theorem unit (h : KemTextRefAes G P K nm) : G.IsUnit P := by
  cases h
  · exact unitRefAes640_isUnit
  · exact unitRefAes976_isUnit
  · exact unitRefAes1344_isUnit

theorem kem (h : KemTextRefAes G P K nm) : G.IsKem P nm := by
  cases h
  · exact unitRefAes640_isKem
  · exact unitRefAes976_isKem
  · exact unitRefAes1344_isKem

theorem ref (h : KemTextRefAes G P K nm) : G.IsRefAes P := by
  cases h
  · exact unitRefAes640_isRefAes
  · exact unitRefAes976_isRefAes
  · exact unitRefAes1344_isRefAes

theorem leaves (h : KemTextRefAes G P K nm) : G.Leaves := by
  cases h
  · exact unitRefAes640_leaves
  · exact unitRefAes976_leaves
  · exact unitRefAes1344_leaves

theorem noAes (h : KemTextRefAes G P K nm) : G.NoAes := by
  cases h
  · exact unitRefAes640_noAes
  · exact unitRefAes976_noAes
  · exact unitRefAes1344_noAes

theorem small (h : KemTextRefAes G P K nm) : P.Small := by cases h <;> constructor <;> decide

theorem stripe (h : KemTextRefAes G P K nm) : P.stripe = 8 := by cases h <;> rfl

theorem cdf (h : KemTextRefAes G P K nm) : 0 < P.cdf.length ∧ P.cdf.length < 2 ^ 16 := by cases h <;> decide

end KemTextRefAes

/-- C85.  The files of the parameter sets parse with the options for the reference implementation and AES128. -/
theorem C85_parse : parseText refAes sources frodo640Text = some unitRefAes640 ∧
    parseText refAes sources frodo976Text = some unitRefAes976 ∧ parseText refAes sources frodo1344Text = some unitRefAes1344 :=
  ⟨unitRefAes640_parse, unitRefAes976_parse, unitRefAes1344_parse⟩

/-- The environment of the model that has the uninitialised arrays of the text, and those of AES and of the sponge from `J`. -/
def refAesEnv (X : Ctx) (J : Junk) (se : String) : Env where
  junk t i := if t = 30 then (BitVec.ofInt 8 (X.junk "aes_key_schedule" i)).toNat else (textEnv X J se).junk t i
  addr _ := 0
  ossl := .ok

/-- The reference implementation on a little-endian machine, A from AES128 in C. -/
def refAesBuild : Build := ⟨.le, .reference, .c, .aes⟩

theorem refAes_aligned {X : Ctx} {J : Junk} {se : String} : refAesBuild.alignedGen (refAesEnv X J se) :=
  ⟨fun _ => nofun, nofun, nofun⟩

theorem AesAt.junk {X : Ctx} {J J' : Junk} (h : AesAt X J) (e : J 0 = J' 0) : AesAt X J' := by
  refine ⟨?_, h.enc, h.free⟩
  have e' : AES128_load_schedule .c J = AES128_load_schedule .c J' := by
    funext a b c
    simp only [AES128_load_schedule, load_schedule_junk e]
  rw [← e']
  intro N F bk ki br a K R h1 h2 h3 h4 h5 h6
  exact h.load h1 h2 h3 h4 h5 h6

theorem refAes_files {G : File} {X : Ctx} {d : Nat} (hN : G.NoAes) (hI : AesInPlace X) : AesInPlace (link [utilFile, G] X d) := by
  obtain ⟨-, u2, -⟩ := utilFile_noAes
  exact hI.link (by simp only [List.findSome?, u2, hN.enc])

section

variable {G : File} {P : Params} {K : KemParams} {nm : String} (hT : KemTextRefAes G P K nm) (X : Ctx) (J : Junk) (d : Nat)
  (hA : AesAt X J) (hI : AesInPlace X)
include hT hA hI

/-- C85, `frodo_mul_add_as_plus_e`: with an AES128 that works in place, the text of the reference implementation returns 1, with
`A*s + e` modulo `2^16` in the buffer for it, where A is Frodo.Gen of the seed with AES128, and nothing else in memory changed. -/
theorem C85_as (m : Mem) (next bo bs be bi ks ke ki : Nat) (O S Z : List U16) (I : List U8)
    (ho : m bo = u16s O) (hs : m bs = u16s S) (he : m be = u16s Z) (hi : m bi = u8s I) (b1 : bo < next) (b2 : bs < next)
    (b3 : be < next) (b4 : bi < next) (n1 : bs ≠ bo) (n2 : be ≠ bo) (lo : P.n * P.nbar ≤ O.length)
    (ls : ks + P.nbar * P.n ≤ S.length) (le : ke + P.n * P.nbar ≤ Z.length) (li : ki + 16 ≤ I.length) :
    Ret (G.run (link [utilFile, G] X d) "frodo_mul_add_as_plus_e"
        [.ptr bo 0 false 2, .ptr bs ks false 2, .ptr be ke false 2, .ptr bi ki false 1] m next)
      fun x => x.1 = .int true 4 1 ∧
        x.2.1 bo = u16s (ofMat (genA .aes 16 P.n ((I.drop ki).take 16) * (toMat 16 P.nbar P.n (S.drop ks)).transpose +
          toMat 16 P.n P.nbar (Z.drop ke)) ++ O.drop (P.n * P.nbar)) ∧
        ∀ b, b < next → b ≠ bo → x.2.1 b = m b := by
  have hA' := aes_files (d := d) hT.noAes (AesAt.junk (J' := (refAesEnv X J "").junk) hA rfl)
  have j1 : JunkAt (refAesEnv X J "") X 30 8 "aes_key_schedule" := fun i => BitVec.ofNat_toNat ..
  have hC := C28_as_plus_e refAesBuild (refAesEnv X J "") P 0 0 O (S.drop ks) (Z.drop ke) (I.drop ki) hT.standard.wf
    ⟨refAes_aligned, nofun⟩ (by rw [List.length_drop]; omega) lo (by rw [List.length_drop]; omega)
    (by rw [List.length_drop]; omega)
  have hR : Refines False (frodo_mul_add_as_plus_e refAesBuild (refAesEnv X J "") P 0 0 O (S.drop ks) (Z.drop ke) (I.drop ki))
      (G.run (link [utilFile, G] X d) "frodo_mul_add_as_plus_e"
        [.ptr bo 0 false 2, .ptr bs ks false 2, .ptr be ke false 2, .ptr bi ki false 1] m next)
      fun r x => x.1 = .int true 4 1 ∧ next ≤ x.2.2 ∧ MAgree next x.2.1 (m.set bo (u16s r)) := by
    rw [run_eq hT.ref.mulAs, show frodo_mul_add_as_plus_e refAesBuild (refAesEnv X J "") P 0 0 O (S.drop ks) (Z.drop ke) (I.drop ki) =
      as_plus_e_reference refAesBuild (refAesEnv X J "") P O (S.drop ks) (Z.drop ke) (I.drop ki) from rfl]
    exact text_mul_as_refAes hT.small hT.stripe rfl rfl rfl hA' (refAes_files hT.noAes hI) j1 ho hs he hi b1 b2 b3 b4 n1 n2 (by omega)
      (by omega) (by omega)
  refine ret_refines hR hC ?_
  rintro r x rfl ⟨e1, -, e3⟩
  exact ⟨e1, by rw [e3 bo b1, set_same]; rfl, fun b l1 l2 => by rw [e3 b l1, set_ne _ _ l2]⟩

/-- C85, `frodo_mul_add_sa_plus_e`: with an AES128 that works in place, the text returns 1, with `s*A + e` modulo `2^16` in the buffer for
it, and nothing else in memory changed.  `s` and `e` are in one block, as in /repo/src/kem.c. -/
theorem C85_sa (m : Mem) (next bo bs bi k ki : Nat) (O S : List U16) (I : List U8)
    (ho : m bo = u16s O) (hs : m bs = u16s S) (hi : m bi = u8s I) (b1 : bo < next) (b2 : bs < next) (b4 : bi < next) (n1 : bs ≠ bo)
    (lo : P.nbar * P.n ≤ O.length) (lk : P.nbar * P.n ≤ k) (ls : k + P.nbar * P.n ≤ S.length) (li : ki + 16 ≤ I.length) :
    Ret (G.run (link [utilFile, G] X d) "frodo_mul_add_sa_plus_e"
        [.ptr bo 0 false 2, .ptr bs 0 false 2, .ptr bs k false 2, .ptr bi ki false 1] m next)
      fun x => x.1 = .int true 4 1 ∧
        x.2.1 bo = u16s (ofMat (toMat 16 P.nbar P.n (S.take k) * genA .aes 16 P.n ((I.drop ki).take 16) +
          toMat 16 P.nbar P.n (S.drop k)) ++ O.drop (P.nbar * P.n)) ∧
        ∀ b, b < next → b ≠ bo → x.2.1 b = m b := by
  have hA' := aes_files (d := d) hT.noAes (AesAt.junk (J' := (refAesEnv X J "").junk) hA rfl)
  have j1 : JunkAt (refAesEnv X J "") X 30 8 "aes_key_schedule" := fun i => BitVec.ofNat_toNat ..
  have hC := C29_sa_plus_e refAesBuild (refAesEnv X J "") P 0 O (S.take k) (S.drop k) (I.drop ki) hT.standard.wf (.inl rfl)
    ⟨refAes_aligned, nofun⟩ (by rw [List.length_drop]; omega) lo (by rw [List.length_take]; omega)
    (by rw [List.length_drop]; omega)
  have hR : Refines False (frodo_mul_add_sa_plus_e refAesBuild (refAesEnv X J "") P 0 O (S.take k) (S.drop k) (I.drop ki))
      (G.run (link [utilFile, G] X d) "frodo_mul_add_sa_plus_e"
        [.ptr bo 0 false 2, .ptr bs 0 false 2, .ptr bs k false 2, .ptr bi ki false 1] m next)
      fun r x => x.1 = .int true 4 1 ∧ MAgree next x.2.1 (m.set bo (u16s r.1)) := by
    rw [run_eq hT.ref.mulSa, show frodo_mul_add_sa_plus_e refAesBuild (refAesEnv X J "") P 0 O (S.take k) (S.drop k) (I.drop ki) =
      (sa_plus_e_reference refAesBuild (refAesEnv X J "") P O (S.take k) (S.drop k) (I.drop ki) >>= fun r => pure (r, S.drop k)) from rfl]
    rw [← bind_pure (callFun ..)]
    refine ((text_mul_sa_refAes (B := refAesBuild) (E := refAesEnv X J "") hT.small hT.stripe rfl rfl rfl hA' (refAes_files hT.noAes hI) j1 ho hs hi b1 b2 b4 n1 (by omega) (by omega)).bind fun r x h => ?_)
    exact .pure ⟨h.1, h.2.2⟩
  refine ret_refines hR hC ?_
  rintro ⟨r, z⟩ x ⟨h1, -⟩ ⟨e1, e3⟩
  dsimp only at h1
  exact ⟨e1, by rw [e3 bo b1, set_same, h1]; rfl, fun b l1 l2 => by rw [e3 b l1, set_ne _ _ l2]⟩

end

section

variable {G : File} {P : Params} {K : KemParams} {nm : String} {X : Ctx} {J : Junk} {rb : RandomBytes} {m : Mem} {bc bq : Nat} {xk : Blk}

theorem refAesEnv_calls (hT : KemTextRefAes G P K nm) (ha : X.arch = .le) (hS : SpongeAt X J bq xk) (hA : AesAt X J) (hI : AesInPlace X)
    (hR : Rand X rb) (se : String) (d : Nat)
    (h1 : X.glob "CDF_TABLE" = some (.ptr bc 0 false 2)) (h2 : X.glob "CDF_TABLE_LEN" = some (.int false 2 P.cdf.length)) :
    Calls (link [utilFile, G] X (d + 1)) refAesBuild (refAesEnv X J se) P rb bc bq xk := by
  refine calls hT.unit hT.standard.wf ha h1 h2 hT.cdf.1 hT.cdf.2 ?_
  have j1 : JunkAt (refAesEnv X J se) X 30 8 "aes_key_schedule" := fun i => BitVec.ofNat_toNat ..
  exact othersRefAes hT.ref hT.leaves hT.noAes hT.small hT.stripe rfl rfl rfl rfl j1
    (SpongeAt.junk (J' := (refAesEnv X J se).junk) hS rfl rfl rfl) (AesAt.junk (J' := (refAesEnv X J se).junk) hA rfl) hI hR

theorem refAesEnv_junk {se : String} {d t w : Nat} {x : String}
    (h : ∀ i, (refAesEnv X J se).junk t i = (BitVec.ofInt w (X.junk x i)).toNat) :
    JunkAt (refAesEnv X J se) (link [utilFile, G] X d) t w x := by
  intro i
  rw [h, link_junk, BitVec.ofNat_toNat, BitVec.setWidth_eq]

theorem loaded_cdf_refAes (hT : KemTextRefAes G P K nm) (h : G.Loaded X m) : ∃ bc, X.glob "CDF_TABLE" = some (.ptr bc 0 false 2) ∧
    X.glob "CDF_TABLE_LEN" = some (.int false 2 P.cdf.length) ∧ m bc = u16s P.cdf := by
  obtain ⟨bc, hc, hm⟩ := h _ _ hT.unit.cdf
  obtain ⟨e, he, hL⟩ := h _ _ hT.unit.cdfLen
  cases he
  refine ⟨bc, hc, hL, ?_⟩
  rw [hm, List.map_map]
  rfl

end

/-- C86, `crypto_kem_keypair`: with a SHAKE, an AES128 that works in place and a `randombytes` that do what they should, the text of kem.c,
noise.c, util.c and frodo_macrify_reference.c together returns 0, with the two keys of Algorithm 12 in the buffers for them, nothing
else in memory changed, and zeros in the arrays of the function that held secrets. -/
theorem C86_keypair {G : File} {P : Params} {K : KemParams} {nm : String} (hT : KemTextRefAes G P K nm) (X : Ctx) (J : Junk)
    (rb : RandomBytes) (d : Nat) (ha : X.arch = .le) (hS : Sponge X J) (hA : AesAt X J)
    (hI : AesInPlace X) (hR : Rand X rb) (s seedSE z : List U8)
    (hs : s.length = K.len) (hse : seedSE.length = K.len) (hz : z.length = K.lenA) (hrb : Fills rb (s ++ seedSE ++ z))
    (m : Mem) (next bp bs : Nat) (pk sk : List U8) (hL : G.Loaded X m) (hp : m bp = u8s pk) (hk : m bs = u8s sk)
    (hlp : pk.length = P.pkBytes) (hls : sk.length = P.skBytes) (hb : bp < next) (hb' : bs < next) (ne : bp ≠ bs)
    (hg : ∀ b, X.glob "CDF_TABLE" = some (.ptr b 0 false 2) → b < next ∧ b ≠ bp ∧ b ≠ bs) :
    Ret (G.run (link [utilFile, G] X (d + 1)) ("crypto_kem_keypair_" ++ nm) [.ptr bp 0 false 1, .ptr bs 0 false 1] m next)
      fun x => x.1 = .int true 4 0 ∧ x.2.1 bp = u8s (keygen K s seedSE z).1 ∧ x.2.1 bs = u8s (keygen K s seedSE z).2 ∧
        (∀ b, b < next → b ≠ bp → b ≠ bs → x.2.1 b = m b) ∧
        x.2.1 (next + 1) = u16s (List.replicate (2 * P.n * P.nbar) 0) ∧
        x.2.1 (next + 2) = u8s (List.replicate (2 * P.bytes) 0 ++ z) ∧
        x.2.1 (next + 3) = u8s (List.replicate (1 + P.bytes) 0) := by
  obtain ⟨bc, hc, hcl, hmc⟩ := loaded_cdf_refAes hT hL
  obtain ⟨g1, g2, g3⟩ := hg _ hc
  exact keypair_calls (B := refAesBuild) (E := refAesEnv X J "shake_input_seedSE") hT.kem hT.standard
    hT.small rfl refAes_aligned (fun _ => rfl) _ rb
    (refAesEnv_calls hT ha (hS.at bc _) hA hI hR "shake_input_seedSE" d hc hcl) (refAesEnv_junk fun i => rfl) (refAesEnv_junk fun i => rfl)
    s seedSE z hs hse hz hrb m next bp bs pk sk hp hk hlp hls hb hb' ne hmc g1 g2 g3 hmc g1 g2 g3

/-- C86, `crypto_kem_enc`. -/
theorem C86_enc {G : File} {P : Params} {K : KemParams} {nm : String} (hT : KemTextRefAes G P K nm) (X : Ctx) (J : Junk)
    (rb : RandomBytes) (d : Nat) (ha : X.arch = .le) (hS : Sponge X J) (hA : AesAt X J)
    (hI : AesInPlace X) (hR : Rand X rb) (mu : List U8)
    (hmu : mu.length = K.len) (hrb : Fills rb mu)
    (m : Mem) (next bt bs bp : Nat) (ct ss pk : List U8) (hL : G.Loaded X m) (ht : m bt = u8s ct) (hs : m bs = u8s ss)
    (hp : m bp = u8s pk) (hlt : ct.length = P.ctBytes) (hls : P.bytes ≤ ss.length) (hlp : pk.length = P.pkBytes) (hb : bt < next)
    (hb' : bs < next) (hb'' : bp < next) (ne : bt ≠ bs) (ne' : bp ≠ bt) (ne'' : bp ≠ bs)
    (hg : ∀ b, X.glob "CDF_TABLE" = some (.ptr b 0 false 2) → b < next ∧ b ≠ bt ∧ b ≠ bs) :
    Ret (G.run (link [utilFile, G] X (d + 1)) ("crypto_kem_enc_" ++ nm)
        [.ptr bt 0 false 1, .ptr bs 0 false 1, .ptr bp 0 false 1] m next)
      fun x => x.1 = .int true 4 0 ∧ x.2.1 bt = u8s (encaps K pk mu).1 ∧
        x.2.1 bs = u8s ((encaps K pk mu).2 ++ ss.drop P.bytes) ∧
        (∀ b, b < next → b ≠ bt → b ≠ bs → x.2.1 b = m b) ∧
        x.2.1 (next + 1) = u16s (List.replicate (P.nbar * P.nbar) 0) ∧
        x.2.1 (next + 4) = u16s (List.replicate (2 * (P.n * P.nbar) + P.nbar * P.nbar) 0) ∧
        x.2.1 (next + 5) = u8s (P.shake.fn pk P.bytes ++ List.replicate P.bytes 0) ∧
        x.2.1 (next + 6) = u8s (List.replicate (2 * P.bytes) 0) ∧
        x.2.1 (next + 7) = u8s ((encaps K pk mu).1 ++ List.replicate P.bytes 0) ∧
        x.2.1 (next + 8) = u8s (List.replicate (1 + P.bytes) 0) := by
  obtain ⟨bc, hc, hcl, hmc⟩ := loaded_cdf_refAes hT hL
  obtain ⟨g1, g2, g3⟩ := hg _ hc
  exact enc_calls (B := refAesBuild) (E := refAesEnv X J "shake_input_seedSE") hT.kem hT.standard
    hT.small (.inl rfl) rfl (by decide) refAes_aligned (fun _ => rfl) _ rb
    (refAesEnv_calls hT ha (hS.at bc _) hA hI hR "shake_input_seedSE" d hc hcl)
    (refAesEnv_junk fun i => rfl) (refAesEnv_junk fun i => rfl) (refAesEnv_junk fun i => rfl) (refAesEnv_junk fun i => rfl)
    mu hmu hrb m next bt bs bp ct ss pk ht hs hp hlt hls hlp hb hb' hb'' ne ne' ne'' hmc g1 g2 g3 hmc g1 g2 g3

/-- C86, `crypto_kem_dec`. -/
theorem C86_dec {G : File} {P : Params} {K : KemParams} {nm : String} (hT : KemTextRefAes G P K nm) (X : Ctx) (J : Junk)
    (rb : RandomBytes) (d : Nat) (ha : X.arch = .le) (hS : Sponge X J) (hA : AesAt X J)
    (hI : AesInPlace X) (hR : Rand X rb)
    (m : Mem) (next bs bt bk : Nat) (ss ct sk : List U8) (hL : G.Loaded X m) (hs : m bs = u8s ss) (ht : m bt = u8s ct)
    (hk : m bk = u8s sk) (hls : P.bytes ≤ ss.length) (hlt : ct.length = P.ctBytes) (hlk : sk.length = P.skBytes) (hb : bs < next)
    (hb' : bt < next) (hb'' : bk < next) (ne : bt ≠ bs) (ne' : bk ≠ bt) (ne'' : bk ≠ bs)
    (hg : ∀ b, X.glob "CDF_TABLE" = some (.ptr b 0 false 2) → b < next ∧ b ≠ bt ∧ b ≠ bs) :
    Ret (G.run (link [utilFile, G] X (d + 1)) ("crypto_kem_dec_" ++ nm)
        [.ptr bs 0 false 1, .ptr bt 0 false 1, .ptr bk 0 false 1] m next)
      fun x => x.1 = .int true 4 0 ∧ x.2.1 bs = u8s (decaps K ct sk ++ ss.drop P.bytes) ∧
        (∀ b, b < next → b ≠ bs → x.2.1 b = m b) ∧
        x.2.1 (next + 2) = u16s (List.replicate (P.nbar * P.nbar) 0) ∧
        x.2.1 (next + 6) = u16s (List.replicate (2 * (P.n * P.nbar) + P.nbar * P.nbar) 0) ∧
        x.2.1 (next + 7) = u16s (List.replicate (P.n * P.nbar) 0) ∧
        x.2.1 (next + 8) = u8s ((sk.drop (P.bytes + P.pkBytes + 2 * P.n * P.nbar)).take P.bytes ++ List.replicate P.bytes 0) ∧
        x.2.1 (next + 9) = u8s (List.replicate (2 * P.bytes) 0) ∧
        x.2.1 (next + 10) = u8s (ct ++ List.replicate P.bytes 0) ∧
        x.2.1 (next + 11) = u8s (List.replicate (1 + P.bytes) 0) := by
  obtain ⟨bc, hc, hcl, hmc⟩ := loaded_cdf_refAes hT hL
  obtain ⟨g1, g2, g3⟩ := hg _ hc
  exact dec_calls (B := refAesBuild) (E := refAesEnv X J "shake_input_seedSEprime") hT.kem hT.standard
    hT.small (.inl rfl) rfl (by decide) refAes_aligned (fun _ => rfl) _ rb
    (refAesEnv_calls hT ha (hS.at bc _) hA hI hR "shake_input_seedSEprime" d hc hcl) (by rw [link_arch, ha])
    (refAesEnv_junk fun i => rfl) (refAesEnv_junk fun i => rfl) (refAesEnv_junk fun i => rfl) (refAesEnv_junk fun i => rfl)
    (refAesEnv_junk fun i => rfl)
    m next bs bt bk ss ct sk hs ht hk hls hlt hlk hb hb' hb'' ne ne' ne'' hmc g1 g2 g3 hmc g1 g2 g3

/-! ## AES in place -/

/-- C87.  The text of `AES128_ECB_enc_sch` with overlapping first blocks of plaintext and ciphertext has no defined behaviour: `memcpy` between
objects that overlap (C11 7.24.2.1p2).  The reference implementation calls it with `ciphertext == plaintext`
(/repo/src/frodo_macrify_reference.c:33, 91). -/
theorem C87_overlap (X : Ctx) (d : Nat) (hA : Asserts X) (m : Mem) (next b br ki ko kr n : Nat) (L : List U8) (hm : m b = u8s L) (hn : 0 < n)
    (hn2 : 16 * n < 2 ^ 63) (h1 : ki < ko + 16) (h2 : ko < ki + 16) (h3 : ki ≤ L.length) (h4 : ko ≤ L.length) :
    aesFile.run (link aesFiles X (d + 2)) "AES128_ECB_enc_sch"
      [.ptr b ki false 1, .int false 8 (16 * n : Nat), .ptr br kr false 1, .ptr b ko false 1] m next = .ub .overlap :=
  ecb128_overlap hA br b ki ko kr n L hm hn hn2 h1 h2 h3 h4 next

section

variable {G : File} {P : Params} {K : KemParams} {nm : String} (hT : KemTextRefAes G P K nm) (X : Ctx) (d : Nat) (m : Mem) (next : Nat)
include hT

theorem refAes_withAes : AesAt (link [utilFile, G] (withAes X) d) (aesJunk X) ∧
    [utilFile, G].findSome? (·.fn "AES128_ECB_enc_sch") = none := by
  obtain ⟨-, u2, -⟩ := utilFile_noAes
  exact ⟨aes_files hT.noAes (withAes_aes rfl), by simp only [List.findSome?, u2, hT.noAes.enc]⟩

/-- C87, `frodo_mul_add_as_plus_e`: the text of the reference implementation with the text of AES has no defined behaviour, for any
arguments with a readable seed. -/
theorem C87_as (bo bs be bi ks ke ki : Nat) (I : List U8) (hi : m bi = u8s I) (b4 : bi < next) (li : ki + 16 ≤ I.length) :
    G.run (link [utilFile, G] (withAes X) d) "frodo_mul_add_as_plus_e"
        [.ptr bo 0 false 2, .ptr bs ks false 2, .ptr be ke false 2, .ptr bi ki false 1] m next = .ub .overlap := by
  rw [run_eq hT.ref.mulAs]
  exact text_mul_as_overlap hT.small hT.standard.wf hT.stripe (refAes_withAes hT X d).1 (refAes_withAes hT X d).2 hi b4 li

/-- C87, `frodo_mul_add_sa_plus_e`. -/
theorem C87_sa (bo bs bi k ki : Nat) (I : List U8) (hi : m bi = u8s I) (b4 : bi < next) (li : ki + 16 ≤ I.length) :
    G.run (link [utilFile, G] (withAes X) d) "frodo_mul_add_sa_plus_e"
        [.ptr bo 0 false 2, .ptr bs 0 false 2, .ptr bs k false 2, .ptr bi ki false 1] m next = .ub .overlap := by
  rw [run_eq hT.ref.mulSa]
  exact text_mul_sa_overlap hT.small hT.standard.wf hT.stripe (refAes_withAes hT X d).1 (refAes_withAes hT X d).2 hi b4 li

end

/-! ## Concrete cases -/

/-- `AES128_ECB_enc_sch` in place as the model has it, for other calls `X`. -/
def inPlaceAes (X : Ctx) : Ctx :=
  { X with call := fun f args m nx =>
      match args with
      | [.ptr bi _ _ _, .int _ _ len, .ptr br _ _ _, .ptr bo _ _ _] =>
        if f = "AES128_ECB_enc_sch" ∧ bi = bo then do
          let r ← AES128_ECB_enc_sch_inplace .c 0 len.toNat (demoBytes (m br)) (demoBytes (m bo))
          pure (.undef .void, m.set bo (demoPut (m bo) r), nx)
        else X.call f args m nx
      | _ => X.call f args m nx }

theorem inPlace_inPlace {X : Ctx} : AesInPlace (inPlaceAes X) := by
  intro N F br bo a v R O len h1 h2 h3 h4 h5 h6 h7 M nx hN hM
  simp only [inPlaceAes, and_self, if_true, hM bo h5, hM br h4, h1, h2, demoBytes_blk v O (.inl h3), demoPut_blk,
    show demoBytes (u8s R) = R from demoBytes_blk .u8 R (.inr rfl), Int.toNat_natCast]
  exact demo_step hN hM

theorem inPlace_aes {X : Ctx} {J : Junk} (h : AesAt X J) : AesAt (inPlaceAes X) J := by
  refine ⟨fun h1 h2 h3 h4 h5 h6 => h.load h1 h2 h3 h4 h5 h6, ?_, fun h1 h2 => h.free h1 h2⟩
  intro N F bi br bo a v I R O len a1 a2 a3 a4 a5 a6 a7 a8 a9 a10 a11 a12
  have := h.enc (a := a) a1 a2 a3 a4 a5 a6 a7 a8 a9 a10 a11 a12
  unfold Does at this ⊢
  simpa only [inPlaceAes, a9, and_false, if_false] using this

/-- What the arrays of the example have before they are written. -/
def demoRefJunk : Junk := fun _ i => (BitVec.ofInt 8 (i : Int)).toNat

/-- A program with the functions of C75 and AES128 from its text, in place from the model. -/
def demoRef (P : Params) (rb : RandomBytes) : Ctx := inPlaceAes (withAes (demoKem P demoRefJunk rb))

theorem demoRef_sponge (P : Params) (rb : RandomBytes) : Sponge (demoRef P rb) demoRefJunk := by
  have h := demo_sponge P demoRefJunk rb
  constructor
  · intro N F bo ko bi ki s n s' n' v L I outlen inlen a1 a2 a3 a4 a5 a6 a7 a8 a9 a10
    exact h.s128 (s := s) (n := n) (s' := s') (n' := n') a1 a2 a3 a4 a5 a6 a7 a8 a9 a10
  · intro N F bo ko bi ki s n s' n' v L I outlen inlen a1 a2 a3 a4 a5 a6 a7 a8 a9 a10
    exact h.s256 (s := s) (n := n) (s' := s') (n' := n') a1 a2 a3 a4 a5 a6 a7 a8 a9 a10

theorem demoRef_aes (P : Params) (rb : RandomBytes) : AesAt (demoRef P rb) demoRefJunk := inPlace_aes (withAes_aes rfl)

theorem demoRef_rand (P : Params) (rb : RandomBytes) : Rand (demoRef P rb) rb := by
  intro N F bo ko s n L len e1 e2 e3 e4
  exact demo_rand P demoRefJunk rb (s := s) (n := n) e1 e2 e3 e4

theorem demoRef_loaded (rb : RandomBytes) (m : Mem) (h : m 0 = u16s frodo640.cdf) : unitRefAes640.Loaded (demoRef frodo640 rb) m := by
  have h0 : unitRefAes640.globals.map (·.name) = ["CDF_TABLE", "CDF_TABLE_LEN"] := by kernel_rfl
  intro x g hg
  have hx : x = "CDF_TABLE" ∨ x = "CDF_TABLE_LEN" := by
    have h1 := List.find?_some hg
    have h2 : g.name ∈ unitRefAes640.globals.map (·.name) := List.mem_map_of_mem (List.mem_of_find?_eq_some hg)
    rw [h0] at h2
    have h3 : g.name = x := by simpa using h1
    rw [← h3]
    simpa using h2
  rcases hx with rfl | rfl
  · rw [unitRefAes640_isUnit.cdf] at hg
    cases hg
    exact ⟨0, rfl, by rw [h, List.map_map]; rfl⟩
  · rw [unitRefAes640_isUnit.cdfLen] at hg
    cases hg
    exact ⟨_, rfl, rfl⟩

/-- C85_as: `s` from the first, `e` from the third of the elements of one array, and the seed from byte 48 of another. -/
example (rb : RandomBytes) (S : List U16) (hS : S.length = 10242) (I : List U8) (hI : I.length = 64) (m : Mem) (h1 : m 1 = u16s
    (List.replicate 5120 0)) (h2 : m 2 = u16s S) (h3 : m 3 = u8s I) :
    Ret (unitRefAes640.run (link [utilFile, unitRefAes640] (demoRef frodo640 rb) 1) "frodo_mul_add_as_plus_e"
        [.ptr 1 0 false 2, .ptr 2 0 false 2, .ptr 2 2 false 2, .ptr 3 48 false 1] m 10)
      fun x => x.2.1 1 = u16s (ofMat (genA .aes 16 640 ((I.drop 48).take 16) * (toMat 16 8 640 S).transpose +
        toMat 16 640 8 (S.drop 2))) :=
  (C85_as .frodo640 _ _ _ (demoRef_aes ..) inPlace_inPlace m 10 1 2 2 3 0 2 48 (List.replicate 5120 0) S S I h1 h2 h2 h3 (by decide)
    (by decide) (by decide) (by decide) (by decide) (by decide) (by rw [List.length_replicate]; decide) (by rw [hS]; decide)
    (by rw [hS]; decide) (by rw [hI])).mono fun _ h =>
      h.2.1.trans (congrArg u16s (by rw [List.drop_replicate, show 5120 - frodo640.n * frodo640.nbar = 0 from rfl, List.replicate_zero, List.append_nil]; rfl))

/-- C85_sa for FrodoKEM-1344. -/
example (rb : RandomBytes) (S : List U16) (hS : S.length = 21504) (I : List U8) (hI : I.length = 16) (m : Mem) (h1 : m 1 = u16s
    (List.replicate 10752 0)) (h2 : m 2 = u16s S) (h3 : m 3 = u8s I) :
    Ret (unitRefAes1344.run (link [utilFile, unitRefAes1344] (demoRef frodo1344 rb) 1) "frodo_mul_add_sa_plus_e"
        [.ptr 1 0 false 2, .ptr 2 0 false 2, .ptr 2 10752 false 2, .ptr 3 0 false 1] m 10)
      fun x => x.2.1 2 = u16s S ∧ x.2.1 1 = u16s (ofMat (toMat 16 8 1344 (S.take 10752) * genA .aes 16 1344 (I.take 16) +
        toMat 16 8 1344 (S.drop 10752))) :=
  (C85_sa .frodo1344 _ _ _ (demoRef_aes ..) inPlace_inPlace m 10 1 2 3 10752 0 (List.replicate 10752 0) S I h1 h2 h3 (by decide)
    (by decide) (by decide) (by decide) (Nat.le_of_eq List.length_replicate.symm) (Nat.le_refl _) (Nat.le_of_eq hS.symm)
    (by rw [hI])).mono fun _ h => ⟨(h.2.2 2 (by decide) (by decide)).trans h2, h.2.1.trans (congrArg u16s (by
      rw [List.drop_replicate, show 10752 - frodo1344.nbar * frodo1344.n = 0 from rfl, List.replicate_zero, List.append_nil]
      rfl))⟩

/-- C86_keypair: the keys of FrodoKEM-640-AES for given random bytes. -/
example : Ret (unitRefAes640.run (link [utilFile, unitRefAes640] (demoRef frodo640 (rbConst ((List.range 48).map (BitVec.ofNat 8)))) 1)
      "crypto_kem_keypair_Frodo640" [.ptr 1 0 false 1, .ptr 2 0 false 1]
      (fun b => if b = 0 then u16s frodo640.cdf else if b = 1 then u8s (List.replicate 9616 0) else u8s (List.replicate 19888 0)) 3)
    fun x => x.1 = .int true 4 0 ∧
      x.2.1 1 = u8s (keygen (Frodo640 .aes) ((List.range 16).map (BitVec.ofNat 8))
        ((List.range' 16 16).map (BitVec.ofNat 8)) ((List.range' 32 16).map (BitVec.ofNat 8))).1 :=
  (C86_keypair .frodo640 _ _ _ 0 rfl (demoRef_sponge ..) (demoRef_aes ..) inPlace_inPlace (demoRef_rand _ _)
    ((List.range 16).map (BitVec.ofNat 8))
    ((List.range' 16 16).map (BitVec.ofNat 8)) ((List.range' 32 16).map (BitVec.ofNat 8)) rfl rfl rfl (fills_const _)
    _ 3 1 2 (List.replicate 9616 0) (List.replicate 19888 0) (demoRef_loaded _ _ rfl) rfl rfl List.length_replicate
    List.length_replicate (by decide) (by decide) (by decide) (fun b h => by cases h; decide)).mono fun _ h => ⟨h.1, h.2.1⟩

/-- The hypotheses of `C86_enc` and `C86_dec`. -/
example : ∃ (X : Ctx) (J : Junk) (rb : RandomBytes) (m : Mem) (mu ct ss pk sk : List U8),
    X.arch = .le ∧ Sponge X J ∧ AesAt X J ∧ AesInPlace X ∧ Rand X rb ∧ Fills rb mu ∧ mu.length = (Frodo640 .aes).len ∧
    unitRefAes640.Loaded X m ∧ m 1 = u8s ct ∧ m 2 = u8s ss ∧ m 3 = u8s pk ∧ m 4 = u8s sk ∧ ct.length = frodo640.ctBytes ∧
    frodo640.bytes ≤ ss.length ∧ pk.length = frodo640.pkBytes ∧ sk.length = frodo640.skBytes ∧
    ∀ b, X.glob "CDF_TABLE" = some (.ptr b 0 false 2) → b < 5 ∧ b ≠ 1 ∧ b ≠ 2 :=
  ⟨demoRef frodo640 (rbConst (List.replicate 16 7)), _, rbConst (List.replicate 16 7),
    fun b => if b = 0 then u16s frodo640.cdf else if b = 1 then u8s (List.replicate 9720 1) else if b = 2 then
      u8s (List.replicate 16 2) else if b = 3 then u8s (List.replicate 9616 3) else u8s (List.replicate 19888 4),
    List.replicate 16 7, List.replicate 9720 1, List.replicate 16 2, List.replicate 9616 3, List.replicate 19888 4,
    rfl, demoRef_sponge .., demoRef_aes .., inPlace_inPlace, demoRef_rand _ _, fills_const _, rfl, demoRef_loaded _ _ rfl, rfl, rfl, rfl, rfl,
    List.length_replicate, Nat.le_of_eq List.length_replicate.symm, List.length_replicate, List.length_replicate,
    fun b h => by cases h; decide⟩

/-- C87_overlap: two blocks encrypted in place, with the round keys in another block. -/
example (m : Mem) : (link aesFiles (aesCtx (demoKem frodo640 demoRefJunk (rbConst [])) 7) 3).call "AES128_ECB_enc_sch"
    [.ptr 1 0 false 1, .int false 8 32, .ptr 2 0 false 1, .ptr 1 0 false 1] (m.set 1 (u8s (List.replicate 32 5))) 10 = .ub .overlap := by
  rw [call_aes aes_AES128_ECB_enc_sch (by kernel_rfl) (by decide) (by decide)]
  exact C87_overlap _ 0 aesCtx_assert _ 10 1 2 0 0 0 2 (List.replicate 32 5) (set_same ..) (by decide) (by decide) (by decide) (by decide)
    (by decide) (by decide)

/-- C87_as, C87_sa: any blocks for the matrices, a seed of 16 bytes. -/
example (X : Ctx) (m : Mem) :
    unitRefAes976.run (link [utilFile, unitRefAes976] (withAes X) 0) "frodo_mul_add_as_plus_e"
      [.ptr 1 0 false 2, .ptr 2 0 false 2, .ptr 2 7808 false 2, .ptr 3 0 false 1] (m.set 3 (u8s (List.replicate 16 9))) 10 = .ub .overlap ∧
    unitRefAes976.run (link [utilFile, unitRefAes976] (withAes X) 0) "frodo_mul_add_sa_plus_e"
      [.ptr 1 0 false 2, .ptr 2 0 false 2, .ptr 2 7808 false 2, .ptr 3 0 false 1] (m.set 3 (u8s (List.replicate 16 9))) 10 = .ub .overlap :=
  ⟨C87_as .frodo976 X 0 _ 10 1 2 2 3 0 7808 0 _ (set_same ..) (by decide) (by decide),
    C87_sa .frodo976 X 0 _ 10 1 2 3 7808 0 _ (set_same ..) (by decide) (by decide)⟩

end Frodo.Props
