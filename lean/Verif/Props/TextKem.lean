import Verif.Props.Kem
import Verif.Props.Text
import Verif.Proof.SelfTest
import Verif.Proof.TextKeypair
import Verif.Proof.TextEnc
import Verif.Proof.TextDec
import Verif.Proof.TextOptSa
import Verif.Text.KemUnits
import Verif.Text.UnitFast640
import Verif.Text.UnitFast976
import Verif.Text.UnitFast1344

/-! # Properties of the source text of the KEM

The text of /repo/src/kem.c, /repo/src/noise.c, /repo/src/util.c and /repo/src/frodo_macrify_reference.c or
/repo/src/frodo_macrify.c, linked with each other, for the reference implementation and for the optimised implementation without
intrinsics, both with SHAKE128.  What the program calls outside of these files is `shake128`, `shake256`
(`Sponge`) and `randombytes` (`Rand`). -/

namespace Frodo.Props

open Spec Src

/-- The parsed file of a parameter set (reference implementation or optimised one, A from SHAKE128), its parameters, the specified KEM that
belongs to them, and the end of the names of its functions. -/
inductive KemText : File → Params → KemParams → String → Prop where
  | frodo640 : KemText unit640 frodo640 (Frodo640 .shake) "Frodo640"
  | frodo976 : KemText unit976 frodo976 (Frodo976 .shake) "Frodo976"
  | frodo1344 : KemText unit1344 frodo1344 (Frodo1344 .shake) "Frodo1344"
  | fast640 : KemText unitFast640 frodo640 (Frodo640 .shake) "Frodo640"
  | fast976 : KemText unitFast976 frodo976 (Frodo976 .shake) "Frodo976"
  | fast1344 : KemText unitFast1344 frodo1344 (Frodo1344 .shake) "Frodo1344"

namespace KemText

variable {G : File} {P : Params} {K : KemParams} {nm : String}

theorem standard (h : KemText G P K nm) : Standard P .shake K := by cases h <;> constructor

theorem unit (h : KemText G P K nm) : G.IsUnit P := by
  cases h
  · exact unit640_isUnit
  · exact unit976_isUnit
  · exact unit1344_isUnit
  · exact unitFast640_isUnit
  · exact unitFast976_isUnit
  · exact unitFast1344_isUnit

theorem kem (h : KemText G P K nm) : G.IsKem P nm := by
  cases h
  · exact unit640_isKem
  · exact unit976_isKem
  · exact unit1344_isKem
  · exact unitFast640_isKem
  · exact unitFast976_isKem
  · exact unitFast1344_isKem

/-- Which implementation of the products with A the file has. -/
theorem impl (h : KemText G P K nm) : ∃ i : Impl, i = .reference ∧ G.IsRef P ∨ i = .generic ∧ G.IsOpt P := by
  cases h
  · exact ⟨_, .inl ⟨rfl, unit640_isRef⟩⟩
  · exact ⟨_, .inl ⟨rfl, unit976_isRef⟩⟩
  · exact ⟨_, .inl ⟨rfl, unit1344_isRef⟩⟩
  · exact ⟨_, .inr ⟨rfl, unitFast640_isOpt⟩⟩
  · exact ⟨_, .inr ⟨rfl, unitFast976_isOpt⟩⟩
  · exact ⟨_, .inr ⟨rfl, unitFast1344_isOpt⟩⟩

theorem leaves (h : KemText G P K nm) : G.Leaves := by
  cases h
  · exact unit640_leaves
  · exact unit976_leaves
  · exact unit1344_leaves
  · exact unitFast640_leaves
  · exact unitFast976_leaves
  · exact unitFast1344_leaves

theorem small (h : KemText G P K nm) : P.Small := by cases h <;> constructor <;> decide

theorem cdf (h : KemText G P K nm) : 0 < P.cdf.length ∧ P.cdf.length < 2 ^ 16 := by cases h <;> decide

end KemText

theorem shake128_junk {J J' : Junk} (h1 : J 1 = J' 1) (h2 : J 2 = J' 2) : shake128 J = shake128 J' := by
  funext a b c d
  unfold shake128 keccak_absorb uninit
  rw [h1, h2]

theorem shake256_junk {J J' : Junk} (h1 : J 1 = J' 1) (h2 : J 2 = J' 2) (h3 : J 3 = J' 3) : shake256 J = shake256 J' := by
  funext a b c d
  unfold shake256 keccak_absorb uninit
  rw [h1, h2, h3]

theorem SpongeAt.junk {X : Ctx} {J J' : Junk} {bq : Nat} {xk : Blk} (h : SpongeAt X J bq xk) (h1 : J 1 = J' 1) (h2 : J 2 = J' 2)
    (h3 : J 3 = J' 3) : SpongeAt X J' bq xk := by
  refine ⟨?_, ?_⟩
  · rw [← shake128_junk h1 h2]; exact h.s128
  · rw [← shake256_junk h1 h2 h3]; exact h.s256

/-- The environment of the model that has the uninitialised arrays of the text. -/
def textEnv (X : Ctx) (J : Junk) (se : String) : Env where
  junk t i :=
    if t = 31 then (BitVec.ofInt 8 (X.junk "seed_A_separated" i)).toNat
    else if t = 36 then (BitVec.ofInt 16 (X.junk "sp" i)).toNat
    else if t = 40 then (BitVec.ofInt 8 (X.junk se i)).toNat
    else if t = 41 then (BitVec.ofInt 8 (X.junk "randomness" i)).toNat
    else if t = 42 then (BitVec.ofInt 8 (X.junk "G2in" i)).toNat
    else if t = 43 then (BitVec.ofInt 8 (X.junk "G2out" i)).toNat
    else if t = 44 then (BitVec.ofInt 8 (X.junk "Fin" i)).toNat
    else if t = 45 then (BitVec.ofInt 16 (X.junk "S" i)).toNat
    else J t i
  addr _ := 0
  ossl := .ok

/-- An implementation on a little-endian machine, A from SHAKE128. -/
def textBuild (i : Impl) : Build := ⟨.le, i, .c, .shake⟩

section

variable {G : File} {P : Params} {K : KemParams} {nm : String} {X : Ctx} {J : Junk} {rb : RandomBytes} {m : Mem} {bc bq : Nat} {xk : Blk}

theorem textEnv_calls (hT : KemText G P K nm) {i : Impl} (hi : i = .reference ∧ G.IsRef P ∨ i = .generic ∧ G.IsOpt P) (ha : X.arch = .le)
    (hS : SpongeAt X J bq xk) (hR : Rand X rb) (se : String) (d : Nat)
    (h1 : X.glob "CDF_TABLE" = some (.ptr bc 0 false 2)) (h2 : X.glob "CDF_TABLE_LEN" = some (.int false 2 P.cdf.length)) :
    Calls (link [utilFile, G] X (d + 1)) (textBuild i) (textEnv X J se) P rb bc bq xk := by
  refine calls hT.unit hT.standard.wf ha h1 h2 hT.cdf.1 hT.cdf.2 ?_
  have j1 : JunkAt (textEnv X J se) X 31 8 "seed_A_separated" := fun i => BitVec.ofNat_toNat ..
  have j2 : JunkAt (textEnv X J se) X 36 16 "sp" := fun i => BitVec.ofNat_toNat ..
  have hS' := SpongeAt.junk (J' := (textEnv X J se).junk) hS rfl rfl rfl
  rcases hi with ⟨rfl, hi⟩ | ⟨rfl, hi⟩
  · exact others hi hT.leaves hT.small rfl rfl rfl ha j1 hS' hR
  · exact othersOpt hi hT.leaves hT.small rfl rfl rfl ha j1 j2 hS' hR

theorem textEnv_junk {se : String} {d t w : Nat} {x : String}
    (h : ∀ i, (textEnv X J se).junk t i = (BitVec.ofInt w (X.junk x i)).toNat) :
    JunkAt (textEnv X J se) (link [utilFile, G] X d) t w x := by
  intro i
  rw [h, link_junk, BitVec.ofNat_toNat, BitVec.setWidth_eq]

theorem loaded_cdf (hT : KemText G P K nm) (h : G.Loaded X m) : ∃ bc, X.glob "CDF_TABLE" = some (.ptr bc 0 false 2) ∧
    X.glob "CDF_TABLE_LEN" = some (.int false 2 P.cdf.length) ∧ m bc = u16s P.cdf := by
  obtain ⟨bc, hc, hm⟩ := h _ _ hT.unit.cdf
  obtain ⟨e, he, hL⟩ := h _ _ hT.unit.cdfLen
  cases he
  refine ⟨bc, hc, hL, ?_⟩
  rw [hm, List.map_map]
  rfl

theorem text_aligned {E : Env} {i : Impl} (h : ∀ o, E.addr o = 0) (hi : i ≠ .avx2) : (textBuild i).alignedGen E :=
  ⟨nofun, fun h' => absurd h' hi, fun _ _ _ => by rw [h]⟩

end

/-- `crypto_kem_keypair`, given what the functions that it calls do. -/
theorem keypair_calls {G : File} {P : Params} {K : KemParams} {nm : String} {B : Build} {E : Env} {bc bq : Nat} {xk : Blk}
    (hK : G.IsKem P nm) (hS' : Standard P B.gen K) (hsm : P.Small) (hB : B.arch = .le) (hA : B.alignedGen E)
    (h0 : ∀ o, E.addr o = 0) (X : Ctx) (rb : RandomBytes) (hC : Calls X B E P rb bc bq xk)
    (j1 : JunkAt E X 41 8 "randomness") (j2 : JunkAt E X 40 8 "shake_input_seedSE") (s seedSE z : List U8)
    (hs : s.length = K.len) (hse : seedSE.length = K.len) (hz : z.length = K.lenA) (hrb : Fills rb (s ++ seedSE ++ z))
    (m : Mem) (next bp bs : Nat) (pk sk : List U8) (hp : m bp = u8s pk) (hk : m bs = u8s sk)
    (hlp : pk.length = P.pkBytes) (hls : sk.length = P.skBytes) (hb : bp < next) (hb' : bs < next) (ne : bp ≠ bs)
    (hmc : m bc = u16s P.cdf) (g1 : bc < next) (g2 : bc ≠ bp) (g3 : bc ≠ bs)
    (hq : m bq = xk) (q1 : bq < next) (q2 : bq ≠ bp) (q3 : bq ≠ bs) :
    Ret (G.run X ("crypto_kem_keypair_" ++ nm) [.ptr bp 0 false 1, .ptr bs 0 false 1] m next)
      fun x => x.1 = .int true 4 0 ∧ x.2.1 bp = u8s (keygen K s seedSE z).1 ∧ x.2.1 bs = u8s (keygen K s seedSE z).2 ∧
        (∀ b, b < next → b ≠ bp → b ≠ bs → x.2.1 b = m b) ∧
        x.2.1 (next + 1) = u16s (List.replicate (2 * P.n * P.nbar) 0) ∧
        x.2.1 (next + 2) = u8s (List.replicate (2 * P.bytes) 0 ++ z) ∧
        x.2.1 (next + 3) = u8s (List.replicate (1 + P.bytes) 0) := by
  have hv4 : (0 + 2 * (P.n * P.nbar)) % 4 = 0 := by
    have := hsm.n8
    have : P.n * P.nbar % 2 = 0 := by rw [Nat.mul_mod, show P.n % 2 = 0 by omega, Nat.zero_mul]
    omega
  have hW := hS'.wf
  have hl : K.len = P.bytes := by rw [← hS'.kem]; rfl
  have hlA : K.lenA = P.seedA := by rw [← hS'.kem]; rfl
  have hlR : (s ++ seedSE ++ z).length = 2 * P.bytes + P.seedA := by
    simp only [List.length_append]; omega
  have hr := hrb (uninit E.junk 41 8 (2 * P.bytes + P.seedA)) (by simp; omega)
  rw [hlR] at hr
  refine ret_refines (text_keypair hK hC hsm hB
    j1 j2 hp hk hmc hq hb hb' g1 q1 ne g2 g3 q2 q3 hlp (by rw [hls, hW.sk]))
    (crypto_kem_keypair_ret (R := s ++ seedSE ++ z) hW ⟨hA, fun _ => ⟨by rw [h0], by rw [h0]; exact hv4⟩⟩
      (by rw [← Nat.two_mul]; exact hr) hlR (by omega) (by omega)) ?_
  rintro o x ⟨h1, h2, h3, h4, h5, -⟩ ⟨k1, -, k3⟩
  have e1 : (s ++ seedSE ++ z).take P.bytes = s := by
    rw [List.append_assoc]; exact List.take_left' (by omega)
  have e2 : ((s ++ seedSE ++ z).drop P.bytes).take P.bytes = seedSE := by
    rw [List.append_assoc, List.drop_left' (by omega)]; exact List.take_left' (by omega)
  have e3 : (s ++ seedSE ++ z).drop (2 * P.bytes) = z :=
    List.drop_left' (by rw [List.length_append]; omega)
  rw [e1, e2, e3, hS'.kem] at h1 h2
  rw [List.drop_of_length_le (by omega), List.append_nil] at h1 h2
  rw [e3] at h4
  refine ⟨k1, ?_, ?_, fun b l1 l2 l3 => ?_, ?_, ?_, ?_⟩
  · rw [k3 bp (by omega), fr_arg hb, h1]; simp [out2, Mem.set, ne]
  · rw [k3 bs (by omega), fr_arg hb', h2]; simp [out2, Mem.set]
  · rw [k3 b (by omega), fr_arg l1]; simp [out2, Mem.set, l2, l3]
  · rw [k3 _ (by omega), fr_at (i := 1) (x := u16s o.S) rfl, h3]
  · rw [k3 _ (by omega), fr_at (i := 2) (x := u8s o.randomness) rfl, h4]
  · rw [k3 _ (by omega), fr_at (i := 3) (x := u8s o.shake_input_seedSE) rfl, h5]

/-- `crypto_kem_keypair`, with the table of `shake128` and `shake256` in a block of its own. -/
theorem keypair_text {G : File} {P : Params} {K : KemParams} {nm : String} (hT : KemText G P K nm) (X : Ctx) (J : Junk)
    (rb : RandomBytes) (d : Nat) (ha : X.arch = .le) (bq : Nat) (xk : Blk) (hS : SpongeAt X J bq xk) (hR : Rand X rb) (s seedSE z : List U8)
    (hs : s.length = K.len) (hse : seedSE.length = K.len) (hz : z.length = K.lenA) (hrb : Fills rb (s ++ seedSE ++ z))
    (m : Mem) (next bp bs : Nat) (pk sk : List U8) (hL : G.Loaded X m) (hp : m bp = u8s pk) (hk : m bs = u8s sk)
    (hlp : pk.length = P.pkBytes) (hls : sk.length = P.skBytes) (hb : bp < next) (hb' : bs < next) (ne : bp ≠ bs)
    (hg : ∀ b, X.glob "CDF_TABLE" = some (.ptr b 0 false 2) → b < next ∧ b ≠ bp ∧ b ≠ bs)
    (hq : m bq = xk) (q1 : bq < next) (q2 : bq ≠ bp) (q3 : bq ≠ bs) :
    Ret (G.run (link [utilFile, G] X (d + 1)) ("crypto_kem_keypair_" ++ nm) [.ptr bp 0 false 1, .ptr bs 0 false 1] m next)
      fun x => x.1 = .int true 4 0 ∧ x.2.1 bp = u8s (keygen K s seedSE z).1 ∧ x.2.1 bs = u8s (keygen K s seedSE z).2 ∧
        (∀ b, b < next → b ≠ bp → b ≠ bs → x.2.1 b = m b) ∧
        x.2.1 (next + 1) = u16s (List.replicate (2 * P.n * P.nbar) 0) ∧
        x.2.1 (next + 2) = u8s (List.replicate (2 * P.bytes) 0 ++ z) ∧
        x.2.1 (next + 3) = u8s (List.replicate (1 + P.bytes) 0) := by
  obtain ⟨bc, hc, hcl, hmc⟩ := loaded_cdf hT hL
  obtain ⟨g1, g2, g3⟩ := hg _ hc
  obtain ⟨i, hi⟩ := hT.impl
  have hv : i ≠ .avx2 := by rcases hi with ⟨rfl, -⟩ | ⟨rfl, -⟩ <;> decide
  exact keypair_calls (B := textBuild i) (E := textEnv X J "shake_input_seedSE") hT.kem hT.standard hT.small rfl (text_aligned (fun _ => rfl) hv)
    (fun _ => rfl) _ rb (textEnv_calls hT hi ha hS hR "shake_input_seedSE" d hc hcl) (textEnv_junk fun i => rfl) (textEnv_junk fun i => rfl)
    s seedSE z hs hse hz hrb m next bp bs pk sk hp hk hlp hls hb hb' ne hmc g1 g2 g3 hq q1 q2 q3

/-- C75, `crypto_kem_keypair`: the text returns 0, with the two keys of Algorithm 12 in the buffers for them, nothing else in
memory changed, and zeros in the arrays of the function that held secrets. -/
theorem C75_keypair {G : File} {P : Params} {K : KemParams} {nm : String} (hT : KemText G P K nm) (X : Ctx) (J : Junk)
    (rb : RandomBytes) (d : Nat) (ha : X.arch = .le) (hS : Sponge X J) (hR : Rand X rb) (s seedSE z : List U8)
    (hs : s.length = K.len) (hse : seedSE.length = K.len) (hz : z.length = K.lenA) (hrb : Fills rb (s ++ seedSE ++ z))
    (m : Mem) (next bp bs : Nat) (pk sk : List U8) (hL : G.Loaded X m) (hp : m bp = u8s pk) (hk : m bs = u8s sk)
    (hlp : pk.length = P.pkBytes) (hls : sk.length = P.skBytes) (hb : bp < next) (hb' : bs < next) (ne : bp ≠ bs)
    (hg : ∀ b, X.glob "CDF_TABLE" = some (.ptr b 0 false 2) → b < next ∧ b ≠ bp ∧ b ≠ bs) :
    Ret (G.run (link [utilFile, G] X (d + 1)) ("crypto_kem_keypair_" ++ nm) [.ptr bp 0 false 1, .ptr bs 0 false 1] m next)
      fun x => x.1 = .int true 4 0 ∧ x.2.1 bp = u8s (keygen K s seedSE z).1 ∧ x.2.1 bs = u8s (keygen K s seedSE z).2 ∧
        (∀ b, b < next → b ≠ bp → b ≠ bs → x.2.1 b = m b) ∧
        x.2.1 (next + 1) = u16s (List.replicate (2 * P.n * P.nbar) 0) ∧
        x.2.1 (next + 2) = u8s (List.replicate (2 * P.bytes) 0 ++ z) ∧
        x.2.1 (next + 3) = u8s (List.replicate (1 + P.bytes) 0) := by
  obtain ⟨bc, hc, -, hmc⟩ := loaded_cdf hT hL
  obtain ⟨g1, g2, g3⟩ := hg _ hc
  exact keypair_text hT X J rb d ha bc _ (hS.at bc _) hR s seedSE z hs hse hz hrb m next bp bs pk sk hL hp hk hlp hls hb hb' ne hg hmc g1 g2 g3

/-- `crypto_kem_enc`, given what the functions that it calls do. -/
theorem enc_calls {G : File} {P : Params} {K : KemParams} {nm : String} {B : Build} {E : Env} {bc bq : Nat} {xk : Blk}
    (hK : G.IsKem P nm) (hS' : Standard P B.gen K) (hsm : P.Small) (hgd : Good B) (hB : B.arch = .le) (hv : B.impl ≠ .avx2) (hA : B.alignedGen E)
    (h0 : ∀ o, E.addr o = 0) (X : Ctx) (rb : RandomBytes) (hC : Calls X B E P rb bc bq xk)
    (j1 : JunkAt E X 42 8 "G2in") (j2 : JunkAt E X 43 8 "G2out") (j3 : JunkAt E X 44 8 "Fin") (j4 : JunkAt E X 40 8 "shake_input_seedSE") (mu : List U8)
    (hmu : mu.length = K.len) (hrb : Fills rb mu)
    (m : Mem) (next bt bs bp : Nat) (ct ss pk : List U8) (ht : m bt = u8s ct) (hs : m bs = u8s ss)
    (hp : m bp = u8s pk) (hlt : ct.length = P.ctBytes) (hls : P.bytes ≤ ss.length) (hlp : pk.length = P.pkBytes) (hb : bt < next)
    (hb' : bs < next) (hb'' : bp < next) (ne : bt ≠ bs) (ne' : bp ≠ bt) (ne'' : bp ≠ bs)
    (hmc : m bc = u16s P.cdf) (g1 : bc < next) (g2 : bc ≠ bt) (g3 : bc ≠ bs)
    (hq : m bq = xk) (q1 : bq < next) (q2 : bq ≠ bt) (q3 : bq ≠ bs) :
    Ret (G.run X ("crypto_kem_enc_" ++ nm)
        [.ptr bt 0 false 1, .ptr bs 0 false 1, .ptr bp 0 false 1] m next)
      fun x => x.1 = .int true 4 0 ∧ x.2.1 bt = u8s (encaps K pk mu).1 ∧
        x.2.1 bs = u8s ((encaps K pk mu).2 ++ ss.drop P.bytes) ∧
        (∀ b, b < next → b ≠ bt → b ≠ bs → x.2.1 b = m b) ∧
        x.2.1 (next + 1) = u16s (List.replicate (P.nbar * P.nbar) 0) ∧
        x.2.1 (next + 4) = u16s (List.replicate (2 * (P.n * P.nbar) + P.nbar * P.nbar) 0) ∧
        x.2.1 (next + 5) = u8s (P.shake.fn pk P.bytes ++ List.replicate P.bytes 0) ∧
        x.2.1 (next + 6) = u8s (List.replicate (2 * P.bytes) 0) ∧
        x.2.1 (next + 7) = u8s ((encaps K pk mu).1 ++ List.replicate P.bytes 0) ∧
        x.2.1 (next + 8) = u8s (List.replicate (1 + P.bytes) 0) := by
  have hW := hS'.wf
  have hl : K.len = P.bytes := by rw [← hS'.kem]; rfl
  have hbm := hW.bytes
  have hr := hrb ((uninit E.junk 42 8 (P.bytes + P.bytesMu)).drop P.bytes) (by simp; omega)
  rw [show mu.length = P.bytesMu by omega] at hr
  refine ret_refines (text_enc hK hC hsm hB
    j1 j2 j3 j4
    ht hs hp hmc hq hb hb' hb'' g1 q1 ne ne' ne'' g2 g3 q2 q3 hlt hlp)
    (crypto_kem_enc_ret hW ⟨hA, fun h => absurd h hv⟩ (by
      rw [h0, Nat.zero_add]
      exact hsm.even) hr (by omega) (by omega) (by omega) hls) ?_
  rintro o x ⟨h1, h2, h3, h4, h5, h6, h7, h8, -⟩ ⟨k1, -, k3⟩
  rw [matA_kem hS' hgd, List.take_of_length_le (by omega)] at h1 h2 h7
  rw [List.take_of_length_le (by omega), ← hbm] at h5
  rw [List.drop_of_length_le (by omega), List.append_nil] at h1
  refine ⟨k1, ?_, ?_, fun b l1 l2 l3 => ?_, ?_, ?_, ?_, ?_, ?_, ?_⟩
  · rw [k3 bt (by omega), fr_arg hb, h1]; simp [out2, Mem.set, ne]
  · rw [k3 bs (by omega), fr_arg hb', h2]; simp [out2, Mem.set]
  · rw [k3 b (by omega), fr_arg l1]; simp [out2, Mem.set, l2, l3]
  · rw [k3 _ (by omega), fr_at (i := 1) (x := u16s o.V) rfl, h3]
  · rw [k3 _ (by omega), fr_at (i := 4) (x := u16s o.Sp) rfl, h4]
  · rw [k3 _ (by omega), fr_at (i := 5) (x := u8s o.G2in) rfl, h5]
  · rw [k3 _ (by omega), fr_at (i := 6) (x := u8s o.G2out) rfl, h6]
  · rw [k3 _ (by omega), fr_at (i := 7) (x := u8s o.Fin) rfl, h7]
  · rw [k3 _ (by omega), fr_at (i := 8) (x := u8s o.shake_input_seedSE) rfl, h8]

/-- `crypto_kem_enc`, with the table of `shake128` and `shake256` in a block of its own. -/
theorem enc_text {G : File} {P : Params} {K : KemParams} {nm : String} (hT : KemText G P K nm) (X : Ctx) (J : Junk)
    (rb : RandomBytes) (d : Nat) (ha : X.arch = .le) (bq : Nat) (xk : Blk) (hS : SpongeAt X J bq xk) (hR : Rand X rb) (mu : List U8)
    (hmu : mu.length = K.len) (hrb : Fills rb mu)
    (m : Mem) (next bt bs bp : Nat) (ct ss pk : List U8) (hL : G.Loaded X m) (ht : m bt = u8s ct) (hs : m bs = u8s ss)
    (hp : m bp = u8s pk) (hlt : ct.length = P.ctBytes) (hls : P.bytes ≤ ss.length) (hlp : pk.length = P.pkBytes) (hb : bt < next)
    (hb' : bs < next) (hb'' : bp < next) (ne : bt ≠ bs) (ne' : bp ≠ bt) (ne'' : bp ≠ bs)
    (hg : ∀ b, X.glob "CDF_TABLE" = some (.ptr b 0 false 2) → b < next ∧ b ≠ bt ∧ b ≠ bs)
    (hq : m bq = xk) (q1 : bq < next) (q2 : bq ≠ bt) (q3 : bq ≠ bs) :
    Ret (G.run (link [utilFile, G] X (d + 1)) ("crypto_kem_enc_" ++ nm)
        [.ptr bt 0 false 1, .ptr bs 0 false 1, .ptr bp 0 false 1] m next)
      fun x => x.1 = .int true 4 0 ∧ x.2.1 bt = u8s (encaps K pk mu).1 ∧
        x.2.1 bs = u8s ((encaps K pk mu).2 ++ ss.drop P.bytes) ∧
        (∀ b, b < next → b ≠ bt → b ≠ bs → x.2.1 b = m b) ∧
        x.2.1 (next + 1) = u16s (List.replicate (P.nbar * P.nbar) 0) ∧
        x.2.1 (next + 4) = u16s (List.replicate (2 * (P.n * P.nbar) + P.nbar * P.nbar) 0) ∧
        x.2.1 (next + 5) = u8s (P.shake.fn pk P.bytes ++ List.replicate P.bytes 0) ∧
        x.2.1 (next + 6) = u8s (List.replicate (2 * P.bytes) 0) ∧
        x.2.1 (next + 7) = u8s ((encaps K pk mu).1 ++ List.replicate P.bytes 0) ∧
        x.2.1 (next + 8) = u8s (List.replicate (1 + P.bytes) 0) := by
  obtain ⟨bc, hc, hcl, hmc⟩ := loaded_cdf hT hL
  obtain ⟨g1, g2, g3⟩ := hg _ hc
  obtain ⟨i, hi⟩ := hT.impl
  have hv : i ≠ .avx2 := by rcases hi with ⟨rfl, -⟩ | ⟨rfl, -⟩ <;> decide
  exact enc_calls (B := textBuild i) (E := textEnv X J "shake_input_seedSE") hT.kem hT.standard hT.small (.inr rfl) rfl hv (text_aligned (fun _ => rfl) hv)
    (fun _ => rfl) _ rb (textEnv_calls hT hi ha hS hR "shake_input_seedSE" d hc hcl)
    (textEnv_junk fun i => rfl) (textEnv_junk fun i => rfl) (textEnv_junk fun i => rfl) (textEnv_junk fun i => rfl)
    mu hmu hrb m next bt bs bp ct ss pk ht hs hp hlt hls hlp hb hb' hb'' ne ne' ne'' hmc g1 g2 g3 hq q1 q2 q3

/-- C75, `crypto_kem_enc`: the text returns 0, with the ciphertext and the shared secret of Algorithm 13 for any public key, nothing
else in memory changed, and zeros in the arrays of the function that held secrets. -/
theorem C75_enc {G : File} {P : Params} {K : KemParams} {nm : String} (hT : KemText G P K nm) (X : Ctx) (J : Junk)
    (rb : RandomBytes) (d : Nat) (ha : X.arch = .le) (hS : Sponge X J) (hR : Rand X rb) (mu : List U8)
    (hmu : mu.length = K.len) (hrb : Fills rb mu)
    (m : Mem) (next bt bs bp : Nat) (ct ss pk : List U8) (hL : G.Loaded X m) (ht : m bt = u8s ct) (hs : m bs = u8s ss)
    (hp : m bp = u8s pk) (hlt : ct.length = P.ctBytes) (hls : P.bytes ≤ ss.length) (hlp : pk.length = P.pkBytes) (hb : bt < next)
    (hb' : bs < next) (hb'' : bp < next) (ne : bt ≠ bs) (ne' : bp ≠ bt) (ne'' : bp ≠ bs)
    (hg : ∀ b, X.glob "CDF_TABLE" = some (.ptr b 0 false 2) → b < next ∧ b ≠ bt ∧ b ≠ bs) :
    Ret (G.run (link [utilFile, G] X (d + 1)) ("crypto_kem_enc_" ++ nm)
        [.ptr bt 0 false 1, .ptr bs 0 false 1, .ptr bp 0 false 1] m next)
      fun x => x.1 = .int true 4 0 ∧ x.2.1 bt = u8s (encaps K pk mu).1 ∧
        x.2.1 bs = u8s ((encaps K pk mu).2 ++ ss.drop P.bytes) ∧
        (∀ b, b < next → b ≠ bt → b ≠ bs → x.2.1 b = m b) ∧
        x.2.1 (next + 1) = u16s (List.replicate (P.nbar * P.nbar) 0) ∧
        x.2.1 (next + 4) = u16s (List.replicate (2 * (P.n * P.nbar) + P.nbar * P.nbar) 0) ∧
        x.2.1 (next + 5) = u8s (P.shake.fn pk P.bytes ++ List.replicate P.bytes 0) ∧
        x.2.1 (next + 6) = u8s (List.replicate (2 * P.bytes) 0) ∧
        x.2.1 (next + 7) = u8s ((encaps K pk mu).1 ++ List.replicate P.bytes 0) ∧
        x.2.1 (next + 8) = u8s (List.replicate (1 + P.bytes) 0) := by
  obtain ⟨bc, hc, -, hmc⟩ := loaded_cdf hT hL
  obtain ⟨g1, g2, g3⟩ := hg _ hc
  exact enc_text hT X J rb d ha bc _ (hS.at bc _) hR mu hmu hrb m next bt bs bp ct ss pk hL ht hs hp hlt hls hlp hb hb' hb'' ne ne' ne'' hg hmc g1 g2 g3

/-- `crypto_kem_dec`, given what the functions that it calls do. -/
theorem dec_calls {G : File} {P : Params} {K : KemParams} {nm : String} {B : Build} {E : Env} {bc bq : Nat} {xk : Blk}
    (hK : G.IsKem P nm) (hS' : Standard P B.gen K) (hsm : P.Small) (hgd : Good B) (hB : B.arch = .le) (hv : B.impl ≠ .avx2) (hA : B.alignedGen E)
    (h0 : ∀ o, E.addr o = 0) (X : Ctx) (rb : RandomBytes) (hC : Calls X B E P rb bc bq xk) (ha : X.arch = .le)
    (j1 : JunkAt E X 42 8 "G2in") (j2 : JunkAt E X 43 8 "G2out") (j3 : JunkAt E X 44 8 "Fin")
    (j4 : JunkAt E X 40 8 "shake_input_seedSEprime") (j5 : JunkAt E X 45 16 "S")
    (m : Mem) (next bs bt bk : Nat) (ss ct sk : List U8) (hs : m bs = u8s ss) (ht : m bt = u8s ct)
    (hk : m bk = u8s sk) (hls : P.bytes ≤ ss.length) (hlt : ct.length = P.ctBytes) (hlk : sk.length = P.skBytes) (hb : bs < next)
    (hb' : bt < next) (hb'' : bk < next) (ne : bt ≠ bs) (ne' : bk ≠ bt) (ne'' : bk ≠ bs)
    (hmc : m bc = u16s P.cdf) (g1 : bc < next) (g2 : bc ≠ bt) (g3 : bc ≠ bs)
    (hq : m bq = xk) (q1 : bq < next) (q2 : bq ≠ bt) (q3 : bq ≠ bs) :
    Ret (G.run X ("crypto_kem_dec_" ++ nm)
        [.ptr bs 0 false 1, .ptr bt 0 false 1, .ptr bk 0 false 1] m next)
      fun x => x.1 = .int true 4 0 ∧ x.2.1 bs = u8s (decaps K ct sk ++ ss.drop P.bytes) ∧
        (∀ b, b < next → b ≠ bs → x.2.1 b = m b) ∧
        x.2.1 (next + 2) = u16s (List.replicate (P.nbar * P.nbar) 0) ∧
        x.2.1 (next + 6) = u16s (List.replicate (2 * (P.n * P.nbar) + P.nbar * P.nbar) 0) ∧
        x.2.1 (next + 7) = u16s (List.replicate (P.n * P.nbar) 0) ∧
        x.2.1 (next + 8) = u8s ((sk.drop (P.bytes + P.pkBytes + 2 * P.n * P.nbar)).take P.bytes ++ List.replicate P.bytes 0) ∧
        x.2.1 (next + 9) = u8s (List.replicate (2 * P.bytes) 0) ∧
        x.2.1 (next + 10) = u8s (ct ++ List.replicate P.bytes 0) ∧
        x.2.1 (next + 11) = u8s (List.replicate (1 + P.bytes) 0) := by
  have hW := hS'.wf
  have hbm := hW.bytes
  have hev : (P.bytes + P.pkBytes) % 2 = 0 := by cases hS' <;> rfl
  refine ret_refines (text_dec (skAddr := 0) hK hC hsm
    ha hB
    j1 j2 j3 j4
    j5 hs ht hk hmc hq hb hb' hb'' g1 q1 ne ne' ne'' g2 g3 q2 q3 hlt (by rw [hlk, hW.sk]))
    (crypto_kem_dec_ret hW ⟨hA, fun h => absurd h hv⟩ (by
      rw [h0, Nat.zero_add]
      exact hsm.even) (by rwa [Nat.zero_add]) hls (by omega) (by omega)) ?_
  rintro o x ⟨h1, h2, h3, h4, h5, h6, h7, h8, -⟩ ⟨k1, -, k3⟩
  rw [matA_kem hS' hgd, List.take_of_length_le (by omega), List.take_of_length_le (by omega)] at h1
  rw [← hbm] at h5
  rw [List.take_of_length_le (by omega)] at h7
  refine ⟨k1, ?_, fun b l1 l2 => ?_, ?_, ?_, ?_, ?_, ?_, ?_, ?_⟩
  · rw [k3 bs (by omega), fr_arg hb, h1]; simp [out2, Mem.set]
  · rw [k3 b (by omega), fr_arg l1]
    by_cases l3 : b = bt
    · subst l3; simp [out2, Mem.set, l2, ht]
    · simp [out2, Mem.set, l2, l3]
  · rw [k3 _ (by omega), fr_at (i := 2) (x := u16s o.W) rfl, h2]
  · rw [k3 _ (by omega), fr_at (i := 6) (x := u16s o.Sp) rfl, h3]
  · rw [k3 _ (by omega), fr_at (i := 7) (x := u16s o.S) rfl, h4]
  · rw [k3 _ (by omega), fr_at (i := 8) (x := u8s o.G2in) rfl, h5]
  · rw [k3 _ (by omega), fr_at (i := 9) (x := u8s o.G2out) rfl, h6]
  · rw [k3 _ (by omega), fr_at (i := 10) (x := u8s o.Fin) rfl, h7]
  · rw [k3 _ (by omega), fr_at (i := 11) (x := u8s o.shake_input_seedSEprime) rfl, h8]

/-- `crypto_kem_dec`, with the table of `shake128` and `shake256` in a block of its own. -/
theorem dec_text {G : File} {P : Params} {K : KemParams} {nm : String} (hT : KemText G P K nm) (X : Ctx) (J : Junk)
    (rb : RandomBytes) (d : Nat) (ha : X.arch = .le) (bq : Nat) (xk : Blk) (hS : SpongeAt X J bq xk) (hR : Rand X rb)
    (m : Mem) (next bs bt bk : Nat) (ss ct sk : List U8) (hL : G.Loaded X m) (hs : m bs = u8s ss) (ht : m bt = u8s ct)
    (hk : m bk = u8s sk) (hls : P.bytes ≤ ss.length) (hlt : ct.length = P.ctBytes) (hlk : sk.length = P.skBytes) (hb : bs < next)
    (hb' : bt < next) (hb'' : bk < next) (ne : bt ≠ bs) (ne' : bk ≠ bt) (ne'' : bk ≠ bs)
    (hg : ∀ b, X.glob "CDF_TABLE" = some (.ptr b 0 false 2) → b < next ∧ b ≠ bt ∧ b ≠ bs)
    (hq : m bq = xk) (q1 : bq < next) (q2 : bq ≠ bt) (q3 : bq ≠ bs) :
    Ret (G.run (link [utilFile, G] X (d + 1)) ("crypto_kem_dec_" ++ nm)
        [.ptr bs 0 false 1, .ptr bt 0 false 1, .ptr bk 0 false 1] m next)
      fun x => x.1 = .int true 4 0 ∧ x.2.1 bs = u8s (decaps K ct sk ++ ss.drop P.bytes) ∧
        (∀ b, b < next → b ≠ bs → x.2.1 b = m b) ∧
        x.2.1 (next + 2) = u16s (List.replicate (P.nbar * P.nbar) 0) ∧
        x.2.1 (next + 6) = u16s (List.replicate (2 * (P.n * P.nbar) + P.nbar * P.nbar) 0) ∧
        x.2.1 (next + 7) = u16s (List.replicate (P.n * P.nbar) 0) ∧
        x.2.1 (next + 8) = u8s ((sk.drop (P.bytes + P.pkBytes + 2 * P.n * P.nbar)).take P.bytes ++ List.replicate P.bytes 0) ∧
        x.2.1 (next + 9) = u8s (List.replicate (2 * P.bytes) 0) ∧
        x.2.1 (next + 10) = u8s (ct ++ List.replicate P.bytes 0) ∧
        x.2.1 (next + 11) = u8s (List.replicate (1 + P.bytes) 0) := by
  obtain ⟨bc, hc, hcl, hmc⟩ := loaded_cdf hT hL
  obtain ⟨g1, g2, g3⟩ := hg _ hc
  obtain ⟨i, hi⟩ := hT.impl
  have hv : i ≠ .avx2 := by rcases hi with ⟨rfl, -⟩ | ⟨rfl, -⟩ <;> decide
  exact dec_calls (B := textBuild i) (E := textEnv X J "shake_input_seedSEprime") hT.kem hT.standard hT.small (.inr rfl) rfl hv (text_aligned (fun _ => rfl) hv)
    (fun _ => rfl) _ rb (textEnv_calls hT hi ha hS hR "shake_input_seedSEprime" d hc hcl) (by rw [link_arch, ha])
    (textEnv_junk fun i => rfl) (textEnv_junk fun i => rfl) (textEnv_junk fun i => rfl) (textEnv_junk fun i => rfl) (textEnv_junk fun i => rfl)
    m next bs bt bk ss ct sk hs ht hk hls hlt hlk hb hb' hb'' ne ne' ne'' hmc g1 g2 g3 hq q1 q2 q3

/-- C75, `crypto_kem_dec`: the text returns 0, with the shared secret of Algorithm 14 for any ciphertext and any secret key, nothing
else in memory changed, and zeros in the arrays of the function that held secrets. -/
theorem C75_dec {G : File} {P : Params} {K : KemParams} {nm : String} (hT : KemText G P K nm) (X : Ctx) (J : Junk)
    (rb : RandomBytes) (d : Nat) (ha : X.arch = .le) (hS : Sponge X J) (hR : Rand X rb)
    (m : Mem) (next bs bt bk : Nat) (ss ct sk : List U8) (hL : G.Loaded X m) (hs : m bs = u8s ss) (ht : m bt = u8s ct)
    (hk : m bk = u8s sk) (hls : P.bytes ≤ ss.length) (hlt : ct.length = P.ctBytes) (hlk : sk.length = P.skBytes) (hb : bs < next)
    (hb' : bt < next) (hb'' : bk < next) (ne : bt ≠ bs) (ne' : bk ≠ bt) (ne'' : bk ≠ bs)
    (hg : ∀ b, X.glob "CDF_TABLE" = some (.ptr b 0 false 2) → b < next ∧ b ≠ bt ∧ b ≠ bs) :
    Ret (G.run (link [utilFile, G] X (d + 1)) ("crypto_kem_dec_" ++ nm)
        [.ptr bs 0 false 1, .ptr bt 0 false 1, .ptr bk 0 false 1] m next)
      fun x => x.1 = .int true 4 0 ∧ x.2.1 bs = u8s (decaps K ct sk ++ ss.drop P.bytes) ∧
        (∀ b, b < next → b ≠ bs → x.2.1 b = m b) ∧
        x.2.1 (next + 2) = u16s (List.replicate (P.nbar * P.nbar) 0) ∧
        x.2.1 (next + 6) = u16s (List.replicate (2 * (P.n * P.nbar) + P.nbar * P.nbar) 0) ∧
        x.2.1 (next + 7) = u16s (List.replicate (P.n * P.nbar) 0) ∧
        x.2.1 (next + 8) = u8s ((sk.drop (P.bytes + P.pkBytes + 2 * P.n * P.nbar)).take P.bytes ++ List.replicate P.bytes 0) ∧
        x.2.1 (next + 9) = u8s (List.replicate (2 * P.bytes) 0) ∧
        x.2.1 (next + 10) = u8s (ct ++ List.replicate P.bytes 0) ∧
        x.2.1 (next + 11) = u8s (List.replicate (1 + P.bytes) 0) := by
  obtain ⟨bc, hc, -, hmc⟩ := loaded_cdf hT hL
  obtain ⟨g1, g2, g3⟩ := hg _ hc
  exact dec_text hT X J rb d ha bc _ (hS.at bc _) hR m next bs bt bk ss ct sk hL hs ht hk hls hlt hlk hb hb' hb'' ne ne' ne'' hg hmc g1 g2 g3

/-! ## Concrete cases -/

/-- The bytes of a block. -/
def demoBytes (b : Blk) : List U8 := if b.n = 2 then toBytes .le (b.data.map fun v => BitVec.ofInt 16 v) else b.data.map fun v => BitVec.ofInt 8 v

/-- A block of the same type with given bytes. -/
def demoPut (b : Blk) (l : List U8) : Blk := if b.n = 2 then (if b.s then s16s (ofBytes .le l) else u16s (ofBytes .le l)) else u8s l

theorem demoBytes_blk (v : View) (L : List U8) (h : L.length % 2 = 0 ∨ v = .u8) : demoBytes (v.blk L) = L := by
  cases v with
  | u8 => simp [demoBytes, View.blk, u8s, ofU8, Function.comp_def]
  | u16 =>
    have := h.resolve_right nofun
    simp only [demoBytes, View.blk, u16s, ofU16, ↓reduceIte, List.map_map, Function.comp_def, BitVec.ofInt_natCast,
      BitVec.ofNat_toNat, BitVec.setWidth_eq, List.map_id']
    exact toBytes_ofBytes .le (L.length / 2) L (by omega)
  | s16 =>
    have := h.resolve_right nofun
    have e : ∀ x : U16, BitVec.ofInt 16 (i16 (x.toNat : Int)) = x := fun x => by
      rw [i16, BitVec.ofInt_toInt, BitVec.ofInt_natCast, BitVec.ofNat_toNat, BitVec.setWidth_eq]
    simp only [demoBytes, View.blk, s16s, ofS16, ↓reduceIte, List.map_map, Function.comp_def, e, List.map_id']
    exact toBytes_ofBytes .le (L.length / 2) L (by omega)

theorem demoPut_blk (v : View) (L l : List U8) : demoPut (v.blk L) l = v.blk l := by cases v <;> rfl

/-- Functions outside of the files that do what is assumed. -/
def demoCall (J : Junk) (rb : RandomBytes) (f : String) (args : List Val) (m : Mem) (next : Nat) : C (Val × Mem × Nat) :=
  match args with
  | [.ptr bo ko _ _, .int _ _ outlen, .ptr bi ki _ _, .int _ _ inlen] => do
    let sh := if f = "shake128" then shake128 else shake256
    let r ← sh J ((demoBytes (m bo)).drop ko) outlen.toNat ((demoBytes (m bi)).drop ki) inlen.toNat
    pure (.undef .void, m.set bo (demoPut (m bo) ((demoBytes (m bo)).take ko ++ r)), next)
  | [.ptr bo ko _ _, .int _ _ len] => do
    let r ← rb ((demoBytes (m bo)).drop ko) len.toNat
    pure (.int true 4 r.2, m.set bo (demoPut (m bo) ((demoBytes (m bo)).take ko ++ r.1)), next)
  | _ => C.ub .oobRead

/-- A program with the table of the distribution in block 0, and these functions. -/
def demoKem (P : Params) (J : Junk) (rb : RandomBytes) : Ctx :=
  ⟨.le, fun x => if x = "CDF_TABLE" then some (.ptr 0 0 false 2) else if x = "CDF_TABLE_LEN" then
    some (.int false 2 P.cdf.length) else none, fun _ i => i, demoCall J rb⟩

theorem demo_step {mo : C α} {N nx b : Nat} {M F : Mem} {w : α → Val} {y : α → Blk} (hN : N ≤ nx) (hM : MAgree N M F) :
    Refines False mo (mo >>= fun r => pure (w r, M.set b (y r), nx))
      fun a x => x.1 = w a ∧ N ≤ x.2.2 ∧ MAgree N x.2.1 (F.set b (y a)) := by
  intro a t e
  subst e
  exact ⟨_, _, rfl, ⟨rfl, hN, hM.set _ _⟩, nofun⟩

theorem demo_sponge (P : Params) (J : Junk) (rb : RandomBytes) : Sponge (demoKem P J rb) J := by
  constructor <;>
  · intro N F bo ko bi ki s n s' n' v L I outlen inlen h1 h2 h3 h4 h5 h6 h7 h8 h9 h10 M nx hN hM
    simp only [demoKem, demoCall, hM bo h4, hM bi h5, h1, h3, demoBytes_blk v L h2, demoPut_blk,
      show demoBytes (u8s I) = I from demoBytes_blk .u8 I (.inr rfl), Int.toNat_natCast]
    exact demo_step hN hM

theorem demo_rand (P : Params) (J : Junk) (rb : RandomBytes) : Rand (demoKem P J rb) rb := by
  intro N F bo ko s n L len h1 h2 h3 h4 M nx hN hM
  simp only [demoKem, demoCall, hM bo h2, h1, show demoBytes (u8s L) = L from demoBytes_blk .u8 L (.inr rfl),
    show ∀ l, demoPut (u8s L) l = u8s l from demoPut_blk .u8 L, Int.toNat_natCast]
  exact demo_step hN hM

theorem demo_loaded (J : Junk) (rb : RandomBytes) (m : Mem) (h : m 0 = u16s frodo640.cdf) :
    unit640.Loaded (demoKem frodo640 J rb) m := by
  have h0 : unit640.globals.map (·.name) = ["CDF_TABLE", "CDF_TABLE_LEN"] := by kernel_rfl
  intro x g hg
  have hx : x = "CDF_TABLE" ∨ x = "CDF_TABLE_LEN" := by
    have h1 := List.find?_some hg
    have h2 : g.name ∈ unit640.globals.map (·.name) := List.mem_map_of_mem (List.mem_of_find?_eq_some hg)
    rw [h0] at h2
    have h3 : g.name = x := by simpa using h1
    rw [← h3]
    simpa using h2
  rcases hx with rfl | rfl
  · rw [unit640_isUnit.cdf] at hg
    cases hg
    exact ⟨0, rfl, by rw [h, List.map_map]; rfl⟩
  · rw [unit640_isUnit.cdfLen] at hg
    cases hg
    exact ⟨_, rfl, rfl⟩

/-- Key generation with the parameters of FrodoKEM-640, for random bytes 0, 1, …, 47, into blocks 1 and 2. -/
example : Ret (unit640.run (link [utilFile, unit640] (demoKem frodo640 (fun _ _ => 0xA5)
      (rbConst ((List.range 48).map (BitVec.ofNat 8)))) 1)
      "crypto_kem_keypair_Frodo640" [.ptr 1 0 false 1, .ptr 2 0 false 1]
      (fun b => if b = 0 then u16s frodo640.cdf else if b = 1 then u8s (List.replicate 9616 0) else u8s (List.replicate 19888 0)) 3)
    fun x => x.1 = .int true 4 0 ∧
      x.2.1 1 = u8s (keygen (Frodo640 .shake) ((List.range 16).map (BitVec.ofNat 8))
        ((List.range' 16 16).map (BitVec.ofNat 8)) ((List.range' 32 16).map (BitVec.ofNat 8))).1 :=
  (C75_keypair .frodo640 _ _ _ 0 rfl (demo_sponge _ _ _) (demo_rand _ _ _) ((List.range 16).map (BitVec.ofNat 8))
    ((List.range' 16 16).map (BitVec.ofNat 8)) ((List.range' 32 16).map (BitVec.ofNat 8)) rfl rfl rfl (fills_const _)
    _ 3 1 2 (List.replicate 9616 0) (List.replicate 19888 0) (demo_loaded _ _ _ rfl) rfl rfl List.length_replicate
    List.length_replicate (by decide) (by decide) (by decide) (fun b h => by cases h; decide)).mono fun _ h => ⟨h.1, h.2.1⟩

/-- The hypotheses of `C75_enc` and `C75_dec`. -/
example (J : Junk) : ∃ (X : Ctx) (rb : RandomBytes) (m : Mem) (mu ct ss pk sk : List U8),
    X.arch = .le ∧ Sponge X J ∧ Rand X rb ∧ Fills rb mu ∧ mu.length = (Frodo640 .shake).len ∧ unit640.Loaded X m ∧
    m 1 = u8s ct ∧ m 2 = u8s ss ∧ m 3 = u8s pk ∧ m 4 = u8s sk ∧ ct.length = frodo640.ctBytes ∧ frodo640.bytes ≤ ss.length ∧
    pk.length = frodo640.pkBytes ∧ sk.length = frodo640.skBytes ∧
    ∀ b, X.glob "CDF_TABLE" = some (.ptr b 0 false 2) → b < 5 ∧ b ≠ 1 ∧ b ≠ 2 :=
  ⟨demoKem frodo640 J (rbConst (List.replicate 16 7)), rbConst (List.replicate 16 7),
    fun b => if b = 0 then u16s frodo640.cdf else if b = 1 then u8s (List.replicate 9720 1) else if b = 2 then
      u8s (List.replicate 16 2) else if b = 3 then u8s (List.replicate 9616 3) else u8s (List.replicate 19888 4),
    List.replicate 16 7, List.replicate 9720 1, List.replicate 16 2, List.replicate 9616 3, List.replicate 19888 4,
    rfl, demo_sponge _ _ _, demo_rand _ _ _, fills_const _, rfl, demo_loaded _ _ _ rfl, rfl, rfl, rfl, rfl, List.length_replicate,
    Nat.le_of_eq List.length_replicate.symm, List.length_replicate, List.length_replicate, fun b h => by cases h; decide⟩

end Frodo.Props
