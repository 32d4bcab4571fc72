import Verif.Props.Keccak
import Verif.Props.TextKem
import Verif.Proof.TextFips

/-! # Properties of the source text of SHAKE

The text of /repo/src/sha3/fips202.c, parsed and run; then linked with the text of the KEM, of which only `randombytes` is left
outside. -/

namespace Frodo.Props

open Spec Src

/-- C76.  The text of /repo/src/sha3/fips202.c parses. -/
theorem C76_parse : parseText [] fipsSources fipsText = some fipsFile := fips_parse

section

variable (X : Ctx) (d : Nat) (m : Mem) (next : Nat)

/-- C76, `KeccakF1600_StatePermute`: the text returns, with the permutation of FIPS 202 in the block of the state, and nothing else
changed. -/
theorem C76_permute (hL : fipsFile.Loaded X m) (b : Nat) (state : List U64) (hb : m b = u64s state) (hl : state.length = 25) :
    Ret (fipsFile.run X "KeccakF1600_StatePermute" [.ptr b 0 false 8] m next)
      fun x => ∃ s : List U64, x = (.undef .void, m.set b (u64s s), next) ∧ s.length = 25 ∧
        ∀ (x y : Fin 5) (z : Fin 64), (nth s (5 * y + x)).getLsbD z =
          keccakP (fun x y z => (nth state (5 * y + x)).getLsbD z) x y z := by
  obtain ⟨bk, h1, h2⟩ := loaded_table hL
  obtain ⟨r, t, t', e1, e2, e3⟩ := text_permute (X := X) (M := m) (nx := next) (b := b) (L := state) ⟨⟨bk, h1, h2⟩, hb, hl⟩
  obtain ⟨s, t1, e4, e5⟩ := C33_keccakf state hl
  rw [e1] at e4
  cases e4
  exact ⟨_, t', e3, r, rfl, e5⟩

/-- C76, `shake128`: the text returns, with SHAKE128 of the message in the buffer for it, and nothing else in memory changed.  The
message may be in the same block as the buffer. -/
theorem C76_shake128 (ha : X.arch = .le) (hL : fipsFile.Loaded X m) (bo ko bi ki outlen inlen : Nat) (out inp : List U8)
    (ho : m bo = u8s out) (hi : m bi = u8s inp) (hb : bo < next) (hb' : bi < next)
    (hg : ∀ b, X.glob "KeccakF_RoundConstants" = some (.ptr b 0 false 8) → b < next ∧ b ≠ bo)
    (hlo : ko + outlen ≤ out.length) (hli : ki + inlen ≤ inp.length) (h1 : outlen < 2 ^ 31) (h2 : inlen < 2 ^ 31) :
    Ret (fipsFile.run (link [fipsFile] X (d + 2)) "shake128"
        [.ptr bo ko false 1, .int false 8 outlen, .ptr bi ki false 1, .int false 8 inlen] m next)
      fun x => x.1 = .undef .void ∧
        x.2.1 bo = u8s (out.take ko ++ (SHAKE128 ((inp.drop ki).take inlen) outlen ++ out.drop (ko + outlen))) ∧
        ∀ b, b < next → b ≠ bo → x.2.1 b = m b := by
  obtain ⟨bk, k1, k2⟩ := loaded_table hL
  obtain ⟨g1, g2⟩ := hg _ k1
  refine ret_refines (text_shake128 (fips_blocks ha k1) m next bo ko bi ki outlen inlen _ _ _ _ (v := .u8) ho (.inr rfl) hi hb hb' g1 g2
    (by omega) (by omega) h1 h2 k2)
    (C32_shake128 (fipsJunk X) (out.drop ko) outlen (inp.drop ki) inlen (by rw [List.length_drop]; omega) (by rw [List.length_drop]; omega)) ?_
  rintro r x rfl ⟨e1, -, e3⟩
  rw [List.drop_drop] at e3
  exact ⟨e1, by rw [e3 bo hb, set_same]; rfl, fun b l1 l2 => by rw [e3 b l1, set_ne _ _ l2]⟩

/-- C76, `shake256`. -/
theorem C76_shake256 (ha : X.arch = .le) (hL : fipsFile.Loaded X m) (bo ko bi ki outlen inlen : Nat) (out inp : List U8)
    (ho : m bo = u8s out) (hi : m bi = u8s inp) (hb : bo < next) (hb' : bi < next)
    (hg : ∀ b, X.glob "KeccakF_RoundConstants" = some (.ptr b 0 false 8) → b < next ∧ b ≠ bo)
    (hlo : ko + outlen ≤ out.length) (hli : ki + inlen ≤ inp.length) (h1 : outlen < 2 ^ 31) (h2 : inlen < 2 ^ 31) :
    Ret (fipsFile.run (link [fipsFile] X (d + 2)) "shake256"
        [.ptr bo ko false 1, .int false 8 outlen, .ptr bi ki false 1, .int false 8 inlen] m next)
      fun x => x.1 = .undef .void ∧
        x.2.1 bo = u8s (out.take ko ++ (SHAKE256 ((inp.drop ki).take inlen) outlen ++ out.drop (ko + outlen))) ∧
        ∀ b, b < next → b ≠ bo → x.2.1 b = m b := by
  obtain ⟨bk, k1, k2⟩ := loaded_table hL
  obtain ⟨g1, g2⟩ := hg _ k1
  refine ret_refines (text_shake256 (fips_blocks ha k1) m next bo ko bi ki outlen inlen _ _ _ _ (v := .u8) ho (.inr rfl) hi hb hb' g1 g2
    (by omega) (by omega) h1 h2 k2)
    (C32_shake256 (fipsJunk X) (out.drop ko) outlen (inp.drop ki) inlen (by rw [List.length_drop]; omega) (by rw [List.length_drop]; omega)) ?_
  rintro r x rfl ⟨e1, -, e3⟩
  rw [List.drop_drop] at e3
  exact ⟨e1, by rw [e3 bo hb, set_same]; rfl, fun b l1 l2 => by rw [e3 b l1, set_ne _ _ l2]⟩

end

/-! ## The KEM with SHAKE -/

theorem fips_none : [fipsFile].findSome? (·.fn "randombytes") = none := by decide +kernel

theorem Rand.fips {X : Ctx} {rb : RandomBytes} {d : Nat} (h : Rand X rb) : Rand (link [fipsFile] X d) rb := by
  intro N F bo ko s n L len h1 h2 h3 h4
  have := h (s := s) (n := n) h1 h2 h3 h4
  unfold Does at this ⊢
  rwa [link_extern fips_none (by decide) (by decide)]

theorem Loaded.fips {G : File} {X : Ctx} {m : Mem} {d : Nat} (h : G.Loaded X m) : G.Loaded (link [fipsFile] X d) m := by
  unfold File.Loaded at h ⊢
  rwa [link_glob]

/-- C77, `crypto_kem_keypair`: as C75, with the text of `shake128` and `shake256`. -/
theorem C77_keypair {G : File} {P : Params} {K : KemParams} {nm : String} (hT : KemText G P K nm) (X : Ctx)
    (rb : RandomBytes) (d e : Nat) (ha : X.arch = .le) (hR : Rand X rb) (s seedSE z : List U8)
    (hs : s.length = K.len) (hse : seedSE.length = K.len) (hz : z.length = K.lenA) (hrb : Fills rb (s ++ seedSE ++ z))
    (m : Mem) (next bp bs : Nat) (pk sk : List U8) (hL : G.Loaded X m) (hL' : fipsFile.Loaded X m) (hp : m bp = u8s pk)
    (hk : m bs = u8s sk) (hlp : pk.length = P.pkBytes) (hls : sk.length = P.skBytes) (hb : bp < next) (hb' : bs < next) (ne : bp ≠ bs)
    (hg : ∀ b, X.glob "CDF_TABLE" = some (.ptr b 0 false 2) → b < next ∧ b ≠ bp ∧ b ≠ bs)
    (hg' : ∀ b, X.glob "KeccakF_RoundConstants" = some (.ptr b 0 false 8) → b < next ∧ b ≠ bp ∧ b ≠ bs) :
    Ret (G.run (link [utilFile, G] (link [fipsFile] X (e + 3)) (d + 1)) ("crypto_kem_keypair_" ++ nm)
        [.ptr bp 0 false 1, .ptr bs 0 false 1] m next)
      fun x => x.1 = .int true 4 0 ∧ x.2.1 bp = u8s (keygen K s seedSE z).1 ∧ x.2.1 bs = u8s (keygen K s seedSE z).2 ∧
        (∀ b, b < next → b ≠ bp → b ≠ bs → x.2.1 b = m b) ∧
        x.2.1 (next + 1) = u16s (List.replicate (2 * P.n * P.nbar) 0) ∧
        x.2.1 (next + 2) = u8s (List.replicate (2 * P.bytes) 0 ++ z) ∧
        x.2.1 (next + 3) = u8s (List.replicate (1 + P.bytes) 0) := by
  obtain ⟨bk, k1, k2⟩ := loaded_table hL'
  obtain ⟨g1, g2, g3⟩ := hg' _ k1
  exact keypair_text hT (link [fipsFile] X (e + 3)) (fipsJunk X) rb d (by rw [link_arch, ha]) bk _ (fips_sponge ha k1) (Rand.fips hR)
    s seedSE z hs hse hz hrb m next bp bs pk sk (Loaded.fips hL) hp hk hlp hls hb hb' ne (by rwa [link_glob]) k2 g1 g2 g3

/-- C77, `crypto_kem_enc`. -/
theorem C77_enc {G : File} {P : Params} {K : KemParams} {nm : String} (hT : KemText G P K nm) (X : Ctx)
    (rb : RandomBytes) (d e : Nat) (ha : X.arch = .le) (hR : Rand X rb) (mu : List U8)
    (hmu : mu.length = K.len) (hrb : Fills rb mu)
    (m : Mem) (next bt bs bp : Nat) (ct ss pk : List U8) (hL : G.Loaded X m) (hL' : fipsFile.Loaded X m) (ht : m bt = u8s ct)
    (hs : m bs = u8s ss) (hp : m bp = u8s pk) (hlt : ct.length = P.ctBytes) (hls : P.bytes ≤ ss.length) (hlp : pk.length = P.pkBytes)
    (hb : bt < next) (hb' : bs < next) (hb'' : bp < next) (ne : bt ≠ bs) (ne' : bp ≠ bt) (ne'' : bp ≠ bs)
    (hg : ∀ b, X.glob "CDF_TABLE" = some (.ptr b 0 false 2) → b < next ∧ b ≠ bt ∧ b ≠ bs)
    (hg' : ∀ b, X.glob "KeccakF_RoundConstants" = some (.ptr b 0 false 8) → b < next ∧ b ≠ bt ∧ b ≠ bs) :
    Ret (G.run (link [utilFile, G] (link [fipsFile] X (e + 3)) (d + 1)) ("crypto_kem_enc_" ++ nm)
        [.ptr bt 0 false 1, .ptr bs 0 false 1, .ptr bp 0 false 1] m next)
      fun x => x.1 = .int true 4 0 ∧ x.2.1 bt = u8s (encaps K pk mu).1 ∧
        x.2.1 bs = u8s ((encaps K pk mu).2 ++ ss.drop P.bytes) ∧
        (∀ b, b < next → b ≠ bt → b ≠ bs → x.2.1 b = m b) ∧
        x.2.1 (next + 1) = u16s (List.replicate (P.nbar * P.nbar) 0) ∧
        x.2.1 (next + 4) = u16s (List.replicate (2 * (P.n * P.nbar) + P.nbar * P.nbar) 0) ∧
        x.2.1 (next + 5) = u8s (P.shake.fn pk P.bytes ++ List.replicate P.bytes 0) ∧
        x.2.1 (next + 6) = u8s (List.replicate (2 * P.bytes) 0) ∧
        x.2.1 (next + 7) = u8s ((encaps K pk mu).1 ++ List.replicate P.bytes 0) ∧
        x.2.1 (next + 8) = u8s (List.replicate (1 + P.bytes) 0) := by
  obtain ⟨bk, k1, k2⟩ := loaded_table hL'
  obtain ⟨g1, g2, g3⟩ := hg' _ k1
  exact enc_text hT (link [fipsFile] X (e + 3)) (fipsJunk X) rb d (by rw [link_arch, ha]) bk _ (fips_sponge ha k1) (Rand.fips hR)
    mu hmu hrb m next bt bs bp ct ss pk (Loaded.fips hL) ht hs hp hlt hls hlp hb hb' hb'' ne ne' ne'' (by rwa [link_glob]) k2 g1 g2 g3

/-- C77, `crypto_kem_dec`. -/
theorem C77_dec {G : File} {P : Params} {K : KemParams} {nm : String} (hT : KemText G P K nm) (X : Ctx)
    (rb : RandomBytes) (d e : Nat) (ha : X.arch = .le) (hR : Rand X rb)
    (m : Mem) (next bs bt bk : Nat) (ss ct sk : List U8) (hL : G.Loaded X m) (hL' : fipsFile.Loaded X m) (hs : m bs = u8s ss)
    (ht : m bt = u8s ct) (hk : m bk = u8s sk) (hls : P.bytes ≤ ss.length) (hlt : ct.length = P.ctBytes) (hlk : sk.length = P.skBytes)
    (hb : bs < next) (hb' : bt < next) (hb'' : bk < next) (ne : bt ≠ bs) (ne' : bk ≠ bt) (ne'' : bk ≠ bs)
    (hg : ∀ b, X.glob "CDF_TABLE" = some (.ptr b 0 false 2) → b < next ∧ b ≠ bt ∧ b ≠ bs)
    (hg' : ∀ b, X.glob "KeccakF_RoundConstants" = some (.ptr b 0 false 8) → b < next ∧ b ≠ bt ∧ b ≠ bs) :
    Ret (G.run (link [utilFile, G] (link [fipsFile] X (e + 3)) (d + 1)) ("crypto_kem_dec_" ++ nm)
        [.ptr bs 0 false 1, .ptr bt 0 false 1, .ptr bk 0 false 1] m next)
      fun x => x.1 = .int true 4 0 ∧ x.2.1 bs = u8s (decaps K ct sk ++ ss.drop P.bytes) ∧
        (∀ b, b < next → b ≠ bs → x.2.1 b = m b) ∧
        x.2.1 (next + 2) = u16s (List.replicate (P.nbar * P.nbar) 0) ∧
        x.2.1 (next + 6) = u16s (List.replicate (2 * (P.n * P.nbar) + P.nbar * P.nbar) 0) ∧
        x.2.1 (next + 7) = u16s (List.replicate (P.n * P.nbar) 0) ∧
        x.2.1 (next + 8) = u8s ((sk.drop (P.bytes + P.pkBytes + 2 * P.n * P.nbar)).take P.bytes ++ List.replicate P.bytes 0) ∧
        x.2.1 (next + 9) = u8s (List.replicate (2 * P.bytes) 0) ∧
        x.2.1 (next + 10) = u8s (ct ++ List.replicate P.bytes 0) ∧
        x.2.1 (next + 11) = u8s (List.replicate (1 + P.bytes) 0) := by
  obtain ⟨bq, k1, k2⟩ := loaded_table hL'
  obtain ⟨g1, g2, g3⟩ := hg' _ k1
  exact dec_text hT (link [fipsFile] X (e + 3)) (fipsJunk X) rb d (by rw [link_arch, ha]) bq _ (fips_sponge ha k1) (Rand.fips hR)
    m next bs bt bk ss ct sk (Loaded.fips hL) hs ht hk hls hlt hlk hb hb' hb'' ne ne' ne'' (by rwa [link_glob]) k2 g1 g2 g3

/-! ## Concrete cases -/

/-- A program with the table of the distribution in block 0 and that of the round constants in block 9, and nothing but
`randombytes` outside. -/
def demoFips (P : Params) (rb : RandomBytes) : Ctx :=
  ⟨.le, fun x => if x = "CDF_TABLE" then some (.ptr 0 0 false 2) else if x = "CDF_TABLE_LEN" then
    some (.int false 2 P.cdf.length) else if x = "KeccakF_RoundConstants" then some (.ptr 9 0 false 8) else none, fun _ i => i,
    fun f args m next => if f = "randombytes" then demoCall (fun _ _ => 0) rb f args m next else .div⟩

theorem demoFips_rand (P : Params) (rb : RandomBytes) : Rand (demoFips P rb) rb := by
  intro N F bo ko s n L len h1 h2 h3 h4 M nx hN hM
  simp only [demoFips, demoCall, hM bo h2, h1, show demoBytes (u8s L) = L from demoBytes_blk .u8 L (.inr rfl),
    show ∀ l, demoPut (u8s L) l = u8s l from demoPut_blk .u8 L, Int.toNat_natCast, if_true]
  exact demo_step hN hM

theorem demoFips_loaded (rb : RandomBytes) (m : Mem) (h : m 0 = u16s frodo640.cdf) :
    unit640.Loaded (demoFips frodo640 rb) m := by
  have h0 := demo_loaded (fun _ _ => 0) rb m h
  have hn : unit640.globals.map (·.name) = ["CDF_TABLE", "CDF_TABLE_LEN"] := by kernel_rfl
  intro x g hg
  have hx : x = "CDF_TABLE" ∨ x = "CDF_TABLE_LEN" := by
    have h1 := List.find?_some hg
    have h2 : g.name ∈ unit640.globals.map (·.name) := List.mem_map_of_mem (List.mem_of_find?_eq_some hg)
    rw [hn] at h2
    have h3 : g.name = x := by simpa using h1
    rw [← h3]
    simpa using h2
  have := h0 x g hg
  rcases hx with rfl | rfl <;> exact this

theorem demoFips_table (P : Params) (rb : RandomBytes) (m : Mem) (h : m 9 = u64s KeccakF_RoundConstants) :
    fipsFile.Loaded (demoFips P rb) m := by
  have h0 : fipsFile.globals.map (·.name) = ["KeccakF_RoundConstants"] := by kernel_rfl
  intro x g hg
  have hx : x = "KeccakF_RoundConstants" := by
    have h1 := List.find?_some hg
    have h2 : g.name ∈ fipsFile.globals.map (·.name) := List.mem_map_of_mem (List.mem_of_find?_eq_some hg)
    rw [h0] at h2
    have h3 : g.name = x := by simpa using h1
    rw [← h3]
    simpa using h2
  subst hx
  have e := fips_globals
  rw [hg] at e
  simp only [Option.map_some, Option.some.injEq, Prod.mk.injEq] at e
  obtain ⟨h1, h2, h3, h4⟩ := e
  rw [if_pos h3, h1, h2, h4]
  exact ⟨9, rfl, h⟩

/-- The hypotheses of `C76_permute`, `C76_shake128` and `C76_shake256`: 300 bytes from a message of 9616. -/
example (P : Params) (rb : RandomBytes) : ∃ m : Mem, fipsFile.Loaded (demoFips P rb) m ∧
    m 1 = u8s (List.replicate 300 0) ∧ m 2 = u8s (List.replicate 9616 1) ∧ m 3 = u64s (List.replicate 25 7) ∧
    ∀ b, (demoFips P rb).glob "KeccakF_RoundConstants" = some (.ptr b 0 false 8) → b < 10 ∧ b ≠ 1 :=
  ⟨fun b => if b = 9 then u64s KeccakF_RoundConstants else if b = 1 then u8s (List.replicate 300 0) else if b = 2 then
    u8s (List.replicate 9616 1) else u64s (List.replicate 25 7), demoFips_table _ _ _ rfl, rfl, rfl, rfl, fun b h => by cases h; decide⟩

/-- The keys of FrodoKEM-640 for given random bytes. -/
example : ∃ m : Mem, Ret (unit640.run (link [utilFile, unit640] (link [fipsFile]
      (demoFips frodo640 (rbConst ((List.range 48).map (BitVec.ofNat 8)))) 3) 1)
      "crypto_kem_keypair_Frodo640" [.ptr 1 0 false 1, .ptr 2 0 false 1] m 10)
    fun x => x.1 = .int true 4 0 ∧ x.2.1 1 = u8s (keygen (Frodo640 .shake) ((List.range 16).map (BitVec.ofNat 8))
      ((List.range' 16 16).map (BitVec.ofNat 8)) ((List.range' 32 16).map (BitVec.ofNat 8))).1 :=
  ⟨fun b => if b = 0 then u16s frodo640.cdf else if b = 1 then u8s (List.replicate 9616 0) else if b = 9 then
      u64s KeccakF_RoundConstants else u8s (List.replicate 19888 0),
  (C77_keypair .frodo640 _ _ 0 0 rfl (demoFips_rand _ _) ((List.range 16).map (BitVec.ofNat 8))
    ((List.range' 16 16).map (BitVec.ofNat 8)) ((List.range' 32 16).map (BitVec.ofNat 8)) rfl rfl rfl (fills_const _)
    _ 10 1 2 (List.replicate 9616 0) (List.replicate 19888 0) (demoFips_loaded _ _ rfl) (demoFips_table _ _ _ rfl) rfl rfl
    List.length_replicate List.length_replicate (by decide) (by decide) (by decide) (fun b h => by cases h; decide)
    (fun b h => by cases h; decide)).mono fun _ h => ⟨h.1, h.2.1⟩⟩

/-- The hypotheses of `C77_enc` and `C77_dec`. -/
example : ∃ (X : Ctx) (rb : RandomBytes) (m : Mem) (mu ct ss pk sk : List U8),
    X.arch = .le ∧ Rand X rb ∧ Fills rb mu ∧ mu.length = (Frodo640 .shake).len ∧ unit640.Loaded X m ∧ fipsFile.Loaded X m ∧
    m 1 = u8s ct ∧ m 2 = u8s ss ∧ m 3 = u8s pk ∧ m 4 = u8s sk ∧ ct.length = frodo640.ctBytes ∧ frodo640.bytes ≤ ss.length ∧
    pk.length = frodo640.pkBytes ∧ sk.length = frodo640.skBytes ∧
    (∀ b, X.glob "CDF_TABLE" = some (.ptr b 0 false 2) → b < 10 ∧ b ≠ 1 ∧ b ≠ 2) ∧
    ∀ b, X.glob "KeccakF_RoundConstants" = some (.ptr b 0 false 8) → b < 10 ∧ b ≠ 1 ∧ b ≠ 2 :=
  ⟨demoFips frodo640 (rbConst (List.replicate 16 7)), rbConst (List.replicate 16 7),
    fun b => if b = 0 then u16s frodo640.cdf else if b = 1 then u8s (List.replicate 9720 1) else if b = 2 then
      u8s (List.replicate 16 2) else if b = 3 then u8s (List.replicate 9616 3) else if b = 9 then u64s KeccakF_RoundConstants else
      u8s (List.replicate 19888 4),
    List.replicate 16 7, List.replicate 9720 1, List.replicate 16 2, List.replicate 9616 3, List.replicate 19888 4,
    rfl, demoFips_rand _ _, fills_const _, rfl, demoFips_loaded _ _ rfl, demoFips_table _ _ _ rfl, rfl, rfl, rfl, rfl,
    List.length_replicate, Nat.le_of_eq List.length_replicate.symm, List.length_replicate, List.length_replicate,
    fun b h => by cases h; decide, fun b h => by cases h; decide⟩

end Frodo.Props
