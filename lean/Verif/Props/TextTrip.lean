import Verif.Props.Binding
import Verif.Props.TextMul

/-! # Properties of exchanges between programs given by their source text

Three runs of the text, perhaps of different implementations, on three machines: key generation, encapsulation for the public
key, decapsulation of the ciphertext. -/

namespace Frodo.Props

open Spec Src

/-- A machine on which the text of /repo/src/kem.c with its parameter file `G`, of /repo/src/util.c and of
/repo/src/sha3/fips202.c is loaded, about to call a function with pointers to distinct blocks, apart from the tables. -/
structure Ready (G : File) (X : Ctx) (rb : RandomBytes) (m : Mem) (next : Nat) (bs : List Nat) : Prop where
  arch : X.arch = .le
  rand : Rand X rb
  table : G.Loaded X m
  rounds : fipsFile.Loaded X m
  below : ∀ b ∈ bs, b < next
  distinct : bs.Nodup
  apart : ∀ x b s n, X.glob x = some (.ptr b 0 s n) → b < next ∧ b ∉ bs

/-- The call of a function of the KEM with pointers to the given blocks (/repo/src/kem.c:36, 80, 158). -/
def callKem (G : File) (X : Ctx) (f : String) (bs : List Nat) (m : Mem) (next : Nat) : C (Val × Mem × Nat) :=
  G.run (link [utilFile, G] (link [fipsFile] X 3) 1) f (bs.map fun b => .ptr b 0 false 1) m next

section

variable {P : Params} {K : KemParams} {nm : String}

theorem Ready.keypair {G X rb m next bp bk} (hT : KemText G P K nm) (h : Ready G X rb m next [bp, bk]) {s seedSE z pk sk : List U8}
    (hs : s.length = K.len) (hse : seedSE.length = K.len) (hz : z.length = K.lenA) (hrb : Fills rb (s ++ seedSE ++ z))
    (hp : m bp = u8s pk) (hk : m bk = u8s sk) (hlp : pk.length = P.pkBytes) (hlk : sk.length = P.skBytes) :
    Ret (callKem G X ("crypto_kem_keypair_" ++ nm) [bp, bk] m next) fun x =>
      x.1 = .int true 4 0 ∧ x.2.1 bp = u8s (keygen K s seedSE z).1 ∧ x.2.1 bk = u8s (keygen K s seedSE z).2 := by
  have hd := h.distinct
  simp only [List.nodup_cons, List.mem_singleton, List.not_mem_nil, not_false_eq_true, List.nodup_nil, and_true] at hd
  have ha : ∀ x b s n, X.glob x = some (.ptr b 0 s n) → b < next ∧ b ≠ bp ∧ b ≠ bk := fun x b s n e => by
    simpa using h.apart x b s n e
  exact (C77_keypair hT X rb 0 0 h.arch h.rand s seedSE z hs hse hz hrb m next bp bk pk sk h.table h.rounds hp hk hlp hlk
    (h.below _ (by simp)) (h.below _ (by simp)) hd (fun b e => ha _ _ _ _ e) (fun b e => ha _ _ _ _ e)).mono
    fun x h => ⟨h.1, h.2.1, h.2.2.1⟩

theorem Ready.enc {G X rb m next bt bs bp} (hT : KemText G P K nm) (h : Ready G X rb m next [bt, bs, bp]) {mu ct ss pk : List U8}
    (hmu : mu.length = K.len) (hrb : Fills rb mu) (ht : m bt = u8s ct) (hs : m bs = u8s ss) (hp : m bp = u8s pk)
    (hlt : ct.length = P.ctBytes) (hls : ss.length = P.bytes) (hlp : pk.length = P.pkBytes) :
    Ret (callKem G X ("crypto_kem_enc_" ++ nm) [bt, bs, bp] m next) fun x =>
      x.1 = .int true 4 0 ∧ x.2.1 bt = u8s (encaps K pk mu).1 ∧ x.2.1 bs = u8s (encaps K pk mu).2 := by
  have hd := h.distinct
  simp only [List.nodup_cons, List.mem_cons, List.not_mem_nil, not_false_eq_true, List.nodup_nil, and_true, not_or, or_false] at hd
  have ha : ∀ x b s n, X.glob x = some (.ptr b 0 s n) → b < next ∧ b ≠ bt ∧ b ≠ bs := fun x b s n e => by
    have := h.apart x b s n e
    simp only [List.mem_cons, not_or] at this
    exact ⟨this.1, this.2.1, this.2.2.1⟩
  exact (C77_enc hT X rb 0 0 h.arch h.rand mu hmu hrb m next bt bs bp ct ss pk h.table h.rounds ht hs hp hlt (by omega) hlp
    (h.below _ (by simp)) (h.below _ (by simp)) (h.below _ (by simp)) hd.1.1 (Ne.symm hd.1.2) (Ne.symm hd.2)
    (fun b e => ha _ _ _ _ e) (fun b e => ha _ _ _ _ e)).mono
    fun x h => ⟨h.1, h.2.1, by rw [h.2.2.1, List.drop_eq_nil_of_le (by omega), List.append_nil]⟩

theorem Ready.dec {G X rb m next bs bt bk} (hT : KemText G P K nm) (h : Ready G X rb m next [bs, bt, bk]) {ss ct sk : List U8}
    (hs : m bs = u8s ss) (ht : m bt = u8s ct) (hk : m bk = u8s sk) (hls : ss.length = P.bytes) (hlt : ct.length = P.ctBytes)
    (hlk : sk.length = P.skBytes) :
    Ret (callKem G X ("crypto_kem_dec_" ++ nm) [bs, bt, bk] m next) fun x =>
      x.1 = .int true 4 0 ∧ x.2.1 bs = u8s (decaps K ct sk) := by
  have hd := h.distinct
  simp only [List.nodup_cons, List.mem_cons, List.not_mem_nil, not_false_eq_true, List.nodup_nil, and_true, not_or, or_false] at hd
  have ha : ∀ x b s n, X.glob x = some (.ptr b 0 s n) → b < next ∧ b ≠ bt ∧ b ≠ bs := fun x b s n e => by
    have := h.apart x b s n e
    simp only [List.mem_cons, not_or] at this
    exact ⟨this.1, this.2.2.1, this.2.1⟩
  exact (C77_dec hT X rb 0 0 h.arch h.rand m next bs bt bk ss ct sk h.table h.rounds hs ht hk (by omega) hlt hlk
    (h.below _ (by simp)) (h.below _ (by simp)) (h.below _ (by simp)) (Ne.symm hd.1.1) (Ne.symm hd.2) (Ne.symm hd.1.2)
    (fun b e => ha _ _ _ _ e) (fun b e => ha _ _ _ _ e)).mono
    fun x h => ⟨h.1, by rw [h.2.1, List.drop_eq_nil_of_le (by omega), List.append_nil]⟩

/-- C79.  If the accumulated noise is within the bounds of C01, then after key generation by one program, encapsulation by a second
and decapsulation by a third, whichever of the two implementations they are, both parties hold the same shared secret.  The keys
and the ciphertext are carried from one memory to the next; all else there may be different. -/
theorem C79_round_trip {G G' G'' : File} (hT : KemText G P K nm) (hT' : KemText G' P K nm) (hT'' : KemText G'' P K nm)
    {X X' X'' : Ctx} {rb rb' rb'' : RandomBytes} {m : Mem} {next bp bk : Nat} (h : Ready G X rb m next [bp, bk])
    {s seedSE z mu pk sk : List U8} (hs : s.length = K.len) (hse : seedSE.length = K.len) (hz : z.length = K.lenA)
    (hmu : mu.length = K.len) (hrb : Fills rb (s ++ seedSE ++ z)) (hrb' : Fills rb' mu) (hp : m bp = u8s pk) (hk : m bk = u8s sk)
    (hlp : pk.length = P.pkBytes) (hlk : sk.length = P.skBytes) (hn : NoiseBound K seedSE (keygen K s seedSE z).1 mu) :
    Ret (callKem G X ("crypto_kem_keypair_" ++ nm) [bp, bk] m next) fun x => x.1 = .int true 4 0 ∧
      ∀ (m' : Mem) (next' bt' bs' bp' : Nat) (ct ss : List U8), Ready G' X' rb' m' next' [bt', bs', bp'] → m' bt' = u8s ct →
        m' bs' = u8s ss → ct.length = P.ctBytes → ss.length = P.bytes → m' bp' = x.2.1 bp →
      Ret (callKem G' X' ("crypto_kem_enc_" ++ nm) [bt', bs', bp'] m' next') fun y => y.1 = .int true 4 0 ∧
        ∀ (m'' : Mem) (next'' bs'' bt'' bk'' : Nat) (ss'' : List U8), Ready G'' X'' rb'' m'' next'' [bs'', bt'', bk''] →
          m'' bs'' = u8s ss'' → ss''.length = P.bytes → m'' bt'' = y.2.1 bt' → m'' bk'' = x.2.1 bk →
        Ret (callKem G'' X'' ("crypto_kem_dec_" ++ nm) [bs'', bt'', bk''] m'' next'') fun w => w.1 = .int true 4 0 ∧
          w.2.1 bs'' = y.2.1 bs' := by
  have hS := hT.standard
  refine (h.keypair hT hs hse hz hrb hp hk hlp hlk).mono ?_
  rintro x ⟨x1, x2, x3⟩
  refine ⟨x1, fun m' next' bt' bs' bp' ct ss h' ht' hs' hlt hls hp' => ?_⟩
  have lp : (keygen K s seedSE z).1.length = P.pkBytes := by rw [length_keygen_pk hS.kwf, hS.pkLen]
  refine (h'.enc hT' hmu hrb' ht' hs' (hp'.trans x2) hlt hls lp).mono ?_
  rintro y ⟨y1, y2, y3⟩
  refine ⟨y1, fun m'' next'' bs'' bt'' bk'' ss'' h'' hs'' hls'' ht'' hk'' => ?_⟩
  refine (h''.dec hT'' hs'' (ht''.trans y2) (hk''.trans x3) hls'' (by rw [length_encaps_ct, hS.ctLen])
    (by rw [length_keygen_sk hS.kwf hs, hS.skLen])).mono ?_
  rintro w ⟨w1, w2⟩
  exact ⟨w1, by rw [w2, y3, decaps_encaps hS.kwf hs hmu (fun i j => ⟨_, (hn i j).1, (hn i j).2, rfl⟩)]⟩

/-- C79, a ciphertext that is not the encryption of what it decrypts to: the shared secret is the hash of the ciphertext and of
the secret string `s` at the start of the secret key. -/
theorem C79_reject {G : File} (hT : KemText G P K nm) {X : Ctx} {rb : RandomBytes} {m : Mem} {next bs bt bk : Nat}
    (h : Ready G X rb m next [bs, bt, bk]) {ss ct sk : List U8} (hs : m bs = u8s ss) (ht : m bt = u8s ct) (hk : m bk = u8s sk)
    (hls : ss.length = P.bytes) (hlt : ct.length = P.ctBytes) (hlk : sk.length = P.skBytes) (hne : ct ≠ (reencrypt K ct sk).1) :
    Ret (callKem G X ("crypto_kem_dec_" ++ nm) [bs, bt, bk] m next) fun x => x.1 = .int true 4 0 ∧
      x.2.1 bs = u8s (K.shake (ct ++ sk.take K.len) K.len) :=
  (h.dec hT hs ht hk hls hlt hlk).mono fun _ e => ⟨e.1, by
    rw [e.2, decaps_reencrypt hT.standard.kwf (by rw [hlt, hT.standard.ctLen]), if_neg hne]⟩

/-- C79, agreement: both implementations, in whatever memory, decapsulate a ciphertext with a secret key to the same secret. -/
theorem C79_agree {G G' : File} (hT : KemText G P K nm) (hT' : KemText G' P K nm) {X X' : Ctx} {rb rb' : RandomBytes} {m m' : Mem}
    {next bs bt bk next' bs' bt' bk' : Nat} (h : Ready G X rb m next [bs, bt, bk]) (h' : Ready G' X' rb' m' next' [bs', bt', bk'])
    {ss ss' ct sk : List U8} (hs : m bs = u8s ss) (ht : m bt = u8s ct) (hk : m bk = u8s sk) (hs' : m' bs' = u8s ss')
    (ht' : m' bt' = u8s ct) (hk' : m' bk' = u8s sk) (hls : ss.length = P.bytes) (hls' : ss'.length = P.bytes)
    (hlt : ct.length = P.ctBytes) (hlk : sk.length = P.skBytes) :
    Ret (callKem G X ("crypto_kem_dec_" ++ nm) [bs, bt, bk] m next) fun x =>
      Ret (callKem G' X' ("crypto_kem_dec_" ++ nm) [bs', bt', bk'] m' next') fun y => x.2.1 bs = y.2.1 bs' :=
  (h.dec hT hs ht hk hls hlt hlk).mono fun _ e => (h'.dec hT' hs' ht' hk' hls' hlt hlk).mono fun _ e' => e.2.trans e'.2.symm

end

/-! ## Concrete cases -/

/-- `demoFips` with the reference and with the optimised text is ready for blocks 1 to 8. -/
theorem demo_ready {G : File} (rb : RandomBytes) (m : Mem) (bs : List Nat) (hG : G.Loaded (demoFips frodo640 rb) m)
    (h9 : m 9 = u64s KeccakF_RoundConstants) (hb : ∀ b ∈ bs, 1 ≤ b ∧ b ≤ 8) (hd : bs.Nodup) :
    Ready G (demoFips frodo640 rb) rb m 10 bs where
  arch := rfl
  rand := demoFips_rand _ _
  table := hG
  rounds := demoFips_table _ _ _ h9
  below b h := by have := hb b h; omega
  distinct := hd
  apart x b s n e := by
    have hb' : b = 0 ∨ b = 9 := by
      simp only [demoFips] at e
      split at e
      · cases e; exact .inl rfl
      · split at e
        · cases e
        · split at e
          · cases e; exact .inr rfl
          · cases e
    rcases hb' with rfl | rfl
    · exact ⟨by decide, fun h => absurd (hb _ h).1 (by decide)⟩
    · exact ⟨by decide, fun h => absurd (hb _ h).2 (by decide)⟩

/-- Decapsulation of a ciphertext of all ones with a key of all fours, by both implementations, with the arguments in different
blocks. -/
example : ∃ m m' : Mem, Ret (callKem unit640 (demoFips frodo640 (rbConst [])) "crypto_kem_dec_Frodo640" [2, 1, 4] m 10) fun x =>
    Ret (callKem unitFast640 (demoFips frodo640 (rbConst [])) "crypto_kem_dec_Frodo640" [3, 5, 8] m' 10) fun y => x.2.1 2 = y.2.1 3 :=
  ⟨fun b => if b = 0 then u16s frodo640.cdf else if b = 1 then u8s (List.replicate 9720 1) else if b = 9 then
      u64s KeccakF_RoundConstants else if b = 4 then u8s (List.replicate 19888 4) else u8s (List.replicate 16 0),
    fun b => if b = 0 then u16s frodo640.cdf else if b = 5 then u8s (List.replicate 9720 1) else if b = 9 then
      u64s KeccakF_RoundConstants else if b = 8 then u8s (List.replicate 19888 4) else u8s (List.replicate 16 0),
    C79_agree .frodo640 .fast640 (demo_ready _ _ _ (demoFips_loaded _ _ rfl) rfl (by decide) (by decide))
      (demo_ready _ _ _ (demoFast_loaded _ _ rfl) rfl (by decide) (by decide)) rfl rfl rfl rfl rfl rfl List.length_replicate
      List.length_replicate List.length_replicate List.length_replicate⟩

/-- The hypotheses of `C79_round_trip` on the first memory, and of `C79_reject` for some ciphertext. -/
example : ∃ (m : Mem) (ct : List U8), Ready unitFast640 (demoFips frodo640 (rbConst (List.replicate 48 7))) (rbConst (List.replicate 48 7))
      m 10 [1, 2] ∧ Fills (rbConst (List.replicate 48 7)) (List.replicate 16 7 ++ List.replicate 16 7 ++ List.replicate 16 7) ∧
    m 1 = u8s (List.replicate 9616 0) ∧ m 2 = u8s (List.replicate 19888 4) ∧ ct.length = frodo640.ctBytes ∧
    ct ≠ (reencrypt (Frodo640 .shake) ct (List.replicate 19888 4)).1 := by
  obtain ⟨ct, h1, h2, -⟩ := exists_rejected (Standard.frodo640 .shake) (List.replicate 19888 4) []
  exact ⟨fun b => if b = 0 then u16s frodo640.cdf else if b = 1 then u8s (List.replicate 9616 0) else if b = 9 then
      u64s KeccakF_RoundConstants else u8s (List.replicate 19888 4), ct, demo_ready _ _ _ (demoFast_loaded _ _ rfl) rfl (by decide)
      (by decide), fills_const _, rfl, rfl, h1, h2⟩

end Frodo.Props
