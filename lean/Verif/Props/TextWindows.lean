import Verif.Proof.TextWindows
import Verif.Props.TextOptAes

/-! # Properties of the text of `randombytes` on Windows, and of the KEM linked with it -/

namespace Frodo.Props

open Spec Src

/-- C90.  With the definitions of the projects for Windows, the text of /repo/src/random/random.c is parsed to the function below, and the
texts of the KEM and of /repo/src/aes/aes.c to the same functions as on Unix. -/
theorem C90_parse : parseWindows windowsFlags randomSources randomText = some windowsFile ∧
    parseWindows windowsFlags sources frodo640Text = some unitOpt640 ∧ parseWindows windowsFlags sources frodo976Text = some unitOpt976 ∧
    parseWindows windowsFlags sources frodo1344Text = some unitOpt1344 ∧ parseWindows windowsFlags aesSources aesText = some aesFile :=
  ⟨windows_parse, windows640_parse, windows976_parse, windows1344_parse, windows_aes_parse⟩

section

variable {X : Ctx} {bN : Nat} {gen : Nat → List U8 → Bool × List U8} {d bo off n nx : Nat} {L : List U8} {m : Mem}

/-- C90.  Whatever `BCryptGenRandom` does: it is asked for `n mod 2^32` bytes, the text of `randombytes` returns 0 if it succeeds and 1 if it
fails, the buffer holds what it has left there, and all else is as before.  `C42_windows` on the text. -/
theorem C90_bytes (hX : CNG X bN gen) (hm : m bo = u8s L) (hl : off + n % 2 ^ 32 ≤ L.length) :
    Ret (windowsFile.run (link [windowsFile] X d) "randombytes" [.ptr bo off false 1, .int false 8 n] m nx) fun x =>
      x.1 = .int true 4 (if (gen (n % 2 ^ 32) ((L.drop off).take (n % 2 ^ 32))).1 then 0 else 1) ∧
      x.2.1 bo = u8s (L.take off ++ (gen (n % 2 ^ 32) ((L.drop off).take (n % 2 ^ 32))).2 ++ L.drop (off + n % 2 ^ 32)) ∧
      ∀ c, c ≠ bo → x.2.1 c = m c := by
  rw [run_eq windows_randombytes]
  generalize hk : n % 2 ^ 32 = k at *
  refine (text_windows hX hm hk hl).mono ?_
  rintro _ rfl
  exact ⟨rfl, set_same .., fun c hc => set_ne _ _ hc⟩

/-- C90, a request of 4 GiB: if the call for no bytes succeeds, the text returns 0 and has written nothing, as `(unsigned long)nbytes` is 0
(/repo/src/random/random.c:32). -/
theorem C90_four_gib (hX : CNG X bN gen) (hm : m bo = u8s L) (hl : L.length = 2 ^ 32) (hg : (gen 0 []).1 = true) :
    Ret (windowsFile.run (link [windowsFile] X d) "randombytes" [.ptr bo 0 false 1, .int false 8 (2 ^ 32 : Nat)] m nx) fun x =>
      x.1 = .int true 4 0 ∧ x.2.1 bo = m bo := by
  refine (C90_bytes (n := 2 ^ 32) (off := 0) (d := d) (nx := nx) hX hm (by omega)).mono ?_
  rintro x ⟨h1, h2, -⟩
  rw [Nat.mod_self, List.take_zero] at h1 h2
  rw [hg, if_pos rfl] at h1
  rw [List.take_zero, List.eq_nil_of_length_eq_zero (hX.length 0 [] rfl), List.nil_append, List.nil_append, List.drop_zero] at h2
  exact ⟨h1, by rw [h2, hm]⟩

end

/-- What is in an array of bytes without initialiser (C11 6.7.9p10), such as `randomness` and `G2in` (/repo/src/kem.c:28, 91). -/
def stackBytes (X : Ctx) (x : String) (n : Nat) : List U8 := (List.range n).map fun i => BitVec.ofInt 8 (X.junk x i)

theorem uninit_stack {E : Env} {X : Ctx} {t : Nat} {x : String} (h : JunkAt E X t 8 x) (n : Nat) : uninit E.junk t 8 n = stackBytes X x n :=
  List.map_congr_left fun i _ => h i

section

variable {P : Params} {K : KemParams} {nm : String} {G : File} {X Y : Ctx} {bN : Nat} {gen : Nat → List U8 → Bool × List U8} {m : Mem}

theorem Placed.windows {next : Nat} {bs : List Nat} (h : Placed G X m next bs) (hY : CNG Y bN gen) :
    Ready G (withWindows X Y) (rbWindows gen) m next bs where
  arch := h.arch
  rand := withWindows_rand hY
  table := h.table
  rounds := h.rounds
  below := h.below
  distinct := h.distinct
  apart := h.apart

/-- C91.  The text of the KEM with A from AES128, as in the projects for Windows, with the text of `randombytes` there: whether
`BCryptGenRandom` succeeds or fails, `crypto_kem_keypair` returns 0, and leaves the keys of Algorithm 12 for what is in the buffer after the
call.  Its result is not looked at (/repo/src/kem.c:35). -/
theorem C91_keypair (hT : KemTextAes G P K nm) (hY : CNG Y bN gen) {next bp bk : Nat} (h : Placed G X m next [bp, bk]) {pk sk : List U8}
    (hp : m bp = u8s pk) (hk : m bk = u8s sk) (hlp : pk.length = P.pkBytes) (hlk : sk.length = P.skBytes) :
    let R := (gen (2 * P.bytes + P.seedA) (stackBytes X "randomness" (2 * P.bytes + P.seedA))).2
    Ret (callKemAes G (withWindows X Y) ("crypto_kem_keypair_" ++ nm) [bp, bk] m next) fun x => x.1 = .int true 4 0 ∧
      x.2.1 bp = u8s (keygen K (R.take P.bytes) ((R.drop P.bytes).take P.bytes) (R.drop (2 * P.bytes))).1 ∧
      x.2.1 bk = u8s (keygen K (R.take P.bytes) ((R.drop P.bytes).take P.bytes) (R.drop (2 * P.bytes))).2 := by
  intro R
  have r := h.windows hY
  have hd := r.distinct
  simp only [List.nodup_cons, List.mem_singleton, List.not_mem_nil, not_false_eq_true, List.nodup_nil, and_true] at hd
  have ha : ∀ x b s n, (withWindows X Y).glob x = some (.ptr b 0 s n) → b < next ∧ b ≠ bp ∧ b ≠ bk := fun x b s n e => by
    simpa using r.apart x b s n e
  have hb : bp < next := r.below _ (by simp)
  have hb' : bk < next := r.below _ (by simp)
  obtain ⟨bq, k1, k2⟩ := loaded_table r.rounds
  obtain ⟨g1, g2, g3⟩ := ha _ _ _ _ k1
  have hLf : G.Loaded (link [fipsFile] (withWindows X Y) 3) m := Loaded.fips r.table
  obtain ⟨bc, hc, hcl, hmc⟩ := loaded_cdf_aes hT hLf
  obtain ⟨c1, c2, c3⟩ := ha _ _ _ _ (by rwa [link_glob] at hc)
  have ha' : (link [fipsFile] (withWindows X Y) 3).arch = .le := by rw [link_arch, r.arch]
  have hS := hT.standard
  have hW := hS.wf
  have hsm := hT.small
  have hv4 : (0 + 2 * (P.n * P.nbar)) % 4 = 0 := by
    have := hsm.n8
    have : P.n * P.nbar % 2 = 0 := by rw [Nat.mul_mod, show P.n % 2 = 0 by omega, Nat.zero_mul]
    omega
  have j : JunkAt (aesEnv (link [fipsFile] (withWindows X Y) 3) (fipsJunk (withWindows X Y)) "shake_input_seedSE")
      (link [utilFile, G] (withAes (link [fipsFile] (withWindows X Y) 3)) 1) 41 8 "randomness" := aesEnv_junk fun i => rfl
  have hj := uninit_stack j (2 * P.bytes + P.seedA)
  have hst : stackBytes (link [utilFile, G] (withAes (link [fipsFile] (withWindows X Y) 3)) 1) "randomness" (2 * P.bytes + P.seedA) =
      stackBytes X "randomness" (2 * P.bytes + P.seedA) := by
    unfold stackBytes
    rw [link_junk]
    change List.map (fun i => BitVec.ofInt 8 ((link [fipsFile] (withWindows X Y) 3).junk "randomness" i)) _ = _
    rw [link_junk]
    rfl
  have hlR : R.length = 2 * P.bytes + P.seedA := hY.length _ _ (by simp [stackBytes])
  unfold callKemAes
  simp only [List.map_cons, List.map_nil]
  refine ret_refines (text_keypair hT.kem (aesEnv_calls hT ha' (fips_sponge r.arch k1) (Rand.fips r.rand) "shake_input_seedSE" 0 hc hcl) hsm rfl
    j (aesEnv_junk fun i => rfl) hp hk hmc k2 hb hb' c1 g1 hd c2 c3 g2 g3 hlp (by rw [hlk, hW.sk]))
    (crypto_kem_keypair_ret (R := R) hW ⟨aes_aligned, fun _ => ⟨rfl, hv4⟩⟩ ?_ hlR (by omega) (by omega)) ?_
  · rw [← Nat.two_mul, hj, hst]
    unfold rbWindows
    rw [if_pos (by simp [stackBytes])]
    refine Ret_pure.2 ?_
    dsimp only
    rw [List.take_of_length_le (by simp [stackBytes]), List.drop_eq_nil_of_le (by simp [stackBytes]), List.append_nil]
  · rintro o x ⟨h1, h2, -⟩ ⟨x1, -, x3⟩
    have e : P.kem (genA aesBuild.gen P.logq P.n) = K := hS.kem
    rw [e] at h1 h2
    rw [List.drop_of_length_le (l := pk) (by omega), List.append_nil] at h1
    rw [List.drop_of_length_le (l := sk) (by omega), List.append_nil] at h2
    refine ⟨x1, ?_, ?_⟩
    · rw [x3 bp (by omega), fr_arg hb, h1]; simp [out2, Mem.set, hd]
    · rw [x3 bk (by omega), fr_arg hb', h2]; simp [out2, Mem.set]

/-- C91, `crypto_kem_enc`: it returns 0, and the ciphertext and the shared secret are those of Algorithm 13 for what is in the buffer after the
call of `BCryptGenRandom` (/repo/src/kem.c:104). -/
theorem C91_enc (hT : KemTextAes G P K nm) (hY : CNG Y bN gen) {next bt bs bp : Nat} (h : Placed G X m next [bt, bs, bp]) {ct ss pk : List U8}
    (ht : m bt = u8s ct) (hs : m bs = u8s ss) (hp : m bp = u8s pk) (hlt : ct.length = P.ctBytes) (hls : ss.length = P.bytes)
    (hlp : pk.length = P.pkBytes) :
    let mu := (gen P.bytes ((stackBytes X "G2in" (2 * P.bytes)).drop P.bytes)).2
    Ret (callKemAes G (withWindows X Y) ("crypto_kem_enc_" ++ nm) [bt, bs, bp] m next) fun x => x.1 = .int true 4 0 ∧
      x.2.1 bt = u8s (encaps K pk mu).1 ∧ x.2.1 bs = u8s (encaps K pk mu).2 := by
  intro mu
  have r := h.windows hY
  have hd := r.distinct
  simp only [List.nodup_cons, List.mem_cons, List.not_mem_nil, not_false_eq_true, List.nodup_nil, and_true, not_or, or_false] at hd
  obtain ⟨⟨ne1, ne2⟩, ne3⟩ := hd
  have ha : ∀ x b s n, (withWindows X Y).glob x = some (.ptr b 0 s n) → b < next ∧ b ≠ bt ∧ b ≠ bs := fun x b s n e => by
    have := r.apart x b s n e
    simp at this
    tauto
  have hb : bt < next := r.below _ (by simp)
  have hb' : bs < next := r.below _ (by simp)
  have hb'' : bp < next := r.below _ (by simp)
  obtain ⟨bq, k1, k2⟩ := loaded_table r.rounds
  obtain ⟨g1, g2, g3⟩ := ha _ _ _ _ k1
  have hLf : G.Loaded (link [fipsFile] (withWindows X Y) 3) m := Loaded.fips r.table
  obtain ⟨bc, hc, hcl, hmc⟩ := loaded_cdf_aes hT hLf
  obtain ⟨c1, c2, c3⟩ := ha _ _ _ _ (by rwa [link_glob] at hc)
  have ha' : (link [fipsFile] (withWindows X Y) 3).arch = .le := by rw [link_arch, r.arch]
  have hS := hT.standard
  have hW := hS.wf
  have hsm := hT.small
  have hbm := hW.bytes
  have j : JunkAt (aesEnv (link [fipsFile] (withWindows X Y) 3) (fipsJunk (withWindows X Y)) "shake_input_seedSE")
      (link [utilFile, G] (withAes (link [fipsFile] (withWindows X Y) 3)) 1) 42 8 "G2in" := aesEnv_junk fun i => rfl
  have hj := uninit_stack j (2 * P.bytes)
  have hst : stackBytes (link [utilFile, G] (withAes (link [fipsFile] (withWindows X Y) 3)) 1) "G2in" (2 * P.bytes) =
      stackBytes X "G2in" (2 * P.bytes) := by
    unfold stackBytes
    rw [link_junk]
    change List.map (fun i => BitVec.ofInt 8 ((link [fipsFile] (withWindows X Y) 3).junk "G2in" i)) _ = _
    rw [link_junk]
    rfl
  have hl0 : ((stackBytes X "G2in" (2 * P.bytes)).drop P.bytes).length = P.bytes := by simp [stackBytes]; omega
  have hlm : mu.length = P.bytes := hY.length _ _ hl0
  unfold callKemAes
  simp only [List.map_cons, List.map_nil]
  refine ret_refines (text_enc hT.kem (aesEnv_calls hT ha' (fips_sponge r.arch k1) (Rand.fips r.rand) "shake_input_seedSE" 0 hc hcl) hsm rfl
    j (aesEnv_junk fun i => rfl) (aesEnv_junk fun i => rfl) (aesEnv_junk fun i => rfl)
    ht hs hp hmc k2 hb hb' hb'' c1 g1 ne1 (Ne.symm ne2) (Ne.symm ne3) c2 c3 g2 g3 hlt hlp)
    (crypto_kem_enc_ret (R := mu) hW ⟨aes_aligned, fun h => absurd h (by decide)⟩ ?_ ?_ (by omega) (by omega) (by omega) (by omega)) ?_
  · change (0 + P.bytes) % 2 = 0
    rw [Nat.zero_add]
    exact hsm.even
  · rw [← hbm, ← Nat.two_mul, hj, hst]
    unfold rbWindows
    rw [if_pos (by omega)]
    refine Ret_pure.2 ?_
    dsimp only
    rw [List.take_of_length_le (by omega), List.drop_eq_nil_of_le (as := List.drop P.bytes _) (by omega), List.append_nil]
  · rintro o x ⟨h1, h2, -⟩ ⟨x1, -, x3⟩
    rw [matA_kem hS (.inr rfl), List.take_of_length_le (by omega)] at h1 h2
    rw [List.drop_of_length_le (by omega), List.append_nil] at h1 h2
    refine ⟨x1, ?_, ?_⟩
    · rw [x3 bt (by omega), fr_arg hb, h1]; simp [out2, Mem.set, ne1]
    · rw [x3 bs (by omega), fr_arg hb', h2]; simp [out2, Mem.set]

/-- C91, if `BCryptGenRandom` fails and leaves the buffer alone: the keys are a function of what was on the stack, and `crypto_kem_keypair`
reports success.  `C16_keypair_ignores_failure` on the text. -/
theorem C91_keypair_stack (hT : KemTextAes G P K nm) (hY : CNG Y bN fun _ old => (false, old)) {next bp bk : Nat}
    (h : Placed G X m next [bp, bk]) {pk sk : List U8} (hp : m bp = u8s pk) (hk : m bk = u8s sk) (hlp : pk.length = P.pkBytes)
    (hlk : sk.length = P.skBytes) :
    let R := stackBytes X "randomness" (2 * P.bytes + P.seedA)
    Ret (callKemAes G (withWindows X Y) ("crypto_kem_keypair_" ++ nm) [bp, bk] m next) fun x => x.1 = .int true 4 0 ∧
      x.2.1 bp = u8s (keygen K (R.take P.bytes) ((R.drop P.bytes).take P.bytes) (R.drop (2 * P.bytes))).1 ∧
      x.2.1 bk = u8s (keygen K (R.take P.bytes) ((R.drop P.bytes).take P.bytes) (R.drop (2 * P.bytes))).2 :=
  C91_keypair hT hY h hp hk hlp hlk

end

/-! ## Concrete cases -/

/-- A machine on which `BCryptGenRandom` fails and leaves the buffer alone (the call of /repo/src/random/random.c:32). -/
def cngFails : Ctx where
  arch := .le
  glob x := if x = "NULL" then some (.ptr 0 0 false 1) else none
  junk _ _ := 0
  call f _ m nx := if f = "BCryptGenRandom" then pure (.int true 4 (-1073741823), m, nx) else .ub .oobRead

theorem cngFails_cng : CNG cngFails 0 fun _ old => (false, old) where
  null := rfl
  length _ _ h := h
  call {bo off k L m nx} hm hl hk := by
    refine Ret_pure.2 ⟨-1073741823, ?_, by decide, by decide, by simp⟩
    dsimp only
    rw [List.append_assoc, ← List.drop_drop, List.take_append_drop, List.take_append_drop, ← hm]
    congr 2
    funext b
    by_cases e : b = bo
    · rw [e, set_same]
    · rw [set_ne _ _ e]

/-- A machine on which it delivers the bytes `7, 8, 9, …` (/repo/src/random/random.c:32). -/
def cngWorks : Ctx where
  arch := .le
  glob x := if x = "NULL" then some (.ptr 0 0 false 1) else none
  junk _ _ := 0
  call f args m nx := match args with
    | [_, .ptr bo off _ _, .int _ _ k, _] =>
      if f = "BCryptGenRandom" then
        pure (.int true 4 0, m.set bo ⟨false, 1, (m bo).data.take off ++ ofU8 ((List.range k.toNat).map fun i => BitVec.ofNat 8 (i + 7)) ++
          (m bo).data.drop (off + k.toNat)⟩, nx)
      else .ub .oobRead
    | _ => .ub .oobRead

theorem cngWorks_cng : CNG cngWorks 0 fun k _ => (true, (List.range k).map fun i => BitVec.ofNat 8 (i + 7)) where
  null := rfl
  length _ _ h := by simp
  call {bo off k L m nx} hm hl hk := by
    refine Ret_pure.2 ⟨0, ?_, by decide, by decide, by simp⟩
    dsimp only
    rw [hm, Int.toNat_natCast]
    simp only [u8s, ofU8, List.map_append, List.map_take, List.map_drop]

/-- C90_bytes: four bytes in the middle of a buffer, delivered. -/
example : ∃ m : Mem, Ret (windowsFile.run (link [windowsFile] cngWorks 0) "randombytes" [.ptr 3 1 false 1, .int false 8 4] m 4) fun x =>
    x.1 = .int true 4 0 ∧ x.2.1 3 = u8s [1, 7, 8, 9, 10, 6] :=
  ⟨fun _ => u8s [1, 2, 3, 4, 5, 6], (C90_bytes (n := 4) (L := [1, 2, 3, 4, 5, 6]) cngWorks_cng rfl (by decide)).mono fun _ h => ⟨h.1, h.2.1⟩⟩

/-- C90_bytes: and not delivered. -/
example : ∃ m : Mem, Ret (windowsFile.run (link [windowsFile] cngFails 0) "randombytes" [.ptr 3 1 false 1, .int false 8 4] m 4) fun x =>
    x.1 = .int true 4 1 ∧ x.2.1 3 = u8s [1, 2, 3, 4, 5, 6] :=
  ⟨fun _ => u8s [1, 2, 3, 4, 5, 6], (C90_bytes (n := 4) (L := [1, 2, 3, 4, 5, 6]) cngFails_cng rfl (by decide)).mono fun _ h => ⟨h.1, h.2.1⟩⟩

/-- C90_four_gib. -/
example : ∃ m : Mem, Ret (windowsFile.run (link [windowsFile] cngWorks 0) "randombytes" [.ptr 3 0 false 1, .int false 8 (2 ^ 32 : Nat)] m 4)
    fun x => x.1 = .int true 4 0 ∧ x.2.1 3 = u8s (List.replicate (2 ^ 32) 5) :=
  ⟨fun _ => u8s (List.replicate (2 ^ 32) 5), C90_four_gib cngWorks_cng rfl List.length_replicate rfl⟩

/-- C91_keypair_stack: FrodoKEM-640-AES on the machine on which `BCryptGenRandom` fails. -/
example : ∃ m : Mem, Ret (callKemAes unitOpt640 (withWindows (demoFips frodo640 (rbConst [])) cngFails) "crypto_kem_keypair_Frodo640" [1, 2] m 10)
    fun x => x.1 = .int true 4 0 :=
  ⟨fun b => if b = 0 then u16s frodo640.cdf else if b = 1 then u8s (List.replicate 9616 0) else if b = 9 then
      u64s KeccakF_RoundConstants else u8s (List.replicate 19888 4),
    (C91_keypair_stack .frodo640 cngFails_cng (demo_placed _ _ _ (demoOpt_loaded _ _ rfl) rfl (by decide) (by decide)) rfl rfl
      List.length_replicate List.length_replicate).mono fun _ h => h.1⟩

/-- C91_enc: and on the one on which it works. -/
example : ∃ m : Mem, Ret (callKemAes unitOpt640 (withWindows (demoFips frodo640 (rbConst [])) cngWorks) "crypto_kem_enc_Frodo640" [1, 2, 3] m 10)
    fun x => x.1 = .int true 4 0 ∧ x.2.1 1 = u8s (encaps (Frodo640 .aes) (List.replicate 9616 4)
      ((List.range 16).map fun i => BitVec.ofNat 8 (i + 7))).1 :=
  ⟨fun b => if b = 0 then u16s frodo640.cdf else if b = 1 then u8s (List.replicate 9720 0) else if b = 9 then
      u64s KeccakF_RoundConstants else if b = 2 then u8s (List.replicate 16 0) else u8s (List.replicate 9616 4),
    (C91_enc .frodo640 cngWorks_cng (demo_placed _ _ _ (demoOpt_loaded _ _ rfl) rfl (by decide) (by decide)) rfl rfl rfl
      List.length_replicate List.length_replicate List.length_replicate).mono fun _ h => ⟨h.1, h.2.1⟩⟩

end Frodo.Props
