import Verif.Proof.TaintExec
import Verif.Props.TextOptAes
import Verif.Props.TextRefAes
import Verif.Props.TextTrip
import Verif.Text.Claims

/-! # C92: what the text of the KEM does in memory does not depend on secrets

Two runs of the text of a function, in memories of the same shape with whatever contents, and with whatever random bytes.  If both return,
then they have read and written the same elements and have taken the same branches. -/

namespace Frodo.Props

open Src Spec

/-- The same blocks with elements of the same types, as many; the values of the elements may differ. -/
def SameShape (m m' : Mem) : Prop := ∀ b, (m b).s = (m' b).s ∧ (m b).n = (m' b).n ∧ (m b).data.length = (m' b).data.length

/-- Two numbers of the same type, or no values. -/
def SameKind : Val → Val → Prop
  | .int s n _, .int s' n' _ => s = s' ∧ n = n'
  | .undef t, .undef t' => t = t'
  | _, _ => False

/-- Two programs that differ at most in the bytes that `randombytes` delivers, in the status that it reports, and in the contents of
variables that are not initialised.  There are no global variables but the tables of the distribution and of the round constants
(/repo/src/frodo640.c:32-33, /repo/src/sha3/fips202.c:44). -/
structure Alike (X Y : Ctx) : Prop where
  arch : X.arch = Y.arch
  glob : X.glob = Y.glob
  names : ∀ x, X.glob x ≠ none → x = "CDF_TABLE" ∨ x = "CDF_TABLE_LEN" ∨ x = "KeccakF_RoundConstants"
  rand : ∀ (p n : Val) (m m' : Mem) (next : Nat) (r q t u), SameShape m m' → X.call "randombytes" [p, n] m next = .ok r t →
    Y.call "randombytes" [p, n] m' next = .ok q u → t = u ∧ SameKind r.1 q.1 ∧ SameShape r.2.1 q.2.1 ∧ r.2.2 = q.2.2

theorem Alike.xrel {X Y : Ctx} (h : Alike X Y) : XRel X Y globNames where
  arch := h.arch
  glob := h.glob
  names x hx := by simpa [globNames] using h.names x hx
  plain x := by
    by_contra hx
    have e : ("&" ++ x).toList.head? = some '&' := by rw [String.toList_append]; rfl
    rcases h.names _ hx with h | h | h <;> rw [h] at e <;> exact absurd e (by decide)

theorem VRel.kind {v w : Val} : VRel .sec v w ↔ SameKind v w := by cases v <;> cases w <;> exact Iff.rfl

theorem Alike.calm {X Y : Ctx} (h : Alike X Y) : Calm randSig X Y := by
  intro f ps l hf as bs m m' nx ha hm
  unfold randSig at hf
  split at hf
  · rename_i e
    subst e
    cases hf
    rcases as with _ | ⟨x, _ | ⟨y, _ | ⟨z, as⟩⟩⟩ <;> rcases bs with _ | ⟨x', _ | ⟨y', _ | ⟨z', bs⟩⟩⟩ <;>
      first | exact ha.elim | exact ha.2.elim | exact ha.2.2.elim | skip
    obtain ⟨rfl, rfl, -⟩ := ha
    intro r t q u h1 h2
    obtain ⟨h3, h4, h5, h6⟩ := h.rand x y m m' nx r q t u hm h1 h2
    exact ⟨h3, VRel.kind.2 h4, h5, h6⟩
  · cases hf

theorem calm_mono {S E : Sig} {X Y : Ctx} (h : Calm S X Y) (hE : ∀ f x, E f = some x → S f = some x) : Calm E X Y :=
  fun f ps l hf => h f ps l (hE f _ hf)

theorem ARel.same : ∀ (as : List Val), ARel (List.replicate as.length .any) as as
  | [] => trivial
  | _ :: as => ⟨rfl, ARel.same as⟩

/-- The text of SHAKE. -/
theorem shake_calm {X Y : Ctx} (h : Alike X Y) (d : Nat) : Calm (sigOf fipsClaims randSig) (link [fipsFile] X d) (link [fipsFile] Y d) :=
  link_calm h.xrel fips_ok h.calm (fun f hf => by
    unfold randSig at hf
    split at hf
    · rename_i e; subst e; kernel_rfl
    · exact absurd rfl hf) d

theorem kemSig_fips {f : String} {x : List Lab × Lab} (h : kemSig f = some x) : sigOf fipsClaims randSig f = some x := by
  unfold kemSig at h
  split at h
  · rename_i e; subst e; rw [← h]; kernel_rfl
  · split at h
    · rename_i e; subst e; rw [← h]; kernel_rfl
    · unfold randSig at h
      split at h
      · rename_i e; subst e; rw [← h]; kernel_rfl
      · cases h

/-- The names of the functions of the KEM and how many arguments they take (/repo/src/kem.c:15, 78, 153, /repo/src/util.c:13, 62, 111, 135,
/repo/src/noise.c:10, /repo/src/frodo_macrify.c:21, 126, 275, 293, 311, 322, 333, 353). -/
def kemFuns (nm : String) : List (String × Nat) :=
  [("crypto_kem_keypair_" ++ nm, 2), ("crypto_kem_enc_" ++ nm, 3), ("crypto_kem_dec_" ++ nm, 3), ("frodo_pack", 5), ("frodo_unpack", 5),
   ("clear_bytes", 2), ("frodo_sample_n", 2), ("frodo_mul_add_as_plus_e", 4), ("frodo_mul_add_sa_plus_e", 4), ("frodo_mul_bs", 3),
   ("frodo_mul_add_sb_plus_e", 4), ("frodo_add", 3), ("frodo_sub", 3), ("frodo_key_encode", 2), ("frodo_key_decode", 2)]

section

variable {G : File} {P : Params} {K : KemParams} {nm : String} {X Y : Ctx} {e d : Nat}

theorem kem_calm (hT : KemText G P K nm) (h : Alike X Y) : ∃ as sa, Calm (sigOf (kemClaims nm as sa) kemSig)
    (link [utilFile, G] (link [fipsFile] X e) d) (link [utilFile, G] (link [fipsFile] Y e) d) := by
  have h1 := h.xrel.link [fipsFile] e
  have h2 : Calm kemSig (link [fipsFile] X e) (link [fipsFile] Y e) := calm_mono (shake_calm h e) fun _ _ => kemSig_fips
  have h3 : ∀ f, kemSig f ≠ none → f = "shake128" ∨ f = "shake256" ∨ f = "randombytes" := fun f hf => by
    simp only [kemSig, randSig] at hf
    split at hf
    · exact .inl ‹_›
    · split at hf
      · exact .inr (.inl ‹_›)
      · split at hf
        · exact .inr (.inr ‹_›)
        · exact absurd rfl hf
  cases hT
  · exact ⟨_, _, link_calm h1 unit640_ok h2 (fun f hf => by rcases h3 f hf with rfl | rfl | rfl <;> kernel_rfl) d⟩
  · exact ⟨_, _, link_calm h1 unit976_ok h2 (fun f hf => by rcases h3 f hf with rfl | rfl | rfl <;> kernel_rfl) d⟩
  · exact ⟨_, _, link_calm h1 unit1344_ok h2 (fun f hf => by rcases h3 f hf with rfl | rfl | rfl <;> kernel_rfl) d⟩
  · exact ⟨_, _, link_calm h1 unitFast640_ok h2 (fun f hf => by rcases h3 f hf with rfl | rfl | rfl <;> kernel_rfl) d⟩
  · exact ⟨_, _, link_calm h1 unitFast976_ok h2 (fun f hf => by rcases h3 f hf with rfl | rfl | rfl <;> kernel_rfl) d⟩
  · exact ⟨_, _, link_calm h1 unitFast1344_ok h2 (fun f hf => by rcases h3 f hf with rfl | rfl | rfl <;> kernel_rfl) d⟩

theorem kem_sig {as sa : List String} {E : Sig} (hn : nm = "Frodo640" ∨ nm = "Frodo976" ∨ nm = "Frodo1344") {f : String} {k : Nat}
    (hf : (f, k) ∈ kemFuns nm) : sigOf (kemClaims nm as sa) E f = some (List.replicate k .any, .any) := by
  simp only [kemFuns, List.mem_cons, Prod.mk.injEq, List.not_mem_nil, or_false] at hf
  rcases hn with rfl | rfl | rfl <;>
    rcases hf with ⟨rfl, rfl⟩ | ⟨rfl, rfl⟩ | ⟨rfl, rfl⟩ | ⟨rfl, rfl⟩ | ⟨rfl, rfl⟩ | ⟨rfl, rfl⟩ | ⟨rfl, rfl⟩ | ⟨rfl, rfl⟩ | ⟨rfl, rfl⟩ | ⟨rfl, rfl⟩ |
      ⟨rfl, rfl⟩ | ⟨rfl, rfl⟩ | ⟨rfl, rfl⟩ | ⟨rfl, rfl⟩ | ⟨rfl, rfl⟩ <;> kernel_rfl

/-- C92.  Two runs of any function of the text, called with the same arguments in memories of the same shape: if both return, then they
return the same value, with the same trace. -/
theorem C92_functions (hT : KemText G P K nm) (h : Alike X Y) {f : String} {k : Nat} (hf : (f, k) ∈ kemFuns nm) {args : List Val}
    (hk : args.length = k) {m m' : Mem} (hm : SameShape m m') {next : Nat} {r q t u}
    (h1 : (link [utilFile, G] (link [fipsFile] X e) d).call f args m next = .ok r t)
    (h2 : (link [utilFile, G] (link [fipsFile] Y e) d).call f args m' next = .ok q u) :
    t = u ∧ r.1 = q.1 ∧ SameShape r.2.1 q.2.1 ∧ r.2.2 = q.2.2 := by
  obtain ⟨as, sa, hC⟩ := kem_calm (e := e) (d := d) hT h
  have hn : nm = "Frodo640" ∨ nm = "Frodo976" ∨ nm = "Frodo1344" := by
    cases hT <;> first | exact .inl rfl | exact .inr (.inl rfl) | exact .inr (.inr rfl)
  subst hk
  obtain ⟨h3, h4, h5, h6⟩ := hC f _ _ (kem_sig hn hf) args args m m' next (ARel.same args) hm _ _ _ _ h1 h2
  exact ⟨h3, h4, h5, h6⟩

/-- C92, `ct_verify`: the result may differ. -/
theorem C92_verify (hT : KemText G P K nm) (h : Alike X Y) {a b len : Val} {m m' : Mem} (hm : SameShape m m') {next : Nat} {r q t u}
    (h1 : (link [utilFile, G] (link [fipsFile] X e) d).call "ct_verify" [a, b, len] m next = .ok r t)
    (h2 : (link [utilFile, G] (link [fipsFile] Y e) d).call "ct_verify" [a, b, len] m' next = .ok q u) :
    t = u ∧ SameShape r.2.1 q.2.1 := by
  obtain ⟨as, sa, hC⟩ := kem_calm (e := e) (d := d) hT h
  obtain ⟨h3, h4, h5, h6⟩ := hC "ct_verify" [.any, .any, .any] .sec rfl [a, b, len] [a, b, len] m m' next ⟨rfl, rfl, rfl, trivial⟩ hm _ _ _ _ h1 h2
  exact ⟨h3, h5⟩

/-- C92, `ct_select`: the selector may differ. -/
theorem C92_select (hT : KemText G P K nm) (h : Alike X Y) {r a b len : Val} {x y : Int} {m m' : Mem} (hm : SameShape m m') {next : Nat}
    {p q t u} (h1 : (link [utilFile, G] (link [fipsFile] X e) d).call "ct_select" [r, a, b, len, .int true 1 x] m next = .ok p t)
    (h2 : (link [utilFile, G] (link [fipsFile] Y e) d).call "ct_select" [r, a, b, len, .int true 1 y] m' next = .ok q u) :
    t = u ∧ SameShape p.2.1 q.2.1 := by
  obtain ⟨as, sa, hC⟩ := kem_calm (e := e) (d := d) hT h
  obtain ⟨h3, h4, h5, h6⟩ := hC "ct_select" [.any, .any, .any, .any, .sec] .any rfl [r, a, b, len, .int true 1 x] [r, a, b, len, .int true 1 y] m m'
    next ⟨rfl, rfl, rfl, rfl, ⟨rfl, rfl⟩, trivial⟩ hm _ _ _ _ h1 h2
  exact ⟨h3, h5⟩

/-- C92, SHAKE: the trace depends on the lengths of input and output only. -/
theorem C92_shake (h : Alike X Y) {f : String} (hf : f = "shake128" ∨ f = "shake256") {out outlen inp inlen : Val} {m m' : Mem}
    (hm : SameShape m m') {next : Nat} {r q t u} (h1 : (link [fipsFile] X d).call f [out, outlen, inp, inlen] m next = .ok r t)
    (h2 : (link [fipsFile] Y d).call f [out, outlen, inp, inlen] m' next = .ok q u) : t = u ∧ SameShape r.2.1 q.2.1 := by
  have e : sigOf fipsClaims randSig f = some (List.replicate 4 .any, .any) := by rcases hf with rfl | rfl <;> kernel_rfl
  obtain ⟨h3, h4, h5, h6⟩ := shake_calm h d f _ _ e _ _ m m' next (ARel.same [out, outlen, inp, inlen]) hm _ _ _ _ h1 h2
  exact ⟨h3, h5⟩

/-- The call of a function of the KEM from outside. -/
theorem callKem_eq {Z : Ctx} {f : String} {g : Fun} (hu : utilFile.fn f = none) (hg : G.fn f = some g) (h1 : f ≠ "memset") (h2 : f ≠ "memcpy")
    (bs : List Nat) (m : Mem) (next : Nat) :
    callKem G Z f bs m next = (link [utilFile, G] (link [fipsFile] Z 3) 2).call f (bs.map fun b => .ptr b 0 false 1) m next := by
  rw [callKem, run_eq hg, link_fn (g := g) (fn_second hu hg) h1 h2]

theorem callKem_keypair (hT : KemText G P K nm) (Z : Ctx) (bs : List Nat) (m : Mem) (next : Nat) : callKem G Z ("crypto_kem_keypair_" ++ nm) bs m next =
    (link [utilFile, G] (link [fipsFile] Z 3) 2).call ("crypto_kem_keypair_" ++ nm) (bs.map fun b => .ptr b 0 false 1) m next :=
  callKem_eq (by cases hT <;> kernel_rfl) hT.kem.keypair (by cases hT <;> decide) (by cases hT <;> decide) bs m next

theorem callKem_enc (hT : KemText G P K nm) (Z : Ctx) (bs : List Nat) (m : Mem) (next : Nat) : callKem G Z ("crypto_kem_enc_" ++ nm) bs m next =
    (link [utilFile, G] (link [fipsFile] Z 3) 2).call ("crypto_kem_enc_" ++ nm) (bs.map fun b => .ptr b 0 false 1) m next :=
  callKem_eq (by cases hT <;> kernel_rfl) hT.kem.enc (by cases hT <;> decide) (by cases hT <;> decide) bs m next

theorem callKem_dec (hT : KemText G P K nm) (Z : Ctx) (bs : List Nat) (m : Mem) (next : Nat) : callKem G Z ("crypto_kem_dec_" ++ nm) bs m next =
    (link [utilFile, G] (link [fipsFile] Z 3) 2).call ("crypto_kem_dec_" ++ nm) (bs.map fun b => .ptr b 0 false 1) m next :=
  callKem_eq (by cases hT <;> kernel_rfl) hT.kem.dec (by cases hT <;> decide) (by cases hT <;> decide) bs m next

variable {rb rb' : RandomBytes} {m m' : Mem} {next : Nat}

/-- C92, key generation: with whatever random bytes the same trace, and the keys of the specification. -/
theorem C92_keypair (hT : KemText G P K nm) (h : Alike X Y) {bp bk : Nat} (hX : Ready G X rb m next [bp, bk])
    (hY : Ready G Y rb' m' next [bp, bk]) (hm : SameShape m m') {s seedSE z pk sk s' seedSE' z' pk' sk' : List U8}
    (hs : s.length = K.len) (hse : seedSE.length = K.len) (hz : z.length = K.lenA) (hrb : Fills rb (s ++ seedSE ++ z))
    (hp : m bp = u8s pk) (hk : m bk = u8s sk) (hlp : pk.length = P.pkBytes) (hlk : sk.length = P.skBytes)
    (hs' : s'.length = K.len) (hse' : seedSE'.length = K.len) (hz' : z'.length = K.lenA) (hrb' : Fills rb' (s' ++ seedSE' ++ z'))
    (hp' : m' bp = u8s pk') (hk' : m' bk = u8s sk') (hlp' : pk'.length = P.pkBytes) (hlk' : sk'.length = P.skBytes) :
    ∃ t r q, callKem G X ("crypto_kem_keypair_" ++ nm) [bp, bk] m next = .ok r t ∧
      callKem G Y ("crypto_kem_keypair_" ++ nm) [bp, bk] m' next = .ok q t ∧
      r.2.1 bk = u8s (keygen K s seedSE z).2 ∧ q.2.1 bk = u8s (keygen K s' seedSE' z').2 := by
  obtain ⟨r, t, e1, h1⟩ := hX.keypair hT hs hse hz hrb hp hk hlp hlk
  obtain ⟨q, u, e2, h2⟩ := hY.keypair hT hs' hse' hz' hrb' hp' hk' hlp' hlk'
  rw [callKem_keypair hT] at e1 e2 ⊢
  rw [callKem_keypair hT]
  obtain ⟨rfl, -⟩ := C92_functions hT h (k := 2) (by simp [kemFuns]) rfl hm e1 e2
  exact ⟨t, r, q, e1, e2, h1.2.2, h2.2.2⟩

/-- C92, encapsulation: with whatever public keys and messages the same trace, and the secrets of the specification. -/
theorem C92_enc (hT : KemText G P K nm) (h : Alike X Y) {bt bs bp : Nat} (hX : Ready G X rb m next [bt, bs, bp])
    (hY : Ready G Y rb' m' next [bt, bs, bp]) (hm : SameShape m m') {mu ct ss pk mu' ct' ss' pk' : List U8}
    (hmu : mu.length = K.len) (hrb : Fills rb mu) (ht : m bt = u8s ct) (hs : m bs = u8s ss) (hp : m bp = u8s pk)
    (hlt : ct.length = P.ctBytes) (hls : ss.length = P.bytes) (hlp : pk.length = P.pkBytes)
    (hmu' : mu'.length = K.len) (hrb' : Fills rb' mu') (ht' : m' bt = u8s ct') (hs' : m' bs = u8s ss') (hp' : m' bp = u8s pk')
    (hlt' : ct'.length = P.ctBytes) (hls' : ss'.length = P.bytes) (hlp' : pk'.length = P.pkBytes) :
    ∃ t r q, callKem G X ("crypto_kem_enc_" ++ nm) [bt, bs, bp] m next = .ok r t ∧
      callKem G Y ("crypto_kem_enc_" ++ nm) [bt, bs, bp] m' next = .ok q t ∧
      r.2.1 bs = u8s (encaps K pk mu).2 ∧ q.2.1 bs = u8s (encaps K pk' mu').2 := by
  obtain ⟨r, t, e1, h1⟩ := hX.enc hT hmu hrb ht hs hp hlt hls hlp
  obtain ⟨q, u, e2, h2⟩ := hY.enc hT hmu' hrb' ht' hs' hp' hlt' hls' hlp'
  rw [callKem_enc hT] at e1 e2 ⊢
  rw [callKem_enc hT]
  obtain ⟨rfl, -⟩ := C92_functions hT h (k := 3) (by simp [kemFuns]) rfl hm e1 e2
  exact ⟨t, r, q, e1, e2, h1.2.2, h2.2.2⟩

/-- C92, decapsulation: with whatever ciphertexts and secret keys the same trace, and the secrets of the specification; so the trace does not
tell whether the ciphertext was accepted. -/
theorem C92_dec (hT : KemText G P K nm) (h : Alike X Y) {bs bt bk : Nat} (hX : Ready G X rb m next [bs, bt, bk])
    (hY : Ready G Y rb' m' next [bs, bt, bk]) (hm : SameShape m m') {ss ct sk ss' ct' sk' : List U8}
    (hs : m bs = u8s ss) (ht : m bt = u8s ct) (hk : m bk = u8s sk) (hls : ss.length = P.bytes) (hlt : ct.length = P.ctBytes)
    (hlk : sk.length = P.skBytes) (hs' : m' bs = u8s ss') (ht' : m' bt = u8s ct') (hk' : m' bk = u8s sk') (hls' : ss'.length = P.bytes)
    (hlt' : ct'.length = P.ctBytes) (hlk' : sk'.length = P.skBytes) :
    ∃ t r q, callKem G X ("crypto_kem_dec_" ++ nm) [bs, bt, bk] m next = .ok r t ∧
      callKem G Y ("crypto_kem_dec_" ++ nm) [bs, bt, bk] m' next = .ok q t ∧
      r.2.1 bs = u8s (decaps K ct sk) ∧ q.2.1 bs = u8s (decaps K ct' sk') := by
  obtain ⟨r, t, e1, h1⟩ := hX.dec hT hs ht hk hls hlt hlk
  obtain ⟨q, u, e2, h2⟩ := hY.dec hT hs' ht' hk' hls' hlt' hlk'
  rw [callKem_dec hT] at e1 e2 ⊢
  rw [callKem_dec hT]
  obtain ⟨rfl, -⟩ := C92_functions hT h (k := 3) (by simp [kemFuns]) rfl hm e1 e2
  exact ⟨t, r, q, e1, e2, h1.2, h2.2⟩

end

/-! ## A from AES128 -/

/-- Two programs as in `Alike`, in which each of the functions for AES128 has the same trace whatever the contents of memory, as with the
AES instructions of the processor. -/
structure AlikeAes (X Y : Ctx) : Prop extends Alike X Y where
  aes : ∀ (f : String) (args : List Val) (m m' : Mem) (next : Nat) (r q t u), f = "AES128_load_schedule" ∨ f = "AES128_ECB_enc_sch" ∨
    f = "AES128_free_schedule" → SameShape m m' → X.call f args m next = .ok r t → Y.call f args m' next = .ok q u →
    t = u ∧ r.1 = q.1 ∧ SameShape r.2.1 q.2.1 ∧ r.2.2 = q.2.2

theorem ARel.eq : ∀ {k : Nat} {as bs : List Val}, ARel (List.replicate k .any) as bs → as = bs
  | 0, [], [], _ => rfl
  | 0, [], _ :: _, h => h.elim
  | 0, _ :: _, _, h => h.elim
  | k + 1, [], _, h => h.elim
  | k + 1, _ :: _, [], h => h.elim
  | k + 1, a :: as, b :: bs, h => by rw [(h.1 : a = b), ARel.eq (k := k) h.2]

theorem withAesSig_cases {E : Sig} {f : String} {x : List Lab × Lab} (h : withAesSig E f = some x) :
    (f = "AES128_load_schedule" ∨ f = "AES128_ECB_enc_sch" ∨ f = "AES128_free_schedule") ∧ (∃ k, x = (List.replicate k .any, .any)) ∨
    E f = some x := by
  unfold withAesSig at h
  split at h
  · cases h; exact .inl ⟨.inl ‹_›, 2, rfl⟩
  · split at h
    · cases h; exact .inl ⟨.inr (.inl ‹_›), 4, rfl⟩
    · split at h
      · cases h; exact .inl ⟨.inr (.inr ‹_›), 1, rfl⟩
      · exact .inr h

theorem AlikeAes.calm {X Y : Ctx} (h : AlikeAes X Y) : Calm (withAesSig randSig) X Y := by
  intro f ps l hf as bs m m' nx ha hm
  rcases withAesSig_cases hf with ⟨h1, k, e⟩ | h1
  · cases e
    cases ARel.eq ha
    intro r t q u h2 h3
    exact h.aes f as m m' nx r q t u h1 hm h2 h3
  · exact h.toAlike.calm f ps l h1 as bs m m' nx ha hm

theorem AlikeAes.fips_calm {X Y : Ctx} (h : AlikeAes X Y) (e : Nat) : Calm (withAesSig kemSig) (link [fipsFile] X e) (link [fipsFile] Y e) := by
  have g0 : Calm (sigOf fipsClaims (withAesSig randSig)) (link [fipsFile] X e) (link [fipsFile] Y e) :=
    link_calm h.xrel fipsAes_ok h.calm (fun f hf => by
      obtain ⟨x, hx⟩ := Option.ne_none_iff_exists'.1 hf
      rcases withAesSig_cases hx with ⟨rfl | rfl | rfl, -⟩ | hx
      · kernel_rfl
      · kernel_rfl
      · kernel_rfl
      · unfold randSig at hx
        split at hx
        · rename_i e; subst e; kernel_rfl
        · cases hx) e
  exact calm_mono g0 fun f x hx => by
    unfold withAesSig kemSig randSig at hx
    repeat' split at hx
    all_goals first | cases hx; done | (rename_i e; subst e; rw [← hx]; kernel_rfl)

theorem withAesSig_names (f : String) (hf : withAesSig kemSig f ≠ none) : f = "AES128_load_schedule" ∨ f = "AES128_ECB_enc_sch" ∨
    f = "AES128_free_schedule" ∨ f = "shake128" ∨ f = "shake256" ∨ f = "randombytes" := by
  obtain ⟨x, hx⟩ := Option.ne_none_iff_exists'.1 hf
  unfold withAesSig kemSig randSig at hx
  repeat' split at hx
  all_goals first | cases hx; done | (simp only [*, true_or, or_true])

/-- C92, the optimised implementation with A from AES128: as `C92_functions`, given AES128 without secret indices. -/
theorem C92_aes {G : File} {P : Params} {K : KemParams} {nm : String} {X Y : Ctx} {e d : Nat} (hT : KemTextAes G P K nm) (h : AlikeAes X Y)
    {f : String} {k : Nat} (hf : (f, k) ∈ kemFuns nm) {args : List Val} (hk : args.length = k) {m m' : Mem} (hm : SameShape m m')
    {next : Nat} {r q t u} (h1 : (link [utilFile, G] (link [fipsFile] X e) d).call f args m next = .ok r t)
    (h2 : (link [utilFile, G] (link [fipsFile] Y e) d).call f args m' next = .ok q u) :
    t = u ∧ r.1 = q.1 ∧ SameShape r.2.1 q.2.1 ∧ r.2.2 = q.2.2 := by
  have g1 := h.xrel.link [fipsFile] e
  have g2 := h.fips_calm e
  have g3 := withAesSig_names
  have hn : nm = "Frodo640" ∨ nm = "Frodo976" ∨ nm = "Frodo1344" := by
    cases hT <;> first | exact .inl rfl | exact .inr (.inl rfl) | exact .inr (.inr rfl)
  have hC : Calm (sigOf (optClaims nm) (withAesSig kemSig)) (link [utilFile, G] (link [fipsFile] X e) d)
      (link [utilFile, G] (link [fipsFile] Y e) d) := by
    cases hT
    · exact link_calm g1 unitOpt640_ok g2 (fun f hf => by rcases g3 f hf with rfl | rfl | rfl | rfl | rfl | rfl <;> kernel_rfl) d
    · exact link_calm g1 unitOpt976_ok g2 (fun f hf => by rcases g3 f hf with rfl | rfl | rfl | rfl | rfl | rfl <;> kernel_rfl) d
    · exact link_calm g1 unitOpt1344_ok g2 (fun f hf => by rcases g3 f hf with rfl | rfl | rfl | rfl | rfl | rfl <;> kernel_rfl) d
  subst hk
  obtain ⟨h3, h4, h5, h6⟩ := hC f _ _ (kem_sig hn hf) args args m m' next (ARel.same args) hm _ _ _ _ h1 h2
  exact ⟨h3, h4, h5, h6⟩

/-- C92, the reference implementation with A from AES128: as `C92_functions`, given AES128 without secret indices. -/
theorem C92_aes_ref {G : File} {P : Params} {K : KemParams} {nm : String} {X Y : Ctx} {e d : Nat} (hT : KemTextRefAes G P K nm) (h : AlikeAes X Y)
    {f : String} {k : Nat} (hf : (f, k) ∈ kemFuns nm) {args : List Val} (hk : args.length = k) {m m' : Mem} (hm : SameShape m m')
    {next : Nat} {r q t u} (h1 : (link [utilFile, G] (link [fipsFile] X e) d).call f args m next = .ok r t)
    (h2 : (link [utilFile, G] (link [fipsFile] Y e) d).call f args m' next = .ok q u) :
    t = u ∧ r.1 = q.1 ∧ SameShape r.2.1 q.2.1 ∧ r.2.2 = q.2.2 := by
  have g1 := h.xrel.link [fipsFile] e
  have g2 := h.fips_calm e
  have g3 := withAesSig_names
  have hn : nm = "Frodo640" ∨ nm = "Frodo976" ∨ nm = "Frodo1344" := by
    cases hT <;> first | exact .inl rfl | exact .inr (.inl rfl) | exact .inr (.inr rfl)
  have hC : Calm (sigOf (refClaims nm) (withAesSig kemSig)) (link [utilFile, G] (link [fipsFile] X e) d)
      (link [utilFile, G] (link [fipsFile] Y e) d) := by
    cases hT
    · exact link_calm g1 unitRefAes640_ok g2 (fun f hf => by rcases g3 f hf with rfl | rfl | rfl | rfl | rfl | rfl <;> kernel_rfl) d
    · exact link_calm g1 unitRefAes976_ok g2 (fun f hf => by rcases g3 f hf with rfl | rfl | rfl | rfl | rfl | rfl <;> kernel_rfl) d
    · exact link_calm g1 unitRefAes1344_ok g2 (fun f hf => by rcases g3 f hf with rfl | rfl | rfl | rfl | rfl | rfl <;> kernel_rfl) d
  subst hk
  obtain ⟨h3, h4, h5, h6⟩ := hC f _ _ (kem_sig hn hf) args args m m' next (ARel.same args) hm _ _ _ _ h1 h2
  exact ⟨h3, h4, h5, h6⟩

/-! ## Concrete cases -/

theorem length_demoBytes {b b' : Blk} (h : b.n = b'.n ∧ b.data.length = b'.data.length) : (demoBytes b).length = (demoBytes b').length := by
  unfold demoBytes
  rw [← h.1]
  split
  · rw [length_toBytes, length_toBytes, List.length_map, List.length_map, h.2]
  · rw [List.length_map, List.length_map, h.2]

theorem ofBytes_len (a : Arch) : ∀ {l l' : List U8}, l.length = l'.length → (ofBytes a l).length = (ofBytes a l').length
  | [], [], _ => rfl
  | [_], [_], _ => rfl
  | _ :: _ :: l, _ :: _ :: l', h => by
    simp only [ofBytes, List.length_cons, Nat.add_right_cancel_iff]
    exact ofBytes_len a (by simpa using h)
  | [], _ :: _, h => by simp at h
  | _ :: _, [], h => by simp at h
  | [_], _ :: _ :: _, h => by simp at h
  | _ :: _ :: _, [_], h => by simp at h

theorem demoPut_shape {b b' : Blk} {l l' : List U8} (h : b.s = b'.s ∧ b.n = b'.n) (hl : l.length = l'.length) :
    (demoPut b l).s = (demoPut b' l').s ∧ (demoPut b l).n = (demoPut b' l').n ∧
      (demoPut b l).data.length = (demoPut b' l').data.length := by
  unfold demoPut
  rw [← h.1, ← h.2]
  split
  · split
    · exact ⟨rfl, rfl, by simp [ofS16, ofBytes_len .le hl]⟩
    · exact ⟨rfl, rfl, by simp [ofU16, ofBytes_len .le hl]⟩
  · exact ⟨rfl, rfl, by simp [ofU8, hl]⟩

/-- Generators that deliver as many bytes each. -/
theorem demo_alike (P : Params) (R R' : List U8) (h : R.length = R'.length) :
    Alike (demoFips P (rbConst R)) (demoFips P (rbConst R')) where
  arch := rfl
  glob := rfl
  names x hx := by
    simp only [demoFips] at hx
    split at hx
    · exact .inl ‹_›
    · split at hx
      · exact .inr (.inl ‹_›)
      · split at hx
        · exact .inr (.inr ‹_›)
        · exact absurd rfl hx
  rand p n m m' next r q t u hm h1 h2 := by
    simp only [demoFips, if_true] at h1 h2
    cases p with
    | ptr b o s w =>
      cases n with
      | int s' w' x =>
        simp only [demoCall, rbConst] at h1 h2
        cases h1
        cases h2
        refine ⟨rfl, ⟨rfl, rfl⟩, ?_, rfl⟩
        have e := demoPut_shape (l := (demoBytes (m b)).take o ++ R) (l' := (demoBytes (m' b)).take o ++ R') ⟨(hm b).1, (hm b).2.1⟩
          (by simp only [List.length_append, List.length_take, length_demoBytes (hm b).2, h])
        exact MRel.set hm e.1 e.2.1 e.2.2
      | ptr => cases h1
      | undef => cases h1
    | int => cases h1
    | undef => cases h1

/-- A memory with the tables, a secret of 16 bytes in block 2, a ciphertext in block 1 and a key in block 4. -/
def demoDecMem (c k : U8) : Mem := fun b => if b = 0 then u16s frodo640.cdf else if b = 1 then u8s (List.replicate 9720 c) else if b = 9 then
  u64s KeccakF_RoundConstants else if b = 4 then u8s (List.replicate 19888 k) else u8s (List.replicate 16 0)

theorem demoDecMem_shape (c k c' k' : U8) : SameShape (demoDecMem c k) (demoDecMem c' k') := by
  intro b
  unfold demoDecMem
  by_cases h0 : b = 0
  · simp only [if_pos h0, true_and]
  by_cases h1 : b = 1
  · simp only [if_neg h0, if_pos h1, u8s, length_ofU8, List.length_replicate, true_and]
  by_cases h9 : b = 9
  · simp only [if_neg h0, if_neg h1, if_pos h9, true_and]
  by_cases h4 : b = 4
  · simp only [if_neg h0, if_neg h1, if_neg h9, if_pos h4, u8s, length_ofU8, List.length_replicate, true_and]
  · simp only [if_neg h0, if_neg h1, if_neg h9, if_neg h4, true_and]

/-- Decapsulation of ciphertexts of all `c` and of all `c'` with keys of all `k` and of all `k'`, by the text of the optimised
implementation: the same trace. -/
example (c k c' k' : U8) : ∃ t r q,
    callKem unitFast640 (demoFips frodo640 (rbConst [])) "crypto_kem_dec_Frodo640" [2, 1, 4] (demoDecMem c k) 10 = .ok r t ∧
    callKem unitFast640 (demoFips frodo640 (rbConst [])) "crypto_kem_dec_Frodo640" [2, 1, 4] (demoDecMem c' k') 10 = .ok q t ∧
    r.2.1 2 = u8s (decaps (Frodo640 .shake) (List.replicate 9720 c) (List.replicate 19888 k)) ∧
    q.2.1 2 = u8s (decaps (Frodo640 .shake) (List.replicate 9720 c') (List.replicate 19888 k')) :=
  C92_dec .fast640 (demo_alike _ _ _ rfl) (demo_ready _ _ _ (demoFast_loaded _ _ rfl) rfl (by decide) (by decide))
    (demo_ready _ _ _ (demoFast_loaded _ _ rfl) rfl (by decide) (by decide))
    (demoDecMem_shape c k c' k')
    rfl rfl rfl List.length_replicate List.length_replicate List.length_replicate rfl rfl rfl List.length_replicate List.length_replicate
    List.length_replicate

/-- Key generation with random bytes of all `a` and of all `b`. -/
example (a b : U8) (m : Mem) (h0 : m 0 = u16s frodo640.cdf) (h9 : m 9 = u64s KeccakF_RoundConstants) (h1 : m 1 = u8s (List.replicate 9616 0))
    (h2 : m 2 = u8s (List.replicate 19888 0)) : ∃ t r q,
    callKem unit640 (demoFips frodo640 (rbConst (List.replicate 48 a))) "crypto_kem_keypair_Frodo640" [1, 2] m 10 = .ok r t ∧
    callKem unit640 (demoFips frodo640 (rbConst (List.replicate 48 b))) "crypto_kem_keypair_Frodo640" [1, 2] m 10 = .ok q t ∧
    r.2.1 2 = u8s (keygen (Frodo640 .shake) (List.replicate 16 a) (List.replicate 16 a) (List.replicate 16 a)).2 ∧
    q.2.1 2 = u8s (keygen (Frodo640 .shake) (List.replicate 16 b) (List.replicate 16 b) (List.replicate 16 b)).2 :=
  C92_keypair .frodo640 (demo_alike _ _ _ (by simp)) (demo_ready _ _ _ (demoFips_loaded _ _ h0) h9 (by decide) (by decide))
    (demo_ready _ _ _ (demoFips_loaded _ _ h0) h9 (by decide) (by decide)) (fun _ => ⟨rfl, rfl, rfl⟩) rfl rfl rfl (fills_const _) h1 h2
    List.length_replicate List.length_replicate rfl rfl rfl (fills_const _) h1 h2 List.length_replicate List.length_replicate

/-- `demoFips` with functions for AES128 that clear what they write: the round keys, and the output. -/
def demoAesCall (rb : RandomBytes) (f : String) (args : List Val) (m : Mem) (next : Nat) : C (Val × Mem × Nat) :=
  if f = "AES128_load_schedule" ∨ f = "AES128_ECB_enc_sch" ∨ f = "AES128_free_schedule" then
    match args.getLast? with
    | some (.ptr b _ _ _) => pure (.undef .void, m.set b { m b with data := List.replicate (m b).data.length 0 }, next)
    | _ => C.ub .oobWrite
  else (demoFips frodo640 rb).call f args m next

/-- The hypotheses of `C92_aes` and of `C92_aes_ref`. -/
example (R R' : List U8) (h : R.length = R'.length) :
    AlikeAes { demoFips frodo640 (rbConst R) with call := demoAesCall (rbConst R) }
      { demoFips frodo640 (rbConst R') with call := demoAesCall (rbConst R') } where
  arch := rfl
  glob := rfl
  names := (demo_alike frodo640 R R' h).names
  rand p n m m' next r q t u hm h1 h2 := (demo_alike frodo640 R R' h).rand p n m m' next r q t u hm h1 h2
  aes f args m m' next r q t u hf hm h1 h2 := by
    simp only [demoAesCall, if_pos hf] at h1 h2
    split at h1
    · rename_i e
      rw [e] at h2
      cases h1
      cases h2
      exact ⟨rfl, rfl, MRel.set hm (hm _).1 (hm _).2.1 (by simp only [List.length_replicate, (hm _).2.2]), rfl⟩
    · cases h1

end Frodo.Props
