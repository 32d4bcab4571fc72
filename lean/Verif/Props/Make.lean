import Verif.Proof.Make
import Verif.Props.Kem2

/-! # C60: every option of the build gives the implementation that it names -/

namespace Frodo.Props

open Spec Make

/-- What the library of a build computes: key generation of the KEM `K` that belongs to the parameters and the
generator, encapsulation and decapsulation of the KEM `T K`, for every input. -/
def Computes (B : Build) (T : KemParams → KemParams) : Prop :=
  ∀ (P : Params) (K : KemParams), Standard P B.gen K →
    (∀ (E : Env) (rb : RandomBytes) (pk sk s seedSE z : List U8), AlignedKeypair B E P →
      s.length = K.len → seedSE.length = K.len → z.length = K.lenA → Fills rb (s ++ seedSE ++ z) →
      P.pkBytes ≤ pk.length → P.skBytes ≤ sk.length →
      Ret (crypto_kem_keypair B E P rb pk sk) (fun o =>
        o.pk = (keygen K s seedSE z).1 ++ pk.drop P.pkBytes ∧
        o.sk = (keygen K s seedSE z).2 ++ sk.drop P.skBytes ∧ o.ret = 0)) ∧
    (∀ (E : Env) (rb : RandomBytes) (ct ss pk mu : List U8), AlignedKem B E P →
      mu.length = K.len → Fills rb mu →
      P.pkBytes ≤ pk.length → P.ctBytes ≤ ct.length → P.bytes ≤ ss.length →
      Ret (crypto_kem_enc B E P rb ct ss pk) (fun o =>
        o.ct = (encaps (T K) (pk.take P.pkBytes) mu).1 ++ ct.drop P.ctBytes ∧
        o.ss = (encaps (T K) (pk.take P.pkBytes) mu).2 ++ ss.drop P.bytes ∧ o.ret = 0)) ∧
    (∀ (E : Env) (skAddr : Nat) (ss ct sk : List U8), AlignedKem B E P → skAddr % 2 = 0 →
      P.bytes ≤ ss.length → P.ctBytes ≤ ct.length → P.skBytes ≤ sk.length →
      Ret (crypto_kem_dec B E P skAddr ss ct sk) (fun o =>
        o.ss = decaps (T K) (ct.take P.ctBytes) (sk.take P.skBytes) ++ ss.drop P.bytes ∧ o.ret = 0))

theorem computes_good {B : Build} (hB : Good B) : Computes B id := fun _ _ hS =>
  ⟨fun E rb pk sk s seedSE z => C05_keypair B E rb pk sk s seedSE z hS,
   fun E rb ct ss pk mu => C06_enc B E rb ct ss pk mu hS hB,
   fun E skAddr ss ct sk => C07_dec B E skAddr ss ct sk hS hB⟩

theorem computes_swapped {B : Build} (h : B.impl ≠ .reference) (hb : B.arch = .be) :
    Computes B (swapped · B.gen) := fun _ _ hS =>
  ⟨fun E rb pk sk s seedSE z => C05_keypair B E rb pk sk s seedSE z hS,
   fun E rb ct ss pk mu => C09_enc_big_endian B E rb ct ss pk mu hS h hb,
   fun E skAddr ss ct sk => C09_dec_big_endian B E skAddr ss ct sk hS h hb⟩

/-- C60.  The Makefile gives config.h a consistent set of macros for any values of the options whatsoever: the
compiler accepts it if and only if it is one of the three that config.h knows. -/
theorem C60_accepts (v : Vars) (p : Predef) :
    (config v.macros p).isSome ↔ p.msc ∨ p.gnuc ∨ p.clang := by
  rw [config_macros, Option.isSome_map]
  unfold compilerOf
  cases p.msc <;> cases p.gnuc <;> cases p.clang <;> simp

/-- C60.  Which implementation, which generator and which AES the options select.  Any other value than those listed
is taken silently for the default. -/
theorem C60_selects (v : Vars) (p : Predef) (c : Config) (h : config v.macros p = some c) (L : OsslCode) (a : Arch) :
    let B := c.build a L
    (B.impl = .reference ↔ v.OPT_LEVEL = "REFERENCE") ∧
    (B.impl = .avx2 ↔ v.OPT_LEVEL ≠ "REFERENCE" ∧ v.OPT_LEVEL ≠ "FAST_GENERIC" ∧ v.ARCH ≠ "x86" ∧ v.ARCH ≠ "ARM") ∧
    (B.gen = .shake ↔ v.GENERATION_A = "SHAKE128") ∧
    (B.aes = .openssl L ↔ v.USE_OPENSSL ≠ "FALSE") ∧
    (B.aes = .ni ↔ v.USE_OPENSSL = "FALSE" ∧ B.impl = .avx2) ∧
    (B.aes = .c ↔ v.USE_OPENSSL = "FALSE" ∧ B.impl ≠ .avx2) := by
  obtain ⟨-, -, hf, hr, hg, ho, -⟩ := config_eq h
  obtain ⟨i1, i2⟩ := opt_iff v
  have hfr : ¬ (v.optLevel = "_FAST_" ∧ v.optLevel = "_REFERENCE_") := by
    rintro ⟨h1, h2⟩
    rw [h1] at h2
    exact absurd h2 (by decide +kernel)
  intro B
  have e1 : B.impl = if v.optLevel = "_REFERENCE_" then .reference else
      if v.optLevel = "_FAST_" then .avx2 else .generic := by
    show c.impl = _
    unfold Config.impl
    rw [hr, hf]
    simp only [decide_eq_true_eq]
  have e2 : B.gen = if v.GENERATION_A = "SHAKE128" then .shake else .aes := hg
  have e3 : B.aes = if v.USE_OPENSSL ≠ "FALSE" then .openssl L else
      if v.optLevel = "_FAST_" then .ni else .c := by
    show c.aes L = _
    unfold Config.aes
    rw [ho, hf]
    simp only [decide_eq_true_eq]
  rw [e1, e2, e3, ← i1, ← i2]
  refine ⟨?_, ?_, ?_, ?_, ?_, ?_⟩ <;> split_ifs <;> simp_all

/-- C60.  The options for vector and AES instructions are passed to the compiler exactly when the code that needs them
is selected. -/
theorem C60_instructions (v : Vars) (p : Predef) (c : Config) (h : config v.macros p = some c) :
    v.simd = true ↔ c.fast = true := by
  obtain ⟨-, -, hf, -⟩ := config_eq h
  unfold Vars.simd
  rw [hf, Bool.and_eq_true, decide_eq_true_eq, decide_eq_true_eq, (arch_iff v).1, (opt_iff v).2]
  tauto

/-- C60.  Whichever definition of the byte order macros config.h selects, it computes the conversion for the byte order of the
machine, provided that `__BYTE_ORDER__`, if defined, tells it, and otherwise x86 processors are little endian. -/
theorem C60_byte_order (v : Vars) (p : Predef) (c : Config) (h : config v.macros p = some c) (a : Arch)
    (ht : p.order = some a ∨ p.order = none ∧ (c.target ≠ .arm → a = .le)) (n : U16) :
    leToUint16 c.order a n = LE_TO_UINT16 a n ∧ uint16ToLe c.order a n = UINT16_TO_LE a n := by
  obtain ⟨-, h1, -, -, -, -, h2⟩ := config_eq h
  rw [h2]
  rw [h1] at ht
  exact leToUint16_eq ht n

/-- C60.  With any options, the library computes FrodoKEM on little-endian machines; on big-endian machines it
does so with `OPT_LEVEL=REFERENCE`, while with every other value encapsulation and decapsulation use another matrix
than key generation. -/
theorem C60_computes (v : Vars) (p : Predef) (c : Config) (h : config v.macros p = some c) (a : Arch) (L : OsslCode) :
    (a = .le ∨ v.OPT_LEVEL = "REFERENCE" → Computes (c.build a L) id) ∧
    (a = .be → v.OPT_LEVEL ≠ "REFERENCE" → Computes (c.build a L) (swapped · c.gen)) := by
  have hs := (C60_selects v p c h L a).1
  constructor
  · rintro (ha | ho)
    · exact computes_good (.inr ha)
    · exact computes_good (.inl (hs.2 ho))
  · intro ha ho
    exact computes_swapped (fun hr => ho (hs.1 hr)) ha

/-- C60.  The known answer programs for SHAKE are built exactly with the library that uses SHAKE. -/
theorem C60_kat (v : Vars) (p : Predef) (c : Config) (h : config v.macros p = some c) :
    v.katShake = true ↔ c.gen = .shake := by
  obtain ⟨-, -, -, -, hg, -⟩ := config_eq h
  unfold Vars.katShake
  rw [hg, decide_eq_true_eq]
  split <;> simp_all

/-! ## Linking -/

/-- Linking succeeds: every symbol used is offered from outside or defined by one of the objects, and no symbol is defined twice. -/
def Links (objs : List Object) (ext : List String) : Prop :=
  (∀ o ∈ objs, ∀ s ∈ o.uses, s ∈ ext ∨ ∃ o' ∈ objs, s ∈ o'.defs) ∧
  (ext ++ objs.flatMap (·.defs)).Nodup

instance (objs : List Object) (ext : List String) : Decidable (Links objs ext) :=
  inferInstanceAs (Decidable (_ ∧ _))

/-- A configuration with the parts that matter for the objects. -/
def plain (os : Os) (fast reference : Bool) (gen : MatGen) (openssl : Bool) : Config :=
  ⟨os, .gcc, .amd64, fast, reference, gen, openssl, .same⟩

/-- The objects of `Vars.fastObjects`. -/
def fastObjects' (fast : Bool) (gen : MatGen) : List Object :=
  if fast then aesNiO :: (if gen = .shake then [fips202x4O, keccak4xO] else []) else []

theorem fastObjects_eq {v : Vars} {p : Predef} {c : Config} (h : config v.macros p = some c) :
    v.fastObjects = fastObjects' c.fast c.gen := by
  obtain ⟨-, -, hf, -, hg, -⟩ := config_eq h
  unfold Vars.fastObjects fastObjects'
  rw [hf, hg]
  simp only [decide_eq_true_eq]
  split_ifs <;> simp_all

theorem external_eq {v : Vars} {p : Predef} {c : Config} (h : config v.macros p = some c) :
    v.external = if c.openssl then cryptoDefs else [] := by
  obtain ⟨-, -, -, -, -, ho, -⟩ := config_eq h
  unfold Vars.external Vars.crypto
  rw [ho]
  by_cases hh : v.USE_OPENSSL = "FALSE" <;> simp [hh]

set_option maxHeartbeats 2000000 in
theorem links_all (fast reference : Bool) (gen : MatGen) (openssl : Bool) (l : Level)
    (h : (fast && reference) = false) :
    Links (testKemO l :: ([frodoO (plain .nix fast reference gen openssl) l, utilO,
      randomO (plain .nix fast reference gen openssl), aesO (plain .nix fast reference gen openssl), aesCO] ++
      fastObjects' fast gen ++ [fips202O])) (if openssl then cryptoDefs else []) ∧
    Links (katO l :: rngO (plain .nix fast reference gen openssl) :: ([frodoO (plain .nix fast reference gen openssl) l,
      utilO, aesO (plain .nix fast reference gen openssl), aesCO] ++
      fastObjects' fast gen ++ [fips202O])) (if openssl then cryptoDefs else []) := by
  have key : ∀ fast ∈ [false, true], ∀ reference ∈ [false, true], ∀ gen ∈ [MatGen.aes, .shake], ∀ openssl ∈ [false, true],
      ∀ l ∈ [Level.l640, .l976, .l1344], (fast && reference) = false →
      Links (testKemO l :: ([frodoO (plain .nix fast reference gen openssl) l, utilO,
        randomO (plain .nix fast reference gen openssl), aesO (plain .nix fast reference gen openssl), aesCO] ++
        fastObjects' fast gen ++ [fips202O])) (if openssl then cryptoDefs else []) ∧
      Links (katO l :: rngO (plain .nix fast reference gen openssl) :: ([frodoO (plain .nix fast reference gen openssl) l,
        utilO, aesO (plain .nix fast reference gen openssl), aesCO] ++
        fastObjects' fast gen ++ [fips202O])) (if openssl then cryptoDefs else []) := by decide +kernel
  exact key fast (by cases fast <;> simp) reference (by cases reference <;> simp) gen (by cases gen <;> simp) openssl
    (by cases openssl <;> simp) l (by cases l <;> simp) h

theorem config_exclusive {v : Vars} {p : Predef} {c : Config} (h : config v.macros p = some c) :
    (c.fast && c.reference) = false := by
  obtain ⟨-, -, hf, hr, -⟩ := config_eq h
  rw [hf, hr]
  rcases opt_cases v with ho | ho | ho <;> rw [ho] <;> decide +kernel

/-- C60.  With any options, the self test and the known answer test of each level link with their libraries: nothing is missing,
OpenSSL's library is given when it is used, and nothing is defined twice; in particular the known answer program gets its own
`randombytes`. -/
theorem C60_links (v : Vars) (p : Predef) (c : Config) (h : config v.macros p = some c) (l : Level) :
    Links (testKemO l :: v.library c l) v.external ∧ Links (katO l :: rngO c :: v.testing c l) v.external := by
  have hx := config_exclusive h
  have hos := (config_eq h).1
  have key := links_all c.fast c.reference c.gen c.openssl l hx
  unfold Vars.library Vars.testing
  rw [fastObjects_eq h, external_eq h]
  have e1 : frodoO c l = frodoO (plain .nix c.fast c.reference c.gen c.openssl) l := rfl
  have e2 : randomO c = randomO (plain .nix c.fast c.reference c.gen c.openssl) := by
    unfold randomO plain
    rw [hos]
  have e3 : aesO c = aesO (plain .nix c.fast c.reference c.gen c.openssl) := rfl
  have e4 : rngO c = rngO (plain .nix c.fast c.reference c.gen c.openssl) := rfl
  rw [e1, e2, e3, e4]
  exact key

/-- The parameters of a level. -/
def paramsOf : Level → Params
  | .l640 => frodo640
  | .l976 => frodo976
  | .l1344 => frodo1344

/-- The symbol of a SHAKE. -/
def shakeName : ShakeVar → String
  | .shake128 => "shake128"
  | .shake256 => "shake256"

/-- C60 (the objects use what the build computes with): of the three functions of SHAKE, the object of a level calls the one that
its parameters name for hashing, and for `A` the one that belongs to the code path if `A` comes from SHAKE; it calls the AES of the
library exactly if `A` comes from AES without OpenSSL, and OpenSSL exactly if `A` comes from AES with OpenSSL. -/
theorem C60_symbols (c : Config) (l : Level) :
    (∀ s ∈ ["shake128", "shake256", "shake128_4x"], s ∈ (frodoO c l).uses ↔
      s = shakeName (paramsOf l).shake ∨
        c.gen = .shake ∧ s = if c.impl = .avx2 then "shake128_4x" else "shake128") ∧
    ("AES128_ECB_enc_sch" ∈ (frodoO c l).uses ↔ c.gen = .aes ∧ c.openssl = false) ∧
    ("EVP_EncryptUpdate" ∈ (frodoO c l).uses ↔ c.gen = .aes ∧ c.openssl = true) := by
  obtain ⟨os, co, ta, fast, reference, gen, openssl, order⟩ := c
  have key : ∀ (fast reference openssl : Bool) (l : Level) (gen : MatGen), gen = .aes ∨ gen = .shake →
      let c : Config := ⟨os, co, ta, fast, reference, gen, openssl, order⟩
      (∀ s ∈ ["shake128", "shake256", "shake128_4x"], s ∈ (frodoO c l).uses ↔
        s = shakeName (paramsOf l).shake ∨
          c.gen = .shake ∧ s = if c.impl = .avx2 then "shake128_4x" else "shake128") ∧
      ("AES128_ECB_enc_sch" ∈ (frodoO c l).uses ↔ c.gen = .aes ∧ c.openssl = false) ∧
      ("EVP_EncryptUpdate" ∈ (frodoO c l).uses ↔ c.gen = .aes ∧ c.openssl = true) := by
    intro fast reference openssl l gen hg
    rcases hg with rfl | rfl <;> cases fast <;> cases reference <;> cases openssl <;> cases l <;>
      simp [frodoO, genUses, evp, Level.shake, shakeName, paramsOf, frodo640, frodo976, frodo1344, Config.impl]
  exact key fast reference openssl l gen (by cases gen <;> simp)

/-- The object that defines the KEM of a level. -/
theorem keypair_object {v : Vars} {c : Config} {k l : Level} {o : Object} (ho : o ∈ v.library c k)
    (h : "crypto_kem_keypair_Frodo" ++ l.digits ∈ o.defs) : k = l ∧ o = frodoO c k := by
  have hf : ∀ o ∈ v.fastObjects, o = aesNiO ∨ o = fips202x4O ∨ o = keccak4xO := by
    intro o ho
    unfold Vars.fastObjects at ho
    split_ifs at ho <;> simp_all
  have hkl : ∀ k l : Level, "crypto_kem_keypair_Frodo" ++ l.digits ∈ (frodoO (plain .nix false false .aes false) k).defs →
      k = l := by
    intro k l
    cases k <;> cases l <;> decide +kernel
  have hno : ∀ l : Level, ∀ o ∈ [utilO, randomO (plain .nix false false .aes false), aesCO, aesNiO, fips202x4O, keccak4xO,
      fips202O, aesO (plain .nix false false .aes false), aesO (plain .nix false false .aes true)],
      "crypto_kem_keypair_Frodo" ++ l.digits ∉ o.defs := by
    intro l
    cases l <;> decide +kernel
  unfold Vars.library at ho
  simp only [List.mem_append, List.mem_cons, List.not_mem_nil, or_false] at ho
  rcases ho with ((ho | ho | ho | ho | ho) | ho) | ho
  · subst ho
    exact ⟨hkl k l h, rfl⟩
  · subst ho; exact absurd h (hno l _ (by simp))
  · subst ho
    exact absurd h (hno l (randomO (plain .nix false false .aes false)) (by simp))
  · subst ho
    cases hc : c.openssl
    · have e : (aesO c).defs = (aesO (plain .nix false false .aes false)).defs := by
        unfold aesO plain
        simp only [hc]
      rw [e] at h
      exact absurd h (hno l _ (by simp))
    · have e : (aesO c).defs = (aesO (plain .nix false false .aes true)).defs := by
        unfold aesO plain
        simp only [hc]
      rw [e] at h
      exact absurd h (hno l _ (by simp))
  · subst ho; exact absurd h (hno l _ (by simp))
  · rcases hf o ho with ho | ho | ho <;> subst ho <;> exact absurd h (hno l _ (by simp))
  · subst ho; exact absurd h (hno l _ (by simp))

/-- C60.  No program can use two levels: whatever members of the libraries of two levels a linker takes, if both key generation functions
are among them then symbols are defined twice, with all options. -/
theorem C60_one_level (v v' : Vars) (c c' : Config) (l l' : Level) (hl : l ≠ l') (objs : List Object)
    (hobjs : ∀ o ∈ objs, o ∈ v.library c l ∨ o ∈ v'.library c' l')
    (h : ∃ o ∈ objs, "crypto_kem_keypair_Frodo" ++ l.digits ∈ o.defs)
    (h' : ∃ o ∈ objs, "crypto_kem_keypair_Frodo" ++ l'.digits ∈ o.defs) (ext : List String) : ¬ Links objs ext := by
  obtain ⟨o, ho, hd⟩ := h
  obtain ⟨o', ho', hd'⟩ := h'
  have h1 : o = frodoO c l := by
    rcases hobjs o ho with hm | hm
    · exact (keypair_object hm hd).2
    · exact absurd (keypair_object hm hd).1 hl.symm
  have h2 : o' = frodoO c' l' := by
    rcases hobjs o' ho' with hm | hm
    · exact absurd (keypair_object hm hd').1 hl
    · exact (keypair_object hm hd').2
  rintro ⟨-, hnd⟩
  have hnd := (List.nodup_append.1 hnd).2.1
  rw [List.nodup_flatMap] at hnd
  have hne : o ≠ o' := by
    rw [h1, h2]
    intro he
    have he := congrArg Object.name he
    revert hl he
    cases l <;> cases l' <;> simp [frodoO, Level.digits]
  have hsym : Std.Symm (Function.onFun List.Disjoint fun x : Object => x.defs) := ⟨fun _ _ h => h.symm⟩
  have hdis := hnd.2.forall ho ho' hne
  exact hdis (a := "CDF_TABLE") (by rw [h1]; simp [frodoO, sharedNames]) (by rw [h2]; simp [frodoO, sharedNames])

/-! ## Visual Studio -/

/-- C60.  Every configuration of the Visual Studio solution gives the portable code with the library's own AES, which computes
FrodoKEM with AES on the (little-endian) machines of its platforms, and links. -/
theorem C60_visual_studio (x : VsConf) (p : Predef) (hp : p.msc = true) (ho : p.order = none) (l : Level) (L : OsslCode) :
    ∃ c, config x.macros p = some c ∧ c.build .le L = ⟨.le, .generic, .c, .aes⟩ ∧ c.order = .same ∧
      Computes (c.build .le L) id ∧ Links (testKemO l :: vsLibrary c l) ["BCryptGenRandom"] := by
  have hx : config x.macros p = some ⟨.win, .vc, match x with | .debugWin32 | .genericWin32 => .x86 | _ => .amd64,
      false, false, .aes, false, .same⟩ := by
    have hk : compilerOf p = some .vc := by unfold compilerOf; rw [hp]; rfl
    have h1 : Make.orderOf p .x86 = .same := by unfold Make.orderOf; rw [ho]; simp
    have h2 : Make.orderOf p .amd64 = .same := by unfold Make.orderOf; rw [ho]; simp
    cases x <;> simp [config, osOf, targetOf, implOf, genOf, VsConf.macros, hk, h1, h2]
  refine ⟨_, hx, rfl, rfl, computes_good (.inr rfl), ?_⟩
  have e : ∀ t, Links (testKemO l :: vsLibrary ⟨.win, .vc, t, false, false, .aes, false, .same⟩ l) ["BCryptGenRandom"] := by
    have key : ∀ t ∈ [Target.amd64, .x86, .arm], ∀ l ∈ [Level.l640, .l976, .l1344],
        Links (testKemO l :: vsLibrary ⟨.win, .vc, t, false, false, .aes, false, .same⟩ l) ["BCryptGenRandom"] := by decide +kernel
    exact fun t => key t (by cases t <;> simp) l (by cases l <;> simp)
  exact e _

/-! ## Other build systems -/

/-- C60, any other build system: with any macros `D` on the command line, config.h accepts them if and only if
they name an operating system, an architecture, an implementation and a generator and the compiler is one of the
three known ones. -/
theorem C60_config_accepts (D : List String) (p : Predef) :
    (config D p).isSome ↔
      ("WINDOWS" ∈ D ∨ "NIX" ∈ D) ∧ (p.msc ∨ p.gnuc ∨ p.clang) ∧
      ("_AMD64_" ∈ D ∨ "_X86_" ∈ D ∨ "_ARM_" ∈ D) ∧
      ("_FAST_" ∈ D ∨ "_FAST_GENERIC_" ∈ D ∨ "_REFERENCE_" ∈ D) ∧
      ("_AES128_FOR_A_" ∈ D ∨ "_SHAKE128_FOR_A_" ∈ D) := by
  have e1 : (osOf D).isSome ↔ "WINDOWS" ∈ D ∨ "NIX" ∈ D := by
    unfold osOf; split <;> [skip; split] <;> simp [*]
  have e2 : (compilerOf p).isSome ↔ p.msc ∨ p.gnuc ∨ p.clang := by
    unfold compilerOf; split <;> [skip; split <;> [skip; split]] <;> simp [*]
  have e3 : (targetOf D).isSome ↔ "_AMD64_" ∈ D ∨ "_X86_" ∈ D ∨ "_ARM_" ∈ D := by
    unfold targetOf; split <;> [skip; split <;> [skip; split]] <;> simp [*]
  have e4 : (implOf D).isSome ↔ "_FAST_" ∈ D ∨ "_FAST_GENERIC_" ∈ D ∨ "_REFERENCE_" ∈ D := by
    unfold implOf; split <;> [skip; split <;> [skip; split]] <;> simp [*]
  have e5 : (genOf D).isSome ↔ "_AES128_FOR_A_" ∈ D ∨ "_SHAKE128_FOR_A_" ∈ D := by
    unfold genOf; split <;> [skip; split] <;> simp [*]
  rw [← e1, ← e2, ← e3, ← e4, ← e5]
  unfold config
  cases osOf D <;> [simp; skip]
  cases compilerOf p <;> [simp; skip]
  cases targetOf D <;> [simp; skip]
  cases implOf D <;> [simp; skip]
  cases genOf D <;> simp

/-- C60, any other build system: what the accepted macros select.  Of two macros of one kind the first of
the list in config.h wins. -/
theorem C60_config_selects (D : List String) (p : Predef) (c : Config) (h : config D p = some c) :
    (c.os = .win ↔ "WINDOWS" ∈ D) ∧
    (c.target = .amd64 ↔ "_AMD64_" ∈ D) ∧ (c.target = .arm ↔ "_AMD64_" ∉ D ∧ "_X86_" ∉ D) ∧
    (c.fast = true ↔ "_FAST_" ∈ D) ∧
    (c.reference = true ↔ "_FAST_" ∉ D ∧ "_FAST_GENERIC_" ∉ D) ∧
    (c.gen = .aes ↔ "_AES128_FOR_A_" ∈ D) ∧ (c.openssl = true ↔ "_USE_OPENSSL_" ∈ D) := by
  unfold config at h
  simp only [Option.bind_eq_bind, Option.bind_eq_some_iff, Prod.exists, Option.pure_def, Option.some.injEq] at h
  obtain ⟨o, h1, k, _, t, h3, f, r, h4, g, h5, rfl⟩ := h
  unfold osOf at h1; unfold targetOf at h3; unfold implOf at h4; unfold genOf at h5
  refine ⟨?_, ?_, ?_, ?_, ?_, ?_, by simp⟩
  · split at h1 <;> [skip; split at h1] <;> simp_all [eq_comm]
  · split at h3 <;> [skip; split at h3 <;> [skip; split at h3]] <;> simp_all
    all_goals subst h3; simp
  · split at h3 <;> [skip; split at h3 <;> [skip; split at h3]] <;> simp_all
    all_goals subst h3; simp
  · split at h4 <;> [skip; split at h4 <;> [skip; split at h4]] <;> simp_all
  · split at h4 <;> [skip; split at h4 <;> [skip; split at h4]] <;> simp_all
  · split at h5 <;> [skip; split at h5] <;> simp_all
    all_goals subst h5; simp

/-- Without a generator there is no configuration; with both, it is AES. -/
example : (config ["NIX", "_AMD64_", "_FAST_"] ⟨false, true, false, none⟩).isSome = false ∧
    (config ["NIX", "_AMD64_", "_FAST_", "_SHAKE128_FOR_A_", "_AES128_FOR_A_"] ⟨false, true, false, none⟩).map
      (·.gen) = some .aes := by decide +kernel

/-! ## Several calls of `make` -/

/-- C60.  Options are no prerequisites of the objects: after any sequence of calls of `make`, the objects that all builds share are those of
the *first* call, whatever the options of the later ones. -/
theorem C60_stale (ws : List Vars) (o : String)
    (ho : o ∈ ["frodo640.o", "frodo976.o", "frodo1344.o", "util.o", "random.o", "aes.o", "aes_c.o", "fips202.o"]) :
    (ws.foldl (fun d w => make w d) clean : Disk) o = ws.head? := by
  have hn : ∀ w : Vars, o ∈ w.needed := by
    intro w
    unfold Vars.needed
    simp only [List.mem_append, List.mem_cons, List.not_mem_nil, or_false] at ho ⊢
    tauto
  have key : ∀ (ws : List Vars) (d : Disk) (x : Vars), d o = some x →
      (ws.foldl (fun d w => make w d) d : Disk) o = some x := by
    intro ws
    induction ws with
    | nil => exact fun _ _ h => h
    | cons w ws ih =>
      intro d x h
      refine ih _ x ?_
      show (if o ∈ w.needed then some ((d o).getD w) else d o) = _
      rw [if_pos (hn w), h]
      rfl
  cases ws with
  | nil => rfl
  | cons w ws =>
    refine key ws _ w ?_
    show (if o ∈ w.needed then some ((clean o).getD w) else clean o) = _
    rw [if_pos (hn w)]
    rfl

theorem objectOf_shared (c : Config) :
    (∀ l : Level, objectOf c ("frodo" ++ l.digits ++ ".o") = some (frodoO c l)) ∧ objectOf c "util.o" = some utilO ∧
    objectOf c "random.o" = some (randomO c) ∧ objectOf c "aes.o" = some (aesO c) ∧
    objectOf c "aes_c.o" = some aesCO ∧ objectOf c "aes_ni.o" = some aesNiO ∧ objectOf c "fips202.o" = some fips202O ∧
    objectOf c "fips202x4.o" = some fips202x4O ∧ objectOf c "KeccakP-1600-times4-SIMD256.o" = some keccak4xO := by
  refine ⟨?_, ?_, ?_, ?_, ?_, ?_, ?_, ?_, ?_⟩
  · intro l
    cases l <;>
      simp [objectOf, frodoO, utilO, randomO, aesO, aesCO, aesNiO, fips202O, fips202x4O, keccak4xO, Level.digits]
  all_goals
    simp [objectOf, frodoO, utilO, randomO, aesO, aesCO, aesNiO, fips202O, fips202x4O, keccak4xO, Level.digits]

/-- C60.  After `make clean` the library is that of the options given. -/
theorem C60_clean (v : Vars) (p : Predef) (c : Config) (h : config v.macros p = some c) (l : Level) :
    libraryOnDisk v p (make v clean) l = (v.library c l).map some := by
  have hd : ∀ o ∈ v.needed, make v clean o = some v := by
    intro o ho
    show (if o ∈ v.needed then some ((clean o).getD v) else clean o) = _
    rw [if_pos ho]
    rfl
  obtain ⟨h1, h2, h3, h4, h5, h6, h7, h8, h9⟩ := objectOf_shared c
  have hmem : ∀ o ∈ ["frodo" ++ l.digits ++ ".o", "util.o", "random.o", "aes.o", "aes_c.o"] ++ v.fastObjects.map (·.name) ++
      ["fips202.o"], o ∈ v.needed := by
    intro o ho
    unfold Vars.needed
    simp only [List.mem_append, List.mem_cons, List.not_mem_nil, or_false] at ho ⊢
    rcases ho with ((ho | ho | ho | ho | ho) | ho) | ho
    · cases l <;> subst ho <;> simp [Level.digits]
    all_goals tauto
  unfold libraryOnDisk
  have e : (["frodo" ++ l.digits ++ ".o", "util.o", "random.o", "aes.o", "aes_c.o"] ++ v.fastObjects.map (·.name) ++
      ["fips202.o"]).map (fun o => (make v clean o).bind fun w => (config w.macros p).bind fun c => objectOf c o) =
      (["frodo" ++ l.digits ++ ".o", "util.o", "random.o", "aes.o", "aes_c.o"] ++ v.fastObjects.map (·.name) ++
      ["fips202.o"]).map (fun o => objectOf c o) := by
    refine List.map_congr_left fun o ho => ?_
    rw [hd o (hmem o ho)]
    simp only [Option.bind_some, h]
  refine e.trans ?_
  unfold Vars.library
  rw [fastObjects_eq h]
  unfold fastObjects'
  simp only [List.map_append, List.map_cons, List.map_nil, h1, h2, h3, h4, h5, h7]
  split_ifs <;> simp [aesNiO, fips202x4O, keccak4xO] at h6 h8 h9 ⊢ <;> simp [h6, h8, h9]

/-- The compiler of a little-endian machine. -/
def gccLe : Predef := ⟨false, true, false, some .le⟩

/-- C60.  Without `make clean` a second call with other options can give a known answer program for SHAKE with a library for AES, and a
library that does not link. -/
theorem C60_stale_wrong :
    (∃ (w v : Vars) (c : Config), v.katShake = true ∧ config w.macros gccLe = some c ∧ c.gen = .aes ∧
      (libraryOnDisk v gccLe (make v (make w clean)) .l640)[0]? = some (some (frodoO c .l640))) ∧
    (∃ (w v : Vars) (objs : List Object), libraryOnDisk v gccLe (make v (make w clean)) .l640 = objs.map some ∧
      ¬ Links (testKemO .l640 :: objs) v.external) := by
  refine ⟨⟨{}, { GENERATION_A := "SHAKE128" }, ⟨.nix, .gcc, .amd64, true, false, .aes, true, .same⟩, by decide +kernel,
    by decide +kernel, rfl, by decide +kernel⟩,
    ⟨{ GENERATION_A := "SHAKE128" }, { GENERATION_A := "SHAKE128", OPT_LEVEL := "REFERENCE" },
      [frodoO ⟨.nix, .gcc, .amd64, true, false, .shake, true, .same⟩ .l640, utilO,
        randomO ⟨.nix, .gcc, .amd64, true, false, .shake, true, .same⟩,
        aesO ⟨.nix, .gcc, .amd64, true, false, .shake, true, .same⟩, aesCO, fips202O], by decide +kernel, by decide +kernel⟩⟩

/-! ## Examples -/

/-- Plain `make` on a 64-bit x86 machine, and `make ARCH=ARM GENERATION_A=SHAKE128 USE_OPENSSL=FALSE`. -/
example (L : OsslCode) : (config ({} : Vars).macros gccLe).map (fun c => (c.build .le L).impl) = some .avx2 ∧
    (config ({ ARCH := "ARM", GENERATION_A := "SHAKE128", USE_OPENSSL := "FALSE" } : Vars).macros
      ⟨false, true, true, some .be⟩).map (fun c => c.build .be L) = some ⟨.be, .generic, .c, .shake⟩ := by
  constructor <;> rfl

/-- An option that is misspelt is ignored: `make GENERATION_A=shake128` builds AES. -/
example (L : OsslCode) : (config ({ GENERATION_A := "shake128" } : Vars).macros gccLe).map (fun c => (c.build .le L).gen) =
    some .aes := by
  rfl

/-- The hypotheses of `C60_one_level` can be met: the two objects of the levels 640 and 976. -/
example (c : Config) : ¬ Links [frodoO c .l640, frodoO c .l976] [] :=
  C60_one_level {} {} c c .l640 .l976 (by decide) _
    (by
      intro o ho
      simp only [List.mem_cons, List.not_mem_nil, or_false] at ho
      rcases ho with ho | ho <;> subst ho <;> simp [Vars.library])
    ⟨_, List.mem_cons_self, by simp [frodoO]⟩
    ⟨_, List.mem_cons_of_mem _ List.mem_cons_self, by simp [frodoO]⟩ []

/-- The compilers of `C60_visual_studio` and of `C60_byte_order` without `__BYTE_ORDER__`. -/
example : (config VsConf.genericX64.macros ⟨true, false, false, none⟩).isSome ∧
    (config ({ ARCH := "ARM" } : Vars).macros ⟨false, false, true, none⟩).map (·.order) = some .bytes := by
  constructor <;> rfl

end Frodo.Props
