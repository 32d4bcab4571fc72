import Verif.Model.MatrixA

/-! # The build: /repo/Makefile, /repo/src/config.h, /repo/VisualStudio

From the options of `make` to the macros that the compiler gets, from the macros to the code that the
preprocessor selects, and from there to a `Build`; the objects of the library and their symbols.

Not modelled: `EXTRA_CFLAGS`, and assignments on the command line to variables that the Makefile assigns
itself, except `CC`. -/

namespace Frodo.Make

open Spec (MatGen)

/-- The variables that select a build, `""` if not set (/repo/Makefile:3, 11, 25, 36, 47, 59). -/
structure Vars where
  CC : String := "gcc"
  ARCH : String := ""
  OPT_LEVEL : String := ""
  GENERATION_A : String := ""
  USE_OPENSSL : String := ""
  DO_VALGRIND_CHECK : String := ""

/-- The variable `ARCHITECTURE` (/repo/Makefile:10-19). -/
def Vars.architecture (v : Vars) : String :=
  if v.ARCH = "x64" then "_AMD64_"
  else if v.ARCH = "x86" then "_X86_"
  else if v.ARCH = "ARM" then "_ARM_"
  else "_AMD64_"

/-- The variable `USE_OPT_LEVEL` after line 19, `""` if not set (/repo/Makefile:11-19). -/
def Vars.optLevel₁ (v : Vars) : String :=
  if v.ARCH = "x64" then ""
  else if v.ARCH = "x86" then "_FAST_GENERIC_"
  else if v.ARCH = "ARM" then "_FAST_GENERIC_"
  else ""

/-- The variable `USE_OPT_LEVEL` after line 23 (/repo/Makefile:21-23). -/
def Vars.optLevel₂ (v : Vars) : String :=
  if v.architecture = "_AMD64_" then "_FAST_" else v.optLevel₁

/-- The variable `USE_OPT_LEVEL` (/repo/Makefile:25-33). -/
def Vars.optLevel (v : Vars) : String :=
  if v.OPT_LEVEL = "REFERENCE" then "_REFERENCE_"
  else if v.OPT_LEVEL = "FAST_GENERIC" then "_FAST_GENERIC_"
  else if v.OPT_LEVEL = "FAST" then
    if v.architecture = "_AMD64_" then "_FAST_" else v.optLevel₂
  else v.optLevel₂

/-- The variable `USE_GENERATION_A` (/repo/Makefile:35-40). -/
def Vars.generationA (v : Vars) : String :=
  if v.GENERATION_A = "AES128" then "_AES128_FOR_A_"
  else if v.GENERATION_A = "SHAKE128" then "_SHAKE128_FOR_A_"
  else "_AES128_FOR_A_"

/-- The variable `USING_OPENSSL` (/repo/Makefile:46-49). -/
def Vars.usingOpenssl (v : Vars) : String :=
  if v.USE_OPENSSL = "FALSE" then "NO_OPENSSL" else "_USE_OPENSSL_"

/-- The macros defined by `CFLAGS` (/repo/Makefile:58-61, 68-69). -/
def Vars.macros (v : Vars) : List String :=
  (if v.DO_VALGRIND_CHECK = "TRUE" then ["DO_VALGRIND_CHECK"] else []) ++
    ["NIX", v.architecture, v.optLevel, v.generationA, v.usingOpenssl]

/-- Whether `CFLAGS` has `-mavx2 -maes -msse2` (/repo/Makefile:80-84). -/
def Vars.simd (v : Vars) : Bool :=
  decide (v.architecture = "_AMD64_") && decide (v.optLevel = "_FAST_")

/-- Whether `LDFLAGS` has `-lcrypto` (/repo/Makefile:73-78). -/
def Vars.crypto (v : Vars) : Bool := !decide (v.USE_OPENSSL = "FALSE")

/-! ## /repo/src/config.h -/

/-- What the compiler defines by itself: `_MSC_VER`, `__GNUC__`, `__clang__` and `__BYTE_ORDER__`, if it is
defined (/repo/src/config.h:31-35, 99-102). -/
structure Predef where
  msc : Bool
  gnuc : Bool
  clang : Bool
  order : Option Arch

/-- `OS_TARGET` (/repo/src/config.h:13-22). -/
inductive Os where
  | win | nix
  deriving DecidableEq, Repr

/-- `COMPILER` (/repo/src/config.h:27-39). -/
inductive Compiler where
  | vc | gcc | clang
  deriving DecidableEq, Repr

/-- `TARGET` (/repo/src/config.h:44-56). -/
inductive Target where
  | amd64 | x86 | arm
  deriving DecidableEq, Repr

/-- The three definitions of `LE_TO_UINT16` and `UINT16_TO_LE` (/repo/src/config.h:99-114). -/
inductive Order where
  | swap | same | bytes
  deriving DecidableEq, Repr

/-- What /repo/src/config.h defines. -/
structure Config where
  os : Os
  compiler : Compiler
  target : Target
  /-- `USE_AVX2` and `AES_ENABLE_NI` (lines 70-71) -/
  fast : Bool
  /-- `USE_REFERENCE` (line 76) -/
  reference : Bool
  gen : MatGen
  /-- `USE_OPENSSL` (line 94) -/
  openssl : Bool
  order : Order
  deriving DecidableEq

/-- Definition of the operating system (/repo/src/config.h:16-22); `none` is `#error`. -/
def osOf (D : List String) : Option Os :=
  if "WINDOWS" ∈ D then some .win else if "NIX" ∈ D then some .nix else none

/-- Definition of the compiler (/repo/src/config.h:31-39). -/
def compilerOf (p : Predef) : Option Compiler :=
  if p.msc then some .vc else if p.gnuc then some .gcc else if p.clang then some .clang else none

/-- Definition of the architecture (/repo/src/config.h:48-56). -/
def targetOf (D : List String) : Option Target :=
  if "_AMD64_" ∈ D then some .amd64 else if "_X86_" ∈ D then some .x86
  else if "_ARM_" ∈ D then some .arm else none

/-- Selection of the implementation (/repo/src/config.h:69-79): whether `USE_AVX2` and `AES_ENABLE_NI`,
whether `USE_REFERENCE` is defined. -/
def implOf (D : List String) : Option (Bool × Bool) :=
  if "_FAST_" ∈ D then some (true, false) else if "_FAST_GENERIC_" ∈ D then some (false, false)
  else if "_REFERENCE_" ∈ D then some (false, true) else none

/-- Selection of the generator (/repo/src/config.h:83-89).  Line 88 is no directive, since `##` is one token, but no
declaration either, so that the compiler rejects it. -/
def genOf (D : List String) : Option MatGen :=
  if "_AES128_FOR_A_" ∈ D then some .aes else if "_SHAKE128_FOR_A_" ∈ D then some .shake else none

/-- Configuration for endianness (/repo/src/config.h:99-114). -/
def orderOf (p : Predef) (t : Target) : Order :=
  if p.order = some .be then .swap
  else if (t = .x86 ∨ t = .amd64) ∨ p.order = some .le then .same
  else .bytes

/-- /repo/src/config.h:16-114 with the macros `D` of the command line; `none` if the compiler stops. -/
def config (D : List String) (p : Predef) : Option Config := do
  let os ← osOf D
  let compiler ← compilerOf p
  let target ← targetOf D
  let (fast, reference) ← implOf D
  let gen ← genOf D
  pure ⟨os, compiler, target, fast, reference, gen, decide ("_USE_OPENSSL_" ∈ D), orderOf p target⟩

/-- `LE_TO_UINT16` in its three definitions, on a machine of byte order `a` (/repo/src/config.h:100, 103, 106). -/
def leToUint16 (o : Order) (a : Arch) (n : U16) : U16 :=
  match o with
  | .swap => ((n &&& 0xFF) <<< 8) ||| ((n &&& 0xFF00) >>> 8)
  | .same => n
  | .bytes => (nth (bytes16 a n) 0).setWidth 16 ||| (nth (bytes16 a n) 1).setWidth 16 <<< 8

/-- `UINT16_TO_LE` in its three definitions (/repo/src/config.h:101, 104, 107-113). -/
def uint16ToLe (o : Order) (a : Arch) (x : U16) : U16 :=
  match o with
  | .swap => ((x &&& 0xFF) <<< 8) ||| ((x &&& 0xFF00) >>> 8)
  | .same => x
  | .bytes => join16 a ((x &&& 0xFF).setWidth 8) ((x >>> 8).setWidth 8)

/-! ## What the preprocessor selects -/

/-- The matrix code: /repo/src/frodo640.c:41-45 (and the like) selects the file, `USE_AVX2` the code in
/repo/src/frodo_macrify.c:65, 175, 232. -/
def Config.impl (c : Config) : Impl :=
  if c.reference then .reference else if c.fast then .avx2 else .generic

/-- The AES code: `USE_OPENSSL` and `AES_ENABLE_NI` in /repo/src/aes/aes.c:14-61.  `L` is OpenSSL. -/
def Config.aes (c : Config) (L : OsslCode) : AesBackend :=
  if c.openssl then .openssl L else if c.fast then .ni else .c

/-- The build of the library on a machine of byte order `a` (/repo/src/config.h:69-114 and the uses of its
macros). -/
def Config.build (c : Config) (a : Arch) (L : OsslCode) : Build := ⟨a, c.impl, c.aes L, c.gen⟩

/-! ## Objects and symbols -/

/-- An object file: its name, the external symbols that it defines, and those that it uses.  Symbols of the C
library are left out. -/
structure Object where
  name : String
  defs : List String
  uses : List String
  deriving DecidableEq

/-- The parameter sets (/repo/Makefile:111-121). -/
inductive Level where
  | l640 | l976 | l1344
  deriving DecidableEq, Repr

/-- The number in the names (/repo/src/frodo640.c:35-37 and the like in frodo976.c, frodo1344.c). -/
def Level.digits : Level → String
  | .l640 => "640"
  | .l976 => "976"
  | .l1344 => "1344"

/-- The function behind the macro `shake` (/repo/src/frodo640.c:29, /repo/src/frodo976.c:29,
/repo/src/frodo1344.c:29). -/
def Level.shake : Level → String
  | .l640 => "shake128"
  | .l976 => "shake256"
  | .l1344 => "shake256"

/-- The functions of OpenSSL for the cipher named `c` (/repo/src/frodo_macrify.c:38-41, 62,
/repo/tests/rng.h:27-40). -/
def evp (c : String) : List String :=
  ["EVP_CIPHER_CTX_new", "EVP_EncryptInit_ex", c, "EVP_EncryptUpdate"]

/-- What the generation of `A` uses (/repo/src/frodo_macrify.c:32-99, 119-121 and the like in
/repo/src/frodo_macrify_reference.c). -/
def genUses (c : Config) : List String :=
  match c.gen with
  | .aes =>
    (if c.openssl then evp "EVP_aes_128_ecb" ++ ["handleErrors"]
     else ["AES128_load_schedule", "AES128_ECB_enc_sch"]) ++ ["AES128_free_schedule"]
  | .shake => if c.impl = .avx2 then ["shake128_4x"] else ["shake128"]

/-- The symbols that /repo/src/frodo640.c and the like define besides the three functions of the KEM
(/repo/src/frodo640.c:32-33, /repo/src/noise.c:10, /repo/src/frodo_macrify.c:21, 126, 275, 293, 311, 322, 333, 353,
/repo/src/frodo_macrify_reference.c:14, 72, 130, 148, 166, 177, 188, 208). -/
def sharedNames : List String :=
  ["CDF_TABLE", "CDF_TABLE_LEN", "frodo_sample_n", "frodo_mul_add_as_plus_e", "frodo_mul_add_sa_plus_e",
   "frodo_mul_bs", "frodo_mul_add_sb_plus_e", "frodo_add", "frodo_sub", "frodo_key_encode", "frodo_key_decode"]

/-- objs/frodo640.o and the like, which contain kem.c, noise.c and the matrix code (/repo/src/frodo640.c:35-45). -/
def frodoO (c : Config) (l : Level) : Object where
  name := "frodo" ++ l.digits ++ ".o"
  defs := ["crypto_kem_keypair_Frodo" ++ l.digits, "crypto_kem_enc_Frodo" ++ l.digits,
    "crypto_kem_dec_Frodo" ++ l.digits] ++ sharedNames
  uses := ["randombytes", l.shake, "frodo_pack", "frodo_unpack", "ct_verify", "ct_select", "clear_bytes"] ++ genUses c

/-- objs/util.o (/repo/src/util.c:13, 62, 111, 125, 135). -/
def utilO : Object := ⟨"util.o", ["frodo_pack", "frodo_unpack", "ct_verify", "ct_select", "clear_bytes"], []⟩

/-- objs/random/random.o (/repo/src/random/random.c:28-34). -/
def randomO (c : Config) : Object :=
  ⟨"random.o", ["randombytes"], if c.os = .win then ["BCryptGenRandom"] else []⟩

/-- objs/aes/aes.o (/repo/src/aes/aes.c:14-96). -/
def aesO (c : Config) : Object where
  name := "aes.o"
  defs := if c.openssl then ["handleErrors", "AES128_free_schedule", "AES256_free_schedule"] else
    ["AES128_load_schedule", "AES128_ECB_enc_sch", "AES128_free_schedule",
     "AES256_load_schedule", "AES256_ECB_enc_sch", "AES256_free_schedule"]
  uses := if c.openssl then ["ERR_print_errors_fp", "EVP_CIPHER_CTX_free"] else
    if c.fast then ["aes128_load_schedule_ni", "aes128_enc_ni", "aes256_load_schedule_ni", "aes256_enc_ni"]
    else ["aes128_load_schedule_c", "aes128_enc_c", "aes256_load_schedule_c", "aes256_enc_c"]

/-- objs/aes/aes_c.o (/repo/src/aes/aes_c.c:58, 131, 315, 325). -/
def aesCO : Object :=
  ⟨"aes_c.o", ["aes128_load_schedule_c", "aes256_load_schedule_c", "aes128_enc_c", "aes256_enc_c"], []⟩

/-- objs/aes/aes_ni.o (/repo/src/aes/aes_ni.c:32, 48, 68, 82). -/
def aesNiO : Object :=
  ⟨"aes_ni.o", ["aes128_load_schedule_ni", "aes256_load_schedule_ni", "aes128_enc_ni", "aes256_enc_ni"], []⟩

/-- objs/sha3/fips202.o (/repo/src/sha3/fips202.c:73, 389, 395, 401, 428, 434, 440). -/
def fips202O : Object :=
  ⟨"fips202.o", ["KeccakF1600_StatePermute", "shake128_absorb", "shake128_squeezeblocks", "shake128",
    "shake256_absorb", "shake256_squeezeblocks", "shake256"], []⟩

/-- objs/sha3/fips202x4.o (/repo/src/sha3/fips202x4.c:33-34, 126, 138, 145). -/
def fips202x4O : Object :=
  ⟨"fips202x4.o", ["shake128_absorb4x", "shake128_squeezeblocks4x", "shake128_4x"],
    ["KeccakP1600times4_PermuteAll_24rounds"]⟩

/-- objs/sha3/keccak4x/KeccakP-1600-times4-SIMD256.o
(/repo/src/sha3/keccak4x/KeccakP-1600-times4-SIMD256.c:83, 88, 123, 168, 199, 244, 261, 291, 341, 380, 802, 815,
828, 930). -/
def keccak4xO : Object :=
  ⟨"KeccakP-1600-times4-SIMD256.o",
    ["KeccakP1600times4_InitializeAll", "KeccakP1600times4_AddBytes", "KeccakP1600times4_AddLanesAll",
     "KeccakP1600times4_OverwriteBytes", "KeccakP1600times4_OverwriteLanesAll",
     "KeccakP1600times4_OverwriteWithZeroes", "KeccakP1600times4_ExtractBytes",
     "KeccakP1600times4_ExtractLanesAll", "KeccakP1600times4_ExtractAndAddBytes",
     "KeccakP1600times4_ExtractAndAddLanesAll", "KeccakP1600times4_PermuteAll_24rounds",
     "KeccakP1600times4_PermuteAll_12rounds", "KeccakF1600times4_FastLoop_Absorb",
     "KeccakP1600times4_12rounds_FastLoop_Absorb"], []⟩

/-- The objects of `AES_NI_OBJS` and `SHAKEx4_OBJS` (/repo/Makefile:133-143).  The condition is on
`GENERATION_A`, not on `USE_GENERATION_A`. -/
def Vars.fastObjects (v : Vars) : List Object :=
  if v.optLevel = "_FAST_" then
    aesNiO :: (if v.GENERATION_A = "SHAKE128" then [fips202x4O, keccak4xO] else [])
  else []

/-- The library without `randombytes`: `libfrodo_for_testing.a` (/repo/Makefile:111-131, 168-178). -/
def Vars.testing (v : Vars) (c : Config) (l : Level) : List Object :=
  [frodoO c l, utilO, aesO c, aesCO] ++ v.fastObjects ++ [fips202O]

/-- The library: `libfrodo.a` (/repo/Makefile:106-161). -/
def Vars.library (v : Vars) (c : Config) (l : Level) : List Object :=
  [frodoO c l, utilO, randomO c, aesO c, aesCO] ++ v.fastObjects ++ [fips202O]

/-- tests/test_KEM640.c and the like (/repo/Makefile:163-166, /repo/tests/test_kem.c:45-72, 107). -/
def testKemO (l : Level) : Object where
  name := "test_KEM" ++ l.digits
  defs := ["main"]
  uses := ["crypto_kem_keypair_Frodo" ++ l.digits, "crypto_kem_enc_Frodo" ++ l.digits,
    "crypto_kem_dec_Frodo" ++ l.digits, "randombytes", l.shake]

/-- Whether the known answer programs with `shake` in their names are built (/repo/Makefile:181-189). -/
def Vars.katShake (v : Vars) : Bool := decide (v.GENERATION_A = "SHAKE128")

/-- tests/PQCtestKAT_kem640.c and the like (/repo/Makefile:180-189). -/
def katO (l : Level) : Object where
  name := "PQCtestKAT_kem" ++ l.digits
  defs := ["main", "FindMarker", "ReadHex", "fprintBstr"]
  uses := ["randombytes_init", "crypto_kem_keypair_Frodo" ++ l.digits, "crypto_kem_enc_Frodo" ++ l.digits,
    "crypto_kem_dec_Frodo" ++ l.digits]

/-- tests/rng.c (/repo/tests/rng.c:12, 15, 33, 66, /repo/tests/rng.h:20-42). -/
def rngO (c : Config) : Object where
  name := "rng.o"
  defs := ["DRBG_ctx", "randombytes_init", "randombytes", "AES256_CTR_DRBG_Update"]
  uses := if c.openssl then evp "EVP_aes_256_ecb" ++ ["handleErrors", "EVP_CIPHER_CTX_free"]
    else ["AES256_load_schedule", "AES256_ECB_enc_sch", "AES256_free_schedule"]

/-- What `-lcrypto` defines, of what the library uses (/repo/Makefile:77). -/
def cryptoDefs : List String :=
  ["EVP_CIPHER_CTX_new", "EVP_EncryptInit_ex", "EVP_aes_128_ecb", "EVP_aes_256_ecb", "EVP_EncryptUpdate",
   "EVP_CIPHER_CTX_free", "ERR_print_errors_fp"]

/-- The symbols that `LDFLAGS` offers (/repo/Makefile:73-78). -/
def Vars.external (v : Vars) : List String := if v.crypto then cryptoDefs else []

/-! ## Visual Studio -/

/-- The configurations of the solution (/repo/VisualStudio/frodoKEM-640.vcxproj:4-19; the other two projects and
the test projects have the same). -/
inductive VsConf where
  | debugWin32 | debugX64 | genericWin32 | genericX64
  deriving DecidableEq, Repr

/-- `PreprocessorDefinitions` (/repo/VisualStudio/frodoKEM-640.vcxproj:163, 187, 213, 241; the other projects have the
same). -/
def VsConf.macros : VsConf → List String
  | .debugWin32 => ["WINDOWS", "_X86_", "_FAST_GENERIC_", "_AES128_FOR_A_"]
  | .debugX64 => ["WINDOWS", "_AMD64_", "_FAST_GENERIC_", "_AES128_FOR_A_"]
  | .genericWin32 => ["WINDOWS", "_X86_", "_FAST_GENERIC_", "_AES128_FOR_A_"]
  | .genericX64 => ["WINDOWS", "_AMD64_", "_FAST_GENERIC_", "_AES128_FOR_A_"]

/-- The files compiled into the library (/repo/VisualStudio/frodoKEM-640.vcxproj:40-79, without those marked
`ExcludedFromBuild`). -/
def vsLibrary (c : Config) (l : Level) : List Object :=
  [aesO c, aesCO, aesNiO, frodoO c l, randomO c, fips202O, utilO]

/-! ## Repeated calls of `make` -/

/-- The objects on disk: with which options each was compiled (/repo/Makefile:90-104: the options are no
prerequisite of an object). -/
def Disk := String → Option Vars

/-- The names of the objects that the libraries of all levels need (/repo/Makefile:106-143). -/
def Vars.needed (v : Vars) : List String :=
  ["frodo640.o", "frodo976.o", "frodo1344.o", "util.o", "random.o", "aes.o", "aes_c.o"] ++
    (v.fastObjects.map (·.name)) ++ ["fips202.o"]

/-- `make` when no source file has changed: objects that exist are up to date (/repo/Makefile:90-104, 145-161). -/
def make (v : Vars) (d : Disk) : Disk := fun o => if o ∈ v.needed then some ((d o).getD v) else d o

/-- `make clean` (/repo/Makefile:214-216). -/
def clean : Disk := fun _ => none

/-- The object of the given name, compiled with configuration `c` (the rules of /repo/Makefile:90-104 and the sources
cited above). -/
def objectOf (c : Config) (o : String) : Option Object :=
  ([frodoO c .l640, frodoO c .l976, frodoO c .l1344, utilO, randomO c, aesO c, aesCO, aesNiO, fips202O, fips202x4O,
    keccak4xO].find? fun x => x.name == o)

/-- The library that the last of several calls of `make` puts together, `v` being the options of the last call and `p` the
compiler: the objects named by the Makefile as they are on disk (/repo/Makefile:145-161). -/
def libraryOnDisk (v : Vars) (p : Predef) (d : Disk) (l : Level) : List (Option Object) :=
  (["frodo" ++ l.digits ++ ".o", "util.o", "random.o", "aes.o", "aes_c.o"] ++ v.fastObjects.map (·.name) ++
    ["fips202.o"]).map fun o => do
      let w ← d o
      let c ← config w.macros p
      objectOf c o

end Frodo.Make
