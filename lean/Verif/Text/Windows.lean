import Verif.Text.Random
import Verif.Text.Aes
import Verif.Text.Unit640
import Verif.Text.Unit976
import Verif.Text.Unit1344

/-! # The texts as they are read on Windows

In /repo/src/util.c, /repo/src/sha3/fips202.c and /repo/src/aes/aes_c.c no conditional and no type depends on the system; they are read as
elsewhere. -/

namespace Frodo.Src

/-- On Windows `long` has 32 bits, like `int`, and `long long` has 64: `unsigned long` that no second `long` follows becomes
`unsigned int`.  This corresponds to the compilers for Windows (LLP64), not to a part of /repo. -/
def llp64 : List Tok → List Tok
  | .id u :: .id l :: r =>
    if u = w!"unsigned" ∧ l = w!"long" ∧ r.head? ≠ some (.id w!"long") then .id u :: .id w!"int" :: llp64 r
    else .id u :: llp64 (.id l :: r)
  | t :: r => t :: llp64 r
  | [] => []

/-- Leave out `__declspec(align(N))` (/repo/src/config.h:60), which says where an array is. -/
def dropDecl : List Tok → List Tok
  | .id x :: .op ['('] :: .id y :: .op ['('] :: .num v u l :: .op [')'] :: .op [')'] :: r =>
    if x = w!"__declspec" ∧ y = w!"align" then dropDecl r
    else .id x :: .op ['('] :: .id y :: .op ['('] :: .num v u l :: .op [')'] :: .op [')'] :: dropDecl r
  | t :: r => t :: dropDecl r
  | [] => []

/-- All passes between preprocessing and parsing. -/
def windowsPasses (ts : List Tok) : List Tok := matrices (llp64 (dropDecl (doLoops 10000 (strings 10000 ts))))

/-- The file that a text denotes on Windows. -/
def parseWindows (ms : List Macro) (inc : Includes) (text : List (List Char)) : Option File :=
  match preprocess ms inc text with
  | some ts => pFile 1000 (windowsPasses ts)
  | none => none

theorem parseWindows_eq {ms : List Macro} {inc : Includes} {text : List (List Char)} {ts ts' : List Tok} {f : File}
    (h : preprocess ms inc text = some ts) (h' : windowsPasses ts = ts') (h'' : pFile 1000 ts' = some f) :
    parseWindows ms inc text = some f := by
  simp only [parseWindows, h, h', h'']

/-- What the project files define (/repo/VisualStudio/frodoKEM-640.vcxproj:187) and what bcrypt.h defines, included in
/repo/src/random/random.c:11: the flag for the generator of the system is 2; a status is a success if it is not negative, as a `long`. -/
def windowsFlags : List Macro :=
  [⟨w!"__inline", none, [.id w!"inline"]⟩, ⟨w!"BCRYPT_USE_SYSTEM_PREFERRED_RNG", none, [.num 2 false false]⟩,
    ⟨w!"BCRYPT_SUCCESS", some [w!"Status"], [.op ['('], .op ['('], .op ['('], .id w!"int", .op [')'], .op ['('], .id w!"Status",
      .op [')'], .op [')'], .op ['>', '='], .num 0 false false, .op [')']]⟩,
    flag w!"WINDOWS", flag w!"_MSC_VER", flag w!"_AMD64_", flag w!"_FAST_GENERIC_", flag w!"_AES128_FOR_A_"]

/-- What `randomText` parses to on Windows (/repo/src/random/random.c:1-61). -/
def windowsFile : File := parsed% parseWindows windowsFlags randomSources randomText

theorem windows_parse : parseWindows windowsFlags randomSources randomText = some windowsFile := by kernel_rfl

/-- `randombytes` (/repo/src/random/random.c:28-61). -/
def windowsFun : Fun := function% windowsFile.fn "randombytes"

theorem windows_randombytes : windowsFile.fn "randombytes" = some windowsFun := by kernel_rfl

/-- The tokens of /repo/src/frodo640.c after preprocessing on Windows. -/
def windows640Tokens : List Tok := tokens% preprocess windowsFlags sourceLines frodo640Text

theorem windows640_tokens : preprocess windowsFlags sourceLines frodo640Text = some windows640Tokens := by kernel_rfl

theorem windows640_passes : windowsPasses windows640Tokens = dropAttr unitOpt640Tokens := by kernel_rfl

theorem windows640_parse : parseWindows windowsFlags sources frodo640Text = some unitOpt640 :=
  parseWindows_eq (sources_eq ▸ windows640_tokens) windows640_passes unitOpt640_file

/-- The tokens of /repo/src/frodo976.c after preprocessing on Windows. -/
def windows976Tokens : List Tok := tokens% preprocess windowsFlags sourceLines frodo976Text

theorem windows976_tokens : preprocess windowsFlags sourceLines frodo976Text = some windows976Tokens := by kernel_rfl

theorem windows976_passes : windowsPasses windows976Tokens = dropAttr unitOpt976Tokens := by kernel_rfl

theorem windows976_parse : parseWindows windowsFlags sources frodo976Text = some unitOpt976 :=
  parseWindows_eq (sources_eq ▸ windows976_tokens) windows976_passes unitOpt976_file

/-- The tokens of /repo/src/frodo1344.c after preprocessing on Windows. -/
def windows1344Tokens : List Tok := tokens% preprocess windowsFlags sourceLines frodo1344Text

theorem windows1344_tokens : preprocess windowsFlags sourceLines frodo1344Text = some windows1344Tokens := by kernel_rfl

theorem windows1344_passes : windowsPasses windows1344Tokens = dropAttr unitOpt1344Tokens := by kernel_rfl

theorem windows1344_parse : parseWindows windowsFlags sources frodo1344Text = some unitOpt1344 :=
  parseWindows_eq (sources_eq ▸ windows1344_tokens) windows1344_passes unitOpt1344_file

theorem windows_aes_parse : parseWindows windowsFlags aesSources aesText = some aesFile := by kernel_rfl

end Frodo.Src
