import Verif.Text.Lines
import Verif.C.Sem
import Verif.Model.Params

/-! # Functions with the parameters left open

The parameter files define macros and include the same sources.  Here the sources are parsed with the parameters left as
names, for which numbers can be put in afterwards; that this gives the functions of the three parameter sets is proved in the
files `Unit*`. -/

namespace Frodo.Src

mutual
/-- Put in numbers for names, and names of functions for others. -/
def Expr.subst (c : String → Option Nat) (f : String → String) : Expr → Expr
  | .num s n v => .num s n v
  | .var x => match c x with
    | some v => .num true 4 v
    | none => .var x
  | .idx a i => .idx (a.subst c f) (i.subst c f)
  | .deref a => .deref (a.subst c f)
  | .addr a => .addr (a.subst c f)
  | .un o a => .un o (a.subst c f)
  | .bin o a b => .bin o (a.subst c f) (b.subst c f)
  | .land a b => .land (a.subst c f) (b.subst c f)
  | .lor a b => .lor (a.subst c f) (b.subst c f)
  | .cond x a b => .cond (x.subst c f) (a.subst c f) (b.subst c f)
  | .cast t a => .cast t (a.subst c f)
  | .sizeof t => .sizeof t
  | .asg l r => .asg (l.subst c f) (r.subst c f)
  | .asgOp o l r => .asgOp o (l.subst c f) (r.subst c f)
  | .inc p u l => .inc p u (l.subst c f)
  | .call g args => .call (f g) (Expr.substList c f args)
/-- The same in all arguments of a call. -/
def Expr.substList (c : String → Option Nat) (f : String → String) : List Expr → List Expr
  | [] => []
  | e :: es => e.subst c f :: Expr.substList c f es
end

/-- Put in numbers for names in a statement. -/
def Stmt.subst (c : String → Option Nat) (f : String → String) : Stmt → Stmt
  | .skip => .skip
  | .expr e => .expr (e.subst c f)
  | .decl t x none => .decl t x none
  | .decl t x (some e) => .decl t x (some (e.subst c f))
  | .declArr s n x l none => .declArr s n x (l.subst c f) none
  | .declArr s n x l (some es) => .declArr s n x (l.subst c f) (some (Expr.substList c f es))
  | .seq a b => .seq (a.subst c f) (b.subst c f)
  | .block s => .block (s.subst c f)
  | .ite e a b => .ite (e.subst c f) (a.subst c f) (b.subst c f)
  | .while e s => .while (e.subst c f) (s.subst c f)
  | .for i e st s => .for (i.subst c f) (e.subst c f) (st.subst c f) (s.subst c f)
  | .brk => .brk
  | .ret none => .ret none
  | .ret (some e) => .ret (some (e.subst c f))

/-- The numbers that a parameter file and its header define (/repo/src/frodo640.c:13-20, /repo/src/api_frodo640.h:11-14). -/
def constOf (P : Params) (x : String) : Option Nat :=
  if x = "PARAMS_N" then some P.n
  else if x = "PARAMS_NBAR" then some P.nbar
  else if x = "PARAMS_LOGQ" then some P.logq
  else if x = "PARAMS_EXTRACTED_BITS" then some P.B
  else if x = "PARAMS_STRIPE_STEP" then some P.stripe
  else if x = "BYTES_SEED_A" then some P.seedA
  else if x = "CRYPTO_BYTES" then some P.bytes
  else if x = "CRYPTO_SECRETKEYBYTES" then some P.skBytes
  else if x = "CRYPTO_PUBLICKEYBYTES" then some P.pkBytes
  else if x = "CRYPTO_CIPHERTEXTBYTES" then some P.ctBytes
  else none

/-- The hash function that `shake` stands for (/repo/src/frodo640.c:29). -/
def shakeName (P : Params) (x : String) : String :=
  if x = "shake" then (match P.shake with | .shake128 => "shake128" | .shake256 => "shake256") else x

/-- A function with the parameters put in (/repo/src/frodo640.c:8-46). -/
def Fun.at (f : Fun) (P : Params) : Fun := { f with body := f.body.subst (constOf P) (shakeName P) }

/-- /repo/src/frodo640.c:8-46 without the parameters. -/
def genericText : List (List Char) := c_text "#include \"frodo_macrify.h\"
#define BYTES_MU (PARAMS_EXTRACTED_BITS*PARAMS_NBAR*PARAMS_NBAR)/8
#define BYTES_PKHASH CRYPTO_BYTES
#include \"kem.c\"
#include \"noise.c\"
#if defined(USE_REFERENCE)
#include \"frodo_macrify_reference.c\"
#else
#include \"frodo_macrify.c\"
#endif
"

/-- The functions with the parameters left open: reference implementation, A from SHAKE128. -/
def genericRef : File := parsed% parseText refShake sourceLines genericText

/-- `frodo_sample_n` (/repo/src/noise.c:10-29). -/
def sampleFun : Fun := function% genericRef.fn "frodo_sample_n"
/-- `frodo_mul_bs` (/repo/src/frodo_macrify_reference.c:130-145, /repo/src/frodo_macrify.c:275-290). -/
def mulBsFun : Fun := function% genericRef.fn "frodo_mul_bs"
/-- `frodo_mul_add_sb_plus_e` (/repo/src/frodo_macrify_reference.c:148-163, /repo/src/frodo_macrify.c:293-308). -/
def mulAddSbFun : Fun := function% genericRef.fn "frodo_mul_add_sb_plus_e"
/-- `frodo_add` (/repo/src/frodo_macrify_reference.c:166-174, /repo/src/frodo_macrify.c:311-319). -/
def addFun : Fun := function% genericRef.fn "frodo_add"
/-- `frodo_sub` (/repo/src/frodo_macrify_reference.c:177-185, /repo/src/frodo_macrify.c:322-330). -/
def subFun : Fun := function% genericRef.fn "frodo_sub"
/-- `frodo_key_encode` (/repo/src/frodo_macrify_reference.c:188-205, /repo/src/frodo_macrify.c:333-350). -/
def encodeFun : Fun := function% genericRef.fn "frodo_key_encode"
/-- `frodo_key_decode` (/repo/src/frodo_macrify_reference.c:208-226, /repo/src/frodo_macrify.c:353-371). -/
def decodeFun : Fun := function% genericRef.fn "frodo_key_decode"

/-- The variable of a file with a given name (C11 6.9.2). -/
def File.global (F : File) (x : String) : Option Global := F.globals.find? fun g => g.name == x

/-- The value of a constant (C11 6.6). -/
def Expr.const : Expr → Int
  | .num _ _ v => v
  | .cast (.int s n) e => wrap s n e.const
  | _ => 0

/-- The variables of a file are in memory with the values that they are initialised with (C11 6.7.9). -/
def File.Loaded (F : File) (X : Ctx) (m : Mem) : Prop := ∀ x g, F.global x = some g →
  if g.array then ∃ b, X.glob x = some (.ptr b 0 g.s g.n) ∧ m b = ⟨g.s, g.n, g.init.map Expr.const⟩
  else ∃ e, g.init = [e] ∧ X.glob x = some (.int g.s g.n e.const)

/-- A file has the small functions and the table of the distribution, with given parameters (/repo/src/frodo640.c:8-46). -/
structure File.IsUnit (F : File) (P : Params) : Prop where
  cdf : F.global "CDF_TABLE" = some ⟨false, 2, "CDF_TABLE", true, P.cdf.map fun c => .num true 4 c.toNat⟩
  cdfLen : F.global "CDF_TABLE_LEN" = some ⟨false, 2, "CDF_TABLE_LEN", false, [.num true 4 P.cdf.length]⟩
  sample : F.fn "frodo_sample_n" = some (sampleFun.at P)
  mulBs : F.fn "frodo_mul_bs" = some (mulBsFun.at P)
  mulAddSb : F.fn "frodo_mul_add_sb_plus_e" = some (mulAddSbFun.at P)
  add : F.fn "frodo_add" = some (addFun.at P)
  sub : F.fn "frodo_sub" = some (subFun.at P)
  encode : F.fn "frodo_key_encode" = some (encodeFun.at P)
  decode : F.fn "frodo_key_decode" = some (decodeFun.at P)

end Frodo.Src
