import Verif.Text.Fips
import Verif.Proof.TextFrame
import Verif.Model.Keccak

/-! # /repo/src/sha3/fips202.c:73-338, `KeccakF1600_StatePermute`: text and model

Almost all of the function is straight-line code on 64-bit variables.  It is translated to programs on numbered registers; the
translation is proved to be correct, and the programs of the two halves of the loop body to compute `roundAE` and `roundEA`. -/

namespace Frodo

open Src

/-- An array of 64-bit words. -/
abbrev u64s (l : List U64) : Blk := ⟨false, 8, l.map fun x => (x.toNat : Int)⟩

/-- Expressions on 64-bit registers: `rc j` is the round constant `round + j`, `mem j` the lane `j` of the state. -/
inductive RE where
  | reg (i : Nat)
  | rc (j : Nat)
  | mem (j : Nat)
  | xor (a b : RE)
  | and (a b : RE)
  | not (a : RE)
  | shl (a : RE) (k : Nat)
  | shr (a : RE) (k : Nat)
  deriving Lean.ToExpr

/-- The value of an expression. -/
def RE.val (R S ρ : Nat → U64) : RE → U64
  | .reg i => ρ i
  | .rc j => R j
  | .mem j => S j
  | .xor a b => a.val R S ρ ^^^ b.val R S ρ
  | .and a b => a.val R S ρ &&& b.val R S ρ
  | .not a => ~~~ a.val R S ρ
  | .shl a k => a.val R S ρ <<< k
  | .shr a k => a.val R S ρ >>> k

/-- The variables of `KeccakF1600_StatePermute` (/repo/src/sha3/fips202.c:77-88). -/
def regNames : List String :=
  ["Aba", "Abe", "Abi", "Abo", "Abu", "Aga", "Age", "Agi", "Ago", "Agu", "Aka", "Ake", "Aki", "Ako", "Aku", "Ama", "Ame", "Ami", "Amo", "Amu", "Asa", "Ase", "Asi", "Aso", "Asu"] ++
  ["Eba", "Ebe", "Ebi", "Ebo", "Ebu", "Ega", "Ege", "Egi", "Ego", "Egu", "Eka", "Eke", "Eki", "Eko", "Eku", "Ema", "Eme", "Emi", "Emo", "Emu", "Esa", "Ese", "Esi", "Eso", "Esu"] ++
  ["BCa", "BCe", "BCi", "BCo", "BCu"] ++ ["Da", "De", "Di", "Do", "Du"]

/-- The number of a variable. -/
def regOf (x : String) : Option Nat := regNames.findIdx? (· == x)

/-- Translation of an expression; the registers that it reads must be among `D`, the variable `round` may be read if `q`. -/
def comp (q : Bool) (D : List Nat) : Expr → Option RE
  | .var x => do
    let i ← regOf x
    if D.contains i then some (.reg i) else none
  | .bin .xor a b => do return .xor (← comp q D a) (← comp q D b)
  | .bin .and a b => do return .and (← comp q D a) (← comp q D b)
  | .un .bnot a => do return .not (← comp q D a)
  | .bin .shl a (.num true 4 k) => do
    let a ← comp q D a
    if k < 64 then some (.shl a k) else none
  | .bin .shr a (.bin .sub (.num true 4 n) (.num true 4 k)) => do
    let a ← comp q D a
    if k ≤ n ∧ n - k < 64 ∧ n < 100 then some (.shr a (n - k)) else none
  | .cast (.int false 8) (.idx (.var "KeccakF_RoundConstants") (.var "round")) => if q then some (.rc 0) else none
  | .cast (.int false 8) (.idx (.var "KeccakF_RoundConstants") (.bin .add (.var "round") (.num true 4 1))) =>
    if q then some (.rc 1) else none
  | .idx (.var "state") (.num true 4 k) => if k < 25 then some (.mem k) else none
  | _ => none

/-- Translation of `n` assignments: the program, the registers that have a value afterwards, and what follows. -/
def compS (q : Bool) : Nat → List Nat → Stmt → Option (List (Nat × RE) × List Nat × Stmt)
  | 0, D, s => some ([], D, s)
  | n + 1, D, .seq (.expr (.asg (.var x) e)) s => do
    let i ← regOf x
    let e ← comp q D e
    let r ← compS q n (i :: D) s
    return ((i, e) :: r.1, r.2)
  | n + 1, D, .seq (.expr (.asgOp .xor (.var x) e)) s => do
    let i ← regOf x
    let e ← comp q D e
    if D.contains i then
      let r ← compS q n D s
      return ((i, .xor (.reg i) e) :: r.1, r.2)
    else none
  | _, _, _ => none

/-- Run a program. -/
def runR (R S : Nat → U64) : List (Nat × RE) → (Nat → U64) → Nat → U64
  | [], ρ => ρ
  | (i, e) :: p, ρ => runR R S p fun j => bif Nat.beq j i then e.val R S ρ else ρ j

/-- The lanes `Aba`, …, `Asu`. -/
def lanesA (ρ : Nat → U64) : Lanes :=
  ⟨ρ 0, ρ 1, ρ 2, ρ 3, ρ 4, ρ 5, ρ 6, ρ 7, ρ 8, ρ 9, ρ 10, ρ 11, ρ 12, ρ 13, ρ 14, ρ 15, ρ 16, ρ 17, ρ 18, ρ 19, ρ 20, ρ 21, ρ 22, ρ 23, ρ 24⟩

/-- The lanes `Eba`, …, `Esu`. -/
def lanesE (ρ : Nat → U64) : Lanes :=
  ⟨ρ 25, ρ 26, ρ 27, ρ 28, ρ 29, ρ 30, ρ 31, ρ 32, ρ 33, ρ 34, ρ 35, ρ 36, ρ 37, ρ 38, ρ 39, ρ 40, ρ 41, ρ 42, ρ 43, ρ 44, ρ 45, ρ 46, ρ 47, ρ 48, ρ 49⟩

/-- Declarations without initialiser, innermost first. -/
def declsOf : Stmt → Option (List (String × Val))
  | .decl t x none => some [(x, .undef t)]
  | .seq a b => do return (← declsOf b) ++ (← declsOf a)
  | _ => none

/-- The first `n` parts of a sequence, all declarations, and what follows. -/
def declsN : Nat → Stmt → Option (List (String × Val) × Stmt)
  | 0, s => some ([], s)
  | n + 1, .seq a s => do
    let d ← declsOf a
    let r ← declsN n s
    return (r.1 ++ d, r.2)
  | _, _ => none

/-- Assignments `state[j] = x` of variables, and what follows. -/
def storesN : Nat → Stmt → Option (List (Nat × Nat) × Stmt)
  | 0, s => some ([], s)
  | n + 1, .seq (.expr (.asg (.idx (.var "state") (.num true 4 j)) (.var x))) s => do
    let i ← regOf x
    let r ← storesN n s
    if j < 25 ∧ i < 25 then return ((j, i) :: r.1, r.2) else none
  | _, _ => none

/-- The second part of a sequence. -/
def Src.Stmt.rest : Stmt → Stmt
  | .seq _ b => b
  | s => s

/-- The body of a loop in the first part of a sequence. -/
def Src.Stmt.loopBody : Stmt → Stmt
  | .seq (.for _ _ _ (.block s)) _ => s
  | s => s

open Lean Elab Meta in
/-- `program% t` evaluates `t` (semantic base, not a part of /repo). -/
elab "program% " t:term : term => do
  let T := mkApp (mkConst ``List [Level.zero]) (← mkAppM ``Prod #[mkConst ``Nat, mkConst ``RE])
  let e ← Lean.Elab.Term.elabTerm t (some T)
  Lean.Elab.Term.synthesizeSyntheticMVarsNoPostponing
  let e ← instantiateMVars e
  let r ← unsafe Lean.Meta.evalExpr (List (Nat × RE)) T e
  return toExpr r

/-- What follows the declarations (/repo/src/sha3/fips202.c:89-337). -/
def permCode : Stmt := ((declsN 13 permuteFun.body).map (·.2)).getD .skip
/-- The declarations (/repo/src/sha3/fips202.c:75-88). -/
def permDecls : List (String × Val) := ((declsN 13 permuteFun.body).map (·.1)).getD []
theorem perm_decls : declsN 13 permuteFun.body = some (permDecls, permCode) := by kernel_rfl

/-- The loads (/repo/src/sha3/fips202.c:90-114). -/
def permLoads : List (Nat × RE) := program% ((compS false 25 [] permCode).map (·.1)).getD []
/-- What follows the loads (/repo/src/sha3/fips202.c:116-337). -/
def permLoop : Stmt := ((compS false 25 [] permCode).map (·.2.2)).getD .skip
theorem perm_loads : ∃ D, compS false 25 [] permCode = some (permLoads, D, permLoop) ∧ ∀ i < 25, i ∈ D :=
  ⟨((compS false 25 [] permCode).map (·.2.1)).getD [], by kernel_rfl, by decide +kernel⟩

/-- The body of the loop (/repo/src/sha3/fips202.c:118-307). -/
def permBody : Stmt := permLoop.loopBody
theorem perm_loop : permLoop = .seq (.for (.expr (.asg (.var "round") (.num true 4 0))) (.bin .lt (.var "round") (.num true 4 24))
    (.asgOp .add (.var "round") (.num true 4 2)) (.block permBody)) permLoop.rest := by kernel_rfl


/-- The first half of the body (/repo/src/sha3/fips202.c:119-213). -/
def permAE : List (Nat × RE) := program% ((compS true 86 (List.range 25) permBody).map (·.1)).getD []
/-- The second half of the body (/repo/src/sha3/fips202.c:214-307). -/
def permEA : List (Nat × RE) := program% ((compS true 172 (List.range 25) permBody).map (·.1.drop 86)).getD []

theorem perm_body : ∃ D, compS true 172 (List.range 25) permBody = some (permAE ++ permEA, D, .skip) ∧ ∀ i < 25, i ∈ D :=
  ⟨((compS true 172 (List.range 25) permBody).map (·.2.1)).getD [], by kernel_rfl, by decide +kernel⟩

theorem permAE_lanes (R S ρ : Nat → U64) : lanesE (runR R S permAE ρ) = roundAE (R 0) (lanesA ρ) := by kernel_rfl

theorem permEA_lanes (R S ρ : Nat → U64) : lanesA (runR R S permEA ρ) = roundEA (R 1) (lanesE ρ) := by kernel_rfl

theorem perm_stores : storesN 25 permLoop.rest = some ((List.range 25).map fun i => (i, i), .skip) := by kernel_rfl

theorem permLoads_run (R S ρ : Nat → U64) : lanesA (runR R S permLoads ρ) = lanesA S := by kernel_rfl

/-! ## The translation is correct -/

section

variable {X : Ctx} {M : Mem} {nx : Nat}

theorem wrap64 (a : U64) : wrap false 8 (a.toNat : Int) = a.toNat := by
  have := a.isLt
  exact wrap_size (by omega) (by omega)

theorem ofInt64 (a : U64) : BitVec.ofInt (8 * 8) (a.toNat : Int) = a := by
  rw [BitVec.ofInt_natCast]
  exact BitVec.ofNat_toNat ..

theorem bin_xor64 (a b : U64) : binOpV M .xor (.int false 8 a.toNat) (.int false 8 b.toNat) = pure (.int false 8 (a ^^^ b).toNat) := by
  have : binOpV M .xor (.int false 8 a.toNat) (.int false 8 b.toNat) = pure (.int false 8 (ofBits false
    (BitVec.ofInt (8 * 8) (wrap false 8 a.toNat) ^^^ BitVec.ofInt (8 * 8) (wrap false 8 b.toNat)))) := rfl
  rw [this, wrap64, wrap64, ofInt64, ofInt64]
  rfl

theorem bin_and64 (a b : U64) : binOpV M .and (.int false 8 a.toNat) (.int false 8 b.toNat) = pure (.int false 8 (a &&& b).toNat) := by
  have : binOpV M .and (.int false 8 a.toNat) (.int false 8 b.toNat) = pure (.int false 8 (ofBits false
    (BitVec.ofInt (8 * 8) (wrap false 8 a.toNat) &&& BitVec.ofInt (8 * 8) (wrap false 8 b.toNat)))) := rfl
  rw [this, wrap64, wrap64, ofInt64, ofInt64]
  rfl

theorem un_not64 (a : U64) : unOpV .bnot (.int false 8 a.toNat) = pure (.int false 8 (~~~a).toNat) := by
  have : unOpV .bnot (.int false 8 a.toNat) = pure (.int false 8 (ofBits false
    (~~~ BitVec.ofInt (8 * 8) (wrap false 8 a.toNat)))) := rfl
  rw [this, wrap64, ofInt64]
  rfl

theorem bin_shl64 (a : U64) {k : Nat} (h : k < 64) :
    binOpV M .shl (.int false 8 a.toNat) (.int true 4 k) = pure (.int false 8 (a <<< k).toNat) := by
  have : binOpV M .shl (.int false 8 a.toNat) (.int true 4 k) = shlOp false 8 (wrap false 8 a.toNat) k >>= fun v =>
    pure (.int false 8 v) := rfl
  rw [this, wrap64, shlOp, if_neg (by simp), if_pos (by omega)]
  simp only [Bool.false_eq_true, if_false, pure_bind, Int.toNat_natCast]
  rw [BitVec.toNat_shiftLeft, Nat.shiftLeft_eq, Int.natCast_emod, Int.natCast_mul, Int.natCast_pow]
  rfl

theorem bin_shr64 (a : U64) {k : Nat} (h : k < 64) :
    binOpV M .shr (.int false 8 a.toNat) (.int true 4 k) = pure (.int false 8 (a >>> k).toNat) := by
  have : binOpV M .shr (.int false 8 a.toNat) (.int true 4 k) = shrOp false 8 (wrap false 8 a.toNat) k >>= fun v =>
    pure (.int false 8 v) := rfl
  rw [this, wrap64, shrOp, if_neg (by simp), if_pos (by omega)]
  simp only [pure_bind, Int.toNat_natCast]
  rw [BitVec.toNat_ushiftRight, Nat.shiftRight_eq_div_pow, Int.natCast_ediv, Int.natCast_pow]
  rfl

theorem bin_sub64 {n k : Nat} (h : k ≤ n) (hn : n < 2 ^ 31) :
    binOpV M .sub (.int true 4 n) (.int true 4 k) = pure (.int true 4 (n - k : Nat)) := by
  have : binOpV M .sub (.int true 4 n) (.int true 4 k) = arith true 4 (wrap true 4 n - wrap true 4 k) >>= fun v =>
    pure (.int true 4 v) := rfl
  rw [this, wrap_int (by omega) (by omega), wrap_int (by omega) (by omega), arith, if_pos rfl, if_pos rfl,
    int_ok (by omega) (by omega), pure_bind, show (n : Int) - k = ((n - k : Nat) : Int) by omega]

theorem bin_add1 {k : Nat} (h : k < 24) : binOpV M .add (.int true 4 k) (.int true 4 1) = pure (.int true 4 (k + 1 : Nat)) := by
  have : binOpV M .add (.int true 4 k) (.int true 4 1) = arith true 4 (wrap true 4 k + wrap true 4 1) >>= fun v =>
    pure (.int true 4 v) := rfl
  rw [this, wrap_int (by omega) (by omega), wrap_int (by omega) (by omega), arith, if_pos rfl, if_pos rfl,
    int_ok (by omega) (by omega), pure_bind]
  rfl

theorem load64s {a : Arch} {b k : Nat} {l : List U64} (h : M b = u64s l) (hk : k < l.length) :
    load a M b 0 false 8 (k : Int) = .ok (.int false 8 (l.getD k 0).toNat) [.read k] := by
  unfold load
  rw [if_neg (by omega), h, if_pos rfl]
  simp only [List.drop_zero, Int.toNat_natCast, Frodo.rd, List.getElem?_map, List.getElem?_eq_getElem hk, Option.map_some, if_pos]
  rw [List.getD_eq_getElem _ _ hk]
  rfl

/-- The variables hold the values of the registers among `D`. -/
structure Lanes25 (b : Nat) (D : List Nat) (ρ : Nat → U64) (vr : Val) (loc : List (String × Val)) : Prop where
  typed : ∀ x ∈ regNames, findVar x loc = some (.undef (.int false 8)) ∨ ∃ v, findVar x loc = some (.int false 8 v)
  val : ∀ i x, regOf x = some i → i ∈ D → findVar x loc = some (.int false 8 (ρ i).toNat)
  round : findVar "round" loc = some vr
  state : findVar "state" loc = some (.ptr b 0 false 8)
  table : findVar "KeccakF_RoundConstants" loc = none

theorem regOf_mem {x : String} {i : Nat} (h : regOf x = some i) : x ∈ regNames := by
  obtain ⟨hi, h1, -⟩ := List.findIdx?_eq_some_iff_getElem.1 h
  have : regNames[i] = x := by simpa using h1
  exact this ▸ List.getElem_mem hi

theorem regOf_inj {x y : String} {i : Nat} (h : regOf x = some i) (h' : regOf y = some i) : x = y := by
  obtain ⟨hi, h1, -⟩ := List.findIdx?_eq_some_iff_getElem.1 h
  obtain ⟨hi', h2, -⟩ := List.findIdx?_eq_some_iff_getElem.1 h'
  have e1 : regNames[i] = x := by simpa using h1
  have e2 : regNames[i] = y := by simpa using h2
  exact e1.symm.trans e2

theorem regOf_ne {x : String} {i : Nat} (h : regOf x = some i) : x ≠ "round" ∧ x ≠ "state" ∧ x ≠ "KeccakF_RoundConstants" := by
  have := regOf_mem h
  refine ⟨?_, ?_, ?_⟩ <;> rintro rfl <;> revert this <;> decide +kernel

theorem findVar_setVar {x : String} {v w : Val} {loc : List (String × Val)} (h : findVar x loc = some w) :
    findVar x (setVar x v loc) = some v := by
  induction loc with
  | nil => cases h
  | cons p l ih =>
    obtain ⟨y, u⟩ := p
    simp only [findVar, setVar] at h ⊢
    split at h
    · rename_i c; simp only [if_pos c, findVar]
    · rename_i c; simp only [if_neg c, findVar]; exact ih h

theorem findVar_setVar_ne {x y : String} {v : Val} {loc : List (String × Val)} (h : y ≠ x) :
    findVar y (setVar x v loc) = findVar y loc := by
  induction loc with
  | nil => rfl
  | cons p l ih =>
    obtain ⟨z, u⟩ := p
    simp only [findVar, setVar]
    split
    · rename_i c; subst c; simp only [findVar, if_neg (Ne.symm h)]
    · simp only [findVar, ih]

theorem length_setVar {x : String} {v : Val} {loc : List (String × Val)} : (setVar x v loc).length = loc.length := by
  induction loc with
  | nil => rfl
  | cons p l ih =>
    obtain ⟨z, u⟩ := p
    simp only [setVar]
    split <;> simp [ih]

/-- Where the constants and the state are. -/
structure PermMem (X : Ctx) (M : Mem) (b : Nat) (L : List U64) : Prop where
  table : ∃ bk, X.glob "KeccakF_RoundConstants" = some (.ptr bk 0 false 8) ∧ M bk = u64s KeccakF_RoundConstants
  state : M b = u64s L
  length : L.length = 25

theorem getVar_loc {loc : List (String × Val)} {x : String} {s : Bool} {n : Nat} {v : Int} (h : findVar x loc = some (.int s n v)) :
    getVar X ⟨loc, M, nx⟩ x = pure (.int s n v) := by unfold getVar; rw [h]; rfl

theorem getVar_ptr {loc : List (String × Val)} {x : String} {b o : Nat} {s : Bool} {n : Nat} (h : findVar x loc = some (.ptr b o s n)) :
    getVar X ⟨loc, M, nx⟩ x = pure (.ptr b o s n) := by unfold getVar; rw [h]; rfl

theorem getVar_glob {loc : List (String × Val)} {x : String} {b o : Nat} {s : Bool} {n : Nat} (h : findVar x loc = none)
    (h' : X.glob x = some (.ptr b o s n)) : getVar X ⟨loc, M, nx⟩ x = pure (.ptr b o s n) := by unfold getVar; rw [h, h']; rfl

theorem eval_sub {st : St} {n k : Nat} (h1 : k ≤ n) (h2 : n < 2 ^ 31) :
    eval X (.bin .sub (.num true 4 n) (.num true 4 k)) st = pure (.int true 4 (n - k : Nat), st) := by
  rw [eval, eval, pure_bind, eval, pure_bind, bin_sub64 h1 h2, pure_bind]

theorem eval_shr {st : St} {a e : Expr} {v : U64} {k : Nat} {t : List Event} (h : eval X a st = .ok (.int false 8 v.toNat, st) t)
    (h' : eval X e st = pure (.int true 4 k, st)) (h3 : k < 64) :
    eval X (.bin .shr a e) st = .ok (.int false 8 (v >>> k).toNat, st) (t ++ []) := by
  rw [eval, h]
  simp only [C.bind_def, C.bind', h', C.pure_def]
  rw [bin_shr64 v h3]
  simp only [C.pure_def, List.append_nil]

theorem rc_length : KeccakF_RoundConstants.length = 24 := rfl

theorem comp_eval {q : Bool} {D : List Nat} {b k : Nat} {L : List U64} {ρ : Nat → U64} {vr : Val} {loc : List (String × Val)}
    (hm : PermMem X M b L) (hr : Lanes25 b D ρ vr loc) (hq : q = true → vr = .int true 4 k ∧ k + 1 < 24) :
    ∀ e r, comp q D e = some r → ∃ t, eval X e ⟨loc, M, nx⟩ = .ok (.int false 8
      (r.val (fun j => KeccakF_RoundConstants.getD (k + j) 0) (fun j => L.getD j 0) ρ).toNat, ⟨loc, M, nx⟩) t := by
  intro e
  obtain ⟨bk, hg, hbk⟩ := hm.table
  induction e using comp.induct (q := q) with
  | case1 x =>
    intro r h
    simp only [comp, Option.bind_eq_bind, Option.bind_eq_some_iff] at h
    obtain ⟨i, hi, h⟩ := h
    split at h
    case isFalse => cases h
    rename_i c
    cases h
    refine ⟨[], ?_⟩
    simp only [eval, getVar_loc (hr.val i x hi (by simpa using c)), pure_bind]
    rfl
  | case2 a b iha ihb =>
    intro r h
    simp only [comp, Option.bind_eq_bind, Option.bind_eq_some_iff] at h
    obtain ⟨ra, ha, rb, hb, h⟩ := h
    cases h
    obtain ⟨t1, e1⟩ := iha ra ha
    obtain ⟨t2, e2⟩ := ihb rb hb
    refine ⟨t1 ++ (t2 ++ ([] ++ [])), ?_⟩
    simp only [eval, e1, e2, C.bind_def, C.bind', bin_xor64, C.pure_def, RE.val]
  | case3 a b iha ihb =>
    intro r h
    simp only [comp, Option.bind_eq_bind, Option.bind_eq_some_iff] at h
    obtain ⟨ra, ha, rb, hb, h⟩ := h
    cases h
    obtain ⟨t1, e1⟩ := iha ra ha
    obtain ⟨t2, e2⟩ := ihb rb hb
    refine ⟨t1 ++ (t2 ++ ([] ++ [])), ?_⟩
    simp only [eval, e1, e2, C.bind_def, C.bind', bin_and64, C.pure_def, RE.val]
  | case4 a iha =>
    intro r h
    simp only [comp, Option.bind_eq_bind, Option.bind_eq_some_iff] at h
    obtain ⟨ra, ha, h⟩ := h
    cases h
    obtain ⟨t1, e1⟩ := iha ra ha
    refine ⟨t1 ++ ([] ++ []), ?_⟩
    simp only [eval, e1, C.bind_def, C.bind', un_not64, C.pure_def, RE.val]
  | case5 a k' iha =>
    intro r h
    simp only [comp, Option.bind_eq_bind, Option.bind_eq_some_iff] at h
    obtain ⟨ra, ha, h⟩ := h
    split at h
    case isFalse => cases h
    rename_i c
    cases h
    obtain ⟨t1, e1⟩ := iha ra ha
    refine ⟨t1 ++ ([] ++ ([] ++ [])), ?_⟩
    simp only [eval, e1, C.bind_def, C.bind', bin_shl64 _ c, C.pure_def, RE.val]
  | case6 a n k' iha =>
    intro r h
    simp only [comp, Option.bind_eq_bind, Option.bind_eq_some_iff] at h
    obtain ⟨ra, ha, h⟩ := h
    split at h
    case isFalse => cases h
    rename_i c
    cases h
    obtain ⟨t1, e1⟩ := iha ra ha
    exact ⟨_, eval_shr e1 (eval_sub c.1 (Nat.lt_trans c.2.2 (by decide))) c.2.1⟩
  | case7 hq' =>
    intro r h
    rw [comp, if_pos hq'] at h
    cases h
    obtain ⟨rfl, hk⟩ := hq hq'
    refine ⟨[.read k], ?_⟩
    simp only [eval, getVar_loc hr.round, getVar_glob hr.table hg, pure_bind, bind_assoc,
      load64s hbk (show k < KeccakF_RoundConstants.length by rw [rc_length]; omega), RE.val, Nat.add_zero]
    simp only [C.bind_def, C.bind', convert, wrap64, C.pure_def, List.append_nil]
  | case8 hq' =>
    intro r h
    simp [comp, hq'] at h
  | case10 hq' =>
    intro r h
    simp [comp, hq'] at h
  | case9 hq' =>
    intro r h
    rw [comp, if_pos hq'] at h
    cases h
    obtain ⟨rfl, hk⟩ := hq hq'
    have e2 := bin_add1 (M := M) (k := k) (by omega)
    refine ⟨[.read (k + 1)], ?_⟩
    simp only [eval, getVar_loc hr.round, getVar_glob hr.table hg, pure_bind, bind_assoc, Nat.cast_one, e2,
      load64s hbk (show k + 1 < KeccakF_RoundConstants.length by rw [rc_length]; omega), RE.val]
    simp only [C.bind_def, C.bind', convert, wrap64, C.pure_def, List.append_nil]
  | case12 k' hk =>
    intro r h
    simp [comp, hk] at h
  | case11 k' hk =>
    intro r h
    rw [comp, if_pos hk] at h
    cases h
    refine ⟨[.read k'], ?_⟩
    simp only [eval, getVar_ptr hr.state, load64s hm.state (show k' < L.length by rw [hm.length]; exact hk), RE.val, C.bind_def, C.bind', C.pure_def, List.append_nil, List.nil_append]
  | case13 t h1 h2 h3 h4 h5 h6 h7 h8 h9 =>
    intro r h
    rw [comp] at h
    all_goals first | assumption | cases h

theorem ticks_nil (m : C α) : ((.ok () [] : C Unit) >>= fun _ => m) = m := by
  simp only [C.bind_def, C.bind']
  cases m <;> rfl

theorem ticks_ticks (t1 t2 : List Event) (m : C α) :
    ((.ok () t1 : C Unit) >>= fun _ => (.ok () t2 : C Unit) >>= fun _ => m) = ((.ok () (t1 ++ t2) : C Unit) >>= fun _ => m) := by
  simp only [C.bind_def, C.bind']
  cases m <;> simp

theorem Lanes25.set {b : Nat} {D : List Nat} {ρ : Nat → U64} {vr : Val} {loc : List (String × Val)} (h : Lanes25 b D ρ vr loc) {x : String}
    {i : Nat} (hx : regOf x = some i) (u : U64) :
    Lanes25 b (i :: D) (fun j => bif Nat.beq j i then u else ρ j) vr (setVar x (.int false 8 u.toNat) loc) := by
  obtain ⟨n1, n2, n3⟩ := regOf_ne hx
  have hf : ∃ w, findVar x loc = some w := by
    rcases h.typed x (regOf_mem hx) with e | ⟨v, e⟩ <;> exact ⟨_, e⟩
  obtain ⟨w, hw⟩ := hf
  refine ⟨fun y hy => ?_, fun j y hj hD => ?_, ?_, ?_, ?_⟩
  · by_cases e : y = x
    · subst e; exact .inr ⟨_, findVar_setVar hw⟩
    · rw [findVar_setVar_ne e]; exact h.typed y hy
  · by_cases e : y = x
    · subst e
      rw [hx] at hj
      cases hj
      rw [findVar_setVar hw]
      simp
    · have : j ≠ i := by rintro rfl; exact e (regOf_inj hj hx)
      rw [findVar_setVar_ne e]
      have hD' : j ∈ D := by
        rcases List.mem_cons.1 hD with h | h
        · exact absurd h this
        · exact h
      rw [h.val j y hj hD', show Nat.beq j i = false from Bool.eq_false_iff.2 fun h => this (Nat.eq_of_beq_eq_true h)]
      rfl
  · rw [findVar_setVar_ne (Ne.symm n1)]; exact h.round
  · rw [findVar_setVar_ne (Ne.symm n2)]; exact h.state
  · rw [findVar_setVar_ne (Ne.symm n3)]; exact h.table

theorem Lanes25.sub {b : Nat} {D D' : List Nat} {ρ : Nat → U64} {vr : Val} {loc : List (String × Val)} (h : Lanes25 b D ρ vr loc)
    (hD : ∀ i ∈ D', i ∈ D) : Lanes25 b D' ρ vr loc :=
  ⟨h.typed, fun i x hi hm => h.val i x hi (hD i hm), h.round, h.state, h.table⟩

theorem assign_reg {x : String} {loc : List (String × Val)} (h : findVar x loc = some (.undef (.int false 8)) ∨
    ∃ v, findVar x loc = some (.int false 8 v)) (u : U64) :
    assign X ⟨loc, M, nx⟩ (.var x) (.int false 8 u.toNat) =
      pure (.int false 8 u.toNat, ⟨setVar x (.int false 8 u.toNat) loc, M, nx⟩) := by
  unfold assign
  rcases h with e | ⟨v, e⟩ <;> simp only [e, wrap64]

theorem compS_exec {q : Bool} {b k : Nat} {L : List U64} {vr : Val} (hm : PermMem X M b L)
    (hq : q = true → vr = .int true 4 k ∧ k + 1 < 24) : ∀ n D s p D' s', compS q n D s = some (p, D', s') → ∀ ρ loc, Lanes25 b D ρ vr loc →
    ∃ t loc', exec X s ⟨loc, M, nx⟩ = (.ok () t >>= fun _ => exec X s' ⟨loc', M, nx⟩) ∧ loc'.length = loc.length ∧
      Lanes25 b D' (runR (fun j => KeccakF_RoundConstants.getD (k + j) 0) (fun j => L.getD j 0) p ρ) vr loc' := by
  intro n D s
  induction n, D, s using compS.induct with
  | case1 D s =>
    intro p D' s' h ρ loc hr
    simp only [compS, Option.some.injEq, Prod.mk.injEq] at h
    obtain ⟨rfl, rfl, rfl⟩ := h
    refine ⟨[], loc, ?_, rfl, hr⟩
    rw [ticks_nil]
  | case2 n D x e s ih =>
    intro p D' s' h ρ loc hr
    simp only [compS, Option.bind_eq_bind, Option.bind_eq_some_iff] at h
    obtain ⟨i, hi, r, he, ⟨p', D'', s''⟩, hc, h⟩ := h
    cases h
    obtain ⟨t1, e1⟩ := comp_eval (nx := nx) hm hr hq e r he
    obtain ⟨t2, loc', e2, hl, hr'⟩ := ih i p' D' s' hc _ _ (hr.set hi _)
    refine ⟨t1 ++ t2, loc', ?_, by rw [hl, length_setVar], hr'⟩
    have e3 : exec X (.seq (.expr (.asg (.var x) e)) s) ⟨loc, M, nx⟩ = (.ok () t1 >>= fun _ => exec X s ⟨setVar x (.int false 8
        (r.val (fun j => KeccakF_RoundConstants.getD (k + j) 0) (fun j => L.getD j 0) ρ).toNat) loc, M, nx⟩) := by
      simp only [exec, eval, e1, C.bind_def, C.bind', lval, C.pure_def, assign_reg (hr.typed x (regOf_mem hi)), List.append_nil]
    rw [e3, e2, ticks_ticks]
  | case3 n D x e s ih =>
    intro p D' s' h ρ loc hr
    simp only [compS, Option.bind_eq_bind, Option.bind_eq_some_iff] at h
    obtain ⟨i, hi, r, he, h⟩ := h
    split at h
    case isFalse => cases h
    rename_i hD
    simp only [Option.bind_eq_some_iff] at h
    obtain ⟨⟨p', D'', s''⟩, hc, h⟩ := h
    cases h
    obtain ⟨t1, e1⟩ := comp_eval (nx := nx) hm hr hq e r he
    have hD' : i ∈ D := by simpa using hD
    have hu := hr.val i x hi hD'
    obtain ⟨t2, loc', e2, hl, hr'⟩ := ih p' D' s' hc _ _ ((hr.set hi (ρ i ^^^
      r.val (fun j => KeccakF_RoundConstants.getD (k + j) 0) (fun j => L.getD j 0) ρ)).sub fun j hj => List.mem_cons_of_mem _ hj)
    refine ⟨t1 ++ t2, loc', ?_, by rw [hl, length_setVar], hr'⟩
    have e3 : exec X (.seq (.expr (.asgOp .xor (.var x) e)) s) ⟨loc, M, nx⟩ = (.ok () t1 >>= fun _ => exec X s ⟨setVar x (.int false 8
        (ρ i ^^^ r.val (fun j => KeccakF_RoundConstants.getD (k + j) 0) (fun j => L.getD j 0) ρ).toNat) loc, M, nx⟩) := by
      simp only [exec, eval, lval, readL, getVar_loc hu, e1, C.bind_def, C.bind', bin_xor64, C.pure_def,
        assign_reg (hr.typed x (regOf_mem hi)), List.append_nil, List.nil_append]
    rw [e3, e2, ticks_ticks]
  | case4 n D s h1 h2 h3 =>
    intro p D' s' h
    rw [compS] at h
    all_goals first | assumption | cases h

theorem declsOf_exec : ∀ s d, declsOf s = some d → ∀ loc, exec X s ⟨loc, M, nx⟩ = pure (⟨d ++ loc, M, nx⟩, .next) := by
  intro s
  induction s using declsOf.induct with
  | case1 t x =>
    intro d h loc
    cases h
    rfl
  | case2 a b iha ihb =>
    intro d h loc
    simp only [declsOf, Option.bind_eq_bind, Option.bind_eq_some_iff] at h
    obtain ⟨da, ha, db, hb, h⟩ := h
    cases h
    simp only [exec, ihb _ hb, iha _ ha, pure_bind, List.append_assoc]
  | case3 s h1 h2 =>
    intro d h
    rw [declsOf] at h
    all_goals first | assumption | cases h

theorem declsN_exec : ∀ n s d s', declsN n s = some (d, s') → ∀ loc, exec X s ⟨loc, M, nx⟩ = exec X s' ⟨d ++ loc, M, nx⟩ := by
  intro n s
  induction n, s using declsN.induct with
  | case1 s =>
    intro d s' h loc
    cases h
    rfl
  | case2 n a s ih =>
    intro d s' h loc
    simp only [declsN, Option.bind_eq_bind, Option.bind_eq_some_iff] at h
    obtain ⟨da, ha, ⟨db, s''⟩, hb, h⟩ := h
    cases h
    simp only [exec, declsOf_exec _ _ ha, pure_bind, ih _ _ hb, List.append_assoc]
  | case3 s h1 h2 =>
    intro d s' h
    rw [declsN] at h
    all_goals first | assumption | cases h

/-- Store registers in the state. -/
def putR (ρ : Nat → U64) : List (Nat × Nat) → List U64 → List U64
  | [], L => L
  | (j, i) :: p, L => putR ρ p (L.set j (ρ i))

theorem store64s {a : Arch} {b k : Nat} {l : List U64} (h : M b = u64s l) (hk : k < l.length) (u : U64) :
    store a M b 0 8 (k : Int) (u.toNat : Int) = .ok (M.set b (u64s (l.set k u))) [.write k] := by
  unfold store
  rw [if_neg (by omega), h, if_pos rfl]
  simp only [List.drop_zero, Int.toNat_natCast, Frodo.wr, List.length_map, hk, if_true, wrap64, List.take_zero, List.nil_append,
    ← List.map_set]
  rfl

theorem storesN_exec {b : Nat} {D : List Nat} {ρ : Nat → U64} {vr : Val} {loc : List (String × Val)} (hr : Lanes25 b D ρ vr loc)
    (hD : ∀ i < 25, i ∈ D) : ∀ n s p s', storesN n s = some (p, s') → ∀ M L, M b = u64s L → L.length = 25 →
    ∃ t, exec X s ⟨loc, M, nx⟩ = (.ok () t >>= fun _ => exec X s' ⟨loc, M.set b (u64s (putR ρ p L)), nx⟩) := by
  intro n s
  induction n, s using storesN.induct with
  | case1 s =>
    intro p s' h M L hM hL
    cases h
    refine ⟨[], ?_⟩
    rw [putR, set_self _ hM]
    rw [ticks_nil]
  | case2 n j x s ih =>
    intro p s' h M L hM hL
    simp only [storesN, Option.bind_eq_bind, Option.bind_eq_some_iff] at h
    obtain ⟨i, hi, ⟨p', s''⟩, hc, h⟩ := h
    split at h
    case isFalse => cases h
    rename_i hji
    cases h
    obtain ⟨t2, e2⟩ := ih _ _ hc (M.set b (u64s (L.set j (ρ i)))) (L.set j (ρ i)) (by simp [Mem.set]) (by simpa using hL)
    have hu := hr.val i x hi (hD i hji.2)
    have e3 : exec X (.seq (.expr (.asg (.idx (.var "state") (.num true 4 j)) (.var x))) s) ⟨loc, M, nx⟩ =
        (.ok () [.write j] >>= fun _ => exec X s ⟨loc, M.set b (u64s (L.set j (ρ i))), nx⟩) := by
      simp only [exec, eval, lval, getVar_loc hu, getVar_ptr hr.state, pure_bind, assign, wrap64, store64s hM (show j < L.length by omega)]
      simp only [C.bind_def, C.bind', C.pure_def, List.append_nil]
    refine ⟨[.write j] ++ t2, ?_⟩
    rw [e3, e2, set_set, putR, ticks_ticks]
  | case3 s h1 h2 =>
    intro p s' h
    rw [storesN] at h
    all_goals first | assumption | cases h

end

end Frodo
