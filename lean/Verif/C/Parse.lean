import Verif.C.Lex

/-! # Reading C source: expressions, statements, functions (C11 6.5-6.9)

The subset that the sources of /repo need.  The parser corresponds to the C11 standard, not to a part of /repo. -/

namespace Frodo.Src

/-- Types: integers by signedness and number of bytes, pointers (C11 6.2.5). -/
inductive Ty where
  | void
  | int (s : Bool) (n : Nat)
  | ptr (t : Ty)
  deriving DecidableEq, Repr, Lean.ToExpr

/-- Binary operators on numbers (C11 6.5.5-6.5.12). -/
inductive BinOp where
  | mul | div | mod | add | sub | shl | shr | lt | gt | le | ge | eq | ne | and | xor | or
  deriving DecidableEq, Repr, Lean.ToExpr

/-- Unary operators on numbers (C11 6.5.3.3). -/
inductive UnOp where
  | neg | bnot | lnot
  deriving DecidableEq, Repr, Lean.ToExpr

/-- Expressions (C11 6.5).  `inc pre up e` is `++e`, `--e`, `e++` or `e--`. -/
inductive Expr where
  | num (s : Bool) (n : Nat) (v : Nat)
  | var (x : String)
  | idx (a i : Expr)
  | deref (a : Expr)
  | addr (a : Expr)
  | un (o : UnOp) (a : Expr)
  | bin (o : BinOp) (a b : Expr)
  | land (a b : Expr)
  | lor (a b : Expr)
  | cond (c a b : Expr)
  | cast (t : Ty) (a : Expr)
  | sizeof (t : Ty)
  | asg (l r : Expr)
  | asgOp (o : BinOp) (l r : Expr)
  | inc (pre up : Bool) (l : Expr)
  | call (f : String) (args : List Expr)
  deriving Repr, Lean.ToExpr

/-- Statements (C11 6.8) and declarations (C11 6.7).  A declaration is in scope in the second part of a `seq`, up to the end
of the `block`. -/
inductive Stmt where
  | skip
  | expr (e : Expr)
  | decl (t : Ty) (x : String) (init : Option Expr)
  | declArr (s : Bool) (n : Nat) (x : String) (len : Expr) (init : Option (List Expr))
  | seq (a b : Stmt)
  | block (s : Stmt)
  | ite (c : Expr) (a b : Stmt)
  | while (c : Expr) (s : Stmt)
  | for (init : Stmt) (c : Expr) (step : Expr) (s : Stmt)
  | brk
  | ret (e : Option Expr)
  deriving Repr, Lean.ToExpr

/-- Function definitions (C11 6.9.1). -/
structure Fun where
  name : String
  ret : Ty
  params : List (Ty × String)
  body : Stmt
  deriving Repr, Lean.ToExpr

/-- Arrays and variables of a file (C11 6.9.2): type of the elements, name, elements. -/
structure Global where
  s : Bool
  n : Nat
  name : String
  array : Bool
  init : List Expr
  deriving Repr, Lean.ToExpr

/-- A file: its functions and its variables (C11 6.9). -/
structure File where
  funs : List Fun
  globals : List Global
  deriving Repr, Lean.ToExpr

/-- Words that begin or continue a type (C11 6.7.2, 6.7.3; `stdint.h`, `stddef.h`). -/
def typeWords : List (List Char) :=
  [w!"const", w!"volatile", w!"static", w!"inline", w!"void", w!"char", w!"short", w!"int", w!"long", w!"unsigned", w!"signed",
    w!"uint8_t", w!"uint16_t", w!"uint32_t", w!"uint64_t", w!"int8_t", w!"int16_t", w!"int32_t", w!"int64_t", w!"size_t"]

/-- The words of a type at the beginning of the tokens (C11 6.7.2). -/
def typePrefix : List Tok → List (List Char) × List Tok
  | .id x :: ts => if typeWords.contains x then (x :: (typePrefix ts).1, (typePrefix ts).2) else ([], .id x :: ts)
  | ts => ([], ts)

/-- The type that the words denote, with 32-bit `int` and 64-bit `long` and `size_t` (C11 6.7.2p2). -/
def baseType (ws : List (List Char)) : Ty :=
  let u := ws.contains w!"unsigned"
  if ws.contains w!"void" then .void
  else if ws.contains w!"uint8_t" then .int false 1
  else if ws.contains w!"uint16_t" then .int false 2
  else if ws.contains w!"uint32_t" then .int false 4
  else if ws.contains w!"uint64_t" then .int false 8
  else if ws.contains w!"size_t" then .int false 8
  else if ws.contains w!"int8_t" then .int true 1
  else if ws.contains w!"int16_t" then .int true 2
  else if ws.contains w!"int32_t" then .int true 4
  else if ws.contains w!"int64_t" then .int true 8
  else if ws.contains w!"char" then .int (!u) 1
  else if ws.contains w!"short" then .int (!u) 2
  else if ws.contains w!"long" then .int (!u) 8
  else .int (!u) 4

/-- The stars of a declarator, with qualifiers between them (C11 6.7.6.1). -/
def stars : Ty → List Tok → Ty × List Tok
  | t, .op ['*'] :: ts => stars (.ptr t) ts
  | t, .id x :: ts => if x = w!"const" then stars t ts else (t, .id x :: ts)
  | t, ts => (t, ts)

/-- The type of an integer constant (C11 6.4.4.1p5): decimal and hexadecimal constants are treated alike, which is right for
values below `2^31`. -/
def constType (v : Nat) (u l : Bool) : Bool × Nat :=
  if u then (false, if l || Nat.ble (2 ^ 32) v then 8 else 4)
  else if !l && Nat.blt v (2 ^ 31) then (true, 4)
  else if Nat.blt v (2 ^ 63) then (true, 8) else (false, 8)

/-- Precedence of binary operators (C11 6.5.5-6.5.14), 0 for other tokens. -/
def level : List Char → Nat
  | ['|', '|'] => 1
  | ['&', '&'] => 2
  | ['|'] => 3
  | ['^'] => 4
  | ['&'] => 5
  | ['=', '='] | ['!', '='] => 6
  | ['<'] | ['>'] | ['<', '='] | ['>', '='] => 7
  | ['<', '<'] | ['>', '>'] => 8
  | ['+'] | ['-'] => 9
  | ['*'] | ['/'] | ['%'] => 10
  | _ => 0

/-- The operator of a token (C11 6.5.5-6.5.12). -/
def binOp : List Char → Option BinOp
  | ['|'] => some .or
  | ['^'] => some .xor
  | ['&'] => some .and
  | ['=', '='] => some .eq
  | ['!', '='] => some .ne
  | ['<'] => some .lt
  | ['>'] => some .gt
  | ['<', '='] => some .le
  | ['>', '='] => some .ge
  | ['<', '<'] => some .shl
  | ['>', '>'] => some .shr
  | ['+'] => some .add
  | ['-'] => some .sub
  | ['*'] => some .mul
  | ['/'] => some .div
  | ['%'] => some .mod
  | _ => none

/-- The expression that a binary operator forms (C11 6.5.5-6.5.14). -/
def mkBin (o : List Char) (a b : Expr) : Option Expr :=
  match o with
  | ['|', '|'] => some (.lor a b)
  | ['&', '&'] => some (.land a b)
  | o => (binOp o).map fun o => .bin o a b

/-- The operator of a compound assignment: `+=`, `<<=` and so on (C11 6.5.16.2). -/
def asgOp (o : List Char) : Option BinOp :=
  if o.getLast? = some '=' then
    match binOp o.dropLast with
    | some .eq | some .ne | some .lt | some .gt | some .le | some .ge => none
    | x => x
  else none

/-- What a parser returns: a result and the tokens that follow it. -/
abbrev P (α : Type) : Type := Option (α × List Tok)

mutual
/-- Assignment expressions (C11 6.5.16); the number bounds the nesting, here and below. -/
def pExpr : Nat → List Tok → P Expr
  | 0, _ => none
  | n + 1, ts =>
    match pCond n ts with
    | none => none
    | some (l, .op o :: r) =>
      if o = ['='] then
        match pExpr n r with
        | some (e, r) => some (.asg l e, r)
        | none => none
      else
        match asgOp o with
        | some b =>
          match pExpr n r with
          | some (e, r) => some (.asgOp b l e, r)
          | none => none
        | none => some (l, .op o :: r)
    | x => x
/-- Conditional expressions (C11 6.5.15). -/
def pCond : Nat → List Tok → P Expr
  | 0, _ => none
  | n + 1, ts =>
    match pBin n 1 ts with
    | some (c, .op ['?'] :: r) =>
      match pExpr n r with
      | some (a, .op [':'] :: r) =>
        match pCond n r with
        | some (b, r) => some (.cond c a b, r)
        | none => none
      | _ => none
    | x => x
/-- Binary operators of at least a given level (C11 6.5.5-6.5.14). -/
def pBin : Nat → Nat → List Tok → P Expr
  | 0, _, _ => none
  | n + 1, l, ts =>
    match pUnary n ts with
    | some (a, r) => pRest n l a r
    | none => none
/-- The operators that follow a left operand (C11 6.5.5-6.5.14). -/
def pRest : Nat → Nat → Expr → List Tok → P Expr
  | 0, _, _, _ => none
  | n + 1, l, a, .op o :: ts =>
    if Nat.ble 1 (level o) && Nat.ble l (level o) then
      match pBin n (level o + 1) ts with
      | some (b, r) =>
        match mkBin o a b with
        | some e => pRest n l e r
        | none => none
      | none => none
    else some (a, .op o :: ts)
  | _ + 1, _, a, ts => some (a, ts)
/-- Unary operators and casts (C11 6.5.3, 6.5.4). -/
def pUnary : Nat → List Tok → P Expr
  | 0, _ => none
  | n + 1, ts =>
    match ts with
    | .op ['-'] :: r => (pUnary n r).map fun x => (.un .neg x.1, x.2)
    | .op ['~'] :: r => (pUnary n r).map fun x => (.un .bnot x.1, x.2)
    | .op ['!'] :: r => (pUnary n r).map fun x => (.un .lnot x.1, x.2)
    | .op ['&'] :: r => (pUnary n r).map fun x => (.addr x.1, x.2)
    | .op ['*'] :: r => (pUnary n r).map fun x => (.deref x.1, x.2)
    | .op ['+', '+'] :: r => (pUnary n r).map fun x => (.inc true true x.1, x.2)
    | .op ['-', '-'] :: r => (pUnary n r).map fun x => (.inc true false x.1, x.2)
    | .op ['('] :: r =>
      match typePrefix r with
      | ([], _) =>
        match pExpr n r with
        | some (e, .op [')'] :: r) => pPost n e r
        | _ => none
      | (w, r) =>
        match stars (baseType w) r with
        | (t, .op [')'] :: r) => (pUnary n r).map fun x => (.cast t x.1, x.2)
        | _ => none
    | .num v u l :: r => some (.num (constType v u l).1 (constType v u l).2 v, r)
    | .id x :: r =>
      if x = w!"sizeof" then
        match r with
        | .op ['('] :: r =>
          match typePrefix r with
          | ([], _) => none
          | (w, r) =>
            match stars (baseType w) r with
            | (t, .op [')'] :: r) => some (.sizeof t, r)
            | _ => none
        | _ => none
      else
        match r with
        | .op ['('] :: r =>
          match pArgs n r with
          | some (as, r) => pPost n (.call (String.ofList x) as) r
          | none => none
        | r => pPost n (.var (String.ofList x)) r
    | _ => none
/-- Subscripts and `++`, `--` after an expression (C11 6.5.2). -/
def pPost : Nat → Expr → List Tok → P Expr
  | 0, _, _ => none
  | n + 1, a, ts =>
    match ts with
    | .op ['['] :: r =>
      match pExpr n r with
      | some (i, .op [']'] :: r) => pPost n (.idx a i) r
      | _ => none
    | .op ['+', '+'] :: r => pPost n (.inc false true a) r
    | .op ['-', '-'] :: r => pPost n (.inc false false a) r
    | r => some (a, r)
/-- Arguments of a call after the opening parenthesis (C11 6.5.2.2). -/
def pArgs : Nat → List Tok → P (List Expr)
  | 0, _ => none
  | n + 1, ts =>
    match ts with
    | .op [')'] :: r => some ([], r)
    | .op [','] :: r => pArgs n r
    | r =>
      match pExpr n r with
      | some (e, r) => (pArgs n r).map fun x => (e :: x.1, x.2)
      | none => none
end

/-- Expressions separated by commas up to a closing brace (C11 6.7.9). -/
def pInits : Nat → List Tok → P (List Expr)
  | 0, _ => none
  | _ + 1, .op ['}'] :: r => some ([], r)
  | n + 1, .op [','] :: r => pInits n r
  | n + 1, ts =>
    match pExpr n ts with
    | some (e, r) => (pInits n r).map fun x => (e :: x.1, x.2)
    | none => none

/-- Declarators after the words of the type, up to the semicolon (C11 6.7). -/
def pDecl (base : Ty) : Nat → List Tok → P Stmt
  | 0, _ => none
  | n + 1, ts =>
    match stars base ts with
    | (t, .id x :: .op ['['] :: r) =>
      match t, pExpr n r with
      | .int s w, some (len, .op [']'] :: .op ['='] :: .op ['{'] :: r) =>
        match pInits n r with
        | some (es, .op [';'] :: r) => some (.declArr s w (String.ofList x) len (some es), r)
        | some (es, .op [','] :: r) =>
          (pDecl base n r).map fun d => (.seq (.declArr s w (String.ofList x) len (some es)) d.1, d.2)
        | _ => none
      | .int s w, some (len, .op [']'] :: .op [';'] :: r) => some (.declArr s w (String.ofList x) len none, r)
      | .int s w, some (len, .op [']'] :: .op [','] :: r) =>
        (pDecl base n r).map fun d => (.seq (.declArr s w (String.ofList x) len none) d.1, d.2)
      | _, _ => none
    | (t, .id x :: .op ['='] :: r) =>
      match pExpr n r with
      | some (e, .op [';'] :: r) => some (.decl t (String.ofList x) (some e), r)
      | some (e, .op [','] :: r) =>
        (pDecl base n r).map fun d => (.seq (.decl t (String.ofList x) (some e)) d.1, d.2)
      | _ => none
    | (t, .id x :: .op [';'] :: r) => some (.decl t (String.ofList x) none, r)
    | (t, .id x :: .op [','] :: r) =>
      (pDecl base n r).map fun d => (.seq (.decl t (String.ofList x) none) d.1, d.2)
    | _ => none

mutual
/-- Statements (C11 6.8). -/
def pStmt : Nat → List Tok → P Stmt
  | 0, _ => none
  | n + 1, ts =>
    match ts with
    | .op [';'] :: r => some (.skip, r)
    | .op ['{'] :: r => (pBlock n r).map fun x => (.block x.1, x.2)
    | .id w :: r =>
      if w = w!"if" then
        match r with
        | .op ['('] :: r =>
          match pExpr 1000 r with
          | some (c, .op [')'] :: r) =>
            match pStmt n r with
            | some (a, .id e :: r') =>
              if e = w!"else" then (pStmt n r').map fun b => (.ite c a b.1, b.2)
              else some (.ite c a .skip, .id e :: r')
            | some (a, r) => some (.ite c a .skip, r)
            | none => none
          | _ => none
        | _ => none
      else if w = w!"while" then
        match r with
        | .op ['('] :: r =>
          match pExpr 1000 r with
          | some (c, .op [')'] :: r) => (pStmt n r).map fun a => (.while c a.1, a.2)
          | _ => none
        | _ => none
      else if w = w!"for" then
        match r with
        | .op ['('] :: r =>
          match pStmt n r with
          | some (i, r) =>
            match pExpr 1000 r with
            | some (c, .op [';'] :: r) =>
              match pExpr 1000 r with
              | some (s, .op [')'] :: r) => (pStmt n r).map fun a => (.for i c s a.1, a.2)
              | _ => none
            | _ => none
          | none => none
        | _ => none
      else if w = w!"break" then
        match r with
        | .op [';'] :: r => some (.brk, r)
        | _ => none
      else if w = w!"return" then
        match r with
        | .op [';'] :: r => some (.ret none, r)
        | r =>
          match pExpr 1000 r with
          | some (e, .op [';'] :: r) => some (.ret (some e), r)
          | _ => none
      else if typeWords.contains w then
        match typePrefix ts with
        | (ws, r) => pDecl (baseType ws) 1000 r
      else
        match pExpr 1000 ts with
        | some (e, .op [';'] :: r) => some (.expr e, r)
        | _ => none
    | ts =>
      match pExpr 1000 ts with
      | some (e, .op [';'] :: r) => some (.expr e, r)
      | _ => none
/-- The statements of a block up to the closing brace (C11 6.8.2). -/
def pBlock : Nat → List Tok → P Stmt
  | 0, _ => none
  | _ + 1, .op ['}'] :: r => some (.skip, r)
  | n + 1, ts =>
    match pStmt n ts with
    | some (s, r) => (pBlock n r).map fun x => (.seq s x.1, x.2)
    | none => none
end

/-- Parameters of a function after the opening parenthesis (C11 6.7.6.3). -/
def pParams : Nat → List Tok → P (List (Ty × String))
  | 0, _ => none
  | _ + 1, .op [')'] :: r => some ([], r)
  | n + 1, .op [','] :: r => pParams n r
  | n + 1, ts =>
    match typePrefix ts with
    | (w, r) =>
      match stars (baseType w) r with
      | (t, .id x :: r) => (pParams n r).map fun p => ((t, String.ofList x) :: p.1, p.2)
      | (.void, .op [')'] :: r) => some ([], r)
      | _ => none

/-- Functions and variables of a file (C11 6.9). -/
def pFile : Nat → List Tok → Option File
  | 0, _ => none
  | _ + 1, [] => some ⟨[], []⟩
  | n + 1, ts =>
    match typePrefix ts with
    | ([], _) => none
    | (w, r) =>
      match stars (baseType w) r with
      | (t, .id x :: .op ['('] :: r) =>
        match pParams n r with
        | some (ps, .op ['{'] :: r) =>
          match pBlock 1000 r with
          | some (b, r) => (pFile n r).map fun f => { f with funs := ⟨String.ofList x, t, ps, b⟩ :: f.funs }
          | none => none
        | some (_, .op [';'] :: r) => pFile n r
        | _ => none
      | (.int s k, .id x :: .op ['='] :: r) =>
        match pExpr 1000 r with
        | some (e, .op [';'] :: r) =>
          (pFile n r).map fun f => { f with globals := ⟨s, k, String.ofList x, false, [e]⟩ :: f.globals }
        | _ => none
      | (.int s k, .id x :: .op ['['] :: r) =>
        match pExpr 1000 r with
        | some (_, .op [']'] :: .op ['='] :: .op ['{'] :: r) =>
          match pInits 1000 r with
          | some (es, .op [';'] :: r) =>
            (pFile n r).map fun f => { f with globals := ⟨s, k, String.ofList x, true, es⟩ :: f.globals }
          | _ => none
        | _ => none
      | _ => none

/-- Leave out `__attribute__((aligned(N)))`, which says where an array is (an extension of the compilers). -/
def dropAttr : List Tok → List Tok
  | .id x :: .op ['('] :: .op ['('] :: .id y :: .op ['('] :: .num v u l :: .op [')'] :: .op [')'] :: .op [')'] :: r =>
    if x = w!"__attribute__" then dropAttr r
    else .id x :: .op ['('] :: .op ['('] :: .id y :: .op ['('] :: .num v u l :: .op [')'] :: .op [')'] :: .op [')'] :: dropAttr r
  | t :: r => t :: dropAttr r
  | [] => []

/-- The file that a text denotes, with the given macros defined in advance and the given files to include
(C11 5.1.1.2, 6.9). -/
def parseText (ms : List Macro) (inc : Includes) (text : List (List Char)) : Option File :=
  match preprocess ms inc text with
  | some ts => pFile 1000 (dropAttr ts)
  | none => none

theorem parseText_eq {ms : List Macro} {inc : Includes} {text : List (List Char)} {ts : List Tok} {f : File}
    (h : preprocess ms inc text = some ts) (h' : pFile 1000 (dropAttr ts) = some f) : parseText ms inc text = some f := by
  simp only [parseText, h, h']

open Lean Elab Meta in
/-- `parsed% t` evaluates `t : Option File` and gives the file as a term; that it is right is proved where it is used
(semantic base, not a part of /repo). -/
elab "parsed% " t:term : term => do
  let e ← Lean.Elab.Term.elabTerm t (some (mkApp (mkConst ``Option [Level.zero]) (mkConst ``File)))
  Lean.Elab.Term.synthesizeSyntheticMVarsNoPostponing
  let e ← instantiateMVars e
  let r ← unsafe Lean.Meta.evalExpr (Option File) (mkApp (mkConst ``Option [Level.zero]) (mkConst ``File)) e
  match r with
  | some f => return toExpr f
  | none => throwError "the text does not parse"

/-- The function of a given name in a file (C11 6.9.1). -/
def File.fn (f : File) (x : String) : Option Fun := f.funs.find? (·.name == x)

open Lean Elab Meta in
/-- `function% t` evaluates `t : Option Fun`, as `parsed%` (semantic base, not a part of /repo). -/
elab "function% " t:term : term => do
  let e ← Lean.Elab.Term.elabTerm t (some (mkApp (mkConst ``Option [Level.zero]) (mkConst ``Fun)))
  Lean.Elab.Term.synthesizeSyntheticMVarsNoPostponing
  let e ← instantiateMVars e
  let r ← unsafe Lean.Meta.evalExpr (Option Fun) (mkApp (mkConst ``Option [Level.zero]) (mkConst ``Fun)) e
  match r with
  | some f => return toExpr f
  | none => throwError "there is no such function"

end Frodo.Src
