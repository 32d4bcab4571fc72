import Lean.Elab.Term
import Lean.Elab.Tactic.Basic
import Lean.Meta.AppBuilder
import Lean.Meta.Eval
import Lean.Elab.SyntheticMVars

/-! # Reading C source: characters, tokens, preprocessor

This and the next two files give a meaning to the text of C files, so that the model can be compared with the text itself.
They correspond to the C11 standard (5.1.1.2, 6.4, 6.10), not to a part of /repo. -/

namespace Frodo.Src

open Lean Elab Meta

/-- `c_text r"..."`: the lines of the text, each a list of characters (semantic base, not a part of /repo). -/
elab "c_text " s:str : term => do
  let ls := s.getString.splitOn "\n"
  mkListLit (mkApp (mkConst ``List [Level.zero]) (mkConst ``Char)) (ls.map fun l => toExpr l.toList)

/-- `w!"abc"` is `['a', 'b', 'c']` (semantic base, not a part of /repo). -/
elab:max "w!" s:str : term => return toExpr s.getString.toList

/-- Close `a = b` by `Eq.refl a`, which only the kernel checks, by evaluation (semantic base, not a part of /repo). -/
elab "kernel_rfl" : tactic => do
  let g ← Tactic.getMainGoal
  let t ← instantiateMVars (← g.getType)
  let some (_, a, _) := t.eq? | throwError "not an equation"
  g.assign (← mkEqRefl a)
  Tactic.replaceMainGoal []

/-- Tokens (C11 6.4): words, numbers with the suffixes `u` and `l`, operators and punctuation. -/
inductive Tok where
  | id (s : List Char)
  | num (v : Nat) (u l : Bool)
  | op (s : List Char)
  deriving DecidableEq, Repr, Lean.ToExpr

/-- White space inside a line (C11 6.4p3). -/
def isSpace (c : Char) : Bool := c.toNat == 32 || c.toNat == 9 || c.toNat == 13

/-- Letters and the underscore (C11 6.4.2.1). -/
def isLetter (c : Char) : Bool :=
  let n := c.toNat
  (Nat.ble 97 n && Nat.ble n 122) || (Nat.ble 65 n && Nat.ble n 90) || n == 95

/-- Decimal digits (C11 6.4.2.1). -/
def isDigit (c : Char) : Bool := Nat.ble 48 c.toNat && Nat.ble c.toNat 57

/-- The longest prefix of characters that satisfy `p`, and the rest (C11 6.4p4). -/
def spanC (p : Char → Bool) : List Char → List Char × List Char
  | [] => ([], [])
  | c :: cs => if p c then ((c :: (spanC p cs).1), (spanC p cs).2) else ([], c :: cs)

/-- The value of a hexadecimal digit, 16 for other characters (C11 6.4.4.1). -/
def hexVal (c : Char) : Nat :=
  let n := c.toNat
  if isDigit c then n - 48
  else if Nat.ble 97 n && Nat.ble n 102 then n - 87
  else if Nat.ble 65 n && Nat.ble n 70 then n - 55
  else 16

/-- The digits of a number in base `b` up to the first other character, and the rest (C11 6.4.4.1). -/
def digits (b acc : Nat) : List Char → Nat × List Char
  | [] => (acc, [])
  | c :: cs => if Nat.blt (hexVal c) b then digits b (acc * b + hexVal c) cs else (acc, c :: cs)

/-- An integer constant from its letters and digits; octal constants are not supported (C11 6.4.4.1). -/
def number (w : List Char) : Tok :=
  let d := match w with
    | '0' :: 'x' :: r => digits 16 0 r
    | '0' :: 'X' :: r => digits 16 0 r
    | r => digits 10 0 r
  .num d.1 (d.2.any fun c => c == 'u' || c == 'U') (d.2.any fun c => c == 'l' || c == 'L')

/-- Operators of three and two characters (C11 6.4.6). -/
def longOps : List (List Char) :=
  [w!"<<=", w!">>=", w!"...", w!"##", w!"->", w!"++", w!"--", w!"<<", w!">>", w!"<=", w!">=", w!"==", w!"!=", w!"&&", w!"||",
    w!"*=", w!"/=", w!"%=", w!"+=", w!"-=", w!"&=", w!"^=", w!"|="]

/-- The first of some operators that `cs` begins with (C11 6.4p4). -/
def opAt (cs : List Char) : List (List Char) → Option (List Char)
  | [] => none
  | o :: os => if o.isPrefixOf cs then some o else opAt cs os

/-- The tokens of a line; the flag says whether the line begins, and whether it ends, inside a `/* */` comment
(C11 5.1.1.2, 6.4.9).  Strings and character constants are not supported. -/
def lexLine : Nat → Bool → List Char → List Tok × Bool
  | 0, b, _ => ([], b)
  | n + 1, true, cs =>
    match cs with
    | [] => ([], true)
    | '*' :: '/' :: r => lexLine n false r
    | _ :: r => lexLine n true r
  | n + 1, false, cs =>
    match cs with
    | [] => ([], false)
    | '/' :: '/' :: _ => ([], false)
    | '/' :: '*' :: r => lexLine n true r
    | c :: r =>
      if isSpace c then lexLine n false r
      else if isLetter c then
        let w := spanC (fun c => isLetter c || isDigit c) (c :: r)
        let t := lexLine n false w.2
        (.id w.1 :: t.1, t.2)
      else if isDigit c then
        let w := spanC (fun c => isLetter c || isDigit c) (c :: r)
        let t := lexLine n false w.2
        (number w.1 :: t.1, t.2)
      else
        match opAt (c :: r) longOps with
        | some o =>
          let t := lexLine n false ((c :: r).drop o.length)
          (.op o :: t.1, t.2)
        | none =>
          let t := lexLine n false r
          (.op [c] :: t.1, t.2)

/-- Whether the name that a `#define` defines is followed by a parenthesis without a space (C11 6.10.3p10). -/
def hasParams (l : List Char) : Bool :=
  let word := fun c => isLetter c || isDigit c
  let l := (spanC isSpace (((spanC isSpace l).2).drop 1)).2
  let l := (spanC isSpace (spanC word l).2).2
  (spanC word l).2.head? = some '('

/-- The parenthesis before the parameters of a macro, as a token of its own (C11 6.10.3p10). -/
def markParams (l : List Char) : List Tok → List Tok
  | .op ['#'] :: .id d :: .id x :: .op ['('] :: r =>
    .op ['#'] :: .id d :: .id x :: (if d = w!"define" ∧ hasParams l then .op ['#', '('] else .op ['(']) :: r
  | ts => ts

/-- The tokens of every line of a text (C11 5.1.1.2). -/
def lexText (b : Bool) : List (List Char) → List (List Tok)
  | [] => []
  | l :: ls =>
    let t := lexLine (l.length + 1) b l
    markParams l t.1 :: lexText t.2 ls

/-- Lines that end in a backslash continue on the next line (C11 5.1.1.2). -/
def joinLines : List (List Tok) → List Tok → List (List Tok)
  | [], acc => [acc]
  | l :: ls, acc =>
    if l.getLast? = some (.op ['\\']) then joinLines ls (acc ++ l.dropLast)
    else (acc ++ l) :: joinLines ls []

/-! ## Preprocessor -/

/-- A macro: parameters, if it has any list of them, and body (C11 6.10.3). -/
structure Macro where
  name : List Char
  params : Option (List (List Char))
  body : List Tok

/-- The macro of a name; later definitions come first (C11 6.10.3). -/
def findMacro (x : List Char) : List Macro → Option Macro
  | [] => none
  | m :: ms => if m.name = x then some m else findMacro x ms

/-- The arguments of a macro call after the opening parenthesis: nesting depth, argument so far, arguments so far
(C11 6.10.3p11). -/
def macroArgs : Nat → List Tok → List (List Tok) → List Tok → Option (List (List Tok) × List Tok)
  | _, _, _, [] => none
  | d, acc, args, t :: ts =>
    if t = .op ['('] then macroArgs (d + 1) (acc ++ [t]) args ts
    else if t = .op [')'] then
      match d with
      | 0 => some (args ++ [acc], ts)
      | d + 1 => macroArgs d (acc ++ [t]) args ts
    else if t = .op [','] ∧ d = 0 then macroArgs 0 [] (args ++ [acc]) ts
    else macroArgs d (acc ++ [t]) args ts

/-- The argument for a parameter (C11 6.10.3.1). -/
def argOf (x : List Char) : List (List Char) → List (List Tok) → Option (List Tok)
  | p :: ps, a :: as => if p = x then some a else argOf x ps as
  | _, _ => none

/-- Replace the parameters in the body of a macro (C11 6.10.3.1). -/
def substArgs (ps : List (List Char)) (as : List (List Tok)) : List Tok → List Tok
  | [] => []
  | .id x :: ts =>
    match argOf x ps as with
    | some a => a ++ substArgs ps as ts
    | none => .id x :: substArgs ps as ts
  | t :: ts => t :: substArgs ps as ts

/-- Macro expansion; the number bounds tokens and replacements (C11 6.10.3). -/
def expand (ms : List Macro) : Nat → List Tok → List Tok
  | 0, _ => []
  | _ + 1, [] => []
  | n + 1, .id x :: ts =>
    match findMacro x ms with
    | none => .id x :: expand ms n ts
    | some ⟨_, none, body⟩ => expand ms n (body ++ ts)
    | some ⟨_, some ps, body⟩ =>
      match ts with
      | .op ['('] :: ts' =>
        match macroArgs 0 [] [] ts' with
        | some (as, r) => expand ms n (substArgs ps as body ++ r)
        | none => .id x :: expand ms n ts
      | _ => .id x :: expand ms n ts
  | n + 1, t :: ts => t :: expand ms n ts

/-- Parameters of a macro after the opening parenthesis (C11 6.10.3p10). -/
def macroParams : List Tok → Option (List (List Char) × List Tok)
  | .op [')'] :: r => some ([], r)
  | .id x :: .op [')'] :: r => some ([x], r)
  | .id x :: .op [','] :: r =>
    match macroParams r with
    | some (ps, r) => some (x :: ps, r)
    | none => none
  | _ => none

/-- Whether a line of tokens is `#` followed by the word `w` (C11 6.10). -/
def isDirective (w : List Char) : List Tok → Bool
  | .op ['#'] :: .id x :: _ => x == w
  | _ => false

/-- The macro that a `#define` defines (C11 6.10.3). -/
def define : List Tok → Option Macro
  | .op ['#'] :: .id _ :: .id x :: .op ['#', '('] :: r =>
    match macroParams r with
    | some (ps, body) => some ⟨x, some ps, body⟩
    | none => none
  | .op ['#'] :: .id _ :: .id x :: r => some ⟨x, none, r⟩
  | _ => none

/-- `defined X` and `defined(X)` in a condition become 1 or 0 (C11 6.10.1p1). -/
def condDefined (ms : List Macro) : List Tok → List Tok
  | .id w :: .op ['('] :: .id x :: .op [')'] :: r =>
    if w = w!"defined" then .num (if (findMacro x ms).isSome then 1 else 0) false false :: condDefined ms r
    else .id w :: .op ['('] :: .id x :: .op [')'] :: condDefined ms r
  | .id w :: .id x :: r =>
    if w = w!"defined" then .num (if (findMacro x ms).isSome then 1 else 0) false false :: condDefined ms r
    else .id w :: .id x :: condDefined ms r
  | t :: r => t :: condDefined ms r
  | [] => []

mutual
/-- Conditions of `#if`: disjunctions of conjunctions (C11 6.10.1).  Only `!`, `%`, `==`, `!=`, `&&`, `||` and parentheses. -/
def condOr : Nat → List Tok → Option (Nat × List Tok)
  | 0, _ => none
  | n + 1, ts =>
    match condAnd n ts with
    | some (a, .op ['|', '|'] :: r) => (condOr n r).map fun b => (if a = 0 ∧ b.1 = 0 then 0 else 1, b.2)
    | x => x
/-- Conjunctions in conditions of `#if` (C11 6.10.1). -/
def condAnd : Nat → List Tok → Option (Nat × List Tok)
  | 0, _ => none
  | n + 1, ts =>
    match condEq n ts with
    | some (a, .op ['&', '&'] :: r) => (condAnd n r).map fun b => (if a = 0 ∨ b.1 = 0 then 0 else 1, b.2)
    | x => x
/-- Comparisons in conditions of `#if` (C11 6.10.1). -/
def condEq : Nat → List Tok → Option (Nat × List Tok)
  | 0, _ => none
  | n + 1, ts =>
    match condMod n ts with
    | some (a, .op ['=', '='] :: r) => (condMod n r).map fun b => (if a = b.1 then 1 else 0, b.2)
    | some (a, .op ['!', '='] :: r) => (condMod n r).map fun b => (if a = b.1 then 0 else 1, b.2)
    | x => x
/-- Remainders in conditions of `#if` (C11 6.10.1). -/
def condMod : Nat → List Tok → Option (Nat × List Tok)
  | 0, _ => none
  | n + 1, ts =>
    match condAtom n ts with
    | some (a, .op ['%'] :: r) => (condAtom n r).map fun b => (a % b.1, b.2)
    | x => x
/-- Atoms of conditions of `#if`: words that are no macros are 0 (C11 6.10.1p4). -/
def condAtom : Nat → List Tok → Option (Nat × List Tok)
  | 0, _ => none
  | n + 1, ts =>
    match ts with
    | .op ['!'] :: r => (condAtom n r).map fun b => (if b.1 = 0 then 1 else 0, b.2)
    | .op ['('] :: r =>
      match condOr n r with
      | some (a, .op [')'] :: r) => some (a, r)
      | _ => none
    | .num v _ _ :: r => some (v, r)
    | .id _ :: r => some (0, r)
    | _ => none
end

/-- Whether a condition of `#if` holds (C11 6.10.1p4). -/
def condHolds (ms : List Macro) (ts : List Tok) : Option Bool :=
  match condOr 100 (expand ms 1000 (condDefined ms ts)) with
  | some (v, []) => some (v != 0)
  | _ => none

/-- State of the preprocessor: macros, and for every open `#if` whether the present group is read and whether one of its
groups has been (C11 6.10.1). -/
structure PP where
  macros : List Macro
  stack : List (Bool × Bool)

/-- Lines are read if all enclosing groups are (C11 6.10.1p6). -/
def PP.active (s : PP) : Bool := s.stack.all fun x => x.1

/-- `#undef` (C11 6.10.3.5). -/
def undef (x : List Char) (ms : List Macro) : List Macro := ms.filter fun m => m.name != x

/-- One line: the state after it and the tokens that it gives; `#include` and `#pragma` give none, `#error` is an error
(C11 6.10). -/
def ppLine (s : PP) (l : List Tok) : Option (PP × List Tok) :=
  if isDirective w!"ifdef" l ∨ isDirective w!"ifndef" l then
    match l with
    | _ :: _ :: .id x :: _ =>
      let b := (findMacro x s.macros).isSome == isDirective w!"ifdef" l
      some ({ s with stack := (b, b) :: s.stack }, [])
    | _ => none
  else if isDirective w!"if" l then
    if s.active then
      match condHolds s.macros (l.drop 2) with
      | some b => some ({ s with stack := (b, b) :: s.stack }, [])
      | none => none
    else some ({ s with stack := (false, true) :: s.stack }, [])
  else if isDirective w!"elif" l then
    match s.stack with
    | (_, true) :: st => some ({ s with stack := (false, true) :: st }, [])
    | (_, false) :: st =>
      match condHolds s.macros (l.drop 2) with
      | some b => some ({ s with stack := (b, b) :: st }, [])
      | none => none
    | [] => none
  else if isDirective w!"else" l then
    match s.stack with
    | (_, t) :: st => some ({ s with stack := (!t, true) :: st }, [])
    | [] => none
  else if isDirective w!"endif" l then
    match s.stack with
    | _ :: st => some ({ s with stack := st }, [])
    | [] => none
  else if !s.active then some (s, [])
  else if isDirective w!"define" l then
    match define l with
    | some m => some ({ s with macros := m :: s.macros }, [])
    | none => none
  else if isDirective w!"undef" l then
    match l with
    | _ :: _ :: .id x :: _ => some ({ s with macros := undef x s.macros }, [])
    | _ => none
  else if isDirective w!"error" l then none
  else
    match l with
    | .op ['#'] :: _ => some (s, [])
    | _ => some (s, l)

/-- The files that can be included: what follows `#include`, and the lines of the file. -/
abbrev Includes := List (List Tok × List (List Tok))

/-- The lines of an included file; none for the headers of the system (C11 6.10.2). -/
def included (inc : Includes) (x : List Tok) : List (List Tok) :=
  match inc with
  | [] => []
  | (y, ls) :: inc => if y = x then ls else included inc x

/-- The tokens of a text after preprocessing (C11 6.10): tokens wait in `acc` until a directive comes or the text ends, so
that the arguments of a macro may extend over several lines.  The number bounds the lines. -/
def ppText (inc : Includes) : Nat → List (List Tok) → PP → List Tok → Option (List Tok)
  | 0, _, _, _ => none
  | _ + 1, [], s, acc => some (expand s.macros (20 * acc.length + 1000) acc)
  | n + 1, l :: ls, s, acc =>
    match ppLine s l with
    | none => none
    | some (s', ts) =>
      if l.head? = some (.op ['#']) then
        let ls := if s.active && isDirective w!"include" l then included inc (l.drop 2) ++ ls else ls
        (ppText inc n ls s' []).map fun r => expand s.macros (20 * acc.length + 1000) acc ++ r
      else ppText inc n ls s' (acc ++ ts)

/-- A macro without parameters and with empty body, as the option `-D` of the compiler defines them (C11 6.10.3). -/
def flag (x : List Char) : Macro := ⟨x, none, []⟩

/-- The lines of tokens of a text (C11 5.1.1.2). -/
def linesOf (text : List (List Char)) : List (List Tok) := joinLines (lexText false text) []

/-- The entry for a file that can be included by name. -/
def incl (name : List Char) (text : List (List Char)) : List Tok × List (List Tok) :=
  ((lexLine 100 false (['"'] ++ name ++ ['"'])).1, linesOf text)

/-- The tokens of a text, with the given macros defined in advance and the given files to include (C11 5.1.1.2). -/
def preprocess (ms : List Macro) (inc : Includes) (text : List (List Char)) : Option (List Tok) :=
  ppText inc 10000 (linesOf text) ⟨ms, []⟩ []

/-- `lines% t` evaluates `t : List (List Tok)` and gives the value as a term; that it is right is proved where it is used
(semantic base, not a part of /repo). -/
elab "lines% " t:term : term => do
  let ty := mkApp (mkConst ``List [Level.zero]) (mkApp (mkConst ``List [Level.zero]) (mkConst ``Tok))
  let e ← Term.elabTerm t (some ty)
  Term.synthesizeSyntheticMVarsNoPostponing
  let r ← unsafe evalExpr (List (List Tok)) ty (← instantiateMVars e)
  return toExpr r

/-- `tokens% t` evaluates `t : Option (List Tok)`, as `lines%` (semantic base, not a part of /repo). -/
elab "tokens% " t:term : term => do
  let ty := mkApp (mkConst ``Option [Level.zero]) (mkApp (mkConst ``List [Level.zero]) (mkConst ``Tok))
  let e ← Term.elabTerm t (some ty)
  Term.synthesizeSyntheticMVarsNoPostponing
  let r ← unsafe evalExpr (Option (List Tok)) ty (← instantiateMVars e)
  match r with
  | some l => return toExpr l
  | none => throwError "the text has no tokens"

end Frodo.Src
