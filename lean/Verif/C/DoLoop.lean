import Verif.C.Parse

/-! # Reading C source: `do`, and strings (C11 6.8.5.2, 6.4.5)

Both are removed before parsing.  This file corresponds to the C11 standard, not to a part of /repo. -/

namespace Frodo.Src

/-- The tokens up to the closing bracket that belongs to an opening one before them, and those after it; the number counts the
brackets that are open in between. -/
def closing (o c : List Char) : Nat → List Tok → Option (List Tok × List Tok)
  | _, [] => none
  | d, t :: ts =>
    if t = .op c then
      match d with
      | 0 => some ([], ts)
      | d + 1 => (closing o c d ts).map fun x => (t :: x.1, x.2)
    else (closing o c (if t = .op o then d + 1 else d) ts).map fun x => (t :: x.1, x.2)

/-- Whether a loop can be left from inside, or contains a loop of this kind. -/
def leaves (b : List Tok) : Bool := b.contains (.id w!"break") || b.contains (.id w!"continue") || b.contains (.id w!"do")

/-- `do { b } while (c);` becomes `{ b } while (c) { b }` (C11 6.8.5.2, 6.8.5p4).  It must be a statement of a block.  Not for a
`b` with `break`, `continue` or `do`: then the `do` stays, and nothing can be parsed. -/
def doLoops : Nat → List Tok → List Tok
  | n + 1, .id d :: .op ['{'] :: r =>
    if d = w!"do" then
      match closing ['{'] ['}'] 0 r with
      | some (b, .id w :: .op ['('] :: r') =>
        match closing ['('] [')'] 0 r' with
        | some (c, .op [';'] :: r') =>
          if w = w!"while" ∧ leaves b = false then
            .op ['{'] :: b ++ .op ['}'] :: .id w :: .op ['('] :: c ++ .op [')'] :: .op ['{'] :: b ++ .op ['}'] :: doLoops n r'
          else .id d :: .op ['{'] :: r
        | _ => .id d :: .op ['{'] :: r
      | _ => .id d :: .op ['{'] :: r
    else .id d :: doLoops n (.op ['{'] :: r)
  | n + 1, t :: r => t :: doLoops n r
  | _, ts => ts

/-- The characters of a string up to the second quotation mark (C11 6.4.5).  Only for strings of letters and punctuation, without
spaces, whose tokens show the characters. -/
def stringChars : List Tok → Option (List Char × List Tok)
  | .op ['"'] :: r => some ([], r)
  | .id x :: r => (stringChars r).map fun y => (x ++ y.1, y.2)
  | .op x :: r => (stringChars r).map fun y => (x ++ y.1, y.2)
  | _ => none

/-- A string is an array without a name, here with the quotation mark and the characters as its name (C11 6.4.5p6). -/
def strings : Nat → List Tok → List Tok
  | n + 1, .op ['"'] :: r =>
    match stringChars r with
    | some (x, r) => .id ('"' :: x) :: strings n r
    | none => .op ['"'] :: r
  | n + 1, t :: r => t :: strings n r
  | _, ts => ts

/-- The file that a text denotes, with loops of this kind and strings. -/
def parseDo (ms : List Macro) (inc : Includes) (text : List (List Char)) : Option File :=
  match preprocess ms inc text with
  | some ts => pFile 1000 (doLoops 10000 (strings 10000 ts))
  | none => none

end Frodo.Src
