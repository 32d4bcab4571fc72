import Verif.C.Parse

/-! # Reading C source: a pointer to a matrix (C11 6.7.8, 6.5.2.1)

A name for the type of a matrix, and a variable of the file that points to one.  In memory a matrix is the sequence of its rows
(C11 6.2.5p20, 6.5.2.1p3), so such a variable is read as a pointer to the first element, and an element of the matrix is found by its
number.  This file corresponds to the C11 standard, not to a part of /repo. -/

namespace Frodo.Src

/-- Put one name in place of another (C11 6.7.8p3). -/
def renameTok (x y : List Char) (t : Tok) : Tok := if t = .id x then .id y else t

/-- Elements of the matrix with rows of length `w` that `x` points to: `(*x)[a][b]` becomes `x[w * a + b]` (C11 6.5.2.1p3).  Only for
`a` and `b` that are one token each. -/
def matrixElem (x : List Char) (w : Tok) : List Tok → List Tok
  | .op ['('] :: .op ['*'] :: .id y :: .op [')'] :: .op ['['] :: a :: .op [']'] :: .op ['['] :: b :: .op [']'] :: r =>
    if y = x then .id x :: .op ['['] :: w :: .op ['*'] :: a :: .op ['+'] :: b :: .op [']'] :: matrixElem x w r
    else .op ['('] :: .op ['*'] :: .id y :: .op [')'] :: .op ['['] :: a :: .op [']'] :: .op ['['] :: b :: .op [']'] :: matrixElem x w r
  | t :: r => t :: matrixElem x w r
  | [] => []

/-- The declarations `typedef T t[h][w];` and `static t* x;` at the beginning of the tokens, and the uses of `t` and `x` after them
(C11 6.7.8, 6.9.2).  The variable itself is not among the variables of the file: see `readStatic`. -/
def matrixDecl : List Tok → Option (List Tok)
  | .id k :: .id T :: .id t :: .op ['['] :: .num _ _ _ :: .op [']'] :: .op ['['] :: .num w u l :: .op [']'] :: .op [';'] ::
      .id k' :: .id t' :: .op ['*'] :: .id x :: .op [';'] :: r =>
    if k = w!"typedef" ∧ k' = w!"static" ∧ t' = t then some (matrixElem x (.num w u l) (r.map (renameTok t T))) else none
  | _ => none

/-- The same for the first declarations of this kind anywhere in the tokens (C11 6.7.8). -/
def matrices : List Tok → List Tok
  | t :: r =>
    match matrixDecl (t :: r) with
    | some r => r
    | none => t :: matrices r
  | [] => []

/-- The file that a text denotes, with such declarations. -/
def parseMatrix (ms : List Macro) (inc : Includes) (text : List (List Char)) : Option File :=
  match preprocess ms inc text with
  | some ts => pFile 1000 (matrices ts)
  | none => none

theorem parseMatrix_eq {ms : List Macro} {inc : Includes} {text : List (List Char)} {ts : List Tok} {f : File}
    (h : preprocess ms inc text = some ts) (h' : pFile 1000 (matrices ts) = some f) : parseMatrix ms inc text = some f := by
  simp only [parseMatrix, h, h']

end Frodo.Src
