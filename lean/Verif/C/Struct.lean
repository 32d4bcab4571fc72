import Verif.C.DoLoop

/-! # Reading C source: variables of a structure type, null pointers, `(void)x` (C11 6.7.2.1, 6.3.2.3p3, 6.3.2.2)

All are removed before parsing.  This file corresponds to the C11 standard, not to a part of /repo. -/

namespace Frodo.Src

/-- The members of the variable `v` are variables of their own, with names that contain the point (C11 6.5.2.3p3): `v.f` is one
token.  Only for members of a variable, not through pointers. -/
def members (v : List Char) : List Tok → List Tok
  | .id x :: .op ['.'] :: .id f :: r =>
    if x = v then .id (v ++ '.' :: f) :: members v r else .id x :: .op ['.'] :: .id f :: members v r
  | t :: r => t :: members v r
  | [] => []

/-- The declarations `typedef struct { … } N;` and `N v;` outside of functions (C11 6.7.2.1, 6.7.8, 6.9.2).  They are removed: what
`v.f` denotes is given by the context, like other variables of a file that are changed (see `readStatic`) and arrays. -/
def structs : Nat → List (List Char) → List Tok → List Tok
  | n + 1, ns, .id k :: .id s :: .op ['{'] :: r =>
    if k = w!"typedef" ∧ s = w!"struct" then
      match closing ['{'] ['}'] 0 r with
      | some (_, .id N :: .op [';'] :: r) => structs n (N :: ns) r
      | _ => .id k :: .id s :: .op ['{'] :: r
    else .id k :: structs n ns (.id s :: .op ['{'] :: r)
  | n + 1, ns, .id N :: .id v :: .op [';'] :: r =>
    if N ∈ ns then structs n ns (members v r) else .id N :: structs n ns (.id v :: .op [';'] :: r)
  | n + 1, ns, t :: r => t :: structs n ns r
  | _, _, ts => ts

/-- A statement `(void)x;` with a variable `x` has no effect (C11 6.3.2.2, 6.8.3p2). -/
def voids : List Tok → List Tok
  | .op ['('] :: .id k :: .op [')'] :: .id x :: .op [';'] :: r =>
    if k = w!"void" then voids r else .op ['('] :: .id k :: .op [')'] :: .id x :: .op [';'] :: voids r
  | t :: r => t :: voids r
  | [] => []

/-- The names that are declared as `char *x`. -/
def charPtrs : List Tok → List (List Char)
  | .id c :: .op ['*'] :: .id x :: r => if c = w!"char" then x :: charPtrs r else charPtrs r
  | _ :: r => charPtrs r
  | [] => []

/-- Tests whether a pointer is null (C11 6.5.9p5, 6.8.4.1p2): `x != NULL`, and `if (x)` for a pointer `x`, become a call of the function
`!=NULL` with the pointer as its argument.  `NULL` itself is a name of the context. -/
def nullTests (ps : List (List Char)) : List Tok → List Tok
  | .id i :: .op ['('] :: .id x :: .op [')'] :: r =>
    if i = w!"if" ∧ x ∈ ps then
      .id i :: .op ['('] :: .id w!"!=NULL" :: .op ['('] :: .id x :: .op [')'] :: .op [')'] :: nullTests ps r
    else .id i :: .op ['('] :: .id x :: .op [')'] :: nullTests ps r
  | .id x :: .op ['!', '='] :: .id n :: r =>
    if n = w!"NULL" then .id w!"!=NULL" :: .op ['('] :: .id x :: .op [')'] :: nullTests ps r
    else .id x :: .op ['!', '='] :: .id n :: nullTests ps r
  | t :: r => t :: nullTests ps r
  | [] => []

/-- The file that a text denotes, with all these. -/
def parseStruct (ms : List Macro) (inc : Includes) (text : List (List Char)) : Option File :=
  match preprocess ms inc text with
  | some ts => pFile 1000 (nullTests (charPtrs ts) (voids (structs 10000 [] ts)))
  | none => none

end Frodo.Src
