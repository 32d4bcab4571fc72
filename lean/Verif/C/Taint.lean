import Verif.C.Link

/-! # Secret and public data in a text

A check of the syntax tree: no condition, no index and no length depends on data labelled as secret.  Contents of memory always count as
secret, pointers as public.  This file is a proof device, not a part of /repo; what a successful check means is proved in
`Verif/Proof/Taint.lean`. -/

namespace Frodo.Src

/-- `any`: public, a number or a pointer; `pub`: public and not a pointer; `sec`: possibly secret and not a pointer (proof device, not a
part of /repo). -/
inductive Lab where
  | any | pub | sec
  deriving DecidableEq

/-- Whether data with the first label may be used as data with the second (proof device, not a part of /repo). -/
def Lab.le : Lab → Lab → Bool
  | .pub, _ => true
  | .any, .any => true
  | .sec, .sec => true
  | _, _ => false

/-- A label for both alternatives of `?:` (proof device, not a part of /repo). -/
def Lab.join (a b : Lab) : Option Lab := if a.le b then some b else if b.le a then some a else none

/-- The labels of the variables of a function by name; `any` for those that are not listed (proof device, not a part of /repo). -/
abbrev Labels := List (String × Lab)

/-- The label of a variable (proof device, not a part of /repo). -/
def Labels.get (x : String) : Labels → Lab
  | [] => .any
  | (y, l) :: r => if y = x then l else Labels.get x r

/-- For every function that may be called: what it takes and what it returns (proof device, not a part of /repo). -/
abbrev Sig := String → Option (List Lab × Lab)

/-- The label of the result of a binary operator; a secret offset of a pointer is refused (proof device, not a part of /repo). -/
def opLab (o : BinOp) : Lab → Lab → Option Lab
  | .any, .sec => if o = .add then none else some .sec
  | .sec, _ => some .sec
  | _, .sec => some .sec
  | .pub, .pub => some .pub
  | _, _ => some .any

/-- The label after a conversion (proof device, not a part of /repo). -/
def castLab : Ty → Lab → Lab
  | .int _ _, .any => .pub
  | _, l => l

/-- Variables, as opposed to elements of blocks (proof device, not a part of /repo). -/
def isVar : Expr → Bool
  | .var _ => true
  | _ => false

/-- Whether arguments with the first labels may be passed for parameters with the second (proof device, not a part of /repo). -/
def lesL : List Lab → List Lab → Bool
  | [], [] => true
  | a :: l, b :: r => a.le b && lesL l r
  | _, _ => false

mutual
/-- The label of the value of an expression, `none` if something secret leaks (proof device, not a part of /repo). -/
def labE (S : Sig) (Γ : Labels) : Expr → Option Lab
  | .num _ _ _ => some .pub
  | .var x => some (Γ.get x)
  | .idx a i =>
    match labE S Γ a, labE S Γ i with
    | some _, some l => if l = .sec then none else some .sec
    | _, _ => none
  | .deref a =>
    match labE S Γ a with
    | some _ => some .sec
    | none => none
  | .addr a =>
    match labO S Γ a with
    | some _ => some .any
    | none => none
  | .un _ a => labE S Γ a
  | .bin o a b =>
    match labE S Γ a, labE S Γ b with
    | some l, some k => opLab o l k
    | _, _ => none
  | .land a b =>
    match labE S Γ a, labE S Γ b with
    | some l, some k => if l = .sec then none else if k = .sec then some .sec else some .pub
    | _, _ => none
  | .lor a b =>
    match labE S Γ a, labE S Γ b with
    | some l, some k => if l = .sec then none else if k = .sec then some .sec else some .pub
    | _, _ => none
  | .cond c a b =>
    match labE S Γ c, labE S Γ a, labE S Γ b with
    | some l, some k, some j => if l = .sec then none else k.join j
    | _, _, _ => none
  | .cast t a =>
    match labE S Γ a with
    | some l => some (castLab t l)
    | none => none
  | .sizeof _ => some .pub
  | .asg l e =>
    match labO S Γ l, labE S Γ e with
    | some j, some k => if isVar l && !k.le j then none else some j
    | _, _ => none
  | .asgOp o l e =>
    match labO S Γ l, labE S Γ e with
    | some j, some k =>
      match opLab o j k with
      | some i => if isVar l && !i.le j then none else some j
      | none => none
    | _, _ => none
  | .inc _ _ l => labO S Γ l
  | .call f args =>
    match labL S Γ args, S f with
    | some ls, some (ps, r) => if lesL ls ps then some r else none
    | _, _ => none
/-- The label of an object (proof device, not a part of /repo). -/
def labO (S : Sig) (Γ : Labels) : Expr → Option Lab
  | .var x => some (Γ.get x)
  | .idx a i =>
    match labE S Γ a, labE S Γ i with
    | some _, some l => if l = .sec then none else some .sec
    | _, _ => none
  | .deref a =>
    match labE S Γ a with
    | some _ => some .sec
    | none => none
  | _ => none
/-- The labels of arguments (proof device, not a part of /repo). -/
def labL (S : Sig) (Γ : Labels) : List Expr → Option (List Lab)
  | [] => some []
  | e :: es =>
    match labE S Γ e, labL S Γ es with
    | some l, some ls => some (l :: ls)
    | _, _ => none
end

/-- Not secret (proof device, not a part of /repo). -/
def open? : Option Lab → Bool
  | some l => l ≠ .sec
  | none => false

/-- Whether a statement passes; `ρ` is the label of what the function returns (proof device, not a part of /repo). -/
def okS (S : Sig) (Γ : Labels) (ρ : Lab) : Stmt → Bool
  | .skip => true
  | .expr e => (labE S Γ e).isSome
  | .decl _ _ none => true
  | .decl t x (some e) =>
    match labE S Γ e with
    | some l => (castLab t l).le (Γ.get x)
    | none => false
  | .declArr _ _ x len _ => open? (labE S Γ len) && Γ.get x = .any
  | .seq a b => okS S Γ ρ a && okS S Γ ρ b
  | .block s => okS S Γ ρ s
  | .ite c a b => open? (labE S Γ c) && okS S Γ ρ a && okS S Γ ρ b
  | .while c s => open? (labE S Γ c) && okS S Γ ρ s
  | .for i c step s => okS S Γ ρ i && open? (labE S Γ c) && (labE S Γ step).isSome && okS S Γ ρ s
  | .brk => true
  | .ret none => true
  | .ret (some e) =>
    match labE S Γ e with
    | some l => l.le ρ
    | none => false

/-- Whether the parameters may have the given labels (proof device, not a part of /repo). -/
def okP (Γ : Labels) : List (Ty × String) → List Lab → Bool
  | [], [] => true
  | (t, x) :: ps, l :: ls => (castLab t l).le (Γ.get x) && okP Γ ps ls
  | _, _ => false

/-- Whether a function takes and returns what is claimed (proof device, not a part of /repo). -/
def okF (S : Sig) (Γ : Labels) (g : Fun) (ps : List Lab) (ρ : Lab) : Bool := okP Γ g.params ps && okS S Γ ρ g.body

/-- What is claimed of a function: the labels of its arguments, of what it returns, and of its variables (proof device). -/
structure Claim where
  name : String
  args : List Lab
  ret : Lab
  vars : Labels

/-- The claims about the functions of a program and about those outside of it, with `string.h` (proof device). -/
def sigOf (T : List Claim) (E : Sig) : Sig := fun f =>
  if f = "memset" then some ([.any, .sec, .any], .any)
  else if f = "memcpy" then some ([.any, .any, .any], .any)
  else match T.find? (·.name = f) with
    | some c => some (c.args, c.ret)
    | none => E f

/-- Whether the functions of the files pass; `N` are the names of the global variables (proof device, not a part of /repo). -/
def okT (Fs : List File) (N : List String) (T : List Claim) (E : Sig) : Bool := T.all fun c =>
  N.all (fun x => c.vars.get x = .any) &&
  match Fs.findSome? (·.fn c.name) with
  | some g => okF (sigOf T E) c.vars g c.args c.ret
  | none => false

end Frodo.Src
