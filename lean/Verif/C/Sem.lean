import Verif.C.Parse
import Verif.C.Types
import Verif.Model.Mem

/-! # The meaning of parsed C source

The same computations `C` as in the model, but obtained from the syntax tree of a text: integer promotions, conversions,
scopes, pointers into typed blocks of memory, function calls.  This file corresponds to the C11 standard, not to a part of
/repo. -/

namespace Frodo.Src

open C

/-- Values: numbers with their type, pointers (block, offset in units of the type pointed to, that type), a variable that has
not been given a value, with its type. -/
inductive Val where
  | int (s : Bool) (n : Nat) (v : Int)
  | ptr (b off : Nat) (s : Bool) (n : Nat)
  | undef (t : Ty)
  deriving DecidableEq

/-- A block of memory: an array of numbers of one type (C11 6.2.5p20). -/
structure Blk where
  s : Bool
  n : Nat
  data : List Int

/-- Memory: blocks by number (semantic base, not a part of /repo). -/
abbrev Mem := Nat → Blk

/-- Change of one block (semantic base, not a part of /repo). -/
def Mem.set (m : Mem) (b : Nat) (x : Blk) : Mem := fun c => if c = b then x else m c

/-- State: the local variables, innermost first, the memory, and the number of the next block. -/
structure St where
  loc : List (String × Val)
  mem : Mem
  next : Nat

/-- What a text is run in: byte order, global constants and arrays, what uninitialised arrays contain, and the functions
that it calls. -/
structure Ctx where
  arch : Arch
  glob : String → Option Val
  junk : String → Nat → Int
  call : String → List Val → Mem → Nat → C (Val × Mem × Nat)

/-! ## Numbers -/

/-- Conversion to an integer type (C11 6.3.1.3). -/
def wrap (s : Bool) (n : Nat) (v : Int) : Int := if s then v.bmod (2 ^ (8 * n)) else v % 2 ^ (8 * n)

/-- Integer promotion (C11 6.3.1.1p2). -/
def promote (t : Bool × Nat) : Bool × Nat := if t.2 < 4 then (true, 4) else t

/-- Usual arithmetic conversions (C11 6.3.1.8). -/
def usual (t u : Bool × Nat) : Bool × Nat :=
  let t := promote t
  let u := promote u
  if t.2 = u.2 then (t.1 && u.1, t.2) else if t.2 < u.2 then u else t

/-- The result of arithmetic: modulo a power of two if unsigned, else undefined if out of range (C11 6.2.5p9, 6.5p5). -/
def arith (s : Bool) (n : Nat) (x : Int) : C Int :=
  if s then
    if n = 4 then Frodo.int x
    else if -(2 ^ (8 * n - 1)) ≤ x ∧ x < 2 ^ (8 * n - 1) then pure x else ub .overflow
  else pure (x % 2 ^ (8 * n))

/-- The number that bits represent (C11 6.2.6.2). -/
def ofBits (s : Bool) {k : Nat} (x : BitVec k) : Int := if s then x.toInt else x.toNat

/-- `a << k` (C11 6.5.7p3-4). -/
def shlOp (s : Bool) (n : Nat) (a k : Int) : C Int :=
  if s && n = 4 then ishl a k
  else if 0 ≤ k ∧ k < 8 * n then
    if s then if 0 ≤ a then arith s n (a * 2 ^ k.toNat) else ub .overflow
    else pure (a * 2 ^ k.toNat % 2 ^ (8 * n))
  else ub .badShift

/-- `a >> k` (C11 6.5.7p3, 5; arithmetic shift for negative `a`). -/
def shrOp (s : Bool) (n : Nat) (a k : Int) : C Int :=
  if s && n = 4 then ishr a k
  else if 0 ≤ k ∧ k < 8 * n then pure (a / 2 ^ k.toNat) else ub .badShift

/-- Truth values (C11 6.5.8p6). -/
def truth (b : Bool) : Int := if b then 1 else 0

/-- Binary operators on numbers of the same type, other than shifts: type and value of the result (C11 6.5.5-6.5.12).
Division by zero counts as overflow. -/
def numOp (o : BinOp) (s : Bool) (n : Nat) (a b : Int) : C Val :=
  match o with
  | .add => do let x ← arith s n (a + b); pure (.int s n x)
  | .sub => do let x ← arith s n (a - b); pure (.int s n x)
  | .mul => do let x ← arith s n (a * b); pure (.int s n x)
  | .div => do
    require (b ≠ 0) .overflow
    let x ← arith s n (a.tdiv b)
    pure (.int s n x)
  | .mod => do
    require (b ≠ 0) .overflow
    let x ← arith s n (a.tmod b)
    pure (.int s n x)
  | .and => pure (.int s n (ofBits s (BitVec.ofInt (8 * n) a &&& BitVec.ofInt (8 * n) b)))
  | .xor => pure (.int s n (ofBits s (BitVec.ofInt (8 * n) a ^^^ BitVec.ofInt (8 * n) b)))
  | .or => pure (.int s n (ofBits s (BitVec.ofInt (8 * n) a ||| BitVec.ofInt (8 * n) b)))
  | .lt => pure (.int true 4 (truth (decide (a < b))))
  | .gt => pure (.int true 4 (truth (decide (b < a))))
  | .le => pure (.int true 4 (truth (decide (a ≤ b))))
  | .ge => pure (.int true 4 (truth (decide (b ≤ a))))
  | .eq => pure (.int true 4 (truth (decide (a = b))))
  | .ne => pure (.int true 4 (truth (decide (a ≠ b))))
  | .shl | .shr => ub .badShift

/-- Move a pointer to the element `k` (C11 6.5.6p8).  Negative steps are not supported. -/
def movePtr (m : Mem) (b off : Nat) (s : Bool) (n : Nat) (k : Int) : C Val :=
  if 0 ≤ k ∧ (off + k.toNat) * n ≤ (m b).data.length * (m b).n then do
    emit (.addr k.toNat)
    pure (.ptr b (off + k.toNat) s n)
  else ub .oobRead

/-- Binary operators (C11 6.5.5-6.5.12). -/
def binOpV (m : Mem) (o : BinOp) (x y : Val) : C Val :=
  match x, y with
  | .int s n a, .int s' n' b =>
    match o with
    | .shl => do
      let t := promote (s, n)
      let v ← shlOp t.1 t.2 (wrap t.1 t.2 a) b
      pure (.int t.1 t.2 v)
    | .shr => do
      let t := promote (s, n)
      let v ← shrOp t.1 t.2 (wrap t.1 t.2 a) b
      pure (.int t.1 t.2 v)
    | o =>
      let t := usual (s, n) (s', n')
      numOp o t.1 t.2 (wrap t.1 t.2 a) (wrap t.1 t.2 b)
  | .ptr b off s n, .int _ _ k =>
    match o with
    | .add => movePtr m b off s n k
    | _ => ub .oobRead
  | _, _ => ub .oobRead

/-- Unary operators (C11 6.5.3.3). -/
def unOpV (o : UnOp) (x : Val) : C Val :=
  match x with
  | .int s n a =>
    let t := promote (s, n)
    match o with
    | .neg => do let v ← arith t.1 t.2 (-(wrap t.1 t.2 a)); pure (.int t.1 t.2 v)
    | .bnot => pure (.int t.1 t.2 (ofBits t.1 (~~~ BitVec.ofInt (8 * t.2) (wrap t.1 t.2 a))))
    | .lnot => pure (.int true 4 (truth (decide (a = 0))))
  | _ => ub .oobRead

/-- Conversion to a type (C11 6.3.1.3, 6.3.2.3p7; 6.5.4).  Blocks are assumed to be aligned for every type, so that a pointer
is misaligned only by its offset. -/
def convert (t : Ty) (x : Val) : C Val :=
  match t, x with
  | .int s n, .int _ _ v => pure (.int s n (wrap s n v))
  | .ptr (.int s n), .ptr b off _ n' =>
    if n = n' then pure (.ptr b off s n)
    else if off * n' % n = 0 then pure (.ptr b (off * n' / n) s n) else ub .misaligned
  | .ptr .void, x => pure x
  | _, _ => ub .oobRead

/-! ## Memory -/

/-- The bytes of a number (C11 6.2.6.1p4). -/
def bytesOf (a : Arch) (n : Nat) (v : Int) : List Int :=
  let l := (List.range n).map fun i => v / 2 ^ (8 * i) % 256
  match a with
  | .le => l
  | .be => l.reverse

/-- The number with the given bytes, lowest first. -/
def joinLe : List Int → Int
  | [] => 0
  | x :: l => x + 256 * joinLe l

/-- The number that bytes in memory represent (C11 6.2.6.1p4). -/
def joinBytes (a : Arch) (l : List Int) : Int :=
  match a with
  | .le => joinLe l
  | .be => joinLe l.reverse

/-- The bytes of a block (C11 6.2.6.1p4). -/
def Blk.bytes (a : Arch) (x : Blk) : List Int := x.data.flatMap (bytesOf a x.n)

/-- Groups of `n` elements; an incomplete group at the end is left out. -/
def groups (n : Nat) (l : List Int) : List (List Int) :=
  (List.range (l.length / n)).map fun i => (l.drop (i * n)).take n

/-- A block with new bytes (C11 6.2.6.1p4). -/
def Blk.setBytes (a : Arch) (x : Blk) (l : List Int) : Blk :=
  { x with data := (groups x.n l).map fun g => wrap x.s x.n (joinBytes a g) }

/-- `p[k]` (C11 6.5.2.1).  Negative indices are not supported. -/
def load (a : Arch) (m : Mem) (b off : Nat) (s : Bool) (n : Nat) (k : Int) : C Val :=
  if k < 0 then ub .oobRead
  else if (m b).n = n then do
    let v ← rd ((m b).data.drop off) k.toNat
    pure (.int s n (if (m b).s = s then v else wrap s n v))
  else if ((off + k.toNat + 1) * n ≤ ((m b).bytes a).length) then do
    emit (.read k.toNat)
    pure (.int s n (wrap s n (joinBytes a ((((m b).bytes a).drop ((off + k.toNat) * n)).take n))))
  else ub .oobRead

/-- `p[k] = v` (C11 6.5.2.1, 6.5.16). -/
def store (a : Arch) (m : Mem) (b off n : Nat) (k v : Int) : C Mem :=
  if k < 0 then ub .oobWrite
  else if (m b).n = n then do
    let l ← wr ((m b).data.drop off) k.toNat (wrap (m b).s n v)
    pure (m.set b { m b with data := (m b).data.take off ++ l })
  else if ((off + k.toNat + 1) * n ≤ ((m b).bytes a).length) then do
    emit (.write k.toNat)
    let l := (m b).bytes a
    pure (m.set b ((m b).setBytes a (l.take ((off + k.toNat) * n) ++ bytesOf a n v ++ l.drop ((off + k.toNat + 1) * n))))
  else ub .oobWrite

/-- `memset(p, c, len)` (C11 7.24.6.1): by elements if the length is a multiple of their size, else by bytes. -/
def memsetC (a : Arch) (m : Mem) (b off n : Nat) (c len : Int) : C Mem :=
  if n = (m b).n ∧ len.toNat % n = 0 then do
    let l ← Frodo.memset ((m b).data.drop off) (wrap (m b).s n (joinBytes a (List.replicate n (c % 256)))) (len.toNat / n)
    pure (m.set b { m b with data := (m b).data.take off ++ l })
  else do
    let x := (m b).bytes a
    let l ← Frodo.memset (x.drop (off * n)) (c % 256) len.toNat
    pure (m.set b ((m b).setBytes a (x.take (off * n) ++ l)))

/-- `memcpy(p, q, len)` (C11 7.24.2.1): by elements if both blocks have elements of the same size and the length is a multiple
of it, else by bytes. -/
def memcpyC (a : Arch) (m : Mem) (b off n b' off' n' : Nat) (len : Int) : C Mem := do
  require (b ≠ b' ∨ off * n + len.toNat ≤ off' * n' ∨ off' * n' + len.toNat ≤ off * n) .overlap
  if n = (m b).n ∧ n' = (m b').n ∧ n = n' ∧ len.toNat % n = 0 then do
    let l ← Frodo.memcpy (m b).data off (m b').data off' (len.toNat / n)
    pure (m.set b { m b with data := l })
  else do
    let l ← Frodo.memcpy ((m b).bytes a) (off * n) ((m b').bytes a) (off' * n') len.toNat
    pure (m.set b ((m b).setBytes a l))

/-- The functions of `string.h` that the sources call (C11 7.24), other functions as given. -/
def withString (a : Arch) (call : String → List Val → Mem → Nat → C (Val × Mem × Nat)) (f : String) (args : List Val) (m : Mem)
    (next : Nat) : C (Val × Mem × Nat) :=
  if f = "memset" then
    match args with
    | [.ptr b off _ n, .int _ _ c, .int _ _ len] => do
      let m ← memsetC a m b off n c (wrap false 8 len)
      pure (.undef .void, m, next)
    | _ => ub .oobWrite
  else if f = "memcpy" then
    match args with
    | [.ptr b off _ n, .ptr b' off' _ n', .int _ _ len] => do
      let m ← memcpyC a m b off n b' off' n' (wrap false 8 len)
      pure (.undef .void, m, next)
    | _ => ub .oobWrite
  else call f args m next

/-! ## Variables -/

/-- The value of a local variable (C11 6.2.1). -/
def findVar (x : String) : List (String × Val) → Option Val
  | [] => none
  | (y, v) :: l => if y = x then some v else findVar x l

/-- Assignment to a local variable (C11 6.5.16); nothing happens if there is none. -/
def setVar (x : String) (v : Val) : List (String × Val) → List (String × Val)
  | [] => []
  | (y, w) :: l => if y = x then (y, v) :: l else (y, w) :: setVar x v l

/-- The value of a variable that a file declares outside its functions and changes (C11 6.2.4p3, 6.9.2).  It is kept in a block,
to which `glob` has a pointer under the name of the variable with `&` in front: a number as the only element, a pointer to numbers
as two elements, its block and its offset; no element if no pointer has been assigned. -/
def readStatic (m : Mem) : Option Val → C Val
  | some (.ptr c _ s n) =>
    match (m c).data with
    | [v] => pure (.int s n v)
    | [b, off] => pure (.ptr b.toNat off.toNat s n)
    | _ => ub .oobRead
  | _ => ub .oobRead

/-- Assignment to such a variable (C11 6.5.16.1p2). -/
def writeStatic (st : St) (p : Option Val) (v : Val) : C (Val × St) :=
  match p, v with
  | some (.ptr c _ s n), .int _ _ w =>
    match (st.mem c).data with
    | [_] => pure (.int s n (wrap s n w), { st with mem := st.mem.set c ⟨s, n, [wrap s n w]⟩ })
    | _ => ub .oobWrite
  | some (.ptr c _ s n), .ptr b off s' n' =>
    if s = s' ∧ n = n' ∧ (st.mem c).data.length ≠ 1 then
      pure (v, { st with mem := st.mem.set c ⟨s, n, [(b : Int), (off : Int)]⟩ })
    else ub .oobWrite
  | _, _ => ub .oobWrite

/-- The value of a variable, local or global (C11 6.2.1).  A variable without a value must not be used. -/
def getVar (X : Ctx) (st : St) (x : String) : C Val :=
  match (findVar x st.loc).or (X.glob x) with
  | some (.int s n v) => pure (.int s n v)
  | some (.ptr b off s n) => pure (.ptr b off s n)
  | some (.undef _) => ub .oobRead
  | none => readStatic st.mem (X.glob ("&" ++ x))

/-- Objects that can be assigned to: variables, elements of blocks (C11 6.3.2.1). -/
inductive LVal where
  | var (x : String)
  | elem (b off : Nat) (s : Bool) (n : Nat) (k : Int)

/-- The value of an object (C11 6.3.2.1p2). -/
def readL (X : Ctx) (st : St) : LVal → C Val
  | .var x => getVar X st x
  | .elem b off s n k => load X.arch st.mem b off s n k

/-- Assignment; the value is converted to the type of the object (C11 6.5.16.1p2). -/
def assign (X : Ctx) (st : St) (l : LVal) (v : Val) : C (Val × St) :=
  match l, v with
  | .var x, .int _ _ w =>
    match findVar x st.loc with
    | some (.int s n _) | some (.undef (.int s n)) =>
      pure (.int s n (wrap s n w), { st with loc := setVar x (.int s n (wrap s n w)) st.loc })
    | some _ => ub .oobWrite
    | none => writeStatic st (X.glob ("&" ++ x)) v
  | .var x, .ptr b off s n =>
    match findVar x st.loc with
    | some (.ptr ..) | some (.undef (.ptr _)) =>
      pure (.ptr b off s n, { st with loc := setVar x (.ptr b off s n) st.loc })
    | some _ => ub .oobWrite
    | none => writeStatic st (X.glob ("&" ++ x)) v
  | .elem b off s n k, .int _ _ w => do
    let m ← store X.arch st.mem b off n k (wrap s n w)
    pure (.int s n (wrap s n w), { st with mem := m })
  | _, _ => ub .oobWrite

/-- Whether a condition holds (C11 6.8.4.1p2). -/
def isTrue : Val → C Bool
  | .int _ _ v => pure (decide (v ≠ 0))
  | _ => ub .oobRead

/-! ## Expressions -/

mutual
/-- The value of an expression and the state after it (C11 6.5).  Operands are evaluated from left to right, the right side
of an assignment before the left.  The outcome of `&&` and `||` leaks only as part of a condition.
Simplified: the value of `?:` keeps the type of the chosen operand instead of the common type of both (C11 6.5.15p5); no
function about which something is proved uses it. -/
def eval (X : Ctx) : Expr → St → C (Val × St)
  | .num s n v, st => pure (.int s n v, st)
  | .var x, st => do
    let v ← getVar X st x
    pure (v, st)
  | .idx a i, st => do
    let r ← eval X a st
    let q ← eval X i r.2
    match r.1, q.1 with
    | .ptr b off s n, .int _ _ k => do
      let v ← load X.arch q.2.mem b off s n k
      pure (v, q.2)
    | _, _ => ub .oobRead
  | .deref a, st => do
    let r ← eval X a st
    match r.1 with
    | .ptr b off s n => do
      let v ← load X.arch r.2.mem b off s n 0
      pure (v, r.2)
    | _ => ub .oobRead
  | .addr a, st => do
    let l ← lval X a st
    match l.1 with
    | .elem b off s n k => do
      let p ← movePtr l.2.mem b off s n k
      pure (p, l.2)
    | .var x => do
      let v ← getVar X l.2 x
      match v with
      | .ptr b off s n => pure (.ptr b off s n, l.2)
      | _ => ub .oobRead
  | .un o a, st => do
    let r ← eval X a st
    let v ← unOpV o r.1
    pure (v, r.2)
  | .bin o a b, st => do
    let r ← eval X a st
    let q ← eval X b r.2
    let v ← binOpV q.2.mem o r.1 q.1
    pure (v, q.2)
  | .land a b, st => do
    let r ← eval X a st
    let c ← isTrue r.1
    if c then do
      let q ← eval X b r.2
      let d ← isTrue q.1
      pure (.int true 4 (truth d), q.2)
    else pure (.int true 4 0, r.2)
  | .lor a b, st => do
    let r ← eval X a st
    let c ← isTrue r.1
    if c then pure (.int true 4 1, r.2)
    else do
      let q ← eval X b r.2
      let d ← isTrue q.1
      pure (.int true 4 (truth d), q.2)
  | .cond c a b, st => do
    let r ← eval X c st
    let t ← isTrue r.1
    emit (.branch t)
    if t then eval X a r.2 else eval X b r.2
  | .cast t a, st => do
    let r ← eval X a st
    let v ← convert t r.1
    pure (v, r.2)
  | .sizeof t, st =>
    match t with
    | .int _ n => pure (.int false 8 n, st)
    | _ => pure (.int false 8 8, st)
  | .asg l e, st => do
    let r ← eval X e st
    let q ← lval X l r.2
    assign X q.2 q.1 r.1
  | .asgOp o l e, st => do
    let q ← lval X l st
    let u ← readL X q.2 q.1
    let r ← eval X e q.2
    let v ← binOpV r.2.mem o u r.1
    assign X r.2 q.1 v
  | .inc pre up l, st => do
    let q ← lval X l st
    let u ← readL X q.2 q.1
    match u with
    | .ptr b off s n => do
      if up then
        if (off + 1) * n ≤ (q.2.mem b).data.length * (q.2.mem b).n then do
          let r ← assign X q.2 q.1 (.ptr b (off + 1) s n)
          pure (if pre then r.1 else u, r.2)
        else ub .oobRead
      else ub .oobRead
    | u => do
      let v ← binOpV q.2.mem (if up then .add else .sub) u (.int true 4 1)
      let r ← assign X q.2 q.1 v
      pure (if pre then r.1 else u, r.2)
  | .call f args, st => do
    let r ← evalList X args st
    let q ← X.call f r.1 r.2.mem r.2.next
    pure (q.1, { r.2 with mem := q.2.1, next := q.2.2 })
/-- The object that an expression denotes (C11 6.3.2.1). -/
def lval (X : Ctx) : Expr → St → C (LVal × St)
  | .var x, st => pure (.var x, st)
  | .idx a i, st => do
    let r ← eval X a st
    let q ← eval X i r.2
    match r.1, q.1 with
    | .ptr b off s n, .int _ _ k => pure (.elem b off s n k, q.2)
    | _, _ => ub .oobRead
  | .deref a, st => do
    let r ← eval X a st
    match r.1 with
    | .ptr b off s n => pure (.elem b off s n 0, r.2)
    | _ => ub .oobRead
  | _, _ => ub .oobRead
/-- The arguments of a call, from left to right (C11 6.5.2.2p10 leaves the order open). -/
def evalList (X : Ctx) : List Expr → St → C (List Val × St)
  | [], st => pure ([], st)
  | e :: es, st => do
    let r ← eval X e st
    let q ← evalList X es r.2
    pure (r.1 :: q.1, q.2)
end

/-! ## Statements -/

/-- How a statement ends (C11 6.8.6). -/
inductive Flow where
  | next
  | brk
  | ret (v : Val)

/-- Repetition: `it` says whether to go on (`none`) or how the loop ends (C11 6.8.5). -/
def loop (it : σ → C (Option Flow × σ)) (s : σ) : C (σ × Flow) := do
  let r ← it s
  match r.1 with
  | none => loop it r.2
  | some f => pure (r.2, f)
partial_fixpoint

/-- One round of a loop: condition, body, step (C11 6.8.5).  Leaving a loop leaks, also by `break`. -/
def round (X : Ctx) (c : Expr) (step : St → C St) (body : St → C (St × Flow)) (st : St) : C (Option Flow × St) := do
  let r ← eval X c st
  let t ← isTrue r.1
  emit (.branch t)
  if t then do
    let q ← body r.2
    match q.2 with
    | .next => do
      let st ← step q.1
      pure (none, st)
    | .brk => do
      emit (.branch false)
      pure (some .next, q.1)
    | .ret v => pure (some (.ret v), q.1)
  else pure (some .next, r.2)

/-- Leave a block: the variables declared in it disappear (C11 6.2.4p6). -/
def leave (k : Nat) (st : St) : St := { st with loc := st.loc.drop (st.loc.length - k) }

/-- The elements of an array with initialiser; the rest is zero (C11 6.7.9p21).  Only constants. -/
def initElems (s : Bool) (n : Nat) : List Expr → List Int
  | .num _ _ v :: l => wrap s n v :: initElems s n l
  | .cast (.int s' n') (.num _ _ v) :: l => wrap s n (wrap s' n' v) :: initElems s n l
  | _ => []

/-- The contents of a new array of `k` elements (C11 6.7.9p10, p21). -/
def newArr (X : Ctx) (x : String) (s : Bool) (n k : Nat) : Option (List Expr) → List Int
  | some es => initElems s n es ++ List.replicate (k - (initElems s n es).length) 0
  | none => (List.range k).map fun i => wrap s n (X.junk x i)

/-- Execution of a statement (C11 6.8). -/
def exec (X : Ctx) : Stmt → St → C (St × Flow)
  | .skip, st => pure (st, .next)
  | .expr e, st => do
    let r ← eval X e st
    pure (r.2, .next)
  | .decl t x none, st => pure ({ st with loc := (x, .undef t) :: st.loc }, .next)
  | .decl t x (some e), st => do
    let r ← eval X e st
    let v ← convert t r.1
    pure ({ r.2 with loc := (x, v) :: r.2.loc }, .next)
  | .declArr s n x len init, st => do
    let r ← eval X len st
    match r.1 with
    | .int _ _ k =>
      pure ({ loc := (x, .ptr r.2.next 0 s n) :: r.2.loc
              mem := r.2.mem.set r.2.next ⟨s, n, newArr X x s n k.toNat init⟩
              next := r.2.next + 1 }, .next)
    | _ => ub .oobRead
  | .seq a b, st => do
    let r ← exec X a st
    match r.2 with
    | .next => exec X b r.1
    | f => pure (r.1, f)
  | .block s, st => do
    let r ← exec X s st
    pure (leave st.loc.length r.1, r.2)
  | .ite c a b, st => do
    let r ← eval X c st
    let t ← isTrue r.1
    emit (.branch t)
    if t then exec X a r.2 else exec X b r.2
  | .while c s, st => loop (round X c pure (exec X s)) st
  | .for i c step s, st => do
    let r ← exec X i st
    let q ← loop (round X c (fun st => do let r ← eval X step st; pure r.2) (exec X s)) r.1
    pure (leave st.loc.length q.1, q.2)
  | .brk, st => pure (st, .brk)
  | .ret none, st => pure (st, .ret (.undef .void))
  | .ret (some e), st => do
    let r ← eval X e st
    pure (r.2, .ret r.1)

/-- Parameters are local variables with the converted arguments (C11 6.5.2.2p7, 6.9.1p10). -/
def bindParams : List (Ty × String) → List Val → C (List (String × Val))
  | [], [] => pure []
  | (t, x) :: ps, v :: vs => do
    let w ← convert t v
    let l ← bindParams ps vs
    pure ((x, w) :: l)
  | _, _ => ub .oobRead

/-- A call of a function (C11 6.5.2.2, 6.8.6.4p3). -/
def callFun (X : Ctx) (f : Fun) (args : List Val) (m : Mem) (next : Nat) : C (Val × Mem × Nat) := do
  let ps ← bindParams f.params args
  let r ← exec X f.body ⟨ps, m, next⟩
  match r.2 with
  | .ret v =>
    match f.ret with
    | .void => pure (.undef .void, r.1.mem, r.1.next)
    | t => do
      let v ← convert t v
      pure (v, r.1.mem, r.1.next)
  | _ => pure (.undef .void, r.1.mem, r.1.next)

/-- A call of a function of a file by name (C11 6.5.2.2). -/
def File.run (F : File) (X : Ctx) (f : String) (args : List Val) (m : Mem) (next : Nat) : C (Val × Mem × Nat) :=
  match F.fn f with
  | some f => callFun X f args m next
  | none => ub .oobRead

end Frodo.Src
