import Verif.C.SemAttr
import Verif.Proof.Text

/-! # Rules for evaluating syntax trees -/

namespace Frodo.Src

open C

attribute [sem] bind_assoc pure_bind

/-! Rules apply only to states whose variables are known, so that what comes after a step is left alone until its result is
known.  The functions with names in `K` are such continuations. -/

variable {X : Ctx} {loc : List (String × Val)} {m : Mem} {nx : Nat}

/-! Expressions. -/

def idxK (X : Ctx) (st : St) (v w : Val) : C (Val × St) :=
  match v, w with
  | .ptr b off s n, .int _ _ k => load X.arch st.mem b off s n k >>= fun v => pure (v, st)
  | _, _ => ub .oobRead
def derefK (X : Ctx) (st : St) (v : Val) : C (Val × St) :=
  match v with
  | .ptr b off s n => load X.arch st.mem b off s n 0 >>= fun v => pure (v, st)
  | _ => ub .oobRead
def addrK (X : Ctx) (st : St) (l : LVal) : C (Val × St) :=
  match l with
  | .elem b off s n k => movePtr st.mem b off s n k >>= fun p => pure (p, st)
  | .var x => getVar X st x >>= fun v =>
    match v with
    | .ptr b off s n => pure (.ptr b off s n, st)
    | _ => ub .oobRead
def incK (X : Ctx) (pre up : Bool) (st : St) (l : LVal) (u : Val) : C (Val × St) :=
  match u with
  | .ptr b off s n =>
    if up then
      if (off + 1) * n ≤ (st.mem b).data.length * (st.mem b).n then
        assign X st l (.ptr b (off + 1) s n) >>= fun r => pure (if pre then r.1 else u, r.2)
      else ub .oobRead
    else ub .oobRead
  | u => binOpV st.mem (if up then .add else .sub) u (.int true 4 1) >>= fun v =>
      assign X st l v >>= fun r => pure (if pre then r.1 else u, r.2)
def landK (X : Ctx) (b : Expr) (st : St) (c : Bool) : C (Val × St) :=
  if c then eval X b st >>= fun q => isTrue q.1 >>= fun d => pure (.int true 4 (truth d), q.2)
  else pure (.int true 4 0, st)
def lorK (X : Ctx) (b : Expr) (st : St) (c : Bool) : C (Val × St) :=
  if c then pure (.int true 4 1, st)
  else eval X b st >>= fun q => isTrue q.1 >>= fun d => pure (.int true 4 (truth d), q.2)
def elemK (st : St) (v w : Val) : C (LVal × St) :=
  match v, w with
  | .ptr b off s n, .int _ _ k => pure (.elem b off s n k, st)
  | _, _ => ub .oobRead
def atK (st : St) (v : Val) : C (LVal × St) :=
  match v with
  | .ptr b off s n => pure (.elem b off s n 0, st)
  | _ => ub .oobRead
def branchK (c : Bool) (x y : C α) : C α := emit (.branch c) >>= fun _ => if c then x else y

@[sem] theorem eval_num {s n v} : eval X (.num s n v) ⟨loc, m, nx⟩ = pure (.int s n v, ⟨loc, m, nx⟩) := rfl
@[sem] theorem eval_var {x} : eval X (.var x) ⟨loc, m, nx⟩ = getVar X ⟨loc, m, nx⟩ x >>= fun v => pure (v, ⟨loc, m, nx⟩) := rfl
@[sem] theorem eval_idx {a i} : eval X (.idx a i) ⟨loc, m, nx⟩ = eval X a ⟨loc, m, nx⟩ >>= fun r => eval X i r.2 >>= fun q =>
    idxK X q.2 r.1 q.1 := rfl
@[sem] theorem idxK_eq {b off s n s' n' k} : idxK X ⟨loc, m, nx⟩ (.ptr b off s n) (.int s' n' k) =
    load X.arch m b off s n k >>= fun v => pure (v, ⟨loc, m, nx⟩) := rfl
@[sem] theorem eval_deref {a} : eval X (.deref a) ⟨loc, m, nx⟩ = eval X a ⟨loc, m, nx⟩ >>= fun r => derefK X r.2 r.1 := rfl
@[sem] theorem derefK_eq {b off s n} : derefK X ⟨loc, m, nx⟩ (.ptr b off s n) =
    load X.arch m b off s n 0 >>= fun v => pure (v, ⟨loc, m, nx⟩) := rfl
@[sem] theorem eval_addr {a} : eval X (.addr a) ⟨loc, m, nx⟩ = lval X a ⟨loc, m, nx⟩ >>= fun l => addrK X l.2 l.1 := rfl
@[sem] theorem addrK_elem {b off s n k} : addrK X ⟨loc, m, nx⟩ (.elem b off s n k) =
    movePtr m b off s n k >>= fun p => pure (p, ⟨loc, m, nx⟩) := rfl
@[sem] theorem addrK_var {x} : addrK X ⟨loc, m, nx⟩ (.var x) = getVar X ⟨loc, m, nx⟩ x >>= fun v =>
    match v with
    | .ptr b off s n => pure (.ptr b off s n, ⟨loc, m, nx⟩)
    | _ => ub .oobRead := rfl
@[sem] theorem eval_un {o a} : eval X (.un o a) ⟨loc, m, nx⟩ = eval X a ⟨loc, m, nx⟩ >>= fun r => unOpV o r.1 >>= fun v =>
    pure (v, r.2) := rfl
@[sem] theorem eval_bin {o a b} : eval X (.bin o a b) ⟨loc, m, nx⟩ = eval X a ⟨loc, m, nx⟩ >>= fun r => eval X b r.2 >>= fun q =>
    binOpV q.2.mem o r.1 q.1 >>= fun v => pure (v, q.2) := rfl
@[sem] theorem eval_cond {c a b} : eval X (.cond c a b) ⟨loc, m, nx⟩ = eval X c ⟨loc, m, nx⟩ >>= fun r => isTrue r.1 >>= fun t =>
    branchK t (eval X a r.2) (eval X b r.2) := rfl
@[sem] theorem eval_cast {t a} : eval X (.cast t a) ⟨loc, m, nx⟩ = eval X a ⟨loc, m, nx⟩ >>= fun r => convert t r.1 >>= fun v =>
    pure (v, r.2) := rfl
@[sem] theorem eval_sizeof {s n} : eval X (.sizeof (.int s n)) ⟨loc, m, nx⟩ = pure (.int false 8 n, ⟨loc, m, nx⟩) := rfl
@[sem] theorem eval_asg {l e} : eval X (.asg l e) ⟨loc, m, nx⟩ = eval X e ⟨loc, m, nx⟩ >>= fun r => lval X l r.2 >>= fun q =>
    assign X q.2 q.1 r.1 := rfl
@[sem] theorem eval_asgOp {o l e} : eval X (.asgOp o l e) ⟨loc, m, nx⟩ = lval X l ⟨loc, m, nx⟩ >>= fun q => readL X q.2 q.1 >>= fun u =>
    eval X e q.2 >>= fun r => binOpV r.2.mem o u r.1 >>= fun v => assign X r.2 q.1 v := rfl
@[sem] theorem eval_inc {pre up l} : eval X (.inc pre up l) ⟨loc, m, nx⟩ = lval X l ⟨loc, m, nx⟩ >>= fun q =>
    readL X q.2 q.1 >>= fun u => incK X pre up q.2 q.1 u := by
  simp only [eval]
  congr 1
@[sem] theorem incK_ptr {pre l b off s n} : incK X pre true ⟨loc, m, nx⟩ l (.ptr b off s n) =
    if (off + 1) * n ≤ (m b).data.length * (m b).n then
      assign X ⟨loc, m, nx⟩ l (.ptr b (off + 1) s n) >>= fun r => pure (if pre then r.1 else .ptr b off s n, r.2)
    else ub .oobRead := rfl
@[sem] theorem incK_up {pre l s n k} : incK X pre true ⟨loc, m, nx⟩ l (.int s n k) =
    binOpV m .add (.int s n k) (.int true 4 1) >>= fun v => assign X ⟨loc, m, nx⟩ l v >>= fun r =>
      pure (if pre then r.1 else .int s n k, r.2) := rfl
@[sem] theorem incK_down {pre l s n k} : incK X pre false ⟨loc, m, nx⟩ l (.int s n k) =
    binOpV m .sub (.int s n k) (.int true 4 1) >>= fun v => assign X ⟨loc, m, nx⟩ l v >>= fun r =>
      pure (if pre then r.1 else .int s n k, r.2) := rfl
@[sem] theorem eval_call {f args} : eval X (.call f args) ⟨loc, m, nx⟩ = evalList X args ⟨loc, m, nx⟩ >>= fun r =>
    X.call f r.1 r.2.mem r.2.next >>= fun q => pure (q.1, ⟨r.2.loc, q.2.1, q.2.2⟩) := rfl
@[sem] theorem evalList_nil : evalList X [] ⟨loc, m, nx⟩ = pure ([], ⟨loc, m, nx⟩) := rfl
@[sem] theorem evalList_cons {e es} : evalList X (e :: es) ⟨loc, m, nx⟩ = eval X e ⟨loc, m, nx⟩ >>= fun r =>
    evalList X es r.2 >>= fun q => pure (r.1 :: q.1, q.2) := rfl
@[sem] theorem eval_land {a b} : eval X (.land a b) ⟨loc, m, nx⟩ = eval X a ⟨loc, m, nx⟩ >>= fun r => isTrue r.1 >>= fun c =>
    landK X b r.2 c := rfl
@[sem] theorem landK_eq {b c} : landK X b ⟨loc, m, nx⟩ c =
    if c then eval X b ⟨loc, m, nx⟩ >>= fun q => isTrue q.1 >>= fun d => pure (.int true 4 (truth d), q.2)
    else pure (.int true 4 0, ⟨loc, m, nx⟩) := rfl
@[sem] theorem eval_lor {a b} : eval X (.lor a b) ⟨loc, m, nx⟩ = eval X a ⟨loc, m, nx⟩ >>= fun r => isTrue r.1 >>= fun c =>
    lorK X b r.2 c := rfl
@[sem] theorem lorK_eq {b c} : lorK X b ⟨loc, m, nx⟩ c =
    if c then pure (.int true 4 1, ⟨loc, m, nx⟩)
    else eval X b ⟨loc, m, nx⟩ >>= fun q => isTrue q.1 >>= fun d => pure (.int true 4 (truth d), q.2) := rfl
@[sem] theorem ite_land {c d : Bool} {st : St} :
    (if c = true then (pure (.int true 4 (truth d), st) : C (Val × St)) else pure (.int true 4 0, st)) =
      pure (.int true 4 (truth (c && d)), st) := by cases c <;> rfl
@[sem] theorem ite_lor {c d : Bool} {st : St} :
    (if c = true then (pure (.int true 4 1, st) : C (Val × St)) else pure (.int true 4 (truth d), st)) =
      pure (.int true 4 (truth (c || d)), st) := by cases c <;> rfl
@[sem] theorem lval_var {x} : lval X (.var x) ⟨loc, m, nx⟩ = pure (.var x, ⟨loc, m, nx⟩) := rfl
@[sem] theorem lval_idx {a i} : lval X (.idx a i) ⟨loc, m, nx⟩ = eval X a ⟨loc, m, nx⟩ >>= fun r => eval X i r.2 >>= fun q =>
    elemK q.2 r.1 q.1 := rfl
@[sem] theorem elemK_eq {b off s n s' n' k} : elemK ⟨loc, m, nx⟩ (.ptr b off s n) (.int s' n' k) =
    pure (.elem b off s n k, ⟨loc, m, nx⟩) := rfl
@[sem] theorem lval_deref {a} : lval X (.deref a) ⟨loc, m, nx⟩ = eval X a ⟨loc, m, nx⟩ >>= fun r => atK r.2 r.1 := rfl
@[sem] theorem atK_eq {b off s n} : atK ⟨loc, m, nx⟩ (.ptr b off s n) = pure (.elem b off s n 0, ⟨loc, m, nx⟩) := rfl
@[sem] theorem readL_var {x} : readL X ⟨loc, m, nx⟩ (.var x) = getVar X ⟨loc, m, nx⟩ x := rfl
@[sem] theorem readL_elem {b off s n k} : readL X ⟨loc, m, nx⟩ (.elem b off s n k) = load X.arch m b off s n k := rfl
@[sem] theorem isTrue_int {s n v} : isTrue (.int s n v) = pure (decide (v ≠ 0)) := rfl
@[sem] theorem truth_ne {b : Bool} : decide (truth b ≠ 0) = b := by cases b <;> rfl

/-! Variables. -/

/-- A variable with a value can be used. -/
def valueK (X : Ctx) (m : Mem) (x : String) (o : Option Val) : C Val :=
  match o with
  | some (.int s n v) => pure (.int s n v)
  | some (.ptr b off s n) => pure (.ptr b off s n)
  | some (.undef _) => ub .oobRead
  | none => readStatic m (X.glob ("&" ++ x))
/-- A local variable hides a global one. -/
def hideK (o p : Option Val) : Option Val := o.or p
def setK (X : Ctx) (x : String) (st : St) (s' : Bool) (n' : Nat) (w : Int) (o : Option Val) : C (Val × St) :=
  match o with
  | some (.int s n _) | some (.undef (.int s n)) =>
    pure (.int s n (wrap s n w), { st with loc := setVar x (.int s n (wrap s n w)) st.loc })
  | some _ => ub .oobWrite
  | none => writeStatic st (X.glob ("&" ++ x)) (.int s' n' w)
def setPtrK (X : Ctx) (x : String) (st : St) (p : Val) (o : Option Val) : C (Val × St) :=
  match o with
  | some (.ptr ..) | some (.undef (.ptr _)) => pure (p, { st with loc := setVar x p st.loc })
  | some _ => ub .oobWrite
  | none => writeStatic st (X.glob ("&" ++ x)) p

@[sem] theorem getVar_eq {x} : getVar X ⟨loc, m, nx⟩ x = valueK X m x (hideK (findVar x loc) (X.glob x)) := rfl
@[sem] theorem hideK_some {v p} : hideK (some v) p = some v := rfl
@[sem] theorem hideK_none {p} : hideK none p = p := rfl
@[sem] theorem valueK_int {x s n v} : valueK X m x (some (.int s n v)) = pure (.int s n v) := rfl
@[sem] theorem valueK_ptr {x b off s n} : valueK X m x (some (.ptr b off s n)) = pure (.ptr b off s n) := rfl
@[sem] theorem findVar_cons {x y v} : findVar x ((y, v) :: loc) = if y = x then some v else findVar x loc := rfl
@[sem] theorem findVar_nil {x} : findVar x [] = none := rfl
@[sem] theorem setVar_cons {x y v w} : setVar x v ((y, w) :: loc) = if y = x then (y, v) :: loc else (y, w) :: setVar x v loc := rfl
@[sem] theorem assign_var {x s n w} : assign X ⟨loc, m, nx⟩ (.var x) (.int s n w) = setK X x ⟨loc, m, nx⟩ s n w (findVar x loc) := rfl
@[sem] theorem setK_int {x w s n v s' n'} : setK X x ⟨loc, m, nx⟩ s' n' w (some (.int s n v)) =
    pure (.int s n (wrap s n w), ⟨setVar x (.int s n (wrap s n w)) loc, m, nx⟩) := rfl
@[sem] theorem setK_undef {x w s n s' n'} : setK X x ⟨loc, m, nx⟩ s' n' w (some (.undef (.int s n))) =
    pure (.int s n (wrap s n w), ⟨setVar x (.int s n (wrap s n w)) loc, m, nx⟩) := rfl
@[sem] theorem assign_ptr {x b off s n} : assign X ⟨loc, m, nx⟩ (.var x) (.ptr b off s n) =
    setPtrK X x ⟨loc, m, nx⟩ (.ptr b off s n) (findVar x loc) := rfl
@[sem] theorem setPtrK_ptr {x p b off s n} : setPtrK X x ⟨loc, m, nx⟩ p (some (.ptr b off s n)) =
    pure (p, ⟨setVar x p loc, m, nx⟩) := rfl
@[sem] theorem setPtrK_undef {x p t} : setPtrK X x ⟨loc, m, nx⟩ p (some (.undef (.ptr t))) =
    pure (p, ⟨setVar x p loc, m, nx⟩) := rfl
@[sem] theorem assign_elem {b off s n k s' n' w} : assign X ⟨loc, m, nx⟩ (.elem b off s n k) (.int s' n' w) =
    store X.arch m b off n k (wrap s n w) >>= fun m => pure (.int s n (wrap s n w), ⟨loc, m, nx⟩) := rfl

/-! Statements. -/

/-- A loop whose body is not evaluated further by `sem`. -/
def loopW (X : Ctx) (c : Expr) (s : Stmt) (st : St) : C (St × Flow) := loop (round X c pure (exec X s)) st
/-- A `for` loop after its initialisation. -/
def loopF (X : Ctx) (c step : Expr) (s : Stmt) (st : St) : C (St × Flow) :=
  loop (round X c (fun st => eval X step st >>= fun r => pure r.2) (exec X s)) st
def seqK (X : Ctx) (b : Stmt) (r : St × Flow) : C (St × Flow) :=
  match r.2 with
  | .next => exec X b r.1
  | f => pure (r.1, f)
def arrK (X : Ctx) (s : Bool) (n : Nat) (x : String) (init : Option (List Expr)) (st : St) (v : Val) : C (St × Flow) :=
  match v with
  | .int _ _ k => pure ({ loc := (x, .ptr st.next 0 s n) :: st.loc
                          mem := st.mem.set st.next ⟨s, n, newArr X x s n k.toNat init⟩
                          next := st.next + 1 }, .next)
  | _ => ub .oobRead
def roundK (X : Ctx) (step : Option Expr) (q : St × Flow) : C (Option Flow × St) :=
  match q.2 with
  | .next =>
    match step with
    | some e => eval X e q.1 >>= fun r => pure (none, r.2)
    | none => pure (none, q.1)
  | .brk => emit (.branch false) >>= fun _ => pure (some .next, q.1)
  | .ret v => pure (some (.ret v), q.1)
/-- One round of a loop. -/
def roundS (X : Ctx) (c : Expr) (step : Option Expr) (s : Stmt) (st : St) : C (Option Flow × St) :=
  eval X c st >>= fun r => isTrue r.1 >>= fun t => branchK t (exec X s r.2 >>= roundK X step) (pure (some .next, r.2))
def retK (t : Ty) (r : St × Flow) : C (Val × Mem × Nat) :=
  match r.2 with
  | .ret v =>
    match t with
    | .void => pure (.undef .void, r.1.mem, r.1.next)
    | t => convert t v >>= fun v => pure (v, r.1.mem, r.1.next)
  | _ => pure (.undef .void, r.1.mem, r.1.next)

theorem loopW_eq {c s} {st : St} : loopW X c s st = loop (roundS X c none s) st := by
  unfold loopW
  congr 1
theorem loopF_eq {c s e} {st : St} : loopF X c e s st = loop (roundS X c (some e) s) st := by
  unfold loopF
  congr 1
  funext st
  simp only [round, roundS, branchK]
  congr 1; funext r; congr 1; funext t; congr 1; funext _
  split
  · congr 1
    funext q
    simp only [roundK]
    cases q.2 <;> simp only [bind_assoc, pure_bind]
  · rfl

@[sem] theorem exec_skip : exec X .skip ⟨loc, m, nx⟩ = pure (⟨loc, m, nx⟩, .next) := rfl
@[sem] theorem exec_expr {e} : exec X (.expr e) ⟨loc, m, nx⟩ = eval X e ⟨loc, m, nx⟩ >>= fun r => pure (r.2, .next) := rfl
@[sem] theorem exec_decl_none {t x} : exec X (.decl t x none) ⟨loc, m, nx⟩ = pure (⟨(x, .undef t) :: loc, m, nx⟩, .next) := rfl
@[sem] theorem exec_decl {t x e} : exec X (.decl t x (some e)) ⟨loc, m, nx⟩ = eval X e ⟨loc, m, nx⟩ >>= fun r =>
    convert t r.1 >>= fun v => pure (⟨(x, v) :: r.2.loc, r.2.mem, r.2.next⟩, .next) := rfl
@[sem] theorem exec_declArr {s n x len init} : exec X (.declArr s n x len init) ⟨loc, m, nx⟩ =
    eval X len ⟨loc, m, nx⟩ >>= fun r => arrK X s n x init r.2 r.1 := rfl
@[sem] theorem arrK_eq {s n x init s' n' k} : arrK X s n x init ⟨loc, m, nx⟩ (.int s' n' k) =
    pure (⟨(x, .ptr nx 0 s n) :: loc, m.set nx ⟨s, n, newArr X x s n k.toNat init⟩, nx + 1⟩, .next) := rfl
@[sem] theorem exec_seq {a b} : exec X (.seq a b) ⟨loc, m, nx⟩ = exec X a ⟨loc, m, nx⟩ >>= fun r => seqK X b r := rfl
@[sem] theorem seqK_next {b} {st : St} : seqK X b (st, .next) = exec X b st := rfl
@[sem] theorem seqK_brk {b} {st : St} : seqK X b (st, .brk) = pure (st, .brk) := rfl
@[sem] theorem seqK_ret {b v} {st : St} : seqK X b (st, .ret v) = pure (st, .ret v) := rfl
@[sem] theorem exec_block {s} : exec X (.block s) ⟨loc, m, nx⟩ = exec X s ⟨loc, m, nx⟩ >>= fun r =>
    pure (leave loc.length r.1, r.2) := rfl
@[sem] theorem exec_ite {c a b} : exec X (.ite c a b) ⟨loc, m, nx⟩ = eval X c ⟨loc, m, nx⟩ >>= fun r => isTrue r.1 >>= fun t =>
    branchK t (exec X a r.2) (exec X b r.2) := rfl
@[sem] theorem exec_while {c s} : exec X (.while c s) ⟨loc, m, nx⟩ = loopW X c s ⟨loc, m, nx⟩ := rfl
@[sem] theorem exec_for {i c step s} : exec X (.for i c step s) ⟨loc, m, nx⟩ = exec X i ⟨loc, m, nx⟩ >>= fun r =>
    loopF X c step s r.1 >>= fun q => pure (leave loc.length q.1, q.2) := rfl
@[sem] theorem exec_brk : exec X .brk ⟨loc, m, nx⟩ = pure (⟨loc, m, nx⟩, .brk) := rfl
@[sem] theorem exec_ret_none : exec X (.ret none) ⟨loc, m, nx⟩ = pure (⟨loc, m, nx⟩, .ret (.undef .void)) := rfl
@[sem] theorem exec_ret {e} : exec X (.ret (some e)) ⟨loc, m, nx⟩ = eval X e ⟨loc, m, nx⟩ >>= fun r => pure (r.2, .ret r.1) := rfl
@[sem] theorem leave_eq {k} : leave k ⟨loc, m, nx⟩ = ⟨loc.drop (loc.length - k), m, nx⟩ := rfl
@[sem] theorem roundS_eq {c step s} : roundS X c step s ⟨loc, m, nx⟩ = eval X c ⟨loc, m, nx⟩ >>= fun r =>
    isTrue r.1 >>= fun t => branchK t (exec X s r.2 >>= roundK X step) (pure (some .next, r.2)) := rfl
@[sem] theorem roundK_for {e} : roundK X (some e) (⟨loc, m, nx⟩, .next) = eval X e ⟨loc, m, nx⟩ >>= fun r => pure (none, r.2) := rfl
@[sem] theorem roundK_while {st : St} : roundK X none (st, .next) = pure (none, st) := rfl
@[sem] theorem roundK_brk {step} {st : St} : roundK X step (st, .brk) = emit (.branch false) >>= fun _ => pure (some .next, st) := rfl
@[sem] theorem roundK_ret {step v} {st : St} : roundK X step (st, .ret v) = pure (some (.ret v), st) := rfl

@[sem] theorem callFun_eq {n r ps b args m nx} : callFun X ⟨n, r, ps, b⟩ args m nx = bindParams ps args >>= fun ps =>
    exec X b ⟨ps, m, nx⟩ >>= fun q => retK r q := rfl
@[sem] theorem bindParams_cons {t x ps v vs} : bindParams ((t, x) :: ps) (v :: vs) = convert t v >>= fun w =>
    bindParams ps vs >>= fun l => pure ((x, w) :: l) := rfl
@[sem] theorem bindParams_nil : bindParams [] [] = pure [] := rfl
@[sem] theorem retK_next {t st} : retK t (st, .next) = pure (.undef .void, st.mem, st.next) := rfl
@[sem] theorem retK_void {v st} : retK .void (st, .ret v) = pure (.undef .void, st.mem, st.next) := rfl
@[sem] theorem retK_int {s n v st} : retK (.int s n) (st, .ret v) = convert (.int s n) v >>= fun v =>
    pure (v, st.mem, st.next) := rfl
@[sem] theorem convert_int {s n s' n' v} : convert (.int s n) (.int s' n' v) = pure (.int s n (wrap s n v)) := rfl
@[sem] theorem convert_same {s n b off s'} : convert (.ptr (.int s n)) (.ptr b off s' n) = pure (.ptr b off s n) := by
  simp [convert]
theorem convert_ptr {s n b off s' n'} (h : n ≠ n') : convert (.ptr (.int s n)) (.ptr b off s' n') =
    if off * n' % n = 0 then pure (.ptr b (off * n' / n) s n) else ub .misaligned := by
  simp [convert, h]
@[sem] theorem convert_void {b off s n} : convert (.ptr .void) (.ptr b off s n) = pure (.ptr b off s n) := rfl

attribute [sem] List.length_cons List.length_nil List.drop_zero List.drop_succ_cons Nat.sub_self

/-! Numbers. -/

def bitAnd (s : Bool) (n : Nat) (a b : Int) : Int := ofBits s (BitVec.ofInt (8 * n) a &&& BitVec.ofInt (8 * n) b)
def bitOr (s : Bool) (n : Nat) (a b : Int) : Int := ofBits s (BitVec.ofInt (8 * n) a ||| BitVec.ofInt (8 * n) b)
def bitXor (s : Bool) (n : Nat) (a b : Int) : Int := ofBits s (BitVec.ofInt (8 * n) a ^^^ BitVec.ofInt (8 * n) b)
def bitNot (s : Bool) (n : Nat) (a : Int) : Int := ofBits s (~~~ BitVec.ofInt (8 * n) a)

@[sem] theorem binOp_add {m : Mem} {s n a s' n' b} : binOpV m .add (.int s n a) (.int s' n' b) =
    arith (usual (s, n) (s', n')).1 (usual (s, n) (s', n')).2 (wrap (usual (s, n) (s', n')).1 (usual (s, n) (s', n')).2 a +
      wrap (usual (s, n) (s', n')).1 (usual (s, n) (s', n')).2 b) >>= fun x =>
    pure (.int (usual (s, n) (s', n')).1 (usual (s, n) (s', n')).2 x) := rfl
@[sem] theorem binOp_sub {m : Mem} {s n a s' n' b} : binOpV m .sub (.int s n a) (.int s' n' b) =
    arith (usual (s, n) (s', n')).1 (usual (s, n) (s', n')).2 (wrap (usual (s, n) (s', n')).1 (usual (s, n) (s', n')).2 a -
      wrap (usual (s, n) (s', n')).1 (usual (s, n) (s', n')).2 b) >>= fun x =>
    pure (.int (usual (s, n) (s', n')).1 (usual (s, n) (s', n')).2 x) := rfl
@[sem] theorem binOp_mul {m : Mem} {s n a s' n' b} : binOpV m .mul (.int s n a) (.int s' n' b) =
    arith (usual (s, n) (s', n')).1 (usual (s, n) (s', n')).2 (wrap (usual (s, n) (s', n')).1 (usual (s, n) (s', n')).2 a *
      wrap (usual (s, n) (s', n')).1 (usual (s, n) (s', n')).2 b) >>= fun x =>
    pure (.int (usual (s, n) (s', n')).1 (usual (s, n) (s', n')).2 x) := rfl
@[sem] theorem binOp_div {m : Mem} {s n a s' n' b} : binOpV m .div (.int s n a) (.int s' n' b) =
    numOp .div (usual (s, n) (s', n')).1 (usual (s, n) (s', n')).2 (wrap (usual (s, n) (s', n')).1 (usual (s, n) (s', n')).2 a)
      (wrap (usual (s, n) (s', n')).1 (usual (s, n) (s', n')).2 b) := rfl
@[sem] theorem binOp_and {m : Mem} {s n a s' n' b} : binOpV m .and (.int s n a) (.int s' n' b) =
    pure (.int (usual (s, n) (s', n')).1 (usual (s, n) (s', n')).2 (bitAnd (usual (s, n) (s', n')).1 (usual (s, n) (s', n')).2
      (wrap (usual (s, n) (s', n')).1 (usual (s, n) (s', n')).2 a) (wrap (usual (s, n) (s', n')).1 (usual (s, n) (s', n')).2 b))) := rfl
@[sem] theorem binOp_or {m : Mem} {s n a s' n' b} : binOpV m .or (.int s n a) (.int s' n' b) =
    pure (.int (usual (s, n) (s', n')).1 (usual (s, n) (s', n')).2 (bitOr (usual (s, n) (s', n')).1 (usual (s, n) (s', n')).2
      (wrap (usual (s, n) (s', n')).1 (usual (s, n) (s', n')).2 a) (wrap (usual (s, n) (s', n')).1 (usual (s, n) (s', n')).2 b))) := rfl
@[sem] theorem binOp_xor {m : Mem} {s n a s' n' b} : binOpV m .xor (.int s n a) (.int s' n' b) =
    pure (.int (usual (s, n) (s', n')).1 (usual (s, n) (s', n')).2 (bitXor (usual (s, n) (s', n')).1 (usual (s, n) (s', n')).2
      (wrap (usual (s, n) (s', n')).1 (usual (s, n) (s', n')).2 a) (wrap (usual (s, n) (s', n')).1 (usual (s, n) (s', n')).2 b))) := rfl
@[sem] theorem binOp_lt {m : Mem} {s n a s' n' b} : binOpV m .lt (.int s n a) (.int s' n' b) =
    pure (.int true 4 (truth (decide (wrap (usual (s, n) (s', n')).1 (usual (s, n) (s', n')).2 a <
      wrap (usual (s, n) (s', n')).1 (usual (s, n) (s', n')).2 b)))) := rfl
@[sem] theorem binOp_gt {m : Mem} {s n a s' n' b} : binOpV m .gt (.int s n a) (.int s' n' b) =
    pure (.int true 4 (truth (decide (wrap (usual (s, n) (s', n')).1 (usual (s, n) (s', n')).2 b <
      wrap (usual (s, n) (s', n')).1 (usual (s, n) (s', n')).2 a)))) := rfl
@[sem] theorem binOp_le {m : Mem} {s n a s' n' b} : binOpV m .le (.int s n a) (.int s' n' b) =
    pure (.int true 4 (truth (decide (wrap (usual (s, n) (s', n')).1 (usual (s, n) (s', n')).2 a ≤
      wrap (usual (s, n) (s', n')).1 (usual (s, n) (s', n')).2 b)))) := rfl
@[sem] theorem binOp_ge {m : Mem} {s n a s' n' b} : binOpV m .ge (.int s n a) (.int s' n' b) =
    pure (.int true 4 (truth (decide (wrap (usual (s, n) (s', n')).1 (usual (s, n) (s', n')).2 b ≤
      wrap (usual (s, n) (s', n')).1 (usual (s, n) (s', n')).2 a)))) := rfl
@[sem] theorem binOp_eq {m : Mem} {s n a s' n' b} : binOpV m .eq (.int s n a) (.int s' n' b) =
    pure (.int true 4 (truth (decide (wrap (usual (s, n) (s', n')).1 (usual (s, n) (s', n')).2 a =
      wrap (usual (s, n) (s', n')).1 (usual (s, n) (s', n')).2 b)))) := rfl
@[sem] theorem binOp_ne {m : Mem} {s n a s' n' b} : binOpV m .ne (.int s n a) (.int s' n' b) =
    pure (.int true 4 (truth (decide (wrap (usual (s, n) (s', n')).1 (usual (s, n) (s', n')).2 a ≠
      wrap (usual (s, n) (s', n')).1 (usual (s, n) (s', n')).2 b)))) := rfl
@[sem] theorem binOp_shl {m : Mem} {s n a s' n' b} : binOpV m .shl (.int s n a) (.int s' n' b) =
    shlOp (promote (s, n)).1 (promote (s, n)).2 (wrap (promote (s, n)).1 (promote (s, n)).2 a) b >>= fun v =>
      pure (.int (promote (s, n)).1 (promote (s, n)).2 v) := rfl
@[sem] theorem binOp_shr {m : Mem} {s n a s' n' b} : binOpV m .shr (.int s n a) (.int s' n' b) =
    shrOp (promote (s, n)).1 (promote (s, n)).2 (wrap (promote (s, n)).1 (promote (s, n)).2 a) b >>= fun v =>
      pure (.int (promote (s, n)).1 (promote (s, n)).2 v) := rfl
@[sem] theorem binOp_ptr {m : Mem} {b off s n s' n' k} : binOpV m .add (.ptr b off s n) (.int s' n' k) =
    movePtr m b off s n k := rfl
@[sem] theorem unOp_neg {s n a} : unOpV .neg (.int s n a) =
    arith (promote (s, n)).1 (promote (s, n)).2 (-(wrap (promote (s, n)).1 (promote (s, n)).2 a)) >>= fun v =>
      pure (.int (promote (s, n)).1 (promote (s, n)).2 v) := rfl
@[sem] theorem unOp_bnot {s n a} : unOpV .bnot (.int s n a) = pure (.int (promote (s, n)).1 (promote (s, n)).2
    (bitNot (promote (s, n)).1 (promote (s, n)).2 (wrap (promote (s, n)).1 (promote (s, n)).2 a))) := rfl
@[sem] theorem unOp_lnot {s n a} : unOpV .lnot (.int s n a) = pure (.int true 4 (truth (decide (a = 0)))) := rfl

attribute [sem] usual promote Bool.and_true Bool.and_false Bool.true_and Bool.false_and Bool.and_self

@[sem] theorem arith_int {x} : arith true 4 x = Frodo.int x := rfl
@[sem] theorem arith_unsigned {n x} : arith false n x = pure (x % 2 ^ (8 * n)) := rfl
@[sem] theorem shlOp_int {a k} : shlOp true 4 a k = ishl a k := rfl
@[sem] theorem shrOp_int {a k} : shrOp true 4 a k = ishr a k := rfl
@[sem] theorem and_int {a b} : bitAnd true 4 a b = iand a b := rfl
@[sem] theorem or_int {a b} : bitOr true 4 a b = ior a b := rfl
@[sem] theorem xor_int {a b} : bitXor true 4 a b = ixor a b := rfl
@[sem] theorem not_int {a} : bitNot true 4 a = inot a := rfl

/-- The numbers that bytes and words are. -/
@[sem] theorem wrap_u8 {v} : wrap false 1 v = ((u8 v).toNat : Int) := by
  simp [wrap, u8, BitVec.toNat_ofInt]
  omega
@[sem] theorem wrap_u16 {v} : wrap false 2 v = ((u16 v).toNat : Int) := by
  simp [wrap, u16, BitVec.toNat_ofInt]
  omega
@[sem] theorem wrap_i8 {v} : wrap true 1 v = i8 v := by simp [wrap, i8]
@[sem] theorem wrap_i16 {v} : wrap true 2 v = i16 v := by simp [wrap, i16]
@[sem] theorem u8_toNat {x : U8} : u8 (x.toNat : Int) = x := by simp [u8]
@[sem] theorem u16_toNat {x : U16} : u16 (x.toNat : Int) = x := by simp [u16]

theorem toNat_u8 {v : Int} (h0 : 0 ≤ v) (h1 : v < 256) : ((u8 v).toNat : Int) = v := by
  rw [← wrap_u8]
  simp only [wrap]
  exact Int.emod_eq_of_lt h0 h1
theorem toNat_u16 {v : Int} (h0 : 0 ≤ v) (h1 : v < 65536) : ((u16 v).toNat : Int) = v := by
  rw [← wrap_u16]
  simp only [wrap]
  exact Int.emod_eq_of_lt h0 h1
theorem wrap_int {v : Int} (h0 : -2147483648 ≤ v) (h1 : v ≤ 2147483647) : wrap true 4 v = v := by
  simp [wrap]
  rw [Int.bmod_eq_of_le] <;> omega
theorem wrap_unsigned {n : Nat} {v : Int} (h0 : 0 ≤ v) (h1 : v < 2 ^ (8 * n)) : wrap false n v = v := by
  simp only [wrap]
  exact Int.emod_eq_of_lt h0 h1
@[sem] theorem wrap_int_u8 {x : U8} : wrap true 4 (x.toNat : Int) = x.toNat := wrap_int (by omega) (by omega)
@[sem] theorem wrap_int_u16 {x : U16} : wrap true 4 (x.toNat : Int) = x.toNat := wrap_int (by omega) (by omega)
@[sem] theorem wrap_int_i8 {v : Int} : wrap true 4 (i8 v) = i8 v := by
  have := BitVec.toInt_lt (x := BitVec.ofInt 8 v)
  have := BitVec.le_toInt (x := BitVec.ofInt 8 v)
  unfold i8
  exact wrap_int (by omega) (by omega)
@[sem] theorem wrap_int_i16 {v : Int} : wrap true 4 (i16 v) = i16 v := by
  have := BitVec.toInt_lt (x := BitVec.ofInt 16 v)
  have := BitVec.le_toInt (x := BitVec.ofInt 16 v)
  unfold i16
  exact wrap_int (by omega) (by omega)
@[sem] theorem i8_i8 {v : Int} : i8 (i8 v) = i8 v := by simp [i8]
@[sem] theorem i16_i16 {v : Int} : i16 (i16 v) = i16 v := by simp [i16]
theorem u16_toInt (x : BitVec 32) : u16 x.toInt = x.setWidth 16 := BitVec.signExtend_eq_setWidth_of_le x (by omega)
theorem u8_toInt (x : BitVec 32) : u8 x.toInt = x.setWidth 8 := BitVec.signExtend_eq_setWidth_of_le x (by omega)
theorem setWidth_ofInt {v w : Nat} (h : w ≤ v) (a : Int) : (BitVec.ofInt v a).setWidth w = BitVec.ofInt w a := by
  apply BitVec.eq_of_toNat_eq
  rw [BitVec.toNat_setWidth, BitVec.toNat_ofInt, BitVec.toNat_ofInt]
  have e : (2 : Int) ^ w ∣ 2 ^ v := ⟨2 ^ (v - w), by rw [← Int.pow_add]; congr 1; omega⟩
  have h1 : 0 ≤ a % (2 ^ v : Nat) := Int.emod_nonneg _ (by have := Nat.two_pow_pos v; omega)
  have h2 : 0 ≤ a % (2 ^ w : Nat) := Int.emod_nonneg _ (by have := Nat.two_pow_pos w; omega)
  apply Int.ofNat_inj.1
  rw [Int.natCast_emod, Int.toNat_of_nonneg h1, Int.toNat_of_nonneg h2]
  push_cast
  exact Int.emod_emod_of_dvd a e
theorem u16_ior {a b : Int} : u16 (ior a b) = u16 a ||| u16 b := by
  rw [ior, u16_toInt, BitVec.setWidth_or, setWidth_ofInt (by omega), setWidth_ofInt (by omega)]
  rfl
theorem u16_iand {a b : Int} : u16 (iand a b) = u16 a &&& u16 b := by
  rw [iand, u16_toInt, BitVec.setWidth_and, setWidth_ofInt (by omega), setWidth_ofInt (by omega)]
  rfl
theorem u16_ixor {a b : Int} : u16 (ixor a b) = u16 a ^^^ u16 b := by
  rw [ixor, u16_toInt, BitVec.setWidth_xor, setWidth_ofInt (by omega), setWidth_ofInt (by omega)]
  rfl
theorem wrap_int_bv {x : BitVec 32} : wrap true 4 x.toInt = x.toInt := by
  have := BitVec.toInt_lt (x := x)
  have := BitVec.le_toInt (x := x)
  exact wrap_int (by omega) (by omega)
@[sem] theorem wrap_int_iand {a b} : wrap true 4 (iand a b) = iand a b := wrap_int_bv
@[sem] theorem wrap_int_ior {a b} : wrap true 4 (ior a b) = ior a b := wrap_int_bv
@[sem] theorem wrap_int_ixor {a b} : wrap true 4 (ixor a b) = ixor a b := wrap_int_bv
@[sem] theorem wrap_int_inot {a} : wrap true 4 (inot a) = inot a := wrap_int_bv

theorem wrap_size {v : Int} (h0 : 0 ≤ v) (h1 : v < 18446744073709551616) : wrap false 8 v = v :=
  wrap_unsigned (n := 8) h0 h1
theorem wrap_uint {v : Int} (h0 : 0 ≤ v) (h1 : v < 4294967296) : wrap false 4 v = v := wrap_unsigned (n := 4) h0 h1

attribute [sem] if_true if_false Bool.false_eq_true

/-! Memory. -/

@[sem] theorem set_same (m : Mem) (b : Nat) (x : Blk) : (m.set b x) b = x := by simp [Mem.set]
theorem set_ne (m : Mem) {b c : Nat} (x : Blk) (h : c ≠ b) : (m.set b x) c = m c := by simp [Mem.set, h]
@[sem] theorem set_set (m : Mem) (b : Nat) (x y : Blk) : (m.set b x).set b y = m.set b y := by
  funext c
  by_cases h : c = b <;> simp [Mem.set, h]
theorem set_self (m : Mem) {b : Nat} {x : Blk} (h : m b = x) : m.set b x = m := by
  funext c
  by_cases h' : c = b <;> simp [Mem.set, h', h]

/-- Reading from a block. -/
def loadB (a : Arch) (x : Blk) (off : Nat) (s : Bool) (n : Nat) (k : Int) : C Val :=
  if k < 0 then ub .oobRead
  else if x.n = n then do
    let v ← rd (x.data.drop off) k.toNat
    pure (.int s n (if x.s = s then v else wrap s n v))
  else if ((off + k.toNat + 1) * n ≤ (x.bytes a).length) then do
    emit (.read k.toNat)
    pure (.int s n (wrap s n (joinBytes a (((x.bytes a).drop ((off + k.toNat) * n)).take n))))
  else ub .oobRead
@[sem] theorem load_eq {a : Arch} {m : Mem} {b off s n k} : load a m b off s n k = loadB a (m b) off s n k := rfl
@[sem] theorem loadB_same {a : Arch} {d : List Int} {off s n} {k : Nat} :
    loadB a ⟨s, n, d⟩ off s n (k : Int) = rd (d.drop off) k >>= fun v => pure (.int s n v) := by
  have : ¬ (k : Int) < 0 := by omega
  simp [loadB, this]
@[sem] theorem loadB_ofNat {a : Arch} {d : List Int} {off s n} {k : Nat} :
    loadB a ⟨s, n, d⟩ off s n (no_index (OfNat.ofNat k) : Int) = rd (d.drop off) (OfNat.ofNat k) >>= fun v => pure (.int s n v) :=
  loadB_same (k := k)

/-- Writing to a block. -/
def storeB (a : Arch) (x : Blk) (off n : Nat) (k v : Int) : C Blk :=
  if k < 0 then ub .oobWrite
  else if x.n = n then do
    let l ← wr (x.data.drop off) k.toNat (wrap x.s n v)
    pure { x with data := x.data.take off ++ l }
  else if ((off + k.toNat + 1) * n ≤ (x.bytes a).length) then do
    emit (.write k.toNat)
    let l := x.bytes a
    pure (x.setBytes a (l.take ((off + k.toNat) * n) ++ bytesOf a n v ++ l.drop ((off + k.toNat + 1) * n)))
  else ub .oobWrite
@[sem] theorem store_eq {a : Arch} {m : Mem} {b off n k v} : store a m b off n k v = storeB a (m b) off n k v >>= fun x =>
    pure (m.set b x) := by
  simp only [store, storeB]
  split
  · rfl
  split
  · simp only [bind_assoc, pure_bind]
  split
  · simp only [bind_assoc, pure_bind]
  · rfl
@[sem] theorem storeB_same {a : Arch} {s : Bool} {d : List Int} {off n : Nat} {k : Nat} {v : Int} :
    storeB a ⟨s, n, d⟩ off n (k : Int) v = wr (d.drop off) k (wrap s n v) >>= fun l => pure ⟨s, n, d.take off ++ l⟩ := by
  have : ¬ (k : Int) < 0 := by omega
  simp [storeB, this]
@[sem] theorem storeB_ofNat {a : Arch} {s : Bool} {d : List Int} {off n : Nat} {k : Nat} {v : Int} :
    storeB a ⟨s, n, d⟩ off n (no_index (OfNat.ofNat k) : Int) v = wr (d.drop off) (OfNat.ofNat k) (wrap s n v) >>= fun l =>
      pure ⟨s, n, d.take off ++ l⟩ := storeB_same (k := k)

attribute [sem] List.drop_left List.take_left

/-- `memset` on a block. -/
def memsetB (a : Arch) (x : Blk) (off n : Nat) (c len : Int) : C Blk :=
  if n = x.n ∧ len.toNat % n = 0 then do
    let l ← Frodo.memset (x.data.drop off) (wrap x.s n (joinBytes a (List.replicate n (c % 256)))) (len.toNat / n)
    pure { x with data := x.data.take off ++ l }
  else do
    let y := x.bytes a
    let l ← Frodo.memset (y.drop (off * n)) (c % 256) len.toNat
    pure (x.setBytes a (y.take (off * n) ++ l))

@[sem] theorem string_memset {a call m next b off s n s' n' c s'' n'' len} :
    withString a call "memset" [.ptr b off s n, .int s' n' c, .int s'' n'' len] m next =
      memsetB a (m b) off n c (wrap false 8 len) >>= fun x => pure (.undef .void, m.set b x, next) := by
  simp only [withString, if_true, memsetC, memsetB]
  split <;> simp only [bind_assoc, pure_bind]

theorem joinLe_zero (n : Nat) : joinLe (List.replicate n 0) = 0 := by
  induction n with
  | zero => rfl
  | succ n ih => simp [List.replicate_succ, joinLe, ih]

theorem joinBytes_zero (a : Arch) (n : Nat) : joinBytes a (List.replicate n 0) = 0 := by
  cases a <;> simp [joinBytes, joinLe_zero]

theorem wrap_zero (s : Bool) (n : Nat) : wrap s n 0 = 0 := by cases s <;> simp [wrap]

/-- Clearing elements of a block. -/
theorem memsetB_zero {a : Arch} {s : Bool} {n : Nat} {d : List Int} {off k len : Nat} (h : len = k * n) (hn : 0 < n) :
    memsetB a ⟨s, n, d⟩ off n 0 (len : Int) = Frodo.memset (d.drop off) 0 k >>= fun l => pure ⟨s, n, d.take off ++ l⟩ := by
  subst h
  simp only [memsetB, Int.toNat_natCast, Nat.mul_mod_left, and_self, if_true]
  rw [Nat.mul_div_cancel _ hn]
  have : (0 : Int) % 256 = 0 := rfl
  rw [this, joinBytes_zero, wrap_zero]

/-! Numbers of either kind. -/

@[sem] theorem cast_add {a b : Nat} : (a : Int) + b = ((a + b : Nat) : Int) := by simp
@[sem] theorem cast_mul {a b : Nat} : (a : Int) * b = ((a * b : Nat) : Int) := by simp
@[sem] theorem cast_add_ofNat {a b : Nat} : (a : Int) + no_index (OfNat.ofNat b) = ((a + OfNat.ofNat b : Nat) : Int) := by
  simp
@[sem] theorem cast_mul_ofNat {a b : Nat} : (a : Int) * no_index (OfNat.ofNat b) = ((a * OfNat.ofNat b : Nat) : Int) := by
  simp
@[sem] theorem ofNat_mul_cast {a b : Nat} : (no_index (OfNat.ofNat b) : Int) * a = ((OfNat.ofNat b * a : Nat) : Int) := by
  simp
theorem cast_mod {a b : Nat} (h : a < b) : (a : Int) % b = a := Int.emod_eq_of_lt (by omega) (by omega)
theorem emod_of_lt {a b : Int} (h : 0 ≤ a) (h' : a < b) : a % b = a := Int.emod_eq_of_lt h h'
@[sem] theorem cast_eq {a b : Nat} : ((a : Int) = b) = (a = b) := propext Int.ofNat_inj
@[sem] theorem cast_lt {a b : Nat} : ((a : Int) < b) = (a < b) := by simp
@[sem] theorem cast_lt_ofNat {a b : Nat} : ((a : Int) < no_index (OfNat.ofNat b)) = (a < OfNat.ofNat b) := by
  have := cast_lt (a := a) (b := b)
  exact this
@[sem] theorem ofNat_lt_cast {a b : Nat} : (no_index (OfNat.ofNat b) < (a : Int)) = (OfNat.ofNat b < a) := by
  have := cast_lt (a := b) (b := a)
  exact this
@[sem] theorem cast_eq_ofNat {a b : Nat} : ((a : Int) = no_index (OfNat.ofNat b)) = (a = OfNat.ofNat b) := by
  have := cast_eq (a := a) (b := b)
  exact this
@[sem] theorem cast_le {a b : Nat} : ((a : Int) ≤ b) = (a ≤ b) := by simp
@[sem] theorem cast_ofNat {b : Nat} : ((no_index (OfNat.ofNat b) : Nat) : Int) = OfNat.ofNat b := rfl

theorem int_ok {x : Int} (h0 : -2147483648 ≤ x) (h1 : x ≤ 2147483647) : Frodo.int x = pure x := by
  unfold Frodo.int
  rw [if_pos ⟨h0, h1⟩]

theorem run_eq {F : File} {X : Ctx} {x : String} {f : Fun} (h : F.fn x = some f) (args : List Val) (m : Mem) (next : Nat) :
    F.run X x args m next = callFun X f args m next := by simp only [File.run, h]

theorem branchK_true {x y : C α} : branchK true x y = emit (.branch true) >>= fun _ => x := rfl
theorem branchK_false {x y : C α} : branchK false x y = emit (.branch false) >>= fun _ => y := rfl

end Src

/-! Steps of model and text. -/

open Src

/-- The numbers that the elements of a buffer of bytes are. -/
def ofU8 (l : List U8) : List Int := l.map fun x => (x.toNat : Int)
/-- The numbers that the elements of a buffer of 16-bit words are. -/
def ofU16 (l : List U16) : List Int := l.map fun x => (x.toNat : Int)

@[sem] theorem length_ofU8 {l : List U8} : (ofU8 l).length = l.length := List.length_map ..
@[sem] theorem length_ofU16 {l : List U16} : (ofU16 l).length = l.length := List.length_map ..

namespace Refines

variable {tr : Prop} {S : γ → δ → Prop}

theorem tail {m : C α} {n : C β} {R : α → β → Prop} (h : Refines tr (m >>= fun a => Pure.pure a) n R) : Refines tr m n R := by
  rwa [bind_pure] at h

theorem rd8 {l : List U8} {i : Nat} {f : U8 → C γ} {g : Int → C δ}
    (k : ∀ x : U8, i < l.length → Refines tr (f x) (g (x.toNat : Int)) S) :
    Refines tr (Frodo.rd l i >>= f) (Frodo.rd (ofU8 l) i >>= g) S :=
  rd.bind fun x _ h => h.1 ▸ k x h.2

theorem rd16 {l : List U16} {i : Nat} {f : U16 → C γ} {g : Int → C δ}
    (k : ∀ x : U16, i < l.length → Refines tr (f x) (g (x.toNat : Int)) S) :
    Refines tr (Frodo.rd l i >>= f) (Frodo.rd (ofU16 l) i >>= g) S :=
  rd.bind fun x _ h => h.1 ▸ k x h.2

theorem memset_map {l : List α} {v : α} {w : β} {h : α → β} {n : Nat} {f : List α → C γ} {g : List β → C δ} (hw : w = h v)
    (k : ∀ l', n ≤ l.length → l'.length = l.length → Refines tr (f l') (g (l'.map h)) S) :
    Refines tr (Frodo.memset l v n >>= f) (Frodo.memset (l.map h) w n >>= g) S := by
  subst hw
  by_cases hn : n ≤ l.length
  · have e : Frodo.memset l v n = C.emit (.block 0 n) >>= fun _ => Pure.pure (List.replicate n v ++ l.drop n) := by
      unfold Frodo.memset; rw [if_pos hn]
    have e' : Frodo.memset (l.map h) (h v) n =
        C.emit (.block 0 n) >>= fun _ => Pure.pure ((List.replicate n v ++ l.drop n).map h) := by
      unfold Frodo.memset; rw [if_pos (by simpa using hn)]; simp
    rw [e, e']
    simp only [bind_assoc, pure_bind]
    exact step fun _ => k _ hn (by simp; omega)
  · have e : Frodo.memset l v n = C.ub .oobWrite := by unfold Frodo.memset; rw [if_neg hn]
    rw [e]
    exact fun a t h => nomatch h

theorem wr8 {l : List U8} {i : Nat} {v : U8} {w : Int} {f : List U8 → C γ} {g : List Int → C δ} (hw : w = (v.toNat : Int))
    (k : ∀ l' : List U8, i < l.length → l'.length = l.length → Refines tr (f l') (g (ofU8 l')) S) :
    Refines tr (Frodo.wr l i v >>= f) (Frodo.wr (ofU8 l) i w >>= g) S :=
  (wr (f := fun x : U8 => (x.toNat : Int)) hw).bind fun x _ h => by
    obtain ⟨rfl, h1, h2⟩ := h
    exact k x h2 h1

theorem wr16 {l : List U16} {i : Nat} {v : U16} {w : Int} {f : List U16 → C γ} {g : List Int → C δ} (hw : w = (v.toNat : Int))
    (k : ∀ l' : List U16, i < l.length → l'.length = l.length → Refines tr (f l') (g (ofU16 l')) S) :
    Refines tr (Frodo.wr l i v >>= f) (Frodo.wr (ofU16 l) i w >>= g) S :=
  (wr (f := fun x : U16 => (x.toNat : Int)) hw).bind fun x _ h => by
    obtain ⟨rfl, h1, h2⟩ := h
    exact k x h2 h1

/-- The result of a signed operation is in range. -/
theorem stepInt {v : Int} {f : Int → C γ} {g : Int → C δ}
    (k : ∀ x : Int, x = v → -2147483648 ≤ x → x ≤ 2147483647 → Refines tr (f x) (g x) S) :
    Refines tr (Frodo.int v >>= f) (Frodo.int v >>= g) S := by
  refine step' (P := fun x => x = v ∧ -2147483648 ≤ x ∧ x ≤ 2147483647) (fun a t h => ?_) fun x h => k x h.1 h.2.1 h.2.2
  unfold Frodo.int at h
  split at h
  · rename_i hv
    cases h
    exact ⟨rfl, hv⟩
  · cases h

theorem shr_range {a k x : Int} {t : List Event} (h : ishr a k = .ok x t) (h0 : -2147483648 ≤ a) (h1 : a ≤ 2147483647) :
    (-2147483648 ≤ x ∧ x ≤ 2147483647) ∧ (0 ≤ a → 0 ≤ x ∧ x ≤ a) := by
  unfold ishr at h
  split at h
  · cases h
    have hp : (0 : Int) < 2 ^ k.toNat := Int.pow_pos (by omega)
    by_cases ha : 0 ≤ a
    · have e0 := Int.ediv_nonneg ha (Int.le_of_lt hp)
      have e1 := Int.ediv_le_self (2 ^ k.toNat) ha
      omega
    · have e0 : -2147483648 ≤ a / 2 ^ k.toNat := by
        rw [Int.le_ediv_iff_mul_le hp]
        have : (1 : Int) ≤ 2 ^ k.toNat := hp
        have : (-2147483648 : Int) * 2 ^ k.toNat ≤ -2147483648 * 1 := Int.mul_le_mul_of_nonpos_left (by omega) this
        omega
      have e1 : a / 2 ^ k.toNat < 0 := Int.ediv_neg_of_neg_of_pos (by omega) hp
      omega
  · cases h

/-- The result of `>>` is in range. -/
theorem stepShr {a k : Int} {f : Int → C γ} {g : Int → C δ} (h0 : -2147483648 ≤ a) (h1 : a ≤ 2147483647)
    (c : ∀ x : Int, -2147483648 ≤ x → x ≤ 2147483647 → (0 ≤ a → 0 ≤ x ∧ x ≤ a) → Refines tr (f x) (g x) S) :
    Refines tr (ishr a k >>= f) (ishr a k >>= g) S :=
  step' (fun _ _ h => shr_range h h0 h1) fun x h => c x h.1.1 h.1.2 h.2

/-- The result of `<<` is in range. -/
theorem stepShl {a k : Int} {f : Int → C γ} {g : Int → C δ}
    (c : ∀ x : Int, 0 ≤ x → x ≤ 2147483647 → Refines tr (f x) (g x) S) : Refines tr (ishl a k >>= f) (ishl a k >>= g) S := by
  refine step' (P := fun x => 0 ≤ x ∧ x ≤ 2147483647) (fun x t h => ?_) fun x h => c x h.1 h.2
  unfold ishl at h
  split at h
  · split at h
    · rename_i ha
      unfold Frodo.int at h
      split at h
      · rename_i hv
        cases h
        exact ⟨Int.mul_nonneg ha (Int.le_of_lt (Int.pow_pos (by omega))), hv.2⟩
      · cases h
    · cases h
  · cases h

theorem branchT {m : C γ} {c : Bool} {x y : C δ} (h : c = true) (k : Refines tr m x S) :
    Refines tr (C.emit (.branch true) >>= fun _ => m) (branchK c x y) S := by
  subst h
  exact step fun _ => k

theorem branchF {c : Bool} {x y : C δ} (h : c = false) : branchK c x y = C.emit (.branch false) >>= fun _ => y := by
  subst h
  rfl

theorem ifK {c c' : Bool} {x y : C γ} {x' y' : C δ} (h : c' = c) (ht : c = true → Refines tr x x' S)
    (he : c = false → Refines tr y y' S) : Refines tr (ifC c x y) (branchK c' x' y') S := branch h ht he

end Refines

/-- Evaluation of what a text means in a state whose variables are known, with further rules. -/
syntax "csim" ("[" Lean.Parser.Tactic.simpLemma,* "]")? (Lean.Parser.Tactic.location)? : tactic

macro_rules
  | `(tactic| csim [$ls,*] $[$loc]?) => `(tactic| try simp -implicitDefEqProofs (disch := first | assumption | omega) only [sem,
      String.reduceEq,
      Nat.reduceAdd, Nat.reduceMul, Nat.reduceSub, Nat.reduceLT, Nat.reduceEqDiff, ↓reduceIte, wrap_size, wrap_uint, wrap_int,
      set_ne, int_ok, toNat_u8, toNat_u16, emod_of_lt, Nat.reducePow, Int.reducePow, Int.reduceAdd, Int.reduceSub, Int.reduceMul, Int.reduceNeg, Int.reduceDiv, $ls,*] $[$loc]?)
  | `(tactic| csim $[$loc]?) => `(tactic| csim [if_true] $[$loc]?)

/-- The next step of both sides. -/
macro "cstep" : tactic => `(tactic| first
  | refine Refines.rd8 fun _ _ => ?_
  | refine Refines.rd16 fun _ _ => ?_
  | refine Refines.wr8 (by csim) fun _ _ _ => ?_
  | refine Refines.wr16 (by csim) fun _ _ _ => ?_
  | refine Refines.stepInt fun _ _ _ _ => ?_
  | refine Refines.stepShl fun _ _ _ => ?_
  | refine Refines.stepShr (by omega) (by omega) fun _ _ _ _ => ?_
  | refine Refines.step fun _ => ?_
  | refine Refines.branchT (by csim [decide_eq_true_eq]; omega) ?_)

end Frodo
