import Verif.Proof.TextBytes
import Verif.Proof.TextSmall
import Verif.Model.Kem

/-! # Functions that call others: text and model

Memory is known up to the blocks that the callees allocate for themselves. -/

namespace Frodo

open Src

/-- Two memories have the same first `N` blocks. -/
def MAgree (N : Nat) (M F : Mem) : Prop := ∀ b, b < N → M b = F b

theorem MAgree.set {N : Nat} {M F : Mem} (h : MAgree N M F) (b : Nat) (x : Blk) : MAgree N (M.set b x) (F.set b x) := by
  intro c hc
  simp only [Mem.set, h c hc]

/-- A memory with the blocks `L` from number `next` on. -/
def fr (m : Mem) (next : Nat) (L : List Blk) : Mem := fun b => if b < next then m b else L.getD (b - next) ⟨false, 1, []⟩

theorem fr_at {m : Mem} {next i : Nat} {L : List Blk} {x : Blk} (h : L[i]? = some x) : fr m next L (next + i) = x := by
  unfold fr
  rw [if_neg (by omega), Nat.add_sub_cancel_left, List.getD_eq_getElem?_getD, h]
  rfl

theorem fr_arg {m : Mem} {next b : Nat} {L : List Blk} (h : b < next) : fr m next L b = m b := by
  unfold fr
  rw [if_pos h]

theorem fr_set_at {m : Mem} {next i : Nat} {L : List Blk} {x : Blk} (h : i < L.length) :
    (fr m next L).set (next + i) x = fr m next (L.set i x) := by
  funext b
  simp only [fr, Mem.set]
  by_cases hb : b < next
  · rw [if_neg (by omega), if_pos hb, if_pos hb]
  · by_cases he : b = next + i
    · subst he
      rw [if_pos rfl, if_neg hb, Nat.add_sub_cancel_left, List.getD_eq_getElem?_getD, List.getElem?_set_self h]
      rfl
    · rw [if_neg he, if_neg hb, if_neg hb, List.getD_eq_getElem?_getD, List.getD_eq_getElem?_getD,
        List.getElem?_set_ne (by omega)]

theorem fr_set_arg {m : Mem} {next b : Nat} {L : List Blk} {x : Blk} (h : b < next) :
    (fr m next L).set b x = fr (m.set b x) next L := by
  funext c
  simp only [fr, Mem.set]
  by_cases hc : c = b
  · subst hc
    rw [if_pos rfl, if_pos h, if_pos rfl]
  · rw [if_neg hc]
    by_cases hn : c < next
    · rw [if_pos hn, if_pos hn, if_neg hc]
    · rw [if_neg hn, if_neg hn]

theorem fr_push {M m : Mem} {next k : Nat} {L : List Blk} {x : Blk} (hk : L.length = k) (h : MAgree (next + k) M (fr m next L)) :
    MAgree (next + (k + 1)) (M.set (next + k) x) (fr m next (L ++ [x])) := by
  intro b hb
  unfold fr Mem.set
  by_cases he : b = next + k
  · subst he
    rw [if_pos rfl, if_neg (by omega), Nat.add_sub_cancel_left, ← hk]
    simp
  · rw [if_neg he, h b (by omega)]
    unfold fr
    by_cases hn : b < next
    · rw [if_pos hn, if_pos hn]
    · rw [if_neg hn, if_neg hn, List.getD_eq_getElem?_getD, List.getD_eq_getElem?_getD, List.getElem?_append_left (by omega)]

/-- A call does what the model says: the value, and the blocks known to the caller. -/
def Does (X : Ctx) (N : Nat) (F : Mem) (f : String) (args : List Val) (mo : C α) (v : α → Val) (F' : α → Mem) : Prop :=
  ∀ M nx, N ≤ nx → MAgree N M F → Refines False mo (X.call f args M nx) fun a x => x.1 = v a ∧ N ≤ x.2.2 ∧ MAgree N x.2.1 (F' a)

/-- A statement does what the model says. -/
def Run (X : Ctx) (N : Nat) (loc : List (String × Val)) (F : Mem) (s : Stmt) (mo : C α) (Q : α → St × Flow → Prop) : Prop :=
  ∀ M nx, N ≤ nx → MAgree N M F → Refines False mo (exec X s ⟨loc, M, nx⟩) Q

/-- The same while arrays are still being declared. -/
def DRun (X : Ctx) (N : Nat) (loc : List (String × Val)) (F : Mem) (s : Stmt) (mo : C α) (Q : α → St × Flow → Prop) : Prop :=
  ∀ M, MAgree N M F → Refines False mo (exec X s ⟨loc, M, N⟩) Q

/-- Expressions without effects. -/
def Ev (X : Ctx) (N : Nat) (loc : List (String × Val)) (F : Mem) (e : Expr) (v : Val) : Prop :=
  ∀ M nx, N ≤ nx → MAgree N M F → Ret (eval X e ⟨loc, M, nx⟩) (· = (v, ⟨loc, M, nx⟩))

/-- Arguments without effects. -/
def EvL (X : Ctx) (N : Nat) (loc : List (String × Val)) (F : Mem) (es : List Expr) (vs : List Val) : Prop :=
  ∀ M nx, N ≤ nx → MAgree N M F → Ret (evalList X es ⟨loc, M, nx⟩) (· = (vs, ⟨loc, M, nx⟩))

variable {X : Ctx} {N : Nat} {loc : List (String × Val)} {F : Mem} {rest : Stmt} {Q : α → St × Flow → Prop}

/-- A step of the text alone. -/
theorem Refines.right {m : C γ} {n : C β} {g : β → C δ} {S : γ → δ → Prop} {b : β} (h : Ret n (· = b))
    (k : Refines False m (g b) S) : Refines False m (n >>= g) S := by
  intro c t e
  obtain ⟨b', t', hn, rfl⟩ := h
  obtain ⟨d, t'', hg, hS, _⟩ := k c t e
  refine ⟨d, t' ++ t'', ?_, hS, fun h => h.elim⟩
  simp only [hn, C.bind_def, C.bind', hg]

/-- A step of the model alone. -/
theorem Refines.leftOk {m : C α} {f : α → C γ} {n : C δ} {S : γ → δ → Prop} (k : ∀ a t, m = .ok a t → Refines False (f a) n S) :
    Refines False (m >>= f) n S := by
  intro c t e
  obtain ⟨a, t1, t2, h1, h2, rfl⟩ := Frodo.bind_ok e
  obtain ⟨d, t', h3, h4, -⟩ := k a t1 h1 c t2 h2
  exact ⟨d, t', h3, h4, fun h => h.elim⟩

namespace Run

theorem start {s : Stmt} {mo : C α} (h : Run X N loc F s mo Q) : DRun X N loc F s mo Q := fun M hA => h M N (Nat.le_refl N) hA

/-- A call for its effect. -/
theorem call {f : String} {args : List Expr} {vs : List Val} {mo : C β} {v : β → Val} {F' : β → Mem} {k : β → C α}
    (he : EvL X N loc F args vs) (hc : Does X N F f vs mo v F') (hk : ∀ a, Run X N loc (F' a) rest (k a) Q) :
    Run X N loc F (.seq (.expr (.call f args)) rest) (mo >>= k) Q := by
  intro M nx hn hA
  simp only [exec, eval, bind_assoc, pure_bind]
  refine Refines.right (he M nx hn hA) ?_
  refine (hc M nx hn hA).bind ?_
  rintro a ⟨w, M', nx'⟩ ⟨-, h2, h3⟩
  exact hk a M' nx' h2 h3

/-- A call whose result is not used and has no counterpart in the model. -/
theorem ptr {l : List γ} {k : Nat} {f : List γ → C α} {s : Stmt} (h : k ≤ l.length → Run X N loc F s (f (l.drop k)) Q) :
    Run X N loc F s (Frodo.ptr l k >>= f) Q := by
  intro M nx hn hA
  refine Refines.leftOk fun a t e => ?_
  unfold Frodo.ptr at e
  split at e
  · rename_i hk
    cases e
    exact h hk M nx hn hA
  · cases e

theorem atPtr {l : List γ} {k : Nat} {g : List γ → C (List γ)} {f : List γ → C α} {s : Stmt}
    (h : k ≤ l.length → Run X N loc F s (g (l.drop k) >>= fun r => f (l.take k ++ r)) Q) :
    Run X N loc F s (Frodo.atPtr l k g >>= f) Q := by
  intro M nx hn hA
  unfold Frodo.atPtr
  split
  · rename_i hk
    simp only [bind_assoc, pure_bind]
    exact Refines.leftOk fun _ _ _ => h hk M nx hn hA
  · exact fun a t e => nomatch e

theorem asBytes {a : Arch} {l : List U16} {k : Nat} {g : List U8 → C (List U8)} {f : List U16 → C α} {s : Stmt}
    (h : k ≤ l.length → Run X N loc F s (g (toBytes a (l.drop k)) >>= fun r => f (l.take k ++ ofBytes a r)) Q) :
    Run X N loc F s (Frodo.asBytes a l k g >>= f) Q := by
  intro M nx hn hA
  unfold Frodo.asBytes
  split
  · rename_i hk
    simp only [bind_assoc, pure_bind]
    exact Refines.leftOk fun _ _ _ => h hk M nx hn hA
  · exact fun a t e => nomatch e

theorem require {p : Prop} [Decidable p] {u : UB} {f : Unit → C α} {s : Stmt} (h : p → Run X N loc F s (f ()) Q) :
    Run X N loc F s (C.require p u >>= f) Q := by
  intro M nx hn hA
  refine Refines.leftOk fun a t e => ?_
  unfold C.require at e
  split at e
  · rename_i hp
    exact h hp M nx hn hA
  · cases e

/-- `x[0] = c` on a block of bytes. -/
theorem setFirst {x : String} {b c : Nat} {l : List U8} {k : List U8 → C α} {v : U8} (hx : findVar x loc = some (.ptr b 0 false 1))
    (hb : b < N) (hl : F b = u8s l) (hv : u8 (c : Int) = v) (hk : ∀ a, a.length = l.length → Run X N loc (F.set b (u8s a)) rest (k a) Q) :
    Run X N loc F (.seq (.expr (.asg (.idx (.var x) (.num true 4 0)) (.num true 4 c))) rest) (wr l 0 v >>= k) Q := by
  intro M nx hn hA
  have hM : M b = u8s l := by rw [hA b hb, hl]
  csim [hx, hM]
  refine Refines.wr8 (by rw [hv]) fun l' _ hl' => ?_
  exact hk l' hl' _ nx hn (hA.set b (u8s l'))

end Run

namespace DRun

theorem mem_eq {F' : Mem} {s : Stmt} {mo : C α} (h : F = F') (hk : DRun X N loc F' s mo Q) : DRun X N loc F s mo Q := h ▸ hk

/-- Declaration of a pointer with its value. -/
theorem ptr {t : Ty} {x : String} {e : Expr} {v w : Val} {mo : C α} (he : Ev X N loc F e v) (hv : convert t v = pure w)
    (hk : DRun X N ((x, w) :: loc) F rest mo Q) : DRun X N loc F (.seq (.decl t x (some e)) rest) mo Q := by
  intro M hA
  simp only [exec, bind_assoc]
  refine Refines.right (he M N (Nat.le_refl N) hA) ?_
  simp only [hv, pure_bind]
  exact hk M hA

/-- Declaration of an array. -/
theorem arr {m : Mem} {next : Nat} {L : List Blk} (k : Nat) {s : Bool} {n : Nat} {x : String} {e : Expr} {s' : Bool} {n' : Nat}
    {len : Nat} {init : Option (List Expr)} {mo : C α} (he : Ev X (next + k) loc (fr m next L) e (.int s' n' len)) {d : List Int}
    (hk : L.length = k) (hd : newArr X x s n len init = d)
    (h : DRun X (next + (k + 1)) ((x, .ptr (next + k) 0 s n) :: loc) (fr m next (L ++ [⟨s, n, d⟩])) rest mo Q) :
    DRun X (next + k) loc (fr m next L) (.seq (.declArr s n x e init) rest) mo Q := by
  intro M hA
  simp only [exec, bind_assoc]
  refine Refines.right (he M _ (Nat.le_refl _) hA) ?_
  simp only [pure_bind, Int.toNat_natCast, hd]
  exact h _ (fr_push hk hA)

end DRun

end Frodo
