import Verif.Proof.TextRefMul
import Verif.Text.OptFuns

/-! # /repo/src/frodo_macrify.c:21-272, products with A, without intrinsics: rules -/

namespace Frodo

open Src

/-! ## Loops with a step -/

theorem Refines.forStep {tr : Prop} {body : Nat → σ → C σ} {it : τ → C (Option Flow × τ)} {hi c : Nat} {s : σ} {st : τ}
    (Rel : Nat → σ → τ → Prop) (hc : 0 < c) (hd : hi % c = 0) (hst : Rel 0 s st)
    (hb : ∀ i s st, i + c ≤ hi → i % c = 0 → Rel i s st → Refines tr (C.emit (.branch true) >>= fun _ => body i s) (it st)
      fun s' r => ∃ st', r = (none, st') ∧ Rel (i + c) s' st')
    (he : ∀ s st, Rel hi s st → it st = C.emit (.branch false) >>= fun _ => Pure.pure (some .next, st)) :
    Refines tr (Frodo.forC 0 hi c s body) (loop it st) fun s' r => ∃ st', r = (st', .next) ∧ Rel hi s' st' := by
  have key : ∀ k i s st, i + c * k = hi → i % c = 0 → Rel i s st → Refines tr (Frodo.forLoop c body k i s) (loop it st)
      fun s' r => ∃ st', r = (st', .next) ∧ Rel hi s' st' := by
    intro k
    induction k with
    | zero =>
      intro i s st hk _ hR
      obtain rfl : i = hi := by omega
      rw [loop, he s st hR]
      simp only [bind_assoc, pure_bind, Frodo.forLoop]
      exact emit.bind fun _ _ _ => .pure ⟨st, rfl, hR⟩
    | succ k ih =>
      intro i s st hk hm hR
      rw [loop, Frodo.forLoop]
      have e : (do C.emit (Event.branch true); let s ← body i s; Frodo.forLoop c body k (i + c) s) =
          (C.emit (Event.branch true) >>= fun _ => body i s) >>= fun s => Frodo.forLoop c body k (i + c) s := by
        simp only [bind_assoc]
      rw [e]
      rw [Nat.mul_succ] at hk
      refine (hb i s st (by omega) hm hR).bind ?_
      rintro s' r ⟨st', rfl, hR'⟩
      exact ih (i + c) s' st' (by omega) (by rw [Nat.add_mod_right, hm]) hR'
  unfold Frodo.forC
  obtain ⟨q, rfl⟩ := Nat.dvd_of_mod_eq_zero hd
  have e : (c * q - 0 + (c - 1)) / c = q := by
    rw [Nat.sub_zero, Nat.mul_add_div hc, Nat.div_eq_of_lt (by omega), Nat.add_zero]
  rw [e]
  exact key q 0 s st (by omega) (Nat.zero_mod _) hst

section

variable {X : Ctx} {N : Nat} {loc : List (String × Val)} {F : Mem}

/-- A loop with a step whose state is in memory. -/
theorem Run.forMemStep {σ : Type} {init body rest : Stmt} {cond step : Expr} {hi c : Nat} {mo : Nat → σ → C σ} {k : σ → C α} {s0 : σ}
    {Q : α → St × Flow → Prop} (l l' : Nat → List (String × Val)) (G : σ → Mem) (hc : 0 < c) (hd : hi % c = 0) (hF : F = G s0)
    (hinit : ∀ M nx, exec X init ⟨loc, M, nx⟩ = pure (⟨l 0, M, nx⟩, .next))
    (hcond : ∀ i M nx, i ≤ hi → eval X cond ⟨l i, M, nx⟩ = pure (.int true 4 (truth (decide (i < hi))), ⟨l i, M, nx⟩))
    (hstep : ∀ i M nx, i + c ≤ hi → ∃ v, eval X step ⟨l' i, M, nx⟩ = pure (v, ⟨l (i + c), M, nx⟩))
    (hbody : ∀ i s, i + c ≤ hi → i % c = 0 → Run X N (l i) (G s) body (mo i s) fun s' x => x.2 = .next ∧ x.1.loc = l' i ∧ N ≤ x.1.next ∧
      MAgree N x.1.mem (G s'))
    (hl : (l hi).length = loc.length)
    (hk : ∀ s, Run X N (l hi) (G s) rest (k s) Q) :
    Run X N loc F (.seq (.for init cond step body) rest) (Frodo.forC 0 hi c s0 mo >>= k) Q := by
  subst hF
  intro M nx hn hA
  csim [loopF_eq, hinit]
  refine (Refines.forStep (fun i s (st : St) => i ≤ hi ∧ st.loc = l i ∧ N ≤ st.next ∧ MAgree N st.mem (G s)) hc hd
    ⟨Nat.zero_le _, rfl, hn, hA⟩ ?_ ?_).bind ?_
  · rintro i s ⟨lo, M, nx⟩ hi' hm ⟨-, rfl, hn, hA⟩
    csim [hcond i _ _ (show i ≤ hi by omega)]
    refine Refines.branchT (by simp; omega) ?_
    refine Refines.tail ((hbody i s hi' hm M nx hn hA).bind ?_)
    rintro s' ⟨⟨lo, M', nx'⟩, fl⟩ ⟨rfl, rfl, hn', hA'⟩
    obtain ⟨v, hv⟩ := hstep i M' nx' hi'
    csim [hv]
    exact .pure ⟨_, rfl, hi', rfl, hn', hA'⟩
  · rintro s ⟨lo, M, nx⟩ ⟨-, rfl, -, -⟩
    csim [hcond hi _ _ (Nat.le_refl _)]
    exact Refines.branchF (by simp)
  · rintro s _ ⟨⟨lo, M', nx'⟩, rfl, -, rfl, hn', hA'⟩
    csim
    rw [hl, Nat.sub_self, List.drop_zero]
    exact hk s M' nx' hn' hA'

/-! ## Rows -/

/-- `x[0] = e` where `x` points to an array of bytes. -/
theorem Run.storeInt {x : String} {e : Expr} {b i : Nat} {l : List U8} {rest : Stmt} {k : List U8 → C α} {Q : α → St × Flow → Prop}
    (hx : findVar x loc = some (.ptr b 0 false 2)) (he : ∀ M nx, eval X e ⟨loc, M, nx⟩ = pure (.int true 4 i, ⟨loc, M, nx⟩))
    (hb : b < N) (hl : F b = u8s l)
    (ha : X.arch = .le) (hk : ∀ a, a.length = l.length → Run X N loc (F.set b (u8s a)) rest (k a) Q) :
    Run X N loc F (.seq (.expr (.asg (.idx (.var x) (.num true 4 0)) e)) rest)
      (store16 .le l (u16 i) >>= k) Q := by
  intro M nx hn hA
  have hM : M b = u8s l := by rw [hA b hb, hl]
  csim [hx, he, hM]
  refine Refines.leftOk fun a t e => ?_
  obtain ⟨l1, t1, t2, e1, e2, -⟩ := Frodo.bind_ok e
  unfold Frodo.wr at e1 e2
  split at e1
  case isFalse => cases e1
  rename_i c1
  cases e1
  split at e2
  case isFalse => cases e2
  rename_i c2
  rw [List.length_set] at c2
  cases e2
  have e3 : storeB X.arch (u8s l) 0 2 0 ((u16 i).toNat : Int) = (C.emit (.write 0) >>= fun _ => pure (u8s ((l.set 0
      (nth (bytes16 .le (u16 i)) 0)).set 1 (nth (bytes16 .le (u16 i)) 1)))) := by
    unfold storeB
    rw [if_neg (by omega), if_neg (by simp), bytes_u8s, length_ofU8, if_pos (by simp; omega), ha, bytesOf_two]
    have e4 : (ofU8 l).take ((0 + (0 : Int).toNat) * 2) ++ ofU8 (bytes16 .le (u16 i)) ++ (ofU8 l).drop ((0 + (0 : Int).toNat + 1) * 2) =
        ofU8 ((l.set 0 (nth (bytes16 .le (u16 i)) 0)).set 1 (nth (bytes16 .le (u16 i)) 1)) := by
      match l, c2 with
      | x :: y :: l, _ => rfl
    simp only [e4, setBytes_u8s]
    rfl
  rw [e3]
  simp only [bind_assoc, pure_bind]
  exact Refines.right (b := ()) ⟨_, _, rfl, rfl⟩ (hk _ (by simp) _ nx hn (hA.set b _))

attribute [local irreducible] Ev EvL Run DRun Does

/-- An array of 16-bit words, signed or not, with the same bytes. -/
def words : Bool → List U16 → Blk
  | true, l => s16s l
  | false, l => u16s l

/-- One row of A (/repo/src/frodo_macrify.c:70-71 and the like in 72-77, 182-197). -/
theorem Run.row {P : Params} {X : Ctx} {E : Env} {B : Build} {next i : Nat} {m : Mem} {A : List U16} {sep : List U8} {sg : Bool}
    {rest : Stmt} {k : List U16 × List U8 → C α} {Q : α → St × Flow → Prop} (r : Nat) {x : String} (hB : B.arch = .le) (ha : X.arch = .le)
    {bk : Nat} {xk : Blk} (hS : SpongeAt X E.junk bk xk) (hbk : bk < next) (hmk : m bk = xk) (hP : P.Small) (hr : r < 8) (hi : i < 2 ^ 20)
    (v1 : findVar x loc = some (.ptr (next + 0) 0 sg 2)) (v2 : findVar "seed_A_origin" loc = some (.ptr (next + 1) 0 false 2))
    (v3 : findVar "seed_A_separated" loc = some (.ptr (next + 1) 0 false 1)) (v4 : findVar "i" loc = some (.int true 4 i))
    (hk : ∀ s : List U16 × List U8, Run X (next + 2) loc (fr m next [words sg s.1, u8s s.2]) rest (k s) Q) :
    Run X (next + 2) loc (fr m next [words sg A, u8s sep])
      (.seq (.expr (.asg (.idx (.var "seed_A_origin") (.num true 4 0)) (.bin .add (.var "i") (.num true 4 r))))
        (.seq (.expr (.call "shake128" [.cast (.ptr (.int false 1)) (.bin .add (.var x) (.bin .mul (.num true 4 r) (.num true 4 P.n))),
          .cast (.int false 8) (.bin .mul (.num true 4 2) (.num true 4 P.n)), .var "seed_A_separated",
          .bin .add (.num true 4 2) (.num true 4 P.seedA)])) rest))
      (shakeRow B E P (i + r) r (A, sep) >>= k) Q := by
  have q1 := hP.n; have q2 := hP.seedA
  have h1 : r * P.n ≤ 8 * 1344 := Nat.mul_le_mul (by omega) (by omega)
  unfold shakeRow
  simp only [hB, UINT16_TO_LE, bind_assoc, pure_bind]
  refine Run.storeInt (i := i + r) v2 (fun M nx => ?_) (by omega) (by look) ha ?_
  · csim [v4]
  intro sep' hsep
  upd
  lists
  apply Run.asBytes; intro c1
  have hw : ∃ v : View, (∀ l, words sg (ofBytes .le l) = v.blk l) ∧ ∃ d, words sg A = ⟨sg, 2, d⟩ ∧ d.length = A.length := by
    cases sg
    · exact ⟨.u16, fun _ => rfl, _, rfl, length_ofU16⟩
    · exact ⟨.s16, fun _ => rfl, _, rfl, length_ofS16⟩
  obtain ⟨v, hv, dd, hd, hdl⟩ := hw
  refine Run.callEq (EvL.cons (Ev.castTo (w := .ptr (next + 0) ((0 + r * P.n) * 2) false 1)
    (Ev.padd (s := sg) (n := 2) (Ev.varP v1) (by ev) (by omega) (by rw [fr_at rfl, hd]) ?_) ?_)
    (EvL.cons (Ev.castTo (w := .int false 8 (2 * P.n : Nat)) (v := .int true 4 (2 * P.n : Nat)) (by ev) ?_)
    (EvL.cons (Ev.varP v3) (EvL.cons (by ev) EvL.nil))))
    (hS.s128 (v := v) (L := toBytes .le A) ?_ ?_ (by look) (by omega) (by omega) (by omega) (by omega) (by omega)
      (by rw [fr_arg hbk, hmk]) ?_ (Nat.zero_le _) (by omega) (by omega)) ?_ ?_
  · rw [hdl]; omega
  · csim
  · csim
  · rw [← hv, ofBytes_toBytes]; look
  · left; rw [length_toBytes]; omega
  · rw [length_toBytes]; omega
  · rw [toBytes_drop2, List.drop_zero]
    simp
  · intro y
    refine Run.mem_eq (F' := fr m next [words sg (A.take (r * P.n) ++ ofBytes .le y), u8s sep']) ?_ ?_
    · rw [← hv, Nat.zero_add, words_part]
      exact fr_set_at (by simp)
    · exact hk (_, _)

end

end Frodo
