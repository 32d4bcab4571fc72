import Verif.Proof.TextPermute
import Verif.Proof.KeccakF

/-! # /repo/src/sha3/fips202.c:73-338, `KeccakF1600_StatePermute`: the loop and the whole function -/

namespace Frodo

open Src

section

variable {X : Ctx} {M : Mem} {nx : Nat}

theorem runR_append (R S : Nat → U64) (p q : List (Nat × RE)) : ∀ ρ, runR R S (p ++ q) ρ = runR R S q (runR R S p ρ) := by
  induction p with
  | nil => intro ρ; rfl
  | cons x p ih => intro ρ; obtain ⟨i, e⟩ := x; exact ih _

theorem bin_lt24 {k : Nat} (h : k ≤ 24) :
    binOpV M .lt (.int true 4 k) (.int true 4 24) = pure (.int true 4 (truth (decide (k < 24)))) := by
  have : binOpV M .lt (.int true 4 k) (.int true 4 24) =
    pure (.int true 4 (truth (decide (wrap true 4 (k : Int) < wrap true 4 24)))) := rfl
  rw [this, wrap_int (by omega) (by omega), wrap_int (by omega) (by omega)]
  congr 3
  simp only [decide_eq_decide]
  omega

theorem bin_add2 {k : Nat} (h : k < 24) : binOpV M .add (.int true 4 k) (.int true 4 2) = pure (.int true 4 (k + 2 : Nat)) := by
  have : binOpV M .add (.int true 4 k) (.int true 4 2) = arith true 4 (wrap true 4 k + wrap true 4 2) >>= fun v =>
    pure (.int true 4 v) := rfl
  rw [this, wrap_int (by omega) (by omega), wrap_int (by omega) (by omega), arith, if_pos rfl, if_pos rfl,
    int_ok (by omega) (by omega), pure_bind]
  rfl

theorem Lanes25.setRound {b : Nat} {D : List Nat} {ρ : Nat → U64} {vr : Val} {loc : List (String × Val)} (h : Lanes25 b D ρ vr loc)
    (w : Val) : Lanes25 b D ρ w (setVar "round" w loc) := by
  refine ⟨fun y hy => ?_, fun j y hj hD => ?_, findVar_setVar h.round, ?_, ?_⟩
  · rw [findVar_setVar_ne]
    · exact h.typed y hy
    · rintro rfl
      exact absurd hy (by decide +kernel)
  · rw [findVar_setVar_ne (regOf_ne hj).1]
    exact h.val j y hj hD
  · rw [findVar_setVar_ne (by decide)]; exact h.state
  · rw [findVar_setVar_ne (by decide)]; exact h.table

/-- The loop of the text: condition, body and step (/repo/src/sha3/fips202.c:116-308). -/
def permRound (X : Ctx) : St → C (Option Flow × St) :=
  round X (.bin .lt (.var "round") (.num true 4 24))
    (fun st => do let r ← eval X (.asgOp .add (.var "round") (.num true 4 2)) st; pure r.2) (exec X (.block permBody))

theorem cond_eval {b k : Nat} {D : List Nat} {ρ : Nat → U64} {loc : List (String × Val)} (hr : Lanes25 b D ρ (.int true 4 k) loc)
    (h : k ≤ 24) : eval X (.bin .lt (.var "round") (.num true 4 24)) ⟨loc, M, nx⟩ =
      pure (.int true 4 (truth (decide (k < 24))), ⟨loc, M, nx⟩) := by
  simp only [eval, getVar_loc hr.round, pure_bind]
  exact congrArg (· >>= _) (bin_lt24 h)

theorem step_eval {b k : Nat} {D : List Nat} {ρ : Nat → U64} {loc : List (String × Val)} (hr : Lanes25 b D ρ (.int true 4 k) loc)
    (h : k < 24) : eval X (.asgOp .add (.var "round") (.num true 4 2)) ⟨loc, M, nx⟩ =
      pure (.int true 4 (k + 2 : Nat), ⟨setVar "round" (.int true 4 (k + 2 : Nat)) loc, M, nx⟩) := by
  have e : eval X (.asgOp .add (.var "round") (.num true 4 2)) ⟨loc, M, nx⟩ =
      (binOpV M .add (.int true 4 k) (.int true 4 2) >>= fun v => assign X ⟨loc, M, nx⟩ (.var "round") v) := by
    simp only [eval, lval, readL, getVar_loc hr.round, pure_bind]
    rfl
  rw [e, bin_add2 h, pure_bind]
  unfold assign
  simp only [hr.round]
  rw [wrap_int (by omega) (by omega)]

theorem isTrue_truth (b : Bool) : Src.isTrue (Val.int true 4 (truth b)) = pure b := by cases b <;> rfl

theorem permRound_go {b k : Nat} {L : List U64} (hm : PermMem X M b L) (hk : k + 1 < 24) {ρ : Nat → U64} {loc : List (String × Val)}
    (hr : Lanes25 b (List.range 25) ρ (.int true 4 k) loc) :
    ∃ t loc' ρ', permRound X ⟨loc, M, nx⟩ = .ok (none, ⟨loc', M, nx⟩) t ∧ loc'.length = loc.length ∧
      Lanes25 b (List.range 25) ρ' (.int true 4 (k + 2 : Nat)) loc' ∧
      lanesA ρ' = roundEA (KeccakF_RoundConstants.getD (k + 1) 0) (roundAE (KeccakF_RoundConstants.getD k 0) (lanesA ρ)) := by
  obtain ⟨D, hb, hD⟩ := perm_body
  obtain ⟨t, loc', e, hl, hr'⟩ := compS_exec (nx := nx) hm (fun _ => ⟨rfl, hk⟩) _ _ _ _ _ _ hb _ _ hr
  have e2 : exec X (.block permBody) ⟨loc, M, nx⟩ = .ok (⟨loc', M, nx⟩, .next) t := by
    simp only [exec]
    rw [e]
    simp only [exec, C.bind_def, C.bind', C.pure_def, leave, hl, Nat.sub_self, List.drop_zero, List.append_nil]
  have hr2 := hr'.sub (D' := List.range 25) (fun i hi => hD i (List.mem_range.1 hi))
  refine ⟨.branch true :: t, _, _, ?_, ?_, hr2.setRound _, ?_⟩
  · unfold permRound round
    rw [cond_eval hr (by omega)]
    simp only [pure_bind, isTrue_truth]
    rw [decide_eq_true (show k < 24 by omega)]
    simp only [if_true]
    rw [e2]
    simp only [C.emit, C.bind_def, C.bind', step_eval hr' (show k < 24 by omega), C.pure_def, List.append_nil, List.singleton_append]
  · rw [length_setVar, hl]
  · rw [runR_append, permEA_lanes, permAE_lanes]
    rfl

/-- Two rounds at a time, from round `k` (/repo/src/sha3/fips202.c:116-308). -/
def permLanes : Nat → Nat → Lanes → Lanes
  | 0, _, a => a
  | n + 1, k, a => permLanes n (k + 2)
    (roundEA (KeccakF_RoundConstants.getD (k + 1) 0) (roundAE (KeccakF_RoundConstants.getD k 0) a))

theorem permLoop_go {b : Nat} {L : List U64} (hm : PermMem X M b L) : ∀ (n k : Nat) ρ loc, k + 2 * n = 24 →
    Lanes25 b (List.range 25) ρ (.int true 4 k) loc →
    ∃ t loc' ρ', loop (permRound X) ⟨loc, M, nx⟩ = .ok (⟨loc', M, nx⟩, .next) t ∧ loc'.length = loc.length ∧
      Lanes25 b (List.range 25) ρ' (.int true 4 24) loc' ∧ lanesA ρ' = permLanes n k (lanesA ρ) := by
  intro n
  induction n with
  | zero =>
    intro k ρ loc hk hr
    obtain rfl : k = 24 := by omega
    refine ⟨[.branch false], loc, ρ, ?_, rfl, hr, rfl⟩
    rw [loop]
    unfold permRound round
    rw [cond_eval hr (by omega)]
    simp only [pure_bind, isTrue_truth]
    rfl
  | succ n ih =>
    intro k ρ loc hk hr
    obtain ⟨t, loc', ρ', e, hl, hr', ha⟩ := permRound_go (nx := nx) hm (by omega) hr
    obtain ⟨t2, loc2, ρ2, e2, hl2, hr2, ha2⟩ := ih (k + 2) ρ' loc' (by omega) hr'
    refine ⟨t ++ t2, loc2, ρ2, ?_, hl2.trans hl, hr2, ?_⟩
    · rw [loop, e]
      simp only [C.bind_def, C.bind', e2]
    · rw [ha2, ha]
      rfl

/-- The lanes in order (/repo/src/sha3/fips202.c:310-335). -/
def Lanes.list (a : Lanes) : List U64 :=
  [a.ba, a.be, a.bi, a.bo, a.bu, a.ga, a.ge, a.gi, a.go, a.gu, a.ka, a.ke, a.ki, a.ko, a.ku, a.ma, a.me, a.mi, a.mo, a.mu,
   a.sa, a.se, a.si, a.so, a.su]

theorem copyFromState_eq {L : List U64} (h : L.length = 25) : Ret (copyFromState L) (· = lanesA fun j => L.getD j 0) := by
  unfold copyFromState
  simp only [wp, h]
  refine ⟨by omega, ?_⟩
  repeat refine ⟨by omega, ?_⟩
  rfl

theorem copyToState_eq {L : List U64} (h : L.length = 25) (a : Lanes) : Ret (copyToState L a) (· = a.list) := by
  obtain ⟨a0, a1, a2, a3, a4, a5, a6, a7, a8, a9, a10, a11, a12, a13, a14, a15, a16, a17, a18, a19,
    a20, a21, a22, a23, a24, rfl⟩ := length_25 h
  unfold copyToState
  simp only [wp, List.set_cons_zero, List.set_cons_succ, List.length_cons, List.length_nil]
  repeat refine ⟨by omega, ?_⟩
  rfl

theorem putR_eq {L : List U64} (h : L.length = 25) (ρ : Nat → U64) :
    putR ρ ((List.range 25).map fun i => (i, i)) L = (lanesA ρ).list := by
  obtain ⟨a0, a1, a2, a3, a4, a5, a6, a7, a8, a9, a10, a11, a12, a13, a14, a15, a16, a17, a18, a19,
    a20, a21, a22, a23, a24, rfl⟩ := length_25 h
  kernel_rfl

theorem permLanes_succ : ∀ n k a, permLanes (n + 1) k a = roundEA (KeccakF_RoundConstants.getD (k + 2 * n + 1) 0)
    (roundAE (KeccakF_RoundConstants.getD (k + 2 * n) 0) (permLanes n k a)) := by
  intro n
  induction n with
  | zero => intro k a; rfl
  | succ n ih =>
    intro k a
    rw [permLanes, ih, permLanes, show k + 2 + 2 * n = k + 2 * (n + 1) by omega]

theorem permute_eq {L : List U64} (h : L.length = 25) :
    Ret (KeccakF1600_StatePermute L) (· = (permLanes 12 0 (lanesA fun j => L.getD j 0)).list) := by
  unfold KeccakF1600_StatePermute
  refine (copyFromState_eq h).bind fun a ha => ?_
  refine Ret.bind (Q := fun a => a = permLanes 12 0 (lanesA fun j => L.getD j 0)) ?_ ?_
  · refine Ret.forStep (m := 12) (fun k a => a = permLanes k 0 (lanesA fun j => L.getD j 0)) (by omega) rfl ?_ ?_ ?_
    · exact ha
    · intro k a hk hI
      simp only [wp]
      have hl : KeccakF_RoundConstants.length = 24 := rfl
      refine ⟨by omega, by omega, ?_⟩
      rw [permLanes_succ, hI, Nat.zero_add]
      rfl
    · intro a hI; exact hI
  · rintro a rfl
    exact copyToState_eq h _

theorem findVar_append {x : String} {v : Val} {l l' : List (String × Val)} (h : findVar x l = some v) :
    findVar x (l ++ l') = some v := by
  induction l with
  | nil => cases h
  | cons y l ih =>
    obtain ⟨y, w⟩ := y
    simp only [findVar, List.cons_append] at h ⊢
    split
    · rename_i e; rw [if_pos e] at h; exact h
    · rename_i e; rw [if_neg e] at h; exact ih h

/-- A variable of type `uint64_t` without value. -/
def isUndef64 : Option Val → Bool
  | some (.undef (.int false 8)) => true
  | _ => false

theorem permDecls_typed : (regNames.all fun x => isUndef64 (findVar x permDecls)) = true := by kernel_rfl

theorem permDecls_regs (b : Nat) : Lanes25 b [] (fun _ => 0) (.undef (.int true 4)) (permDecls ++ [("state", .ptr b 0 false 8)]) := by
  refine ⟨fun x hx => .inl ?_, fun _ _ _ h => absurd h (by simp), rfl, rfl, rfl⟩
  refine findVar_append ?_
  have := List.all_eq_true.1 permDecls_typed x hx
  unfold isUndef64 at this
  split at this
  · assumption
  · cases this

/-- `KeccakF1600_StatePermute`, source text: the state becomes what the model says
(/repo/src/sha3/fips202.c:73-338). -/
theorem text_permute {b : Nat} {L : List U64} (hm : PermMem X M b L) :
    ∃ r t t', KeccakF1600_StatePermute L = .ok r t ∧ r.length = 25 ∧
      fipsFile.run X "KeccakF1600_StatePermute" [.ptr b 0 false 8] M nx = .ok (.undef .void, M.set b (u64s r), nx) t' := by
  obtain ⟨_, tm, em, rfl⟩ := permute_eq hm.length
  obtain ⟨D, hc, hD⟩ := perm_loads
  obtain ⟨t1, l1, e1, n1, r1⟩ := compS_exec (k := 0) (nx := nx) hm (fun h => by cases h) _ _ _ _ _ _ hc _ _ (permDecls_regs b)
  have r2 := (r1.sub (D' := List.range 25) (fun i hi => hD i (List.mem_range.1 hi))).setRound (.int true 4 (0 : Nat))
  obtain ⟨t2, l2, ρ2, e2, n2, r3, a2⟩ := permLoop_go (nx := nx) hm 12 0 _ _ rfl r2
  obtain ⟨t3, e3⟩ := storesN_exec (X := X) (nx := nx) r3 (fun i hi => List.mem_range.2 hi) _ _ _ _ perm_stores M L hm.state hm.length
  rw [putR_eq hm.length, a2, permLoads_run] at e3
  refine ⟨_, tm, t1 ++ (t2 ++ t3), em, rfl, ?_⟩
  have eb : bindParams permuteFun.params [.ptr b 0 false 8] = pure [("state", .ptr b 0 false 8)] := rfl
  have er : permuteFun.ret = .void := rfl
  rw [length_setVar] at n2
  have e4 : exec X (.expr (.asg (.var "round") (.num true 4 0))) ⟨l1, M, nx⟩ =
      pure (⟨setVar "round" (.int true 4 (0 : Nat)) l1, M, nx⟩, .next) := by
    have : wrap true 4 0 = 0 := rfl
    simp only [exec, eval, lval, assign, pure_bind, r1.round]
    rfl
  rw [File.run, fips_permute]
  simp only [callFun, eb, pure_bind]
  rw [declsN_exec _ _ _ _ perm_decls, e1, perm_loop]
  have e5 : exec X (.seq (.for (.expr (.asg (.var "round") (.num true 4 0))) (.bin .lt (.var "round") (.num true 4 24))
      (.asgOp .add (.var "round") (.num true 4 2)) (.block permBody)) permLoop.rest) ⟨l1, M, nx⟩ =
      .ok (⟨l2, M.set b (u64s (permLanes 12 0 (lanesA fun j => L.getD j 0)).list), nx⟩, .next) (t2 ++ t3) := by
    rw [exec, exec, e4]
    have : loop (round X (.bin .lt (.var "round") (.num true 4 24)) (fun st => do
        let r ← eval X (.asgOp .add (.var "round") (.num true 4 2)) st; pure r.2) (exec X (.block permBody)))
        ⟨setVar "round" (.int true 4 (0 : Nat)) l1, M, nx⟩ = .ok (⟨l2, M, nx⟩, .next) t2 := e2
    simp only [pure_bind, this]
    simp only [C.bind_def, C.bind', C.pure_def, leave, n2, Nat.sub_self, List.drop_zero, List.append_nil, e3]
    simp only [exec, C.pure_def, List.append_nil]
  rw [e5]
  simp only [C.bind_def, C.bind', C.pure_def, List.append_nil]

end

end Frodo
