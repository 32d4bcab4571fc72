import Verif.Proof.TextOptAes

/-! # `frodo_mul_add_sa_plus_e` of /repo/src/frodo_macrify.c:126-272, without intrinsics and with A from AES128: text and model -/

namespace Frodo

open Src

theorem set_swap {m : Mem} {b c : Nat} {x y : Blk} (h : b ≠ c) : (m.set b x).set c y = (m.set c y).set b x := by
  funext d
  by_cases h1 : d = b
  · subst h1; simp [Mem.set, h]
  · by_cases h2 : d = c
    · subst h2; simp [Mem.set, h1]
    · simp [Mem.set, h1, h2]

section

variable {X : Ctx} {N : Nat} {F : Mem}

/-- The local variables (/repo/src/frodo_macrify.c:130-147). -/
def saLocT (b next : Nat) (vi vj vq vp : Val) (ps : List (String × Val)) : List (String × Val) :=
  ("Ainit", .ptr b 0 false 2) :: ("aes_key_schedule", .ptr (next + 1) 0 false 1) :: ("A", .ptr (next + 0) 0 false 2) ::
    ("p", vp) :: ("q", vq) :: ("j", vj) :: ("i", vi) :: ps

/-- The same, with the local variable of the loop (/repo/src/frodo_macrify.c:168). -/
def saLocU (L b next : Nat) (vi vj vq vp : Val) (ps : List (String × Val)) : List (String × Val) :=
  ("A_len", .int false 8 L) :: saLocT b next vi vj vq vp ps

/-- `sum += sp[p] * A[p*PARAMS_N + q]` for all p (/repo/src/frodo_macrify.c:240-242). -/
theorem dotText_stepU {L b next n j q i nx nx' bo bs k bi ki : Nat} {A sp : List U16} {sum : U16} {v : Int} {M : Mem} {rest : Stmt} {f : U16 → C α}
    {Q : α → St × Flow → Prop} (hn : n ≤ 1344) (hq : q < n) (hA : M (next + 0) = u16s A) (hS : M nx = s16s sp)
    (hk : ∀ sum : U16, Refines False (f sum) (exec X rest ⟨("sp", .ptr nx 0 true 2) :: ("sum", .int false 2 sum.toNat) ::
      saLocU L b next (.int true 4 i) (.int true 4 j) (.int true 4 q) (.int true 4 8) (mulArgs bo bs 0 bs k bi ki), M, nx'⟩) Q) :
    Refines False (Frodo.forC 0 8 1 sum (fun p sum => do
        let x ← rd sp p
        let y ← rd A (p * n + q)
        let m ← int (i16 (x : Int) * (y : Int))
        let r ← int ((sum : Int) + m)
        pure (u16 r)) >>= f)
      (exec X (.seq (.for (.expr (.asg (.var "p") (.num true 4 0))) (.bin .lt (.var "p") (.num true 4 8)) (.inc false true (.var "p"))
        (.block (.seq (.expr (.asgOp .add (.var "sum") (.bin .mul (.idx (.var "sp") (.var "p"))
          (.idx (.var "A") (.bin .add (.bin .mul (.var "p") (.num true 4 n)) (.var "q")))))) .skip))) rest)
        ⟨("sp", .ptr nx 0 true 2) :: ("sum", .int false 2 sum.toNat) ::
          saLocU L b next (.int true 4 i) (.int true 4 j) (.int true 4 q) (.int true 4 v) (mulArgs bo bs 0 bs k bi ki), M, nx'⟩) Q := by
  unfold saLocU saLocT mulArgs
  csim [loopF_eq]
  refine (Refines.forC (fun p (x : U16) => (⟨("sp", .ptr nx 0 true 2) :: ("sum", .int false 2 x.toNat) ::
      saLocU L b next (.int true 4 i) (.int true 4 j) (.int true 4 q) (.int true 4 p) (mulArgs bo bs 0 bs k bi ki), M, nx'⟩ : St)) (fun _ _ => True)
      (Nat.zero_le _) ?_ trivial ?_ ?_).bind ?_
  · rfl
  · intro p x hp _
    have h1 : p * n ≤ 8 * 1344 := Nat.mul_le_mul (by omega) hn
    unfold saLocU saLocT mulArgs
    csim [hA, hS]
    cstep
    refine Refines.rdS fun a _ => ?_
    csim [wrap4_i16]
    refine Refines.rd16 fun b _ => ?_
    csim [wrap4_i16]
    cgo
    exact .pure ⟨rfl, trivial⟩
  · intro r _
    unfold saLocU saLocT mulArgs
    csim
    exact Refines.branchF (by simp)
  · rintro x _ ⟨rfl, -⟩
    csim
    exact hk x

theorem saTail_eqU {P : Params} {L b next j q i nx nx' bo bs bi ki : Nat} {A sp e : List U16} {pre : List Int} {sum : U16} {M : Mem}
    (hn : P.n ≤ 1344) (hq : q < P.n) (hj : j < 8) (hA : M (next + 0) = u16s A) (hS : M nx = s16s sp) (n1 : next + 0 ≠ bs) (n2 : nx ≠ bs) :
    Refines False (saWords P sp A j q sum e)
      (exec X (saTail P) ⟨("sp", .ptr nx 0 true 2) :: ("sum", .int false 2 sum.toNat) ::
          saLocU L b next (.int true 4 i) (.int true 4 j) (.int true 4 q) (.int true 4 8) (mulArgs bo bs 0 bs pre.length bi ki),
          M.set bs ⟨false, 2, pre ++ ofU16 e⟩, nx'⟩)
      fun r x => ∃ v : Int, x = (⟨("sp", .ptr nx 0 true 2) :: ("sum", .int false 2 v) ::
          saLocU L b next (.int true 4 i) (.int true 4 j) (.int true 4 q) (.int true 4 8) (mulArgs bo bs 0 bs pre.length bi ki),
          M.set bs ⟨false, 2, pre ++ ofU16 r⟩, nx'⟩, .next) := by
  unfold saWords saTail
  refine dotText_stepU hn hq (by rw [set_ne _ _ n1, hA]) (by rw [set_ne _ _ n2, hS]) fun sum => ?_
  have m4 : j * P.n ≤ 7 * 1344 := Nat.mul_le_mul (by omega) hn
  unfold saLocU saLocT mulArgs
  csim
  refine Refines.tail ?_
  cstep
  exact .pure ⟨_, rfl⟩

/-- Eight rows (/repo/src/frodo_macrify.c:233-246). -/
theorem Run.accSaU {P : Params} {E : Env} {L b next i bo bs bk bi ki : Nat} {w : Int} {A s e : List U16} {pre : List Int} {rest : Stmt}
    {k : List U16 → C α} {Q : α → St × Flow → Prop} (hP : P.Small) (hi : i + 8 ≤ P.n) (hb0 : next + 0 < N) (hb2 : bs < N)
    (n1 : next + 0 ≠ bs) (hA : F (next + 0) = u16s A) (hS : F bs = ⟨false, 2, pre ++ ofU16 e⟩)
    (hpre : pre.length = bk) (hps : pre = ofU16 s) (j2 : JunkAt E X 36 16 "sp")
    (hk : ∀ r, Run X N (saLocU L b next (.int true 4 i) (.int true 4 P.nbar) (.int true 4 P.n) (.int true 4 8) (mulArgs bo bs 0 bs bk bi ki))
      (F.set bs ⟨false, 2, pre ++ ofU16 r⟩) rest (k r) Q) :
    Run X N (saLocU L b next (.int true 4 i) (.int true 4 w) (.int true 4 8) (.int true 4 P.n) (mulArgs bo bs 0 bs bk bi ki)) F
      (.seq (.for (.expr (.asg (.var "j") (.num true 4 0))) (.bin .lt (.var "j") (.num true 4 P.nbar)) (.inc false true (.var "j"))
        (.block (.seq (.decl (.int false 2) "sum" (some (.num true 4 0))) (.seq (.declArr true 2 "sp" (.num true 4 8) none)
          (.seq (.for (.expr (.asg (.var "p") (.num true 4 0))) (.bin .lt (.var "p") (.num true 4 8)) (.inc false true (.var "p"))
            (.block (.seq (.expr (.asg (.idx (.var "sp") (.var "p")) (.idx (.var "s")
              (.bin .add (.bin .add (.bin .mul (.var "j") (.num true 4 P.n)) (.var "i")) (.var "p"))))) .skip)))
          (.seq (.for (.expr (.asg (.var "q") (.num true 4 0))) (.bin .lt (.var "q") (.num true 4 P.n)) (.inc false true (.var "q"))
            (.block (.seq (.expr (.asg (.var "sum") (.idx (.var "e") (.bin .add (.bin .mul (.var "j") (.num true 4 P.n)) (.var "q")))))
              (saTail P)))) .skip)))))) rest)
      (sa_accumulate_generic E P s i A e >>= k) Q := by
  obtain ⟨q1, q2, q3, q4, -⟩ := hP
  subst hpre
  unfold sa_accumulate_generic
  refine Run.forMemStep (fun j => saLocU L b next (.int true 4 i) (.int true 4 j) (.int true 4 (if j = 0 then 8 else P.n)) (.int true 4 (if j = 0 then P.n else 8))
      (mulArgs bo bs 0 bs pre.length bi ki))
    (fun j => saLocU L b next (.int true 4 i) (.int true 4 j) (.int true 4 P.n) (.int true 4 8) (mulArgs bo bs 0 bs pre.length bi ki))
    (fun r : List U16 => F.set bs ⟨false, 2, pre ++ ofU16 r⟩) (by omega) (Nat.mod_one _) ?_ ?_ ?_ ?_ ?_ rfl ?_
  · rw [set_self _ hS]
  · intro M nx
    unfold saLocU saLocT mulArgs
    csim
  · intro k M nx hk
    unfold saLocU saLocT mulArgs
    csim
  · intro k M nx hk
    refine ⟨.int true 4 k, ?_⟩
    unfold saLocU saLocT mulArgs
    csim
  · intro j r hj _ M nx hn hM
    have hA' : M (next + 0) = u16s A := by rw [hM _ hb0, set_ne _ _ n1, hA]
    have hS' : M bs = ⟨false, 2, pre ++ ofU16 r⟩ := by rw [hM _ hb2, set_same]
    have m1 : next + 0 ≠ nx := by omega
    have m2 : nx ≠ bs := by omega
    have m3 : bs ≠ nx := by omega
    have m4 : j * P.n ≤ 7 * 1344 := Nat.mul_le_mul (by omega) q1
    unfold saLocU saLocT mulArgs
    csim [loopF_eq, newArr_junkS16 j2]
    refine (Refines.forC (fun p (x : List U16) => (⟨("sp", .ptr nx 0 true 2) :: ("sum", .int false 2 0) ::
      saLocU L b next (.int true 4 i) (.int true 4 j) (.int true 4 (if j = 0 then 8 else P.n)) (.int true 4 p) (mulArgs bo bs 0 bs pre.length bi ki),
      M.set nx (s16s x), nx + 1⟩ : St)) (fun _ _ => True) (Nat.zero_le _) ?_ trivial ?_ ?_).bind ?_
    · simp [saLocU, saLocT, mulArgs]
    · intro p x hp _
      unfold saLocU saLocT mulArgs
      csim [hS', m3]
      cstep
      rw [hps]
      refine Refines.rdPart fun b _ => ?_
      csim
      refine Refines.tail (Refines.wrS ?_ fun _ _ _ => ?_)
      · csim
      exact .pure ⟨rfl, trivial⟩
    · intro r _
      unfold saLocU saLocT mulArgs
      csim
      exact Refines.branchF (by simp)
    · rintro x _ ⟨rfl, -⟩
      unfold saLocU saLocT mulArgs
      csim [loopF_eq]
      refine Refines.tail ((Refines.forRel (fun q (y : List U16) (st : St) => ∃ v : Int, st = (⟨("sp", .ptr nx 0 true 2) :: ("sum", .int false 2 v) ::
        saLocU L b next (.int true 4 i) (.int true 4 j) (.int true 4 q) (.int true 4 8) (mulArgs bo bs 0 bs pre.length bi ki),
        (M.set nx (s16s x)).set bs ⟨false, 2, pre ++ ofU16 y⟩, nx + 1⟩ : St)) (Nat.zero_le _) ?_ ?_ ?_).bind ?_)
      · refine ⟨0, ?_⟩
        have eM : (M.set nx (s16s x)).set bs ⟨false, 2, pre ++ ofU16 r⟩ = M.set nx (s16s x) := set_self _ (by rw [set_ne _ _ m3, hS'])
        rw [eM]
        rfl
      · rintro q y _ hq ⟨v, rfl⟩
        unfold saLocU saLocT mulArgs
        csim
        cstep
        cstep
        csim
        refine Refines.tail ((saTail_eqU q1 hq (by omega) (by rw [set_ne _ _ m1, hA']) (set_same M nx (s16s x)) n1 m2).bind ?_)
        rintro r' _ ⟨v, rfl⟩
        unfold saLocU saLocT mulArgs
        csim
        exact .pure ⟨_, rfl, v, rfl⟩
      · rintro y _ ⟨v, rfl⟩
        unfold saLocU saLocT mulArgs
        csim
        exact Refines.branchF (by simp)
      · rintro r' _ ⟨_, rfl, v, rfl⟩
        unfold saLocU saLocT mulArgs
        csim
        refine .pure ⟨rfl, rfl, Nat.le_succ_of_le hn, fun c hc => ?_⟩
        show ((M.set nx (s16s x)).set bs _) c = _
        by_cases h : c = bs
        · rw [h, set_same, set_same]
        · rw [set_ne _ _ h, set_ne _ _ h, set_ne _ _ (by omega), hM c hc, set_ne _ _ h]
  · intro r
    rw [if_neg (by omega), if_neg (by omega)]
    exact hk r

/-- `Ainit[x] = y` (/repo/src/frodo_macrify.c:149-156, 164). -/
theorem fillU_step {b nx' x : Nat} {v : Int} {T : List U16} {M : Mem} {loc : List (String × Val)} {ix vx : Expr} {rest : Stmt} {k : List U16 → C α}
    {Q : α → St × Flow → Prop} (v1 : findVar "Ainit" loc = some (.ptr b 0 false 2))
    (h1 : ∀ M, eval X ix ⟨loc, M, nx'⟩ = pure (.int true 4 (x : Nat), ⟨loc, M, nx'⟩)) (h2 : ∀ M, eval X vx ⟨loc, M, nx'⟩ = pure (.int true 4 v, ⟨loc, M, nx'⟩))
    (hk : ∀ T', Refines False (k T') (exec X rest ⟨loc, M.set b (u16s T'), nx'⟩) Q) :
    Refines False (wr T x (u16 v) >>= k)
      (exec X (.seq (.expr (.asg (.idx (.var "Ainit") ix) vx)) rest) ⟨loc, M.set b (u16s T), nx'⟩) Q := by
  csim [v1, h1, h2]
  cstep
  exact hk _

/-- The column numbers (/repo/src/frodo_macrify.c:148-157). -/
theorem Run.fillColsU {P : Params} {b next : Nat} {vi vq vp : Val} {ps : List (String × Val)} {T : List U16} {rest : Stmt} {k : List U16 → C α}
    {Q : α → St × Flow → Prop} (hP : P.Small) (hb : b < N) (hT : F b = u16s T)
    (hk : ∀ r, Run X N (saLocT b next vi (.int true 4 P.n) vq vp ps) (F.set b (u16s r)) rest (k r) Q) :
    Run X N (saLocT b next vi (.undef (.int true 4)) vq vp ps) F
      (.seq (.for (.expr (.asg (.var "j") (.num true 4 0))) (.bin .lt (.var "j") (.num true 4 P.n)) (.asgOp .add (.var "j") (.num true 4 8))
        (.block
          (.seq (.expr (.asg (.idx (.var "Ainit") (.bin .add (.bin .add (.bin .mul (.num true 4 0) (.num true 4 P.n)) (.var "j")) (.num true 4 1))) (.var "j")))
          (.seq (.expr (.asg (.idx (.var "Ainit") (.bin .add (.bin .add (.bin .mul (.num true 4 1) (.num true 4 P.n)) (.var "j")) (.num true 4 1))) (.var "j")))
          (.seq (.expr (.asg (.idx (.var "Ainit") (.bin .add (.bin .add (.bin .mul (.num true 4 2) (.num true 4 P.n)) (.var "j")) (.num true 4 1))) (.var "j")))
          (.seq (.expr (.asg (.idx (.var "Ainit") (.bin .add (.bin .add (.bin .mul (.num true 4 3) (.num true 4 P.n)) (.var "j")) (.num true 4 1))) (.var "j")))
          (.seq (.expr (.asg (.idx (.var "Ainit") (.bin .add (.bin .add (.bin .mul (.num true 4 4) (.num true 4 P.n)) (.var "j")) (.num true 4 1))) (.var "j")))
          (.seq (.expr (.asg (.idx (.var "Ainit") (.bin .add (.bin .add (.bin .mul (.num true 4 5) (.num true 4 P.n)) (.var "j")) (.num true 4 1))) (.var "j")))
          (.seq (.expr (.asg (.idx (.var "Ainit") (.bin .add (.bin .add (.bin .mul (.num true 4 6) (.num true 4 P.n)) (.var "j")) (.num true 4 1))) (.var "j")))
          (.seq (.expr (.asg (.idx (.var "Ainit") (.bin .add (.bin .add (.bin .mul (.num true 4 7) (.num true 4 P.n)) (.var "j")) (.num true 4 1))) (.var "j")))
          .skip)))))))))) rest)
      (Frodo.forC 0 P.n 8 T (fun j T => do
        let T ← wr T (0 * P.n + j + 1) (UINT16_TO_LE .le (u16 j))
        let T ← wr T (1 * P.n + j + 1) (UINT16_TO_LE .le (u16 j))
        let T ← wr T (2 * P.n + j + 1) (UINT16_TO_LE .le (u16 j))
        let T ← wr T (3 * P.n + j + 1) (UINT16_TO_LE .le (u16 j))
        let T ← wr T (4 * P.n + j + 1) (UINT16_TO_LE .le (u16 j))
        let T ← wr T (5 * P.n + j + 1) (UINT16_TO_LE .le (u16 j))
        let T ← wr T (6 * P.n + j + 1) (UINT16_TO_LE .le (u16 j))
        wr T (7 * P.n + j + 1) (UINT16_TO_LE .le (u16 j))) >>= k) Q := by
  have q1 := hP.n; have q8 := hP.n8
  refine Run.forMemStep (fun j => saLocT b next vi (.int true 4 j) vq vp ps) (fun j => saLocT b next vi (.int true 4 j) vq vp ps)
    (fun r : List U16 => F.set b (u16s r)) (by omega) q8 ?_ ?_ ?_ ?_ ?_ rfl hk
  · rw [set_self _ hT]
  · intro M nx
    unfold saLocT
    csim
  · intro j M nx hj
    unfold saLocT
    csim
  · intro j M nx hj
    refine ⟨.int true 4 (j + 8 : Nat), ?_⟩
    unfold saLocT
    csim
  · intro j T hj _ M nx hn hA
    have hM : M b = u16s T := by rw [hA _ hb, set_same]
    simp only [UINT16_TO_LE]
    have e : ∀ r : Nat, r < 8 → ∀ M, eval X (.bin .add (.bin .add (.bin .mul (.num true 4 r) (.num true 4 P.n)) (.var "j")) (.num true 4 1))
        ⟨saLocT b next vi (.int true 4 j) vq vp ps, M, nx⟩ =
          pure (.int true 4 (r * P.n + j + 1 : Nat), ⟨saLocT b next vi (.int true 4 j) vq vp ps, M, nx⟩) := by
      intro r hr M
      have : r * P.n ≤ 7 * 1344 := Nat.mul_le_mul (by omega) q1
      unfold saLocT
      csim
    have e' : ∀ M, eval X (.var "j") ⟨saLocT b next vi (.int true 4 j) vq vp ps, M, nx⟩ =
        pure (.int true 4 j, ⟨saLocT b next vi (.int true 4 j) vq vp ps, M, nx⟩) := by
      intro M
      unfold saLocT
      csim
    have hL : findVar "Ainit" (saLocT b next vi (.int true 4 j) vq vp ps) = some (.ptr b 0 false 2) := by unfold saLocT; rfl
    rw [← set_self M hM, exec_block]
    refine Refines.tail (Refines.bind (R := fun T' x => x = (⟨saLocT b next vi (.int true 4 j) vq vp ps, M.set b (u16s T'), nx⟩, .next)) ?_ ?_)
    · refine Refines.tail ?_
      simp only [bind_assoc]
      refine fillU_step hL (e 0 (by omega)) e' fun T => ?_
      refine fillU_step hL (e 1 (by omega)) e' fun T => ?_
      refine fillU_step hL (e 2 (by omega)) e' fun T => ?_
      refine fillU_step hL (e 3 (by omega)) e' fun T => ?_
      refine fillU_step hL (e 4 (by omega)) e' fun T => ?_
      refine fillU_step hL (e 5 (by omega)) e' fun T => ?_
      refine fillU_step hL (e 6 (by omega)) e' fun T => ?_
      refine fillU_step hL (e 7 (by omega)) e' fun T => ?_
      exact .pure rfl
    · rintro T' _ rfl
      refine .pure ⟨rfl, ?_, hn, ?_⟩
      · simp [leave]
      · have h := hA.set b (u16s T')
        simp only [set_set] at h
        exact h

theorem later_or (c : Prop) [Decidable c] (v : Int) : later true 4 c v = .undef (.int true 4) ∨ ∃ w, later true 4 c v = .int true 4 w := by
  unfold later
  split
  · exact .inl rfl
  · exact .inr ⟨v, rfl⟩

/-- A row number (/repo/src/frodo_macrify.c:163-165). -/
theorem Run.fillRowU {P : Params} {b next i q : Nat} {vj vp : Val} {ps : List (String × Val)} {T : List U16} {rest : Stmt} {k : List U16 → C α}
    {Q : α → St × Flow → Prop} (hv : vp = .undef (.int true 4) ∨ ∃ w, vp = .int true 4 w) (hP : P.Small) (hi : i < 2 ^ 20) (hq : q < 8) (hb : b < N)
    (hT : F b = u16s T)
    (hk : ∀ r, Run X N (saLocT b next (.int true 4 i) vj (.int true 4 q) (.int true 4 P.n) ps) (F.set b (u16s r)) rest (k r) Q) :
    Run X N (saLocT b next (.int true 4 i) vj (.int true 4 q) vp ps) F
      (.seq (.for (.expr (.asg (.var "p") (.num true 4 0))) (.bin .lt (.var "p") (.num true 4 P.n)) (.asgOp .add (.var "p") (.num true 4 8))
        (.block (.seq (.expr (.asg (.idx (.var "Ainit") (.bin .add (.bin .mul (.var "q") (.num true 4 P.n)) (.var "p"))) (.bin .add (.var "i") (.var "q"))))
          .skip))) rest)
      (Frodo.forC 0 P.n 8 T (fun p T => wr T (q * P.n + p) (u16 ((i : Int) + q))) >>= k) Q := by
  have q1 := hP.n; have q8 := hP.n8
  have c1 : q * P.n ≤ 7 * 1344 := Nat.mul_le_mul (by omega) q1
  refine Run.forMemStep (fun p => saLocT b next (.int true 4 i) vj (.int true 4 q) (.int true 4 p) ps)
    (fun p => saLocT b next (.int true 4 i) vj (.int true 4 q) (.int true 4 p) ps)
    (fun r : List U16 => F.set b (u16s r)) (by omega) q8 ?_ ?_ ?_ ?_ ?_ rfl hk
  · rw [set_self _ hT]
  · intro M nx
    unfold saLocT
    rcases hv with rfl | ⟨w, rfl⟩ <;> csim
  · intro p M nx hj
    unfold saLocT
    csim
  · intro p M nx hj
    refine ⟨.int true 4 (p + 8 : Nat), ?_⟩
    unfold saLocT
    csim
  · intro p T hp _ M nx hn hA
    have hM : M b = u16s T := by rw [hA _ hb, set_same]
    rw [← set_self M hM, exec_block]
    refine Refines.tail (Refines.bind (R := fun T' x => x = (⟨saLocT b next (.int true 4 i) vj (.int true 4 q) (.int true 4 p) ps, M.set b (u16s T'), nx⟩, .next)) ?_ ?_)
    · refine Refines.tail ?_
      refine fillU_step (b := b) (by unfold saLocT; rfl) (fun M => ?_) (fun M => ?_) fun T => .pure rfl
      · unfold saLocT
        csim
      · unfold saLocT
        csim
    · rintro T' _ rfl
      refine .pure ⟨rfl, ?_, hn, ?_⟩
      · simp [leave]
      · have h := hA.set b (u16s T')
        simp only [set_set] at h
        exact h

/-- The row numbers (/repo/src/frodo_macrify.c:162-166). -/
theorem Run.fillRowsU {P : Params} {b next i : Nat} {vj vq vp : Val} {ps : List (String × Val)} {T : List U16} {rest : Stmt} {k : List U16 → C α}
    {Q : α → St × Flow → Prop} (hv : vp = .undef (.int true 4) ∨ ∃ w, vp = .int true 4 w) (hv' : vq = .undef (.int true 4) ∨ ∃ w, vq = .int true 4 w)
    (hP : P.Small) (hi : i < 2 ^ 20) (hb : b < N) (hT : F b = u16s T)
    (hk : ∀ r, Run X N (saLocT b next (.int true 4 i) vj (.int true 4 8) (.int true 4 P.n) ps) (F.set b (u16s r)) rest (k r) Q) :
    Run X N (saLocT b next (.int true 4 i) vj vq vp ps) F
      (.seq (.for (.expr (.asg (.var "q") (.num true 4 0))) (.bin .lt (.var "q") (.num true 4 8)) (.inc false true (.var "q"))
        (.block (.seq (.for (.expr (.asg (.var "p") (.num true 4 0))) (.bin .lt (.var "p") (.num true 4 P.n)) (.asgOp .add (.var "p") (.num true 4 8))
          (.block (.seq (.expr (.asg (.idx (.var "Ainit") (.bin .add (.bin .mul (.var "q") (.num true 4 P.n)) (.var "p"))) (.bin .add (.var "i") (.var "q"))))
            .skip))) .skip))) rest)
      (Frodo.forC 0 8 1 T (fun q T => Frodo.forC 0 P.n 8 T (fun p T => wr T (q * P.n + p) (u16 ((i : Int) + q)))) >>= k) Q := by
  refine Run.forMemStep (fun q => saLocT b next (.int true 4 i) vj (.int true 4 q) (if q = 0 then vp else .int true 4 P.n) ps)
    (fun q => saLocT b next (.int true 4 i) vj (.int true 4 q) (.int true 4 P.n) ps)
    (fun r : List U16 => F.set b (u16s r)) (by omega) (Nat.mod_one _) ?_ ?_ ?_ ?_ ?_ rfl ?_
  · rw [set_self _ hT]
  · intro M nx
    unfold saLocT
    rcases hv' with rfl | ⟨w, rfl⟩ <;> csim
  · intro p M nx hj
    unfold saLocT
    csim
  · intro q M nx hj
    refine ⟨.int true 4 q, ?_⟩
    unfold saLocT
    csim
  · intro q T hq _
    refine Run.block ?_
    rw [← bind_pure (Frodo.forC 0 P.n 8 T _)]
    refine Run.fillRowU ?_ hP hi (by omega) hb (set_same ..) fun r => ?_
    · split
      · exact hv
      · exact .inr ⟨_, rfl⟩
    · rw [set_set]
      exact Run.skip fun M nx hn hA => ⟨rfl, by simp [leave, saLocT], hn, hA⟩
  · intro r
    exact hk r

/-- An array declared after a call. -/
theorem Run.arrMid {loc : List (String × Val)} {x : String} {n len : Nat} {e : Expr} {init : Option (List Expr)} {s : Bool} {d : List Int} {rest : Stmt}
    {mo : C α} {Q : α → St × Flow → Prop} (he : Ev X N loc F e (.int true 4 len)) (hd : newArr X x s n len init = d)
    (hk : ∀ b F', N ≤ b → MAgree N F' F → Run X (b + 1) ((x, .ptr b 0 s n) :: loc) (F'.set b ⟨s, n, d⟩) rest mo Q) :
    Run X N loc F (.seq (.declArr s n x e init) rest) mo Q := by
  intro M nx hn hA
  simp only [exec, bind_assoc]
  refine Refines.right (he M _ hn hA) ?_
  simp only [pure_bind, Int.toNat_natCast, hd]
  exact hk nx M hn hA _ _ (Nat.le_refl _) fun _ _ => rfl

theorem Run.declSize {loc : List (String × Val)} {x : String} {e : Expr} {v : Nat} {rest : Stmt}
    {mo : C α} {Q : α → St × Flow → Prop} (he : Ev X N loc F e (.int false 8 v)) (hv : v < 2 ^ 64)
    (hk : Run X N ((x, .int false 8 v) :: loc) F rest mo Q) :
    Run X N loc F (.seq (.decl (.int false 8) x (some e)) rest) mo Q := by
  intro M nx hn hA
  simp only [exec, bind_assoc]
  refine Refines.right (he M _ hn hA) ?_
  csim
  exact hk M nx hn hA

end

variable {Fs : List File} {X : Ctx} {d N : Nat} {F : Mem}

attribute [local irreducible] Ev EvL Run DRun Does

theorem text_mul_sa_aes {P : Params} {B : Build} {E : Env} (hP : P.Small) (hB : B.arch = .le) (hi : B.impl = .generic)
    (hg : B.gen = .aes) (hc : B.aes = .standalone .c) (ha : X.arch = .le) {a2 : Nat}
    (hS : AesAt (link Fs X d) E.junk) (j1 : JunkAt E X 30 8 "aes_key_schedule") (j2 : JunkAt E X 36 16 "sp")
    {m : Mem} {next bo bs bi k ki : Nat}
    {O S : List U16} {I : List U8} (hm1 : m bo = u16s O) (hm2 : m bs = u16s S) (hm4 : m bi = u8s I)
    (hb1 : bo < next) (hb2 : bs < next) (hb4 : bi < next) (hn1 : bs ≠ bo)
    (hk1 : k ≤ S.length) (hk3 : ki ≤ I.length) :
    Refines False (sa_plus_e_optimized B E P a2 O (S.take k) (S.drop k) (I.drop ki))
      (callFun (link Fs X d) (mulSaAesFun.at P) [.ptr bo 0 false 2, .ptr bs 0 false 2, .ptr bs k false 2, .ptr bi ki false 1] m next)
      fun r x => x.1 = .int true 4 1 ∧ next ≤ x.2.2 ∧ MAgree next x.2.1 ((m.set bo (u16s r.1)).set bs (u16s (S.take k ++ r.2))) := by
  have c4 : 1 ≤ P.n * 8 := by have := hP.n1; omega
  have c3 : P.n * P.nbar ≤ 1344 * 8 := Nat.mul_le_mul hP.n hP.nbar
  have q2 := hP.n; have q3 := hP.nbar; have h8 := hP.n8
  refine run_one (ps := mulArgs bo bs 0 bs k bi ki) rfl (by rfl) ?_
  unfold mulSaAesFun mulArgs
  cat
  apply DRun.assoc
  apply DRun.undef
  apply DRun.assoc
  apply DRun.undef
  apply DRun.assoc
  apply DRun.undef
  apply DRun.undef
  refine DRun.arr 0 (by ev) rfl (newArr_zeroU16 c4) ?_
  refine DRun.arr 1 (by ev) rfl (newArr_junk8 (by unfold JunkAt at j1 ⊢; rwa [link_junk]) _) ?_
  refine Run.start ?_
  lists
  simp only [sa_plus_e_optimized, sa_plus_e_optimized_full, sa_plus_e_core, hg, hc, hB, setup128, freeSched, bind_assoc, pure_bind]
  refine Run.callEq (EvL.cons (by ev) (EvL.cons (by ev) EvL.nil))
    (hS.load (by rw [fr_arg hb4, hm4]) (fr_at rfl) (by omega) (by omega) (by omega) hk3) rfl ?_
  intro R
  upd
  lists
  refine Run.arrMid (by ev) (newArr_zeroU16 c4) ?_
  intro b F hb hF
  have f1 : F (next + 1) = u8s R := by rw [hF _ (by omega)]; exact fr_at rfl
  have f0 : F (next + 0) = u16s (List.replicate (P.n * 8) 0) := by rw [hF _ (by omega)]; exact fr_at rfl
  have fm : ∀ c, c < next → F c = m c := fun c h => by rw [hF _ (by omega), fr_arg h]
  refine Run.fillColsU (next := next) (vi := .undef (.int true 4)) (vq := .undef (.int true 4)) (vp := .undef (.int true 4)) (ps := mulArgs bo bs 0 bs k bi ki) hP ?_ ?_ ?_
  · omega
  · exact set_same ..
  intro T
  rw [set_set]
  unfold sa_loop
  simp only [bind_assoc, pure_bind]
  refine Run.forMemStep (fun i => saLocT b next (.int true 4 i) (.int true 4 (if i = 0 then P.n else P.nbar)) (later true 4 (i = 0) P.n) (later true 4 (i = 0) 8)
      (mulArgs bo bs 0 bs k bi ki))
    (fun i => saLocT b next (.int true 4 i) (.int true 4 P.nbar) (.int true 4 P.n) (.int true 4 8) (mulArgs bo bs 0 bs k bi ki))
    (fun s : List U16 × List U16 × List U16 => ((F.set bs (u16s (S.take k ++ s.2.2))).set (next + 0) (u16s s.1)).set b (u16s s.2.1)) (by omega) h8 ?_ ?_ ?_ ?_ ?_ rfl ?_
  · rw [List.take_append_drop, set_self F (b := bs) (by rw [fm _ hb2, hm2]), set_self F f0]
  · intro M nx
    unfold saLocT mulArgs
    csim
    rfl
  · intro i M nx hi
    unfold saLocT mulArgs
    csim
  · intro i M nx hi
    refine ⟨.int true 4 (i + 8 : Nat), ?_⟩
    unfold saLocT mulArgs
    csim
    simp [later]
  · rintro i ⟨A, T, e⟩ hi' hm
    refine Run.block ?_
    unfold sa_gen_aes
    simp only [hB, hc, encrypt128, UINT16_TO_LE, bind_assoc, pure_bind]
    refine Run.fillRowsU (later_or _ _) (later_or _ _) hP (by omega) (by omega) (set_same ..) ?_
    intro T
    rw [set_set]
    apply Run.asBytes; intro c1
    have c2 : 8 * P.n < 2 ^ 31 := by omega
    refine Run.declSize (Ev.size (Ev.mul Ev.nat Ev.nat (by omega) (by omega) c2) c2) (by omega) ?_
    refine Run.callEq (EvL.cons (Ev.castTo (w := .ptr b 0 false 1) (Ev.varP (b := b) (off := 0) (s := false) (n := 2) rfl) (by csim))
      (EvL.cons (Ev.varI rfl)
      (EvL.cons (Ev.varP (b := next + 1) (off := 0) (s := false) (n := 1) rfl) (EvL.cons (Ev.castTo (w := .ptr (next + 0) 0 false 1)
        (Ev.varP (b := next + 0) (off := 0) (s := false) (n := 2) rfl) (by csim)) EvL.nil))))
      (hS.enc (a := E.addr .aesSched) (v := .u16) (I := toBytes .le T) (O := toBytes .le A) (R := R) ?_ ?_ ?_ ?_ ?_ (by omega) (by omega) (by omega) (by omega)
        (by omega) (by omega) (by omega)) ?_ ?_
    · rw [View.blk, ofBytes_toBytes, set_same]
    · rw [set_ne _ _ (by omega), set_ne _ _ (by omega), set_ne _ _ (by omega), f1]
    · rw [View.blk, ofBytes_toBytes, set_ne _ _ (by omega), set_same]
    · rw [length_toBytes]; omega
    · rw [length_toBytes]; omega
    · rfl
    intro y
    rw [set_swap (b := b) (c := next + 0) (by omega), set_set]
    unfold sa_accumulate
    simp only [hi]
    refine Run.accSaU (L := 8 * P.n * 2) (b := b) (pre := ofU16 (S.take k)) (s := S.take k) (e := e) hP hi' (by omega) (by omega) (by omega) ?_ ?_
      (length_take16 hk1) rfl (by unfold JunkAt at j2 ⊢; rwa [link_junk]) ?_
    · rw [set_ne _ _ (by omega), set_same]; rfl
    · rw [set_ne _ _ (by omega), set_ne _ _ (by omega), set_same, ← u16s_append]
    intro r
    rw [u16s_append, set_swap (b := b) (c := bs) (by omega), set_swap (b := next + 0) (c := bs) (by omega), set_set]
    exact Run.skip fun M nx hn hA => ⟨rfl, rfl, hn, hA⟩
  · rintro ⟨A, T, r⟩
    refine Run.callEq (EvL.cons (v := .ptr bo 0 false 1) (Ev.castTo (Ev.varP rfl) ?_) (EvL.cons (v := .ptr bs (k * 2) false 1) (Ev.castTo (Ev.varP rfl) ?_)
      (EvL.cons (v := .int true 4 (2 * (P.n * P.nbar) : Nat)) ?_ EvL.nil)))
      (Does.memcpyBytes16 (L := O) (I := S.take k ++ r) ha ?_ ?_ (by omega)
        (by omega) hn1 (by omega) ?_) ?_ ?_
    · csim
    · csim
    · have c5 : 2 * P.n * P.nbar < 2 ^ 31 := by rw [Nat.mul_assoc]; omega
      rw [← Nat.mul_assoc]
      ev
    · rw [set_ne _ _ (by omega), set_ne _ _ (by omega), set_ne _ _ (Ne.symm hn1), fm _ hb1, hm1]
    · rw [set_ne _ _ (by omega), set_ne _ _ (by omega), set_same]
    · simp; omega
    · rw [List.drop_left' (by simp; omega)]
    intro O'
    simp only [free128, bind_assoc, pure_bind]
    refine Run.callEq (EvL.cons (Ev.varP (b := next + 1) (off := 0) (s := false) (n := 1) rfl) EvL.nil) (hS.free (R := R) ?_ (by omega)) rfl ?_
    · rw [set_ne _ _ (by omega), set_ne _ _ (by omega), set_ne _ _ (by omega), set_ne _ _ (by omega), f1]
    intro R'
    refine Run.retOne fun st h1 h2 => ⟨rfl, Nat.le_trans (by omega) h1, fun c hc => ?_⟩
    rw [h2 c (by omega), set_ne _ _ (by omega)]
    by_cases h : c = bo
    · rw [h, set_same, set_ne _ _ (Ne.symm hn1), set_same]
    · rw [set_ne _ _ h, set_ne _ _ (by omega), set_ne _ _ (by omega)]
      by_cases h' : c = bs
      · rw [h', set_same, set_same]
      · rw [set_ne _ _ h', set_ne _ _ h', set_ne _ _ h, fm _ hc]

end Frodo
