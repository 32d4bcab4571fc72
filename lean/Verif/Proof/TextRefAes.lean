import Verif.Proof.TextWithAes
import Verif.Text.RefAesFuns

/-! # `frodo_mul_add_as_plus_e` and `frodo_mul_add_sa_plus_e` of /repo/src/frodo_macrify_reference.c:14-127 with A from AES128: text and model -/

namespace Frodo

open Src

/-- `AES128_ECB_enc_sch` with `ciphertext == plaintext` does what the model says (/repo/src/frodo_macrify_reference.c:33, 91). -/
def AesInPlace (X : Ctx) : Prop :=
  ∀ {N F br bo a} {v : View} {R O : List U8} {len : Nat}, F br = u8s R → F bo = v.blk O → O.length % 2 = 0 → br < N → bo < N → br ≠ bo →
    len < 2 ^ 31 → Does X N F "AES128_ECB_enc_sch" [.ptr bo 0 false 1, .int false 8 len, .ptr br 0 false 1, .ptr bo 0 false 1]
      (AES128_ECB_enc_sch_inplace .c a len R O) (fun _ => .undef .void) (fun r => F.set bo (v.blk r))

section

variable {X : Ctx} {N : Nat} {F : Mem}

/-- The local variables of both functions while A is filled (/repo/src/frodo_macrify_reference.c:18-22). -/
def fillLoc (al next : Nat) (vi vj vk : Val) (ps : List (String × Val)) : List (String × Val) :=
  ("A_len", .int false 8 al) :: ("A", .ptr (next + 0) 0 true 2) :: ("k", vk) :: ("j", vj) :: ("i", vi) :: ps

/-- The local variables of both functions (/repo/src/frodo_macrify_reference.c:18-31). -/
def mulLocT (b al next : Nat) (vi vj vk : Val) (ps : List (String × Val)) : List (String × Val) :=
  ("aes_key_schedule", .ptr b 0 false 1) :: ("A_len", .int false 8 al) :: ("A", .ptr (next + 0) 0 true 2) ::
    ("k", vk) :: ("j", vj) :: ("i", vi) :: ps

/-- `A[i] = LE_TO_UINT16(A[i])` for all i. -/
theorem Run.leAT {b al next nn : Nat} {vi vj vk : Val} {ps : List (String × Val)} {A : List U16} {rest : Stmt} {e : Expr}
    {k : List U16 → C α} {Q : α → St × Flow → Prop} {s : Bool} {n : Nat} {v : Int} (hv : vi = .int s n v) (h1 : s = true) (h2 : n = 4)
    (hb : next + 0 < N) (hl : F (next + 0) = s16s A)
    (he : ∀ loc m nx, eval X e ⟨loc, m, nx⟩ = pure (.int true 4 nn, ⟨loc, m, nx⟩)) (hn : nn < 2 ^ 31)
    (hk : ∀ r, Run X N (mulLocT b al next (.int true 4 nn) vj vk ps) (F.set (next + 0) (s16s r)) rest (k r) Q) :
    Run X N (mulLocT b al next vi vj vk ps) F
      (.seq (.for (.expr (.asg (.var "i") (.num true 4 0))) (.bin .lt (.var "i") e) (.inc false true (.var "i"))
        (.block (.seq (.expr (.asg (.idx (.var "A") (.var "i")) (.idx (.var "A") (.var "i")))) .skip))) rest)
      (Frodo.forC 0 nn 1 A (fun i A => do
        let x ← Frodo.rd A i
        Frodo.wr A i (LE_TO_UINT16 .le x)) >>= k) Q := by
  subst hv h1 h2
  refine Run.forMem (fun i => mulLocT b al next (.int true 4 i) vj vk ps) (fun r : List U16 => F.set (next + 0) (s16s r)) ?_ ?_ ?_ ?_ ?_ rfl hk
  · rw [set_self _ hl]
  · intro M nx
    unfold mulLocT
    csim
  · intro i M nx hi
    unfold mulLocT
    csim [he]
  · intro i M nx hi
    refine ⟨.int true 4 i, ?_⟩
    unfold mulLocT
    csim
  · intro i r hi M nx hn hA
    unfold mulLocT
    have hM : M (next + 0) = s16s r := by rw [hA _ hb]; simp [Mem.set]
    csim [hM]
    refine Refines.rdS fun x _ => ?_
    csim
    refine Refines.tail ?_
    refine Refines.wrS (by rw [LE_TO_UINT16]) fun r' _ _ => ?_
    refine .pure ⟨rfl, rfl, hn, ?_⟩
    have h := hA.set (next + 0) (s16s r')
    simp only [set_set] at h
    exact h

/-- The product A times s. -/
theorem Run.prodAsT {P : Params} {b al next bo bs ks be ke bi ki : Nat} {v : Int} {A O : List U16} {pre : List Int} {s : List U16} {rest : Stmt}
    {k : List U16 → C α} {Q : α → St × Flow → Prop} (hP : P.Small) (hb0 : next + 0 < N) (hb1 : bo < N) (hb2 : bs < N)
    (n1 : next + 0 ≠ bo) (n2 : bs ≠ bo) (hA : F (next + 0) = s16s A) (hO : F bo = u16s O) (hS : F bs = ⟨false, 2, pre ++ ofU16 s⟩)
    (hpre : pre.length = ks)
    (hk : ∀ r, Run X N (mulLocT b al next (.int true 4 P.n) (.int true 4 P.n) (.int true 4 P.nbar) (mulArgs bo bs ks be ke bi ki))
      (F.set bo (u16s r)) rest (k r) Q) :
    Run X N (mulLocT b al next (.int true 4 v) (.int true 4 P.n) (.undef (.int true 4)) (mulArgs bo bs ks be ke bi ki)) F
      (.seq (.for (.expr (.asg (.var "i") (.num true 4 0))) (.bin .lt (.var "i") (.num true 4 P.n)) (.inc false true (.var "i"))
        (.block (.seq (.for (.expr (.asg (.var "k") (.num true 4 0))) (.bin .lt (.var "k") (.num true 4 P.nbar)) (.inc false true (.var "k"))
          (.block (.seq (.decl (.int false 2) "sum" (some (.num true 4 0)))
            (.seq (.for (.expr (.asg (.var "j") (.num true 4 0))) (.bin .lt (.var "j") (.num true 4 P.n)) (.inc false true (.var "j"))
              (.block (.seq (.expr (.asgOp .add (.var "sum") (.bin .mul
                (.idx (.var "A") (.bin .add (.bin .mul (.var "i") (.num true 4 P.n)) (.var "j")))
                (.idx (.var "s") (.bin .add (.bin .mul (.var "k") (.num true 4 P.n)) (.var "j")))))) .skip)))
            (.seq (.expr (.asgOp .add (.idx (.var "out") (.bin .add (.bin .mul (.var "i") (.num true 4 P.nbar)) (.var "k"))) (.var "sum")))
              .skip))))) .skip))) rest)
      (Frodo.forC 0 P.n 1 O (fun i out =>
        forC 0 P.nbar 1 out fun k out => do
          let sum ← forC 0 P.n 1 (0 : U16) fun j sum => do
            let x ← rd A (i * P.n + j)
            let y ← rd s (k * P.n + j)
            let p ← int (i16 (x : Int) * (y : Int))
            let r ← int ((sum : Int) + p)
            pure (u16 r)
          let x ← rd out (i * P.nbar + k)
          let r ← int ((x : Int) + (sum : Int))
          wr out (i * P.nbar + k) (u16 r)) >>= k) Q := by
  obtain ⟨q1, q2, q3, q4, -⟩ := hP
  subst hpre
  intro M nx hn hM
  have hA' : M (next + 0) = s16s A := by rw [hM _ hb0, hA]
  have hO' : M bo = u16s O := by rw [hM _ hb1, hO]
  have hS' : M bs = ⟨false, 2, pre ++ ofU16 s⟩ := by rw [hM _ hb2, hS]
  have c1 : P.n * P.n ≤ 1344 * 1344 := Nat.mul_le_mul q1 q1
  have c2 : P.n * P.nbar ≤ 1344 * 8 := Nat.mul_le_mul q1 q3
  have c3 : P.nbar * P.n ≤ 8 * 1344 := Nat.mul_le_mul q3 q1
  unfold mulLocT mulArgs
  csim [loopF_eq]
  refine (Refines.forC (fun i (r : List U16) => (⟨mulLocT b al next (.int true 4 i) (.int true 4 P.n) (later true 4 (i = 0) P.nbar)
    (mulArgs bo bs pre.length be ke bi ki), M.set bo (u16s r), nx⟩ : St)) (fun _ _ => True) (Nat.zero_le _) ?_ trivial ?_ ?_).bind ?_
  · rw [set_self _ hO']; rfl
  · intro i r hi _
    unfold mulLocT mulArgs
    csim
    cstep
    csim [loopF_eq]
    refine Refines.tail ((Refines.forC (fun k (r : List U16) => (⟨mulLocT b al next (.int true 4 i) (.int true 4 P.n) (.int true 4 k)
      (mulArgs bo bs pre.length be ke bi ki), M.set bo (u16s r), nx⟩ : St)) (fun _ _ => True) (Nat.zero_le _) ?_ trivial ?_ ?_).bind ?_)
    · simp [mulLocT, mulArgs]
    · intro k r hk _
      have h1 := cell_lt hi hk
      unfold mulLocT mulArgs
      csim [loopF_eq]
      cstep
      refine (Refines.forC (fun j (x : U16) => (⟨("sum", .int false 2 x.toNat) :: mulLocT b al next (.int true 4 i) (.int true 4 j) (.int true 4 k)
        (mulArgs bo bs pre.length be ke bi ki), M.set bo (u16s r), nx⟩ : St)) (fun _ _ => True) (Nat.zero_le _) ?_ trivial ?_ ?_).bind ?_
      · rfl
      · intro j x hj _
        have h2 := cell_lt hi hj
        have h3 := cell_lt hk hj
        unfold mulLocT mulArgs
        csim [hA', hS', n1, n2]
        cstep
        refine Refines.rdS fun a _ => ?_
        csim [wrap4_i16]
        cgo
        exact .pure ⟨rfl, trivial⟩
      · intro r _
        unfold mulLocT mulArgs
        csim
        exact Refines.branchF (by simp)
      · rintro x _ ⟨rfl, -⟩
        unfold mulLocT mulArgs
        csim
        cgo
        refine Refines.tail ?_
        cstep
        exact .pure ⟨by simp, trivial⟩
    · intro r _
      unfold mulLocT mulArgs
      csim
      exact Refines.branchF (by simp)
    · rintro r _ ⟨rfl, -⟩
      unfold mulLocT mulArgs
      csim
      exact .pure ⟨by simp [later], trivial⟩
  · intro r _
    unfold mulLocT mulArgs
    csim
    exact Refines.branchF (by simp)
  · rintro r _ ⟨rfl, -⟩
    csim
    have := hk r (M.set bo (u16s r)) nx hn (hM.set bo _)
    rw [later_false (by omega)]
    unfold mulLocT mulArgs at this ⊢
    csim
    exact this

/-- The product s times A. -/
theorem Run.prodSaT {P : Params} {b al next bo bs ks be ke bi ki : Nat} {v : Int} {A O : List U16} {pre post : List Int} {s : List U16} {rest : Stmt}
    {k : List U16 → C α} {Q : α → St × Flow → Prop} (hP : P.Small) (hb0 : next + 0 < N) (hb1 : bo < N) (hb2 : bs < N)
    (n1 : next + 0 ≠ bo) (n2 : bs ≠ bo) (hA : F (next + 0) = s16s A) (hO : F bo = u16s O) (hS : F bs = ⟨false, 2, pre ++ (ofU16 s ++ post)⟩)
    (hpre : pre.length = ks)
    (hk : ∀ r, Run X N (mulLocT b al next (.int true 4 P.n) (.int true 4 P.n) (.int true 4 P.nbar) (mulArgs bo bs ks be ke bi ki))
      (F.set bo (u16s r)) rest (k r) Q) :
    Run X N (mulLocT b al next (.int true 4 v) (.int true 4 P.n) (.undef (.int true 4)) (mulArgs bo bs ks be ke bi ki)) F
      (.seq (.for (.expr (.asg (.var "i") (.num true 4 0))) (.bin .lt (.var "i") (.num true 4 P.n)) (.inc false true (.var "i"))
        (.block (.seq (.for (.expr (.asg (.var "k") (.num true 4 0))) (.bin .lt (.var "k") (.num true 4 P.nbar)) (.inc false true (.var "k"))
          (.block (.seq (.decl (.int false 2) "sum" (some (.num true 4 0)))
            (.seq (.for (.expr (.asg (.var "j") (.num true 4 0))) (.bin .lt (.var "j") (.num true 4 P.n)) (.inc false true (.var "j"))
              (.block (.seq (.expr (.asgOp .add (.var "sum") (.bin .mul
                (.idx (.var "A") (.bin .add (.bin .mul (.var "j") (.num true 4 P.n)) (.var "i")))
                (.idx (.var "s") (.bin .add (.bin .mul (.var "k") (.num true 4 P.n)) (.var "j")))))) .skip)))
            (.seq (.expr (.asgOp .add (.idx (.var "out") (.bin .add (.bin .mul (.var "k") (.num true 4 P.n)) (.var "i"))) (.var "sum")))
              .skip))))) .skip))) rest)
      (Frodo.forC 0 P.n 1 O (fun i out =>
        forC 0 P.nbar 1 out fun k out => do
          let sum ← forC 0 P.n 1 (0 : U16) fun j sum => do
            let x ← rd A (j * P.n + i)
            let y ← rd s (k * P.n + j)
            let p ← int (i16 (x : Int) * (y : Int))
            let r ← int ((sum : Int) + p)
            pure (u16 r)
          let x ← rd out (k * P.n + i)
          let r ← int ((x : Int) + (sum : Int))
          wr out (k * P.n + i) (u16 r)) >>= k) Q := by
  obtain ⟨q1, q2, q3, q4, -⟩ := hP
  subst hpre
  intro M nx hn hM
  have hA' : M (next + 0) = s16s A := by rw [hM _ hb0, hA]
  have hO' : M bo = u16s O := by rw [hM _ hb1, hO]
  have hS' : M bs = ⟨false, 2, pre ++ (ofU16 s ++ post)⟩ := by rw [hM _ hb2, hS]
  have c1 : P.n * P.n ≤ 1344 * 1344 := Nat.mul_le_mul q1 q1
  have c2 : P.n * P.nbar ≤ 1344 * 8 := Nat.mul_le_mul q1 q3
  have c3 : P.nbar * P.n ≤ 8 * 1344 := Nat.mul_le_mul q3 q1
  unfold mulLocT mulArgs
  csim [loopF_eq]
  refine (Refines.forC (fun i (r : List U16) => (⟨mulLocT b al next (.int true 4 i) (.int true 4 P.n) (later true 4 (i = 0) P.nbar)
    (mulArgs bo bs pre.length be ke bi ki), M.set bo (u16s r), nx⟩ : St)) (fun _ _ => True) (Nat.zero_le _) ?_ trivial ?_ ?_).bind ?_
  · rw [set_self _ hO']; rfl
  · intro i r hi _
    unfold mulLocT mulArgs
    csim
    cstep
    csim [loopF_eq]
    refine Refines.tail ((Refines.forC (fun k (r : List U16) => (⟨mulLocT b al next (.int true 4 i) (.int true 4 P.n) (.int true 4 k)
      (mulArgs bo bs pre.length be ke bi ki), M.set bo (u16s r), nx⟩ : St)) (fun _ _ => True) (Nat.zero_le _) ?_ trivial ?_ ?_).bind ?_)
    · simp [mulLocT, mulArgs]
    · intro k r hk _
      have h1 := cell_lt hk hi
      unfold mulLocT mulArgs
      csim [loopF_eq]
      cstep
      refine (Refines.forC (fun j (x : U16) => (⟨("sum", .int false 2 x.toNat) :: mulLocT b al next (.int true 4 i) (.int true 4 j) (.int true 4 k)
        (mulArgs bo bs pre.length be ke bi ki), M.set bo (u16s r), nx⟩ : St)) (fun _ _ => True) (Nat.zero_le _) ?_ trivial ?_ ?_).bind ?_
      · rfl
      · intro j x hj _
        have h2 := cell_lt hj hi
        have h3 := cell_lt hk hj
        unfold mulLocT mulArgs
        csim [hA', hS', n1, n2]
        cstep
        refine Refines.rdS fun a _ => ?_
        csim [wrap4_i16]
        refine Refines.rdPart fun b _ => ?_
        csim [wrap4_i16]
        cgo
        exact .pure ⟨rfl, trivial⟩
      · intro r _
        unfold mulLocT mulArgs
        csim
        exact Refines.branchF (by simp)
      · rintro x _ ⟨rfl, -⟩
        unfold mulLocT mulArgs
        csim
        cgo
        refine Refines.tail ?_
        cstep
        exact .pure ⟨by simp, trivial⟩
    · intro r _
      unfold mulLocT mulArgs
      csim
      exact Refines.branchF (by simp)
    · rintro r _ ⟨rfl, -⟩
      unfold mulLocT mulArgs
      csim
      exact .pure ⟨by simp [later], trivial⟩
  · intro r _
    unfold mulLocT mulArgs
    csim
    exact Refines.branchF (by simp)
  · rintro r _ ⟨rfl, -⟩
    csim
    have := hk r (M.set bo (u16s r)) nx hn (hM.set bo _)
    rw [later_false (by omega)]
    unfold mulLocT mulArgs at this ⊢
    csim
    exact this

/-- The row and column numbers in A (/repo/src/frodo_macrify_reference.c:22-27, 80-85). -/
theorem Run.fillA {P : Params} {al next : Nat} {vk : Val} {ps : List (String × Val)} {A : List U16} {rest : Stmt}
    {k : List U16 → C α} {Q : α → St × Flow → Prop} (hP : P.Small) (hst : P.stripe = 8) (hb : next + 0 < N) (hA : F (next + 0) = s16s A)
    (hk : ∀ r, Run X N (fillLoc al next (.int true 4 P.n) (.int true 4 P.n) vk ps) (F.set (next + 0) (s16s r)) rest (k r) Q) :
    Run X N (fillLoc al next (.undef (.int true 4)) (.undef (.int true 4)) vk ps) F
      (.seq (.for (.expr (.asg (.var "i") (.num true 4 0))) (.bin .lt (.var "i") (.num true 4 P.n)) (.inc false true (.var "i"))
        (.block (.seq (.for (.expr (.asg (.var "j") (.num true 4 0))) (.bin .lt (.var "j") (.num true 4 P.n)) (.asgOp .add (.var "j") (.num true 4 P.stripe))
          (.block (.seq (.expr (.asg (.idx (.var "A") (.bin .add (.bin .mul (.var "i") (.num true 4 P.n)) (.var "j"))) (.var "i")))
            (.seq (.expr (.asg (.idx (.var "A") (.bin .add (.bin .add (.bin .mul (.var "i") (.num true 4 P.n)) (.var "j")) (.num true 4 1))) (.var "j")))
              .skip)))) .skip))) rest)
      (Frodo.forC 0 P.n 1 A (fun i A => forC 0 P.n P.stripe A fun j A => do
        let A ← wr A (i * P.n + j) (UINT16_TO_LE .le (u16 i))
        wr A (i * P.n + j + 1) (UINT16_TO_LE .le (u16 j))) >>= k) Q := by
  have q1 := hP.n; have q8 := hP.n8; have q0 := hP.n1
  have c1 : P.n * P.n ≤ 1344 * 1344 := Nat.mul_le_mul q1 q1
  refine Run.forMemStep (fun i => fillLoc al next (.int true 4 i) (later true 4 (i = 0) P.n) vk ps)
    (fun i => fillLoc al next (.int true 4 i) (.int true 4 P.n) vk ps)
    (fun r : List U16 => F.set (next + 0) (s16s r)) (by omega) (Nat.mod_one _) ?_ ?_ ?_ ?_ ?_ rfl ?_
  · rw [set_self _ hA]
  · intro M nx
    unfold fillLoc
    csim
    rfl
  · intro i M nx hi
    unfold fillLoc
    csim
  · intro i M nx hi
    refine ⟨.int true 4 i, ?_⟩
    unfold fillLoc
    csim
    simp [later]
  · intro i A hi _
    refine Run.block ?_
    rw [← bind_pure (Frodo.forC 0 P.n P.stripe A _)]
    refine Run.forMemStep (fun j => fillLoc al next (.int true 4 i) (.int true 4 j) vk ps) (fun j => fillLoc al next (.int true 4 i) (.int true 4 j) vk ps)
      (fun r : List U16 => F.set (next + 0) (s16s r)) (by omega) (by rw [hst]; exact q8) rfl ?_ ?_ ?_ ?_ rfl ?_
    · intro M nx
      unfold fillLoc
      csim
    · intro j M nx hj
      unfold fillLoc
      csim
    · intro j M nx hj
      refine ⟨.int true 4 (j + P.stripe : Nat), ?_⟩
      unfold fillLoc
      csim
    · intro j A hj _ M nx hn hM
      have hA' : M (next + 0) = s16s A := by rw [hM _ hb, set_same]
      have h1 := cell_lt (show i < P.n by omega) (show j < P.n by omega)
      have h2 := cell_lt (show i < P.n by omega) (show j + 1 < P.n by omega)
      simp only [UINT16_TO_LE]
      unfold fillLoc
      csim [hA']
      refine Refines.wrS (i16_u16 _) fun A' _ _ => ?_
      refine Refines.tail (Refines.wrS (i16_u16 _) fun A' _ _ => ?_)
      refine .pure ⟨rfl, rfl, hn, ?_⟩
      have h := hM.set (next + 0) (s16s A')
      simp only [set_set] at h
      exact h
    · intro A
      exact Run.skip fun M nx hn hA => ⟨rfl, by simp [leave, fillLoc], hn, hA⟩
  · intro r
    have := hk r
    rwa [show later true 4 (P.n = 0) P.n = .int true 4 P.n from later_false (by omega)]

end

variable {Fs : List File} {X : Ctx} {d N : Nat} {F : Mem}

attribute [local irreducible] Ev EvL Run DRun Does

theorem text_mul_as_refAes {P : Params} {B : Build} {E : Env} (hP : P.Small) (hst : P.stripe = 8) (hB : B.arch = .le)
    (hg : B.gen = .aes) (hc : B.aes = .standalone .c)
    (hS : AesAt (link Fs X d) E.junk) (hI : AesInPlace (link Fs X d)) (j1 : JunkAt E X 30 8 "aes_key_schedule")
    {m : Mem} {next bo bs be bi ks ke ki : Nat}
    {O S Z : List U16} {I : List U8} (hm1 : m bo = u16s O) (hm2 : m bs = u16s S) (hm3 : m be = u16s Z) (hm4 : m bi = u8s I)
    (hb1 : bo < next) (hb2 : bs < next) (hb3 : be < next) (hb4 : bi < next) (hn1 : bs ≠ bo)
    (hn2 : be ≠ bo) (hk1 : ks ≤ S.length) (hk2 : ke ≤ Z.length) (hk3 : ki ≤ I.length) :
    Refines False (as_plus_e_reference B E P O (S.drop ks) (Z.drop ke) (I.drop ki))
      (callFun (link Fs X d) (mulAsRefAesFun.at P) [.ptr bo 0 false 2, .ptr bs ks false 2, .ptr be ke false 2, .ptr bi ki false 1] m next)
      fun r x => x.1 = .int true 4 1 ∧ next ≤ x.2.2 ∧ MAgree next x.2.1 (m.set bo (u16s r)) := by
  have c1 : P.n * P.n ≤ 1344 * 1344 := Nat.mul_le_mul hP.n hP.n
  have c4 : 1 ≤ P.n * P.n := Nat.mul_le_mul hP.n1 hP.n1
  have c2 : P.nbar * P.n ≤ 8 * 1344 := Nat.mul_le_mul hP.nbar hP.n
  have q2 := hP.n; have q3 := hP.nbar
  refine run_one (ps := mulArgs bo bs ks be ke bi ki) rfl (by rfl) ?_
  unfold mulAsRefAesFun mulArgs
  cat
  apply DRun.assoc
  apply DRun.undef
  apply DRun.assoc
  apply DRun.undef
  apply DRun.undef
  refine DRun.arr 0 (by ev) rfl (newArr_zero16 c4) ?_
  refine Run.start ?_
  lists
  simp only [as_plus_e_reference, as_plus_e_reference_full, genA_reference, genA_memory, hg, hc, hB, setup128, freeSched, bind_assoc, pure_bind]
  refine Run.declSize (Ev.sizeS (Ev.mul Ev.nat Ev.nat (by omega) (by omega) (by omega)) (by omega)) (by omega) ?_
  refine Run.fillA (al := P.n * P.n * 2) (next := next) (vk := .undef (.int true 4)) (ps := mulArgs bo bs ks be ke bi ki) hP hst (by omega) (fr_at rfl) ?_
  intro A
  refine Run.arrMid (by ev) (newArr_junk8 (by unfold JunkAt at j1 ⊢; rwa [link_junk]) _) ?_
  intro b F hb hF
  have fm : ∀ c, c < next → F c = m c := fun c h => by rw [hF _ (by omega), set_ne _ _ (by omega), fr_arg h]
  have f0 : F (next + 0) = s16s A := by rw [hF _ (by omega), set_same]
  refine Run.callEq (EvL.cons (Ev.varP (b := bi) (off := ki) (s := false) (n := 1) rfl) (EvL.cons (Ev.varP (b := b) (off := 0) (s := false) (n := 1) rfl) EvL.nil))
    (hS.load (bk := bi) (ki := ki) (br := b) (K := I) (by rw [set_ne _ _ (by omega), fm _ hb4, hm4]) (set_same ..) (by omega) (by omega) (by omega) hk3) rfl ?_
  intro R
  rw [set_set]
  simp only [encrypt128_inplace]
  apply Run.asBytes; intro c3
  refine Run.callEq (EvL.cons (Ev.castTo (w := .ptr (next + 0) 0 false 1) (Ev.varP (b := next + 0) (off := 0) (s := true) (n := 2) rfl) (by csim))
    (EvL.cons (Ev.varI rfl)
    (EvL.cons (Ev.varP (b := b) (off := 0) (s := false) (n := 1) rfl) (EvL.cons (Ev.castTo (w := .ptr (next + 0) 0 false 1)
      (Ev.varP (b := next + 0) (off := 0) (s := true) (n := 2) rfl) (by csim)) EvL.nil))))
    (hI (a := E.addr .aesSched) (v := .s16) (R := R) (O := toBytes .le A) (set_same ..) ?_ ?_ (by omega) (by omega) (by omega) (by omega)) ?_ ?_
  · rw [View.blk, ofBytes_toBytes, set_ne _ _ (by omega), f0]
  · rw [length_toBytes]; omega
  · rfl
  intro y
  rw [set_swap (b := b) (c := next + 0) (by omega)]
  refine Run.leAT (b := b) (al := P.n * P.n * 2) (A := ofBytes .le y) (ps := mulArgs bo bs ks be ke bi ki) rfl rfl rfl (by omega) ?_ ?_ ?_ ?_
  · rw [set_ne _ _ (by omega), set_same]; rfl
  · intro loc m nx
    csim
  · omega
  intro A
  rw [set_swap (b := b) (c := next + 0) (by omega), set_set]
  refine Run.callEq (vs := [.ptr bo 0 false 2, .ptr be ke false 2, .int false 8 (P.nbar * P.n * 2 : Nat)]) ?_
    (Does.memcpy16 (L := O) (I := Z) ?_ ?_ (by omega) (by omega) hn2 (by omega) hk2) ?_ ?_
  · unfold mulLocT
    refine EvL.cons (Ev.varP rfl) (EvL.cons (Ev.varP rfl) ?_)
    ev
  · rw [set_ne _ _ (by omega), set_ne _ _ (by omega), fm _ hb1, hm1]
  · rw [set_ne _ _ (by omega), set_ne _ _ (by omega), fm _ hb3, hm3]
  · rfl
  intro O
  refine Run.prodAsT (b := b) (al := P.n * P.n * 2) (A := A) (O := O) (pre := ofU16 (S.take ks)) (s := S.drop ks) hP (by omega) (by omega) (by omega) (by omega) hn1 ?_
    (set_same ..) ?_ (length_take16 hk1) ?_
  · rw [set_ne _ _ (by omega), set_ne _ _ (by omega), set_same]
  · rw [← u16s_split, set_ne _ _ hn1, set_ne _ _ (by omega), set_ne _ _ (by omega), fm _ hb2, hm2]
  intro r
  rw [set_set]
  simp only [free128, bind_assoc, pure_bind]
  refine Run.callEq (EvL.cons (Ev.varP (b := b) (off := 0) (s := false) (n := 1) rfl) EvL.nil) (hS.free (R := R) ?_ (by omega)) rfl ?_
  · rw [set_ne _ _ (by omega), set_same]
  intro R'
  refine Run.retOne fun st h1 h2 => ⟨rfl, Nat.le_trans (by omega) h1, fun c hc => ?_⟩
  rw [h2 c (by omega), set_ne _ _ (by omega)]
  by_cases h : c = bo
  · rw [h, set_same, set_same]
  · rw [set_ne _ _ h, set_ne _ _ (by omega), set_ne _ _ (by omega), set_ne _ _ h, fm _ hc]

theorem text_mul_sa_refAes {P : Params} {B : Build} {E : Env} (hP : P.Small) (hst : P.stripe = 8) (hB : B.arch = .le)
    (hg : B.gen = .aes) (hc : B.aes = .standalone .c)
    (hS : AesAt (link Fs X d) E.junk) (hI : AesInPlace (link Fs X d)) (j1 : JunkAt E X 30 8 "aes_key_schedule")
    {m : Mem} {next bo bs bi k ki : Nat}
    {O S : List U16} {I : List U8} (hm1 : m bo = u16s O) (hm2 : m bs = u16s S) (hm4 : m bi = u8s I)
    (hb1 : bo < next) (hb2 : bs < next) (hb4 : bi < next) (hn1 : bs ≠ bo)
    (hk1 : k ≤ S.length) (hk3 : ki ≤ I.length) :
    Refines False (sa_plus_e_reference B E P O (S.take k) (S.drop k) (I.drop ki))
      (callFun (link Fs X d) (mulSaRefAesFun.at P) [.ptr bo 0 false 2, .ptr bs 0 false 2, .ptr bs k false 2, .ptr bi ki false 1] m next)
      fun r x => x.1 = .int true 4 1 ∧ next ≤ x.2.2 ∧ MAgree next x.2.1 (m.set bo (u16s r)) := by
  have c1 : P.n * P.n ≤ 1344 * 1344 := Nat.mul_le_mul hP.n hP.n
  have c4 : 1 ≤ P.n * P.n := Nat.mul_le_mul hP.n1 hP.n1
  have c2 : P.nbar * P.n ≤ 8 * 1344 := Nat.mul_le_mul hP.nbar hP.n
  have q2 := hP.n; have q3 := hP.nbar
  refine run_one (ps := mulArgs bo bs 0 bs k bi ki) rfl (by rfl) ?_
  unfold mulSaRefAesFun mulArgs
  cat
  apply DRun.assoc
  apply DRun.undef
  apply DRun.assoc
  apply DRun.undef
  apply DRun.undef
  refine DRun.arr 0 (by ev) rfl (newArr_zero16 c4) ?_
  refine Run.start ?_
  lists
  simp only [sa_plus_e_reference, sa_plus_e_reference_full, genA_reference, genA_memory, hg, hc, hB, setup128, freeSched, bind_assoc, pure_bind]
  refine Run.declSize (Ev.sizeS (Ev.mul Ev.nat Ev.nat (by omega) (by omega) (by omega)) (by omega)) (by omega) ?_
  refine Run.fillA (al := P.n * P.n * 2) (next := next) (vk := .undef (.int true 4)) (ps := mulArgs bo bs 0 bs k bi ki) hP hst (by omega) (fr_at rfl) ?_
  intro A
  refine Run.arrMid (by ev) (newArr_junk8 (by unfold JunkAt at j1 ⊢; rwa [link_junk]) _) ?_
  intro b F hb hF
  have fm : ∀ c, c < next → F c = m c := fun c h => by rw [hF _ (by omega), set_ne _ _ (by omega), fr_arg h]
  have f0 : F (next + 0) = s16s A := by rw [hF _ (by omega), set_same]
  refine Run.callEq (EvL.cons (Ev.varP (b := bi) (off := ki) (s := false) (n := 1) rfl) (EvL.cons (Ev.varP (b := b) (off := 0) (s := false) (n := 1) rfl) EvL.nil))
    (hS.load (bk := bi) (ki := ki) (br := b) (K := I) (by rw [set_ne _ _ (by omega), fm _ hb4, hm4]) (set_same ..) (by omega) (by omega) (by omega) hk3) rfl ?_
  intro R
  rw [set_set]
  simp only [encrypt128_inplace]
  apply Run.asBytes; intro c3
  refine Run.callEq (EvL.cons (Ev.castTo (w := .ptr (next + 0) 0 false 1) (Ev.varP (b := next + 0) (off := 0) (s := true) (n := 2) rfl) (by csim))
    (EvL.cons (Ev.varI rfl)
    (EvL.cons (Ev.varP (b := b) (off := 0) (s := false) (n := 1) rfl) (EvL.cons (Ev.castTo (w := .ptr (next + 0) 0 false 1)
      (Ev.varP (b := next + 0) (off := 0) (s := true) (n := 2) rfl) (by csim)) EvL.nil))))
    (hI (a := E.addr .aesSched) (v := .s16) (R := R) (O := toBytes .le A) (set_same ..) ?_ ?_ (by omega) (by omega) (by omega) (by omega)) ?_ ?_
  · rw [View.blk, ofBytes_toBytes, set_ne _ _ (by omega), f0]
  · rw [length_toBytes]; omega
  · rfl
  intro y
  rw [set_swap (b := b) (c := next + 0) (by omega)]
  refine Run.leAT (b := b) (al := P.n * P.n * 2) (A := ofBytes .le y) (ps := mulArgs bo bs 0 bs k bi ki) rfl rfl rfl (by omega) ?_ ?_ ?_ ?_
  · rw [set_ne _ _ (by omega), set_same]; rfl
  · intro loc m nx
    csim
  · omega
  intro A
  rw [set_swap (b := b) (c := next + 0) (by omega), set_set]
  refine Run.callEq (vs := [.ptr bo 0 false 2, .ptr bs k false 2, .int false 8 (P.nbar * P.n * 2 : Nat)]) ?_
    (Does.memcpy16 (L := O) (I := S) ?_ ?_ (by omega) (by omega) hn1 (by omega) hk1) ?_ ?_
  · unfold mulLocT
    refine EvL.cons (Ev.varP rfl) (EvL.cons (Ev.varP rfl) ?_)
    ev
  · rw [set_ne _ _ (by omega), set_ne _ _ (by omega), fm _ hb1, hm1]
  · rw [set_ne _ _ (by omega), set_ne _ _ (by omega), fm _ hb2, hm2]
  · rfl
  intro O
  refine Run.prodSaT (b := b) (al := P.n * P.n * 2) (A := A) (O := O) (pre := []) (s := S.take k) (post := ofU16 (S.drop k)) hP (by omega) (by omega) (by omega) (by omega) hn1 ?_
    (set_same ..) ?_ rfl ?_
  · rw [set_ne _ _ (by omega), set_ne _ _ (by omega), set_same]
  · rw [List.nil_append, ← u16s_split, set_ne _ _ hn1, set_ne _ _ (by omega), set_ne _ _ (by omega), fm _ hb2, hm2]
  intro r
  rw [set_set]
  simp only [free128, bind_assoc, pure_bind]
  refine Run.callEq (EvL.cons (Ev.varP (b := b) (off := 0) (s := false) (n := 1) rfl) EvL.nil) (hS.free (R := R) ?_ (by omega)) rfl ?_
  · rw [set_ne _ _ (by omega), set_same]
  intro R'
  refine Run.retOne fun st h1 h2 => ⟨rfl, Nat.le_trans (by omega) h1, fun c hc => ?_⟩
  rw [h2 c (by omega), set_ne _ _ (by omega)]
  by_cases h : c = bo
  · rw [h, set_same, set_same]
  · rw [set_ne _ _ h, set_ne _ _ (by omega), set_ne _ _ (by omega), set_ne _ _ h, fm _ hc]

theorem AesInPlace.link (h : AesInPlace X) (h2 : Fs.findSome? (·.fn "AES128_ECB_enc_sch") = none) : AesInPlace (link Fs X d) := by
  have e2 := link_extern (X := X) (d := d) h2 (by decide) (by decide)
  intro N F br bo a v R O len a1 a2 a3 a4 a5 a6 a7
  have := h (a := a) a1 a2 a3 a4 a5 a6 a7
  unfold Does at this ⊢
  rwa [e2]

/-- What kem.c calls outside of util.c and noise.c, for the reference implementation with A from AES128. -/
theorem othersRefAes {G : File} {P : Params} {B : Build} {E : Env} {rb : RandomBytes} {bk : Nat} {xk : Blk} (hG : G.IsRefAes P)
    (hx : G.Leaves) (hN : G.NoAes) (hP : P.Small) (hst : P.stripe = 8)
    (hB : B.arch = .le) (hi : B.impl = .reference) (hg : B.gen = .aes) (hc : B.aes = .standalone .c)
    (j1 : JunkAt E X 30 8 "aes_key_schedule") (hS : SpongeAt X E.junk bk xk) (hA : AesAt X E.junk) (hI : AesInPlace X) (hR : Rand X rb) :
    Others (link [utilFile, G] X (d + 1)) B E P rb bk xk := by
  obtain ⟨-, -, -, -, -, -, -, z8, z9, z10, z11, z12⟩ := utilFile_none
  obtain ⟨u1, u2, u3⟩ := utilFile_noAes
  have f1 : [utilFile, G].findSome? (·.fn "shake128") = none := by simp only [List.findSome?, z10, hx.s128]
  have f2 : [utilFile, G].findSome? (·.fn "shake256") = none := by simp only [List.findSome?, z11, hx.s256]
  have f3 : [utilFile, G].findSome? (·.fn "randombytes") = none := by simp only [List.findSome?, z12, hx.random]
  have f4 : [utilFile, G].findSome? (·.fn "AES128_load_schedule") = none := by simp only [List.findSome?, u1, hN.load]
  have f5 : [utilFile, G].findSome? (·.fn "AES128_ECB_enc_sch") = none := by simp only [List.findSome?, u2, hN.enc]
  have f6 : [utilFile, G].findSome? (·.fn "AES128_free_schedule") = none := by simp only [List.findSome?, u3, hN.free]
  have hS1 := hS.link (d := d + 1) f1 f2
  have hA0 := hA.link (d := d) f4 f5 f6
  have hI0 : AesInPlace (link [utilFile, G] X d) := AesInPlace.link hI f5
  constructor
  case shake =>
    intro N F bo ko bi ki s n s' n' L I outlen inlen h1 h2 h3 h4 h5 k1 k2 k3 h6 h7 h8 h9
    exact hS1.shake (v := .u8) h1 (.inr rfl) h2 h3 h4 h5 k1 k2 k3 h6 h7 h8 h9
  case shakeWords =>
    intro N F bo bi s n s' n' L I outlen inlen h1 h2 h3 h4 h5 k1 k2 k3 h6 h7
    have := hS1.shake (P := P) (F := F) (N := N) (v := .u16) (L := toBytes .le L) (I := I) (ko := 0) (ki := 0) (bo := bo) (bi := bi)
      (s := s) (n := n) (s' := s') (n' := n') (by simp only [View.blk, ofBytes_toBytes, h1]) (.inl (by rw [length_toBytes]; omega)) h2 h3 h4 h5 k1 k2 k3
      (Nat.zero_le _) (Nat.zero_le _) h6 h7
    simpa only [View.blk, List.take_zero, List.nil_append, List.drop_zero] using this
  case random =>
    intro N F bo ko s n L len h1 h2 h3 h4
    have := hR (s := s) (n := n) h1 h2 h3 h4
    unfold Does at this ⊢
    rwa [link_extern f3 (by decide) (by decide)]
  case mulAs =>
    intro N F bo bs be bi ks ke ki a1 a2 O S Z I h1 h2 h3 h4 h5 h6 h7 h8 h9 h10 _ k1 _ k3 h11 h12 h13 _
    unfold Does
    intro M nx hn hA
    rw [link_fn (fn_second z8 hG.mulAs) (by decide) (by decide)]
    simp only [frodo_mul_add_as_plus_e, hi]
    intro a t e
    obtain ⟨x, t', e1, ⟨e2, e3, e4⟩, -⟩ := text_mul_as_refAes (m := M) (next := nx) hP hst hB hg hc hA0 hI0 j1 (by rw [hA _ h5, h1]) (by rw [hA _ h6, h2])
      (by rw [hA _ h7, h3]) (by rw [hA _ h8, h4]) (by omega) (by omega) (by omega) (by omega) h9 h10 h11 h12 h13 a t e
    refine ⟨x, t', e1, ⟨e2, by omega, fun b hb => ?_⟩, fun h => h.elim⟩
    rw [e4 b (by omega)]
    exact (hA.set bo _) b hb
  case mulSa =>
    intro N F bo bs bi k ki a2 O S I h1 h2 h3 h4 h5 h6 h7 k1 _ k3 h8 h9
    unfold Does
    intro M nx hn hA
    rw [link_fn (fn_second z9 hG.mulSa) (by decide) (by decide)]
    simp only [frodo_mul_add_sa_plus_e, hi]
    intro a t e
    obtain ⟨a, t1, t2, ea, eb, -⟩ := Frodo.bind_ok e
    cases eb
    obtain ⟨x, t', e1, ⟨e2, e3, e4⟩, -⟩ := text_mul_sa_refAes (m := M) (next := nx) hP hst hB hg hc hA0 hI0 j1 (by rw [hA _ h4, h1]) (by rw [hA _ h5, h2])
      (by rw [hA _ h6, h3]) (by omega) (by omega) (by omega) h7 h8 h9 a t1 ea
    refine ⟨x, t', e1, ⟨e2, by omega, fun b hb => ?_⟩, fun h => h.elim⟩
    have e5 : (F.set bo (u16s a)) bs = u16s S := by simp [Mem.set, h7, h2]
    rw [e4 b (by omega), List.take_append_drop, set_self (F.set bo (u16s a)) e5]
    exact (hA.set bo _) b hb

end Frodo
