import Verif.Proof.TextOptAs

/-! # `frodo_mul_add_sa_plus_e` of /repo/src/frodo_macrify.c:126-272, without intrinsics: text and model -/

namespace Frodo

open Src

/-! ## `memcpy` of bytes between arrays of 16-bit words -/

theorem memcpy_bytes16 {L I r : List U16} {ki len : Nat} {t : List Event} (h : ki ≤ I.length) (e : memcpy L 0 (I.drop ki) 0 len = .ok r t) :
    ∃ t', memcpy (toBytes .le L) 0 (toBytes .le I) (ki * 2) (2 * len) = .ok (toBytes .le r) t' := by
  unfold memcpy at e ⊢
  split at e
  · split at e
    · rename_i h1 h2
      cases e
      rw [List.length_drop] at h1
      rw [if_pos (by rw [length_toBytes]; omega), if_pos (by rw [length_toBytes]; omega)]
      refine ⟨?_, ?_⟩
      rotate_left
      · simp only [toBytes_append, List.take_zero, List.drop_zero, toBytes_drop2, Nat.zero_add, toBytes_take, toBytes_drop]
        rfl
    · cases e
  · cases e

section

variable {Fs : List File} {X : Ctx} {d N : Nat} {F : Mem}

theorem Does.memcpyBytes16 {bo bi ki n : Nat} {s : Bool} {L I : List U16} {len : Nat} (ha : X.arch = .le) (h1 : F bo = u16s L) (h2 : F bi = u16s I)
    (h3 : bo < N) (h4 : bi < N) (h5 : bi ≠ bo) (h6 : len < 2 ^ 30) (h7 : ki ≤ I.length) :
    Does (link Fs X d) N F "memcpy" [.ptr bo 0 false 1, .ptr bi (ki * 2) false 1, .int s n (2 * len : Nat)] (memcpy L 0 (I.drop ki) 0 len)
      (fun _ => .undef .void) (fun r => F.set bo (u16s r)) := by
  obtain ⟨call, hc⟩ := link_string (Fs := Fs) (X := X) (d := d)
  intro M nx hn hA a t e
  have e1 : M bo = u16s L := by rw [hA bo h3, h1]
  have e2 : M bi = u16s I := by rw [hA bi h4, h2]
  have e3 : wrap false 8 ((2 * len : Nat) : Int) = (2 * len : Nat) := wrap_size (by omega) (by omega)
  obtain ⟨t', e0⟩ := memcpy_bytes16 h7 e
  have e4 : memcpy (ofU8 (toBytes .le L)) 0 (ofU8 (toBytes .le I)) (ki * 2) (2 * len) = .ok (ofU8 (toBytes .le a)) t' := memcpy_map e0
  refine ⟨(.undef .void, M.set bo (u16s a), nx), t' ++ [], ?_, ⟨rfl, hn, hA.set bo _⟩, fun h => h.elim⟩
  rw [hc]
  unfold withString memcpyC
  simp only [if_neg (show ¬"memcpy" = "memset" by decide), if_true, e1, e2, e3, Int.toNat_natCast, Nat.mul_one, link_arch, ha,
    C.require, if_pos (Or.inl (Ne.symm h5)), pure_bind, bind_assoc, bytes_u16s, e4, true_and, show ¬(1 = 2) by omega, false_and, if_false]
  simp only [C.bind_def, C.bind', C.pure_def, setBytes_u16s .le _ _ _ (length_toBytes .le _), ofBytes_toBytes, List.append_nil]

end

/-! ## The rows of `s` and of `e` -/

section

variable {X : Ctx} {N : Nat} {F : Mem}

/-- The locals (/repo/src/frodo_macrify.c:129-175). -/
def saLoc (next : Nat) (vi vj vq vp : Val) (ps : List (String × Val)) : List (String × Val) :=
  ("seed_A_origin", .ptr (next + 1) 0 false 2) :: ("seed_A_separated", .ptr (next + 1) 0 false 1) :: ("A", .ptr (next + 0) 0 false 2) ::
    ("p", vp) :: ("q", vq) :: ("j", vj) :: ("i", vi) :: ps

/-- `sum += sp[p] * A[p*PARAMS_N + q]` for all p (/repo/src/frodo_macrify.c:240-242). -/
theorem dotText_step {next n j q i nx nx' bo bs k bi ki : Nat} {A sp : List U16} {sum : U16} {v : Int} {M : Mem} {rest : Stmt} {f : U16 → C α}
    {Q : α → St × Flow → Prop} (hn : n ≤ 1344) (hq : q < n) (hA : M (next + 0) = u16s A) (hS : M nx = s16s sp)
    (hk : ∀ sum : U16, Refines False (f sum) (exec X rest ⟨("sp", .ptr nx 0 true 2) :: ("sum", .int false 2 sum.toNat) ::
      saLoc next (.int true 4 i) (.int true 4 j) (.int true 4 q) (.int true 4 8) (mulArgs bo bs 0 bs k bi ki), M, nx'⟩) Q) :
    Refines False (Frodo.forC 0 8 1 sum (fun p sum => do
        let x ← rd sp p
        let y ← rd A (p * n + q)
        let m ← int (i16 (x : Int) * (y : Int))
        let r ← int ((sum : Int) + m)
        pure (u16 r)) >>= f)
      (exec X (.seq (.for (.expr (.asg (.var "p") (.num true 4 0))) (.bin .lt (.var "p") (.num true 4 8)) (.inc false true (.var "p"))
        (.block (.seq (.expr (.asgOp .add (.var "sum") (.bin .mul (.idx (.var "sp") (.var "p"))
          (.idx (.var "A") (.bin .add (.bin .mul (.var "p") (.num true 4 n)) (.var "q")))))) .skip))) rest)
        ⟨("sp", .ptr nx 0 true 2) :: ("sum", .int false 2 sum.toNat) ::
          saLoc next (.int true 4 i) (.int true 4 j) (.int true 4 q) (.int true 4 v) (mulArgs bo bs 0 bs k bi ki), M, nx'⟩) Q := by
  unfold saLoc mulArgs
  csim [loopF_eq]
  refine (Refines.forC (fun p (x : U16) => (⟨("sp", .ptr nx 0 true 2) :: ("sum", .int false 2 x.toNat) ::
      saLoc next (.int true 4 i) (.int true 4 j) (.int true 4 q) (.int true 4 p) (mulArgs bo bs 0 bs k bi ki), M, nx'⟩ : St)) (fun _ _ => True)
      (Nat.zero_le _) ?_ trivial ?_ ?_).bind ?_
  · rfl
  · intro p x hp _
    have h1 : p * n ≤ 8 * 1344 := Nat.mul_le_mul (by omega) hn
    unfold saLoc mulArgs
    csim [hA, hS]
    cstep
    refine Refines.rdS fun a _ => ?_
    csim [wrap4_i16]
    refine Refines.rd16 fun b _ => ?_
    csim [wrap4_i16]
    cgo
    exact .pure ⟨rfl, trivial⟩
  · intro r _
    unfold saLoc mulArgs
    csim
    exact Refines.branchF (by simp)
  · rintro x _ ⟨rfl, -⟩
    csim
    exact hk x

theorem newArr_zeroU16 {x : String} {len : Nat} (h : 1 ≤ len) :
    newArr X x false 2 len (some [.num true 4 0]) = ofU16 (List.replicate len 0) := by
  obtain ⟨k, rfl⟩ : ∃ k, len = k + 1 := ⟨len - 1, by omega⟩
  simp [newArr, initElems, wrap, ofU16, List.replicate_succ]

theorem newArr_junkS16 {E : Env} {tag : Nat} {x : String} (h : JunkAt E X tag 16 x) (len : Nat) :
    newArr X x true 2 len none = ofS16 (uninit E.junk tag 16 len) := by
  simp only [newArr, ofS16, uninit, List.map_map]
  apply List.map_congr_left
  intro i _
  simp only [Function.comp, h i]
  rw [i16_toNat, BitVec.toInt_ofInt]
  rfl

/-- The body of the inner loop after the first statement (/repo/src/frodo_macrify.c:240-243). -/
def saTail (P : Params) : Stmt :=
  .seq (.for (.expr (.asg (.var "p") (.num true 4 0))) (.bin .lt (.var "p") (.num true 4 8)) (.inc false true (.var "p"))
    (.block (.seq (.expr (.asgOp .add (.var "sum") (.bin .mul (.idx (.var "sp") (.var "p"))
      (.idx (.var "A") (.bin .add (.bin .mul (.var "p") (.num true 4 P.n)) (.var "q")))))) .skip)))
  (.seq (.expr (.asg (.idx (.var "e") (.bin .add (.bin .mul (.var "j") (.num true 4 P.n)) (.var "q"))) (.var "sum"))) .skip)

/-- The same, in the model (/repo/src/frodo_macrify.c:240-243). -/
def saWords (P : Params) (sp A : List U16) (j q : Nat) (sum : U16) (e : List U16) : C (List U16) := do
  let sum ← forC 0 8 1 sum fun p sum => do
    let x ← rd sp p
    let y ← rd A (p * P.n + q)
    let m ← int (i16 (x : Int) * (y : Int))
    let r ← int ((sum : Int) + m)
    pure (u16 r)
  wr e (j * P.n + q) sum

theorem saTail_eq {P : Params} {next j q i nx nx' bo bs bi ki : Nat} {A sp e : List U16} {pre : List Int} {sum : U16} {M : Mem}
    (hn : P.n ≤ 1344) (hq : q < P.n) (hj : j < 8) (hA : M (next + 0) = u16s A) (hS : M nx = s16s sp) (n1 : next + 0 ≠ bs) (n2 : nx ≠ bs) :
    Refines False (saWords P sp A j q sum e)
      (exec X (saTail P) ⟨("sp", .ptr nx 0 true 2) :: ("sum", .int false 2 sum.toNat) ::
          saLoc next (.int true 4 i) (.int true 4 j) (.int true 4 q) (.int true 4 8) (mulArgs bo bs 0 bs pre.length bi ki),
          M.set bs ⟨false, 2, pre ++ ofU16 e⟩, nx'⟩)
      fun r x => ∃ v : Int, x = (⟨("sp", .ptr nx 0 true 2) :: ("sum", .int false 2 v) ::
          saLoc next (.int true 4 i) (.int true 4 j) (.int true 4 q) (.int true 4 8) (mulArgs bo bs 0 bs pre.length bi ki),
          M.set bs ⟨false, 2, pre ++ ofU16 r⟩, nx'⟩, .next) := by
  unfold saWords saTail
  refine dotText_step hn hq (by rw [set_ne _ _ n1, hA]) (by rw [set_ne _ _ n2, hS]) fun sum => ?_
  have m4 : j * P.n ≤ 7 * 1344 := Nat.mul_le_mul (by omega) hn
  unfold saLoc mulArgs
  csim
  refine Refines.tail ?_
  cstep
  exact .pure ⟨_, rfl⟩

/-- Eight rows (/repo/src/frodo_macrify.c:233-246). -/
theorem Run.accSa {P : Params} {E : Env} {next i bo bs bk bi ki : Nat} {A s e : List U16} {pre : List Int} {rest : Stmt}
    {k : List U16 → C α} {Q : α → St × Flow → Prop} (hP : P.Small) (hi : i + 8 ≤ P.n) (hb0 : next + 0 < N) (hb2 : bs < N)
    (n1 : next + 0 ≠ bs) (hA : F (next + 0) = u16s A) (hS : F bs = ⟨false, 2, pre ++ ofU16 e⟩)
    (hpre : pre.length = bk) (hps : pre = ofU16 s) (j2 : JunkAt E X 36 16 "sp")
    (hk : ∀ r, Run X N (saLoc next (.int true 4 i) (.int true 4 P.nbar) (.int true 4 P.n) (.int true 4 8) (mulArgs bo bs 0 bs bk bi ki))
      (F.set bs ⟨false, 2, pre ++ ofU16 r⟩) rest (k r) Q) :
    Run X N (saLoc next (.int true 4 i) (later true 4 (i = 0) P.nbar) (later true 4 (i = 0) P.n) (later true 4 (i = 0) 8) (mulArgs bo bs 0 bs bk bi ki)) F
      (.seq (.for (.expr (.asg (.var "j") (.num true 4 0))) (.bin .lt (.var "j") (.num true 4 P.nbar)) (.inc false true (.var "j"))
        (.block (.seq (.decl (.int false 2) "sum" (some (.num true 4 0))) (.seq (.declArr true 2 "sp" (.num true 4 8) none)
          (.seq (.for (.expr (.asg (.var "p") (.num true 4 0))) (.bin .lt (.var "p") (.num true 4 8)) (.inc false true (.var "p"))
            (.block (.seq (.expr (.asg (.idx (.var "sp") (.var "p")) (.idx (.var "s")
              (.bin .add (.bin .add (.bin .mul (.var "j") (.num true 4 P.n)) (.var "i")) (.var "p"))))) .skip)))
          (.seq (.for (.expr (.asg (.var "q") (.num true 4 0))) (.bin .lt (.var "q") (.num true 4 P.n)) (.inc false true (.var "q"))
            (.block (.seq (.expr (.asg (.var "sum") (.idx (.var "e") (.bin .add (.bin .mul (.var "j") (.num true 4 P.n)) (.var "q")))))
              (saTail P)))) .skip)))))) rest)
      (sa_accumulate_generic E P s i A e >>= k) Q := by
  obtain ⟨q1, q2, q3, q4, -⟩ := hP
  subst hpre
  unfold sa_accumulate_generic
  refine Run.forMemStep (fun j => saLoc next (.int true 4 i) (.int true 4 j) (later true 4 (i = 0 ∧ j = 0) P.n) (later true 4 (i = 0 ∧ j = 0) 8)
      (mulArgs bo bs 0 bs pre.length bi ki))
    (fun j => saLoc next (.int true 4 i) (.int true 4 j) (.int true 4 P.n) (.int true 4 8) (mulArgs bo bs 0 bs pre.length bi ki))
    (fun r : List U16 => F.set bs ⟨false, 2, pre ++ ofU16 r⟩) (by omega) (Nat.mod_one _) ?_ ?_ ?_ ?_ ?_ rfl ?_
  · rw [set_self _ hS]
  · intro M nx
    unfold saLoc mulArgs
    csim
    simp only [and_true]
  · intro k M nx hk
    unfold saLoc mulArgs
    csim
  · intro k M nx hk
    refine ⟨.int true 4 k, ?_⟩
    unfold saLoc mulArgs
    csim
    simp [later]
  · intro j r hj _ M nx hn hM
    have hA' : M (next + 0) = u16s A := by rw [hM _ hb0, set_ne _ _ n1, hA]
    have hS' : M bs = ⟨false, 2, pre ++ ofU16 r⟩ := by rw [hM _ hb2, set_same]
    have m1 : next + 0 ≠ nx := by omega
    have m2 : nx ≠ bs := by omega
    have m3 : bs ≠ nx := by omega
    have m4 : j * P.n ≤ 7 * 1344 := Nat.mul_le_mul (by omega) q1
    unfold saLoc mulArgs
    csim [loopF_eq, newArr_junkS16 j2]
    refine (Refines.forC (fun p (x : List U16) => (⟨("sp", .ptr nx 0 true 2) :: ("sum", .int false 2 0) ::
      saLoc next (.int true 4 i) (.int true 4 j) (later true 4 (i = 0 ∧ j = 0) P.n) (.int true 4 p) (mulArgs bo bs 0 bs pre.length bi ki),
      M.set nx (s16s x), nx + 1⟩ : St)) (fun _ _ => True) (Nat.zero_le _) ?_ trivial ?_ ?_).bind ?_
    · simp [saLoc, mulArgs]
    · intro p x hp _
      unfold saLoc mulArgs
      csim [hS', m3]
      cstep
      rw [hps]
      refine Refines.rdPart fun b _ => ?_
      csim
      refine Refines.tail (Refines.wrS ?_ fun _ _ _ => ?_)
      · csim
      exact .pure ⟨rfl, trivial⟩
    · intro r _
      unfold saLoc mulArgs
      csim
      exact Refines.branchF (by simp)
    · rintro x _ ⟨rfl, -⟩
      unfold saLoc mulArgs
      csim [loopF_eq]
      refine Refines.tail ((Refines.forRel (fun q (y : List U16) (st : St) => ∃ v : Int, st = (⟨("sp", .ptr nx 0 true 2) :: ("sum", .int false 2 v) ::
        saLoc next (.int true 4 i) (.int true 4 j) (.int true 4 q) (.int true 4 8) (mulArgs bo bs 0 bs pre.length bi ki),
        (M.set nx (s16s x)).set bs ⟨false, 2, pre ++ ofU16 y⟩, nx + 1⟩ : St)) (Nat.zero_le _) ?_ ?_ ?_).bind ?_)
      · refine ⟨0, ?_⟩
        have eM : (M.set nx (s16s x)).set bs ⟨false, 2, pre ++ ofU16 r⟩ = M.set nx (s16s x) := set_self _ (by rw [set_ne _ _ m3, hS'])
        rw [eM]
        rfl
      · rintro q y _ hq ⟨v, rfl⟩
        unfold saLoc mulArgs
        csim
        cstep
        cstep
        csim
        refine Refines.tail ((saTail_eq q1 hq (by omega) (by rw [set_ne _ _ m1, hA']) (set_same M nx (s16s x)) n1 m2).bind ?_)
        rintro r' _ ⟨v, rfl⟩
        unfold saLoc mulArgs
        csim
        exact .pure ⟨_, rfl, v, rfl⟩
      · rintro y _ ⟨v, rfl⟩
        unfold saLoc mulArgs
        csim
        exact Refines.branchF (by simp)
      · rintro r' _ ⟨_, rfl, v, rfl⟩
        unfold saLoc mulArgs
        csim
        refine .pure ⟨rfl, rfl, Nat.le_succ_of_le hn, fun b hb => ?_⟩
        show ((M.set nx (s16s x)).set bs _) b = _
        by_cases h : b = bs
        · rw [h, set_same, set_same]
        · rw [set_ne _ _ h, set_ne _ _ h, set_ne _ _ (by omega), hM b hb, set_ne _ _ h]
  · intro r
    rw [later_false (by omega), later_false (by omega)]
    exact hk r

end

variable {Fs : List File} {X : Ctx} {d N : Nat} {F : Mem}

attribute [local irreducible] Ev EvL Run DRun Does

theorem text_mul_sa_opt {P : Params} {B : Build} {E : Env} (hP : P.Small) (hB : B.arch = .le) (hi : B.impl = .generic)
    (hg : B.gen = .shake) (ha : X.arch = .le) {bk a2 : Nat} {xk : Blk}
    (hS : SpongeAt (link Fs X d) E.junk bk xk) (j1 : JunkAt E X 31 8 "seed_A_separated") (j2 : JunkAt E X 36 16 "sp")
    {m : Mem} {next bo bs bi k ki : Nat}
    {O S : List U16} {I : List U8} (hm1 : m bo = u16s O) (hm2 : m bs = u16s S) (hm4 : m bi = u8s I)
    (hbk : bk < next) (hmk : m bk = xk) (hbs : bk ≠ bs) (hb1 : bo < next) (hb2 : bs < next) (hb4 : bi < next) (hn1 : bs ≠ bo)
    (hk1 : k ≤ S.length) (hk3 : ki ≤ I.length) :
    Refines False (sa_plus_e_optimized B E P a2 O (S.take k) (S.drop k) (I.drop ki))
      (callFun (link Fs X d) (mulSaOptFun.at P) [.ptr bo 0 false 2, .ptr bs 0 false 2, .ptr bs k false 2, .ptr bi ki false 1] m next)
      fun r x => x.1 = .int true 4 1 ∧ next ≤ x.2.2 ∧ MAgree next x.2.1 ((m.set bo (u16s r.1)).set bs (u16s (S.take k ++ r.2))) := by
  have c4 : 1 ≤ P.n * 8 := by have := hP.n1; omega
  have c3 : P.n * P.nbar ≤ 1344 * 8 := Nat.mul_le_mul hP.n hP.nbar
  have q1 := hP.seedA; have q2 := hP.n; have q3 := hP.nbar; have h8 := hP.n8
  refine run_one (ps := mulArgs bo bs 0 bs k bi ki) rfl (by rfl) ?_
  unfold mulSaOptFun mulArgs
  cat
  apply DRun.assoc
  apply DRun.undef
  apply DRun.assoc
  apply DRun.undef
  apply DRun.assoc
  apply DRun.undef
  apply DRun.undef
  refine DRun.arr 0 (by ev) rfl (newArr_zeroU16 c4) ?_
  refine DRun.arr 1 (by ev) rfl (newArr_junk8 (by unfold JunkAt at j1 ⊢; rwa [link_junk]) _) ?_
  refine DRun.ptr (v := .ptr (next + 1) 0 false 2) (w := .ptr (next + 1) 0 false 2) (Ev.castTo (Ev.addrVar (by lookv)) (by simp [convert])) (by simp [convert]) ?_
  refine Run.start ?_
  lists
  simp only [sa_plus_e_optimized, sa_plus_e_optimized_full, sa_plus_e_core, hi, hg, freeSched, bind_assoc, pure_bind]
  apply Run.require
  intro _
  refine Run.callEq (EvL.cons (v := .ptr (next + 1) (0 + 2) false 1) (Ev.addr (Ev.varP (by rfl)) (by ev) (by omega) (fr_at rfl) ?_)
    (EvL.cons (by ev) (EvL.cons (by ev) EvL.nil)))
    (Does.memcpyDrop (fr_at rfl) (by rw [fr_arg hb4, hm4]) (by omega) (by omega) (by omega) (by omega) hk3) ?_ ?_
  · rw [length_ofU8, length_uninit]; omega
  · rfl
  intro sep
  upd
  lists
  unfold sa_loop
  simp only [bind_assoc, pure_bind]
  refine Run.forMemStep (fun i => saLoc next (.int true 4 i) (later true 4 (i = 0) P.nbar) (later true 4 (i = 0) P.n) (later true 4 (i = 0) 8)
      (mulArgs bo bs 0 bs k bi ki))
    (fun i => saLoc next (.int true 4 i) (.int true 4 P.nbar) (.int true 4 P.n) (.int true 4 8) (mulArgs bo bs 0 bs k bi ki))
    (fun s : List U16 × List U8 × List U16 => fr (m.set bs (u16s (S.take k ++ s.2.2))) next [u16s s.1, u8s s.2.1]) (by omega) h8 ?_ ?_ ?_ ?_ ?_ rfl ?_
  · rw [List.take_append_drop, set_self _ hm2]
  · intro M nx
    unfold saLoc mulArgs
    csim
    rfl
  · intro i M nx hi
    unfold saLoc mulArgs
    csim
  · intro i M nx hi
    refine ⟨.int true 4 (i + 8 : Nat), ?_⟩
    unfold saLoc mulArgs
    csim
    simp [later]
  · rintro i ⟨A, sep, e⟩ hi' hm
    refine Run.block ?_
    unfold sa_gen_shake
    simp only [bind_assoc]
    refine Run.row (sg := false) 0 hB (by rw [link_arch, ha]) hS hbk (by rw [set_ne _ _ hbs, hmk]) hP (by omega) (by omega) rfl rfl rfl rfl ?_
    rintro ⟨A, sep⟩
    refine Run.row (sg := false) 1 hB (by rw [link_arch, ha]) hS hbk (by rw [set_ne _ _ hbs, hmk]) hP (by omega) (by omega) rfl rfl rfl rfl ?_
    rintro ⟨A, sep⟩
    refine Run.row (sg := false) 2 hB (by rw [link_arch, ha]) hS hbk (by rw [set_ne _ _ hbs, hmk]) hP (by omega) (by omega) rfl rfl rfl rfl ?_
    rintro ⟨A, sep⟩
    refine Run.row (sg := false) 3 hB (by rw [link_arch, ha]) hS hbk (by rw [set_ne _ _ hbs, hmk]) hP (by omega) (by omega) rfl rfl rfl rfl ?_
    rintro ⟨A, sep⟩
    refine Run.row (sg := false) 4 hB (by rw [link_arch, ha]) hS hbk (by rw [set_ne _ _ hbs, hmk]) hP (by omega) (by omega) rfl rfl rfl rfl ?_
    rintro ⟨A, sep⟩
    refine Run.row (sg := false) 5 hB (by rw [link_arch, ha]) hS hbk (by rw [set_ne _ _ hbs, hmk]) hP (by omega) (by omega) rfl rfl rfl rfl ?_
    rintro ⟨A, sep⟩
    refine Run.row (sg := false) 6 hB (by rw [link_arch, ha]) hS hbk (by rw [set_ne _ _ hbs, hmk]) hP (by omega) (by omega) rfl rfl rfl rfl ?_
    rintro ⟨A, sep⟩
    refine Run.row (sg := false) 7 hB (by rw [link_arch, ha]) hS hbk (by rw [set_ne _ _ hbs, hmk]) hP (by omega) (by omega) rfl rfl rfl rfl ?_
    rintro ⟨A, sep⟩
    unfold sa_accumulate
    simp only [hi]
    refine Run.accSa (pre := ofU16 (S.take k)) (s := S.take k) (e := e) hP hi' (by omega) (by omega) (by omega) (fr_at rfl)
      (by rw [fr_arg hb2, set_same, ← u16s_append]) (length_take16 hk1) rfl (by unfold JunkAt at j2 ⊢; rwa [link_junk]) ?_
    intro r
    rw [u16s_append, fr_set_arg hb2, set_set]
    exact Run.skip fun M nx hn hA => ⟨rfl, rfl, hn, hA⟩
  · rintro ⟨A, sep, r⟩
    refine Run.callEq (EvL.cons (v := .ptr bo 0 false 1) (Ev.castTo (Ev.varP rfl) ?_) (EvL.cons (v := .ptr bs (k * 2) false 1) (Ev.castTo (Ev.varP rfl) ?_)
      (EvL.cons (v := .int true 4 (2 * (P.n * P.nbar) : Nat)) ?_ EvL.nil)))
      (Does.memcpyBytes16 (L := O) (I := S.take k ++ r) ha (by rw [fr_arg hb1, set_ne _ _ (Ne.symm hn1), hm1]) (by rw [fr_arg hb2, set_same]) (by omega)
        (by omega) hn1 (by omega) ?_) ?_ ?_
    · csim
    · csim
    · have c5 : 2 * P.n * P.nbar < 2 ^ 31 := by rw [Nat.mul_assoc]; omega
      rw [← Nat.mul_assoc]
      ev
    · simp; omega
    · rw [List.drop_left' (by simp; omega)]
    intro O'
    rw [fr_set_arg hb1]
    refine Run.retOne fun st h1 h2 => ⟨rfl, Nat.le_trans (by omega) h1, fun b hb => ?_⟩
    rw [h2 b (by omega), fr_arg hb]
    by_cases h : b = bo
    · rw [h, set_same, set_ne _ _ (Ne.symm hn1), set_same]
    · by_cases h' : b = bs
      · rw [h', set_same, set_ne _ _ hn1, set_same]
      · rw [set_ne _ _ h, set_ne _ _ h', set_ne _ _ h', set_ne _ _ h]

/-- The functions of the two files with the optimised products, and SHAKE and `randombytes` from outside. -/
theorem othersOpt {G : File} {P : Params} {B : Build} {E : Env} {rb : RandomBytes} {bk : Nat} {xk : Blk} (hG : G.IsOpt P) (hx : G.Leaves) (hP : P.Small)
    (hB : B.arch = .le) (hi : B.impl = .generic) (hg : B.gen = .shake) (ha : X.arch = .le) (j1 : JunkAt E X 31 8 "seed_A_separated")
    (j2 : JunkAt E X 36 16 "sp")
    (hS : SpongeAt X E.junk bk xk) (hR : Rand X rb) : Others (link [utilFile, G] X (d + 1)) B E P rb bk xk := by
  obtain ⟨-, -, -, -, -, -, -, z8, z9, z10, z11, z12⟩ := utilFile_none
  have f1 : [utilFile, G].findSome? (·.fn "shake128") = none := by simp only [List.findSome?, z10, hx.s128]
  have f2 : [utilFile, G].findSome? (·.fn "shake256") = none := by simp only [List.findSome?, z11, hx.s256]
  have f3 : [utilFile, G].findSome? (·.fn "randombytes") = none := by simp only [List.findSome?, z12, hx.random]
  have hS1 := hS.link (d := d + 1) f1 f2
  have hS0 := hS.link (d := d) f1 f2
  constructor
  case shake =>
    intro N F bo ko bi ki s n s' n' L I outlen inlen h1 h2 h3 h4 h5 k1 k2 k3 h6 h7 h8 h9
    exact hS1.shake (v := .u8) h1 (.inr rfl) h2 h3 h4 h5 k1 k2 k3 h6 h7 h8 h9
  case shakeWords =>
    intro N F bo bi s n s' n' L I outlen inlen h1 h2 h3 h4 h5 k1 k2 k3 h6 h7
    have := hS1.shake (P := P) (F := F) (N := N) (v := .u16) (L := toBytes .le L) (I := I) (ko := 0) (ki := 0) (bo := bo) (bi := bi)
      (s := s) (n := n) (s' := s') (n' := n') (by simp only [View.blk, ofBytes_toBytes, h1]) (.inl (by rw [length_toBytes]; omega)) h2 h3 h4 h5 k1 k2 k3
      (Nat.zero_le _) (Nat.zero_le _) h6 h7
    simpa only [View.blk, List.take_zero, List.nil_append, List.drop_zero] using this
  case random =>
    intro N F bo ko s n L len h1 h2 h3 h4
    have := hR (s := s) (n := n) h1 h2 h3 h4
    unfold Does at this ⊢
    rwa [link_extern f3 (by decide) (by decide)]
  case mulAs =>
    intro N F bo bs be bi ks ke ki a1 a2 O S Z I h1 h2 h3 h4 h5 h6 h7 h8 h9 h10 h10' k1 k2 k3 h11 h12 h13 h14
    unfold Does
    intro M nx hn hA
    rw [link_fn (fn_second z8 hG.mulAs) (by decide) (by decide)]
    simp only [frodo_mul_add_as_plus_e, hi]
    intro a t e
    obtain ⟨x, t', e1, ⟨e2, e3, e4⟩, -⟩ := text_mul_as_opt (a1 := a1) (a2 := a2) (m := M) (next := nx) hP hB hi hg ha hS0 j1 (by rw [hA _ h5, h1]) (by rw [hA _ h6, h2]) (by rw [hA _ h7, h3])
      (by rw [hA _ h8, h4]) (by omega) (by rw [hA _ k1, k3]) k2 (by omega) (by omega) (by omega) (by omega) h9 h10 h10' h11 h12 h13 h14 a t e
    refine ⟨x, t', e1, ⟨e2, by omega, fun b hb => ?_⟩, fun h => h.elim⟩
    rw [e4 b (by omega)]
    exact (hA.set bo _) b hb
  case mulSa =>
    intro N F bo bs bi k ki a2 O S I h1 h2 h3 h4 h5 h6 h7 k1 k2 k3 h8 h9
    unfold Does
    intro M nx hn hA
    rw [link_fn (fn_second z9 hG.mulSa) (by decide) (by decide)]
    simp only [frodo_mul_add_sa_plus_e, hi]
    intro a t e
    obtain ⟨x, t', e1, ⟨e2, e3, e4⟩, -⟩ := text_mul_sa_opt (a2 := a2) (m := M) (next := nx) hP hB hi hg ha hS0 j1 j2 (by rw [hA _ h4, h1])
      (by rw [hA _ h5, h2]) (by rw [hA _ h6, h3]) (by omega) (by rw [hA _ k1, k3]) k2 (by omega) (by omega) (by omega) h7 h8 h9 a t e
    refine ⟨x, t', e1, ⟨e2, by omega, fun b hb => ?_⟩, fun h => h.elim⟩
    rw [e4 b (by omega)]
    exact ((hA.set bo _).set bs _) b hb

end Frodo
