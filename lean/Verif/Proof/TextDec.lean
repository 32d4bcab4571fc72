import Verif.Proof.TextKem

/-! # `crypto_kem_dec`: text and model (/repo/src/kem.c:153-252) -/

namespace Frodo

open Src

theorem ofBytes_get {a : Arch} {x : U16} : ∀ {i : Nat} {l : List U8}, (ofBytes a l)[i]? = some x →
    (i + 1) * 2 ≤ l.length ∧ joinBytes a (((ofU8 l).drop (i * 2)).take 2) = (x.toNat : Int)
  | _, [], h => by simp [ofBytes] at h
  | _, [_], h => by simp [ofBytes] at h
  | 0, b0 :: b1 :: l, h => by
    simp only [ofBytes, List.getElem?_cons_zero, Option.some.injEq] at h
    subst h
    exact ⟨by simp, joinBytes_two a b0 b1⟩
  | i + 1, b0 :: b1 :: l, h => by
    simp only [ofBytes, List.getElem?_cons_succ] at h
    obtain ⟨h1, h2⟩ := ofBytes_get h
    refine ⟨by simp only [List.length_cons]; omega, ?_⟩
    rw [← h2]
    rw [show (i + 1) * 2 = i * 2 + 2 by omega]
    rfl

theorem Refines.rdWords {l : List U8} {off i : Nat} {a : Arch} {f : U16 → C γ} {g : Val → C δ} {S : γ → δ → Prop}
    (k : ∀ x : U16, Refines False (f x) (g (.int false 2 (x.toNat : Int))) S) :
    Refines False (Frodo.rd (ofBytes a (l.drop (off * 2))) i >>= f) (loadB a (u8s l) off false 2 (i : Int) >>= g) S := by
  refine Refines.leftOk fun x t e => ?_
  unfold Frodo.rd at e
  split at e
  · rename_i y hy
    cases e
    obtain ⟨h1, h2⟩ := ofBytes_get hy
    rw [List.length_drop] at h1
    unfold loadB
    rw [if_neg (by omega), if_neg (by simp), bytes_u8s, length_ofU8, if_pos (by simp; omega)]
    simp only [bind_assoc, pure_bind]
    have e : (((ofU8 l).drop ((off + (i : Int).toNat) * 2)).take 2) = (((ofU8 (l.drop (off * 2))).drop (i * 2)).take 2) := by
      rw [ofU8_drop, List.drop_drop, Int.toNat_natCast, Nat.add_mul]
    rw [e, h2, wrap_two]
    exact Refines.right (b := ()) ⟨_, _, rfl, rfl⟩ (k x)
  · cases e

section

variable {X : Ctx} {N : Nat} {loc : List (String × Val)} {F : Mem}

/-- `for (size_t i = 0; i < len; i++) { x[i] = y[i]; }` where `y` points into an array of bytes. -/
theorem Run.loadLoop {x y : String} {b c kk : Nat} {l : List U16} {d : List U8} {len : Nat} {e : Expr} {rest : Stmt} {k : List U16 → C α}
    {Q : α → St × Flow → Prop} (hx : findVar x loc = some (.ptr b 0 false 2)) (hi : "i" ≠ x)
    (hy : findVar y loc = some (.ptr c (kk / 2) false 2)) (hk2 : kk % 2 = 0) (hi' : "i" ≠ y) (hb : b < N) (hl : F b = u16s l) (hc : c < N) (hd : F c = u8s d)
    (hbc : c ≠ b) (ha : X.arch = .le)
    (he : ∀ loc m nx, eval X e ⟨loc, m, nx⟩ = pure (.int true 4 len, ⟨loc, m, nx⟩)) (hlen : len < 2 ^ 31)
    (hk : ∀ r, Run X N loc (F.set b (u16s r)) rest (k r) Q) :
    Run X N loc F (.seq (.for (.decl (.int false 8) "i" (some (.num true 4 0))) (.bin .lt (.var "i") e) (.inc false true (.var "i"))
      (.block (.seq (.expr (.asg (.idx (.var x) (.var "i")) (.idx (.var y) (.var "i")))) .skip))) rest)
      ((Frodo.forC 0 len 1 l fun i S => do
        let x ← rd (ofBytes .le (d.drop kk)) i
        wr S i (LE_TO_UINT16 .le x)) >>= k) Q := by
  obtain ⟨off, rfl⟩ : ∃ off, kk = off * 2 := ⟨kk / 2, by omega⟩
  rw [Nat.mul_div_cancel _ (by omega)] at hy
  intro M nx hn hA
  have hM : M b = u16s l := by rw [hA b hb, hl]
  have hMc : M c = u8s d := by rw [hA c hc, hd]
  have hx' : ∀ v, findVar x (("i", v) :: loc) = some (.ptr b 0 false 2) := by
    intro v
    simp only [findVar, if_neg hi, hx]
  have hy' : ∀ v, findVar y (("i", v) :: loc) = some (.ptr c off false 2) := by
    intro v
    simp only [findVar, if_neg hi', hy]
  have hs : ∀ r, (M.set b (u16s r)) c = u8s d := by
    intro r
    simp only [Mem.set, if_neg hbc, hMc]
  csim [loopF_eq]
  refine (Refines.forC (fun i (r : List U16) => (⟨("i", .int false 8 i) :: loc, M.set b (u16s r), nx⟩ : St))
    (fun _ _ => True) (Nat.zero_le _) ?_ trivial ?_ ?_).bind ?_
  · rw [← hM, set_self _ rfl]; rfl
  · intro i r hi _
    csim [he, hx', hy', hs]
    refine Refines.branchT (by simp [hi]) ?_
    rw [ha, hMc]
    refine Refines.rdWords fun x => ?_
    csim
    refine Refines.tail ?_
    simp only [LE_TO_UINT16]
    cstep
    exact .pure ⟨rfl, trivial⟩
  · intro r _
    csim [he]
    exact Refines.branchF (by simp)
  · rintro r _ ⟨rfl, -⟩
    csim
    rw [Nat.add_sub_cancel_left]
    exact hk r _ nx hn (hA.set b (u16s r))

/-- `for (int i = 0; i < N*NBAR; i++) x[i] = x[i] & ((1 << LOGQ)-1);`. -/
theorem Run.reduceLoop {P : Params} {x : String} {b : Nat} {l : List U16} {e : Expr} {rest : Stmt} {k : List U16 → C α}
    {Q : α → St × Flow → Prop} (hx : findVar x loc = some (.ptr b 0 false 2)) (hi : "i" ≠ x) (hb : b < N) (hl : F b = u16s l)
    (he : ∀ loc m nx, eval X e ⟨loc, m, nx⟩ = pure (.int true 4 ((P.n * P.nbar : Nat) : Int), ⟨loc, m, nx⟩)) (hlen : P.n * P.nbar < 2 ^ 31)
    (hk : ∀ r, Run X N loc (F.set b (u16s r)) rest (k r) Q) :
    Run X N loc F (.seq (.for (.decl (.int true 4) "i" (some (.num true 4 0))) (.bin .lt (.var "i") e) (.inc false true (.var "i"))
      (.expr (.asg (.idx (.var x) (.var "i")) (.bin .and (.idx (.var x) (.var "i"))
        (.bin .sub (.bin .shl (.num true 4 1) (.num true 4 P.logq)) (.num true 4 1)))))) rest)
      (Frodo.reduceLoop P l >>= k) Q := by
  intro M nx hn hA
  have hM : M b = u16s l := by rw [hA b hb, hl]
  have hx' : ∀ v, findVar x (("i", v) :: loc) = some (.ptr b 0 false 2) := by
    intro v
    simp only [findVar, if_neg hi, hx]
  csim [loopF_eq]
  unfold Frodo.reduceLoop
  refine (Refines.forC (fun i (r : List U16) => (⟨("i", .int true 4 i) :: loc, M.set b (u16s r), nx⟩ : St))
    (fun _ _ => True) (Nat.zero_le _) ?_ trivial ?_ ?_).bind ?_
  · rw [← hM, set_self _ rfl]; rfl
  · intro i r hi _
    csim [he, hx', qMask]
    cgo
    refine Refines.tail ?_
    cstep
    exact .pure ⟨rfl, trivial⟩
  · intro r _
    csim [he]
    exact Refines.branchF (by simp)
  · rintro r _ ⟨rfl, -⟩
    csim
    rw [Nat.add_sub_cancel_left]
    exact hk r _ nx hn (hA.set b (u16s r))

/-- `int8_t x = f(...) | f(...);`. -/
theorem Run.orCalls {x f : String} {args args' : List Expr} {vs vs' : List Val} {rest : Stmt} {mo mo' m1 m2 : C Int} {k : Int → Int → C α}
    {Q : α → St × Flow → Prop} (he : EvL X N loc F args vs) (he' : EvL X N loc F args' vs')
    (hc : Does X N F f vs m1 (fun v => .int true 1 v) fun _ => F) (hc' : Does X N F f vs' m2 (fun v => .int true 1 v) fun _ => F)
    (e1 : mo = m1) (e2 : mo' = m2)
    (hk : ∀ v w, Run X N ((x, .int true 1 (i8 (ior v w))) :: loc) F rest (k v w) Q) :
    Run X N loc F (.seq (.decl (.int true 1) x (some (.bin .or (.call f args) (.call f args')))) rest)
      (mo >>= fun v => mo' >>= fun w => k v w) Q := by
  subst e1 e2
  intro M nx hn hA
  simp only [exec, eval, bind_assoc, pure_bind]
  refine Refines.right (he M nx hn hA) ?_
  refine (hc M nx hn hA).bind ?_
  rintro v ⟨_, M1, nx1⟩ ⟨rfl, hn1, hA1⟩
  refine Refines.right (he' M1 nx1 hn1 hA1) ?_
  refine (hc' M1 nx1 hn1 hA1).bind ?_
  rintro w ⟨_, M2, nx2⟩ ⟨rfl, hn2, hA2⟩
  have e : binOpV M2 .or (.int true 1 v) (.int true 1 w) = pure (.int true 4 (ior v w)) := by
    have hb : ∀ v : Int, BitVec.ofInt 32 (wrap true 4 v) = BitVec.ofInt 32 v := fun v =>
      BitVec.eq_of_toInt_eq (by rw [BitVec.toInt_ofInt, BitVec.toInt_ofInt]; exact Int.bmod_bmod)
    have : binOpV M2 .or (.int true 1 v) (.int true 1 w) =
      pure (.int true 4 (BitVec.ofInt 32 (wrap true 4 v) ||| BitVec.ofInt 32 (wrap true 4 w)).toInt) := rfl
    rw [this, hb, hb]
    rfl
  have e' : convert (.int true 1) (.int true 4 (ior v w)) = pure (.int true 1 (i8 (ior v w))) := by
    simp [convert, wrap, i8]
  simp only [e, e', pure_bind]
  exact hk v w M2 nx2 hn2 hA2

end

attribute [local irreducible] Ev EvL Run DRun Does

theorem text_dec {G : File} {P : Params} {X : Ctx} {B : Build} {E : Env} {rb : RandomBytes} {bc bq skAddr : Nat} {xk : Blk} {nm : String} (hG : G.IsKem P nm)
    (hC : Calls X B E P rb bc bq xk) (hP : P.Small) (ha : X.arch = .le) (hB : B.arch = .le)
    (j1 : JunkAt E X 42 8 "G2in") (j2 : JunkAt E X 43 8 "G2out") (j3 : JunkAt E X 44 8 "Fin")
    (j4 : JunkAt E X 40 8 "shake_input_seedSEprime") (j5 : JunkAt E X 45 16 "S")
    {m : Mem} {next bs bt bk : Nat} {ss ct sk : List U8} (hm1 : m bs = u8s ss) (hm2 : m bt = u8s ct) (hm3 : m bk = u8s sk)
    (hmc : m bc = u16s P.cdf) (hmq : m bq = xk) (hb1 : bs < next) (hb2 : bt < next) (hb3 : bk < next) (hbc : bc < next) (hbq : bq < next) (hne : bt ≠ bs)
    (hk1 : bk ≠ bt) (hk2 : bk ≠ bs) (hc1 : bc ≠ bt) (hc2 : bc ≠ bs) (hq1 : bq ≠ bt)
    (hq2 : bq ≠ bs) (hlt : ct.length = P.ctBytes)
    (hls : sk.length = P.bytes + P.pkBytes + 2 * P.n * P.nbar + P.bytes) :
    Refines False (crypto_kem_dec B E P skAddr ss ct sk)
      (G.run X ("crypto_kem_dec_" ++ nm) [.ptr bs 0 false 1, .ptr bt 0 false 1, .ptr bk 0 false 1] m next)
      fun o x => x.1 = .int true 4 0 ∧ next + 12 ≤ x.2.2 ∧ MAgree (next + 12) x.2.1
        (fr (out2 m bt (u8s ct) bs (u8s o.ss)) next [u16s o.B, u16s o.Bp, u16s o.W, u16s o.C, u16s o.CC, u16s o.BBp, u16s o.Sp,
          u16s o.S, u8s o.G2in, u8s o.G2out, u8s o.Fin, u8s o.shake_input_seedSEprime]) := by
  obtain ⟨n1, n2, n3, n4, n5, n6, n7, n8, n9, n10, n11, n12⟩ := hP.nums
  obtain ⟨q1, q2, q3, q4, q5, q6, q7, q8, q9, q10, q11, q12, q13, q14, -⟩ := hP
  have hl1 : (ofU8 ct).length = P.ctBytes := by rw [length_ofU8, hlt]
  have hl2 : (ofU8 sk).length = P.bytes + P.pkBytes + 2 * P.n * P.nbar + P.bytes := by rw [length_ofU8, hls]
  refine run_zero (ps := [("ss", .ptr bs 0 false 1), ("ct", .ptr bt 0 false 1), ("sk", .ptr bk 0 false 1)]) hG.dec rfl (by rfl) ?_
  unfold decFun
  cat
  refine DRun.mem_eq (F' := fr (out2 m bt (u8s ct) bs (u8s ss)) next []) (by rw [out2_self hm2 hm1]) ?_
  refine DRun.arr 0 (by ev) rfl (newArr_zero (by omega)) ?_
  refine DRun.arr 1 (by ev) rfl (newArr_zero (by omega)) ?_
  refine DRun.arr 2 (by ev) rfl (newArr_zero (by omega)) ?_
  refine DRun.arr 3 (by ev) rfl (newArr_zero (by omega)) ?_
  refine DRun.arr 4 (by ev) rfl (newArr_zero (by omega)) ?_
  refine DRun.arr 5 (by ev) rfl (newArr_zero (by omega)) ?_
  refine DRun.arr 6 (by ev) rfl (newArr_zero (by omega)) ?_
  iterate 6 dptr
  apply DRun.ptr; (focus (apply Ev.castUp; ev)); (focus rfl)
  refine DRun.arr 7 (by ev) rfl (newArr_junk16 j5 _) ?_
  iterate 3 dptr
  refine DRun.arr 8 (by ev) rfl (newArr_junk8 j1 _) ?_
  iterate 2 dptr
  refine DRun.arr 9 (by ev) rfl (newArr_junk8 j2 _) ?_
  iterate 2 dptr
  refine DRun.arr 10 (by ev) rfl (newArr_junk8 j3 _) ?_
  iterate 2 dptr
  refine DRun.arr 11 (by ev) rfl (newArr_junk8 j4 _) ?_
  refine Run.start ?_
  lists
  simp only [crypto_kem_dec, loadS, decryptMu, expandNoise, mulSA, encryptMu, clearWords, Params.bytesMu, bind_assoc, pure_bind, hB]
  apply Run.require; intro _
  apply Run.ptr; intro c1
  apply Run.loadLoop (x := "S") (y := "sk_S")
  focus lookv
  focus decide
  focus lookv
  focus omega
  focus decide
  focus omega
  focus look
  focus omega
  focus look
  focus omega
  focus exact ha
  focus (intros; csim)
  focus omega
  intro S0
  upd
  lists
  call hC.unpack
  intro Bp
  upd
  lists
  apply Run.ptr; intro c2
  call hC.unpack
  intro C1
  upd
  lists
  call hC.mulBs
  intro W1
  upd
  lists
  call hC.sub
  intro W2
  upd
  lists
  apply Run.require; intro _
  apply Run.atPtr; intro c3
  call hC.decode
  intro g1
  upd
  lists
  call hC.copy
  intro g2
  upd
  lists
  call hC.shake
  intro g3
  upd
  lists
  refine Run.setFirst (by lookv) (by omega) (by look) (by rfl) ?_
  intro inp1 e1
  rw [length_uninit] at e1
  upd
  lists
  call hC.copy
  intro inp2
  upd
  lists
  apply Run.asBytes; intro c4
  lists
  call hC.shakeWords
  intro S1
  upd
  lists
  swaps Run.leLoop (x := "Sp")
  intro S2
  upd
  lists
  call hC.sample
  intro S3
  upd
  lists
  apply Run.atPtr; intro c5
  call hC.sample
  intro S4
  upd
  lists
  apply Run.ptr; intro c6
  apply Run.ptr; intro c7
  call hC.mulSa (a2 := E.addr .Sp + 2 * (P.n * P.nbar))
  rintro ⟨BBp, Ep⟩
  upd
  lists
  apply Run.ptr; intro c8
  apply Run.ptr; intro c9
  apply Run.atPtr; intro c10
  call hC.sample
  intro S5
  upd
  lists
  simp only [List.drop_drop]
  call hC.unpack
  intro B1
  upd
  lists
  apply Run.ptr; intro c11
  call hC.mulAddSb
  intro W3
  upd
  lists
  apply Run.require; intro _
  call hC.encode
  intro CC1
  upd
  lists
  call hC.add
  intro CC2
  upd
  lists
  call hC.copy
  intro F1
  upd
  lists
  swaps Run.reduceLoop (x := "BBp")
  intro BB2
  upd
  lists
  apply Run.orCalls
  focus ev
  focus ev
  focus (apply hC.verify <;> first | look | assumption | omega)
  focus (apply hC.verify <;> first | look | assumption | omega)
  focus rfl
  focus rfl
  intro v w
  apply Run.ptr; intro c12
  apply Run.atPtr; intro c13
  call hC.select
  intro F2
  upd
  lists
  call hC.shake
  intro ss1
  upd
  lists
  apply Run.asBytes; intro c14
  lists
  call hC.clearWords
  intro W4
  upd
  lists
  apply Run.asBytes; intro c15
  lists
  call hC.clearWords
  intro S6
  upd
  lists
  apply Run.asBytes; intro c16
  lists
  call hC.clearWords
  intro S7
  upd
  lists
  apply Run.asBytes; intro c17
  call hC.clearWords
  intro S8
  upd
  lists
  apply Run.asBytes; intro c18
  call hC.clearWords
  intro S9
  upd
  lists
  apply Run.atPtr; intro c19
  call hC.clear
  intro g4
  upd
  lists
  call hC.clear
  intro g5
  upd
  lists
  apply Run.atPtr; intro c20
  call hC.clear
  intro F3
  upd
  lists
  call hC.clear
  intro inp3
  upd
  lists
  exact Run.ret fun st h1 h2 => ⟨rfl, h1, h2⟩

end Frodo
