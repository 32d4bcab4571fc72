import Verif.Proof.TextRef

/-! # `frodo_mul_add_as_plus_e` and `frodo_mul_add_sa_plus_e`: text and model (/repo/src/frodo_macrify_reference.c:14-127) -/

namespace Frodo

open Src

variable {Fs : List File} {X : Ctx} {d N : Nat} {F : Mem}

theorem Does.memcpyDrop {bo ko bi ki n : Nat} {s : Bool} {L I : List U8} {len : Nat} (h1 : F bo = u8s L) (h2 : F bi = u8s I)
    (h3 : bo < N) (h4 : bi < N) (h5 : bi ≠ bo) (h6 : len < 2 ^ 31) (h7 : ki ≤ I.length) :
    Does (link Fs X d) N F "memcpy" [.ptr bo ko false 1, .ptr bi ki false 1, .int s n len] (memcpy L ko (I.drop ki) 0 len)
      (fun _ => .undef .void) (fun r => F.set bo (u8s r)) :=
  (Does.memcpy8 h1 h2 h3 h4 h5 h6).left fun _ _ e => memcpy_drop h7 e

theorem memcpy_drop16 {L I r : List U16} {ko ki len : Nat} {t : List Event} (h : ki ≤ I.length)
    (e : memcpy L ko (I.drop ki) 0 len = .ok r t) : ∃ t', memcpy L ko I ki len = .ok r t' := by
  unfold memcpy at e ⊢
  have e1 : 0 + len ≤ (I.drop ki).length ↔ ki + len ≤ I.length := by rw [List.length_drop]; omega
  simp only [e1, List.drop_drop, Nat.add_zero] at e
  split at e
  · split at e
    · rename_i h1 h2
      rw [if_pos h1, if_pos h2]
      cases e
      exact ⟨_, rfl⟩
    · cases e
  · cases e

theorem Does.memcpy16 {bo bi ki n : Nat} {s : Bool} {L I : List U16} {len : Nat} (h1 : F bo = u16s L) (h2 : F bi = u16s I)
    (h3 : bo < N) (h4 : bi < N) (h5 : bi ≠ bo) (h6 : len < 2 ^ 30) (h7 : ki ≤ I.length) :
    Does (link Fs X d) N F "memcpy" [.ptr bo 0 false 2, .ptr bi ki false 2, .int s n (len * 2 : Nat)] (memcpy L 0 (I.drop ki) 0 len)
      (fun _ => .undef .void) (fun r => F.set bo (u16s r)) := by
  refine Does.left (mo' := memcpy L 0 I ki len) ?_ fun _ _ e => memcpy_drop16 h7 e
  obtain ⟨call, hc⟩ := link_string (Fs := Fs) (X := X) (d := d)
  intro M nx hn hA a t e
  have e1 : M bo = u16s L := by rw [hA bo h3, h1]
  have e2 : M bi = u16s I := by rw [hA bi h4, h2]
  have e3 : wrap false 8 ((len * 2 : Nat) : Int) = (len * 2 : Nat) := wrap_size (by omega) (by omega)
  have e4 := memcpy_map (f := fun x : U16 => (x.toNat : Int)) e
  refine ⟨(.undef .void, M.set bo (u16s a), nx), t ++ [], ?_, ⟨rfl, hn, hA.set bo _⟩, fun h => h.elim⟩
  rw [hc]
  unfold withString memcpyC
  simp only [if_neg (show ¬"memcpy" = "memset" by decide), if_true, e1, e2, e3, Nat.mul_mod_left, Nat.mul_div_cancel len (show 0 < 2 by omega),
    Int.toNat_natCast, and_self, C.require, if_pos (Or.inl (Ne.symm h5)), pure_bind, bind_assoc]
  rw [show ofU16 L = L.map (fun x : U16 => (x.toNat : Int)) from rfl, show ofU16 I = I.map (fun x : U16 => (x.toNat : Int)) from rfl, e4]
  rfl

/-- `return 1;` at the end. -/
theorem Run.retOne {X : Ctx} {loc : List (String × Val)} {rest : Stmt} {a : α} {Q : α → St × Flow → Prop}
    (h : ∀ st : St, N ≤ st.next → MAgree N st.mem F → Q a (st, .ret (.int true 4 1))) :
    Run X N loc F (.seq (.ret (some (.num true 4 1))) rest) (pure a) Q := by
  intro M nx hn hA
  csim
  exact .pure (h ⟨loc, M, nx⟩ hn hA)

/-- A function that returns 1. -/
theorem run_one {X : Ctx} {g : Fun} {args : List Val} {ps : List (String × Val)} {m : Mem} {next k : Nat} {mo : C α}
    {F' : α → Mem} (hr : g.ret = .int true 4) (hp : bindParams g.params args = pure ps)
    (h : DRun X (next + 0) ps (fr m next []) g.body mo fun a x => x.2 = .ret (.int true 4 1) ∧ k ≤ x.1.next ∧ MAgree k x.1.mem (F' a)) :
    Refines False mo (callFun X g args m next) fun a x => x.1 = .int true 4 1 ∧ k ≤ x.2.2 ∧ MAgree k x.2.1 (F' a) := by
  unfold callFun
  rw [hp, pure_bind]
  refine Refines.tail ((h m fun b hb => (fr_arg hb).symm).bind ?_)
  rintro a ⟨st, fl⟩ ⟨rfl, h2, h3⟩
  simp only [hr]
  csim
  exact .pure ⟨rfl, h2, h3⟩

theorem SpongeAt.link {J : Junk} {bk : Nat} {xk : Blk} (h : SpongeAt X J bk xk) (h1 : Fs.findSome? (·.fn "shake128") = none) (h2 : Fs.findSome? (·.fn "shake256") = none) :
    SpongeAt (link Fs X d) J bk xk := by
  have e1 := link_extern (X := X) (d := d) h1 (by decide) (by decide)
  have e2 := link_extern (X := X) (d := d) h2 (by decide) (by decide)
  constructor
  · intro N F bo ko bi ki s n s' n' v L I outlen inlen a1 a2 a3 a4 a5 a6 a7 a8 a9 a10 a11 a12 a13
    have := h.s128 (s := s) (n := n) (s' := s') (n' := n') a1 a2 a3 a4 a5 a6 a7 a8 a9 a10 a11 a12 a13
    unfold Does at this ⊢
    rwa [e1]
  · intro N F bo ko bi ki s n s' n' v L I outlen inlen a1 a2 a3 a4 a5 a6 a7 a8 a9 a10 a11 a12 a13
    have := h.s256 (s := s) (n := n) (s' := s') (n' := n') a1 a2 a3 a4 a5 a6 a7 a8 a9 a10 a11 a12 a13
    unfold Does at this ⊢
    rwa [e2]

attribute [local irreducible] Ev EvL Run DRun Does

theorem text_mul_as {P : Params} {B : Build} {E : Env} (hP : P.Small) (hB : B.arch = .le) (hg : B.gen = .shake) (ha : X.arch = .le)
    {bk : Nat} {xk : Blk}
    (hS : SpongeAt (link Fs X d) E.junk bk xk) (j1 : JunkAt E X 31 8 "seed_A_separated") {m : Mem} {next bo bs be bi ks ke ki : Nat}
    {O S Z : List U16} {I : List U8} (hm1 : m bo = u16s O) (hm2 : m bs = u16s S) (hm3 : m be = u16s Z) (hm4 : m bi = u8s I)
    (hbk : bk < next) (hmk : m bk = xk) (hb1 : bo < next) (hb2 : bs < next) (hb3 : be < next) (hb4 : bi < next) (hn1 : bs ≠ bo) (hn2 : be ≠ bo)
    (hk1 : ks ≤ S.length) (hk2 : ke ≤ Z.length) (hk3 : ki ≤ I.length) :
    Refines False (as_plus_e_reference B E P O (S.drop ks) (Z.drop ke) (I.drop ki))
      (callFun (link Fs X d) (mulAsFun.at P) [.ptr bo 0 false 2, .ptr bs ks false 2, .ptr be ke false 2, .ptr bi ki false 1] m next)
      fun r x => x.1 = .int true 4 1 ∧ next ≤ x.2.2 ∧ MAgree next x.2.1 (m.set bo (u16s r)) := by
  have c1 : P.n * P.n ≤ 1344 * 1344 := Nat.mul_le_mul hP.n hP.n
  have c4 : 1 ≤ P.n * P.n := Nat.mul_le_mul hP.n1 hP.n1
  have c2 : P.nbar * P.n ≤ 8 * 1344 := Nat.mul_le_mul hP.nbar hP.n
  have q1 := hP.seedA; have q2 := hP.n; have q3 := hP.nbar
  refine run_one (ps := mulArgs bo bs ks be ke bi ki) rfl (by rfl) ?_
  unfold mulAsFun mulArgs
  cat
  apply DRun.assoc
  apply DRun.undef
  apply DRun.assoc
  apply DRun.undef
  apply DRun.undef
  refine DRun.arr 0 (by ev) rfl (newArr_zero16 c4) ?_
  refine DRun.arr 1 (by ev) rfl (newArr_junk8 (by unfold JunkAt at j1 ⊢; rwa [link_junk]) _) ?_
  refine DRun.ptr (v := .ptr (next + 1) 0 false 2) (w := .ptr (next + 1) 0 false 2) (Ev.castTo (Ev.addrVar (by lookv)) (by simp [convert])) (by simp [convert]) ?_
  refine Run.start ?_
  lists
  simp only [as_plus_e_reference, as_plus_e_reference_full, genA_reference, genA_memory, hg, freeSched, bind_assoc, pure_bind, hB]
  apply Run.require
  intro _
  refine Run.callEq (EvL.cons (v := .ptr (next + 1) (0 + 2) false 1) (Ev.addr (Ev.varP (by rfl)) (by ev) (by omega) (fr_at rfl) ?_)
    (EvL.cons (by ev) (EvL.cons (by ev) EvL.nil)))
    (Does.memcpyDrop (fr_at rfl) (by rw [fr_arg hb4, hm4]) (by omega) (by omega) (by omega) (by omega) hk3) ?_ ?_
  · rw [length_ofU8, length_uninit]; omega
  · rfl
  intro sep
  upd
  lists
  refine Run.rows hB (by rw [link_arch, ha]) hS hbk hmk hP ?_
  rintro ⟨A, sep⟩
  refine Run.leA rfl rfl rfl (by omega) (fr_at rfl) ?_ ?_ ?_
  · intro loc m nx
    csim
  · omega
  intro A
  upd
  lists
  refine Run.callEq (vs := [.ptr bo 0 false 2, .ptr be ke false 2, .int false 8 (P.nbar * P.n * 2 : Nat)]) ?_
    (Does.memcpy16 (by rw [fr_arg hb1, hm1]) (by rw [fr_arg hb3, hm3]) (by omega) (by omega) hn2 (by omega) hk2) ?_ ?_
  · unfold mulLoc
    refine EvL.cons (Ev.varP rfl) (EvL.cons (Ev.varP rfl) ?_)
    ev
  · rfl
  intro O
  rw [fr_set_arg hb1]
  refine Run.prodAs (pre := ofU16 (S.take ks)) (s := S.drop ks) hP (by omega) (by omega) (by omega) (by omega) hn1 (fr_at rfl)
    (by rw [fr_arg hb1]; simp [Mem.set]) (by rw [fr_arg hb2, ← u16s_split, ← hm2]; simp [Mem.set, hn1]) (length_take16 hk1) ?_
  intro r
  rw [fr_set_arg hb1, set_set]
  refine Run.retOne fun st h1 h2 => ⟨rfl, Nat.le_trans (by omega) h1, fun b hb => ?_⟩
  rw [h2 b (by omega), fr_arg hb]

theorem text_mul_sa {P : Params} {B : Build} {E : Env} (hP : P.Small) (hB : B.arch = .le) (hg : B.gen = .shake) (ha : X.arch = .le)
    {bk : Nat} {xk : Blk}
    (hS : SpongeAt (link Fs X d) E.junk bk xk) (j1 : JunkAt E X 31 8 "seed_A_separated") {m : Mem} {next bo bs bi k ki : Nat}
    {O S : List U16} {I : List U8} (hm1 : m bo = u16s O) (hm2 : m bs = u16s S) (hm4 : m bi = u8s I)
    (hbk : bk < next) (hmk : m bk = xk) (hb1 : bo < next) (hb2 : bs < next) (hb4 : bi < next) (hn1 : bs ≠ bo) (hk1 : k ≤ S.length) (hk3 : ki ≤ I.length) :
    Refines False (sa_plus_e_reference B E P O (S.take k) (S.drop k) (I.drop ki))
      (callFun (link Fs X d) (mulSaFun.at P) [.ptr bo 0 false 2, .ptr bs 0 false 2, .ptr bs k false 2, .ptr bi ki false 1] m next)
      fun r x => x.1 = .int true 4 1 ∧ next ≤ x.2.2 ∧ MAgree next x.2.1 (m.set bo (u16s r)) := by
  have c1 : P.n * P.n ≤ 1344 * 1344 := Nat.mul_le_mul hP.n hP.n
  have c4 : 1 ≤ P.n * P.n := Nat.mul_le_mul hP.n1 hP.n1
  have c2 : P.nbar * P.n ≤ 8 * 1344 := Nat.mul_le_mul hP.nbar hP.n
  have q1 := hP.seedA; have q2 := hP.n; have q3 := hP.nbar
  refine run_one (ps := mulArgs bo bs 0 bs k bi ki) rfl (by rfl) ?_
  unfold mulSaFun mulArgs
  cat
  apply DRun.assoc
  apply DRun.undef
  apply DRun.assoc
  apply DRun.undef
  apply DRun.undef
  refine DRun.arr 0 (by ev) rfl (newArr_zero16 c4) ?_
  refine DRun.arr 1 (by ev) rfl (newArr_junk8 (by unfold JunkAt at j1 ⊢; rwa [link_junk]) _) ?_
  refine DRun.ptr (v := .ptr (next + 1) 0 false 2) (w := .ptr (next + 1) 0 false 2) (Ev.castTo (Ev.addrVar (by lookv)) (by simp [convert])) (by simp [convert]) ?_
  refine Run.start ?_
  lists
  simp only [sa_plus_e_reference, sa_plus_e_reference_full, genA_reference, genA_memory, hg, freeSched, bind_assoc, pure_bind, hB]
  apply Run.require
  intro _
  refine Run.callEq (EvL.cons (v := .ptr (next + 1) (0 + 2) false 1) (Ev.addr (Ev.varP (by rfl)) (by ev) (by omega) (fr_at rfl) ?_)
    (EvL.cons (by ev) (EvL.cons (by ev) EvL.nil)))
    (Does.memcpyDrop (fr_at rfl) (by rw [fr_arg hb4, hm4]) (by omega) (by omega) (by omega) (by omega) hk3) ?_ ?_
  · rw [length_ofU8, length_uninit]; omega
  · rfl
  intro sep
  upd
  lists
  refine Run.rows hB (by rw [link_arch, ha]) hS hbk hmk hP ?_
  rintro ⟨A, sep⟩
  refine Run.leA rfl rfl rfl (by omega) (fr_at rfl) ?_ ?_ ?_
  · intro loc m nx
    csim
  · omega
  intro A
  upd
  lists
  refine Run.callEq (vs := [.ptr bo 0 false 2, .ptr bs k false 2, .int false 8 (P.nbar * P.n * 2 : Nat)]) ?_
    (Does.memcpy16 (by rw [fr_arg hb1, hm1]) (by rw [fr_arg hb2, hm2]) (by omega) (by omega) hn1 (by omega) hk1) ?_ ?_
  · unfold mulLoc
    refine EvL.cons (Ev.varP rfl) (EvL.cons (Ev.varP rfl) ?_)
    ev
  · rfl
  intro O
  rw [fr_set_arg hb1]
  refine Run.prodSa (pre := []) (s := S.take k) (post := ofU16 (S.drop k)) hP (by omega) (by omega) (by omega) (by omega) hn1 (fr_at rfl)
    (by rw [fr_arg hb1]; simp [Mem.set]) (by rw [fr_arg hb2, List.nil_append, ← u16s_split, ← hm2]; simp [Mem.set, hn1]) rfl ?_
  intro r
  rw [fr_set_arg hb1, set_set]
  refine Run.retOne fun st h1 h2 => ⟨rfl, Nat.le_trans (by omega) h1, fun b hb => ?_⟩
  rw [h2 b (by omega), fr_arg hb]

/-- `randombytes` does what is said. -/
def Rand (X : Ctx) (rb : RandomBytes) : Prop :=
  ∀ {N F bo ko s n} {L : List U8} {len : Nat}, F bo = u8s L → bo < N → ko ≤ L.length → len < 2 ^ 31 →
    Does X N F "randombytes" [.ptr bo ko false 1, .int s n len] (rb (L.drop ko) len) (fun r => .int true 4 r.2)
      (fun r => F.set bo (u8s (L.take ko ++ r.1)))

theorem SpongeAt.shake {P : Params} {J : Junk} {bk : Nat} {xk : Blk} (h : SpongeAt X J bk xk) {bo ko bi ki n n' : Nat} {s s' : Bool} {v : View} {L I : List U8}
    {outlen inlen : Nat} (h1 : F bo = v.blk L) (h2 : L.length % 2 = 0 ∨ v = .u8)
    (h3 : F bi = u8s I) (h4 : bo < N) (h5 : bi < N) (h6 : bi ≠ bo) (k1 : bk < N) (k2 : bk ≠ bo) (k3 : F bk = xk) (h7 : ko ≤ L.length) (h8 : ki ≤ I.length) (h9 : outlen < 2 ^ 31)
    (h10 : inlen < 2 ^ 31) :
    Does X N F (shakeName P "shake") [.ptr bo ko false 1, .int s n outlen, .ptr bi ki false 1, .int s' n' inlen]
      (Frodo.shake P J (L.drop ko) outlen (I.drop ki) inlen) (fun _ => .undef .void) (fun r => F.set bo (v.blk (L.take ko ++ r))) := by
  unfold shakeName Frodo.shake
  cases P.shake
  · exact h.s128 h1 h2 h3 h4 h5 h6 k1 k2 k3 h7 h8 h9 h10
  · exact h.s256 h1 h2 h3 h4 h5 h6 k1 k2 k3 h7 h8 h9 h10

/-- The functions of the two files, and SHAKE and `randombytes` from outside. -/
theorem others {G : File} {P : Params} {B : Build} {E : Env} {rb : RandomBytes} {bk : Nat} {xk : Blk} (hG : G.IsRef P) (hx : G.Leaves) (hP : P.Small)
    (hB : B.arch = .le) (hi : B.impl = .reference) (hg : B.gen = .shake) (ha : X.arch = .le) (j1 : JunkAt E X 31 8 "seed_A_separated")
    (hS : SpongeAt X E.junk bk xk) (hR : Rand X rb) : Others (link [utilFile, G] X (d + 1)) B E P rb bk xk := by
  obtain ⟨-, -, -, -, -, -, -, z8, z9, z10, z11, z12⟩ := utilFile_none
  have f1 : [utilFile, G].findSome? (·.fn "shake128") = none := by simp only [List.findSome?, z10, hx.s128]
  have f2 : [utilFile, G].findSome? (·.fn "shake256") = none := by simp only [List.findSome?, z11, hx.s256]
  have f3 : [utilFile, G].findSome? (·.fn "randombytes") = none := by simp only [List.findSome?, z12, hx.random]
  have hS1 := hS.link (d := d + 1) f1 f2
  have hS0 := hS.link (d := d) f1 f2
  constructor
  case shake =>
    intro N F bo ko bi ki s n s' n' L I outlen inlen h1 h2 h3 h4 h5 k1 k2 k3 h6 h7 h8 h9
    exact hS1.shake (v := .u8) h1 (.inr rfl) h2 h3 h4 h5 k1 k2 k3 h6 h7 h8 h9
  case shakeWords =>
    intro N F bo bi s n s' n' L I outlen inlen h1 h2 h3 h4 h5 k1 k2 k3 h6 h7
    have := hS1.shake (P := P) (F := F) (N := N) (v := .u16) (L := toBytes .le L) (I := I) (ko := 0) (ki := 0) (bo := bo) (bi := bi)
      (s := s) (n := n) (s' := s') (n' := n') (by simp only [View.blk, ofBytes_toBytes, h1]) (.inl (by rw [length_toBytes]; omega)) h2 h3 h4 h5 k1 k2 k3
      (Nat.zero_le _) (Nat.zero_le _) h6 h7
    simpa only [View.blk, List.take_zero, List.nil_append, List.drop_zero] using this
  case random =>
    intro N F bo ko s n L len h1 h2 h3 h4
    have := hR (s := s) (n := n) h1 h2 h3 h4
    unfold Does at this ⊢
    rwa [link_extern f3 (by decide) (by decide)]
  case mulAs =>
    intro N F bo bs be bi ks ke ki a1 a2 O S Z I h1 h2 h3 h4 h5 h6 h7 h8 h9 h10 _ k1 _ k3 h11 h12 h13 _
    unfold Does
    intro M nx hn hA
    rw [link_fn (fn_second z8 hG.mulAs) (by decide) (by decide)]
    simp only [frodo_mul_add_as_plus_e, hi]
    intro a t e
    obtain ⟨x, t', e1, ⟨e2, e3, e4⟩, -⟩ := text_mul_as (m := M) (next := nx) hP hB hg ha hS0 j1 (by rw [hA _ h5, h1]) (by rw [hA _ h6, h2]) (by rw [hA _ h7, h3])
      (by rw [hA _ h8, h4]) (by omega) (by rw [hA _ k1, k3]) (by omega) (by omega) (by omega) (by omega) h9 h10 h11 h12 h13 a t e
    refine ⟨x, t', e1, ⟨e2, by omega, fun b hb => ?_⟩, fun h => h.elim⟩
    rw [e4 b (by omega)]
    exact (hA.set bo _) b hb
  case mulSa =>
    intro N F bo bs bi k ki a2 O S I h1 h2 h3 h4 h5 h6 h7 k1 _ k3 h8 h9
    unfold Does
    intro M nx hn hA
    rw [link_fn (fn_second z9 hG.mulSa) (by decide) (by decide)]
    simp only [frodo_mul_add_sa_plus_e, hi]
    intro a t e
    obtain ⟨a, t1, t2, ea, eb, -⟩ := Frodo.bind_ok e
    cases eb
    obtain ⟨x, t', e1, ⟨e2, e3, e4⟩, -⟩ := text_mul_sa (m := M) (next := nx) hP hB hg ha hS0 j1 (by rw [hA _ h4, h1]) (by rw [hA _ h5, h2])
      (by rw [hA _ h6, h3]) (by omega) (by rw [hA _ k1, k3]) (by omega) (by omega) (by omega) h7 h8 h9 a t1 ea
    refine ⟨x, t', e1, ⟨e2, by omega, fun b hb => ?_⟩, fun h => h.elim⟩
    have e5 : (F.set bo (u16s a)) bs = u16s S := by simp [Mem.set, h7, h2]
    rw [e4 b (by omega), List.take_append_drop, set_self (F.set bo (u16s a)) e5]
    exact (hA.set bo _) b hb

end Frodo
