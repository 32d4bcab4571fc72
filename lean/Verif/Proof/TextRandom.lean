import Verif.Proof.TextRefMul
import Verif.Text.Random
import Verif.Proof.TextLink
import Verif.Proof.Random

/-! # `randombytes`: text and model (/repo/src/random/random.c) -/

namespace Frodo

open Src

/-- `while (cond)`, with a relation between the states of the model and of the text. -/
theorem Refines.whileRel {cond : σ → Bool} {body : σ → C σ} {it : τ → C (Option Flow × τ)} (I J : σ → τ → Prop)
    (hb : ∀ s st, I s st → cond s = true → Refines False (body s) (it st) fun s' r => ∃ st', r = (none, st') ∧ I s' st')
    (he : ∀ s st, I s st → cond s = false → Ret (it st) fun r => ∃ st', r = (some .next, st') ∧ J s st') :
    ∀ s st, I s st → Refines False (Frodo.whileC cond body s) (loop it st) fun s' r => ∃ st', r = (st', .next) ∧ J s' st' := by
  have key : ∀ s a t, Frodo.whileC cond body s = .ok a t → ∀ st, I s st →
      ∃ b t', loop it st = .ok b t' ∧ ∃ st', b = (st', .next) ∧ J a st' := by
    refine whileC.fixpoint_induct cond body (fun w => ∀ s a t, w s = .ok a t → ∀ st, I s st →
      ∃ b t', loop it st = .ok b t' ∧ ∃ st', b = (st', .next) ∧ J a st') ?_ ?_
    · refine Lean.Order.admissible_pi_apply (fun s (x : C σ) => ∀ a t, x = .ok a t → ∀ st, I s st →
        ∃ b t', loop it st = .ok b t' ∧ ∃ st', b = (st', .next) ∧ J a st') ?_
      intro s
      apply Lean.Order.admissible_flatOrder
      intro a t h
      cases h
    · intro w ih s a t hw st hI
      simp only [] at hw
      cases hc : cond s with
      | false =>
        rw [hc] at hw
        simp only [Bool.false_eq_true, if_false] at hw
        have e : a = s := by
          simp only [C.emit, C.bind_def, C.bind', C.pure_def, C.ok.injEq, List.append_nil] at hw
          exact hw.1.symm
        subst e
        obtain ⟨r, t', hr, st', rfl, hJ⟩ := he a st hI hc
        refine ⟨(st', .next), t' ++ [], ?_, st', rfl, hJ⟩
        rw [loop, hr]
        rfl
      | true =>
        rw [hc] at hw
        simp only [if_true] at hw
        obtain ⟨_, t1, t2, h1, hw', rfl⟩ := Frodo.bind_ok hw
        obtain ⟨s', t3, t4, h3, h4, rfl⟩ := Frodo.bind_ok hw'
        obtain ⟨r, t', hr, ⟨st', hR, hI'⟩, -⟩ := hb s st hI hc s' t3 h3
        obtain ⟨b, t'', hb', hR'⟩ := ih s' a t4 h4 st' hI'
        refine ⟨b, t' ++ t'', ?_, hR'⟩
        rw [loop, hr]
        simp only [C.bind_def, C.bind', hR, hb']
  intro s st hI a t e
  obtain ⟨b, t', h1, h2⟩ := key s a t e st hI
  exact ⟨b, t', h1, h2, fun h => h.elim⟩

/-- What has been consumed of the operating system, in a block that only the operating system uses. -/
def osCell (st : OSState) : Blk := ⟨true, 8, [st.lock, st.opens, st.reads, st.pos]⟩
/-- The static variable `lock` (/repo/src/random/random.c:15). -/
def lockCell (st : OSState) : Blk := ⟨true, 4, [st.lock]⟩
/-- The string in /repo/src/random/random.c:41, with the zero at its end. -/
def pathCell : Blk := ⟨true, 1, (w!"/dev/urandom".map fun c => (c.toNat : Int)) ++ [0]⟩

/-- Where the static variable and the string are (C11 6.2.4p3, 6.4.5p6). -/
structure RandomPlaced (X : Ctx) (bl bs : Nat) : Prop where
  cell : X.glob "&lock" = some (.ptr bl 0 true 4)
  lock : X.glob "lock" = none
  path : X.glob "\"/dev/urandom" = some (.ptr bs 0 true 1)

/-- The state after a call of `open` (/repo/src/random/random.c:41). -/
def opened (W : OS) (st : OSState) : OSState := { st with lock := W.openRes st.opens, opens := st.opens + 1 }
/-- The state after a call of `read` that delivers `k` bytes (/repo/src/random/random.c:50). -/
def delivered (st : OSState) (k : Nat) : OSState := { st with reads := st.reads + 1, pos := st.pos + k }
/-- The next bytes of the device. -/
def deviceBytes (W : OS) (st : OSState) (k : Nat) : List U8 := (List.range k).map fun i => W.stream (st.pos + i)

/-- The system calls (POSIX): `open` for reading returns a descriptor of the device or -1; `read` from this descriptor returns -1 or
puts up to as many bytes as asked for into the buffer.  Nothing is said of other files or descriptors, nor of buffers that are too
small. -/
structure Kernel (X : Ctx) (W : OS) (bo : Nat) : Prop where
  open_ : ∀ {st M nx bs}, M bs = pathCell → M bo = osCell st →
    X.call "open" [.ptr bs 0 true 1, .int true 4 0] M nx = pure (.int true 4 (W.openRes st.opens), M.set bo (osCell (opened W st)), nx)
  fails : ∀ {st M nx b off n}, st.lock ≠ -1 → M bo = osCell st → W.readRes st.reads = none →
    X.call "read" [.int true 4 st.lock, .ptr b off false 1, .int true 4 n] M nx =
      pure (.int true 8 (-1), M.set bo (osCell (delivered st 0)), nx)
  gives : ∀ {st M nx b off n a k} {L : List U8}, st.lock ≠ -1 → M bo = osCell st → W.readRes st.reads = some a → k = min a n.toNat →
    b ≠ bo → M b = u8s L → off + k ≤ L.length →
    X.call "read" [.int true 4 st.lock, .ptr b off false 1, .int true 4 n] M nx =
      pure (.int true 8 k, (M.set b (u8s (L.take off ++ deviceBytes W st k ++ L.drop (off + k)))).set bo (osCell (delivered st k)), nx)

/-- Memory with the two cells. -/
def osMem (m : Mem) (bl bo : Nat) (st : OSState) : Mem := (m.set bl (lockCell st)).set bo (osCell st)

theorem delay_loop {X : Ctx} {nx : Nat} {m : Mem} (k : Nat) (hk : k < 2 ^ 32) :
    Ret (loop (roundS X (.inc false false (.var "count")) none (.block .skip)) ⟨[("count", .int false 4 k)], m, nx⟩)
      fun x => x = (⟨[("count", .int false 4 (2 ^ 32 - 1))], m, nx⟩, .next) := by
  induction k with
  | zero =>
    rw [loop]
    csim
    rw [show decide ((0 : Int) ≠ 0) = false from rfl, branchK_false]
    simp only [bind_assoc, pure_bind, Ret_emit_bind, Ret_pure]
    rfl
  | succ k ih =>
    rw [loop]
    csim
    rw [show decide (((k + 1 : Nat) : Int) ≠ 0) = true by simp; omega, branchK_true, show ((k + 1 : Nat) : Int) - 1 = k by omega]
    simp only [bind_assoc, pure_bind, Ret_emit_bind]
    exact ih (by omega)

theorem call_delay {X : Ctx} {k nx : Nat} {m : Mem} (hk : k < 2 ^ 31) :
    Ret (callFun X delayFun [.int true 4 k] m nx) fun x => x = (.undef .void, m, nx) := by
  unfold delayFun
  csim [loopW_eq]
  refine (delay_loop k (by omega)).bind ?_
  rintro _ rfl
  csim
  exact Ret_pure.2 rfl

/-! ## The parts of `randombytes` -/

/-- `lock == -1` (/repo/src/random/random.c:39). -/
def lockFails : Expr := .bin .eq (.var "lock") (.un .neg (.num true 4 1))
/-- `r == -1` (/repo/src/random/random.c:51). -/
def readFails : Expr := .bin .eq (.var "r") (.un .neg (.num true 4 1))
/-- Body of the loop in /repo/src/random/random.c:40-45. -/
def openText : Stmt :=
  .block (.seq (.expr (.asg (.var "lock") (.call "open" [.var "\"/dev/urandom", .num true 4 0])))
    (.seq (.ite lockFails (.block (.seq (.expr (.call "delay" [.num true 4 0xFFFFF])) .skip)) .skip) .skip))
/-- Body of the loop in /repo/src/random/random.c:49-54. -/
def readText : Stmt :=
  .block (.seq (.expr (.asg (.var "r") (.call "read" [.var "lock", .bin .add (.var "random_array") (.var "count"), .var "n"])))
    (.seq (.ite readFails (.block (.seq (.expr (.call "delay" [.num true 4 0xFFFF])) .skip)) .skip) .skip))
/-- Body of the loop in /repo/src/random/random.c:48-57. -/
def fillText : Stmt :=
  .block (.seq readText (.seq (.while readFails readText)
    (.seq (.expr (.asgOp .add (.var "count") (.var "r"))) (.seq (.expr (.asgOp .sub (.var "n") (.var "r"))) .skip))))

theorem randombytes_text : randombytesFun.body =
    .seq (.seq (.decl (.int true 4) "r" none) (.seq (.decl (.int true 4) "n" (some (.cast (.int true 4) (.var "nbytes"))))
      (.decl (.int true 4) "count" (some (.num true 4 0)))))
    (.seq (.ite lockFails (.block (.seq openText (.seq (.while lockFails openText) .skip))) .skip)
      (.seq (.while (.bin .gt (.var "n") (.num true 4 0)) fillText) (.seq (.ret (some (.num true 4 0))) .skip))) := rfl

/-- The variables of `randombytes` (/repo/src/random/random.c:28, 37). -/
def rndVars (b off nb : Nat) (r : Val) (n c : Int) : List (String × Val) :=
  [("count", .int true 4 c), ("n", .int true 4 n), ("r", r), ("random_array", .ptr b off false 1), ("nbytes", .int false 8 nb)]

section

variable {X : Ctx} {W : OS} {bl bo bs : Nat} {m : Mem} {b off nb nx : Nat} {r : Val} {n c : Int} {d : Nat}

theorem value_lock (hX : RandomPlaced X bl bs) {M : Mem} {st : OSState} (h : M bl = lockCell st) :
    valueK X M "lock" none = pure (.int true 4 st.lock) := by
  simp only [valueK, show "&" ++ "lock" = "&lock" from rfl, hX.cell, readStatic, h, lockCell]

theorem lock_write (hX : RandomPlaced X bl bs) {M : Mem} {st st' : OSState} (h : M bl = lockCell st) {loc : List (String × Val)} {s : Bool}
    {k : Nat} (h0 : -2147483648 ≤ st'.lock) (h1 : st'.lock ≤ 2147483647) :
    setK X "lock" ⟨loc, M, nx⟩ s k st'.lock none = pure (.int true 4 st'.lock, ⟨loc, M.set bl (lockCell st'), nx⟩) := by
  simp only [setK, show "&" ++ "lock" = "&lock" from rfl, hX.cell, writeStatic, h, lockCell, wrap_int h0 h1]

theorem os_fns : [randomFile].findSome? (·.fn "open") = none ∧ [randomFile].findSome? (·.fn "read") = none ∧
    [randomFile].findSome? (·.fn "delay") = some delayFun := by
  refine ⟨by decide +kernel, by decide +kernel, ?_⟩
  simp only [List.findSome?, random_delay]

theorem RandomPlaced.link (h : RandomPlaced X bl bs) : RandomPlaced (link [randomFile] X d) bl bs := by
  constructor <;> rw [link_glob]
  exacts [h.cell, h.lock, h.path]

theorem Kernel.link (h : Kernel X W bo) : Kernel (link [randomFile] X d) W bo := by
  obtain ⟨h1, h2, -⟩ := os_fns
  have e1 := link_extern (X := X) (d := d) h1 (by decide) (by decide)
  have e2 := link_extern (X := X) (d := d) h2 (by decide) (by decide)
  constructor
  · rw [e1]; exact h.open_
  · rw [e2]; exact h.fails
  · rw [e2]; exact h.gives

/-- What is assumed of a context in which the text runs. -/
structure RandomCtx (X : Ctx) (W : OS) (bl bo bs : Nat) : Prop where
  placed : RandomPlaced X bl bs
  kernel : Kernel X W bo
  delay : ∀ k m nx, k < 2 ^ 31 → Ret (X.call "delay" [.int true 4 (k : Nat)] m nx) fun x => x = (.undef .void, m, nx)
  ne1 : bl ≠ bo
  ne2 : bs ≠ bl
  ne3 : bs ≠ bo

theorem osMem_lock (h : bl ≠ bo) {st : OSState} : osMem m bl bo st bl = lockCell st := by simp [osMem, Mem.set, h]
theorem osMem_os {st : OSState} : osMem m bl bo st bo = osCell st := by simp [osMem, Mem.set]
theorem osMem_other {x : Nat} {st : OSState} (h1 : x ≠ bl) (h2 : x ≠ bo) : osMem m bl bo st x = m x := by simp [osMem, Mem.set, h1, h2]
theorem osMem_set {st st' : OSState} (h : bl ≠ bo) :
    ((osMem m bl bo st).set bo (osCell st')).set bl (lockCell st') = osMem m bl bo st' := by
  funext x
  simp only [osMem, Mem.set]
  split <;> split <;> simp_all
theorem osMem_step {st st' : OSState} (h : st'.lock = st.lock) :
    (osMem m bl bo st).set bo (osCell st') = osMem m bl bo st' := by
  funext x
  simp only [osMem, Mem.set, lockCell, h]
  split <;> rfl
theorem osMem_swap {st : OSState} {x : Nat} {y : Blk} (h1 : x ≠ bl) (h2 : x ≠ bo) :
    (osMem m bl bo st).set x y = osMem (m.set x y) bl bo st := by
  funext z
  simp only [osMem, Mem.set]
  split <;> split <;> simp_all

theorem delay_refines {k : Nat} {e : C (Val × Mem × Nat)} {v : Val × Mem × Nat} (h : Ret e fun x => x = v) :
    Refines False (Frodo.delay k) e fun _ x => x = v := by
  intro a t _
  obtain ⟨x, t', e1, e2⟩ := h
  exact ⟨x, t', e1, e2, fun h => h.elim⟩

theorem exec_openText (hX : RandomCtx X W bl bo bs) (hW : ∀ i, -2147483648 ≤ W.openRes i ∧ W.openRes i ≤ 2147483647) (hm : m bs = pathCell)
    (st : OSState) :
    Refines False (openStep W st) (exec X openText ⟨rndVars b off nb r n c, osMem m bl bo st, nx⟩)
      fun st' x => x = (⟨rndVars b off nb r n c, osMem m bl bo st', nx⟩, .next) ∧ st' = opened W st := by
  have h1 := hX.placed.path
  have h2 := hX.placed.lock
  have h3 : ((osMem m bl bo st).set bo (osCell (opened W st))) bl = lockCell st := by
    rw [← osMem_lock (m := m) hX.ne1]
    simp [Mem.set, hX.ne1]
  have h4 := hW st.opens
  unfold openText lockFails rndVars
  csim [h1, h2]
  rw [hX.kernel.open_ (by rw [osMem_other hX.ne2 hX.ne3, hm]) osMem_os]
  csim
  rw [show W.openRes st.opens = (opened W st).lock from rfl, lock_write hX.placed h3 h4.1 h4.2, osMem_set hX.ne1]
  csim [h2, value_lock hX.placed (osMem_lock (m := m) (st := opened W st) hX.ne1)]
  unfold openStep
  refine Refines.tail (Refines.bind (R := fun st' x => x = ((⟨rndVars b off nb r n c, osMem m bl bo st', nx⟩ : St), Flow.next) ∧ st' = opened W st)
    (Refines.ifK ?_ (fun _ => ?_) fun _ => ?_) ?_)
  · rw [wrap_int (v := (opened W st).lock) h4.1 h4.2]
    rfl
  · refine (delay_refines (hX.delay 1048575 _ _ (by omega))).bind ?_
    rintro _ _ rfl
    exact .pure ⟨rfl, rfl⟩
  · exact .pure ⟨rfl, rfl⟩
  · rintro st' _ ⟨rfl, rfl⟩
    csim [rndVars]
    exact .pure ⟨rfl, rfl⟩

/-- What the loop of /repo/src/random/random.c:48-57 keeps. -/
structure ReadOk (s : ReadSt) : Prop where
  lock : s.os.lock ≠ -1
  lock0 : -2147483648 ≤ s.os.lock
  lock1 : s.os.lock ≤ 2147483647
  n0 : -2147483648 ≤ s.n
  n1 : s.n ≤ 2147483647
  c0 : 0 ≤ s.count
  c1 : s.count ≤ s.buf.length
  c2 : s.count ≤ 2147483647

/-- Memory while reading. -/
def readMem (m : Mem) (bl bo b : Nat) (pre : List U8) (s : ReadSt) : Mem := osMem (m.set b (u8s (pre ++ s.buf))) bl bo s.os

/-- What the result of `read` can be. -/
def ReadRes (s : ReadSt) : Prop := s.r = -1 ∨ 0 ≤ s.r ∧ s.r ≤ 2147483647 ∧ s.count + s.r ≤ s.buf.length

theorem call_read (hX : RandomCtx X W bl bo bs) (hb1 : b ≠ bl) (hb2 : b ≠ bo) {pre : List U8} (ho : off = pre.length) {s : ReadSt}
    (hs : ReadOk s) :
    Refines False (readCall W s) (X.call "read" [.int true 4 s.os.lock, .ptr b (off + s.count.toNat) false 1, .int true 4 s.n]
      (readMem m bl bo b pre s) nx) fun s' x => x = (.int true 8 s'.r, readMem m bl bo b pre s', nx) ∧ ReadOk s' ∧ ReadRes s' ∧
        s'.n = s.n ∧ s'.count = s.count := by
  obtain ⟨g1, g2, g3, g4, g5, g6, g7, g8⟩ := hs
  have hl : (readMem m bl bo b pre s) b = u8s (pre ++ s.buf) := by
    unfold readMem
    rw [osMem_other hb1 hb2]
    simp [Mem.set]
  have ho' : (readMem m bl bo b pre s) bo = osCell s.os := osMem_os
  unfold readCall
  cases hr : W.readRes s.os.reads with
  | none =>
    rw [hX.kernel.fails g1 ho' hr]
    refine .pure ⟨?_, ⟨g1, g2, g3, g4, g5, g6, g7, g8⟩, .inl rfl, rfl, rfl⟩
    unfold readMem
    rw [osMem_step (st := s.os) (st' := delivered s.os 0) rfl]
    rfl
  | some a =>
    intro s' t e
    obtain ⟨buf, t1, t2, e1, e2, rfl⟩ := Frodo.bind_ok e
    unfold memcpy at e1
    split at e1
    · split at e1
      · rename_i c1 c2
        obtain ⟨_, t3, t4, -, e4, rfl⟩ := Frodo.bind_ok e1
        cases e4
        cases e2
        have hk : min a s.n.toNat ≤ 2147483647 := by omega
        refine ⟨_, _, hX.kernel.gives g1 ho' hr rfl hb2 hl (by simp only [List.length_append]; omega), ⟨?_, ⟨g1, g2, g3, g4, g5, g6, ?_, g8⟩, .inr ⟨?_, ?_, ?_⟩, rfl, rfl⟩,
          fun h => h.elim⟩
        · unfold readMem
          rw [osMem_swap hb1 hb2, set_set, osMem_step (st := s.os) (st' := delivered s.os (min a s.n.toNat)) rfl, ho]
          congr 1
          congr 1
          congr 1
          congr 1
          congr 1
          rw [List.take_length_add_append, Nat.add_assoc, List.drop_length_add_append, List.drop_zero,
            List.take_of_length_le (l := List.map _ (List.range _)) (by simp), List.append_assoc, List.append_assoc, List.append_assoc]
          rfl
        · dsimp only
          simp only [List.length_append, List.length_take, List.length_drop, List.length_map, List.length_range]
          simp only [List.length_map, List.length_range] at c1
          omega
        · dsimp only; omega
        · dsimp only; omega
        · dsimp only
          simp only [List.length_append, List.length_take, List.length_drop, List.length_map, List.length_range]
          simp only [List.length_map, List.length_range] at c1
          omega
      · cases e1
    · cases e1

theorem exec_readText (hX : RandomCtx X W bl bo bs) (hb1 : b ≠ bl) (hb2 : b ≠ bo) {pre : List U8} (ho : off = pre.length)
    (hr : r = .undef (.int true 4) ∨ ∃ v, r = .int true 4 v) {s : ReadSt} (hs : ReadOk s) :
    Refines False (readStep W s) (exec X readText ⟨rndVars b off nb r s.n s.count, readMem m bl bo b pre s, nx⟩)
      fun s' x => x = (⟨rndVars b off nb (.int true 4 s'.r) s'.n s'.count, readMem m bl bo b pre s', nx⟩, .next) ∧ ReadOk s' ∧
        ReadRes s' := by
  have h2 := hX.placed.lock
  have hs' := hs
  obtain ⟨g1, g2, g3, g4, g5, g6, g7, g8⟩ := hs
  have hl : (readMem m bl bo b pre s) b = u8s (pre ++ s.buf) := by
    unfold readMem
    rw [osMem_other hb1 hb2]
    simp [Mem.set]
  have hp : movePtr (readMem m bl bo b pre s) b off false 1 s.count = C.emit (.addr s.count.toNat) >>= fun _ =>
      pure (.ptr b (off + s.count.toNat) false 1) := by
    unfold movePtr
    rw [hl, if_pos]
    simp only [length_ofU8, List.length_append]
    omega
  unfold readText readFails rndVars
  have hv : valueK X (readMem m bl bo b pre s) "lock" none = _ := value_lock hX.placed (osMem_lock hX.ne1)
  csim [h2, hv, hp]
  refine Refines.right (b := ()) (by exact ⟨_, _, rfl, rfl⟩) ?_
  unfold readStep
  refine (call_read hX hb1 hb2 ho hs').bind ?_
  rintro s1 _ ⟨rfl, hk, hr', hn, hc⟩
  rw [← hn, ← hc]
  have hw : wrap true 4 s1.r = s1.r := wrap_int (by rcases hr' with h | h <;> omega) (by rcases hr' with h | h <;> omega)
  rcases hr with rfl | ⟨v, rfl⟩
  all_goals
    csim [hw]
    refine Refines.tail (Refines.bind (R := fun s' x => x = ((⟨rndVars b off nb (.int true 4 s1.r) s1.n s1.count, readMem m bl bo b pre s1, nx⟩ : St), Flow.next) ∧ s' = s1)
      (Refines.ifK ?_ (fun _ => ?_) fun _ => ?_) ?_)
    · rfl
    · refine (delay_refines (hX.delay 65535 _ _ (by omega))).bind ?_
      rintro _ _ rfl
      exact .pure ⟨rfl, rfl⟩
    · exact .pure ⟨rfl, rfl⟩
    · rintro s' _ ⟨rfl, rfl⟩
      csim [rndVars]
      exact .pure ⟨rfl, hk, hr'⟩

theorem open_loop (hX : RandomCtx X W bl bo bs) (hW : ∀ i, -2147483648 ≤ W.openRes i ∧ W.openRes i ≤ 2147483647) (hm : m bs = pathCell)
    (st : OSState) (h0 : -2147483648 ≤ st.lock) (h1 : st.lock ≤ 2147483647) :
    Refines False (whileC (fun st => st.lock == -1) (openStep W) st)
      (loop (roundS X lockFails none openText) ⟨rndVars b off nb r n c, osMem m bl bo st, nx⟩)
      fun st' x => x = (⟨rndVars b off nb r n c, osMem m bl bo st', nx⟩, .next) ∧ st'.lock ≠ -1 ∧ -2147483648 ≤ st'.lock ∧
        st'.lock ≤ 2147483647 := by
  have h2 := hX.placed.lock
  refine (Refines.whileRel
    (fun st x => x = (⟨rndVars b off nb r n c, osMem m bl bo st, nx⟩ : St) ∧ -2147483648 ≤ st.lock ∧ st.lock ≤ 2147483647)
    (fun st x => x = (⟨rndVars b off nb r n c, osMem m bl bo st, nx⟩ : St) ∧ st.lock ≠ -1 ∧ -2147483648 ≤ st.lock ∧ st.lock ≤ 2147483647)
    ?_ ?_ st _ ⟨rfl, h0, h1⟩).mono ?_
  · rintro st _ ⟨rfl, h0, h1⟩ hc
    have hv : valueK X (osMem m bl bo st) "lock" none = _ := value_lock hX.placed (osMem_lock hX.ne1)
    unfold lockFails
    rw [roundS_eq]
    unfold rndVars
    csim [h2, hv]
    rw [show decide (st.lock = -1) = true from hc, branchK_true]
    refine Refines.right (b := ()) ⟨_, _, rfl, rfl⟩ ?_
    refine Refines.tail ((exec_openText hX hW hm st).bind ?_)
    rintro st' _ ⟨rfl, rfl⟩
    csim
    exact .pure ⟨_, rfl, rfl, hW _⟩
  · rintro st _ ⟨rfl, h0, h1⟩ hc
    have hv : valueK X (osMem m bl bo st) "lock" none = _ := value_lock hX.placed (osMem_lock hX.ne1)
    unfold lockFails
    rw [roundS_eq]
    unfold rndVars
    csim [h2, hv]
    rw [show decide (st.lock = -1) = false from hc, branchK_false]
    refine Ret_emit_bind.2 (Ret_pure.2 ⟨_, rfl, rfl, ?_, h0, h1⟩)
    simpa using hc
  · rintro st' _ ⟨x, rfl, rfl, h⟩
    exact ⟨rfl, h⟩

theorem read_loop (hX : RandomCtx X W bl bo bs) (hb1 : b ≠ bl) (hb2 : b ≠ bo) {pre : List U8} (ho : off = pre.length) {s : ReadSt}
    (hs : ReadOk s) (hr : ReadRes s) :
    Refines False (whileC (fun s : ReadSt => s.r == -1) (readStep W) s)
      (loop (roundS X readFails none readText) ⟨rndVars b off nb (.int true 4 s.r) s.n s.count, readMem m bl bo b pre s, nx⟩)
      fun s' x => x = (⟨rndVars b off nb (.int true 4 s'.r) s'.n s'.count, readMem m bl bo b pre s', nx⟩, .next) ∧ ReadOk s' ∧
        ReadRes s' ∧ s'.r ≠ -1 := by
  have hw : ∀ {s}, ReadRes s → wrap true 4 s.r = s.r := fun h => wrap_int (by rcases h with h | h <;> omega) (by rcases h with h | h <;> omega)
  refine (Refines.whileRel
    (fun s x => x = (⟨rndVars b off nb (.int true 4 s.r) s.n s.count, readMem m bl bo b pre s, nx⟩ : St) ∧ ReadOk s ∧ ReadRes s)
    (fun s x => x = (⟨rndVars b off nb (.int true 4 s.r) s.n s.count, readMem m bl bo b pre s, nx⟩ : St) ∧ ReadOk s ∧ ReadRes s ∧ s.r ≠ -1)
    ?_ ?_ s _ ⟨rfl, hs, hr⟩).mono ?_
  · rintro s _ ⟨rfl, hs, hr⟩ hc
    unfold readFails
    rw [roundS_eq]
    unfold rndVars
    csim [hw hr]
    rw [show decide (s.r = -1) = true from hc, branchK_true]
    refine Refines.right (b := ()) ⟨_, _, rfl, rfl⟩ ?_
    refine Refines.tail ((exec_readText hX hb1 hb2 ho (.inr ⟨_, rfl⟩) hs).bind ?_)
    rintro st' _ ⟨rfl, h⟩
    csim
    exact .pure ⟨_, rfl, rfl, h⟩
  · rintro s _ ⟨rfl, hs, hr⟩ hc
    unfold readFails
    rw [roundS_eq]
    unfold rndVars
    csim [hw hr]
    rw [show decide (s.r = -1) = false from hc, branchK_false]
    refine Ret_emit_bind.2 (Ret_pure.2 ⟨_, rfl, rfl, hs, hr, ?_⟩)
    simpa using hc
  · rintro st' _ ⟨x, rfl, rfl, h⟩
    exact ⟨rfl, h⟩

theorem exec_fillText (hX : RandomCtx X W bl bo bs) (hb1 : b ≠ bl) (hb2 : b ≠ bo) {pre : List U8} (ho : off = pre.length)
    (hr : r = .undef (.int true 4) ∨ ∃ v, r = .int true 4 v) {s : ReadSt} (hs : ReadOk s) :
    Refines False (fillStep W s) (exec X fillText ⟨rndVars b off nb r s.n s.count, readMem m bl bo b pre s, nx⟩)
      fun s' x => x = (⟨rndVars b off nb (.int true 4 s'.r) s'.n s'.count, readMem m bl bo b pre s', nx⟩, .next) ∧ ReadOk s' := by
  unfold fillText fillStep
  rw [exec_block, exec_seq, bind_assoc]
  refine (exec_readText hX hb1 hb2 ho hr hs).bind ?_
  rintro s1 _ ⟨rfl, h1, h2⟩
  csim [loopW_eq]
  refine (read_loop hX hb1 hb2 ho h1 h2).bind ?_
  rintro s2 _ ⟨rfl, h3, h4, h5⟩
  unfold rndVars
  obtain ⟨g1, g2, g3, g4, g5, g6, g7, g8⟩ := h3
  obtain h4 | ⟨h4, h6, h7⟩ := h4
  · exact absurd h4 h5
  have w1 : wrap true 4 s2.count = s2.count := wrap_int (by omega) (by omega)
  have w2 : wrap true 4 s2.n = s2.n := wrap_int (by omega) (by omega)
  have w3 : wrap true 4 s2.r = s2.r := wrap_int (by omega) (by omega)
  csim [w1, w2, w3]
  by_cases i1 : inInt (s2.count + s2.r)
  · by_cases i2 : inInt (s2.n - s2.r)
    · obtain ⟨a1, a2⟩ := i1
      obtain ⟨a3, a4⟩ := i2
      rw [int_ok a1 a2, int_ok a3 a4, pure_bind, pure_bind, pure_bind, pure_bind, wrap_int a1 a2, wrap_int a3 a4]
      exact .pure ⟨rfl, g1, g2, g3, a3, a4, by dsimp only; omega, h7, a2⟩
    · intro a t e
      simp [Frodo.int, i1, i2, C.bind_def, C.bind'] at e
  · intro a t e
    simp [Frodo.int, i1, C.bind_def, C.bind'] at e

theorem fill_loop (hX : RandomCtx X W bl bo bs) (hb1 : b ≠ bl) (hb2 : b ≠ bo) {pre : List U8} (ho : off = pre.length)
    (hr : r = .undef (.int true 4) ∨ ∃ v, r = .int true 4 v) {s : ReadSt} (hs : ReadOk s) :
    Refines False (whileC (fun s : ReadSt => decide (s.n > 0)) (fillStep W) s)
      (loop (roundS X (.bin .gt (.var "n") (.num true 4 0)) none fillText) ⟨rndVars b off nb r s.n s.count, readMem m bl bo b pre s, nx⟩)
      fun s' x => ∃ r', x = (⟨rndVars b off nb r' s'.n s'.count, readMem m bl bo b pre s', nx⟩, .next) := by
  refine (Refines.whileRel
    (fun s x => ∃ r', x = (⟨rndVars b off nb r' s.n s.count, readMem m bl bo b pre s, nx⟩ : St) ∧ ReadOk s ∧
      (r' = .undef (.int true 4) ∨ ∃ v, r' = .int true 4 v))
    (fun s x => ∃ r', x = (⟨rndVars b off nb r' s.n s.count, readMem m bl bo b pre s, nx⟩ : St))
    ?_ ?_ s _ ⟨_, rfl, hs, hr⟩).mono ?_
  · rintro s _ ⟨r, rfl, hs, hr⟩ hc
    have w2 : wrap true 4 s.n = s.n := wrap_int hs.n0 hs.n1
    rw [roundS_eq]
    unfold rndVars
    csim [w2]
    rw [show decide (s.n > 0) = true from hc, branchK_true]
    refine Refines.right (b := ()) ⟨_, _, rfl, rfl⟩ ?_
    refine Refines.tail ((exec_fillText hX hb1 hb2 ho hr hs).bind ?_)
    rintro st' _ ⟨rfl, h⟩
    csim
    exact .pure ⟨_, rfl, _, rfl, h, .inr ⟨_, rfl⟩⟩
  · rintro s _ ⟨r, rfl, hs, hr⟩ hc
    have w2 : wrap true 4 s.n = s.n := wrap_int hs.n0 hs.n1
    rw [roundS_eq]
    unfold rndVars
    csim [w2]
    rw [show decide (s.n > 0) = false from hc, branchK_false]
    exact Ret_emit_bind.2 (Ret_pure.2 ⟨_, rfl, _, rfl⟩)
  · rintro st' _ ⟨x, rfl, r', rfl⟩
    exact ⟨r', rfl⟩

theorem wrap_i32 {n : Nat} : wrap true 4 (n : Int) = i32 n := by
  simp only [wrap, i32, if_true, BitVec.toInt_ofNat']

/-- `randombytes` (/repo/src/random/random.c:28-61), from its text: it returns what the model returns, leaves in the
buffer, in `lock` and of the operating system what the model leaves. -/
theorem text_randombytes {s : Bool} {k : Nat} (hX : RandomCtx X W bl bo bs)
    (hW : ∀ i, -2147483648 ≤ W.openRes i ∧ W.openRes i ≤ 2147483647) {st : OSState}
    (h0 : -2147483648 ≤ st.lock) (h1 : st.lock ≤ 2147483647) {pre buf : List U8} (ho : off = pre.length)
    (hb1 : b ≠ bl) (hb2 : b ≠ bo) (hb3 : b ≠ bs) (hm : m bs = pathCell) (hn : nb < 2 ^ 64) :
    Refines False (randombytes_nix W st buf nb) (randomFile.run X "randombytes" [.ptr b off false 1, .int s k nb]
      (osMem (m.set b (u8s (pre ++ buf))) bl bo st) nx)
      fun r x => x = (.int true 4 r.2.2, osMem (m.set b (u8s (pre ++ r.2.1))) bl bo r.1, nx) := by
  have hm' : (m.set b (u8s (pre ++ buf))) bs = pathCell := by simp [Mem.set, Ne.symm hb3, hm]
  have h2 := hX.placed.lock
  have hv : valueK X (osMem (m.set b (u8s (pre ++ buf))) bl bo st) "lock" none = _ := value_lock hX.placed (osMem_lock hX.ne1)
  have hp : randombytesFun.params = [(.ptr (.int false 1), "random_array"), (.int false 8, "nbytes")] := rfl
  have ht : randombytesFun.ret = .int true 4 := rfl
  have hw : wrap false 8 (nb : Int) = nb := wrap_size (by omega) (by exact_mod_cast hn)
  rw [run_eq random_randombytes, callFun, randombytes_text]
  unfold randombytes_nix openDevice lockFails
  have hi : -2147483648 ≤ i32 nb ∧ i32 nb ≤ 2147483647 := by
    have := BitVec.toInt_lt (x := BitVec.ofNat 32 nb)
    have := BitVec.le_toInt (x := BitVec.ofNat 32 nb)
    unfold i32
    omega
  csim [wrap_i32, hp, ht, hw, h2, hv, wrap_int hi.1 hi.2]
  refine Refines.bind (R := fun st' x => x = ((⟨rndVars b off nb (.undef (.int true 4)) (i32 nb) 0,
    osMem (m.set b (u8s (pre ++ buf))) bl bo st', nx⟩ : St), Flow.next) ∧ st'.lock ≠ -1 ∧ -2147483648 ≤ st'.lock ∧
        st'.lock ≤ 2147483647) (Refines.ifK ?_ (fun _ => ?_) fun hc => ?_) ?_
  · rfl
  · refine (exec_openText hX hW hm' st).bind ?_
    rintro st1 _ ⟨rfl, rfl⟩
    csim [loopW_eq]
    refine Refines.tail ((open_loop hX hW hm' _ (hW _).1 (hW _).2).bind ?_)
    rintro st' _ ⟨rfl, g⟩
    csim [rndVars]
    exact .pure ⟨rfl, g⟩
  · refine .pure ⟨rfl, ?_, h0, h1⟩
    simpa using hc
  · rintro st' _ ⟨rfl, g1, g2, g3⟩
    csim [loopW_eq]
    refine (fill_loop (s := ⟨st', buf, 0, i32 nb, 0⟩) hX hb1 hb2 ho (.inl rfl)
      ⟨g1, g2, g3, hi.1, hi.2, by dsimp only; omega, by dsimp only; omega, by dsimp only; omega⟩).bind ?_
    rintro s' _ ⟨r', rfl⟩
    csim [wrap_zero]
    exact .pure rfl

/-- `delay` is called from the same file. -/
theorem RandomCtx.ofLink (h1 : RandomPlaced X bl bs) (h2 : Kernel X W bo) (ne1 : bl ≠ bo) (ne2 : bs ≠ bl) (ne3 : bs ≠ bo) :
    RandomCtx (link [randomFile] X (d + 1)) W bl bo bs where
  placed := h1.link
  kernel := h2.link
  delay k m nx hk := by
    rw [link_fn os_fns.2.2 (by decide) (by decide)]
    exact call_delay hk
  ne1 := ne1
  ne2 := ne2
  ne3 := ne3

/-- Calls of `randombytes` run the text of /repo/src/random/random.c on a machine `Y`, all other calls go to `X`.  The static variable
`lock`, what the operating system keeps, and the string are in the next three blocks, which nothing else uses
(C11 6.2.2p3: no other file can name `lock`). -/
def withRandom (X : Ctx) (Y : Nat → Ctx) (st : OSState) : Ctx :=
  { X with call := fun f args m nx =>
      if f = "randombytes" then
        randomFile.run (link [randomFile] (Y nx) 1) f args (osMem (m.set (nx + 2) pathCell) nx (nx + 1) st) (nx + 3)
      else X.call f args m nx }

/-- `Y k` is a machine with an operating system that behaves like `W`, and with the file's variable and string from block `k` on. -/
structure Machine (Y : Nat → Ctx) (W : OS) : Prop where
  placed : ∀ k, RandomPlaced (Y k) k (k + 2)
  kernel : ∀ k, Kernel (Y k) W (k + 1)
  descriptors : ∀ i, -2147483648 ≤ W.openRes i ∧ W.openRes i ≤ 2147483647

theorem withRandom_rand {Y : Nat → Ctx} (hY : Machine Y W) {st : OSState} (h0 : -2147483648 ≤ st.lock) (h1 : st.lock ≤ 2147483647) :
    Rand (withRandom X Y st) (rbNix W st) := by
  intro N F bo ko s n L len e1 e2 e3 e4 M nx hN hM
  have hMb : (M.set (nx + 2) pathCell) bo = u8s (L.take ko ++ L.drop ko) := by
    rw [List.take_append_drop, ← e1, ← hM bo e2]
    simp only [Mem.set, if_neg (show bo ≠ nx + 2 by omega)]
  have hset : (M.set (nx + 2) pathCell).set bo (u8s (L.take ko ++ L.drop ko)) = M.set (nx + 2) pathCell := by
    rw [← hMb]
    funext x
    simp only [Mem.set]
    split <;> simp_all
  have := text_randombytes (X := link [randomFile] (Y nx) 1) (m := M.set (nx + 2) pathCell) (b := bo) (off := ko) (nb := len)
    (nx := nx + 3) (pre := L.take ko) (buf := L.drop ko) (s := s) (k := n)
    (RandomCtx.ofLink (d := 0) (hY.placed nx) (hY.kernel nx) (by omega) (by omega) (by omega)) hY.descriptors h0 h1
    (by rw [List.length_take]; omega) (by omega) (by omega) (by omega) (by simp [Mem.set]) (by omega)
  rw [hset] at this
  unfold rbNix
  simp only [withRandom, if_true]
  rw [← bind_pure (randomFile.run _ _ _ _ _)]
  refine this.bind ?_
  rintro ⟨st', buf', r⟩ _ rfl
  refine .pure ⟨rfl, by dsimp only; omega, fun b hb => ?_⟩
  dsimp only
  rw [osMem_other (by omega) (by omega)]
  simp only [Mem.set, if_neg (show b ≠ nx + 2 by omega)]
  split
  · rfl
  · exact hM b hb

end

end Frodo
