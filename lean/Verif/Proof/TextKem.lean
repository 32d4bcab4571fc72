import Verif.Proof.TextFrame
import Verif.Text.KemFuns

/-! # /repo/src/kem.c: text and model -/

namespace Frodo

open Src

/-- The functions that /repo/src/kem.c calls do what the model says.  `bc` is the block of the table `CDF_TABLE`; `bk` and `xk` are for
the table of `shake128` and `shake256`. -/
structure Calls (X : Ctx) (B : Build) (E : Env) (P : Params) (rb : RandomBytes) (bc bk : Nat) (xk : Blk) : Prop where
  copy : ∀ {N F bo ko bi ki s n} {L I : List U8} {len : Nat}, F bo = u8s L → F bi = u8s I → bo < N → bi < N → bi ≠ bo →
    len < 2 ^ 31 → Does X N F "memcpy" [.ptr bo ko false 1, .ptr bi ki false 1, .int s n len] (memcpy L ko I ki len)
      (fun _ => .undef .void) (fun r => F.set bo (u8s r))
  copyWords : ∀ {N F bo ko bi s n} {L : List U8} {I : List U16} {len : Nat}, F bo = u8s L → F bi = u16s I → bo < N → bi < N →
    bi ≠ bo → len < 2 ^ 31 → Does X N F "memcpy" [.ptr bo ko false 1, .ptr bi 0 false 2, .int s n len]
      (memcpy L ko (toBytes .le I) 0 len) (fun _ => .undef .void) (fun r => F.set bo (u8s r))
  shake : ∀ {N F bo ko bi ki s n s' n'} {L I : List U8} {outlen inlen : Nat}, F bo = u8s L → F bi = u8s I → bo < N → bi < N →
    bi ≠ bo → bk < N → bk ≠ bo → F bk = xk → ko ≤ L.length → ki ≤ I.length → outlen < 2 ^ 31 → inlen < 2 ^ 31 →
    Does X N F (shakeName P "shake") [.ptr bo ko false 1, .int s n outlen, .ptr bi ki false 1, .int s' n' inlen]
      (Frodo.shake P E.junk (L.drop ko) outlen (I.drop ki) inlen) (fun _ => .undef .void) (fun r => F.set bo (u8s (L.take ko ++ r)))
  shakeWords : ∀ {N F bo bi s n s' n'} {L : List U16} {I : List U8} {outlen inlen : Nat}, F bo = u16s L → F bi = u8s I →
    bo < N → bi < N → bi ≠ bo → bk < N → bk ≠ bo → F bk = xk → outlen < 2 ^ 31 → inlen < 2 ^ 31 →
    Does X N F (shakeName P "shake") [.ptr bo 0 false 1, .int s n outlen, .ptr bi 0 false 1, .int s' n' inlen]
      (Frodo.shake P E.junk (toBytes .le L) outlen I inlen) (fun _ => .undef .void) (fun r => F.set bo (u16s (ofBytes .le r)))
  random : ∀ {N F bo ko s n} {L : List U8} {len : Nat}, F bo = u8s L → bo < N → ko ≤ L.length → len < 2 ^ 31 →
    Does X N F "randombytes" [.ptr bo ko false 1, .int s n len] (rb (L.drop ko) len) (fun r => .int true 4 r.2)
      (fun r => F.set bo (u8s (L.take ko ++ r.1)))
  sample : ∀ {N F bo ko s n} {L : List U16} {len : Nat}, F bo = u16s L → bo < N → bc < N → bc ≠ bo → F bc = u16s P.cdf → ko ≤ L.length →
    len < 2 ^ 31 → Does X N F "frodo_sample_n" [.ptr bo ko false 2, .int s n len] (frodo_sample_n P.cdf (L.drop ko) len)
      (fun _ => .undef .void) (fun r => F.set bo (u16s (L.take ko ++ r)))
  mulAs : ∀ {N F bo bs be bi ks ke ki a1 a2} {O S Z : List U16} {I : List U8}, F bo = u16s O → F bs = u16s S → F be = u16s Z →
    F bi = u8s I → bo < N → bs < N → be < N → bi < N → bs ≠ bo → be ≠ bo → bi ≠ bo → bk < N → bk ≠ bo → F bk = xk →
    ks ≤ S.length → ke ≤ Z.length → ki ≤ I.length → ke % 2 = 0 →
    Does X N F "frodo_mul_add_as_plus_e" [.ptr bo 0 false 2, .ptr bs ks false 2, .ptr be ke false 2, .ptr bi ki false 1]
      (frodo_mul_add_as_plus_e B E P a1 a2 O (S.drop ks) (Z.drop ke) (I.drop ki)) (fun _ => .int true 4 1)
      (fun r => F.set bo (u16s r))
  mulSa : ∀ {N F bo bs bi k ki a2} {O S : List U16} {I : List U8}, F bo = u16s O → F bs = u16s S →
    F bi = u8s I → bo < N → bs < N → bi < N → bs ≠ bo → bk < N → bk ≠ bs → F bk = xk → k ≤ S.length → ki ≤ I.length →
    Does X N F "frodo_mul_add_sa_plus_e" [.ptr bo 0 false 2, .ptr bs 0 false 2, .ptr bs k false 2, .ptr bi ki false 1]
      (frodo_mul_add_sa_plus_e B E P a2 O (S.take k) (S.drop k) (I.drop ki)) (fun _ => .int true 4 1)
      (fun r => (F.set bo (u16s r.1)).set bs (u16s (S.take k ++ r.2)))
  mulBs : ∀ {N F bo bb bs} {O b s : List U16}, F bo = u16s O → F bb = u16s b → F bs = u16s s → bo < N → bb < N → bs < N → bb ≠ bo →
    bs ≠ bo → Does X N F "frodo_mul_bs" [.ptr bo 0 false 2, .ptr bb 0 false 2, .ptr bs 0 false 2] (frodo_mul_bs P O b s)
      (fun _ => .undef .void) (fun r => F.set bo (u16s r))
  mulAddSb : ∀ {N F bo bb bs be ke} {O b s e : List U16}, F bo = u16s O → F bb = u16s b → F bs = u16s s → F be = u16s e →
    bo < N → bb < N → bs < N → be < N → bb ≠ bo → bs ≠ bo → be ≠ bo → ke ≤ e.length →
    Does X N F "frodo_mul_add_sb_plus_e" [.ptr bo 0 false 2, .ptr bb 0 false 2, .ptr bs 0 false 2, .ptr be ke false 2]
      (frodo_mul_add_sb_plus_e P O b s (e.drop ke)) (fun _ => .undef .void) (fun r => F.set bo (u16s r))
  add : ∀ {N F bo bb} {O b : List U16}, F bo = u16s O → F bb = u16s b → bo < N → bb < N → bb ≠ bo →
    Does X N F "frodo_add" [.ptr bo 0 false 2, .ptr bb 0 false 2, .ptr bo 0 false 2] (frodo_add P O (.buf b) .out)
      (fun _ => .undef .void) (fun r => F.set bo (u16s r))
  sub : ∀ {N F bo bb} {O b : List U16}, F bo = u16s O → F bb = u16s b → bo < N → bb < N → bb ≠ bo →
    Does X N F "frodo_sub" [.ptr bo 0 false 2, .ptr bb 0 false 2, .ptr bo 0 false 2] (frodo_sub P O (.buf b) .out)
      (fun _ => .undef .void) (fun r => F.set bo (u16s r))
  encode : ∀ {N F bo bi k} {O : List U16} {I : List U8}, F bo = u16s O → F bi = u8s I → bo < N → bi < N → bi ≠ bo → k ≤ I.length →
    k % 2 = 0 → Does X N F "frodo_key_encode" [.ptr bo 0 false 2, .ptr bi (k / 2) false 2] (frodo_key_encode P O (I.drop k))
      (fun _ => .undef .void) (fun r => F.set bo (u16s r))
  decode : ∀ {N F bo bi k} {O : List U8} {I : List U16}, F bo = u8s O → F bi = u16s I → bo < N → bi < N → bi ≠ bo → k ≤ O.length →
    k % 2 = 0 → Does X N F "frodo_key_decode" [.ptr bo (k / 2) false 2, .ptr bi 0 false 2] (frodo_key_decode P (O.drop k) I)
      (fun _ => .undef .void) (fun r => F.set bo (u8s (O.take k ++ r)))
  pack : ∀ {N F bo ko bi s n s' n' s'' n''} {L : List U8} {I : List U16} {outlen inlen lsb : Nat}, F bo = u8s L → F bi = u16s I →
    bo < N → bi < N → bi ≠ bo → ko ≤ L.length → outlen < 2 ^ 31 → inlen < 2 ^ 31 → lsb < 256 →
    Does X N F "frodo_pack" [.ptr bo ko false 1, .int s n outlen, .ptr bi 0 false 2, .int s' n' inlen, .int s'' n'' lsb]
      (frodo_pack (L.drop ko) outlen I inlen lsb) (fun _ => .undef .void) (fun r => F.set bo (u8s (L.take ko ++ r)))
  unpack : ∀ {N F bo bi ki s n s' n' s'' n''} {L : List U16} {I : List U8} {outlen inlen lsb : Nat}, F bo = u16s L → F bi = u8s I →
    bo < N → bi < N → bi ≠ bo → ki ≤ I.length → outlen < 2 ^ 31 → inlen < 2 ^ 31 → lsb < 256 →
    Does X N F "frodo_unpack" [.ptr bo 0 false 2, .int s n outlen, .ptr bi ki false 1, .int s' n' inlen, .int s'' n'' lsb]
      (frodo_unpack L outlen (I.drop ki) inlen lsb) (fun _ => .undef .void) (fun r => F.set bo (u16s r))
  verify : ∀ {N F ba bb s n} {a b : List U16} {len : Nat}, F ba = u16s a → F bb = u16s b → ba < N → bb < N → len < 2 ^ 31 →
    Does X N F "ct_verify" [.ptr ba 0 false 2, .ptr bb 0 false 2, .int s n len] (ct_verify a b len) (fun v => .int true 1 v)
      (fun _ => F)
  select : ∀ {N F bo ko ba ka bb kb s n s' n'} {L a b : List U8} {len : Nat} {sel : Int}, F bo = u8s L → F ba = u8s a → F bb = u8s b →
    bo < N → ba < N → bb < N → ba ≠ bo → bb ≠ bo → ko ≤ L.length → ka ≤ a.length → kb ≤ b.length → len < 2 ^ 31 →
    Does X N F "ct_select" [.ptr bo ko false 1, .ptr ba ka false 1, .ptr bb kb false 1, .int s n len, .int s' n' (i8 sel)]
      (ct_select (L.drop ko) (a.drop ka) (b.drop kb) len (i8 sel)) (fun _ => .undef .void) (fun r => F.set bo (u8s (L.take ko ++ r)))
  clear : ∀ {N F bo ko s n} {L : List U8} {len : Nat}, F bo = u8s L → bo < N → ko ≤ L.length → len < 2 ^ 31 →
    Does X N F "clear_bytes" [.ptr bo ko false 1, .int s n len] (clear_bytes (L.drop ko) len) (fun _ => .undef .void)
      (fun r => F.set bo (u8s (L.take ko ++ r)))
  clearWords : ∀ {N F bo ko s n} {L : List U16} {len : Nat}, F bo = u16s L → bo < N → ko ≤ L.length → len < 2 ^ 31 →
    Does X N F "clear_bytes" [.ptr bo (ko * 2) false 1, .int s n len] (clear_bytes (toBytes .le (L.drop ko)) len)
      (fun _ => .undef .void) (fun r => F.set bo (u16s (L.take ko ++ ofBytes .le r)))

theorem Does.left {X : Ctx} {N : Nat} {F : Mem} {f : String} {args : List Val} {mo mo' : C α} {v : α → Val} {F' : α → Mem}
    (hd : Does X N F f args mo' v F') (h : ∀ a t, mo = .ok a t → ∃ t', mo' = .ok a t') : Does X N F f args mo v F' := by
  intro M nx hn hA a t e
  obtain ⟨t', e'⟩ := h a t e
  obtain ⟨x, t'', e1, e2, -⟩ := hd M nx hn hA a t' e'
  exact ⟨x, t'', e1, e2, fun h => h.elim⟩

theorem memcpy_drop {L I r : List U8} {ko ki len : Nat} {t : List Event} (h : ki ≤ I.length)
    (e : memcpy L ko (I.drop ki) 0 len = .ok r t) : ∃ t', memcpy L ko I ki len = .ok r t' := by
  unfold memcpy at e ⊢
  have e1 : 0 + len ≤ (I.drop ki).length ↔ ki + len ≤ I.length := by rw [List.length_drop]; omega
  simp only [e1, List.drop_drop, Nat.add_zero] at e
  split at e
  · split at e
    · rename_i h1 h2
      rw [if_pos h1, if_pos h2]
      cases e
      exact ⟨_, rfl⟩
    · cases e
  · cases e

theorem Calls.copyDrop {X : Ctx} {B : Build} {E : Env} {P : Params} {rb : RandomBytes} {bc bk : Nat} {xk : Blk} (h : Calls X B E P rb bc bk xk) {N : Nat}
    {F : Mem} {bo ko bi ki : Nat} {s : Bool} {n : Nat} {L I : List U8} {len : Nat} (h1 : F bo = u8s L) (h2 : F bi = u8s I) (h3 : bo < N)
    (h4 : bi < N) (h5 : bi ≠ bo) (h6 : len < 2 ^ 31) (h7 : ki ≤ I.length) :
    Does X N F "memcpy" [.ptr bo ko false 1, .ptr bi ki false 1, .int s n len] (memcpy L ko (I.drop ki) 0 len)
      (fun _ => .undef .void) (fun r => F.set bo (u8s r)) := by
  exact (h.copy h1 h2 h3 h4 h5 h6).left fun _ _ e => memcpy_drop h7 e

/-- Bounds on the numbers in the sizes that kem.c computes. -/
structure Params.Small (P : Params) : Prop where
  n : P.n ≤ 1344
  n1 : 1 ≤ P.n
  nbar : P.nbar ≤ 8
  nbar1 : 1 ≤ P.nbar
  logq : P.logq ≤ 16
  B : P.B ≤ 8
  seedA : P.seedA ≤ 16
  bytes : P.bytes ≤ 32
  even : P.bytes % 2 = 0
  pk : P.pkBytes ≤ 21520
  pkEven : P.pkBytes % 2 = 0
  pkSeed : P.seedA ≤ P.pkBytes
  ct : P.ctBytes ≤ 21632
  c1 : P.logq * P.n * P.nbar / 8 ≤ P.ctBytes
  n8 : P.n % 8 = 0

theorem Params.Small.nums {P : Params} (h : P.Small) :
    P.n * P.nbar ≤ 10752 ∧ 1 ≤ P.n * P.nbar ∧ 2 * P.n * P.nbar = 2 * (P.n * P.nbar) ∧
    (2 * P.n + P.nbar) * P.nbar = 2 * (P.n * P.nbar) + P.nbar * P.nbar ∧ 1 ≤ P.nbar * P.nbar ∧ P.nbar * P.nbar ≤ 64 ∧
    P.logq * P.n ≤ 21504 ∧ P.logq * P.n * P.nbar ≤ 172032 ∧ P.logq * P.nbar ≤ 128 ∧ P.logq * P.nbar * P.nbar ≤ 1024 ∧
    P.B * P.nbar ≤ 64 ∧ P.B * P.nbar * P.nbar ≤ 512 := by
  have h1 := h.n; have h2 := h.n1; have h3 := h.nbar; have h4 := h.nbar1; have h5 := h.logq; have h6 := h.B
  refine ⟨Nat.mul_le_mul h1 h3, Nat.mul_le_mul h2 h4, Nat.mul_assoc _ _ _, by rw [Nat.add_mul, Nat.mul_assoc], Nat.mul_le_mul h4 h4,
    Nat.mul_le_mul h3 h3, Nat.mul_le_mul h5 h1, Nat.mul_le_mul (Nat.mul_le_mul h5 h1) h3, Nat.mul_le_mul h5 h3,
    Nat.mul_le_mul (Nat.mul_le_mul h5 h3) h3, Nat.mul_le_mul h6 h3, Nat.mul_le_mul (Nat.mul_le_mul h6 h3) h3⟩

/-- The uninitialised arrays of the text are those of the model. -/
def JunkAt (E : Env) (X : Ctx) (tag w : Nat) (x : String) : Prop :=
  ∀ i, BitVec.ofNat w (E.junk tag i) = BitVec.ofInt w (X.junk x i)

theorem newArr_junk8 {E : Env} {X : Ctx} {tag : Nat} {x : String} (h : JunkAt E X tag 8 x) (len : Nat) :
    newArr X x false 1 len none = ofU8 (uninit E.junk tag 8 len) := by
  simp only [newArr, ofU8, uninit, List.map_map]
  apply List.map_congr_left
  intro i _
  simp only [Function.comp, h i, wrap_u8, u8]

theorem newArr_junk16 {E : Env} {X : Ctx} {tag : Nat} {x : String} (h : JunkAt E X tag 16 x) (len : Nat) :
    newArr X x false 2 len none = ofU16 (uninit E.junk tag 16 len) := by
  simp only [newArr, ofU16, uninit, List.map_map]
  apply List.map_congr_left
  intro i _
  simp only [Function.comp, h i, wrap_u16, u16]

theorem newArr_zero {X : Ctx} {x : String} {len : Nat} (h : 1 ≤ len) :
    newArr X x false 2 len (some [.num true 4 0]) = ofU16 (List.replicate len 0) := by
  obtain ⟨k, rfl⟩ : ∃ k, len = k + 1 := ⟨len - 1, by omega⟩
  simp [newArr, initElems, wrap, ofU16, List.replicate_succ]

/-! ## Expressions -/

section

variable {X : Ctx} {N : Nat} {loc : List (String × Val)} {F : Mem}

theorem Ev.nat {s : Bool} {n a : Nat} : Ev X N loc F (.num s n a) (.int s n (a : Int)) := fun _ _ _ _ => ⟨_, _, rfl, rfl⟩

theorem Ev.var {x : String} {v : Val} (h : findVar x loc = some v) (hv : ∀ t, v ≠ .undef t) : Ev X N loc F (.var x) v := by
  intro M nx _ _
  simp only [eval, getVar, h]
  cases v with
  | int => exact ⟨_, _, rfl, rfl⟩
  | ptr => exact ⟨_, _, rfl, rfl⟩
  | undef t => exact absurd rfl (hv t)

theorem Ev.varP {x : String} {b off : Nat} {s : Bool} {n : Nat} (h : findVar x loc = some (.ptr b off s n)) :
    Ev X N loc F (.var x) (.ptr b off s n) := Ev.var h fun _ e => nomatch e

theorem Ev.varI {x : String} {s : Bool} {n : Nat} {v : Int} (h : findVar x loc = some (.int s n v)) :
    Ev X N loc F (.var x) (.int s n v) := Ev.var h fun _ e => nomatch e

theorem Ev.bin {o : BinOp} {a b : Expr} {x y z : Val} (ha : Ev X N loc F a x) (hb : Ev X N loc F b y)
    (h : ∀ m, binOpV m o x y = pure z) : Ev X N loc F (.bin o a b) z := by
  intro M nx hn hA
  obtain ⟨_, t1, e1, rfl⟩ := ha M nx hn hA
  obtain ⟨_, t2, e2, rfl⟩ := hb M nx hn hA
  refine ⟨_, t1 ++ (t2 ++ ([] ++ [])), ?_, rfl⟩
  simp only [eval, e1, C.bind_def, C.bind', e2, h]
  simp only [C.pure_def]

theorem Ev.add {a b : Expr} {x y : Nat} (ha : Ev X N loc F a (.int true 4 x)) (hb : Ev X N loc F b (.int true 4 y))
    (h : x + y < 2 ^ 31) : Ev X N loc F (.bin .add a b) (.int true 4 ((x + y : Nat) : Int)) := by
  refine ha.bin hb fun m => ?_
  csim

theorem Ev.mul {a b : Expr} {x y : Nat} (ha : Ev X N loc F a (.int true 4 x)) (hb : Ev X N loc F b (.int true 4 y))
    (hx : x < 2 ^ 31) (hy : y < 2 ^ 31) (h : x * y < 2 ^ 31) :
    Ev X N loc F (.bin .mul a b) (.int true 4 ((x * y : Nat) : Int)) := by
  refine ha.bin hb fun m => ?_
  csim

theorem Ev.sub {a b : Expr} {x y : Nat} (ha : Ev X N loc F a (.int true 4 x)) (hb : Ev X N loc F b (.int true 4 y))
    (hx : x < 2 ^ 31) (hy : y ≤ x) : Ev X N loc F (.bin .sub a b) (.int true 4 ((x - y : Nat) : Int)) := by
  refine ha.bin hb fun m => ?_
  csim
  rw [show ((x - y : Nat) : Int) = (x : Int) - y by omega]

theorem Ev.div8 {a : Expr} {x : Nat} (ha : Ev X N loc F a (.int true 4 x)) (hx : x < 2 ^ 31) :
    Ev X N loc F (.bin .div a (.num true 4 8)) (.int true 4 ((x / 8 : Nat) : Int)) := by
  refine ha.bin Ev.nat fun m => ?_
  csim

theorem Ev.size {a : Expr} {x : Nat} (ha : Ev X N loc F a (.int true 4 x)) (hx : x < 2 ^ 31) :
    Ev X N loc F (.bin .mul a (.sizeof (.int false 2))) (.int false 8 ((x * 2 : Nat) : Int)) := by
  refine ha.bin (y := .int false 8 ((2 : Nat) : Int)) (fun _ _ _ _ => ⟨_, _, rfl, rfl⟩) fun m => ?_
  csim

theorem Ev.castTo {t : Ty} {a : Expr} {v w : Val} (ha : Ev X N loc F a v) (h : convert t v = pure w) :
    Ev X N loc F (.cast t a) w := by
  intro M nx hn hA
  obtain ⟨_, t1, e1, rfl⟩ := ha M nx hn hA
  refine ⟨_, t1 ++ ([] ++ []), ?_, rfl⟩
  simp only [eval, e1, C.bind_def, C.bind', h]
  simp only [C.pure_def]

theorem Ev.cast8 {a : Expr} {b off : Nat} (ha : Ev X N loc F a (.ptr b off false 2)) :
    Ev X N loc F (.cast (.ptr (.int false 1)) a) (.ptr b (off * 2) false 1) := ha.castTo convert_bytes

theorem Ev.cast11 {a : Expr} {b off : Nat} (ha : Ev X N loc F a (.ptr b off false 1)) :
    Ev X N loc F (.cast (.ptr (.int false 1)) a) (.ptr b off false 1) := ha.castTo (by simp [convert])

theorem Ev.cast16 {a : Expr} {b off : Nat} (ha : Ev X N loc F a (.ptr b off false 2)) :
    Ev X N loc F (.cast (.ptr (.int false 2)) a) (.ptr b off false 2) := ha.castTo (by simp [convert])

theorem Ev.castUp {a : Expr} {b off : Nat} (ha : Ev X N loc F a (.ptr b off false 1)) (h : off % 2 = 0) :
    Ev X N loc F (.cast (.ptr (.int false 2)) a) (.ptr b (off / 2) false 2) := ha.castTo (by simp [convert, h])

theorem Ev.addr {a e : Expr} {b off k : Nat} {s s' : Bool} {n n' : Nat} {d : List Int} (ha : Ev X N loc F a (.ptr b off s n))
    (he : Ev X N loc F e (.int s' n' k)) (hb : b < N) (hF : F b = ⟨s, n, d⟩) (hk : off + k ≤ d.length) :
    Ev X N loc F (.addr (.idx a e)) (.ptr b (off + k) s n) := by
  intro M nx hn hA
  obtain ⟨_, t1, e1, rfl⟩ := ha M nx hn hA
  obtain ⟨_, t2, e2, rfl⟩ := he M nx hn hA
  have e3 : movePtr M b off s n (k : Int) = .ok (.ptr b (off + k) s n) [.addr k] := by
    unfold movePtr
    rw [hA b hb, hF, if_pos ⟨by omega, Nat.mul_le_mul_right n (by simpa using hk)⟩]
    rfl
  refine ⟨_, (t1 ++ (t2 ++ [])) ++ ([.addr k] ++ []), ?_, rfl⟩
  simp only [eval, lval, e1, C.bind_def, C.bind', e2]
  simp only [C.pure_def, e3]

theorem Ev.addr0 {a e : Expr} {b k : Nat} {s s' : Bool} {n n' : Nat} {d : List Int} (ha : Ev X N loc F a (.ptr b 0 s n))
    (he : Ev X N loc F e (.int s' n' k)) (hb : b < N) (hF : F b = ⟨s, n, d⟩) (hk : k ≤ d.length) :
    Ev X N loc F (.addr (.idx a e)) (.ptr b k s n) := by
  have := ha.addr he hb hF (by omega)
  rwa [Nat.zero_add] at this

theorem EvL.nil : EvL X N loc F [] [] := fun _ _ _ _ => ⟨_, _, rfl, rfl⟩

theorem EvL.cons {e : Expr} {es : List Expr} {v : Val} {vs : List Val} (h : Ev X N loc F e v) (hs : EvL X N loc F es vs) :
    EvL X N loc F (e :: es) (v :: vs) := by
  intro M nx hn hA
  obtain ⟨_, t1, e1, rfl⟩ := h M nx hn hA
  obtain ⟨_, t2, e2, rfl⟩ := hs M nx hn hA
  refine ⟨_, t1 ++ (t2 ++ []), ?_, rfl⟩
  simp only [evalList, e1, C.bind_def, C.bind', e2]
  simp only [C.pure_def]

theorem Run.callEq {f : String} {args : List Expr} {vs : List Val} {rest : Stmt} {mo mo' : C β} {v : β → Val} {F' : β → Mem} {k : β → C α}
    {Q : α → St × Flow → Prop} (he : EvL X N loc F args vs) (hc : Does X N F f vs mo' v F') (hm : mo = mo')
    (hk : ∀ a, Run X N loc (F' a) rest (k a) Q) : Run X N loc F (.seq (.expr (.call f args)) rest) (mo >>= k) Q := by
  subst hm
  exact Run.call he hc hk

theorem Run.mem_eq {F' : Mem} {s : Stmt} {mo : C α} {Q : α → St × Flow → Prop} (h : F = F') (hk : Run X N loc F' s mo Q) :
    Run X N loc F s mo Q := h ▸ hk

/-- `for (size_t i = 0; i < len; i++) { x[i] = x[i]; }`. -/
theorem Run.leLoop {x : String} {b : Nat} {l : List U16} {len : Nat} {e : Expr} {rest : Stmt} {k : List U16 → C α}
    {Q : α → St × Flow → Prop} (hx : findVar x loc = some (.ptr b 0 false 2)) (hi : "i" ≠ x) (hb : b < N) (hl : F b = u16s l)
    (he : ∀ loc m nx, eval X e ⟨loc, m, nx⟩ = pure (.int true 4 len, ⟨loc, m, nx⟩)) (hlen : len < 2 ^ 31)
    (hk : ∀ r, Run X N loc (F.set b (u16s r)) rest (k r) Q) :
    Run X N loc F (.seq (.for (.decl (.int false 8) "i" (some (.num true 4 0))) (.bin .lt (.var "i") e) (.inc false true (.var "i"))
      (.block (.seq (.expr (.asg (.idx (.var x) (.var "i")) (.idx (.var x) (.var "i")))) .skip))) rest)
      (Frodo.leLoop .le l len >>= k) Q := by
  intro M nx hn hA
  have hM : M b = u16s l := by rw [hA b hb, hl]
  have hi' : ∀ v, findVar x (("i", v) :: loc) = some (.ptr b 0 false 2) := by
    intro v
    simp only [findVar, if_neg hi, hx]
  csim [loopF_eq]
  unfold Frodo.leLoop
  refine (Refines.forC (fun i (r : List U16) => (⟨("i", .int false 8 i) :: loc, M.set b (u16s r), nx⟩ : St))
    (fun _ _ => True) (Nat.zero_le _) ?_ trivial ?_ ?_).bind ?_
  · rw [← hM, set_self _ rfl]; rfl
  · intro i r hi _
    csim [he, hi']
    cgo
    refine Refines.tail ?_
    simp only [LE_TO_UINT16]
    cstep
    exact .pure ⟨rfl, trivial⟩
  · intro r _
    csim [he]
    exact Refines.branchF (by simp)
  · rintro r _ ⟨rfl, -⟩
    csim
    rw [Nat.add_sub_cancel_left]
    exact hk r _ nx hn (hA.set b (u16s r))

theorem Run.toLeLoop {x : String} {b : Nat} {l : List U16} {len : Nat} {e : Expr} {rest : Stmt} {k : List U16 → C α}
    {Q : α → St × Flow → Prop} (hx : findVar x loc = some (.ptr b 0 false 2)) (hi : "i" ≠ x) (hb : b < N) (hl : F b = u16s l)
    (he : ∀ loc m nx, eval X e ⟨loc, m, nx⟩ = pure (.int true 4 len, ⟨loc, m, nx⟩)) (hlen : len < 2 ^ 31)
    (hk : ∀ r, Run X N loc (F.set b (u16s r)) rest (k r) Q) :
    Run X N loc F (.seq (.for (.decl (.int false 8) "i" (some (.num true 4 0))) (.bin .lt (.var "i") e) (.inc false true (.var "i"))
      (.block (.seq (.expr (.asg (.idx (.var x) (.var "i")) (.idx (.var x) (.var "i")))) .skip))) rest)
      (Frodo.toLeLoop .le l len >>= k) Q :=
  Run.leLoop hx hi hb hl he hlen hk

/-- `return 0;` at the end. -/
theorem Run.ret {rest : Stmt} {a : α} {Q : α → St × Flow → Prop}
    (h : ∀ st : St, N ≤ st.next → MAgree N st.mem F → Q a (st, .ret (.int true 4 0))) :
    Run X N loc F (.seq (.ret (some (.num true 4 0))) rest) (pure a) Q := by
  intro M nx hn hA
  csim
  exact .pure (h ⟨loc, M, nx⟩ hn hA)

/-- A function that returns 0. -/
theorem run_zero {G : File} {f : String} {g : Fun} {args : List Val} {ps : List (String × Val)} {m : Mem} {next k : Nat} {mo : C α}
    {F' : α → Mem} (hf : G.fn f = some g) (hr : g.ret = .int true 4) (hp : bindParams g.params args = pure ps)
    (h : DRun X (next + 0) ps (fr m next []) g.body mo fun a x => x.2 = .ret (.int true 4 0) ∧ k ≤ x.1.next ∧ MAgree k x.1.mem (F' a)) :
    Refines False mo (G.run X f args m next) fun a x => x.1 = .int true 4 0 ∧ k ≤ x.2.2 ∧ MAgree k x.2.1 (F' a) := by
  rw [run_eq hf]
  unfold callFun
  rw [hp, pure_bind]
  refine Refines.tail ((h m fun b hb => (fr_arg hb).symm).bind ?_)
  rintro a ⟨st, fl⟩ ⟨rfl, h2, h3⟩
  simp only [hr]
  csim
  exact .pure ⟨rfl, h2, h3⟩

end

/-! ## Two output buffers -/

/-- Memory with new contents of two blocks. -/
def out2 (m : Mem) (a : Nat) (x : Blk) (b : Nat) (y : Blk) : Mem := (m.set a x).set b y

variable {m : Mem} {a b c next : Nat} {x y z : Blk}

theorem out2_self (ha : m a = x) (hb : m b = y) : out2 m a x b y = m := by
  funext c
  unfold out2 Mem.set
  split
  · rename_i h; rw [h, hb]
  · split
    · rename_i h; rw [h, ha]
    · rfl
theorem out2_fst (h : a ≠ b) : out2 m a x b y a = x := by simp [out2, Mem.set, h]
theorem out2_snd : out2 m a x b y b = y := by simp [out2, Mem.set]
theorem out2_other (h : c ≠ a) (h' : c ≠ b) : out2 m a x b y c = m c := by simp [out2, Mem.set, h, h']
theorem out2_set_fst (h : a ≠ b) : (out2 m a x b y).set a z = out2 m a z b y := by
  funext c
  simp only [out2, Mem.set]
  split <;> split <;> simp_all
theorem out2_set_snd : (out2 m a x b y).set b z = out2 m a x b z := by
  funext c
  simp only [out2, Mem.set]
  split <;> simp_all

theorem fr_fst {L : List Blk} (hn : a < next) (h : a ≠ b) : fr (out2 m a x b y) next L a = x := by rw [fr_arg hn, out2_fst h]
theorem fr_snd {L : List Blk} (hn : b < next) : fr (out2 m a x b y) next L b = y := by rw [fr_arg hn, out2_snd]
theorem fr_other {L : List Blk} (hn : c < next) (h : c ≠ a) (h' : c ≠ b) (hm : m c = z) : fr (out2 m a x b y) next L c = z := by
  rw [fr_arg hn, out2_other h h', hm]
theorem fr_set_fst {L : List Blk} (hn : a < next) (h : a ≠ b) :
    (fr (out2 m a x b y) next L).set a z = fr (out2 m a z b y) next L := by rw [fr_set_arg hn, out2_set_fst h]
theorem fr_set_snd {L : List Blk} (hn : b < next) :
    (fr (out2 m a x b y) next L).set b z = fr (out2 m a x b z) next L := by rw [fr_set_arg hn, out2_set_snd]

theorem fr_set_at2 {i j : Nat} {L : List Blk} (hi : i < L.length) (hj : j < L.length) :
    ((fr m next L).set (next + i) x).set (next + j) y = fr m next ((L.set i x).set j y) := by
  rw [fr_set_at hi, fr_set_at (by rwa [List.length_set])]

/-- The contents of a known block. -/
macro "look" : tactic => `(tactic| first
  | exact fr_at rfl
  | (refine fr_fst ?_ ?_ <;> assumption)
  | (refine fr_snd ?_ <;> assumption)
  | (refine fr_other ?_ ?_ ?_ ?_ <;> assumption))

/-- A new contents of a known block. -/
macro "upd" : tactic => `(tactic| (apply Run.mem_eq; first
  | exact fr_set_at (by simp only [List.length_cons, List.length_nil]; omega)
  | exact fr_set_at2 (by simp only [List.length_cons, List.length_nil]; omega) (by simp only [List.length_cons, List.length_nil]; omega)
  | (refine fr_set_fst ?_ ?_ <;> assumption)
  | (refine fr_set_snd ?_ <;> assumption)))

/-- Evaluation of expressions without effects. -/
macro "ev" : tactic => `(tactic| repeat' (first
  | exact Ev.nat
  | exact EvL.nil
  | apply EvL.cons
  | (apply Ev.varP; simp only [findVar, String.reduceEq, ↓reduceIte]; rfl)
  | (apply Ev.varI; simp only [findVar, String.reduceEq, ↓reduceIte]; rfl)
  | apply Ev.div8
  | apply Ev.size
  | apply Ev.add
  | apply Ev.mul
  | apply Ev.sub
  | (apply Ev.cast11; (focus (apply Ev.varP; simp only [findVar, String.reduceEq, ↓reduceIte]; rfl)))
  | apply Ev.cast8
  | (apply Ev.castUp; (focus (apply Ev.varP; simp only [findVar, String.reduceEq, ↓reduceIte]; rfl)); (focus omega))
  | apply Ev.cast16
  | (apply Ev.addr0; (focus (apply Ev.varP; simp only [findVar, String.reduceEq, ↓reduceIte]; rfl)))
  | apply Ev.addr
  | look
  | omega
  | (simp only [length_ofU8, length_ofU16, List.length_replicate, length_uninit]; omega)))

/-- Declaration of a pointer. -/
macro "dptr" : tactic => `(tactic| (apply DRun.ptr; (focus ev); (focus rfl)))

/-- The value of a variable. -/
macro "lookv" : tactic => `(tactic| ((try simp only [findVar, String.reduceEq, ↓reduceIte]); rfl))

/-- Lists as far as they are known. -/
macro "lists" : tactic => `(tactic| try simp only [List.set_cons_succ, List.set_cons_zero, List.take_zero, List.nil_append, List.cons_append, List.drop_zero])

/-- A call; the new contents of the block is the second step. -/
macro "call " t:term : tactic => `(tactic| (apply Run.callEq; (focus (ev; done)); (focus (apply $t <;>
  first | look | assumption | omega | (simp only [length_uninit, List.length_replicate]; omega))); (focus rfl)))

/-- The loop that converts the byte order of an array. -/
macro "swaps " t:term : tactic => `(tactic| (apply $t; (focus lookv); (focus decide); (focus omega); (focus look); (focus (intros; csim)); (focus omega)))

end Frodo
