import Verif.C.Link
import Verif.Proof.TextKem

/-! # What the callees of /repo/src/kem.c do, from their text -/

namespace Frodo

open Src

variable {Fs : List File} {X : Ctx} {d N : Nat} {F : Mem}

theorem link_arch : (link Fs X d).arch = X.arch := by cases d <;> rfl
theorem link_glob : (link Fs X d).glob = X.glob := by cases d <;> rfl
theorem link_junk : (link Fs X d).junk = X.junk := by cases d <;> rfl

theorem link_string : ∃ call, (link Fs X d).call = withString (link Fs X d).arch call := by cases d <;> exact ⟨_, rfl⟩

/-- A function outside of the files. -/
theorem link_extern {f : String} (h : Fs.findSome? (·.fn f) = none) (h1 : f ≠ "memset") (h2 : f ≠ "memcpy") :
    (link Fs X d).call f = X.call f := by
  funext args m next
  cases d <;> simp only [link, withString, if_neg h1, if_neg h2, h]

/-- A function of one of the files. -/
theorem link_fn {f : String} {g : Fun} (h : Fs.findSome? (·.fn f) = some g) (h1 : f ≠ "memset") (h2 : f ≠ "memcpy") :
    (link Fs X (d + 1)).call f = callFun (link Fs X d) g := by
  funext args m next
  simp only [link, withString, if_neg h1, if_neg h2, h]

theorem fn_first {A B : File} {f : String} {g : Fun} (h : A.fn f = some g) : [A, B].findSome? (·.fn f) = some g := by
  simp only [List.findSome?, h]

theorem fn_second {A B : File} {f : String} {g : Fun} (h : A.fn f = none) (h' : B.fn f = some g) :
    [A, B].findSome? (·.fn f) = some g := by
  simp only [List.findSome?, h, h']

theorem callFun_conv {g : Fun} {args args' : List Val} (h : bindParams g.params args = bindParams g.params args') (m : Mem) (nx : Nat) :
    callFun X g args m nx = callFun X g args' m nx := by
  unfold callFun
  rw [h]

theorem ret_refines {tr : Prop} {m : C α} {n : C β} {R : α → β → Prop} {P : α → Prop} {Q : β → Prop} (h : Refines tr m n R)
    (hm : Ret m P) (hq : ∀ a x, P a → R a x → Q x) : Ret n Q := by
  obtain ⟨a', t, e, hp⟩ := hm
  obtain ⟨b', t', e', h', -⟩ := h _ t e
  exact ⟨b', t', e', hq _ _ hp h'⟩

/-- From a theorem about a function that writes one block. -/
theorem Does.ofRun {A : File} {f : String} {g : Fun} {args args' : List Val} {tr : Prop} {mo : C α} {v : α → Val} {b : Nat} {y : α → Blk}
    (hf : Fs.findSome? (·.fn f) = some g) (hA : A.fn f = some g) (h1 : f ≠ "memset") (h2 : f ≠ "memcpy")
    (hp : bindParams g.params args = bindParams g.params args')
    (h : ∀ M nx, N ≤ nx → MAgree N M F →
      Refines tr mo (A.run (link Fs X d) f args' M nx) fun a x => x = (v a, M.set b (y a), nx)) :
    Does (link Fs X (d + 1)) N F f args mo v fun a => F.set b (y a) := by
  intro M nx hn hM
  rw [link_fn hf h1 h2, callFun_conv hp]
  have := h M nx hn hM
  rw [run_eq hA] at this
  intro a t e
  obtain ⟨x, t', e1, rfl, -⟩ := this a t e
  exact ⟨_, t', e1, ⟨rfl, hn, hM.set b (y a)⟩, fun h => h.elim⟩

/-- From a theorem about a function that does not write. -/
theorem Does.ofPure {A : File} {f : String} {g : Fun} {args args' : List Val} {tr : Prop} {mo : C α} {v : α → Val}
    (hf : Fs.findSome? (·.fn f) = some g) (hA : A.fn f = some g) (h1 : f ≠ "memset") (h2 : f ≠ "memcpy")
    (hp : bindParams g.params args = bindParams g.params args')
    (h : ∀ M nx, N ≤ nx → MAgree N M F →
      Refines tr mo (A.run (link Fs X d) f args' M nx) fun a x => x = (v a, M, nx)) :
    Does (link Fs X (d + 1)) N F f args mo v fun _ => F := by
  intro M nx hn hM
  rw [link_fn hf h1 h2, callFun_conv hp]
  have := h M nx hn hM
  rw [run_eq hA] at this
  intro a t e
  obtain ⟨x, t', e1, rfl, -⟩ := this a t e
  exact ⟨_, t', e1, ⟨rfl, hn, hM⟩, fun h => h.elim⟩

theorem u8s_split {L : List U8} (k : Nat) : u8s L = ⟨false, 1, ofU8 (L.take k) ++ ofU8 (L.drop k)⟩ := by
  rw [← ofU8_append, List.take_append_drop]
theorem u16s_split {L : List U16} (k : Nat) : u16s L = ⟨false, 2, ofU16 (L.take k) ++ ofU16 (L.drop k)⟩ := by
  rw [← ofU16_append, List.take_append_drop]
theorem length_take8 {L : List U8} {k : Nat} (h : k ≤ L.length) : (ofU8 (L.take k)).length = k := by
  rw [length_ofU8, List.length_take]; omega
theorem length_take16 {L : List U16} {k : Nat} (h : k ≤ L.length) : (ofU16 (L.take k)).length = k := by
  rw [length_ofU16, List.length_take]; omega
theorem u8s_append {l r : List U8} : (⟨false, 1, ofU8 l ++ ofU8 r⟩ : Blk) = u8s (l ++ r) := by rw [← ofU8_append]
theorem u16s_append {l r : List U16} : (⟨false, 2, ofU16 l ++ ofU16 r⟩ : Blk) = u16s (l ++ r) := by rw [← ofU16_append]

/-! ## `memcpy` -/

theorem memcpy_map {f : α → β} {L I : List α} {ko ki len : Nat} {r : List α} {t : List Event} (h : memcpy L ko I ki len = .ok r t) :
    memcpy (L.map f) ko (I.map f) ki len = .ok (r.map f) t := by
  unfold memcpy at h ⊢
  simp only [List.length_map]
  split at h
  · split at h
    · rename_i c1 c2
      cases h
      rw [if_pos c1, if_pos c2]
      simp only [List.map_append, List.map_take, List.map_drop]
      rfl
    · cases h
  · cases h

theorem Does.memcpy8 {bo ko bi ki n : Nat} {s : Bool} {L I : List U8} {len : Nat} (h1 : F bo = u8s L) (h2 : F bi = u8s I)
    (h3 : bo < N) (h4 : bi < N) (h5 : bi ≠ bo) (h6 : len < 2 ^ 31) :
    Does (link Fs X d) N F "memcpy" [.ptr bo ko false 1, .ptr bi ki false 1, .int s n len] (memcpy L ko I ki len)
      (fun _ => .undef .void) (fun r => F.set bo (u8s r)) := by
  obtain ⟨call, hc⟩ := link_string (Fs := Fs) (X := X) (d := d)
  intro M nx hn hA a t e
  have e1 : M bo = u8s L := by rw [hA bo h3, h1]
  have e2 : M bi = u8s I := by rw [hA bi h4, h2]
  have e3 : wrap false 8 (len : Int) = len := wrap_size (by omega) (by omega)
  have e4 := memcpy_map (f := fun x : U8 => (x.toNat : Int)) e
  refine ⟨(.undef .void, M.set bo (u8s a), nx), t ++ [], ?_, ⟨rfl, hn, hA.set bo _⟩, fun h => h.elim⟩
  rw [hc]
  unfold withString memcpyC
  simp only [if_neg (show ¬"memcpy" = "memset" by decide), if_true, e1, e2, e3, Nat.mod_one, Nat.div_one, Int.toNat_natCast,
    and_self, C.require, if_pos (Or.inl (Ne.symm h5)), pure_bind, bind_assoc]
  rw [show ofU8 L = L.map (fun x : U8 => (x.toNat : Int)) from rfl, show ofU8 I = I.map (fun x : U8 => (x.toNat : Int)) from rfl, e4]
  rfl

theorem Does.memcpyWords {bo ko bi n : Nat} {s : Bool} {L : List U8} {I : List U16} {len : Nat} (ha : X.arch = .le) (h1 : F bo = u8s L)
    (h2 : F bi = u16s I) (h3 : bo < N) (h4 : bi < N) (h5 : bi ≠ bo) (h6 : len < 2 ^ 31) :
    Does (link Fs X d) N F "memcpy" [.ptr bo ko false 1, .ptr bi 0 false 2, .int s n len] (memcpy L ko (toBytes .le I) 0 len)
      (fun _ => .undef .void) (fun r => F.set bo (u8s r)) := by
  obtain ⟨call, hc⟩ := link_string (Fs := Fs) (X := X) (d := d)
  intro M nx hn hA a t e
  have e1 : M bo = u8s L := by rw [hA bo h3, h1]
  have e2 : M bi = u16s I := by rw [hA bi h4, h2]
  have e3 : wrap false 8 (len : Int) = len := wrap_size (by omega) (by omega)
  have e4 : memcpy (ofU8 L) ko (ofU8 (toBytes .le I)) 0 len = .ok (ofU8 a) t := memcpy_map e
  refine ⟨(.undef .void, M.set bo (u8s a), nx), t ++ [], ?_, ⟨rfl, hn, hA.set bo _⟩, fun h => h.elim⟩
  rw [hc, link_arch, ha]
  unfold withString memcpyC
  simp only [if_neg (show ¬"memcpy" = "memset" by decide), if_true, e1, e2, e3, Int.toNat_natCast, Nat.mul_one, Nat.zero_mul,
    C.require, if_pos (Or.inl (Ne.symm h5)), pure_bind, bind_assoc, bytes_u8s, bytes_u16s, e4, true_and,
    if_neg (show ¬(1 = 2 ∧ len % 1 = 0) by omega)]
  simp only [C.bind_def, C.bind', C.pure_def, setBytes_u8s]

/-! ## The functions of /repo/src/util.c, /repo/src/noise.c and the small functions of /repo/src/frodo_macrify.c -/

theorem utilFile_none : utilFile.fn "frodo_sample_n" = none ∧ utilFile.fn "frodo_mul_bs" = none ∧
    utilFile.fn "frodo_mul_add_sb_plus_e" = none ∧ utilFile.fn "frodo_add" = none ∧ utilFile.fn "frodo_sub" = none ∧
    utilFile.fn "frodo_key_encode" = none ∧ utilFile.fn "frodo_key_decode" = none ∧
    utilFile.fn "frodo_mul_add_as_plus_e" = none ∧ utilFile.fn "frodo_mul_add_sa_plus_e" = none ∧
    utilFile.fn "shake128" = none ∧ utilFile.fn "shake256" = none ∧ utilFile.fn "randombytes" = none := by
  decide +kernel

/-- The functions that are not in the text of util.c, noise.c or among the small functions. -/
structure Others (X : Ctx) (B : Build) (E : Env) (P : Params) (rb : RandomBytes) (bk : Nat) (xk : Blk) : Prop where
  shake : ∀ {N F bo ko bi ki s n s' n'} {L I : List U8} {outlen inlen : Nat}, F bo = u8s L → F bi = u8s I → bo < N → bi < N →
    bi ≠ bo → bk < N → bk ≠ bo → F bk = xk → ko ≤ L.length → ki ≤ I.length → outlen < 2 ^ 31 → inlen < 2 ^ 31 →
    Does X N F (shakeName P "shake") [.ptr bo ko false 1, .int s n outlen, .ptr bi ki false 1, .int s' n' inlen]
      (Frodo.shake P E.junk (L.drop ko) outlen (I.drop ki) inlen) (fun _ => .undef .void) (fun r => F.set bo (u8s (L.take ko ++ r)))
  shakeWords : ∀ {N F bo bi s n s' n'} {L : List U16} {I : List U8} {outlen inlen : Nat}, F bo = u16s L → F bi = u8s I →
    bo < N → bi < N → bi ≠ bo → bk < N → bk ≠ bo → F bk = xk → outlen < 2 ^ 31 → inlen < 2 ^ 31 →
    Does X N F (shakeName P "shake") [.ptr bo 0 false 1, .int s n outlen, .ptr bi 0 false 1, .int s' n' inlen]
      (Frodo.shake P E.junk (toBytes .le L) outlen I inlen) (fun _ => .undef .void) (fun r => F.set bo (u16s (ofBytes .le r)))
  random : ∀ {N F bo ko s n} {L : List U8} {len : Nat}, F bo = u8s L → bo < N → ko ≤ L.length → len < 2 ^ 31 →
    Does X N F "randombytes" [.ptr bo ko false 1, .int s n len] (rb (L.drop ko) len) (fun r => .int true 4 r.2)
      (fun r => F.set bo (u8s (L.take ko ++ r.1)))
  mulAs : ∀ {N F bo bs be bi ks ke ki a1 a2} {O S Z : List U16} {I : List U8}, F bo = u16s O → F bs = u16s S → F be = u16s Z →
    F bi = u8s I → bo < N → bs < N → be < N → bi < N → bs ≠ bo → be ≠ bo → bi ≠ bo → bk < N → bk ≠ bo → F bk = xk →
    ks ≤ S.length → ke ≤ Z.length → ki ≤ I.length → ke % 2 = 0 →
    Does X N F "frodo_mul_add_as_plus_e" [.ptr bo 0 false 2, .ptr bs ks false 2, .ptr be ke false 2, .ptr bi ki false 1]
      (frodo_mul_add_as_plus_e B E P a1 a2 O (S.drop ks) (Z.drop ke) (I.drop ki)) (fun _ => .int true 4 1)
      (fun r => F.set bo (u16s r))
  mulSa : ∀ {N F bo bs bi k ki a2} {O S : List U16} {I : List U8}, F bo = u16s O → F bs = u16s S →
    F bi = u8s I → bo < N → bs < N → bi < N → bs ≠ bo → bk < N → bk ≠ bs → F bk = xk → k ≤ S.length → ki ≤ I.length →
    Does X N F "frodo_mul_add_sa_plus_e" [.ptr bo 0 false 2, .ptr bs 0 false 2, .ptr bs k false 2, .ptr bi ki false 1]
      (frodo_mul_add_sa_plus_e B E P a2 O (S.take k) (S.drop k) (I.drop ki)) (fun _ => .int true 4 1)
      (fun r => (F.set bo (u16s r.1)).set bs (u16s (S.take k ++ r.2)))

theorem i8_i8 (x : Int) : i8 (i8 x) = i8 x := by simp [i8]

/-- The calls of kem.c, with the text of util.c and of one of the files with parameters. -/
theorem calls {G : File} {P : Params} {B : Build} {E : Env} {rb : RandomBytes} {bc bk : Nat} {xk : Blk} (hG : G.IsUnit P) (hW : P.WF)
    (ha : X.arch = .le) (hT : X.glob "CDF_TABLE" = some (.ptr bc 0 false 2)) (hL : X.glob "CDF_TABLE_LEN" = some (.int false 2 P.cdf.length))
    (hc0 : 0 < P.cdf.length) (hc1 : P.cdf.length < 2 ^ 16)
    (h : Others (link [utilFile, G] X (d + 1)) B E P rb bk xk) : Calls (link [utilFile, G] X (d + 1)) B E P rb bc bk xk := by
  obtain ⟨z1, z2, z3, z4, z5, z6, z7, -⟩ := utilFile_none
  obtain ⟨call, hc⟩ := link_string (Fs := [utilFile, G]) (X := X) (d := d)
  have hT' : (link [utilFile, G] X d).glob "CDF_TABLE" = some (.ptr bc 0 false 2) := by rw [link_glob, hT]
  have hL' : (link [utilFile, G] X d).glob "CDF_TABLE_LEN" = some (.int false 2 P.cdf.length) := by rw [link_glob, hL]
  constructor
  case copy => exact Does.memcpy8
  case copyWords => exact Does.memcpyWords ha
  case shake => exact h.shake
  case shakeWords => exact h.shakeWords
  case random => exact h.random
  case mulAs => exact h.mulAs
  case mulSa => exact h.mulSa
  case sample =>
    intro N F bo ko s n L len h1 h2 h3 h4 h5 h6 h7
    simp only [← u16s_append]
    refine Does.ofRun (tr := True) (fn_second z1 hG.sample) hG.sample (by decide) (by decide)
      (args' := [.ptr bo ko false 2, .int false 8 len]) rfl fun M nx hn hM => ?_
    have := text_sample hG (link [utilFile, G] X d) M nx bo bc (ofU16 (L.take ko)) [] (L.drop ko) P.cdf len (by omega) hc0 hc1
      (by rw [hM bo h2, h1, ← u16s_split]) hT' hL' (by rw [hM bc h3, h5]; rfl) h4
    rwa [length_take16 h6] at this
  case mulBs =>
    intro N F bo bb bs O b s h1 h2 h3 h4 h5 h6 h7 h8
    refine Does.ofRun (tr := True) (fn_second z2 hG.mulBs) hG.mulBs (by decide) (by decide) rfl fun M nx hn hM => ?_
    exact text_mul_bs hG (link [utilFile, G] X d) M nx bo bb bs [] [] [] O b s hW (by rw [hM bo h4, h1]; rfl) (by rw [hM bb h5, h2]; rfl)
      (by rw [hM bs h6, h3]; rfl) h7 h8
  case mulAddSb =>
    intro N F bo bb bs be ke O b s e h1 h2 h3 h4 h5 h6 h7 h8 h9 h10 h11 h12
    refine Does.ofRun (tr := True) (fn_second z3 hG.mulAddSb) hG.mulAddSb (by decide) (by decide) rfl fun M nx hn hM => ?_
    have := text_mul_add_sb hG (link [utilFile, G] X d) M nx bo bb bs be [] [] [] (ofU16 (e.take ke)) O b s (e.drop ke) hW
      (by rw [hM bo h5, h1]; rfl) (by rw [hM bb h6, h2]; rfl) (by rw [hM bs h7, h3]; rfl) (by rw [hM be h8, h4, ← u16s_split]) h9 h10 h11
    rwa [length_take16 h12] at this
  case add =>
    intro N F bo bb O b h1 h2 h3 h4 h5
    refine Does.ofRun (tr := True) (fn_second z4 hG.add) hG.add (by decide) (by decide) rfl fun M nx hn hM => ?_
    exact text_add hG (link [utilFile, G] X d) M nx bo [] O (.buf b) .out _ _ hW (by rw [hM bo h3, h1]; rfl)
      ⟨bb, [], rfl, h5, by rw [hM bb h4, h2]; rfl⟩ rfl
  case sub =>
    intro N F bo bb O b h1 h2 h3 h4 h5
    refine Does.ofRun (tr := True) (fn_second z5 hG.sub) hG.sub (by decide) (by decide) rfl fun M nx hn hM => ?_
    exact text_sub hG (link [utilFile, G] X d) M nx bo [] O (.buf b) .out _ _ hW (by rw [hM bo h3, h1]; rfl)
      ⟨bb, [], rfl, h5, by rw [hM bb h4, h2]; rfl⟩ rfl
  case encode =>
    intro N F bo bi k O I h1 h2 h3 h4 h5 h6 h7
    refine Does.ofRun (tr := False) (fn_second z6 hG.encode) hG.encode (by decide) (by decide) rfl fun M nx hn hM => ?_
    exact text_encode hG hW (link [utilFile, G] X d) M nx bo bi [] (ofU8 (I.take k)) (k / 2) (by rw [length_take8 h6]; omega) O (I.drop k)
      (by rw [hM bo h3, h1]; rfl) (by rw [hM bi h4, h2, ← u8s_split]) h5
  case decode =>
    intro N F bo bi k O I h1 h2 h3 h4 h5 h6 h7
    simp only [← u8s_append]
    refine Does.ofRun (tr := True) (fn_second z7 hG.decode) hG.decode (by decide) (by decide) rfl fun M nx hn hM => ?_
    exact text_decode hG hW (link [utilFile, G] X d) M nx bo bi (ofU8 (O.take k)) [] (k / 2) (by rw [length_take8 h6]; omega) (O.drop k) I
      (by rw [hM bo h3, h1, ← u8s_split]) (by rw [hM bi h4, h2]; rfl) h5
  case pack =>
    intro N F bo ko bi s n s' n' s'' n'' L I outlen inlen lsb h1 h2 h3 h4 h5 h6 h7 h8 h9
    simp only [← u8s_append]
    refine Does.ofRun (tr := True) (fn_first util_pack) util_pack (by decide) (by decide)
      (args' := [.ptr bo ko false 1, .int false 8 outlen, .ptr bi 0 false 2, .int false 8 inlen, .int false 1 lsb]) rfl fun M nx hn hM => ?_
    have := text_pack (link [utilFile, G] X d) call M nx bo bi (ofU8 (L.take ko)) [] (L.drop ko) I outlen inlen lsb hc (by omega) (by omega) h9
      (by rw [hM bo h3, h1, ← u8s_split]) (by rw [hM bi h4, h2]; rfl) h5
    rwa [length_take8 h6] at this
  case unpack =>
    intro N F bo bi ki s n s' n' s'' n'' L I outlen inlen lsb h1 h2 h3 h4 h5 h6 h7 h8 h9
    refine Does.ofRun (tr := True) (fn_first util_unpack) util_unpack (by decide) (by decide)
      (args' := [.ptr bo 0 false 2, .int false 8 outlen, .ptr bi ki false 1, .int false 8 inlen, .int false 1 lsb]) rfl fun M nx hn hM => ?_
    have := text_unpack (link [utilFile, G] X d) call M nx bo bi [] (ofU8 (I.take ki)) L (I.drop ki) outlen inlen lsb hc (by omega) (by omega) h9
      (by rw [hM bo h3, h1]; rfl) (by rw [hM bi h4, h2, ← u8s_split]) h5
    rwa [length_take8 h6] at this
  case verify =>
    intro N F ba bb s n a b len h1 h2 h3 h4 h5
    refine Does.ofPure (tr := True) (fn_first util_verify) util_verify (by decide) (by decide)
      (args' := [.ptr ba 0 false 2, .ptr bb 0 false 2, .int false 8 len]) rfl fun M nx hn hM => ?_
    exact text_ct_verify (link [utilFile, G] X d) M nx ba bb [] [] a b len (by omega) (by rw [hM ba h3, h1]; rfl) (by rw [hM bb h4, h2]; rfl)
  case select =>
    intro N F bo ko ba ka bb kb s n s' n' L a b len sel h1 h2 h3 h4 h5 h6 h7 h8 h9 h10 h11 h12
    simp only [← u8s_append]
    refine Does.ofRun (tr := True) (fn_first util_select) util_select (by decide) (by decide)
      (args' := [.ptr bo ko false 1, .ptr ba ka false 1, .ptr bb kb false 1, .int false 8 len, .int true 1 (i8 sel)]) rfl fun M nx hn hM => ?_
    have := text_ct_select (link [utilFile, G] X d) M nx bo ba bb (ofU8 (L.take ko)) (ofU8 (a.take ka)) (ofU8 (b.take kb)) (L.drop ko)
      (a.drop ka) (b.drop kb) len (i8 sel) (by omega) (by rw [hM bo h4, h1, ← u8s_split]) (by rw [hM ba h5, h2, ← u8s_split])
      (by rw [hM bb h6, h3, ← u8s_split]) h7 h8
    rwa [length_take8 h9, length_take8 h10, length_take8 h11, i8_i8] at this
  case clear =>
    intro N F bo ko s n L len h1 h2 h3 h4
    simp only [← u8s_append]
    refine Does.ofRun (tr := True) (fn_first util_clear) util_clear (by decide) (by decide)
      (args' := [.ptr bo ko false 1, .int false 8 len]) rfl fun M nx hn hM => ?_
    have := text_clear_bytes (link [utilFile, G] X d) M nx bo (ofU8 (L.take ko)) (L.drop ko) len (by omega) (by rw [hM bo h2, h1, ← u8s_split])
    rwa [length_take8 h3] at this
  case clearWords =>
    intro N F bo ko s n L len h1 h2 h3 h4
    refine Does.ofRun (tr := False) (fn_first util_clear) util_clear (by decide) (by decide)
      (args' := [.ptr bo (ko * 2) false 1, .int false 8 len]) rfl fun M nx hn hM => ?_
    have := text_clear_words (link [utilFile, G] X d) M nx bo L ko len h3 (by omega) (by rw [hM bo h2, h1])
    rwa [link_arch, ha] at this

end Frodo
