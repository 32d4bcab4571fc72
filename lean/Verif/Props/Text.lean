import Verif.Props.Util
import Verif.Props.Matrix
import Verif.Proof.TextSmall
import Verif.Proof.CtMatrix
import Verif.Text.Unit640
import Verif.Text.Unit976
import Verif.Text.Unit1344

/-! # Properties of the source text

The other properties are about a model written by hand.  Here the text of /repo/src/util.c, /repo/src/noise.c and of the small
functions of /repo/src/frodo_macrify.c and /repo/src/frodo_macrify_reference.c is itself an object: it is preprocessed and
parsed, and the resulting syntax trees are run with a semantics of C that does not know any of these functions.  A buffer is
given as a pointer into a block of memory, at any distance `p.length` from its start. -/

namespace Frodo.Props

open Spec Src

theorem ret_of_refines {tr : Prop} {m : C α} {n : C β} {a : α} {R : α → β → Prop} {Q : β → Prop} (h : Refines tr m n R)
    (hm : Ret m (· = a)) (hq : ∀ x, R a x → Q x) : Ret n Q := by
  obtain ⟨a', t, e, rfl⟩ := hm
  obtain ⟨b', t', e', h', -⟩ := h _ t e
  exact ⟨b', t', e', hq _ h'⟩

theorem trace_of_refines {m : C α} {n : C β} {R : α → β → Prop} {t : List Event} (h : Refines True m n R)
    (hm : traceOf m = some t) : traceOf n = some t := by
  cases m with
  | ok a t' =>
    obtain ⟨b, u, rfl, -, e⟩ := h a t' rfl
    rw [e trivial]
    exact hm
  | div => cases hm
  | ub u => cases hm

theorem traces_of_refines {m : C α} {n : C β} {m' : C α'} {n' : C β'} {R : α → β → Prop} {R' : α' → β' → Prop}
    {Q : α → Prop} {Q' : α' → Prop} (h : Refines True m n R) (h' : Refines True m' n' R') (s : SameTrace m m') (r : Ret m Q)
    (r' : Ret m' Q') : ∃ t, traceOf n = some t ∧ traceOf n' = some t :=
  let ⟨t, e, e'⟩ := s.trace_eq r r'
  ⟨t, trace_of_refines h e, trace_of_refines h' e'⟩

/-- C74.  The texts parse: /repo/src/util.c, and for every parameter set the file with all that it includes, for the reference
implementation with SHAKE128 and for the optimised one with AES128. -/
theorem C74_parse : parseText [] [] utilText = some utilFile ∧
    parseText refShake sources frodo640Text = some unit640 ∧ parseText optAes sources frodo640Text = some unitOpt640 ∧
    parseText refShake sources frodo976Text = some unit976 ∧ parseText optAes sources frodo976Text = some unitOpt976 ∧
    parseText refShake sources frodo1344Text = some unit1344 ∧ parseText optAes sources frodo1344Text = some unitOpt1344 :=
  ⟨util_parse, unit640_parse, unitOpt640_parse, unit976_parse, unitOpt976_parse, unit1344_parse, unitOpt1344_parse⟩

/-- C74.  In all of them, the table of the distribution has the values of the model, and the small functions are the same up
to the parameters. -/
theorem C74_units : (unit640.IsUnit frodo640 ∧ unitOpt640.IsUnit frodo640) ∧
    (unit976.IsUnit frodo976 ∧ unitOpt976.IsUnit frodo976) ∧ (unit1344.IsUnit frodo1344 ∧ unitOpt1344.IsUnit frodo1344) :=
  ⟨⟨unit640_isUnit, unitOpt640_isUnit⟩, ⟨unit976_isUnit, unitOpt976_isUnit⟩, unit1344_isUnit, unitOpt1344_isUnit⟩

/-- C74, `frodo_pack`: the text returns, with the first `outlen` bytes of `out` as documented and nothing else changed. -/
theorem C74_pack (X : Ctx) (call) (m : Mem) (next bo bi : Nat) (po pi : List Int) (out : List U8) (inp : List U16)
    (outlen inlen lsb : Nat) (hX : X.call = withString X.arch call) (h1 : 1 ≤ lsb) (h16 : lsb ≤ 16) (hin : inlen ≤ inp.length)
    (hout : outlen ≤ out.length) (hi64 : inlen < 2 ^ 64) (ho64 : outlen < 2 ^ 64)
    (ho : m bo = ⟨false, 1, po ++ ofU8 out⟩) (hi : m bi = ⟨false, 2, pi ++ ofU16 inp⟩) (ne : bi ≠ bo) :
    Ret (utilFile.run X "frodo_pack" [.ptr bo po.length false 1, .int false 8 outlen, .ptr bi pi.length false 2,
        .int false 8 inlen, .int false 1 lsb] m next)
      (· = (.undef .void, m.set bo ⟨false, 1, po ++ ofU8 (pack lsb outlen (inp.take inlen) ++ out.drop outlen)⟩, next)) :=
  ret_of_refines (text_pack X call m next bo bi po pi out inp outlen inlen lsb hX ho64 hi64 (by omega) ho hi ne)
    (C17_pack out outlen inp inlen lsb h1 h16 hin hout) fun _ h => h

/-- C74, `frodo_unpack`. -/
theorem C74_unpack (X : Ctx) (call) (m : Mem) (next bo bi : Nat) (po pi : List Int) (out : List U16) (inp : List U8)
    (outlen inlen lsb : Nat) (hX : X.call = withString X.arch call) (h1 : 1 ≤ lsb) (h16 : lsb ≤ 16) (hin : inlen ≤ inp.length)
    (hout : outlen ≤ out.length) (hi64 : inlen < 2 ^ 64) (ho64 : outlen * 2 < 2 ^ 64)
    (ho : m bo = ⟨false, 2, po ++ ofU16 out⟩) (hi : m bi = ⟨false, 1, pi ++ ofU8 inp⟩) (ne : bi ≠ bo) :
    Ret (utilFile.run X "frodo_unpack" [.ptr bo po.length false 2, .int false 8 outlen, .ptr bi pi.length false 1,
        .int false 8 inlen, .int false 1 lsb] m next)
      (· = (.undef .void, m.set bo ⟨false, 2, po ++ ofU16 (unpack lsb outlen (inp.take inlen) ++ out.drop outlen)⟩, next)) :=
  ret_of_refines (text_unpack X call m next bo bi po pi out inp outlen inlen lsb hX ho64 hi64 (by omega) ho hi ne)
    (C18_unpack out outlen inp inlen lsb h1 h16 hin hout) fun _ h => h

/-- C74, `ct_verify`: the text returns 0 for equal vectors and -1 otherwise, and leaves memory as it is. -/
theorem C74_ct_verify (X : Ctx) (m : Mem) (next ba bb : Nat) (pa pb : List Int) (a b : List U16) (len : Nat)
    (hlen : len < 2 ^ 64) (hla : len ≤ a.length) (hlb : len ≤ b.length) (ha : m ba = ⟨false, 2, pa ++ ofU16 a⟩)
    (hb : m bb = ⟨false, 2, pb ++ ofU16 b⟩) :
    Ret (utilFile.run X "ct_verify" [.ptr ba pa.length false 2, .ptr bb pb.length false 2, .int false 8 len] m next)
      (· = (.int true 1 (if a.take len = b.take len then 0 else -1), m, next)) :=
  ret_of_refines (text_ct_verify X m next ba bb pa pb a b len hlen ha hb)
    (C25_ct_verify a b len hla hlb) fun _ h => h

/-- C74, `ct_select`. -/
theorem C74_ct_select (X : Ctx) (m : Mem) (next br ba bb : Nat) (pr pa pb : List Int) (r a b : List U8) (len : Nat) (sel : Int)
    (hs : sel = 0 ∨ sel = -1) (hlen : len < 2 ^ 64) (hlr : len ≤ r.length) (hla : len ≤ a.length) (hlb : len ≤ b.length)
    (hr : m br = ⟨false, 1, pr ++ ofU8 r⟩) (ha : m ba = ⟨false, 1, pa ++ ofU8 a⟩) (hb : m bb = ⟨false, 1, pb ++ ofU8 b⟩)
    (na : ba ≠ br) (nb : bb ≠ br) :
    Ret (utilFile.run X "ct_select" [.ptr br pr.length false 1, .ptr ba pa.length false 1, .ptr bb pb.length false 1,
        .int false 8 len, .int true 1 sel] m next)
      (· = (.undef .void, m.set br ⟨false, 1, pr ++ ofU8 ((if sel = 0 then a.take len else b.take len) ++ r.drop len)⟩, next)) := by
  have h := text_ct_select X m next br ba bb pr pa pb r a b len sel hlen hr ha hb na nb
  have e : i8 sel = sel := by rcases hs with rfl | rfl <;> decide
  rw [e] at h
  exact ret_of_refines h (C26_ct_select r a b len sel hs hlr hla hlb) fun _ h => h

/-- C74, `clear_bytes`. -/
theorem C74_clear_bytes (X : Ctx) (m : Mem) (next br : Nat) (pr : List Int) (r : List U8) (len : Nat) (hlen : len < 2 ^ 64)
    (hl : len ≤ r.length) (hr : m br = ⟨false, 1, pr ++ ofU8 r⟩) :
    Ret (utilFile.run X "clear_bytes" [.ptr br pr.length false 1, .int false 8 len] m next)
      (· = (.undef .void, m.set br ⟨false, 1, pr ++ ofU8 (List.replicate len 0 ++ r.drop len)⟩, next)) :=
  ret_of_refines (text_clear_bytes X m next br pr r len hlen hr) (C27_clear_bytes r len hl) fun _ h => h

/-- C74, `frodo_sample_n`, with the table that is in the text. -/
theorem C74_sample (F : File) (P : Params) (hF : F.IsUnit P) (hW : P.WF) (X : Ctx) (m : Mem) (next bs : Nat)
    (ps : List Int) (s : List U16) (n : Nat) (hn : n < 2 ^ 32) (hl : n ≤ s.length) (h0 : P.cdf ≠ []) (hX : F.Loaded X m)
    (hs : m bs = ⟨false, 2, ps ++ ofU16 s⟩) (ne : ∀ o, X.glob "CDF_TABLE" ≠ some (.ptr bs o false 2)) :
    Ret (F.run X "frodo_sample_n" [.ptr bs ps.length false 2, .int false 8 n] m next)
      (· = (.undef .void, m.set bs ⟨false, 2, ps ++ ofU16
        ((s.take n).map (fun r => BitVec.ofInt 16 (sample (P.cdf.map BitVec.toNat) r.toNat)) ++ s.drop n)⟩, next)) := by
  obtain ⟨bc, hc, hm⟩ := hX _ _ hF.cdf
  obtain ⟨e, he, hL⟩ := hX _ _ hF.cdfLen
  cases he
  have hcl := hW.cdf_len
  refine ret_of_refines (text_sample hF X m next bs bc ps [] s P.cdf n hn (List.length_pos_iff.2 h0) (by omega) hs hc hL ?_ ?_)
    (C23_sample P.cdf s n hW.cdf hW.cdf_len hl hn) fun _ h => h
  · rw [hm, List.map_map]
    rfl
  · rintro rfl
    exact ne _ hc

/-- C74, `frodo_mul_bs`: the product modulo `q`, for every file that has the text of the function. -/
theorem C74_mul_bs (F : File) (P : Params) (hF : F.IsUnit P) (hW : P.WF) (X : Ctx) (m : Mem) (next bo bb bs : Nat)
    (po pb ps : List Int) (out b s : List U16) (hlo : P.nbar * P.nbar ≤ out.length) (hlb : P.nbar * P.n ≤ b.length)
    (hls : P.nbar * P.n ≤ s.length) (ho : m bo = ⟨false, 2, po ++ ofU16 out⟩) (hb : m bb = ⟨false, 2, pb ++ ofU16 b⟩)
    (hs : m bs = ⟨false, 2, ps ++ ofU16 s⟩) (nb : bb ≠ bo) (ns : bs ≠ bo) :
    Ret (F.run X "frodo_mul_bs" [.ptr bo po.length false 2, .ptr bb pb.length false 2, .ptr bs ps.length false 2] m next)
      (· = (.undef .void, m.set bo ⟨false, 2, po ++ ofU16
        (ofMat (toMat P.logq P.nbar P.n b * (toMat P.logq P.nbar P.n s).transpose) ++ out.drop (P.nbar * P.nbar))⟩, next)) :=
  ret_of_refines (text_mul_bs hF X m next bo bb bs po pb ps out b s hW ho hb hs nb ns)
    (C30_mul_bs P out b s hW.logq_le hlo hlb hls) fun _ h => h

/-- C74, `frodo_mul_add_sb_plus_e`. -/
theorem C74_mul_add_sb_plus_e (F : File) (P : Params) (hF : F.IsUnit P) (hW : P.WF) (X : Ctx) (m : Mem)
    (next bo bb bs be : Nat) (po pb ps pe : List Int) (out b s e : List U16) (hlo : P.nbar * P.nbar ≤ out.length)
    (hlb : P.n * P.nbar ≤ b.length) (hls : P.nbar * P.n ≤ s.length) (hle : P.nbar * P.nbar ≤ e.length)
    (ho : m bo = ⟨false, 2, po ++ ofU16 out⟩) (hb : m bb = ⟨false, 2, pb ++ ofU16 b⟩) (hs : m bs = ⟨false, 2, ps ++ ofU16 s⟩)
    (he : m be = ⟨false, 2, pe ++ ofU16 e⟩) (nb : bb ≠ bo) (ns : bs ≠ bo) (ne : be ≠ bo) :
    Ret (F.run X "frodo_mul_add_sb_plus_e" [.ptr bo po.length false 2, .ptr bb pb.length false 2, .ptr bs ps.length false 2,
        .ptr be pe.length false 2] m next)
      (· = (.undef .void, m.set bo ⟨false, 2, po ++ ofU16 (ofMat (toMat P.logq P.nbar P.n s * toMat P.logq P.n P.nbar b
        + toMat P.logq P.nbar P.nbar e) ++ out.drop (P.nbar * P.nbar))⟩, next)) :=
  ret_of_refines (text_mul_add_sb hF X m next bo bb bs be po pb ps pe out b s e hW ho hb hs he nb ns ne)
    (C30_mul_add_sb_plus_e P out b s e hW.logq_le hlo hlb hls hle) fun _ h => h

/-- C74, `frodo_add`; an operand is in a buffer of its own or the output itself. -/
theorem C74_add (F : File) (P : Params) (hF : F.IsUnit P) (hW : P.WF) (X : Ctx) (m : Mem) (next bo : Nat) (po : List Int)
    (out : List U16) (a b : Operand) (va vb : Val) (hlo : P.nbar * P.nbar ≤ out.length)
    (hla : P.nbar * P.nbar ≤ (a.get out).length) (hlb : P.nbar * P.nbar ≤ (b.get out).length)
    (ho : m bo = ⟨false, 2, po ++ ofU16 out⟩) (ha : a.At m bo po va) (hb : b.At m bo po vb) :
    Ret (F.run X "frodo_add" [.ptr bo po.length false 2, va, vb] m next)
      (· = (.undef .void, m.set bo ⟨false, 2, po ++ ofU16 (ofMat (toMat P.logq P.nbar P.nbar (a.get out)
        + toMat P.logq P.nbar P.nbar (b.get out)) ++ out.drop (P.nbar * P.nbar))⟩, next)) :=
  ret_of_refines (text_add hF X m next bo po out a b va vb hW ho ha hb) (C30_add P out a b hW.logq_le hlo hla hlb) fun _ h => h

/-- C74, `frodo_sub`. -/
theorem C74_sub (F : File) (P : Params) (hF : F.IsUnit P) (hW : P.WF) (X : Ctx) (m : Mem) (next bo : Nat) (po : List Int)
    (out : List U16) (a b : Operand) (va vb : Val) (hlo : P.nbar * P.nbar ≤ out.length)
    (hla : P.nbar * P.nbar ≤ (a.get out).length) (hlb : P.nbar * P.nbar ≤ (b.get out).length)
    (ho : m bo = ⟨false, 2, po ++ ofU16 out⟩) (ha : a.At m bo po va) (hb : b.At m bo po vb) :
    Ret (F.run X "frodo_sub" [.ptr bo po.length false 2, va, vb] m next)
      (· = (.undef .void, m.set bo ⟨false, 2, po ++ ofU16 (ofMat (toMat P.logq P.nbar P.nbar (a.get out)
        - toMat P.logq P.nbar P.nbar (b.get out)) ++ out.drop (P.nbar * P.nbar))⟩, next)) :=
  ret_of_refines (text_sub hF X m next bo po out a b va vb hW ho ha hb) (C30_sub P out a b hW.logq_le hlo hla hlb) fun _ h => h

/-- C74, `frodo_key_encode`; the message is in an array of bytes, at an even distance `2 * k` from its start. -/
theorem C74_key_encode (F : File) (P : Params) (hF : F.IsUnit P) (hW : P.WF) (X : Ctx) (m : Mem) (next bo bi : Nat)
    (po pi : List Int) (k : Nat) (hk : pi.length = k * 2) (out : List U16) (mu : List U8) (hlo : P.nbar * P.nbar ≤ out.length)
    (hl : P.B * (P.nbar * P.nbar) / 8 ≤ mu.length) (ho : m bo = ⟨false, 2, po ++ ofU16 out⟩)
    (hi : m bi = ⟨false, 1, pi ++ ofU8 mu⟩) (ne : bi ≠ bo) :
    Ret (F.run X "frodo_key_encode" [.ptr bo po.length false 2, .ptr bi k false 2] m next)
      (· = (.undef .void, m.set bo ⟨false, 2, po ++ ofU16
        (ofMat (encode P.logq P.B P.nbar P.nbar mu) ++ out.drop (P.nbar * P.nbar))⟩, next)) :=
  ret_of_refines (text_encode hF hW X m next bo bi po pi k hk out mu ho hi ne) (C21_encode P out mu hW hlo hl) fun _ h => h

/-- C74, `frodo_key_decode`. -/
theorem C74_key_decode (F : File) (P : Params) (hF : F.IsUnit P) (hW : P.WF) (X : Ctx) (m : Mem) (next bo bi : Nat)
    (po pi : List Int) (k : Nat) (hk : po.length = k * 2) (out : List U8) (c : List U16)
    (hlo : P.B * (P.nbar * P.nbar) / 8 ≤ out.length) (hl : P.nbar * P.nbar ≤ c.length) (ho : m bo = ⟨false, 1, po ++ ofU8 out⟩)
    (hi : m bi = ⟨false, 2, pi ++ ofU16 c⟩) (ne : bi ≠ bo) :
    Ret (F.run X "frodo_key_decode" [.ptr bo k false 2, .ptr bi pi.length false 2] m next)
      (· = (.undef .void, m.set bo ⟨false, 1, po ++ ofU8
        (decode P.B (toMat P.logq P.nbar P.nbar c) ++ out.drop (P.B * (P.nbar * P.nbar) / 8))⟩, next)) :=
  ret_of_refines (text_decode hF hW X m next bo bi po pi k hk out c ho hi ne) (C21_decode P out c hW hlo hl) fun _ h => h

/-- C74.  Packing and then unpacking with the text gives back the `lsb` low bits of every word. -/
theorem C74_roundtrip (X : Ctx) (call) (m : Mem) (next b1 b2 b3 : Nat) (p1 p2 p3 : List Int) (v : List U16) (o : List U8)
    (w : List U16) (lsb : Nat) (hX : X.call = withString X.arch call) (h1 : 1 ≤ lsb) (h16 : lsb ≤ 16)
    (hl : lsb * v.length ≤ 8 * o.length) (hw : w.length = v.length) (ho : o.length < 2 ^ 64) (hv : v.length * 2 < 2 ^ 64)
    (m1 : m b1 = ⟨false, 2, p1 ++ ofU16 v⟩) (m2 : m b2 = ⟨false, 1, p2 ++ ofU8 o⟩) (m3 : m b3 = ⟨false, 2, p3 ++ ofU16 w⟩)
    (n12 : b1 ≠ b2) (n23 : b2 ≠ b3) :
    Ret (do
        let (_, m, next) ← utilFile.run X "frodo_pack" [.ptr b2 p2.length false 1, .int false 8 o.length,
          .ptr b1 p1.length false 2, .int false 8 v.length, .int false 1 lsb] m next
        utilFile.run X "frodo_unpack" [.ptr b3 p3.length false 2, .int false 8 v.length, .ptr b2 p2.length false 1,
          .int false 8 o.length, .int false 1 lsb] m next)
      (fun x => x.2.1 b3 = ⟨false, 2, p3 ++ ofU16 (v.map fun x => BitVec.ofNat 16 (x.toNat % 2 ^ lsb))⟩) := by
  refine Ret.bind_eq (C74_pack X call m next b2 b1 p2 p1 o v o.length v.length lsb hX h1 h16 (Nat.le_refl _) (Nat.le_refl _)
    (by omega) ho m2 m1 n12) ?_
  refine (C74_unpack X call _ next b3 b2 p3 p2 w (pack lsb o.length (v.take v.length) ++ o.drop o.length) v.length o.length
    lsb hX h1 h16 (by simp) (by omega) ho hv ?_ ?_ n23).mono ?_
  · simp only [Mem.set, if_neg n23.symm, m3]
  · simp only [Mem.set, if_pos]
  · rintro x rfl
    simp only [Mem.set, if_pos]
    rw [List.take_length, List.drop_length, List.append_nil, List.take_of_length_le (by simp),
      unpack_pack v h1 h16 hl, ← hw, List.drop_length, List.append_nil]

/-- C74.  What the text of `ct_verify` tells through branches and addresses does not depend on the vectors. -/
theorem C74_ct_verify_trace (X : Ctx) (m m' : Mem) (next ba bb : Nat) (pa pb pa' pb' : List Int) (a b a' b' : List U16)
    (len : Nat) (hlen : len < 2 ^ 64) (hla : len ≤ a.length) (hlb : len ≤ b.length) (hla' : len ≤ a'.length)
    (hlb' : len ≤ b'.length) (ha : m ba = ⟨false, 2, pa ++ ofU16 a⟩) (hb : m bb = ⟨false, 2, pb ++ ofU16 b⟩)
    (ha' : m' ba = ⟨false, 2, pa' ++ ofU16 a'⟩) (hb' : m' bb = ⟨false, 2, pb' ++ ofU16 b'⟩) :
    ∃ t, traceOf (utilFile.run X "ct_verify" [.ptr ba pa.length false 2, .ptr bb pb.length false 2, .int false 8 len] m next)
        = some t ∧
      traceOf (utilFile.run X "ct_verify" [.ptr ba pa'.length false 2, .ptr bb pb'.length false 2, .int false 8 len] m' next)
        = some t := by
  obtain ⟨t, h, h'⟩ := C13_ct_verify_trace a b a' b' len hla hlb hla' hlb'
  exact ⟨t, trace_of_refines (text_ct_verify X m next ba bb pa pb a b len hlen ha hb) h,
    trace_of_refines (text_ct_verify X m' next ba bb pa' pb' a' b' len hlen ha' hb') h'⟩

/-- C74.  The same for `ct_select`, also for the selector. -/
theorem C74_ct_select_trace (X : Ctx) (m m' : Mem) (next br ba bb : Nat) (pr pa pb pr' pa' pb' : List Int)
    (r a b r' a' b' : List U8) (len : Nat) (sel sel' : Int) (hs : sel = 0 ∨ sel = -1) (hs' : sel' = 0 ∨ sel' = -1)
    (hlen : len < 2 ^ 64) (hlr : len ≤ r.length) (hla : len ≤ a.length) (hlb : len ≤ b.length) (hlr' : len ≤ r'.length)
    (hla' : len ≤ a'.length) (hlb' : len ≤ b'.length) (hr : m br = ⟨false, 1, pr ++ ofU8 r⟩)
    (ha : m ba = ⟨false, 1, pa ++ ofU8 a⟩) (hb : m bb = ⟨false, 1, pb ++ ofU8 b⟩) (hr' : m' br = ⟨false, 1, pr' ++ ofU8 r'⟩)
    (ha' : m' ba = ⟨false, 1, pa' ++ ofU8 a'⟩) (hb' : m' bb = ⟨false, 1, pb' ++ ofU8 b'⟩) (na : ba ≠ br) (nb : bb ≠ br) :
    ∃ t, traceOf (utilFile.run X "ct_select" [.ptr br pr.length false 1, .ptr ba pa.length false 1, .ptr bb pb.length false 1,
          .int false 8 len, .int true 1 sel] m next) = some t ∧
      traceOf (utilFile.run X "ct_select" [.ptr br pr'.length false 1, .ptr ba pa'.length false 1, .ptr bb pb'.length false 1,
          .int false 8 len, .int true 1 sel'] m' next) = some t := by
  have e : i8 sel = sel := by rcases hs with rfl | rfl <;> decide
  have e' : i8 sel' = sel' := by rcases hs' with rfl | rfl <;> decide
  obtain ⟨t, h, h'⟩ := C13_ct_select_trace r a b r' a' b' len sel sel' hs hs' hlr hla hlb hlr' hla' hlb'
  have k := text_ct_select X m next br ba bb pr pa pb r a b len sel hlen hr ha hb na nb
  have k' := text_ct_select X m' next br ba bb pr' pa' pb' r' a' b' len sel' hlen hr' ha' hb' na nb
  rw [e] at k
  rw [e'] at k'
  exact ⟨t, trace_of_refines k h, trace_of_refines k' h'⟩

/-- C74.  The same for `frodo_sample_n`. -/
theorem C74_sample_trace (F : File) (P : Params) (hF : F.IsUnit P) (hW : P.WF) (X : Ctx) (m m' : Mem) (next bs : Nat)
    (ps ps' : List Int) (s s' : List U16) (n : Nat) (hn : n < 2 ^ 32) (hl : n ≤ s.length) (hl' : n ≤ s'.length)
    (h0 : P.cdf ≠ []) (hX : F.Loaded X m) (hX' : F.Loaded X m') (hs : m bs = ⟨false, 2, ps ++ ofU16 s⟩)
    (hs' : m' bs = ⟨false, 2, ps' ++ ofU16 s'⟩) (ne : ∀ o, X.glob "CDF_TABLE" ≠ some (.ptr bs o false 2)) :
    ∃ t, traceOf (F.run X "frodo_sample_n" [.ptr bs ps.length false 2, .int false 8 n] m next) = some t ∧
      traceOf (F.run X "frodo_sample_n" [.ptr bs ps'.length false 2, .int false 8 n] m' next) = some t := by
  have key : ∀ (m : Mem) (ps : List Int) (s : List U16), F.Loaded X m → m bs = ⟨false, 2, ps ++ ofU16 s⟩ →
      Refines True (frodo_sample_n P.cdf s n) (F.run X "frodo_sample_n" [.ptr bs ps.length false 2, .int false 8 n] m next)
        (fun r' x => x = (.undef .void, m.set bs ⟨false, 2, ps ++ ofU16 r'⟩, next)) := by
    intro m ps s hX hs
    obtain ⟨bc, hc, hm⟩ := hX _ _ hF.cdf
    obtain ⟨e, he, hL⟩ := hX _ _ hF.cdfLen
    cases he
    have hcl := hW.cdf_len
    refine text_sample hF X m next bs bc ps [] s P.cdf n hn (List.length_pos_iff.2 h0) (by omega) hs hc hL ?_ ?_
    · rw [hm, List.map_map]
      rfl
    · rintro rfl
      exact ne _ hc
  exact traces_of_refines (key m ps s hX hs) (key m' ps' s' hX' hs') frodo_sample_n_rel
    (C23_sample P.cdf s n hW.cdf hW.cdf_len hl hn) (C23_sample P.cdf s' n hW.cdf hW.cdf_len hl' hn)

/-- C74.  The same for `frodo_mul_bs`. -/
theorem C74_mul_bs_trace (F : File) (P : Params) (hF : F.IsUnit P) (hW : P.WF) (X : Ctx) (m m' : Mem) (next bo bb bs : Nat)
    (po pb ps po' pb' ps' : List Int) (out b s out' b' s' : List U16) (hlo : P.nbar * P.nbar ≤ out.length)
    (hlb : P.nbar * P.n ≤ b.length) (hls : P.nbar * P.n ≤ s.length) (hlo' : P.nbar * P.nbar ≤ out'.length)
    (hlb' : P.nbar * P.n ≤ b'.length) (hls' : P.nbar * P.n ≤ s'.length) (ho : m bo = ⟨false, 2, po ++ ofU16 out⟩)
    (hb : m bb = ⟨false, 2, pb ++ ofU16 b⟩) (hs : m bs = ⟨false, 2, ps ++ ofU16 s⟩) (ho' : m' bo = ⟨false, 2, po' ++ ofU16 out'⟩)
    (hb' : m' bb = ⟨false, 2, pb' ++ ofU16 b'⟩) (hs' : m' bs = ⟨false, 2, ps' ++ ofU16 s'⟩) (nb : bb ≠ bo) (ns : bs ≠ bo) :
    ∃ t, traceOf (F.run X "frodo_mul_bs" [.ptr bo po.length false 2, .ptr bb pb.length false 2, .ptr bs ps.length false 2] m
          next) = some t ∧
      traceOf (F.run X "frodo_mul_bs" [.ptr bo po'.length false 2, .ptr bb pb'.length false 2, .ptr bs ps'.length false 2] m'
          next) = some t :=
  traces_of_refines (text_mul_bs hF X m next bo bb bs po pb ps out b s hW ho hb hs nb ns)
    (text_mul_bs hF X m' next bo bb bs po' pb' ps' out' b' s' hW ho' hb' hs' nb ns) frodo_mul_bs_rel
    (C30_mul_bs P out b s hW.logq_le hlo hlb hls) (C30_mul_bs P out' b' s' hW.logq_le hlo' hlb' hls')

/-- C74.  The same for `frodo_key_decode`. -/
theorem C74_key_decode_trace (F : File) (P : Params) (hF : F.IsUnit P) (hW : P.WF) (X : Ctx) (m m' : Mem) (next bo bi : Nat)
    (po pi po' pi' : List Int) (k k' : Nat) (hk : po.length = k * 2) (hk' : po'.length = k' * 2) (out out' : List U8)
    (c c' : List U16) (hlo : P.B * (P.nbar * P.nbar) / 8 ≤ out.length) (hl : P.nbar * P.nbar ≤ c.length)
    (hlo' : P.B * (P.nbar * P.nbar) / 8 ≤ out'.length) (hl' : P.nbar * P.nbar ≤ c'.length)
    (ho : m bo = ⟨false, 1, po ++ ofU8 out⟩) (hi : m bi = ⟨false, 2, pi ++ ofU16 c⟩)
    (ho' : m' bo = ⟨false, 1, po' ++ ofU8 out'⟩) (hi' : m' bi = ⟨false, 2, pi' ++ ofU16 c'⟩) (ne : bi ≠ bo) :
    ∃ t, traceOf (F.run X "frodo_key_decode" [.ptr bo k false 2, .ptr bi pi.length false 2] m next) = some t ∧
      traceOf (F.run X "frodo_key_decode" [.ptr bo k' false 2, .ptr bi pi'.length false 2] m' next) = some t :=
  traces_of_refines (text_decode hF hW X m next bo bi po pi k hk out c ho hi ne)
    (text_decode hF hW X m' next bo bi po' pi' k' hk' out' c' ho' hi' ne) frodo_key_decode_rel
    (C21_decode P out c hW hlo hl) (C21_decode P out' c' hW hlo' hl')

/-! ## Concrete cases -/

/-- A memory with three blocks: words 5, 7; words 5, 7 with something before them; four bytes. -/
def demoMem : Mem := fun b => if b = 0 then ⟨false, 2, ofU16 [5, 7]⟩ else if b = 1 then ⟨false, 2, [9] ++ ofU16 [5, 7]⟩
  else ⟨false, 1, ofU8 [1, 2, 3, 4]⟩

/-- A context without globals and with only the functions of `string.h`. -/
def demoCtx : Ctx := ⟨.le, fun _ => none, fun _ _ => 0, withString .le fun _ _ _ _ => C.ub .oobRead⟩

/-- `ct_verify` on equal words. -/
example : Ret (utilFile.run demoCtx "ct_verify" [.ptr 0 0 false 2, .ptr 1 1 false 2, .int false 8 2] demoMem 3)
    (· = (.int true 1 0, demoMem, 3)) :=
  C74_ct_verify demoCtx demoMem 3 0 1 [] [9] [5, 7] [5, 7] 2 (by decide) (by decide) (by decide) rfl rfl

/-- `clear_bytes` on the two bytes in the middle. -/
example : Ret (utilFile.run demoCtx "clear_bytes" [.ptr 2 1 false 1, .int false 8 2] demoMem 3)
    (· = (.undef .void, demoMem.set 2 ⟨false, 1, [1] ++ ofU8 [0, 0, 4]⟩, 3)) :=
  C74_clear_bytes demoCtx demoMem 3 2 [1] [2, 3, 4] 2 (by decide) (by decide) rfl

/-- `frodo_pack` of two words to 15 bits each. -/
example : Ret (utilFile.run demoCtx "frodo_pack" [.ptr 2 0 false 1, .int false 8 4, .ptr 0 0 false 2, .int false 8 2,
      .int false 1 15] demoMem 3)
    (· = (.undef .void, demoMem.set 2 ⟨false, 1, [] ++ ofU8 [0, 10, 0, 28]⟩, 3)) :=
  C74_pack demoCtx _ demoMem 3 2 0 [] [] [1, 2, 3, 4] [5, 7] 4 2 15 rfl (by decide) (by decide) (by decide) (by decide)
    (by decide) (by decide) rfl rfl (by decide)

/-- Memory and context for `frodo_sample_n`: block 0 is the table, block 1 the vector. -/
example : ∃ (X : Ctx) (m : Mem), unit640.Loaded X m ∧ m 1 = ⟨false, 2, [] ++ ofU16 [26729]⟩ ∧
    ∀ o, X.glob "CDF_TABLE" ≠ some (.ptr 1 o false 2) := by
  refine ⟨⟨.le, fun x => if x = "CDF_TABLE" then some (.ptr 0 0 false 2) else if x = "CDF_TABLE_LEN" then
    some (.int false 2 13) else none, fun _ _ => 0, fun _ _ _ _ => C.ub .oobRead⟩,
    fun b => if b = 0 then ⟨false, 2, ofU16 frodo640.cdf⟩ else ⟨false, 2, ofU16 [26729]⟩, ?_, rfl, by simp⟩
  have h : unit640.globals.map (·.name) = ["CDF_TABLE", "CDF_TABLE_LEN"] := by kernel_rfl
  intro x g hg
  have hx : x = "CDF_TABLE" ∨ x = "CDF_TABLE_LEN" := by
    have h1 := List.find?_some hg
    have h2 : g.name ∈ unit640.globals.map (·.name) := List.mem_map_of_mem (List.mem_of_find?_eq_some hg)
    rw [h] at h2
    have h3 : g.name = x := by simpa using h1
    rw [← h3]
    simpa using h2
  rcases hx with rfl | rfl
  · rw [unit640_isUnit.cdf] at hg
    cases hg
    exact ⟨0, rfl, by rw [List.map_map]; rfl⟩
  · rw [unit640_isUnit.cdfLen] at hg
    cases hg
    exact ⟨_, rfl, rfl⟩

/-- The parameter sets meet the hypotheses. -/
example : frodo640.WF ∧ frodo976.WF ∧ frodo1344.WF ∧ frodo640.cdf ≠ [] :=
  ⟨frodo640_WF, frodo976_WF, frodo1344_WF, by decide⟩

end Frodo.Props
