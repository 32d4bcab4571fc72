import Verif.Text.Util
import Verif.Proof.TextEval
import Verif.Model.Util

/-! # util.c: the text means what the model says -/

namespace Frodo

open Src

theorem u8_nat {n : Nat} (h : n < 256) : (u8 (n : Int)).toNat = n := by
  have := toNat_u8 (v := (n : Int)) (by omega) (by omega)
  omega

theorem beq_dec (a b : Nat) : (a == b) = decide (a = b) := by
  rw [Bool.eq_iff_iff]; simp

theorem cast_eq_zero (a : Nat) : ((a : Int) = 0) = (a = 0) := by simp

theorem branchK_of {c : Bool} {x y : C α} (h : c = false) : branchK c x y = C.emit (.branch false) >>= fun _ => y := by
  subst h; rfl

theorem text_ct_select (X : Ctx) (m : Mem) (next : Nat) (br ba bb : Nat) (pr pa pb : List Int) (r a b : List U8) (len : Nat) (sel : Int)
   (hlen : len < 2 ^ 64)
   (hr : m br = ⟨false, 1, pr ++ ofU8 r⟩)
   (ha : m ba = ⟨false, 1, pa ++ ofU8 a⟩)
   (hb : m bb = ⟨false, 1, pb ++ ofU8 b⟩)
   (na : ba ≠ br) (nb : bb ≠ br) :
   Refines True (ct_select r a b len (i8 sel)) (utilFile.run X "ct_select" [.ptr br pr.length false 1, .ptr ba pa.length false 1, .ptr bb pb.length false 1,
      .int false 8 len, .int true 1 sel] m next) (fun r' x => x = (.undef .void, m.set br ⟨false, 1, pr ++ ofU8 r'⟩, next)) := by
  rw [run_eq util_select, selectFun]
  csim [loopF_eq]
  refine (Refines.tail ((Refines.forC (fun i (r : List U8) => ⟨[("i", .int false 8 i), ("r", .ptr br pr.length false 1),
    ("a", .ptr ba pa.length false 1), ("b", .ptr bb pb.length false 1), ("len", .int false 8 len),
    ("selector", .int true 1 (i8 sel))], m.set br ⟨false, 1, pr ++ ofU8 r⟩, next⟩) (fun _ _ => True) (by omega) ?_ trivial ?_ ?_).bind ?_))
  · rw [set_self _ hr]; rfl
  · intro i r hi _
    csim [ha, hb]
    cstep
    cstep
    cstep
    csim
    refine Refines.tail ?_
    cstep
    exact .pure ⟨rfl, trivial⟩
  · intro r _
    csim [ha, hb]
    exact Refines.branchF (by simp)
  · rintro r _ ⟨rfl, -⟩
    csim
    exact .pure rfl

theorem text_clear_bytes (X : Ctx) (m : Mem) (next : Nat) (br : Nat) (pr : List Int) (r : List U8) (len : Nat)
   (hlen : len < 2 ^ 64)
   (hr : m br = ⟨false, 1, pr ++ ofU8 r⟩) :
   Refines True (clear_bytes r len) (utilFile.run X "clear_bytes" [.ptr br pr.length false 1, 
      .int false 8 len] m next) (fun r' x => x = (.undef .void, m.set br ⟨false, 1, pr ++ ofU8 r'⟩, next)) := by
  rw [run_eq util_clear, clearFun]
  csim [loopF_eq]
  refine (Refines.tail ((Refines.forC (fun i (r : List U8) => ⟨[("i", .int false 8 i), ("v", .ptr br pr.length false 1),
    ("mem", .ptr br pr.length false 1), ("n", .int false 8 len)], m.set br ⟨false, 1, pr ++ ofU8 r⟩, next⟩) (fun _ _ => True) (by omega) ?_ trivial ?_ ?_).bind ?_))
  · rw [set_self _ hr]; rfl
  · intro i r hi _
    csim
    cstep
    refine Refines.tail ?_
    refine Refines.wr8 rfl fun _ _ _ => ?_
    exact .pure ⟨rfl, trivial⟩
  · intro r _
    csim
    exact Refines.branchF (by simp)
  · rintro r _ ⟨rfl, -⟩
    csim
    exact .pure rfl

theorem text_ct_verify (X : Ctx) (m : Mem) (next : Nat) (ba bb : Nat) (pa pb : List Int) (a b : List U16) (len : Nat)
   (hlen : len < 2 ^ 64)
   (ha : m ba = ⟨false, 2, pa ++ ofU16 a⟩)
   (hb : m bb = ⟨false, 2, pb ++ ofU16 b⟩) :
   Refines True (ct_verify a b len) (utilFile.run X "ct_verify" [.ptr ba pa.length false 2, .ptr bb pb.length false 2, 
      .int false 8 len] m next) (fun v x => x = (.int true 1 v, m, next)) := by
  rw [run_eq util_verify, verifyFun, ct_verify]
  csim [loopF_eq]
  refine (((Refines.forC (fun i (r : U16) => ⟨[("i", .int false 8 i), ("r", .int false 2 r.toNat),
    ("a", .ptr ba pa.length false 2), ("b", .ptr bb pb.length false 2), ("len", .int false 8 len)], m, next⟩) (fun _ _ => True) (by omega) ?_ trivial ?_ ?_).bind ?_))
  · rfl
  · intro i r hi _
    csim [ha, hb]
    cstep
    cstep
    cstep
    csim [u16_ior, u16_ixor]
    exact .pure ⟨rfl, trivial⟩
  · intro r _
    csim [ha, hb]
    exact Refines.branchF (by simp)
  · rintro r _ ⟨rfl, -⟩
    csim
    cstep
    cstep
    cstep
    csim
    cstep
    exact .pure rfl

/-- The variables of `frodo_pack` in the text while the loop runs (/repo/src/util.c:18-33). -/
def packVars (bo lo bi li outlen inlen lsb : Nat) (s : PackSt) : List (String × Val) :=
  [("bits", .int false 1 s.bits), ("w", .int false 2 s.w.toNat), ("j", .int false 8 s.j), ("i", .int false 8 s.i),
    ("out", .ptr bo lo false 1), ("outlen", .int false 8 outlen), ("in", .ptr bi li false 2),
    ("inlen", .int false 8 inlen), ("lsb", .int false 1 lsb)]

theorem text_pack (X : Ctx) (call) (m : Mem) (next : Nat) (bo bi : Nat) (po pi : List Int) (out : List U8) (inp : List U16)
   (outlen inlen lsb : Nat) (hX : X.call = withString X.arch call)
   (h1 : outlen < 2 ^ 64) (h2 : inlen < 2 ^ 64) (h3 : lsb < 256)
   (ho : m bo = ⟨false, 1, po ++ ofU8 out⟩)
   (hi : m bi = ⟨false, 2, pi ++ ofU16 inp⟩)
   (ni : bi ≠ bo) :
   Refines True (frodo_pack out outlen inp inlen lsb) (utilFile.run X "frodo_pack" [.ptr bo po.length false 1,
      .int false 8 outlen, .ptr bi pi.length false 2, .int false 8 inlen, .int false 1 lsb] m next)
     (fun r' x => x = (.undef .void, m.set bo ⟨false, 1, po ++ ofU8 r'⟩, next)) := by
  rw [run_eq util_pack, packFun, frodo_pack]
  csim [loopW_eq, hX, ho]
  rw [memsetB_zero (k := outlen) (by omega) (by omega)]
  csim
  refine Refines.memset_map rfl fun out _ hl => ?_
  rw [show List.map (fun x : U8 => (x.toNat : Int)) out = ofU8 out from rfl]
  refine (Refines.whileC (fun s : PackSt => ⟨packVars bo po.length bi pi.length outlen inlen lsb s,
     m.set bo ⟨false, 1, po ++ ofU8 s.out⟩, next⟩) (fun _ => false)
     (fun s => s.i ≤ outlen ∧ s.j ≤ inlen ∧ s.bits < 256 ∧ s.b < 256) (fun _ => True) ?_ ?_ ?_ ?_).bind ?_
  · rfl
  · simp
  · intro s ⟨g1, g2, g3, g4⟩ hc
    csim [loopW_eq, packVars]
    refine Refines.branchT (by simpa using hc) ?_
    csim
    simp only [packOuter]
    csim
    refine (Refines.whileC (fun s : PackSt => ⟨("b", .int false 1 s.b) :: packVars bo po.length bi pi.length outlen inlen lsb s,
     m.set bo ⟨false, 1, po ++ ofU8 s.out⟩, next⟩) (fun s => s.brk)
     (fun s => s.brk = false ∧ s.i < outlen ∧ s.j ≤ inlen ∧ s.bits < 256 ∧ s.b < 256)
     (fun s => s.i < outlen ∧ s.j ≤ inlen ∧ s.bits < 256 ∧ s.b < 256) ?_ ?_ ?_ ?_).bind ?_
    · rfl
    · simp at hc
      simp
      omega
    · intro s ⟨g0, g1, g2, g3, g4⟩ hc
      csim [packVars]
      simp only [g0, Bool.not_false, Bool.and_true, decide_eq_true_eq] at hc
      refine Refines.branchT (by simpa using hc) ?_
      simp only [packInner]
      csim
      refine (Refines.ifK rfl (fun _ => Refines.pure (R := fun (nb : Int) (x : Val × St) => ∃ s' n', x = (.int s' n' nb,
        ⟨("b", .int false 1 s.b) :: packVars bo po.length bi pi.length outlen inlen lsb s,
          m.set bo ⟨false, 1, po ++ ofU8 s.out⟩, next⟩) ∧ 0 ≤ nb ∧ nb ≤ 8 - s.b ∧ nb ≤ s.bits) ⟨_, _, rfl, ?_⟩)
        (fun _ => Refines.pure ⟨_, _, rfl, ?_⟩)).bind ?_
      · rename_i h; simp at h; omega
      · rename_i h; simp at h; omega
      rintro nb _ ⟨s', n', rfl, q1, q2, q3⟩
      csim [packVars]
      iterate 7 (cstep; csim)
      obtain ⟨nt, rfl⟩ : ∃ nt : Nat, nb = nt := ⟨nb.toNat, by omega⟩
      obtain ⟨bt, hbt⟩ : ∃ bt : Nat, s.bits = bt + nt := ⟨s.bits - nt, by omega⟩
      rw [show ((s.bits : Int) - nt) = (bt : Int) by omega, show ((s.b : Int) + nt) = ((s.b + nt : Nat) : Int) by omega,
        u8_nat (by omega), u8_nat (by omega)]
      refine Refines.bind (R := fun (s' : PackSt) (x : St × Flow) => (∃ t mask nbits fl, x = (⟨t :: mask :: nbits ::
        ("b", .int false 1 s'.b) :: packVars bo po.length bi pi.length outlen inlen lsb s',
        m.set bo ⟨false, 1, po ++ ofU8 s'.out⟩, next⟩, fl) ∧ fl = if s'.brk then .brk else .next) ∧
          (s'.i < outlen ∧ s'.j ≤ inlen ∧ s'.bits < 256 ∧ s'.b < 256)) (Refines.ifK (by rw [beq_dec]; simp only [cast_eq_zero]) (fun hb => ?_) (fun hb => ?_)) ?_
      · refine Refines.tail (Refines.bind (R := fun (s' : PackSt) (x : St × Flow) => (∃ t mask nbits fl, x = (⟨t :: mask :: nbits ::
          ("b", .int false 1 s'.b) :: packVars bo po.length bi pi.length outlen inlen lsb s',
          m.set bo ⟨false, 1, po ++ ofU8 s'.out⟩, next⟩, fl) ∧ fl = if s'.brk then .brk else .next) ∧
          (s'.i < outlen ∧ s'.j ≤ inlen ∧ s'.bits < 256 ∧ s'.b < 256)) (Refines.ifK (by simp) (fun hj => ?_) (fun hj => ?_)) ?_)
        · simp only [decide_eq_true_eq] at hj
          csim [hi]
          cstep
          csim
          refine Refines.pure ⟨⟨_, _, _, _, rfl, ?_⟩, ?_⟩
          · simp [g0]
          · simp; omega
        · refine Refines.pure ⟨⟨_, _, _, _, rfl, ?_⟩, ?_⟩
          · rfl
          · simp; omega
        · rintro s' _ ⟨⟨t, mask, nbits, _, rfl, rfl⟩, ks⟩
          cases hk : s'.brk
          · csim [packVars]
            refine Refines.pure ⟨⟨_, _, _, _, rfl, ?_⟩, ks⟩
            simp [hk]
          · csim [packVars]
            refine Refines.pure ⟨⟨_, _, _, _, rfl, ?_⟩, ks⟩
            simp [hk]
      · refine Refines.pure ⟨⟨_, _, _, _, rfl, ?_⟩, ?_⟩
        · simp [g0]
        · simp; omega
      · rintro s' _ ⟨⟨t, mask, nbits, _, rfl, rfl⟩, ks⟩
        cases hk : s'.brk
        · csim [packVars]
          refine Refines.pure ?_
          simp only [hk]
          exact ⟨trivial, trivial, ks⟩
        · csim [packVars]
          refine Refines.step fun _ => Refines.pure ?_
          simp only [hk, ↓reduceIte]
          exact ⟨trivial, ks, by simp⟩
    · intro s ⟨g0, g1, g2, g3, g4⟩ hc
      csim [packVars]
      rw [branchK_of (by simpa [g0] using hc)]
      exact ⟨rfl, g1, g2, g3, g4⟩
    · rintro s _ ⟨rfl, g1, g2, g3, g4⟩
      csim [packVars]
      refine Refines.bind (R := fun (s' : PackSt) (x : St × Flow) => (x = (⟨("b", .int false 1 s'.b) ::
        packVars bo po.length bi pi.length outlen inlen lsb s',
        m.set bo ⟨false, 1, po ++ ofU8 s'.out⟩, next⟩, .next)) ∧
          (s'.i ≤ outlen ∧ s'.j ≤ inlen ∧ s'.bits < 256 ∧ s'.b < 256)) (Refines.ifK (by rw [beq_dec])
          (fun _ => .pure ⟨rfl, ?_⟩) (fun _ => .pure ⟨rfl, ?_⟩)) ?_
      · simp; omega
      · omega
      · rintro s' _ ⟨rfl, ks⟩
        csim [packVars]
        exact .pure ⟨rfl, ks⟩
  · intro s ⟨g1, g2, g3, g4⟩ hc
    csim [packVars]
    rw [branchK_of (by simpa using hc)]
    exact ⟨rfl, trivial⟩
  · rintro r _ ⟨rfl, -⟩; csim [packVars]
    exact .pure rfl

/-- The variables of `frodo_unpack` in the text while the loop runs (/repo/src/util.c:67-70). -/
def unpackVars (bo lo bi li outlen inlen lsb : Nat) (s : UnpackSt) : List (String × Val) :=
  [("bits", .int false 1 s.bits), ("w", .int false 1 s.w.toNat), ("j", .int false 8 s.j), ("i", .int false 8 s.i),
    ("out", .ptr bo lo false 2), ("outlen", .int false 8 outlen), ("in", .ptr bi li false 1),
    ("inlen", .int false 8 inlen), ("lsb", .int false 1 lsb)]

theorem text_unpack (X : Ctx) (call) (m : Mem) (next : Nat) (bo bi : Nat) (po pi : List Int) (out : List U16) (inp : List U8)
   (outlen inlen lsb : Nat) (hX : X.call = withString X.arch call)
   (h1 : outlen * 2 < 2 ^ 64) (h2 : inlen < 2 ^ 64) (h3 : lsb < 256)
   (ho : m bo = ⟨false, 2, po ++ ofU16 out⟩)
   (hi : m bi = ⟨false, 1, pi ++ ofU8 inp⟩)
   (ni : bi ≠ bo) :
   Refines True (frodo_unpack out outlen inp inlen lsb) (utilFile.run X "frodo_unpack" [.ptr bo po.length false 2,
      .int false 8 outlen, .ptr bi pi.length false 1, .int false 8 inlen, .int false 1 lsb] m next)
     (fun r' x => x = (.undef .void, m.set bo ⟨false, 2, po ++ ofU16 r'⟩, next)) := by
  rw [run_eq util_unpack, unpackFun, frodo_unpack]
  csim [loopW_eq, hX, ho]
  rw [memsetB_zero (k := outlen) (by omega) (by omega)]
  csim
  refine Refines.memset_map rfl fun out _ hl => ?_
  rw [show List.map (fun x : U16 => (x.toNat : Int)) out = ofU16 out from rfl]
  refine (Refines.whileC (fun s : UnpackSt => ⟨unpackVars bo po.length bi pi.length outlen inlen lsb s,
     m.set bo ⟨false, 2, po ++ ofU16 s.out⟩, next⟩) (fun _ => false)
     (fun s => s.i ≤ outlen ∧ s.j ≤ inlen ∧ s.bits < 256 ∧ s.b < 256) (fun _ => True) ?_ ?_ ?_ ?_).bind ?_
  · rfl
  · simp
  · intro s ⟨g1, g2, g3, g4⟩ hc
    csim [loopW_eq, unpackVars]
    refine Refines.branchT (by simpa using hc) ?_
    csim
    simp only [unpackOuter]
    csim
    refine (Refines.whileC (fun s : UnpackSt => ⟨("b", .int false 1 s.b) :: unpackVars bo po.length bi pi.length outlen inlen lsb s,
     m.set bo ⟨false, 2, po ++ ofU16 s.out⟩, next⟩) (fun s => s.brk)
     (fun s => s.brk = false ∧ s.i < outlen ∧ s.j ≤ inlen ∧ s.bits < 256 ∧ s.b < 256)
     (fun s => s.i < outlen ∧ s.j ≤ inlen ∧ s.bits < 256 ∧ s.b < 256) ?_ ?_ ?_ ?_).bind ?_
    · rfl
    · simp at hc
      simp
      omega
    · intro s ⟨g0, g1, g2, g3, g4⟩ hc
      csim [unpackVars]
      simp only [g0, Bool.not_false, Bool.and_true, decide_eq_true_eq] at hc
      refine Refines.branchT (by simpa using hc) ?_
      simp only [unpackInner]
      csim
      refine (Refines.ifK rfl (fun _ => Refines.pure (R := fun (nb : Int) (x : Val × St) => ∃ s' n', x = (.int s' n' nb,
        ⟨("b", .int false 1 s.b) :: unpackVars bo po.length bi pi.length outlen inlen lsb s,
          m.set bo ⟨false, 2, po ++ ofU16 s.out⟩, next⟩) ∧ 0 ≤ nb ∧ nb ≤ lsb - s.b ∧ nb ≤ s.bits) ⟨_, _, rfl, ?_⟩)
        (fun _ => Refines.pure ⟨_, _, rfl, ?_⟩)).bind ?_
      · rename_i h; simp at h; omega
      · rename_i h; simp at h; omega
      rintro nb _ ⟨s', n', rfl, q1, q2, q3⟩
      csim [unpackVars]
      iterate 7 (cstep; csim)
      obtain ⟨nt, rfl⟩ : ∃ nt : Nat, nb = nt := ⟨nb.toNat, by omega⟩
      obtain ⟨bt, hbt⟩ : ∃ bt : Nat, s.bits = bt + nt := ⟨s.bits - nt, by omega⟩
      rw [show ((s.bits : Int) - nt) = (bt : Int) by omega, show ((s.b : Int) + nt) = ((s.b + nt : Nat) : Int) by omega,
        u8_nat (by omega), u8_nat (by omega)]
      refine Refines.bind (R := fun (s' : UnpackSt) (x : St × Flow) => (∃ t mask nbits fl, x = (⟨t :: mask :: nbits ::
        ("b", .int false 1 s'.b) :: unpackVars bo po.length bi pi.length outlen inlen lsb s',
        m.set bo ⟨false, 2, po ++ ofU16 s'.out⟩, next⟩, fl) ∧ fl = if s'.brk then .brk else .next) ∧
          (s'.i < outlen ∧ s'.j ≤ inlen ∧ s'.bits < 256 ∧ s'.b < 256)) (Refines.ifK (by rw [beq_dec]; simp only [cast_eq_zero]) (fun hb => ?_) (fun hb => ?_)) ?_
      · refine Refines.tail (Refines.bind (R := fun (s' : UnpackSt) (x : St × Flow) => (∃ t mask nbits fl, x = (⟨t :: mask :: nbits ::
          ("b", .int false 1 s'.b) :: unpackVars bo po.length bi pi.length outlen inlen lsb s',
          m.set bo ⟨false, 2, po ++ ofU16 s'.out⟩, next⟩, fl) ∧ fl = if s'.brk then .brk else .next) ∧
          (s'.i < outlen ∧ s'.j ≤ inlen ∧ s'.bits < 256 ∧ s'.b < 256)) (Refines.ifK (by simp) (fun hj => ?_) (fun hj => ?_)) ?_)
        · simp only [decide_eq_true_eq] at hj
          csim [hi]
          cstep
          csim
          refine Refines.pure ⟨⟨_, _, _, _, rfl, ?_⟩, ?_⟩
          · simp [g0]
          · simp; omega
        · refine Refines.pure ⟨⟨_, _, _, _, rfl, ?_⟩, ?_⟩
          · rfl
          · simp; omega
        · rintro s' _ ⟨⟨t, mask, nbits, _, rfl, rfl⟩, ks⟩
          cases hk : s'.brk
          · csim [unpackVars]
            refine Refines.pure ⟨⟨_, _, _, _, rfl, ?_⟩, ks⟩
            simp [hk]
          · csim [unpackVars]
            refine Refines.pure ⟨⟨_, _, _, _, rfl, ?_⟩, ks⟩
            simp [hk]
      · refine Refines.pure ⟨⟨_, _, _, _, rfl, ?_⟩, ?_⟩
        · simp [g0]
        · simp; omega
      · rintro s' _ ⟨⟨t, mask, nbits, _, rfl, rfl⟩, ks⟩
        cases hk : s'.brk
        · csim [unpackVars]
          refine Refines.pure ?_
          simp only [hk]
          exact ⟨trivial, trivial, ks⟩
        · csim [unpackVars]
          refine Refines.step fun _ => Refines.pure ?_
          simp only [hk, ↓reduceIte]
          exact ⟨trivial, ks, by simp⟩
    · intro s ⟨g0, g1, g2, g3, g4⟩ hc
      csim [unpackVars]
      rw [branchK_of (by simpa [g0] using hc)]
      exact ⟨rfl, g1, g2, g3, g4⟩
    · rintro s _ ⟨rfl, g1, g2, g3, g4⟩
      csim [unpackVars]
      refine Refines.bind (R := fun (s' : UnpackSt) (x : St × Flow) => (x = (⟨("b", .int false 1 s'.b) ::
        unpackVars bo po.length bi pi.length outlen inlen lsb s',
        m.set bo ⟨false, 2, po ++ ofU16 s'.out⟩, next⟩, .next)) ∧
          (s'.i ≤ outlen ∧ s'.j ≤ inlen ∧ s'.bits < 256 ∧ s'.b < 256)) (Refines.ifK (by rw [beq_dec])
          (fun _ => .pure ⟨rfl, ?_⟩) (fun _ => .pure ⟨rfl, ?_⟩)) ?_
      · simp; omega
      · omega
      · rintro s' _ ⟨rfl, ks⟩
        csim [unpackVars]
        exact .pure ⟨rfl, ks⟩
  · intro s ⟨g1, g2, g3, g4⟩ hc
    csim [unpackVars]
    rw [branchK_of (by simpa using hc)]
    exact ⟨rfl, trivial⟩
  · rintro r _ ⟨rfl, -⟩; csim [unpackVars]
    exact .pure rfl

end Frodo
