import Verif.Text.Generic
import Verif.Proof.TextUtil
import Verif.Model.Matrix

/-! # The small matrix functions: text and model

What the texts of /repo/src/noise.c and of the small functions of /repo/src/frodo_macrify.c and
/repo/src/frodo_macrify_reference.c do is what the model says (/repo/src/noise.c:10-29, /repo/src/frodo_macrify.c:275-371,
/repo/src/frodo_macrify_reference.c:130-226). -/

namespace Frodo

open Src

/-- Put the parameters in. -/
macro "cat" : tactic => `(tactic| simp -implicitDefEqProofs only [Fun.at, Stmt.subst, Expr.subst, Expr.substList, constOf,
  shakeName, String.reduceEq, ↓reduceIte])

/-- Steps of both sides as long as possible. -/
macro "cgo" : tactic => `(tactic| repeat (cstep; csim))

/-- The value of a variable that has none at first (C11 6.7.9p10). -/
def later (s : Bool) (n : Nat) (c : Prop) [Decidable c] (v : Int) : Val := if c then .undef (.int s n) else .int s n v

@[sem] theorem setK_later {X : Ctx} {s' : Bool} {n' : Nat} {x : String} {loc : List (String × Val)} {m : Mem} {nx : Nat} {s : Bool} {n : Nat}
    {w v : Int} {c : Prop} [Decidable c] :
    setK X x ⟨loc, m, nx⟩ s' n' w (some (later s n c v)) =
      pure (.int s n (wrap s n w), ⟨setVar x (.int s n (wrap s n w)) loc, m, nx⟩) := by
  unfold later
  split <;> rfl

theorem later_false {s : Bool} {n : Nat} {c : Prop} [Decidable c] {v : Int} (h : ¬ c) : later s n c v = .int s n v := if_neg h

@[sem] theorem div_eight {a : Nat} : numOp .div true 4 (a : Int) 8 = Frodo.int ((a / 8 : Nat) : Int) >>= fun x => pure (.int true 4 x) := by
  have e : (a : Int).tdiv 8 = ((a / 8 : Nat) : Int) := rfl
  simp [numOp, arith, C.require, e]
@[sem] theorem wrap_u64 {x : U64} : wrap false 8 (x.toNat : Int) = x.toNat := wrap_size (by omega) (by omega)
@[sem] theorem or_u64 {x y : U64} : bitOr false 8 (x.toNat : Int) (y.toNat : Int) = ((x ||| y).toNat : Int) := by
  simp [bitOr, ofBits]
@[sem] theorem and_u64 {x y : U64} : bitAnd false 8 (x.toNat : Int) (y.toNat : Int) = ((x &&& y).toNat : Int) := by
  simp [bitAnd, ofBits]
@[sem] theorem sub_one_u64 {x : U64} : ((x.toNat : Int) - 1) % 18446744073709551616 = ((x - 1).toNat : Int) := by
  have h := BitVec.toNat_sub x 1#64
  simp only [Nat.reducePow, BitVec.toNat_ofNat] at h
  rw [show (1 : U64) = 1#64 from rfl, h]
  omega
@[sem] theorem wrap_u64_16 {x : U64} : wrap false 2 (x.toNat : Int) = ((x.setWidth 16).toNat : Int) := by
  rw [BitVec.toNat_setWidth]
  rfl

@[sem] theorem convert_bytes {b off : Nat} {s : Bool} : convert (.ptr (.int false 1)) (.ptr b off s 2) = pure (.ptr b (off * 2) false 1) := by
  simp [convert, Nat.mod_one]

theorem Refines.stepShl64 {tr : Prop} {S : γ → δ → Prop} {x : U64} {k : Nat} {a b : Int} {f : U64 → C γ} {g : Int → C δ} (ha : a = x.toNat)
    (hb : b = k) (h : ∀ y : U64, Refines tr (f y) (g (y.toNat : Int)) S) :
    Refines tr (shl64 x k >>= f) (shlOp false 8 a b >>= g) S := by
  subst ha hb
  unfold shl64 shlOp
  by_cases hk : k < 64
  · rw [if_pos hk, if_neg (by simp), if_pos (by omega), if_neg (by simp)]
    refine Refines.bind (R := fun y z => z = (y.toNat : Int)) (.pure ?_) fun y _ e => e ▸ h y
    rw [BitVec.toNat_shiftLeft, Nat.shiftLeft_eq, Int.toNat_natCast, Int.natCast_emod, Int.natCast_mul, Int.natCast_pow]
    rfl
  · rw [if_neg hk]
    exact fun a t h => nomatch h

theorem Refines.stepShr64 {tr : Prop} {S : γ → δ → Prop} {x : U64} {k : Nat} {a b : Int} {f : U64 → C γ} {g : Int → C δ} (ha : a = x.toNat)
    (hb : b = k) (h : ∀ y : U64, Refines tr (f y) (g (y.toNat : Int)) S) :
    Refines tr (shr64 x k >>= f) (shrOp false 8 a b >>= g) S := by
  subst ha hb
  unfold shr64 shrOp
  by_cases hk : k < 64
  · rw [if_pos hk, if_neg (by simp), if_pos (by omega)]
    refine Refines.bind (R := fun y z => z = (y.toNat : Int)) (.pure ?_) fun y _ e => e ▸ h y
    rw [BitVec.toNat_ushiftRight, Nat.shiftRight_eq_div_pow, Int.toNat_natCast, Int.natCast_ediv, Int.natCast_pow]
    rfl
  · rw [if_neg hk]
    exact fun a t h => nomatch h


/-- `for (i = lo; i < hi; i++)`, where the state of the text is not determined by that of the model. -/
theorem Refines.forRel {tr : Prop} {body : Nat → σ → C σ} {it : τ → C (Option Flow × τ)} {lo hi : Nat} {s : σ} {st : τ}
    (Rel : Nat → σ → τ → Prop) (hlo : lo ≤ hi) (hst : Rel lo s st)
    (hb : ∀ i s st, i < hi → Rel i s st → Refines tr (C.emit (.branch true) >>= fun _ => body i s) (it st)
      fun s' r => ∃ st', r = (none, st') ∧ Rel (i + 1) s' st')
    (he : ∀ s st, Rel hi s st → it st = C.emit (.branch false) >>= fun _ => Pure.pure (some .next, st)) :
    Refines tr (Frodo.forC lo hi 1 s body) (loop it st) fun s' r => ∃ st', r = (st', .next) ∧ Rel hi s' st' := by
  have key : ∀ k i s st, i + k = hi → Rel i s st → Refines tr (Frodo.forLoop 1 body k i s) (loop it st)
      fun s' r => ∃ st', r = (st', .next) ∧ Rel hi s' st' := by
    intro k
    induction k with
    | zero =>
      intro i s st hk hR
      obtain rfl : i = hi := by omega
      rw [loop, he s st hR]
      simp only [bind_assoc, pure_bind, Frodo.forLoop]
      exact emit.bind fun _ _ _ => .pure ⟨st, rfl, hR⟩
    | succ k ih =>
      intro i s st hk hR
      rw [loop, Frodo.forLoop]
      have e : (do C.emit (Event.branch true); let s ← body i s; Frodo.forLoop 1 body k (i + 1) s) =
          (C.emit (Event.branch true) >>= fun _ => body i s) >>= fun s => Frodo.forLoop 1 body k (i + 1) s := by
        simp only [bind_assoc]
      rw [e]
      refine (hb i s st (by omega) hR).bind ?_
      rintro s' r ⟨st', rfl, hR'⟩
      exact ih (i + 1) s' st' (by omega) hR'
  unfold Frodo.forC
  have e : (hi - lo + (1 - 1)) / 1 = hi - lo := by omega
  rw [e]
  exact key _ lo s st (by omega) hst

theorem cell_lt {a b i j : Nat} (hi : i < a) (hj : j < b) : i * b + j < a * b := by
  have := Nat.mul_le_mul_right b (show i + 1 ≤ a from hi)
  rw [Nat.add_mul] at this
  omega

theorem u16_toNat_64 {x : U64} : u16 (x.toNat : Int) = x.setWidth 16 := by
  apply BitVec.eq_of_toNat_eq
  simp [u16]

/-- An element is written through a pointer to it. -/
theorem Refines.wrAt16 {S : γ → δ → Prop} {l : List U16} {pre : List Int} {p : Nat} {v : U16} {w : Int} {f : List U16 → C γ}
    {g : List Int → C δ} (hw : w = (v.toNat : Int))
    (k : ∀ (l' : List U16) (x : List Int), p < l.length → l'.length = l.length →
      (pre ++ ofU16 l).take (pre.length + p) ++ x = pre ++ ofU16 l' → Refines False (f l') (g x) S) :
    Refines False (Frodo.wr l p v >>= f) (Frodo.wr ((pre ++ ofU16 l).drop (pre.length + p)) 0 w >>= g) S := by
  subst hw
  by_cases hp : p < l.length
  · have e : Frodo.wr l p v = C.emit (.write p) >>= fun _ => Pure.pure (l.set p v) := by
      unfold Frodo.wr; rw [if_pos hp]
    have e' : Frodo.wr ((pre ++ ofU16 l).drop (pre.length + p)) 0 (v.toNat : Int) = C.emit (.write 0) >>= fun _ =>
        Pure.pure (((pre ++ ofU16 l).drop (pre.length + p)).set 0 (v.toNat : Int)) := by
      unfold Frodo.wr; rw [if_pos (by simp [length_ofU16]; omega)]
    rw [e, e']
    refine Refines.bind (R := fun l' x => l' = l.set p v ∧ x = ((pre ++ ofU16 l).drop (pre.length + p)).set 0 (v.toNat : Int)) ?_ ?_
    · exact fun a t h => ⟨_, _, rfl, by cases h; exact ⟨rfl, rfl⟩, fun h => h.elim⟩
    · rintro _ _ ⟨rfl, rfl⟩
      refine k _ _ hp (by simp) ?_
      rw [List.take_length_add_append, List.drop_length_add_append, List.append_assoc]
      congr 1
      have h : p < (ofU16 l).length := by rw [length_ofU16]; exact hp
      rw [List.drop_eq_getElem_cons h, List.set_cons_zero, ofU16, ofU16, List.map_set, List.set_eq_take_append_cons_drop,
        if_pos (by simpa using hp)]
  · have e : Frodo.wr l p v = C.ub .oobWrite := by unfold Frodo.wr; rw [if_neg hp]
    rw [e]
    exact fun a t h => nomatch h

theorem iand_u16 {x y : U16} : iand (x.toNat : Int) (y.toNat : Int) = ((x &&& y).toNat : Int) := by
  have e (z : U16) : BitVec.ofInt 32 (z.toNat : Int) = z.setWidth 32 := by
    apply BitVec.eq_of_toNat_eq
    simp
  have h := (x &&& y).isLt
  unfold iand
  rw [e, e, ← BitVec.setWidth_and, BitVec.toInt_eq_toNat_of_lt] <;> rw [BitVec.toNat_setWidth] <;> omega

theorem wrap_iand_u16 {x y : U16} : wrap false 8 (wrap false 8 (iand (x.toNat : Int) (y.toNat : Int))) =
    (((x &&& y).setWidth 64).toNat : Int) := by
  have h := (x &&& y).isLt
  rw [iand_u16, BitVec.toNat_setWidth, wrap_size, wrap_size, Nat.mod_eq_of_lt]
  · omega
  · omega
  · omega
  · rw [wrap_size] <;> omega
  · rw [wrap_size] <;> omega

theorem u8_and_ff {y : U64} : u8 (bitAnd false 8 (y.toNat : Int) 255) = (y &&& 255).setWidth 8 := by
  have e : bitAnd false 8 (y.toNat : Int) 255 = ((y &&& 255).toNat : Int) := and_u64 (y := 255)
  rw [e]
  apply BitVec.eq_of_toNat_eq
  simp [u8]

@[sem] theorem u16_bitAnd {a b : Int} : u16 (bitAnd false 4 a (wrap false 4 b)) = u16 (iand a b) := by
  have e : BitVec.ofInt 32 (wrap false 4 b) = BitVec.ofInt 32 b := by
    apply BitVec.eq_of_toNat_eq
    simp [wrap, BitVec.toNat_ofInt]
  have e' (x : BitVec 32) : u16 (ofBits false x) = x.setWidth 16 := by
    apply BitVec.eq_of_toNat_eq
    simp [u16, ofBits]
  unfold bitAnd iand
  rw [e, e', u16_toInt]

/-- Where an operand of `frodo_add` and `frodo_sub` is: in a buffer of its own, or in the output buffer. -/
def Operand.At (m : Mem) (bo : Nat) (po : List Int) (v : Val) : Operand → Prop
  | .buf l => ∃ b p, v = .ptr b (List.length p) false 2 ∧ b ≠ bo ∧ m b = ⟨false, 2, p ++ ofU16 l⟩
  | .out => v = .ptr bo po.length false 2

theorem Operand.At.get {m : Mem} {bo : Nat} {po : List Int} {v : Val} {a : Operand} (h : a.At m bo po v) :
    ∃ b p, v = .ptr b (List.length p) false 2 ∧
      ∀ r, (m.set bo ⟨false, 2, po ++ ofU16 r⟩) b = ⟨false, 2, p ++ ofU16 (a.get r)⟩ := by
  cases a with
  | out => exact ⟨bo, po, h, fun r => set_same ..⟩
  | buf l =>
    obtain ⟨b, p, rfl, h1, h2⟩ := h
    exact ⟨b, p, rfl, fun r => by rw [set_ne _ _ h1, h2]; rfl⟩

theorem text_add {F : File} {P : Params} (hF : F.IsUnit P) (X : Ctx) (m : Mem) (next bo : Nat) (po : List Int) (out : List U16)
   (a b : Operand) (va vb : Val) (hW : P.WF)
   (ho : m bo = ⟨false, 2, po ++ ofU16 out⟩)
   (ha : a.At m bo po va) (hb : b.At m bo po vb) :
   Refines True (frodo_add P out a b) (F.run X "frodo_add" [.ptr bo po.length false 2, va, vb] m next)
     (fun r' x => x = (.undef .void, m.set bo ⟨false, 2, po ++ ofU16 r'⟩, next)) := by
  have hn := hW.nbar_lt
  have hnn : P.nbar * P.nbar < 2 ^ 30 := by have := Nat.mul_lt_mul'' hn hn; omega
  rw [run_eq hF.add, addFun]
  cat
  obtain ⟨ba, pa, rfl, ga⟩ := ha.get
  obtain ⟨bb, pb, rfl, gb⟩ := hb.get
  csim [loopF_eq]
  refine Refines.tail ((Refines.forC (fun i (r : List U16) => ⟨[("i", .int true 4 i), ("out", .ptr bo po.length false 2),
    ("a", .ptr ba pa.length false 2), ("b", .ptr bb pb.length false 2)], m.set bo ⟨false, 2, po ++ ofU16 r⟩, next⟩)
    (fun _ _ => True) (by omega) ?_ trivial ?_ ?_).bind ?_)
  · rw [set_self _ ho]; rfl
  · intro i r hi _
    csim [ga, gb, qMask]
    cgo
    refine Refines.tail ?_
    cstep
    exact .pure ⟨rfl, trivial⟩
  · intro r _
    csim
    exact Refines.branchF (by simp)
  · rintro r _ ⟨rfl, -⟩
    csim
    exact .pure rfl

theorem text_sub {F : File} {P : Params} (hF : F.IsUnit P) (X : Ctx) (m : Mem) (next bo : Nat) (po : List Int) (out : List U16)
   (a b : Operand) (va vb : Val) (hW : P.WF)
   (ho : m bo = ⟨false, 2, po ++ ofU16 out⟩)
   (ha : a.At m bo po va) (hb : b.At m bo po vb) :
   Refines True (frodo_sub P out a b) (F.run X "frodo_sub" [.ptr bo po.length false 2, va, vb] m next)
     (fun r' x => x = (.undef .void, m.set bo ⟨false, 2, po ++ ofU16 r'⟩, next)) := by
  have hn := hW.nbar_lt
  have hnn : P.nbar * P.nbar < 2 ^ 30 := by have := Nat.mul_lt_mul'' hn hn; omega
  rw [run_eq hF.sub, subFun]
  cat
  obtain ⟨ba, pa, rfl, ga⟩ := ha.get
  obtain ⟨bb, pb, rfl, gb⟩ := hb.get
  csim [loopF_eq]
  refine Refines.tail ((Refines.forC (fun i (r : List U16) => ⟨[("i", .int true 4 i), ("out", .ptr bo po.length false 2),
    ("a", .ptr ba pa.length false 2), ("b", .ptr bb pb.length false 2)], m.set bo ⟨false, 2, po ++ ofU16 r⟩, next⟩)
    (fun _ _ => True) (by omega) ?_ trivial ?_ ?_).bind ?_)
  · rw [set_self _ ho]; rfl
  · intro i r hi _
    csim [ga, gb, qMask]
    cgo
    refine Refines.tail ?_
    cstep
    exact .pure ⟨rfl, trivial⟩
  · intro r _
    csim
    exact Refines.branchF (by simp)
  · rintro r _ ⟨rfl, -⟩
    csim
    exact .pure rfl

theorem text_mul_bs {F : File} {P : Params} (hF : F.IsUnit P) (X : Ctx) (m : Mem) (next bo bb bs : Nat) (po pb ps : List Int)
   (out b s : List U16) (hW : P.WF)
   (ho : m bo = ⟨false, 2, po ++ ofU16 out⟩) (hb : m bb = ⟨false, 2, pb ++ ofU16 b⟩) (hs : m bs = ⟨false, 2, ps ++ ofU16 s⟩)
   (nb : bb ≠ bo) (ns : bs ≠ bo) :
   Refines True (frodo_mul_bs P out b s) (F.run X "frodo_mul_bs" [.ptr bo po.length false 2, .ptr bb pb.length false 2,
     .ptr bs ps.length false 2] m next)
     (fun r' x => x = (.undef .void, m.set bo ⟨false, 2, po ++ ofU16 r'⟩, next)) := by
  have hn := hW.nbar_lt
  have hN := hW.n_lt
  have hnn : P.nbar * P.nbar < 2 ^ 30 := by have := Nat.mul_lt_mul'' hn hn; omega
  have hnN : P.nbar * P.n < 2 ^ 30 := by have := Nat.mul_lt_mul'' hn hN; omega
  rw [run_eq hF.mulBs, mulBsFun, frodo_mul_bs]
  cat
  csim [loopF_eq]
  refine Refines.tail ((Refines.forC (fun i (r : List U16) => ⟨[("k", later true 4 (i = 0) P.n), ("j", later true 4 (i = 0) P.nbar),
    ("i", .int true 4 i), ("out", .ptr bo po.length false 2),
    ("b", .ptr bb pb.length false 2), ("s", .ptr bs ps.length false 2)], m.set bo ⟨false, 2, po ++ ofU16 r⟩, next⟩)
    (fun _ _ => True) (by omega) ?_ trivial ?_ ?_).bind ?_)
  · rw [set_self _ ho]; rfl
  · intro i r hi _
    csim
    cstep
    csim [loopF_eq]
    refine Refines.tail ((Refines.forC (fun j (r : List U16) => ⟨[("k", later true 4 (i = 0 ∧ j = 0) P.n), ("j", .int true 4 j),
      ("i", .int true 4 i), ("out", .ptr bo po.length false 2),
      ("b", .ptr bb pb.length false 2), ("s", .ptr bs ps.length false 2)], m.set bo ⟨false, 2, po ++ ofU16 r⟩, next⟩)
      (fun _ _ => True) (by omega) ?_ trivial ?_ ?_).bind ?_)
    · simp
    · intro j r hj _
      have h1 := cell_lt hi hj
      csim [loopF_eq]
      cstep
      refine Refines.wr16 rfl fun r _ _ => ?_
      refine Refines.bind (Refines.forC (fun k (r : List U16) => ⟨[("k", .int true 4 k), ("j", .int true 4 j),
        ("i", .int true 4 i), ("out", .ptr bo po.length false 2),
        ("b", .ptr bb pb.length false 2), ("s", .ptr bs ps.length false 2)], m.set bo ⟨false, 2, po ++ ofU16 r⟩, next⟩)
        (fun _ _ => True) (by omega) ?_ trivial ?_ ?_) ?_
      · rfl
      · intro k r hk _
        have h2 := cell_lt hi hk
        have h3 := cell_lt hj hk
        csim [hb, hs]
        cgo
        refine Refines.tail ?_
        cstep
        exact .pure ⟨rfl, trivial⟩
      · intro r _
        csim
        exact Refines.branchF (by simp)
      · rintro r _ ⟨rfl, -⟩
        csim [qMask]
        cgo
        refine Refines.tail ?_
        cstep
        exact .pure ⟨by simp [later], trivial⟩
    · intro r _
      csim
      exact Refines.branchF (by simp)
    · rintro r _ ⟨rfl, -⟩
      csim
      rw [later_false (by omega)]
      exact .pure ⟨by simp [later], trivial⟩
  · intro r _
    csim
    exact Refines.branchF (by simp)
  · rintro r _ ⟨rfl, -⟩
    csim
    exact .pure rfl

theorem text_mul_add_sb {F : File} {P : Params} (hF : F.IsUnit P) (X : Ctx) (m : Mem) (next bo bb bs be : Nat)
   (po pb ps pe : List Int) (out b s e : List U16) (hW : P.WF)
   (ho : m bo = ⟨false, 2, po ++ ofU16 out⟩) (hb : m bb = ⟨false, 2, pb ++ ofU16 b⟩) (hs : m bs = ⟨false, 2, ps ++ ofU16 s⟩)
   (he : m be = ⟨false, 2, pe ++ ofU16 e⟩) (nb : bb ≠ bo) (ns : bs ≠ bo) (ne : be ≠ bo) :
   Refines True (frodo_mul_add_sb_plus_e P out b s e) (F.run X "frodo_mul_add_sb_plus_e" [.ptr bo po.length false 2,
     .ptr bb pb.length false 2, .ptr bs ps.length false 2, .ptr be pe.length false 2] m next)
     (fun r' x => x = (.undef .void, m.set bo ⟨false, 2, po ++ ofU16 r'⟩, next)) := by
  have hn := hW.nbar_lt
  have hN := hW.n_lt
  have hnn : P.nbar * P.nbar < 2 ^ 30 := by have := Nat.mul_lt_mul'' hn hn; omega
  have hnN : P.nbar * P.n < 2 ^ 30 := by have := Nat.mul_lt_mul'' hn hN; omega
  have hNn : P.n * P.nbar < 2 ^ 30 := by rw [Nat.mul_comm]; exact hnN
  rw [run_eq hF.mulAddSb, mulAddSbFun, frodo_mul_add_sb_plus_e]
  cat
  csim [loopF_eq]
  refine Refines.tail ((Refines.forC (fun i (r : List U16) => ⟨[("k", .int true 4 i), ("j", later true 4 (i = 0) P.n),
    ("i", later true 4 (i = 0) P.nbar), ("out", .ptr bo po.length false 2),
    ("b", .ptr bb pb.length false 2), ("s", .ptr bs ps.length false 2), ("e", .ptr be pe.length false 2)],
    m.set bo ⟨false, 2, po ++ ofU16 r⟩, next⟩)
    (fun _ _ => True) (by omega) ?_ trivial ?_ ?_).bind ?_)
  · rw [set_self _ ho]; rfl
  · intro i r hi _
    csim
    cstep
    csim [loopF_eq]
    refine Refines.tail ((Refines.forC (fun j (r : List U16) => ⟨[("k", .int true 4 i), ("j", later true 4 (i = 0 ∧ j = 0) P.n),
      ("i", .int true 4 j), ("out", .ptr bo po.length false 2),
      ("b", .ptr bb pb.length false 2), ("s", .ptr bs ps.length false 2), ("e", .ptr be pe.length false 2)],
      m.set bo ⟨false, 2, po ++ ofU16 r⟩, next⟩)
      (fun _ _ => True) (by omega) ?_ trivial ?_ ?_).bind ?_)
    · simp
    · intro j r hj _
      have h1 := cell_lt hi hj
      csim [loopF_eq, he]
      cstep
      csim
      cstep
      csim
      cstep
      csim [loopF_eq]
      refine Refines.bind (Refines.forC (fun k (r : List U16) => ⟨[("k", .int true 4 i), ("j", .int true 4 k),
        ("i", .int true 4 j), ("out", .ptr bo po.length false 2),
        ("b", .ptr bb pb.length false 2), ("s", .ptr bs ps.length false 2), ("e", .ptr be pe.length false 2)],
        m.set bo ⟨false, 2, po ++ ofU16 r⟩, next⟩)
        (fun _ _ => True) (by omega) ?_ trivial ?_ ?_) ?_
      · rfl
      · intro k r hk _
        have h2 := cell_lt hi hk
        have h3 := cell_lt hk hj
        csim [hb, hs]
        cgo
        refine Refines.tail ?_
        cstep
        exact .pure ⟨rfl, trivial⟩
      · intro r _
        csim
        exact Refines.branchF (by simp)
      · rintro r _ ⟨rfl, -⟩
        csim [qMask]
        cgo
        refine Refines.tail ?_
        cstep
        exact .pure ⟨by simp [later], trivial⟩
    · intro r _
      csim
      exact Refines.branchF (by simp)
    · rintro r _ ⟨rfl, -⟩
      csim
      rw [later_false (by omega)]
      exact .pure ⟨by simp [later], trivial⟩
  · intro r _
    csim
    exact Refines.branchF (by simp)
  · rintro r _ ⟨rfl, -⟩
    csim
    exact .pure rfl

theorem text_sample {F : File} {P : Params} (hF : F.IsUnit P) (X : Ctx) (m : Mem) (next bs bc : Nat) (ps pc : List Int) (s cdf : List U16)
   (n : Nat) (hn : n < 2 ^ 32) (hc0 : 0 < cdf.length) (hc : cdf.length < 2 ^ 16)
   (hs : m bs = ⟨false, 2, ps ++ ofU16 s⟩) (hT : X.glob "CDF_TABLE" = some (.ptr bc pc.length false 2))
   (hL : X.glob "CDF_TABLE_LEN" = some (.int false 2 cdf.length))
   (hcd : m bc = ⟨false, 2, pc ++ ofU16 cdf⟩) (ne : bc ≠ bs) :
   Refines True (frodo_sample_n cdf s n) (F.run X "frodo_sample_n" [.ptr bs ps.length false 2, .int false 8 n] m next)
     (fun r' x => x = (.undef .void, m.set bs ⟨false, 2, ps ++ ofU16 r'⟩, next)) := by
  rw [run_eq hF.sample, sampleFun, frodo_sample_n, forU32_eq hn]
  cat
  csim [loopF_eq]
  refine Refines.tail ((Refines.forC (fun i (r : List U16) => ⟨[("j", later false 4 (i = 0) (cdf.length - 1 : Nat)), ("i", .int false 4 i),
    ("s", .ptr bs ps.length false 2), ("n", .int false 8 n)], m.set bs ⟨false, 2, ps ++ ofU16 r⟩, next⟩)
    (fun _ _ => True) (by omega) ?_ trivial ?_ ?_).bind ?_)
  · rw [set_self _ hs]; rfl
  · intro i r hi _
    csim [sampleBody]
    cgo
    rename_i x _ prnd hp0 hp1 hp2 y _
    csim [loopF_eq]
    refine Refines.bind (Refines.forC (fun j (v : U16) => ⟨[("sign", .int false 2 (u16 (iand y.toNat 1)).toNat), ("prnd", .int false 2 prnd),
      ("sample", .int false 2 v.toNat), ("j", .int false 4 j), ("i", .int false 4 i), ("s", .ptr bs ps.length false 2),
      ("n", .int false 8 n)], m.set bs ⟨false, 2, ps ++ ofU16 r⟩, next⟩) (fun _ _ => True) (by omega) ?_ trivial ?_ ?_) ?_
    · rfl
    · intro j v hj _
      csim [hT, hL, hcd]
      cgo
      exact .pure ⟨rfl, trivial⟩
    · intro v _
      csim [hL]
      exact Refines.branchF (by simp; omega)
    · rintro v _ ⟨rfl, -⟩
      csim
      cgo
      refine Refines.tail ?_
      cstep
      exact .pure ⟨by simp [later], trivial⟩
  · intro r _
    csim
    exact Refines.branchF (by simp)
  · rintro r _ ⟨rfl, -⟩
    csim
    exact .pure rfl

theorem text_encode {F : File} {P : Params} (hF : F.IsUnit P) (hW : P.WF) (X : Ctx) (m : Mem) (next bo bi : Nat) (po pi : List Int)
   (k : Nat) (hk : pi.length = k * 2) (out : List U16) (inp : List U8)
   (ho : m bo = ⟨false, 2, po ++ ofU16 out⟩) (hi : m bi = ⟨false, 1, pi ++ ofU8 inp⟩) (ne : bi ≠ bo) :
   Refines False (frodo_key_encode P out inp) (F.run X "frodo_key_encode" [.ptr bo po.length false 2, .ptr bi k false 2] m next)
     (fun r' x => x = (.undef .void, m.set bo ⟨false, 2, po ++ ofU16 r'⟩, next)) := by
  have hn := hW.nbar_lt
  have hnn : P.nbar * P.nbar < 2 ^ 30 := by have := Nat.mul_lt_mul'' hn hn; omega
  have hB := hW.B_le
  have hnB : P.nbar * P.nbar / 8 * P.B < 2 ^ 31 := by
    have := Nat.mul_le_mul (show P.nbar * P.nbar / 8 ≤ 2 ^ 27 by omega) hB
    omega
  have hB := hW.B_lt
  have hB := hW.logq_le
  rw [run_eq hF.encode, encodeFun, frodo_key_encode]
  cat
  csim [loopF_eq]
  refine Refines.stepShl64 rfl rfl fun one => ?_
  csim
  refine Refines.bind (Refines.forRel (fun i (r : List U16 × Nat) st => ∃ (c : Bool) (t : Int), st =
     ⟨[("pos", .ptr bo (po.length + r.2) false 2), ("mask", .int false 8 (one - 1).toNat),
     ("temp", later false 8 (c = true) t), ("nwords", .int false 4 (P.nbar * P.nbar / 8 : Nat)), ("npieces_word", .int false 4 8),
     ("j", later false 4 (i = 0) 8), ("i", .int false 4 i), ("out", .ptr bo po.length false 2), ("in", .ptr bi k false 2)],
       m.set bo ⟨false, 2, po ++ ofU16 r.1⟩, next⟩) (by omega) ?_ ?_ ?_) ?_
  · refine ⟨true, 0, ?_⟩
    rw [set_self _ ho]; rfl
  · rintro i ⟨r, p⟩ _ hl ⟨c, t, rfl⟩
    csim [loopF_eq]
    cstep
    csim [loopF_eq]
    refine Refines.bind (Refines.forC (fun j (t : U64) =>
     ⟨[("pos", .ptr bo (po.length + p) false 2), ("mask", .int false 8 (one - 1).toNat),
     ("temp", .int false 8 t.toNat), ("nwords", .int false 4 (P.nbar * P.nbar / 8 : Nat)), ("npieces_word", .int false 4 8),
     ("j", .int false 4 j), ("i", .int false 4 i), ("out", .ptr bo po.length false 2), ("in", .ptr bi k false 2)],
       m.set bo ⟨false, 2, po ++ ofU16 r⟩, next⟩) (fun _ _ => True) (by omega) ?_ trivial ?_ ?_) ?_
    · rfl
    · intro j t hj _
      have h1 := cell_lt hl hj
      csim [hi, ← hk]
      cgo
      refine Refines.stepShl64 (x := BitVec.setWidth 64 _) (by simp; omega) rfl fun y => ?_
      csim
      exact .pure ⟨rfl, trivial⟩
    · intro r _
      csim
      exact Refines.branchF (by simp)
    · rintro t _ ⟨rfl, -⟩
      csim [loopF_eq]
      refine Refines.bind (Refines.forC (fun j (r : List U16 × U64 × Nat) =>
       ⟨[("pos", .ptr bo (po.length + r.2.2) false 2), ("mask", .int false 8 (one - 1).toNat),
       ("temp", .int false 8 r.2.1.toNat), ("nwords", .int false 4 (P.nbar * P.nbar / 8 : Nat)), ("npieces_word", .int false 4 8),
       ("j", .int false 4 j), ("i", .int false 4 i), ("out", .ptr bo po.length false 2), ("in", .ptr bi k false 2)],
         m.set bo ⟨false, 2, po ++ ofU16 r.1⟩, next⟩) (fun _ _ => True) (by omega) ?_ trivial ?_ ?_) ?_
      · rfl
      · rintro j ⟨r, t, p⟩ hj _
        csim [C.require, show P.B ≤ P.logq by omega]
        cstep
        csim
        refine Refines.stepShl64 rfl (by omega) fun y => ?_
        refine Refines.wrAt16 (by csim [u16_toNat_64]) fun l x hp hl e => ?_
        csim [e]
        refine Refines.stepShr64 rfl rfl fun t => ?_
        rw [if_pos (by rw [List.length_append, length_ofU16]; omega)]
        csim
        exact .pure ⟨rfl, trivial⟩
      · intro r _
        csim
        exact Refines.branchF (by simp)
      · rintro r _ ⟨rfl, -⟩
        csim
        exact .pure ⟨_, rfl, false, _, rfl⟩
  · rintro r _ ⟨c, t, rfl⟩
    csim
    exact Refines.branchF (by simp)
  · rintro r _ ⟨_, rfl, _, _, rfl⟩
    csim
    exact .pure rfl

theorem text_decode {F : File} {P : Params} (hF : F.IsUnit P) (hW : P.WF) (X : Ctx) (m : Mem) (next bo bi : Nat) (po pi : List Int)
   (k : Nat) (hk : po.length = k * 2) (out : List U8) (inp : List U16)
   (ho : m bo = ⟨false, 1, po ++ ofU8 out⟩) (hi : m bi = ⟨false, 2, pi ++ ofU16 inp⟩) (ne : bi ≠ bo) :
   Refines True (frodo_key_decode P out inp) (F.run X "frodo_key_decode" [.ptr bo k false 2, .ptr bi pi.length false 2] m next)
     (fun r' x => x = (.undef .void, m.set bo ⟨false, 1, po ++ ofU8 r'⟩, next)) := by
  have hn := hW.nbar_lt
  have hnn : P.nbar * P.nbar < 2 ^ 30 := by have := Nat.mul_lt_mul'' hn hn; omega
  have hB := hW.B_le
  have hnB : P.nbar * P.nbar / 8 * P.B < 2 ^ 31 := by
    have := Nat.mul_le_mul (show P.nbar * P.nbar / 8 ≤ 2 ^ 27 by omega) hB
    omega
  have hB := hW.B_lt
  have hB := hW.logq_le
  rw [run_eq hF.decode, decodeFun, frodo_key_decode]
  cat
  csim [loopF_eq, ← hk]
  cgo
  rename_i me _ _ mq _ _
  generalize u16 (me - 1) = maskex
  generalize u16 (mq - 1) = maskq
  refine Refines.bind (Refines.forRel (fun i (r : List U8 × Nat) st => r.2 = 8 * i ∧ ∃ (c d : Bool) (v t : Int), st =
     ⟨[("templong", later false 8 (d = true) t), ("pos", .ptr bo po.length false 1), ("maskq", .int false 2 maskq.toNat),
     ("maskex", .int false 2 maskex.toNat),
     ("temp", later false 2 (c = true) v), ("nwords", .int false 4 (P.nbar * P.nbar / 8 : Nat)), ("npieces_word", .int false 4 8),
     ("index", .int false 4 r.2), ("j", later false 4 (i = 0) P.B), ("i", .int false 4 i), ("out", .ptr bo k false 2),
     ("in", .ptr bi pi.length false 2)],
       m.set bo ⟨false, 1, po ++ ofU8 r.1⟩, next⟩) (by omega) ?_ ?_ ?_) ?_
  · refine ⟨rfl, true, true, 0, 0, ?_⟩
    rw [set_self _ ho]; rfl
  · rintro i ⟨r, p⟩ _ hl ⟨rfl, c, d, v, t, rfl⟩
    csim [loopF_eq]
    cstep
    csim [loopF_eq]
    refine Refines.bind (Refines.forRel (fun j (w : U64 × Nat) st => w.2 = 8 * i + j ∧ ∃ (c : Bool) (v : Int), st =
     ⟨[("templong", .int false 8 w.1.toNat), ("pos", .ptr bo po.length false 1), ("maskq", .int false 2 maskq.toNat),
     ("maskex", .int false 2 maskex.toNat),
     ("temp", later false 2 (c = true) v), ("nwords", .int false 4 (P.nbar * P.nbar / 8 : Nat)), ("npieces_word", .int false 4 8),
     ("index", .int false 4 w.2), ("j", .int false 4 j), ("i", .int false 4 i), ("out", .ptr bo k false 2),
     ("in", .ptr bi pi.length false 2)],
       m.set bo ⟨false, 1, po ++ ofU8 r⟩, next⟩) (by omega) ?_ ?_ ?_) ?_
    · exact ⟨rfl, _, _, rfl⟩
    · rintro j ⟨t, w⟩ _ hj ⟨rfl, c, v, rfl⟩
      have h1 := Nat.mul_le_mul (show P.B ≤ 8 by omega) (show j ≤ 8 by omega)
      csim [hi]
      cgo
      refine Refines.stepShl64 wrap_iand_u16 (by omega) fun y => ?_
      csim
      exact .pure ⟨_, rfl, rfl, false, _, rfl⟩
    · rintro _ _ ⟨-, c, v, rfl⟩
      csim
      exact Refines.branchF (by simp)
    · rintro ⟨t, p⟩ _ ⟨_, rfl, rfl, c, v, rfl⟩
      csim [loopF_eq]
      refine Refines.bind (Refines.forC (fun j (r : List U8) =>
        ⟨[("templong", .int false 8 t.toNat), ("pos", .ptr bo po.length false 1), ("maskq", .int false 2 maskq.toNat),
        ("maskex", .int false 2 maskex.toNat),
        ("temp", later false 2 (c = true) v), ("nwords", .int false 4 (P.nbar * P.nbar / 8 : Nat)), ("npieces_word", .int false 4 8),
        ("index", .int false 4 (8 * i + 8 : Nat)), ("j", .int false 4 j), ("i", .int false 4 i), ("out", .ptr bo k false 2),
        ("in", .ptr bi pi.length false 2)],
          m.set bo ⟨false, 1, po ++ ofU8 r⟩, next⟩) (fun _ _ => True) (by omega) ?_ trivial ?_ ?_) ?_
      · rfl
      · intro j r hj _
        have h1 := cell_lt hl hj
        csim
        cgo
        refine Refines.stepShr64 rfl rfl fun y => ?_
        csim
        refine Refines.tail ?_
        refine Refines.wr8 (by rw [u8_and_ff]) fun _ _ _ => ?_
        exact .pure ⟨rfl, trivial⟩
      · intro r _
        csim
        exact Refines.branchF (by simp)
      · rintro r _ ⟨rfl, -⟩
        csim
        exact .pure ⟨_, rfl, rfl, c, false, v, t.toNat, rfl⟩
  · rintro r _ ⟨-, _, _, _, _, rfl⟩
    csim
    exact Refines.branchF (by simp)
  · rintro r _ ⟨_, rfl, -, _, _, _, _, rfl⟩
    csim
    exact .pure rfl

end Frodo
