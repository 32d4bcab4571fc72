import Verif.C.Taint
import Verif.C.Ct

/-! # A text that passes the check has the same trace for all secrets -/

namespace Frodo.Src

open C

/-- Two values that an observer may know to the extent of the label (proof device). -/
def VRel : Lab → Val → Val → Prop
  | .any, v, w => v = w
  | .pub, v, w => v = w ∧ ∀ b o s n, v ≠ .ptr b o s n
  | .sec, .int s n _, .int s' n' _ => s = s' ∧ n = n'
  | .sec, .undef t, .undef u => t = u
  | .sec, _, _ => False

/-- Two memories of the same shape (proof device). -/
def MRel (m m' : Mem) : Prop := ∀ b, (m b).s = (m' b).s ∧ (m b).n = (m' b).n ∧ (m b).data.length = (m' b).data.length

/-- Two lists of variables (proof device). -/
def LRel (Γ : Labels) : List (String × Val) → List (String × Val) → Prop
  | [], [] => True
  | p :: l, q :: r => p.1 = q.1 ∧ VRel (Γ.get p.1) p.2 q.2 ∧ LRel Γ l r
  | _, _ => False

/-- Two states (proof device). -/
def SRel (Γ : Labels) (s t : St) : Prop := LRel Γ s.loc t.loc ∧ MRel s.mem t.mem ∧ s.next = t.next

/-- Two lists of arguments (proof device). -/
def ARel : List Lab → List Val → List Val → Prop
  | [], [], [] => True
  | l :: ls, v :: vs, w :: ws => VRel l v w ∧ ARel ls vs ws
  | _, _, _ => False

/-- Two results of calls (proof device). -/
def RRel (l : Lab) (x y : Val × Mem × Nat) : Prop := VRel l x.1 y.1 ∧ MRel x.2.1 y.2.1 ∧ x.2.2 = y.2.2

/-- Calls in two contexts leak the same (proof device). -/
def Calm (S : Sig) (X Y : Ctx) : Prop := ∀ f ps l, S f = some (ps, l) → ∀ as bs m m' nx, ARel ps as bs → MRel m m' →
  Rel (X.call f as m nx) (Y.call f bs m' nx) (RRel l)

/-- Two contexts with the same global names, none of which are variables that change (proof device). -/
structure XRel (X Y : Ctx) (N : List String) : Prop where
  arch : X.arch = Y.arch
  glob : X.glob = Y.glob
  names : ∀ x, X.glob x ≠ none → x ∈ N
  plain : ∀ x, X.glob ("&" ++ x) = none

theorem Rel.same' {m : C α} : Rel m m fun a b => a = b := by
  intro a t b u h1 h2
  rw [h1] at h2
  cases h2
  exact ⟨rfl, rfl⟩

theorem VRel.le {l k : Lab} {v w : Val} (h : VRel l v w) (hl : l.le k = true) : VRel k v w := by
  cases l <;> cases k <;> first | exact absurd hl (by decide) | exact h | skip
  · exact h.1
  · obtain ⟨rfl, h⟩ := h
    cases v with
    | int => exact ⟨rfl, rfl⟩
    | ptr b o s n => exact absurd rfl (h b o s n)
    | undef => exact (rfl : _ = _)

theorem VRel.eq {l : Lab} {v w : Val} (h : VRel l v w) (hl : l ≠ .sec) : v = w := by
  cases l
  · exact h
  · exact h.1
  · exact absurd rfl hl

theorem MRel.set {m m' : Mem} (h : MRel m m') {b : Nat} {x y : Blk} (h1 : x.s = y.s) (h2 : x.n = y.n) (h3 : x.data.length = y.data.length) :
    MRel (m.set b x) (m'.set b y) := by
  intro c
  by_cases e : c = b
  · simp only [Mem.set, if_pos e]; exact ⟨h1, h2, h3⟩
  · simp only [Mem.set, if_neg e]; exact h c

theorem VRel.int {l : Lab} {s : Bool} {n : Nat} {x : Int} : VRel l (.int s n x) (.int s n x) := by
  cases l
  · rfl
  · exact ⟨rfl, nofun⟩
  · exact ⟨rfl, rfl⟩

theorem arith_rel {s : Bool} {n : Nat} {x y : Int} : Rel (arith s n x) (arith s n y) fun _ _ => True := by
  unfold arith
  split
  · split
    · exact Rel.int.same
    · split <;> split <;> first | exact Rel.ub_left | exact Rel.ub_right | exact Rel.pure trivial
  · exact Rel.pure trivial

theorem shl_rel {s : Bool} {n : Nat} {a b k j : Int} : Rel (shlOp s n a k) (shlOp s n b j) fun _ _ => True := by
  unfold shlOp
  split
  · exact Rel.ishl.same
  · repeat' split
    all_goals first | exact Rel.ub_left | exact Rel.ub_right | exact Rel.pure trivial | exact arith_rel

theorem shr_rel {s : Bool} {n : Nat} {a b k j : Int} : Rel (shrOp s n a k) (shrOp s n b j) fun _ _ => True := by
  unfold shrOp
  split
  · exact Rel.ishr.same
  · repeat' split
    all_goals first | exact Rel.ub_left | exact Rel.ub_right | exact Rel.pure trivial

theorem numOp_rel {o : BinOp} {s : Bool} {n : Nat} {a b a' b' : Int} : Rel (numOp o s n a b) (numOp o s n a' b') (VRel .sec) := by
  cases o <;> first
    | exact arith_rel.bind fun _ _ _ => Rel.pure ⟨rfl, rfl⟩
    | exact Rel.require.bind fun _ _ _ => arith_rel.bind fun _ _ _ => Rel.pure ⟨rfl, rfl⟩
    | exact Rel.pure ⟨rfl, rfl⟩
    | exact Rel.ub_left

theorem move_rel {m m' : Mem} (h : MRel m m') {b off : Nat} {s : Bool} {n : Nat} {k : Int} :
    Rel (movePtr m b off s n k) (movePtr m' b off s n k) fun v w => v = w := by
  unfold movePtr
  rw [(h b).2.1, (h b).2.2]
  split
  · exact (Rel.emit _).bind fun _ _ _ => Rel.pure rfl
  · exact Rel.ub_left

theorem binInt_rel {o : BinOp} {m m' : Mem} {s s' : Bool} {n n' : Nat} {a b a' b' : Int} :
    Rel (binOpV m o (.int s n a) (.int s' n' b)) (binOpV m' o (.int s n a') (.int s' n' b')) (VRel .sec) := by
  by_cases h1 : o = .shl
  · subst h1
    exact Rel.bind (shl_rel (s := (promote (s, n)).1) (n := (promote (s, n)).2)) fun _ _ _ => Rel.pure ⟨rfl, rfl⟩
  by_cases h2 : o = .shr
  · subst h2
    exact Rel.bind (shr_rel (s := (promote (s, n)).1) (n := (promote (s, n)).2)) fun _ _ _ => Rel.pure ⟨rfl, rfl⟩
  have e : ∀ (m : Mem) a b, binOpV m o (.int s n a) (.int s' n' b) = numOp o (usual (s, n) (s', n')).1 (usual (s, n) (s', n')).2
      (wrap (usual (s, n) (s', n')).1 (usual (s, n) (s', n')).2 a) (wrap (usual (s, n) (s', n')).1 (usual (s, n) (s', n')).2 b) := by
    intro m a b
    cases o <;> first | exact absurd rfl h1 | exact absurd rfl h2 | rfl
  rw [e, e]
  exact numOp_rel

theorem binSame {o : BinOp} {m m' : Mem} (h : MRel m m') {x y : Val} : Rel (binOpV m o x y) (binOpV m' o x y) fun v w => v = w := by
  cases x with
  | int s n a =>
    cases y with
    | int s' n' b => cases o <;> exact Rel.same'
    | ptr => exact Rel.ub_left
    | undef => exact Rel.ub_left
  | ptr b off s n =>
    cases y with
    | int s' n' k => cases o <;> first | exact move_rel h | exact Rel.ub_left
    | ptr => exact Rel.ub_left
    | undef => exact Rel.ub_left
  | undef => exact Rel.ub_left

theorem binPub {o : BinOp} {m m' : Mem} (h : MRel m m') {x y : Val} (hx : ∀ b o s n, x ≠ .ptr b o s n) :
    Rel (binOpV m o x y) (binOpV m' o x y) (VRel .pub) := by
  cases x with
  | int s n a =>
    cases y with
    | int s' n' b =>
      intro v t w u h1 h2
      obtain ⟨e, rfl⟩ := binSame h _ _ _ _ h1 h2
      obtain ⟨-, k⟩ := binInt_rel (m := m) (m' := m) _ _ _ _ h1 h1
      refine ⟨e, rfl, fun b o s n e => ?_⟩
      rw [e] at k
      exact k
    | ptr => exact Rel.ub_left
    | undef => exact Rel.ub_left
  | ptr b off s n => exact absurd rfl (hx b off s n)
  | undef => exact Rel.ub_left

theorem sec_int {v w : Val} (h : VRel .sec v w) : (∃ s n x y, v = .int s n x ∧ w = .int s n y) ∨ ∃ t, v = .undef t ∧ w = .undef t := by
  cases v <;> cases w <;> try exact h.elim
  · obtain ⟨rfl, rfl⟩ := h; exact .inl ⟨_, _, _, _, rfl, rfl⟩
  · cases h; exact .inr ⟨_, rfl, rfl⟩

theorem bin_undef {o : BinOp} {m : Mem} {t : Ty} {y : Val} : ∃ u, binOpV m o (.undef t) y = .ub u := by
  cases y <;> exact ⟨_, rfl⟩

theorem bin_rel {o : BinOp} {l k r : Lab} (hr : opLab o l k = some r) {m m' : Mem} (h : MRel m m') {x x' y y' : Val} (hx : VRel l x x')
    (hy : VRel k y y') : Rel (binOpV m o x y) (binOpV m' o x' y') (VRel r) := by
  have key : (∀ b f s n, x ≠ .ptr b f s n) ∨ o ≠ .add → VRel .sec y y' → VRel .sec x x' ∨ x = x' →
      Rel (binOpV m o x y) (binOpV m' o x' y') (VRel .sec) := by
    intro ha hy hx
    obtain ⟨s, n, a, b, rfl, rfl⟩ | ⟨t, rfl, rfl⟩ := sec_int hy
    · obtain hx | rfl := hx
      · obtain ⟨s', n', a', b', rfl, rfl⟩ | ⟨t, rfl, rfl⟩ := sec_int hx
        · exact binInt_rel
        · exact Rel.ub_left
      · cases x with
        | int => exact binInt_rel
        | ptr b off s n =>
          obtain ha | ha := ha
          · exact absurd rfl (ha _ _ _ _)
          · cases o <;> first | exact absurd rfl ha | exact Rel.ub_left
        | undef => exact Rel.ub_left
    · cases x <;> exact Rel.ub_left
  have key2 : VRel .sec x x' → y = y' → Rel (binOpV m o x y) (binOpV m' o x' y') (VRel .sec) := by
    intro hx e
    subst e
    obtain ⟨s', n', a', b', rfl, rfl⟩ | ⟨t, rfl, rfl⟩ := sec_int hx
    · cases y with
      | int => exact binInt_rel
      | ptr => exact Rel.ub_left
      | undef => exact Rel.ub_left
    · cases y <;> exact Rel.ub_left
  cases l <;> cases k <;> simp only [opLab] at hr
  · cases hr; cases hx; cases hy; exact binSame h
  · cases hr; cases hx; cases hy.1; exact binSame h
  · by_cases e : o = .add
    · rw [if_pos e] at hr; cases hr
    · rw [if_neg e] at hr; cases hr
      exact key (.inr e) hy (.inr hx)
  · cases hr; cases hx.1; cases hy; exact binSame h
  · cases hr; obtain ⟨rfl, hx⟩ := hx; cases hy.1; exact binPub h hx
  · cases hr; exact key (.inl hx.2) hy (.inr hx.1)
  · cases hr; exact key2 hx hy
  · cases hr; exact key2 hx hy.1
  · cases hr
    refine key (.inl ?_) hy (.inl hx)
    obtain ⟨_, _, _, _, rfl, rfl⟩ | ⟨_, rfl, rfl⟩ := sec_int hx <;> exact nofun

theorem unInt {o : UnOp} {s : Bool} {n : Nat} {a b : Int} : Rel (unOpV o (.int s n a)) (unOpV o (.int s n b)) (VRel .sec) := by
  cases o
  · exact arith_rel.bind fun _ _ _ => Rel.pure ⟨rfl, rfl⟩
  · exact Rel.pure ⟨rfl, rfl⟩
  · exact Rel.pure ⟨rfl, rfl⟩

theorem un_rel {o : UnOp} {l : Lab} {x x' : Val} (hx : VRel l x x') : Rel (unOpV o x) (unOpV o x') (VRel l) := by
  cases l
  · cases hx; exact Rel.same'
  · obtain ⟨rfl, hx⟩ := hx
    cases x with
    | int s n a =>
      intro v t w u h1 h2
      obtain ⟨e, rfl⟩ := Rel.same' _ _ _ _ h1 h2
      obtain ⟨-, k⟩ := unInt _ _ _ _ h1 h1
      refine ⟨e, rfl, fun b o s n e => ?_⟩
      rw [e] at k
      exact k
    | ptr => exact Rel.ub_left
    | undef => exact Rel.ub_left
  · obtain ⟨_, _, _, _, rfl, rfl⟩ | ⟨_, rfl, rfl⟩ := sec_int hx
    · exact unInt
    · exact Rel.ub_left

theorem convert_rel {t : Ty} {l : Lab} {x x' : Val} (hx : VRel l x x') : Rel (convert t x) (convert t x') (VRel (castLab t l)) := by
  cases l
  · cases hx
    cases t with
    | void => cases x <;> exact Rel.ub_left
    | int s n =>
      cases x with
      | int => exact Rel.pure VRel.int
      | ptr => exact Rel.ub_left
      | undef => exact Rel.ub_left
    | ptr t => exact Rel.same'
  · obtain ⟨rfl, hx⟩ := hx
    have e : castLab t .pub = .pub := by cases t <;> rfl
    rw [e]
    cases x with
    | int s' n' v =>
      cases t with
      | void => exact Rel.ub_left
      | int s n => exact Rel.pure VRel.int
      | ptr t => cases t <;> first | exact Rel.ub_left | exact Rel.pure VRel.int
    | ptr b o s n => exact absurd rfl (hx b o s n)
    | undef u =>
      cases t with
      | void => exact Rel.ub_left
      | int s n => exact Rel.ub_left
      | ptr t => cases t <;> first | exact Rel.ub_left | exact Rel.pure ⟨rfl, nofun⟩
  · have e : castLab t .sec = .sec := by cases t <;> rfl
    rw [e]
    obtain ⟨s, n, a, b, rfl, rfl⟩ | ⟨u, rfl, rfl⟩ := sec_int hx
    · cases t with
      | void => exact Rel.ub_left
      | int s n => exact Rel.pure ⟨rfl, rfl⟩
      | ptr t => cases t <;> first | exact Rel.ub_left | exact Rel.pure ⟨rfl, rfl⟩
    · cases t with
      | void => exact Rel.ub_left
      | int s n => exact Rel.ub_left
      | ptr t => cases t <;> first | exact Rel.ub_left | exact Rel.pure rfl

theorem castLab_le {t : Ty} {l : Lab} : (castLab t l).le l = true := by
  cases t <;> cases l <;> rfl

/-! ## Memory -/

theorem length_bytesOf (a : Arch) (n : Nat) (v : Int) : (bytesOf a n v).length = n := by
  cases a <;> simp [bytesOf]

theorem length_bytes (a : Arch) (x : Blk) : (x.bytes a).length = x.data.length * x.n := by
  unfold Blk.bytes
  induction x.data with
  | nil => simp
  | cons v l ih => rw [List.flatMap_cons, List.length_append, ih, length_bytesOf, List.length_cons, Nat.succ_mul, Nat.add_comm]

theorem bytes_eq {m m' : Mem} (h : MRel m m') (a : Arch) (b : Nat) : ((m b).bytes a).length = ((m' b).bytes a).length := by
  rw [length_bytes, length_bytes, (h b).2.1, (h b).2.2]

theorem length_setBytes (a : Arch) (x : Blk) (l : List Int) : (x.setBytes a l).data.length = l.length / x.n := by
  simp [Blk.setBytes, groups]

theorem load_rel {a : Arch} {m m' : Mem} (h : MRel m m') {b off : Nat} {s : Bool} {n : Nat} {k : Int} :
    Rel (load a m b off s n k) (load a m' b off s n k) (VRel .sec) := by
  unfold load
  rw [(h b).2.1, bytes_eq h]
  split
  · exact Rel.ub_left
  · split
    · exact (Rel.rd rfl).bind fun _ _ _ => Rel.pure ⟨rfl, rfl⟩
    · split
      · exact (Rel.emit _).bind fun _ _ _ => Rel.pure ⟨rfl, rfl⟩
      · exact Rel.ub_left

theorem store_rel {a : Arch} {m m' : Mem} (h : MRel m m') {b off n : Nat} {k v w : Int} :
    Rel (store a m b off n k v) (store a m' b off n k w) MRel := by
  unfold store
  rw [(h b).2.1, bytes_eq h]
  split
  · exact Rel.ub_left
  · split
    · refine (Rel.wr rfl).bind fun _ _ e => Rel.pure (h.set (h b).1 (by simpa using (h b).2.1) ?_)
      rw [e.1, e.2]
      simp [(h b).2.2]
    · split
      · refine (Rel.emit _).bind fun _ _ _ => Rel.pure (h.set (h b).1 (h b).2.1 ?_)
        rw [length_setBytes, length_setBytes, (h b).2.1]
        simp [length_bytesOf, bytes_eq h]
      · exact Rel.ub_left

theorem memset_rel {a : Arch} {m m' : Mem} (h : MRel m m') {b off n : Nat} {c c' len : Int} :
    Rel (memsetC a m b off n c len) (memsetC a m' b off n c' len) MRel := by
  unfold memsetC
  rw [(h b).2.1]
  split
  · refine (Rel.memset rfl).bind fun _ _ e => Rel.pure (h.set (h b).1 (by simpa using (h b).2.1) ?_)
    rw [e.1, e.2]
    simp [(h b).2.2]
  · refine (Rel.memset rfl).bind fun _ _ e => Rel.pure (h.set (h b).1 (h b).2.1 ?_)
    rw [length_setBytes, length_setBytes, (h b).2.1, e.1, e.2]
    simp [bytes_eq h]

theorem memcpy_rel {a : Arch} {m m' : Mem} (h : MRel m m') {b off n b' off' n' : Nat} {len : Int} :
    Rel (memcpyC a m b off n b' off' n' len) (memcpyC a m' b off n b' off' n' len) MRel := by
  unfold memcpyC
  rw [(h b).2.1, (h b').2.1]
  refine Rel.require.bind fun _ _ _ => ?_
  split
  · refine (Rel.memcpy rfl rfl rfl).bind fun _ _ e => Rel.pure (h.set (h b).1 (by simpa using (h b).2.1) ?_)
    rw [e.1, e.2]
    simp [(h b).2.2, (h b').2.2]
  · refine (Rel.memcpy rfl rfl rfl).bind fun _ _ e => Rel.pure (h.set (h b).1 (h b).2.1 ?_)
    rw [length_setBytes, length_setBytes, (h b).2.1, e.1, e.2]
    simp [bytes_eq h]

/-! ## Variables -/

theorem find_rel {Γ : Labels} {x : String} : ∀ {l r : List (String × Val)}, LRel Γ l r →
    (findVar x l = none ∧ findVar x r = none) ∨ ∃ v w, findVar x l = some v ∧ findVar x r = some w ∧ VRel (Γ.get x) v w
  | [], [], _ => .inl ⟨rfl, rfl⟩
  | p :: l, q :: r, h => by
    obtain ⟨y, v⟩ := p
    obtain ⟨z, w⟩ := q
    obtain ⟨h1, h2, h3⟩ := h
    dsimp only at h1 h2
    subst h1
    by_cases e : y = x
    · subst e
      exact .inr ⟨v, w, by simp [findVar], by simp [findVar], h2⟩
    · simp only [findVar, if_neg e]
      exact find_rel h3
  | [], _ :: _, h => h.elim
  | _ :: _, [], h => h.elim

theorem setVar_rel {Γ : Labels} {x : String} {v w : Val} (hv : VRel (Γ.get x) v w) : ∀ {l r : List (String × Val)}, LRel Γ l r →
    LRel Γ (setVar x v l) (setVar x w r)
  | [], [], _ => trivial
  | p :: l, q :: r, h => by
    obtain ⟨y, a⟩ := p
    obtain ⟨z, b⟩ := q
    obtain ⟨h1, h2, h3⟩ := h
    dsimp only at h1 h2
    subst h1
    by_cases e : y = x
    · subst e
      simp only [setVar, if_true]
      exact ⟨rfl, hv, h3⟩
    · simp only [setVar, if_neg e]
      exact ⟨rfl, h2, setVar_rel hv h3⟩
  | [], _ :: _, h => h.elim
  | _ :: _, [], h => h.elim

theorem LRel.length {Γ : Labels} : ∀ {l r : List (String × Val)}, LRel Γ l r → l.length = r.length
  | [], [], _ => rfl
  | _ :: _, _ :: _, h => congrArg (· + 1) (LRel.length h.2.2)
  | [], _ :: _, h => h.elim
  | _ :: _, [], h => h.elim

theorem LRel.drop {Γ : Labels} : ∀ (k : Nat) {l r : List (String × Val)}, LRel Γ l r → LRel Γ (l.drop k) (r.drop k)
  | 0, _, _, h => h
  | _ + 1, [], [], _ => trivial
  | k + 1, _ :: _, _ :: _, h => LRel.drop k h.2.2
  | _, [], _ :: _, h => h.elim
  | _, _ :: _, [], h => h.elim

theorem leave_rel {Γ : Labels} {s t : St} (h : SRel Γ s t) {k j : Nat} (e : k = j) : SRel Γ (leave k s) (leave j t) := by
  subst e
  refine ⟨?_, h.2⟩
  simp only [leave]
  rw [h.1.length]
  exact h.1.drop _

section

variable {X Y : Ctx} {N : List String} {S : Sig} {Γ : Labels}

theorem getVar_rel (hX : XRel X Y N) (hΓ : ∀ x ∈ N, Γ.get x = .any) {s t : St} (h : SRel Γ s t) (x : String) :
    Rel (getVar X s x) (getVar Y t x) (VRel (Γ.get x)) := by
  unfold getVar
  obtain ⟨e, e'⟩ | ⟨v, w, e, e', hv⟩ := find_rel (x := x) h.1
  · rw [e, e', ← hX.glob]
    simp only [Option.none_or]
    cases hg : X.glob x with
    | none =>
      simp only [hX.plain]
      exact Rel.ub_left
    | some v =>
      rw [hΓ x (hX.names x (by rw [hg]; nofun))]
      cases v <;> first | exact Rel.pure rfl | exact Rel.ub_left
  · rw [e, e']
    simp only [Option.some_or]
    generalize Γ.get x = k at hv
    cases k
    · cases hv
      cases v <;> first | exact Rel.pure rfl | exact Rel.ub_left
    · obtain ⟨rfl, hv⟩ := hv
      cases v <;> first | exact Rel.pure ⟨rfl, hv⟩ | exact Rel.ub_left
    · obtain ⟨_, _, _, _, rfl, rfl⟩ | ⟨_, rfl, rfl⟩ := sec_int hv
      · exact Rel.pure ⟨rfl, rfl⟩
      · exact Rel.ub_left

/-- The object that an expression with label `l` denotes (proof device). -/
def ORel (Γ : Labels) (e : Expr) (l : Lab) : LVal → Prop
  | .var x => l = Γ.get x ∧ isVar e = true
  | .elem .. => l = .sec ∧ isVar e = false

theorem assign_rel (hX : XRel X Y N) {s t : St} (h : SRel Γ s t) {e : Expr} {j k : Lab} {o : LVal} (ho : ORel Γ e j o) {v w : Val}
    (hv : VRel k v w) (hk : (isVar e && !k.le j) = false) :
    Rel (assign X s o v) (assign Y t o w) fun r q => VRel j r.1 q.1 ∧ SRel Γ r.2 q.2 := by
  cases o with
  | var x =>
    obtain ⟨rfl, ho⟩ := ho
    rw [ho, Bool.true_and, Bool.not_eq_false'] at hk
    replace hv := hv.le hk
    clear hk ho
    have hs : ∀ {v w : Val}, VRel (Γ.get x) v w → SRel Γ { s with loc := setVar x v s.loc } { t with loc := setVar x w t.loc } :=
      fun hv => ⟨setVar_rel hv h.1, h.2⟩
    obtain ⟨e, e'⟩ | ⟨a, b, e, e', ha⟩ := find_rel (x := x) h.1
    · cases v
      · simp only [assign, e, hX.plain, writeStatic]; exact Rel.ub_left
      · simp only [assign, e, hX.plain, writeStatic]; exact Rel.ub_left
      · exact Rel.ub_left
    · generalize Γ.get x = k at ha hv hs
      have same : v = w → a = b → Rel (assign X s (.var x) v) (assign Y t (.var x) w) (fun r q => VRel k r.1 q.1 ∧ SRel Γ r.2 q.2) := by
        rintro rfl rfl
        cases v with
        | int s' n' y =>
          simp only [assign, e, e']
          cases a with
          | int => exact Rel.pure ⟨VRel.int, hs VRel.int⟩
          | ptr => exact Rel.ub_left
          | undef u => cases u <;> first | exact Rel.pure ⟨VRel.int, hs VRel.int⟩ | exact Rel.ub_left
        | ptr b o s' n' =>
          simp only [assign, e, e']
          cases a with
          | int => exact Rel.ub_left
          | ptr => exact Rel.pure ⟨hv, hs hv⟩
          | undef u => cases u <;> first | exact Rel.pure ⟨hv, hs hv⟩ | exact Rel.ub_left
        | undef => exact Rel.ub_left
      cases k
      · exact same hv ha
      · exact same hv.1 ha.1
      · obtain ⟨_, _, _, _, rfl, rfl⟩ | ⟨_, rfl, rfl⟩ := sec_int hv
        · simp only [assign, e, e']
          obtain ⟨_, _, _, _, rfl, rfl⟩ | ⟨u, rfl, rfl⟩ := sec_int ha
          · exact Rel.pure ⟨⟨rfl, rfl⟩, hs ⟨rfl, rfl⟩⟩
          · cases u <;> first | exact Rel.pure ⟨⟨rfl, rfl⟩, hs ⟨rfl, rfl⟩⟩ | exact Rel.ub_left
        · exact Rel.ub_left
  | elem b off s' n' i =>
    obtain ⟨rfl, -⟩ := ho
    have key : ∀ a c x y, Rel (assign X s (.elem b off s' n' i) (.int a c x)) (assign Y t (.elem b off s' n' i) (.int a c y))
        fun r q => VRel .sec r.1 q.1 ∧ SRel Γ r.2 q.2 := by
      intro a c x y
      unfold assign
      rw [← hX.arch]
      exact (store_rel h.2.1).bind fun _ _ hm => Rel.pure ⟨⟨rfl, rfl⟩, h.1, hm, h.2.2⟩
    cases k
    · cases hv
      cases v <;> first | exact key _ _ _ _ | exact Rel.ub_left
    · obtain ⟨rfl, hv⟩ := hv
      cases v <;> first | exact key _ _ _ _ | exact Rel.ub_left
    · obtain ⟨_, _, _, _, rfl, rfl⟩ | ⟨_, rfl, rfl⟩ := sec_int hv
      · exact key _ _ _ _
      · exact Rel.ub_left

theorem readL_rel (hX : XRel X Y N) (hΓ : ∀ x ∈ N, Γ.get x = .any) {s t : St} (h : SRel Γ s t) {e : Expr} {j : Lab} {o : LVal}
    (ho : ORel Γ e j o) : Rel (readL X s o) (readL Y t o) (VRel j) := by
  cases o with
  | var x =>
    obtain ⟨rfl, -⟩ := ho
    exact getVar_rel hX hΓ h x
  | elem b off s' n' i =>
    obtain ⟨rfl, -⟩ := ho
    unfold readL
    rw [← hX.arch]
    exact load_rel h.2.1

theorem isTrue_rel {l : Lab} {v w : Val} (h : VRel l v w) : Rel (isTrue v) (isTrue w) fun a b => l ≠ .sec → a = b := by
  intro a t b u h1 h2
  cases v with
  | int =>
    cases w with
    | int =>
      cases h1; cases h2
      refine ⟨rfl, fun hl => ?_⟩
      cases h.eq hl
      rfl
    | ptr => exact absurd h2 nofun
    | undef => exact absurd h2 nofun
  | ptr => exact absurd h1 nofun
  | undef => exact absurd h1 nofun

end

end Frodo.Src
