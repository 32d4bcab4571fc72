import Verif.Proof.Taint

/-! # A text that passes the check has the same trace for all secrets: expressions and statements -/

namespace Frodo.Src

open C

section

variable {X Y : Ctx} {N : List String} {S : Sig} {Γ : Labels}

theorem ARel.les : ∀ {ls ps : List Lab} {vs ws : List Val}, ARel ls vs ws → lesL ls ps = true → ARel ps vs ws
  | [], [], [], [], _, _ => trivial
  | _ :: _, _ :: _, _ :: _, _ :: _, h, e => by
    simp only [lesL, Bool.and_eq_true] at e
    exact ⟨h.1.le e.1, ARel.les h.2 e.2⟩
  | [], _ :: _, _, _, _, e => nomatch e
  | _ :: _, [], _, _, _, e => nomatch e
  | [], _, _ :: _, _, h, _ => h.elim
  | [], _, [], _ :: _, h, _ => h.elim
  | _ :: _, _, [], _, h, _ => h.elim
  | _ :: _, _, _ :: _, [], h, _ => h.elim

theorem open_some {o : Option Lab} (h : open? o = true) : ∃ l, o = some l ∧ l ≠ .sec := by
  cases o with
  | none => cases h
  | some l => exact ⟨l, rfl, by simpa [open?] using h⟩

/-- An index: the pointer is the same, and so is the offset (proof device). -/
theorem idx_cases {j k : Lab} {v w x y : Val} (h1 : VRel j v w) (h2 : VRel k x y) (hk : k ≠ .sec) :
    (v = w ∧ x = y) ∨ ((∀ b o s n, v ≠ .ptr b o s n) ∧ ∀ b o s n, w ≠ .ptr b o s n) := by
  cases h2.eq hk
  cases j
  · exact .inl ⟨h1, rfl⟩
  · exact .inl ⟨h1.1, rfl⟩
  · obtain ⟨_, _, _, _, rfl, rfl⟩ | ⟨_, rfl, rfl⟩ := sec_int h1 <;> exact .inr ⟨nofun, nofun⟩

mutual

theorem eval_rel (hX : XRel X Y N) (hΓ : ∀ x ∈ N, Γ.get x = .any) (hC : Calm S X Y) : ∀ (e : Expr) (l : Lab), labE S Γ e = some l →
    ∀ s t, SRel Γ s t → Rel (eval X e s) (eval Y e t) fun r q => VRel l r.1 q.1 ∧ SRel Γ r.2 q.2
  | .num a b c, l, hl, s, t, h => by
    simp only [labE] at hl
    cases hl
    simp only [eval]
    exact Rel.pure ⟨VRel.int, h⟩
  | .var x, l, hl, s, t, h => by
    simp only [labE] at hl
    cases hl
    simp only [eval]
    exact (getVar_rel hX hΓ h x).bind fun _ _ hv => Rel.pure ⟨hv, h⟩
  | .idx a i, l, hl, s, t, h => by
    simp only [labE] at hl
    cases ha : labE S Γ a with
    | none => simp [ha] at hl
    | some j =>
      cases hi : labE S Γ i with
      | none => simp [ha, hi] at hl
      | some k =>
        simp only [ha, hi] at hl
        split at hl
        · cases hl
        rename_i hk
        cases hl
        simp only [eval]
        refine (eval_rel hX hΓ hC a j ha s t h).bind fun r q h1 => ?_
        refine (eval_rel hX hΓ hC i k hi _ _ h1.2).bind fun r' q' h2 => ?_
        obtain ⟨e1, e2⟩ | ⟨e1, e2⟩ := idx_cases h1.1 h2.1 hk
        · rw [← e1, ← e2, ← hX.arch]
          cases r.1 with
          | ptr b o s n =>
            cases r'.1 with
            | int s' n' x => exact (load_rel h2.2.2.1).bind fun _ _ hv => Rel.pure ⟨hv, h2.2⟩
            | ptr => exact Rel.ub_left
            | undef => exact Rel.ub_left
          | int => exact Rel.ub_left
          | undef => exact Rel.ub_left
        · cases hr : r.1 with
          | ptr b o s n => exact absurd hr (e1 b o s n)
          | int => exact Rel.ub_left
          | undef => exact Rel.ub_left
  | .deref a, l, hl, s, t, h => by
    simp only [labE] at hl
    cases ha : labE S Γ a with
    | none => simp [ha] at hl
    | some j =>
      simp only [ha] at hl
      cases hl
      simp only [eval]
      refine (eval_rel hX hΓ hC a j ha s t h).bind fun r q h1 => ?_
      obtain ⟨e1, -⟩ | ⟨e1, e2⟩ := idx_cases h1.1 (VRel.int (l := .pub) (s := true) (n := 4) (x := 0)) (by decide)
      · rw [← e1, ← hX.arch]
        cases r.1 with
        | ptr b o s n => exact (load_rel h1.2.2.1).bind fun _ _ hv => Rel.pure ⟨hv, h1.2⟩
        | int => exact Rel.ub_left
        | undef => exact Rel.ub_left
      · cases hr : r.1 with
        | ptr b o s n => exact absurd hr (e1 b o s n)
        | int => exact Rel.ub_left
        | undef => exact Rel.ub_left
  | .addr a, l, hl, s, t, h => by
    simp only [labE] at hl
    cases ha : labO S Γ a with
    | none => simp [ha] at hl
    | some j =>
      simp only [ha] at hl
      cases hl
      simp only [eval]
      refine (lval_rel hX hΓ hC a j ha s t h).bind fun r q h1 => ?_
      obtain ⟨e1, e2, e3⟩ := h1
      rw [← e1]
      cases hr : r.1 with
      | elem b o s n k => exact (move_rel e3.2.1).bind fun _ _ hv => Rel.pure ⟨hv, e3⟩
      | var x =>
        refine (getVar_rel hX hΓ e3 x).bind fun v w hv => ?_
        obtain ⟨e, -⟩ | ⟨e, e'⟩ := idx_cases hv (VRel.int (l := .pub) (s := true) (n := 4) (x := 0)) (by decide)
        · subst e
          cases v with
          | ptr b o s n => exact Rel.pure ⟨rfl, e3⟩
          | int => exact Rel.ub_left
          | undef => exact Rel.ub_left
        · cases v with
          | ptr b o s n => exact absurd rfl (e b o s n)
          | int => exact Rel.ub_left
          | undef => exact Rel.ub_left
  | .un o a, l, hl, s, t, h => by
    simp only [labE] at hl
    simp only [eval]
    refine (eval_rel hX hΓ hC a l hl s t h).bind fun r q h1 => ?_
    exact (un_rel h1.1).bind fun _ _ hv => Rel.pure ⟨hv, h1.2⟩
  | .bin o a b, l, hl, s, t, h => by
    simp only [labE] at hl
    cases ha : labE S Γ a with
    | none => simp [ha] at hl
    | some j =>
      cases hb : labE S Γ b with
      | none => simp [ha, hb] at hl
      | some k =>
        simp only [ha, hb] at hl
        simp only [eval]
        refine (eval_rel hX hΓ hC a j ha s t h).bind fun r q h1 => ?_
        refine (eval_rel hX hΓ hC b k hb _ _ h1.2).bind fun r' q' h2 => ?_
        exact (bin_rel hl h2.2.2.1 h1.1 h2.1).bind fun _ _ hv => Rel.pure ⟨hv, h2.2⟩
  | .land a b, l, hl, s, t, h => by
    simp only [labE] at hl
    cases ha : labE S Γ a with
    | none => simp [ha] at hl
    | some j =>
      cases hb : labE S Γ b with
      | none => simp [ha, hb] at hl
      | some k =>
        simp only [ha, hb] at hl
        split at hl
        · cases hl
        rename_i hj
        simp only [eval]
        refine (eval_rel hX hΓ hC a j ha s t h).bind fun r q h1 => ?_
        refine (isTrue_rel h1.1).bind fun c d hc => ?_
        rw [← hc hj]
        cases c
        · exact Rel.pure ⟨VRel.int, h1.2⟩
        · refine (eval_rel hX hΓ hC b k hb _ _ h1.2).bind fun r' q' h2 => ?_
          refine (isTrue_rel h2.1).bind fun c d hc => ?_
          split at hl
          · cases hl; exact Rel.pure ⟨⟨rfl, rfl⟩, h2.2⟩
          · rename_i hk
            rw [← hc hk]
            exact Rel.pure ⟨VRel.int, h2.2⟩
  | .lor a b, l, hl, s, t, h => by
    simp only [labE] at hl
    cases ha : labE S Γ a with
    | none => simp [ha] at hl
    | some j =>
      cases hb : labE S Γ b with
      | none => simp [ha, hb] at hl
      | some k =>
        simp only [ha, hb] at hl
        split at hl
        · cases hl
        rename_i hj
        simp only [eval]
        refine (eval_rel hX hΓ hC a j ha s t h).bind fun r q h1 => ?_
        refine (isTrue_rel h1.1).bind fun c d hc => ?_
        rw [← hc hj]
        cases c
        · refine (eval_rel hX hΓ hC b k hb _ _ h1.2).bind fun r' q' h2 => ?_
          refine (isTrue_rel h2.1).bind fun c d hc => ?_
          split at hl
          · cases hl; exact Rel.pure ⟨⟨rfl, rfl⟩, h2.2⟩
          · rename_i hk
            rw [← hc hk]
            exact Rel.pure ⟨VRel.int, h2.2⟩
        · exact Rel.pure ⟨VRel.int, h1.2⟩
  | .cond c a b, l, hl, s, t, h => by
    simp only [labE] at hl
    cases hc : labE S Γ c with
    | none => simp [hc] at hl
    | some i =>
    cases ha : labE S Γ a with
    | none => simp [hc, ha] at hl
    | some j =>
      cases hb : labE S Γ b with
      | none => simp [hc, ha, hb] at hl
      | some k =>
        simp only [hc, ha, hb] at hl
        split at hl
        · cases hl
        rename_i hi
        have hj : j.le l = true ∧ k.le l = true := by
          have e : ∀ z : Lab, z.le z = true := by intro z; cases z <;> rfl
          unfold Lab.join at hl
          split at hl
          · rename_i h; cases hl; exact ⟨h, e _⟩
          · split at hl
            · rename_i h; cases hl; exact ⟨e _, h⟩
            · cases hl
        simp only [eval]
        refine (eval_rel hX hΓ hC c i hc s t h).bind fun r q h1 => ?_
        refine (isTrue_rel h1.1).bind fun c d hc => ?_
        rw [← hc hi]
        refine (Rel.emit _).bind fun _ _ _ => ?_
        cases c
        · exact (eval_rel hX hΓ hC b k hb _ _ h1.2).mono fun _ _ h2 => ⟨h2.1.le hj.2, h2.2⟩
        · exact (eval_rel hX hΓ hC a j ha _ _ h1.2).mono fun _ _ h2 => ⟨h2.1.le hj.1, h2.2⟩
  | .cast ty a, l, hl, s, t, h => by
    simp only [labE] at hl
    cases ha : labE S Γ a with
    | none => simp [ha] at hl
    | some j =>
      simp only [ha] at hl
      cases hl
      simp only [eval]
      refine (eval_rel hX hΓ hC a j ha s t h).bind fun r q h1 => ?_
      exact (convert_rel h1.1).bind fun _ _ hv => Rel.pure ⟨hv, h1.2⟩
  | .sizeof ty, l, hl, s, t, h => by
    simp only [labE] at hl
    cases hl
    simp only [eval]
    cases ty <;> exact Rel.pure ⟨VRel.int, h⟩
  | .asg o e, l, hl, s, t, h => by
    simp only [labE] at hl
    cases ho : labO S Γ o with
    | none => simp [ho] at hl
    | some j =>
      cases he : labE S Γ e with
      | none => simp [ho, he] at hl
      | some k =>
        simp only [ho, he] at hl
        split at hl
        · cases hl
        rename_i hk
        cases hl
        simp only [eval]
        refine (eval_rel hX hΓ hC e k he s t h).bind fun r q h1 => ?_
        refine (lval_rel hX hΓ hC o _ ho _ _ h1.2).bind fun r' q' h2 => ?_
        obtain ⟨e1, e2, e3⟩ := h2
        rw [← e1]
        exact assign_rel hX e3 e2 h1.1 (by simpa using hk)
  | .asgOp op o e, l, hl, s, t, h => by
    simp only [labE] at hl
    cases ho : labO S Γ o with
    | none => simp [ho] at hl
    | some j =>
      cases he : labE S Γ e with
      | none => simp [ho, he] at hl
      | some k =>
        simp only [ho, he] at hl
        cases hi : opLab op j k with
        | none => simp [hi] at hl
        | some i =>
        simp only [hi] at hl
        split at hl
        · cases hl
        rename_i hk
        cases hl
        simp only [eval]
        refine (lval_rel hX hΓ hC o _ ho _ _ h).bind fun r' q' h2 => ?_
        obtain ⟨e1, e2, e3⟩ := h2
        rw [← e1]
        refine (readL_rel hX hΓ e3 e2).bind fun u u' hu => ?_
        refine (eval_rel hX hΓ hC e k he _ _ e3).bind fun r q h1 => ?_
        refine (bin_rel hi h1.2.2.1 hu h1.1).bind fun _ _ hv => ?_
        exact assign_rel hX h1.2 e2 hv (by simpa using hk)
  | .inc pre up o, l, hl, s, t, h => by
    simp only [labE] at hl
    simp only [eval]
    refine (lval_rel hX hΓ hC o l hl _ _ h).bind fun r q h2 => ?_
    obtain ⟨e1, e2, e3⟩ := h2
    rw [← e1]
    have le : ∀ z : Lab, z.le z = true := by intro z; cases z <;> rfl
    have hle : (isVar o && !l.le l) = false := by rw [le]; simp
    have hop : ∀ p, opLab p l .pub = some l := by intro p; cases l <;> rfl
    refine (readL_rel hX hΓ e3 e2).bind fun u u' hu => ?_
    have key : ∀ v v', VRel l v v' → Rel (do
          let r ← assign X r.2 r.1 v
          pure (if pre then r.1 else u, r.2) : C (Val × St)) (do
          let r ← assign Y q.2 r.1 v'
          pure (if pre then r.1 else u', r.2)) fun r q => VRel l r.1 q.1 ∧ SRel Γ r.2 q.2 := by
      intro v v' hv
      refine (assign_rel hX e3 e2 hv hle).bind fun r' q' h' => Rel.pure ⟨?_, h'.2⟩
      cases pre
      · exact hu
      · exact h'.1
    obtain ⟨e, -⟩ | ⟨e, e'⟩ := idx_cases hu (VRel.int (l := .pub) (s := true) (n := 4) (x := 0)) (by decide)
    · subst e
      cases u with
      | ptr b o s n =>
        dsimp only
        cases up
        · exact Rel.ub_left
        · rw [(e3.2.1 b).2.1, (e3.2.1 b).2.2]
          simp only [if_true]
          split
          · refine key _ _ ?_
            cases l
            · rfl
            · exact ⟨rfl, fun b' o' s' n' _ => hu.2 _ _ _ _ rfl⟩
            · exact hu.elim
          · exact Rel.ub_left
      | int s n x =>
        exact (bin_rel (hop _) e3.2.1 hu VRel.int).bind fun v w hv => key v w hv
      | undef => exact Rel.ub_left
    · cases u with
      | ptr b o s n => exact absurd rfl (e b o s n)
      | int s n x =>
        cases u' with
        | ptr b o s n => exact absurd rfl (e' b o s n)
        | int s' n' x' => exact (bin_rel (hop _) e3.2.1 hu VRel.int).bind fun v w hv => key v w hv
        | undef => exact Rel.ub_right
      | undef => exact Rel.ub_left
  | .call f args, l, hl, s, t, h => by
    simp only [labE] at hl
    cases ha : labL S Γ args with
    | none => simp [ha] at hl
    | some ls =>
      cases hf : S f with
      | none => simp [ha, hf] at hl
      | some x =>
        obtain ⟨ps, k⟩ := x
        simp only [ha, hf] at hl
        split at hl
        · rename_i hk
          cases hl
          simp only [eval]
          refine (evalList_rel hX hΓ hC args ls ha s t h).bind fun r q h1 => ?_
          have hn := h1.2.2.2
          rw [← hn]
          refine (hC f ps _ hf _ _ _ _ _ (h1.1.les hk) h1.2.2.1).bind fun r' q' h2 => ?_
          exact Rel.pure ⟨h2.1, h1.2.1, h2.2.1, h2.2.2⟩
        · cases hl
termination_by e => sizeOf e

theorem lval_rel (hX : XRel X Y N) (hΓ : ∀ x ∈ N, Γ.get x = .any) (hC : Calm S X Y) : ∀ (e : Expr) (l : Lab), labO S Γ e = some l →
    ∀ s t, SRel Γ s t → Rel (lval X e s) (lval Y e t) fun r q => r.1 = q.1 ∧ ORel Γ e l r.1 ∧ SRel Γ r.2 q.2
  | .var x, l, hl, s, t, h => by
    simp only [labO] at hl
    cases hl
    simp only [lval]
    exact Rel.pure ⟨rfl, ⟨rfl, rfl⟩, h⟩
  | .idx a i, l, hl, s, t, h => by
    simp only [labO] at hl
    cases ha : labE S Γ a with
    | none => simp [ha] at hl
    | some j =>
      cases hi : labE S Γ i with
      | none => simp [ha, hi] at hl
      | some k =>
        simp only [ha, hi] at hl
        split at hl
        · cases hl
        rename_i hk
        cases hl
        simp only [lval]
        refine (eval_rel hX hΓ hC a j ha s t h).bind fun r q h1 => ?_
        refine (eval_rel hX hΓ hC i k hi _ _ h1.2).bind fun r' q' h2 => ?_
        obtain ⟨e1, e2⟩ | ⟨e1, e2⟩ := idx_cases h1.1 h2.1 hk
        · rw [← e1, ← e2]
          cases r.1 with
          | ptr b o s n =>
            cases r'.1 with
            | int s' n' x => exact Rel.pure ⟨rfl, ⟨rfl, rfl⟩, h2.2⟩
            | ptr => exact Rel.ub_left
            | undef => exact Rel.ub_left
          | int => exact Rel.ub_left
          | undef => exact Rel.ub_left
        · cases hr : r.1 with
          | ptr b o s n => exact absurd hr (e1 b o s n)
          | int => exact Rel.ub_left
          | undef => exact Rel.ub_left
  | .deref a, l, hl, s, t, h => by
    simp only [labO] at hl
    cases ha : labE S Γ a with
    | none => simp [ha] at hl
    | some j =>
      simp only [ha] at hl
      cases hl
      simp only [lval]
      refine (eval_rel hX hΓ hC a j ha s t h).bind fun r q h1 => ?_
      obtain ⟨e1, -⟩ | ⟨e1, e2⟩ := idx_cases h1.1 (VRel.int (l := .pub) (s := true) (n := 4) (x := 0)) (by decide)
      · rw [← e1]
        cases r.1 with
        | ptr b o s n => exact Rel.pure ⟨rfl, ⟨rfl, rfl⟩, h1.2⟩
        | int => exact Rel.ub_left
        | undef => exact Rel.ub_left
      · cases hr : r.1 with
        | ptr b o s n => exact absurd hr (e1 b o s n)
        | int => exact Rel.ub_left
        | undef => exact Rel.ub_left
  | .num .., _, hl, _, _, _ => by simp [labO] at hl
  | .addr _, _, hl, _, _, _ => by simp [labO] at hl
  | .un .., _, hl, _, _, _ => by simp [labO] at hl
  | .bin .., _, hl, _, _, _ => by simp [labO] at hl
  | .land .., _, hl, _, _, _ => by simp [labO] at hl
  | .lor .., _, hl, _, _, _ => by simp [labO] at hl
  | .cond .., _, hl, _, _, _ => by simp [labO] at hl
  | .cast .., _, hl, _, _, _ => by simp [labO] at hl
  | .sizeof _, _, hl, _, _, _ => by simp [labO] at hl
  | .asg .., _, hl, _, _, _ => by simp [labO] at hl
  | .asgOp .., _, hl, _, _, _ => by simp [labO] at hl
  | .inc .., _, hl, _, _, _ => by simp [labO] at hl
  | .call .., _, hl, _, _, _ => by simp [labO] at hl
termination_by e => sizeOf e

theorem evalList_rel (hX : XRel X Y N) (hΓ : ∀ x ∈ N, Γ.get x = .any) (hC : Calm S X Y) : ∀ (es : List Expr) (ls : List Lab),
    labL S Γ es = some ls → ∀ s t, SRel Γ s t → Rel (evalList X es s) (evalList Y es t) fun r q => ARel ls r.1 q.1 ∧ SRel Γ r.2 q.2
  | [], ls, hl, s, t, h => by
    simp only [labL] at hl
    cases hl
    simp only [evalList]
    exact Rel.pure ⟨trivial, h⟩
  | e :: es, ls, hl, s, t, h => by
    simp only [labL] at hl
    cases he : labE S Γ e with
    | none => simp [he] at hl
    | some j =>
      cases hes : labL S Γ es with
      | none => simp [he, hes] at hl
      | some k =>
        simp only [he, hes] at hl
        cases hl
        simp only [evalList]
        refine (eval_rel hX hΓ hC e j he s t h).bind fun r q h1 => ?_
        refine (evalList_rel hX hΓ hC es k hes _ _ h1.2).bind fun r' q' h2 => ?_
        exact Rel.pure ⟨⟨h1.1, h2.1⟩, h2.2⟩
termination_by es => sizeOf es

end

end

end Frodo.Src
