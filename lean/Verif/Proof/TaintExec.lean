import Verif.C.Link
import Verif.Proof.TaintEval

/-! # A text that passes the check has the same trace for all secrets: statements, calls, programs -/

namespace Frodo.Src

open C

section

variable {X Y : Ctx} {N : List String} {S : Sig} {Γ : Labels}

/-- Two ways on from a statement that look the same (proof device, not a part of /repo). -/
def FRel (ρ : Lab) : Flow → Flow → Prop
  | .next, .next => True
  | .brk, .brk => True
  | .ret v, .ret w => VRel ρ v w
  | _, _ => False

/-- Two repetitions whose rounds look the same (proof device). -/
theorem loop_rel {σ τ : Type} {it : σ → C (Option Flow × σ)} {it' : τ → C (Option Flow × τ)} {I : σ → τ → Prop} {F : Flow → Flow → Prop}
    (h : ∀ s t, I s t → Rel (it s) (it' t) fun r q => I r.2 q.2 ∧
      ((r.1 = none ∧ q.1 = none) ∨ ∃ f g, r.1 = some f ∧ q.1 = some g ∧ F f g)) :
    ∀ s t, I s t → Rel (loop it s) (loop it' t) fun r q => I r.1 q.1 ∧ F r.2 q.2 := by
  have key : ∀ s a u, loop it s = .ok a u →
      ∀ t b v, I s t → loop it' t = .ok b v → u = v ∧ I a.1 b.1 ∧ F a.2 b.2 := by
    refine loop.fixpoint_induct it
      (fun w => ∀ s a u, w s = .ok a u →
        ∀ t b v, I s t → loop it' t = .ok b v → u = v ∧ I a.1 b.1 ∧ F a.2 b.2) ?_ ?_
    · refine Lean.Order.admissible_pi_apply (fun s (x : C (σ × Flow)) => ∀ a u, x = .ok a u →
        ∀ t b v, I s t → loop it' t = .ok b v → u = v ∧ I a.1 b.1 ∧ F a.2 b.2) ?_
      intro s
      apply Lean.Order.admissible_flatOrder
      intro a u h; cases h
    · intro w ih s a u hw t b v hI ht
      rw [loop] at ht
      obtain ⟨r, u1, u2, hu1, hu2, rfl⟩ := bind_ok hw
      obtain ⟨q, v1, v2, hv1, hv2, rfl⟩ := bind_ok ht
      obtain ⟨rfl, hI', ⟨e1, e2⟩ | ⟨f, g, e1, e2, hF⟩⟩ := h s t hI _ _ _ _ hu1 hv1
      · simp only [e1] at hu2
        simp only [e2] at hv2
        obtain ⟨rfl, hI''⟩ := ih _ _ _ hu2 _ _ _ hI' hv2
        exact ⟨rfl, hI''⟩
      · simp only [e1, pure_def] at hu2
        simp only [e2, pure_def] at hv2
        injection hu2 with h1 h2
        injection hv2 with h3 h4
        subst h1 h2 h3 h4
        exact ⟨rfl, hI', hF⟩
  intro s t hI a u b v h1 h2
  exact key s a u h1 t b v hI h2

/-- What a statement leaves behind looks the same (proof device, not a part of /repo). -/
def ERel (Γ : Labels) (ρ : Lab) (r q : St × Flow) : Prop := SRel Γ r.1 q.1 ∧ FRel ρ r.2 q.2

theorem round_rel (hX : XRel X Y N) (hΓ : ∀ x ∈ N, Γ.get x = .any) (hC : Calm S X Y) {ρ : Lab} {c : Expr} (hc : open? (labE S Γ c) = true)
    {st st' : St → C St} (hst : ∀ s t, SRel Γ s t → Rel (st s) (st' t) (SRel Γ)) {b b' : St → C (St × Flow)}
    (hb : ∀ s t, SRel Γ s t → Rel (b s) (b' t) (ERel Γ ρ)) :
    ∀ s t, SRel Γ s t → Rel (loop (round X c st b) s) (loop (round Y c st' b') t) (ERel Γ ρ) := by
  refine loop_rel (I := SRel Γ) (F := FRel ρ) fun s t h => ?_
  obtain ⟨l, hl, hn⟩ := open_some hc
  unfold round
  refine (eval_rel hX hΓ hC c l hl s t h).bind fun r q h1 => ?_
  refine (isTrue_rel h1.1).bind fun x y hxy => ?_
  rw [← hxy hn]
  refine (Rel.emit _).bind fun _ _ _ => ?_
  cases x
  · exact Rel.pure ⟨h1.2, .inr ⟨_, _, rfl, rfl, trivial⟩⟩
  · refine (hb _ _ h1.2).bind fun r' q' h2 => ?_
    obtain ⟨h3, h4⟩ := h2
    obtain ⟨r1, r2⟩ := r'
    obtain ⟨q1, q2⟩ := q'
    cases r2 with
    | next =>
      cases q2 with
      | next => exact (hst _ _ h3).bind fun _ _ h5 => Rel.pure ⟨h5, .inl ⟨rfl, rfl⟩⟩
      | brk => exact h4.elim
      | ret => exact h4.elim
    | brk =>
      cases q2 with
      | brk => exact (Rel.emit _).bind fun _ _ _ => Rel.pure ⟨h3, .inr ⟨_, _, rfl, rfl, trivial⟩⟩
      | next => exact h4.elim
      | ret => exact h4.elim
    | ret v =>
      cases q2 with
      | ret w => exact Rel.pure ⟨h3, .inr ⟨_, _, rfl, rfl, h4⟩⟩
      | next => exact h4.elim
      | brk => exact h4.elim

theorem newArr_length (x : String) (s : Bool) (n k : Nat) (i : Option (List Expr)) : (newArr X x s n k i).length = (newArr Y x s n k i).length := by
  cases i <;> simp [newArr]

theorem VRel.undef {l : Lab} {t : Ty} : VRel l (.undef t) (.undef t) := by
  cases l
  · exact rfl
  · exact ⟨rfl, nofun⟩
  · exact (rfl : t = t)

theorem exec_rel (hX : XRel X Y N) (hΓ : ∀ x ∈ N, Γ.get x = .any) (hC : Calm S X Y) {ρ : Lab} : ∀ (p : Stmt), okS S Γ ρ p = true →
    ∀ s t, SRel Γ s t → Rel (exec X p s) (exec Y p t) (ERel Γ ρ) := by
  intro p
  induction p with
  | skip => intro _ s t h; exact Rel.pure ⟨h, trivial⟩
  | expr e =>
    intro hp s t h
    simp only [okS, Option.isSome_iff_exists] at hp
    obtain ⟨l, hl⟩ := hp
    exact (eval_rel hX hΓ hC e l hl s t h).bind fun _ _ h1 => Rel.pure ⟨h1.2, trivial⟩
  | decl ty x e =>
    intro hp s t h
    cases e with
    | none => exact Rel.pure ⟨⟨⟨rfl, VRel.undef, h.1⟩, h.2⟩, trivial⟩
    | some e =>
      simp only [okS] at hp
      cases hl : labE S Γ e with
      | none => simp [hl] at hp
      | some l =>
        simp only [hl] at hp
        refine (eval_rel hX hΓ hC e l hl s t h).bind fun r q h1 => ?_
        refine (convert_rel h1.1).bind fun v w hv => ?_
        exact Rel.pure ⟨⟨⟨rfl, hv.le hp, h1.2.1⟩, h1.2.2⟩, trivial⟩
  | declArr sg n x len init =>
    intro hp s t h
    simp only [okS, Bool.and_eq_true, decide_eq_true_eq] at hp
    obtain ⟨l, hl, hn⟩ := open_some hp.1
    refine (eval_rel hX hΓ hC len l hl s t h).bind fun r q h1 => ?_
    rw [← h1.1.eq hn]
    cases hr : r.1 with
    | int s' n' k =>
      refine Rel.pure ⟨⟨⟨rfl, ?_, h1.2.1⟩, ?_, ?_⟩, trivial⟩
      · rw [hp.2]
        show Val.ptr _ _ _ _ = Val.ptr _ _ _ _
        rw [h1.2.2.2]
      · dsimp only
        rw [h1.2.2.2]
        exact h1.2.2.1.set rfl rfl (newArr_length ..)
      · dsimp only
        rw [h1.2.2.2]
    | ptr => exact Rel.ub_left
    | undef => exact Rel.ub_left
  | seq a b iha ihb =>
    intro hp s t h
    simp only [okS, Bool.and_eq_true] at hp
    refine (iha hp.1 s t h).bind fun r q h1 => ?_
    obtain ⟨h3, h4⟩ := h1
    obtain ⟨r1, r2⟩ := r
    obtain ⟨q1, q2⟩ := q
    cases r2 <;> cases q2 <;> first | exact h4.elim | exact ihb hp.2 _ _ h3 | exact Rel.pure ⟨h3, h4⟩
  | block p ih =>
    intro hp s t h
    simp only [okS] at hp
    exact (ih hp s t h).bind fun r q h1 => Rel.pure ⟨leave_rel h1.1 h.1.length, h1.2⟩
  | ite c a b iha ihb =>
    intro hp s t h
    simp only [okS, Bool.and_eq_true] at hp
    obtain ⟨l, hl, hn⟩ := open_some hp.1.1
    refine (eval_rel hX hΓ hC c l hl s t h).bind fun r q h1 => ?_
    refine (isTrue_rel h1.1).bind fun x y hxy => ?_
    rw [← hxy hn]
    refine (Rel.emit _).bind fun _ _ _ => ?_
    cases x
    · exact ihb hp.2 _ _ h1.2
    · exact iha hp.1.2 _ _ h1.2
  | «while» c b ih =>
    intro hp s t h
    simp only [okS, Bool.and_eq_true] at hp
    exact round_rel hX hΓ hC hp.1 (fun _ _ h => Rel.pure h) (ih hp.2) s t h
  | «for» i c st b ihi ihb =>
    intro hp s t h
    simp only [okS, Bool.and_eq_true, Option.isSome_iff_exists] at hp
    obtain ⟨⟨⟨hi, hc⟩, l, hl⟩, hb⟩ := hp
    refine (ihi hi s t h).bind fun r q h1 => ?_
    refine (round_rel hX hΓ hC hc (fun s t h => ?_) (ihb hb) _ _ h1.1).bind fun r' q' h2 => ?_
    · exact (eval_rel hX hΓ hC st l hl s t h).bind fun _ _ h1 => Rel.pure h1.2
    · exact Rel.pure ⟨leave_rel h2.1 h.1.length, h2.2⟩
  | brk => intro _ s t h; exact Rel.pure ⟨h, trivial⟩
  | ret e =>
    intro hp s t h
    cases e with
    | none => exact Rel.pure ⟨h, VRel.undef⟩
    | some e =>
      simp only [okS] at hp
      cases hl : labE S Γ e with
      | none => simp [hl] at hp
      | some l =>
        simp only [hl] at hp
        exact (eval_rel hX hΓ hC e l hl s t h).bind fun r q h1 => Rel.pure ⟨h1.2, h1.1.le hp⟩

theorem bindParams_rel : ∀ {ps : List (Ty × String)} {ls : List Lab} {as bs : List Val}, okP Γ ps ls = true → ARel ls as bs →
    Rel (bindParams ps as) (bindParams ps bs) (LRel Γ)
  | [], [], [], [], _, _ => Rel.pure trivial
  | (t, x) :: ps, l :: ls, a :: as, b :: bs, hp, h => by
    simp only [okP, Bool.and_eq_true] at hp
    refine (convert_rel h.1).bind fun v w hv => ?_
    exact (bindParams_rel hp.2 h.2).bind fun _ _ h1 => Rel.pure ⟨rfl, hv.le hp.1, h1⟩
  | [], _ :: _, _, _, hp, _ => nomatch hp
  | _ :: _, [], _, _, hp, _ => nomatch hp
  | _, [], _ :: _, _, _, h => h.elim
  | _, [], [], _ :: _, _, h => h.elim
  | _, _ :: _, [], _, _, h => h.elim
  | _, _ :: _, _ :: _, [], _, h => h.elim

theorem callFun_rel (hX : XRel X Y N) (hΓ : ∀ x ∈ N, Γ.get x = .any) (hC : Calm S X Y) {ρ : Lab} {g : Fun} {ps : List Lab}
    (hg : okF S Γ g ps ρ = true) {as bs : List Val} {m m' : Mem} {nx : Nat} (ha : ARel ps as bs) (hm : MRel m m') :
    Rel (callFun X g as m nx) (callFun Y g bs m' nx) (RRel ρ) := by
  simp only [okF, Bool.and_eq_true] at hg
  unfold callFun
  refine (bindParams_rel hg.1 ha).bind fun l l' hl => ?_
  refine (exec_rel hX hΓ hC g.body hg.2 ⟨l, m, nx⟩ ⟨l', m', nx⟩ ⟨hl, hm, rfl⟩).bind fun r q h1 => ?_
  obtain ⟨⟨h0, h3, h5⟩, h4⟩ := h1
  obtain ⟨r1, r2⟩ := r
  obtain ⟨q1, q2⟩ := q
  cases r2 with
  | ret v =>
    cases q2 with
    | ret w =>
      dsimp only
      have h6 : Rel (convert g.ret v) (convert g.ret w) (VRel ρ) := (convert_rel h4).mono fun _ _ h => h.le castLab_le
      cases hr : g.ret with
      | void => exact Rel.pure ⟨VRel.undef, h3, h5⟩
      | int => rw [hr] at h6; exact h6.bind fun _ _ h => Rel.pure ⟨h, h3, h5⟩
      | ptr => rw [hr] at h6; exact h6.bind fun _ _ h => Rel.pure ⟨h, h3, h5⟩
    | next => exact h4.elim
    | brk => exact h4.elim
  | next =>
    cases q2 with
    | next => exact Rel.pure ⟨VRel.undef, h3, h5⟩
    | ret => exact h4.elim
    | brk => exact h4.elim
  | brk =>
    cases q2 with
    | brk => exact Rel.pure ⟨VRel.undef, h3, h5⟩
    | ret => exact h4.elim
    | next => exact h4.elim

theorem XRel.link (hX : XRel X Y N) (Fs : List File) (d : Nat) : XRel (link Fs X d) (link Fs Y d) N := by
  obtain ⟨h1, h2, h3, h4⟩ := hX
  cases d <;> exact ⟨h1, h2, h3, h4⟩

/-- Three arguments (proof device). -/
theorem ARel.three {j k l : Lab} {as bs : List Val} (h : ARel [j, k, l] as bs) : ∃ x y z x' y' z', as = [x, y, z] ∧ bs = [x', y', z'] ∧
    VRel j x x' ∧ VRel k y y' ∧ VRel l z z' := by
  rcases as with _ | ⟨x, _ | ⟨y, _ | ⟨z, _ | ⟨w, as⟩⟩⟩⟩ <;> rcases bs with _ | ⟨x', _ | ⟨y', _ | ⟨z', _ | ⟨w', bs⟩⟩⟩⟩ <;>
    first
    | exact h.elim
    | exact h.2.elim
    | exact h.2.2.elim
    | exact h.2.2.2.elim
    | exact ⟨x, y, z, x', y', z', rfl, rfl, h.1, h.2.1, h.2.2.1⟩

theorem string_rel {E : Sig} {a : Arch} {T : List Claim} {call call' : String → List Val → Mem → Nat → C (Val × Mem × Nat)}
    (h : ∀ f ps l, f ≠ "memset" → f ≠ "memcpy" → sigOf T E f = some (ps, l) → ∀ as bs m m' nx, ARel ps as bs → MRel m m' →
      Rel (call f as m nx) (call' f bs m' nx) (RRel l)) :
    ∀ f ps l, sigOf T E f = some (ps, l) → ∀ as bs m m' nx, ARel ps as bs → MRel m m' →
      Rel (withString a call f as m nx) (withString a call' f bs m' nx) (RRel l) := by
  intro f ps l hf as bs m m' nx ha hm
  unfold withString
  by_cases h1 : f = "memset"
  · subst h1
    simp only [sigOf, if_true, Option.some.injEq, Prod.mk.injEq] at hf
    obtain ⟨rfl, rfl⟩ := hf
    simp only [if_true]
    obtain ⟨x, y, z, x', y', z', rfl, rfl, ex, ey, ez⟩ := ha.three
    · cases (ex : x = x')
      cases (ez : z = z')
      cases x with
      | ptr b o s n =>
        obtain ⟨_, _, _, _, rfl, rfl⟩ | ⟨_, rfl, rfl⟩ := sec_int ey
        · cases z with
          | int => exact (memset_rel hm).bind fun _ _ h => Rel.pure ⟨VRel.undef, h, rfl⟩
          | ptr => exact Rel.ub_left
          | undef => exact Rel.ub_left
        · exact Rel.ub_left
      | int => exact Rel.ub_left
      | undef => exact Rel.ub_left
  by_cases h2 : f = "memcpy"
  · subst h2
    simp only [sigOf, if_true, if_neg h1, Option.some.injEq, Prod.mk.injEq] at hf
    obtain ⟨rfl, rfl⟩ := hf
    simp only [if_true, if_neg h1]
    obtain ⟨x, y, z, x', y', z', rfl, rfl, ex, ey, ez⟩ := ha.three
    · cases (ex : x = x')
      cases (ey : y = y')
      cases (ez : z = z')
      cases x with
      | ptr b o s n =>
        cases y with
        | ptr b' o' s' n' =>
          cases z with
          | int => exact (memcpy_rel hm).bind fun _ _ h => Rel.pure ⟨VRel.undef, h, rfl⟩
          | ptr => exact Rel.ub_left
          | undef => exact Rel.ub_left
        | int => exact Rel.ub_left
        | undef => exact Rel.ub_left
      | int => exact Rel.ub_left
      | undef => exact Rel.ub_left
  · simp only [if_neg h1, if_neg h2]
    exact h f ps l h1 h2 hf as bs m m' nx ha hm

/-- Functions that pass, called from one another, look the same from outside. -/
theorem link_calm {Fs : List File} {T : List Claim} {E : Sig} (hX : XRel X Y N) (hT : okT Fs N T E = true) (hE : Calm E X Y)
    (hN : ∀ f, E f ≠ none → Fs.findSome? (·.fn f) = none) : ∀ d, Calm (sigOf T E) (link Fs X d) (link Fs Y d) := by
  have hout : ∀ f ps l, f ≠ "memset" → f ≠ "memcpy" → sigOf T E f = some (ps, l) → (∃ g Γ, Fs.findSome? (·.fn f) = some g ∧
      (∀ x ∈ N, Labels.get x Γ = .any) ∧ okF (sigOf T E) Γ g ps l = true) ∨ Fs.findSome? (·.fn f) = none ∧ E f = some (ps, l) := by
    intro f ps l h1 h2 hf
    simp only [sigOf, if_neg h1, if_neg h2] at hf
    cases hc : T.find? (·.name = f) with
    | none =>
      rw [hc] at hf
      exact .inr ⟨hN f (by rw [show E f = some (ps, l) from hf]; nofun), hf⟩
    | some c =>
      rw [hc] at hf
      cases hf
      have e : c.name = f := by simpa using List.find?_some hc
      have h := List.all_eq_true.1 hT c (List.mem_of_find?_eq_some hc)
      simp only [Bool.and_eq_true, List.all_eq_true, decide_eq_true_eq] at h
      rw [e] at h
      cases hg : Fs.findSome? (·.fn f) with
      | none => rw [hg] at h; exact absurd h.2 Bool.false_ne_true
      | some g => rw [hg] at h; exact .inl ⟨g, c.vars, rfl, h.1, h.2⟩
  intro d
  induction d with
  | zero =>
    simp only [Calm, link]
    rw [hX.arch]
    refine string_rel fun f ps l h1 h2 hf as bs m m' nx ha hm => ?_
    obtain ⟨g, Γ, e, h3, h4⟩ | ⟨e, h3⟩ := hout f ps l h1 h2 hf
    · rw [e]
      intro _ _ _ _ h
      cases h
    · rw [e]
      exact hE f ps l h3 as bs m m' nx ha hm
  | succ d ih =>
    simp only [Calm, link]
    rw [hX.arch]
    refine string_rel fun f ps l h1 h2 hf as bs m m' nx ha hm => ?_
    obtain ⟨g, Γ, e, h3, h4⟩ | ⟨e, h3⟩ := hout f ps l h1 h2 hf
    · rw [e]
      exact callFun_rel (hX.link Fs d) h3 ih h4 ha hm
    · rw [e]
      exact hE f ps l h3 as bs m m' nx ha hm

end

end Frodo.Src
