import Verif.C.Sem
import Verif.C.Logic

/-! # Comparing a model with the meaning of a text -/

namespace Frodo

/-- Whenever `m` returns, `n` returns too, with related results and, if `tr`, the same trace. -/
def Refines (tr : Prop) (m : C α) (n : C β) (R : α → β → Prop) : Prop :=
  ∀ a t, m = .ok a t → ∃ b t', n = .ok b t' ∧ R a b ∧ (tr → t' = t)

namespace Refines

variable {tr : Prop}

theorem pure {a : α} {b : β} {R : α → β → Prop} (h : R a b) : Refines tr (Pure.pure a : C α) (Pure.pure b) R := by
  intro a' t e
  cases e
  exact ⟨b, [], rfl, h, fun _ => rfl⟩

theorem bind {m : C α} {n : C β} {f : α → C γ} {g : β → C δ} {R : α → β → Prop} {S : γ → δ → Prop}
    (h : Refines tr m n R) (k : ∀ a b, R a b → Refines tr (f a) (g b) S) : Refines tr (m >>= f) (n >>= g) S := by
  intro c t e
  cases m with
  | div => cases e
  | ub u => cases e
  | ok a ta =>
    obtain ⟨b, tb, hn, hR, ht⟩ := h a ta rfl
    subst hn
    simp only [C.bind_def, C.bind'] at e ⊢
    cases hf : f a with
    | div => rw [hf] at e; cases e
    | ub u => rw [hf] at e; cases e
    | ok c' tc =>
      obtain ⟨d, td, hg, hS, hu⟩ := k a b hR c' tc hf
      rw [hf] at e
      simp only [C.ok.injEq] at e
      rw [hg]
      refine ⟨d, tb ++ td, rfl, e.1 ▸ hS, fun h => ?_⟩
      rw [ht h, hu h, e.2]

theorem mono {m : C α} {n : C β} {R S : α → β → Prop} (h : Refines tr m n R) (hRS : ∀ a b, R a b → S a b) :
    Refines tr m n S := by
  intro a t e
  obtain ⟨b, t', h1, h2, h3⟩ := h a t e
  exact ⟨b, t', h1, hRS a b h2, h3⟩

theorem same {m : C α} {P : α → Prop} (h : ∀ a t, m = .ok a t → P a) : Refines tr m m fun a b => b = a ∧ P a :=
  fun a t e => ⟨a, t, e, ⟨rfl, h a t e⟩, fun _ => rfl⟩

theorem refl {m : C α} : Refines tr m m fun a b => b = a := fun a t e => ⟨a, t, e, rfl, fun _ => rfl⟩

/-- A step of the model alone that returns and leaves no trace. -/
theorem left {m : C α} {f : α → C γ} {n : C δ} {S : γ → δ → Prop} {P : α → Prop} (h : ∀ a t, m = .ok a t → t = [] ∧ P a)
    (k : ∀ a, P a → Refines tr (f a) n S) : Refines tr (m >>= f) n S := by
  intro c t e
  cases m with
  | div => cases e
  | ub u => cases e
  | ok a ta =>
    obtain ⟨rfl, hP⟩ := h a ta rfl
    refine k a hP c t ?_
    simp only [C.bind_def, C.bind'] at e
    cases hf : f a with
    | div => rw [hf] at e; cases e
    | ub u => rw [hf] at e; cases e
    | ok c' tc => rw [hf] at e; simpa using e

theorem emit {e : Event} : Refines tr (C.emit e) (C.emit e) fun _ _ => True :=
  fun _ t h => ⟨(), t, h, trivial, fun _ => rfl⟩

theorem rd {xs : List α} {f : α → β} {i : Nat} :
    Refines tr (Frodo.rd xs i) (Frodo.rd (xs.map f) i) fun x y => y = f x ∧ i < xs.length := by
  intro a t e
  unfold Frodo.rd at e ⊢
  rw [List.getElem?_map]
  cases h : xs[i]? with
  | none => rw [h] at e; cases e
  | some x =>
    rw [h] at e
    obtain ⟨hi, -⟩ := List.getElem?_eq_some_iff.1 h
    cases e
    exact ⟨f a, _, rfl, ⟨rfl, hi⟩, fun _ => rfl⟩

theorem wr {xs : List α} {f : α → β} {i : Nat} {v : α} {w : β} (hw : w = f v) :
    Refines tr (Frodo.wr xs i v) (Frodo.wr (xs.map f) i w) fun l l' => l' = l.map f ∧ l.length = xs.length ∧ i < xs.length := by
  subst hw
  intro a t e
  unfold Frodo.wr at e ⊢
  by_cases h : i < xs.length
  · rw [if_pos h] at e
    rw [if_pos (by simpa using h)]
    cases e
    exact ⟨_, _, rfl, ⟨by rw [List.map_set], by simp, h⟩, fun _ => rfl⟩
  · rw [if_neg h] at e
    cases e

open Src

/-- `for (i = lo; i < hi; i += step)`. -/
theorem forLoop {body : Nat → σ → C σ} {it : τ → C (Option Flow × τ)} (emb : Nat → σ → τ) (I : Nat → σ → Prop) {hi step : Nat}
    (hb : ∀ i s, i < hi → I i s → Refines tr (C.emit (.branch true) >>= fun _ => body i s) (it (emb i s))
      fun s' r => r = (none, emb (i + step) s') ∧ I (i + step) s')
    (he : ∀ i s, hi ≤ i → I i s → it (emb i s) = C.emit (.branch false) >>= fun _ => Pure.pure (some .next, emb i s)) :
    ∀ k i s, hi ≤ i + k * step → i + k * step < hi + step ∨ k = 0 → I i s →
      Refines tr (Frodo.forLoop step body k i s) (loop it (emb i s))
        fun s' r => r = (emb (i + k * step) s', .next) ∧ I (i + k * step) s' := by
  intro k
  induction k with
  | zero =>
    intro i s hk _ hI
    rw [Nat.zero_mul, Nat.add_zero] at hk ⊢
    rw [loop, he i s hk hI]
    simp only [bind_assoc, pure_bind, Frodo.forLoop]
    exact emit.bind fun _ _ _ => .pure ⟨rfl, hI⟩
  | succ k ih =>
    intro i s hk hk' hI
    rw [loop, Frodo.forLoop]
    have e' : i + (k + 1) * step = i + step + k * step := by rw [Nat.succ_mul]; omega
    rw [e'] at hk hk' ⊢
    have := hb i s (by omega) hI
    have e : (do C.emit (Event.branch true); let s ← body i s; Frodo.forLoop step body k (i + step) s) =
        (C.emit (Event.branch true) >>= fun _ => body i s) >>= fun s => Frodo.forLoop step body k (i + step) s := by
      simp only [bind_assoc]
    rw [e]
    refine this.bind ?_
    rintro s' r ⟨rfl, hI'⟩
    exact ih (i + step) s' hk (by omega) hI'

/-- `for (i = lo; i < hi; i++)`. -/
theorem forC {body : Nat → σ → C σ} {it : τ → C (Option Flow × τ)} {lo hi : Nat} {s : σ} {st : τ} (emb : Nat → σ → τ)
    (I : Nat → σ → Prop) (hlo : lo ≤ hi) (hst : st = emb lo s) (hI : I lo s)
    (hb : ∀ i s, i < hi → I i s → Refines tr (C.emit (.branch true) >>= fun _ => body i s) (it (emb i s))
      fun s' r => r = (none, emb (i + 1) s') ∧ I (i + 1) s')
    (he : ∀ s, I hi s → it (emb hi s) = C.emit (.branch false) >>= fun _ => Pure.pure (some .next, emb hi s)) :
    Refines tr (Frodo.forC lo hi 1 s body) (loop it st) fun s' r => r = (emb hi s', .next) ∧ I hi s' := by
  subst hst
  have := forLoop (tr := tr) (it := it) (body := body) emb (fun i s => i ≤ hi ∧ I i s) (hi := hi) (step := 1)
    (fun i s h hI => (hb i s h hI.2).mono fun s' r h => ⟨h.1, by omega, h.2⟩)
    (fun i s h hI => by obtain rfl : i = hi := Nat.le_antisymm hI.1 h
                        exact he s hI.2) (hi - lo) lo s (by omega) (by omega) ⟨hlo, hI⟩
  unfold Frodo.forC
  have e : (hi - lo + (1 - 1)) / 1 = hi - lo := by omega
  have e' : lo + (hi - lo) * 1 = hi := by omega
  rw [e]
  rw [e'] at this
  exact this.mono fun s' r h => ⟨h.1, h.2.2⟩

/-- `while (cond)`; the text may leave the loop by `break` where the model makes the condition false (`brk`). -/
theorem whileC {cond : σ → Bool} {body : σ → C σ} {it : τ → C (Option Flow × τ)} {s : σ} {st : τ} (emb : σ → τ) (brk : σ → Bool)
    (I J : σ → Prop) (hst : st = emb s) (hI : I s)
    (hb : ∀ s, I s → cond s = true →
      Refines tr (C.emit (.branch true) >>= fun _ => body s >>= fun s' =>
        if brk s' then C.emit (.branch false) >>= fun _ => Pure.pure s' else Pure.pure s') (it (emb s))
      fun s' r => if brk s' then r = (some .next, emb s') ∧ J s' ∧ cond s' = false else r = (none, emb s') ∧ I s')
    (he : ∀ s, I s → cond s = false →
      it (emb s) = (C.emit (.branch false) >>= fun _ => Pure.pure (some .next, emb s)) ∧ J s) :
    Refines tr (Frodo.whileC cond body s) (loop it st) fun s' r => r = (emb s', .next) ∧ J s' := by
  subst hst
  have key : ∀ s a t, Frodo.whileC cond body s = .ok a t → I s →
      ∃ b t', loop it (emb s) = .ok b t' ∧ (b = (emb a, .next) ∧ J a) ∧ (tr → t' = t) := by
    have key' : (∀ s a t, Frodo.whileC cond body s = .ok a t →
        (I s → ∃ b t', loop it (emb s) = .ok b t' ∧ (b = (emb a, .next) ∧ J a) ∧ (tr → t' = t)) ∧
        (cond s = false → a = s ∧ t = [.branch false])) := by
      refine whileC.fixpoint_induct cond body (fun w => ∀ s a t, w s = .ok a t →
        (I s → ∃ b t', loop it (emb s) = .ok b t' ∧ (b = (emb a, .next) ∧ J a) ∧ (tr → t' = t)) ∧
        (cond s = false → a = s ∧ t = [.branch false])) ?_ ?_
      · refine Lean.Order.admissible_pi_apply (fun s (x : C σ) => ∀ a t, x = .ok a t →
          (I s → ∃ b t', loop it (emb s) = .ok b t' ∧ (b = (emb a, .next) ∧ J a) ∧ (tr → t' = t)) ∧
          (cond s = false → a = s ∧ t = [.branch false])) ?_
        intro s
        apply Lean.Order.admissible_flatOrder
        intro a t h
        cases h
      · intro w ih s a t hw
        simp only [] at hw
        cases hc : cond s with
        | false =>
          rw [hc] at hw
          simp only [Bool.false_eq_true, if_false] at hw
          have e : a = s ∧ t = [.branch false] := by
            simp only [C.emit, C.bind_def, C.bind', C.pure_def, C.ok.injEq, List.append_nil] at hw
            exact ⟨hw.1.symm, hw.2.symm⟩
          obtain ⟨rfl, rfl⟩ := e
          refine ⟨fun hI => ?_, fun _ => ⟨rfl, rfl⟩⟩
          obtain ⟨h1, h2⟩ := he a hI hc
          refine ⟨(emb a, .next), [.branch false], ?_, ⟨rfl, h2⟩, fun _ => rfl⟩
          rw [loop, h1]
          rfl
        | true =>
          refine ⟨fun hI => ?_, fun h => (nomatch h)⟩
          rw [hc] at hw
          simp only [if_true] at hw
          obtain ⟨_, t1, t2, h1, hw', rfl⟩ := Frodo.bind_ok hw
          obtain ⟨s', t3, t4, h3, h4, rfl⟩ := Frodo.bind_ok hw'
          cases h1
          have hb := hb s hI hc
          cases hbr : brk s' with
          | false =>
            obtain ⟨r, t', hr, hR, ht⟩ := hb s' ([.branch true] ++ t3) (by
              rw [h3]
              simp [C.emit, C.bind_def, C.bind', C.pure_def, hbr])
            rw [hbr] at hR
            simp only [Bool.false_eq_true, if_false] at hR
            obtain ⟨rfl, hI'⟩ := hR
            obtain ⟨b, t'', hb', hR', ht'⟩ := (ih s' a t4 h4).1 hI'
            refine ⟨b, t' ++ t'', ?_, hR', fun h => ?_⟩
            · rw [loop, hr]
              simp [C.bind_def, C.bind', hb']
            · rw [ht h, ht' h]
              simp
          | true =>
            obtain ⟨r, t', hr, hR, ht⟩ := hb s' ([.branch true] ++ t3 ++ [.branch false]) (by
              rw [h3]
              simp [C.emit, C.bind_def, C.bind', C.pure_def, hbr])
            rw [hbr] at hR
            simp only [if_true] at hR
            obtain ⟨rfl, hJ, hc'⟩ := hR
            obtain ⟨rfl, rfl⟩ := (ih s' a t4 h4).2 hc'
            refine ⟨(emb a, .next), t', ?_, ⟨rfl, hJ⟩, fun h => ?_⟩
            · rw [loop, hr]
              simp [C.bind_def, C.bind', C.pure_def]
            · rw [ht h]
              simp
    exact fun s a t h => (key' s a t h).1
  intro a t h
  exact key s a t h hI

/-- A condition that both sides leave. -/
theorem branch {c c' : Bool} {x y : C α} {x' y' : C β} {R : α → β → Prop} (h : c' = c) (ht : c = true → Refines tr x x' R)
    (he : c = false → Refines tr y y' R) : Refines tr (ifC c x y) (C.emit (.branch c') >>= fun _ => if c' then x' else y') R := by
  subst h
  refine emit.bind fun _ _ _ => ?_
  cases c' with
  | true => simpa using ht rfl
  | false => simpa using he rfl

/-- A step that is the same in both. -/
theorem step {m : C α} {f : α → C γ} {g : α → C δ} {S : γ → δ → Prop} (k : ∀ a, Refines tr (f a) (g a) S) :
    Refines tr (m >>= f) (m >>= g) S := refl.bind fun a _ h => h ▸ k a

/-- A step that is the same in both, with what its result satisfies. -/
theorem step' {m : C α} {f : α → C γ} {g : α → C δ} {S : γ → δ → Prop} {P : α → Prop} (h : ∀ a t, m = .ok a t → P a)
    (k : ∀ a, P a → Refines tr (f a) (g a) S) : Refines tr (m >>= f) (m >>= g) S :=
  (same h).bind fun a _ h => h.1 ▸ k a h.2

end Refines
end Frodo
