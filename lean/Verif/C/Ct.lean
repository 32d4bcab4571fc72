import Verif.C.Logic

/-! # Small automation for relational (constant-time) proofs -/

namespace Frodo

variable {α β : Type}

/-- Both traces are equal, nothing is said on the results. -/
def SameTrace (m₁ : C α) (m₂ : C β) : Prop := Rel m₁ m₂ fun _ _ => True

theorem Rel.same {m₁ : C α} {m₂ : C β} {R : α → β → Prop} (h : Rel m₁ m₂ R) :
    SameTrace m₁ m₂ := h.mono fun _ _ _ => trivial

/-- From `SameTrace` and termination without undefined behaviour: the observable traces coincide. -/
theorem SameTrace.trace_eq {m₁ : C α} {m₂ : C β} (h : SameTrace m₁ m₂) {P : α → Prop}
    {Q : β → Prop} (h1 : Ret m₁ P) (h2 : Ret m₂ Q) :
    ∃ t, traceOf m₁ = some t ∧ traceOf m₂ = some t := by
  obtain ⟨a, t, e1, _⟩ := h1
  obtain ⟨b, u, e2, _⟩ := h2
  obtain ⟨rfl, _⟩ := h _ _ _ _ e1 e2
  exact ⟨t, by rw [e1]; rfl, by rw [e2]; rfl⟩

/-- One symbolic execution step on both sides. -/
macro "ct_step" : tactic => `(tactic| first
  | refine Rel.bind (Rel.rd rfl) (fun _ _ _ => ?_)
  | refine Rel.bind (Rel.wr rfl) (fun _ _ _ => ?_)
  | refine Rel.bind (Rel.memset rfl) (fun _ _ _ => ?_)
  | refine Rel.bind (Rel.memcpy rfl rfl rfl) (fun _ _ _ => ?_)
  | refine Rel.bind (Rel.ptr rfl) (fun _ _ _ => ?_)
  | refine Rel.bind Rel.int (fun _ _ _ => ?_)
  | refine Rel.bind Rel.ishl (fun _ _ _ => ?_)
  | refine Rel.bind Rel.ishr (fun _ _ _ => ?_)
  | refine Rel.bind Rel.require (fun _ _ _ => ?_)
  | exact Rel.pure trivial
  | exact (Rel.rd rfl).same
  | exact (Rel.wr rfl).same)

/-- Execute all straight-line steps. -/
macro "ct_steps" : tactic => `(tactic| repeat ct_step)

end Frodo
