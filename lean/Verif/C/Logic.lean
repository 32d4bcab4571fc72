import Verif.C.Monad
import Verif.C.Nth
import Verif.C.Attr

/-! # Program logic for the C monad -/

namespace Frodo

open C

set_option linter.unusedSimpArgs false

variable {α β σ τ : Type}

/-- Total correctness: `m` terminates without undefined behaviour, with a result satisfying `P`. -/
def Ret (m : C α) (P : α → Prop) : Prop := ∃ a t, m = .ok a t ∧ P a

/-- The leakage trace of a computation that returns normally. -/
def traceOf : C α → Option (List Event)
  | .ok _ t => some t
  | _ => none

/-- Relational judgement for constant-time claims: if both computations return normally then their
leakage traces are equal and the results are related. -/
def Rel (m₁ : C α) (m₂ : C β) (R : α → β → Prop) : Prop :=
  ∀ a₁ t₁ a₂ t₂, m₁ = .ok a₁ t₁ → m₂ = .ok a₂ t₂ → t₁ = t₂ ∧ R a₁ a₂

/-! ## `Ret` -/

theorem Ret.mono {m : C α} {P Q : α → Prop} (h : Ret m P) (hPQ : ∀ a, P a → Q a) : Ret m Q := by
  obtain ⟨a, t, h1, h2⟩ := h
  exact ⟨a, t, h1, hPQ a h2⟩

theorem Ret.and {m : C α} {P Q : α → Prop} (h : Ret m P) (h' : Ret m Q) :
    Ret m (fun a => P a ∧ Q a) := by
  obtain ⟨a, t, h1, h2⟩ := h
  obtain ⟨a', t', h1', h2'⟩ := h'
  rw [h1] at h1'
  injection h1' with e1 e2
  subst e1
  exact ⟨a, t, h1, h2, h2'⟩

theorem Ret.unique {m : C α} {v w : α} (h : Ret m (· = v)) (h' : Ret m (· = w)) : v = w := by
  obtain ⟨a, t, h1, h2⟩ := h
  obtain ⟨a', t', h1', h2'⟩ := h'
  rw [h1] at h1'
  injection h1' with e1 e2
  subst e1 h2 h2'
  rfl

theorem Ret.of_eq {m : C α} {P : α → Prop} {v : α} (h : Ret m (· = v)) (hv : P v) : Ret m P :=
  h.mono (by intro a ha; subst ha; exact hv)

theorem Ret.bind {m : C α} {f : α → C β} {Q : α → Prop} {P : β → Prop}
    (h : Ret m Q) (h2 : ∀ a, Q a → Ret (f a) P) : Ret (m >>= f) P := by
  obtain ⟨a, t, h1, hq⟩ := h
  obtain ⟨b, t', h3, hp⟩ := h2 a hq
  exact ⟨b, t ++ t', by simp only [bind_def, bind', h1, h3], hp⟩

theorem Ret.bind_eq {m : C α} {f : α → C β} {v : α} {P : β → Prop}
    (h : Ret m (· = v)) (h2 : Ret (f v) P) : Ret (m >>= f) P :=
  h.bind (by intro a ha; subst ha; exact h2)

@[wp] theorem Ret_pure {a : α} {P : α → Prop} : Ret (pure a) P ↔ P a := by
  constructor
  · rintro ⟨b, t, h, hp⟩
    rw [pure_def] at h
    injection h with h1 h2
    subst h1; exact hp
  · intro h; exact ⟨a, [], rfl, h⟩

@[wp] theorem Ret_ub {u : UB} {P : α → Prop} : Ret (C.ub u) P ↔ False := by
  constructor
  · rintro ⟨b, t, h, hp⟩; cases h
  · exact False.elim

theorem Ret_bind_iff {m : C α} {f : α → C β} {P : β → Prop} :
    Ret (m >>= f) P ↔ Ret m (fun a => Ret (f a) P) := by
  constructor
  · rintro ⟨b, t, h, hp⟩
    rw [bind_def] at h
    cases m with
    | div => cases h
    | ub u => cases h
    | ok a t1 =>
      refine ⟨a, t1, rfl, ?_⟩
      simp only [bind'] at h
      cases hf : f a with
      | div => rw [hf] at h; cases h
      | ub u => rw [hf] at h; cases h
      | ok b' t2 =>
        rw [hf] at h
        injection h with h1 h2
        subst h1
        exact ⟨b', t2, hf, hp⟩
  · intro h
    exact h.bind (fun a ha => ha)

@[wp] theorem Ret_pure_bind {a : α} {f : α → C β} {P : β → Prop} :
    Ret (pure a >>= f) P ↔ Ret (f a) P := by rw [pure_bind]

@[wp] theorem Ret_ub_bind {u : UB} {f : α → C β} {P : β → Prop} :
    Ret (C.ub u >>= f) P ↔ False := by rw [Ret_bind_iff, Ret_ub]

@[wp] theorem Ret_assoc {m : C α} {f : α → C β} {g : β → C γ} {P : γ → Prop} :
    Ret ((m >>= f) >>= g) P ↔ Ret (m >>= fun a => f a >>= g) P := by rw [bind_assoc]

@[wp] theorem Ret_emit_bind {e : Event} {f : Unit → C β} {P : β → Prop} :
    Ret (emit e >>= f) P ↔ Ret (f ()) P := by
  rw [Ret_bind_iff]
  constructor
  · rintro ⟨a, t, h, hp⟩; exact hp
  · intro h; exact ⟨(), [e], rfl, h⟩

@[wp] theorem Ret_require_bind {p : Prop} [Decidable p] {u : UB} {f : Unit → C β}
    {P : β → Prop} : Ret (require p u >>= f) P ↔ p ∧ Ret (f ()) P := by
  unfold require
  by_cases h : p <;> simp [h, Ret_pure_bind, Ret_ub_bind]

@[wp] theorem Ret_rd_bind [Inhabited α] {l : List α} {i : Nat} {f : α → C β} {P : β → Prop} :
    Ret (rd l i >>= f) P ↔ i < l.length ∧ Ret (f (nth l i)) P := by
  unfold rd
  by_cases h : i < l.length
  · rw [getElem?_eq_nth h]
    simp [h, Ret_assoc, Ret_emit_bind, Ret_pure_bind]
  · rw [List.getElem?_eq_none (by omega)]
    simp [h, Ret_ub_bind]

@[wp] theorem Ret_wr_bind {l : List α} {i : Nat} {v : α} {f : List α → C β} {P : β → Prop} :
    Ret (wr l i v >>= f) P ↔ i < l.length ∧ Ret (f (l.set i v)) P := by
  unfold wr
  by_cases h : i < l.length <;> simp [h, Ret_assoc, Ret_emit_bind, Ret_pure_bind, Ret_ub_bind]

@[wp] theorem Ret_rd [Inhabited α] {l : List α} {i : Nat} {P : α → Prop} :
    Ret (rd l i) P ↔ i < l.length ∧ P (nth l i) := by
  rw [← bind_pure (rd l i), Ret_rd_bind, Ret_pure]

@[wp] theorem Ret_wr {l : List α} {i : Nat} {v : α} {P : List α → Prop} :
    Ret (wr l i v) P ↔ i < l.length ∧ P (l.set i v) := by
  rw [← bind_pure (wr l i v), Ret_wr_bind, Ret_pure]

@[wp] theorem Ret_memset_bind {l : List α} {v : α} {n : Nat} {f : List α → C β} {P : β → Prop} :
    Ret (memset l v n >>= f) P ↔ n ≤ l.length ∧ Ret (f (List.replicate n v ++ l.drop n)) P := by
  unfold memset
  by_cases h : n ≤ l.length <;> simp [h, Ret_assoc, Ret_emit_bind, Ret_pure_bind, Ret_ub_bind]

@[wp] theorem Ret_memcpy_bind {d s : List α} {i j n : Nat} {f : List α → C β} {P : β → Prop} :
    Ret (memcpy d i s j n >>= f) P ↔ j + n ≤ s.length ∧ i + n ≤ d.length ∧
      Ret (f (d.take i ++ (s.drop j).take n ++ d.drop (i + n))) P := by
  unfold memcpy
  by_cases h1 : j + n ≤ s.length <;> by_cases h2 : i + n ≤ d.length <;>
    simp [h1, h2, Ret_assoc, Ret_emit_bind, Ret_pure_bind, Ret_ub_bind]

@[wp] theorem Ret_ptr_bind {l : List α} {n : Nat} {f : List α → C β} {P : β → Prop} :
    Ret (ptr l n >>= f) P ↔ n ≤ l.length ∧ Ret (f (l.drop n)) P := by
  unfold ptr
  by_cases h : n ≤ l.length <;> simp [h, Ret_assoc, Ret_emit_bind, Ret_pure_bind, Ret_ub_bind]

@[wp] theorem Ret_atPtr_bind {l : List α} {n : Nat} {g : List α → C (List α)}
    {f : List α → C β} {P : β → Prop} :
    Ret (atPtr l n g >>= f) P ↔
      n ≤ l.length ∧ Ret (g (l.drop n) >>= fun s => f (l.take n ++ s)) P := by
  unfold atPtr
  by_cases h : n ≤ l.length <;> simp [h, Ret_assoc, Ret_emit_bind, Ret_ub_bind]

@[wp] theorem Ret_ptr {l : List α} {n : Nat} {P : List α → Prop} :
    Ret (ptr l n) P ↔ n ≤ l.length ∧ P (l.drop n) := by
  rw [← bind_pure (ptr l n), Ret_ptr_bind, Ret_pure]

@[wp] theorem Ret_atPtr {l : List α} {n : Nat} {g : List α → C (List α)} {P : List α → Prop} :
    Ret (atPtr l n g) P ↔ n ≤ l.length ∧ Ret (g (l.drop n)) (fun s => P (l.take n ++ s)) := by
  rw [← bind_pure (atPtr l n g), Ret_atPtr_bind, Ret_bind_iff]
  simp only [Ret_pure]

@[wp] theorem Ret_memcpy {d s : List α} {i j n : Nat} {P : List α → Prop} :
    Ret (memcpy d i s j n) P ↔ j + n ≤ s.length ∧ i + n ≤ d.length ∧
      P (d.take i ++ (s.drop j).take n ++ d.drop (i + n)) := by
  rw [← bind_pure (memcpy d i s j n), Ret_memcpy_bind, Ret_pure]

@[wp] theorem Ret_memset {l : List α} {v : α} {n : Nat} {P : List α → Prop} :
    Ret (memset l v n) P ↔ n ≤ l.length ∧ P (List.replicate n v ++ l.drop n) := by
  rw [← bind_pure (memset l v n), Ret_memset_bind, Ret_pure]

@[wp] theorem Ret_int_bind {x : Int} {f : Int → C β} {P : β → Prop} :
    Ret (int x >>= f) P ↔ inInt x ∧ Ret (f x) P := by
  unfold int
  by_cases h : inInt x <;> simp [h, Ret_pure_bind, Ret_ub_bind]

@[wp] theorem Ret_int {x : Int} {P : Int → Prop} : Ret (int x) P ↔ inInt x ∧ P x := by
  rw [← bind_pure (int x), Ret_int_bind, Ret_pure]

@[wp] theorem Ret_ishl_bind {x k : Int} {f : Int → C β} {P : β → Prop} :
    Ret (ishl x k >>= f) P ↔
      (0 ≤ k ∧ k < 32) ∧ 0 ≤ x ∧ inInt (x * 2 ^ k.toNat) ∧ Ret (f (x * 2 ^ k.toNat)) P := by
  unfold ishl
  by_cases h1 : 0 ≤ k ∧ k < 32
  · by_cases h2 : 0 ≤ x
    · rw [if_pos h1, if_pos h2, Ret_int_bind]; simp [h1, h2]
    · rw [if_pos h1, if_neg h2, Ret_ub_bind]; simp [h2]
  · rw [if_neg h1, Ret_ub_bind]; exact ⟨False.elim, fun h => h1 h.1⟩

@[wp] theorem Ret_ishr_bind {x k : Int} {f : Int → C β} {P : β → Prop} :
    Ret (ishr x k >>= f) P ↔ (0 ≤ k ∧ k < 32) ∧ Ret (f (x / 2 ^ k.toNat)) P := by
  unfold ishr
  by_cases h1 : 0 ≤ k ∧ k < 32
  · rw [if_pos h1, Ret_pure_bind]; simp [h1]
  · rw [if_neg h1, Ret_ub_bind]; exact ⟨False.elim, fun h => h1 h.1⟩

@[wp] theorem Ret_ifC {b : Bool} {x y : C α} {P : α → Prop} :
    Ret (ifC b x y) P ↔ Ret (if b then x else y) P := by
  unfold ifC; rw [Ret_emit_bind]

@[wp] theorem Ret_ifC_bind {b : Bool} {x y : C α} {f : α → C β} {P : β → Prop} :
    Ret (ifC b x y >>= f) P ↔ Ret (if b then x >>= f else y >>= f) P := by
  unfold ifC; rw [Ret_assoc, Ret_emit_bind]
  cases b <;> simp

/-! ### Loops -/

theorem Ret.forLoop {step : Nat} {body : Nat → σ → C σ} (I : Nat → σ → Prop) {P : σ → Prop}
    {lo n : Nat} (hstep : ∀ k s, k < n → I k s → Ret (body (lo + step * k) s) (I (k + 1)))
    (hpost : ∀ s, I n s → P s) :
    ∀ m k s, k + m = n → I k s → Ret (forLoop step body m (lo + step * k) s) P := by
  intro m
  induction m with
  | zero =>
    intro k s hk hI
    simp only [Frodo.forLoop, wp]
    have : k = n := by omega
    subst this
    exact hpost s hI
  | succ m ih =>
    intro k s hk hI
    simp only [Frodo.forLoop, Ret_emit_bind]
    refine (hstep k s (by omega) hI).bind ?_
    intro s' hI'
    have := ih (k + 1) s' (by omega) hI'
    rw [show lo + step * k + step = lo + step * (k + 1) by rw [Nat.mul_succ]; omega]
    exact this

/-- Rule for counting loops, with an invariant on the number of completed iterations. -/
theorem Ret.for {lo hi step : Nat} {body : Nat → σ → C σ} {s : σ} (n : Nat)
    (I : Nat → σ → Prop) {P : σ → Prop}
    (hn : (hi - lo + (step - 1)) / step = n)
    (h0 : I 0 s)
    (hstep : ∀ k s, k < n → I k s → Ret (body (lo + step * k) s) (I (k + 1)))
    (hpost : ∀ s, I n s → P s) : Ret (forC lo hi step s body) P := by
  unfold forC
  rw [hn]
  have := Ret.forLoop I hstep hpost n 0 s (by omega) h0
  simpa using this

/-- `for (i = 0; i < n; i++)`. -/
theorem Ret.for1 {n : Nat} {body : Nat → σ → C σ} {s : σ} (I : Nat → σ → Prop) {P : σ → Prop}
    (h0 : I 0 s)
    (hstep : ∀ k s, k < n → I k s → Ret (body k s) (I (k + 1)))
    (hpost : ∀ s, I n s → P s) : Ret (forC 0 n 1 s body) P := by
  refine Ret.for n I (by simp) h0 ?_ hpost
  intro k s hk hI
  simpa using hstep k s hk hI

/-- `for (i = 0; i < step * m; i += step)`. -/
theorem Ret.forStep {m step n : Nat} {body : Nat → σ → C σ} {s : σ} (I : Nat → σ → Prop)
    {P : σ → Prop} (hpos : 0 < step) (hn : n = step * m)
    (h0 : I 0 s)
    (hstep : ∀ k s, k < m → I k s → Ret (body (step * k) s) (I (k + 1)))
    (hpost : ∀ s, I m s → P s) : Ret (forC 0 n step s body) P := by
  subst hn
  refine Ret.for m I ?_ h0 ?_ hpost
  · rw [Nat.sub_zero]
    rw [Nat.mul_add_div hpos, Nat.div_eq_of_lt (by omega)]; rfl
  · intro k s hk hI
    simpa using hstep k s hk hI

theorem Ret.while {cond : σ → Bool} {body : σ → C σ} (I : σ → Prop) (μ : σ → Nat)
    {P : σ → Prop}
    (hstep : ∀ s, I s → cond s = true → Ret (body s) (fun s' => I s' ∧ μ s' < μ s))
    (hpost : ∀ s, I s → cond s = false → P s) :
    ∀ s, I s → Ret (whileC cond body s) P := by
  have key : ∀ n s, μ s < n → I s → Ret (whileC cond body s) P := by
    intro n
    induction n with
    | zero => intro s h; omega
    | succ n ih =>
      intro s hμ hI
      rw [whileC]
      rw [Ret_emit_bind]
      by_cases hc : cond s = true
      · rw [if_pos hc]
        refine (hstep s hI hc).bind ?_
        rintro s' ⟨hI', hμ'⟩
        exact ih s' (by omega) hI'
      · rw [if_neg hc, Ret_pure]
        exact hpost s hI (by simpa using hc)
  intro s hI
  exact key _ s (Nat.lt_succ_self _) hI

/-- Unfolding a loop one step. -/
theorem Ret_while_unfold {cond : σ → Bool} {body : σ → C σ} {s : σ} {P : σ → Prop} :
    Ret (whileC cond body s) P ↔
      Ret (if cond s then body s >>= whileC cond body else pure s) P := by
  rw [whileC, Ret_emit_bind]

/-! ## `Rel` -/

theorem Rel.mono {m₁ : C α} {m₂ : C β} {R S : α → β → Prop} (h : Rel m₁ m₂ R)
    (hRS : ∀ a b, R a b → S a b) : Rel m₁ m₂ S := by
  intro a₁ t₁ a₂ t₂ h1 h2
  exact ⟨(h _ _ _ _ h1 h2).1, hRS _ _ (h _ _ _ _ h1 h2).2⟩

theorem Rel.pure {a : α} {b : β} {R : α → β → Prop} (h : R a b) :
    Rel (Pure.pure a) (Pure.pure b) R := by
  intro a₁ t₁ a₂ t₂ h1 h2
  rw [pure_def] at h1 h2
  injection h1 with e1 e2
  injection h2 with e3 e4
  subst e1 e2 e3 e4
  exact ⟨rfl, h⟩

theorem bind_ok {m : C α} {f : α → C β} {b : β} {t : List Event} (h : (m >>= f) = .ok b t) :
    ∃ a t1 t2, m = .ok a t1 ∧ f a = .ok b t2 ∧ t = t1 ++ t2 := by
  rw [bind_def] at h
  cases m with
  | div => cases h
  | ub u => cases h
  | ok a t1 =>
    simp only [bind'] at h
    cases hf : f a with
    | div => rw [hf] at h; cases h
    | ub u => rw [hf] at h; cases h
    | ok b' t2 =>
      rw [hf] at h
      injection h with h1 h2
      subst h1 h2
      exact ⟨a, t1, t2, rfl, hf, rfl⟩

theorem Rel.bind {α' β' : Type} {m₁ : C α} {m₂ : C β} {f₁ : α → C α'} {f₂ : β → C β'}
    {R : α → β → Prop} {S : α' → β' → Prop} (h : Rel m₁ m₂ R)
    (h2 : ∀ a b, R a b → Rel (f₁ a) (f₂ b) S) : Rel (m₁ >>= f₁) (m₂ >>= f₂) S := by
  intro a₁ t₁ a₂ t₂ e1 e2
  obtain ⟨x, u1, u2, hx, hf, rfl⟩ := bind_ok e1
  obtain ⟨y, v1, v2, hy, hg, rfl⟩ := bind_ok e2
  obtain ⟨rfl, hR⟩ := h _ _ _ _ hx hy
  obtain ⟨rfl, hS⟩ := h2 _ _ hR _ _ _ _ hf hg
  exact ⟨rfl, hS⟩

theorem Rel.ub_left {u : UB} {m₂ : C β} {R : α → β → Prop} : Rel (C.ub u) m₂ R := by
  intro a₁ t₁ a₂ t₂ h1; cases h1

theorem Rel.ub_right {u : UB} {m₁ : C α} {R : α → β → Prop} : Rel m₁ (C.ub u) R := by
  intro a₁ t₁ a₂ t₂ _ h1; cases h1

theorem Rel.emit (e : Event) : Rel (C.emit e) (C.emit e) (fun _ _ => True) := by
  intro a₁ t₁ a₂ t₂ h1 h2
  rw [h1] at h2
  injection h2 with _ h
  exact ⟨h, trivial⟩

theorem Rel.require {p q : Prop} [Decidable p] [Decidable q] {u : UB} :
    Rel (C.require p u) (C.require q u) (fun _ _ => True) := by
  unfold C.require
  split <;> split <;> first | exact Rel.ub_left | exact Rel.ub_right | exact Rel.pure trivial

theorem rd_ok {l : List α} {i : Nat} {a : α} {t : List Event} (h : rd l i = .ok a t) :
    l[i]? = some a ∧ t = [.read i] := by
  unfold rd at h
  cases hl : l[i]? with
  | none => rw [hl] at h; cases h
  | some b =>
    rw [hl] at h
    obtain ⟨_, t1, t2, h1, h2, rfl⟩ := bind_ok h
    rw [pure_def] at h2
    injection h1 with _ h1
    injection h2 with h2 h3
    subst h1 h2 h3
    exact ⟨rfl, rfl⟩

theorem Rel.rd {l : List α} {l' : List β} {i j : Nat} (h : i = j) :
    Rel (Frodo.rd l i) (Frodo.rd l' j) (fun a b => l[i]? = some a ∧ l'[j]? = some b) := by
  subst h
  intro a₁ t₁ a₂ t₂ h1 h2
  obtain ⟨h3, rfl⟩ := rd_ok h1
  obtain ⟨h4, rfl⟩ := rd_ok h2
  exact ⟨rfl, h3, h4⟩

theorem wr_ok {l l' : List α} {i : Nat} {v : α} {t : List Event} (h : wr l i v = .ok l' t) :
    i < l.length ∧ l' = l.set i v ∧ t = [.write i] := by
  unfold wr at h
  split at h
  · rename_i hi
    obtain ⟨_, t1, t2, h1, h2, rfl⟩ := bind_ok h
    rw [pure_def] at h2
    injection h1 with _ h1
    injection h2 with h2 h3
    subst h1 h2 h3
    exact ⟨hi, rfl, rfl⟩
  · cases h

theorem Rel.wr {l : List α} {l' : List β} {i j : Nat} {v : α} {w : β} (h : i = j) :
    Rel (Frodo.wr l i v) (Frodo.wr l' j w) (fun a b => a = l.set i v ∧ b = l'.set j w) := by
  subst h
  intro a₁ t₁ a₂ t₂ h1 h2
  obtain ⟨_, h3, rfl⟩ := wr_ok h1
  obtain ⟨_, h4, rfl⟩ := wr_ok h2
  exact ⟨rfl, h3, h4⟩

theorem Rel.memset {l : List α} {l' : List β} {n n' : Nat} {v : α} {w : β} (h : n = n') :
    Rel (Frodo.memset l v n) (Frodo.memset l' w n')
      (fun a b => a = List.replicate n v ++ l.drop n ∧ b = List.replicate n w ++ l'.drop n) := by
  subst h
  unfold Frodo.memset
  split <;> split <;> first | exact Rel.ub_left | exact Rel.ub_right | skip
  exact (Rel.emit _).bind fun _ _ _ => Rel.pure ⟨rfl, rfl⟩

theorem Rel.memcpy {d s : List α} {d' s' : List β} {i j n i' j' n' : Nat}
    (hi : i = i') (hj : j = j') (hn : n = n') :
    Rel (Frodo.memcpy d i s j n) (Frodo.memcpy d' i' s' j' n')
      (fun a b => a = d.take i ++ (s.drop j).take n ++ d.drop (i + n) ∧
        b = d'.take i ++ (s'.drop j).take n ++ d'.drop (i + n)) := by
  subst hi hj hn
  unfold Frodo.memcpy
  split <;> split <;> (repeat' split) <;>
    first
    | exact Rel.ub_left
    | exact Rel.ub_right
    | exact (Rel.emit _).bind fun _ _ _ => (Rel.emit _).bind fun _ _ _ => Rel.pure ⟨rfl, rfl⟩

theorem Rel.ptr {l : List α} {l' : List β} {i j : Nat} (h : i = j) :
    Rel (Frodo.ptr l i) (Frodo.ptr l' j) (fun a b => a = l.drop i ∧ b = l'.drop j) := by
  subst h
  unfold Frodo.ptr
  split <;> split <;> first
    | exact Rel.ub_left | exact Rel.ub_right
    | exact (Rel.emit _).bind fun _ _ _ => Rel.pure ⟨rfl, rfl⟩

theorem Rel.atPtr {l : List α} {l' : List β} {i j : Nat} {f : List α → C (List α)}
    {g : List β → C (List β)} {R : List α → List β → Prop} (hi : i = j)
    (h : Rel (f (l.drop i)) (g (l'.drop j)) R) :
    Rel (Frodo.atPtr l i f) (Frodo.atPtr l' j g)
      (fun a b => ∃ x y, R x y ∧ a = l.take i ++ x ∧ b = l'.take j ++ y) := by
  subst hi
  unfold Frodo.atPtr
  split <;> split <;> first
    | exact Rel.ub_left
    | exact Rel.ub_right
    | exact (Rel.emit _).bind fun _ _ _ => h.bind fun x y hR => Rel.pure ⟨x, y, hR, rfl, rfl⟩

theorem Rel.int {x y : Int} : Rel (Frodo.int x) (Frodo.int y) (fun a b => a = x ∧ b = y) := by
  unfold Frodo.int
  split <;> split <;> first
    | exact Rel.ub_left | exact Rel.ub_right | exact Rel.pure ⟨rfl, rfl⟩

theorem Rel.ishl {x y k l : Int} :
    Rel (Frodo.ishl x k) (Frodo.ishl y l)
      (fun a b => a = x * 2 ^ k.toNat ∧ b = y * 2 ^ l.toNat) := by
  unfold Frodo.ishl
  repeat' split
  all_goals first
    | exact Rel.ub_left | exact Rel.ub_right | exact Rel.int

theorem Rel.ishr {x y k l : Int} :
    Rel (Frodo.ishr x k) (Frodo.ishr y l)
      (fun a b => a = x / 2 ^ k.toNat ∧ b = y / 2 ^ l.toNat) := by
  unfold Frodo.ishr
  repeat' split
  all_goals first
    | exact Rel.ub_left | exact Rel.ub_right | exact Rel.pure ⟨rfl, rfl⟩

theorem Rel.ifC {b b' : Bool} {x y : C α} {x' y' : C β} {R : α → β → Prop} (h : b = b')
    (ht : b = true → Rel x x' R) (hf : b = false → Rel y y' R) :
    Rel (Frodo.ifC b x y) (Frodo.ifC b' x' y') R := by
  subst h
  unfold Frodo.ifC
  refine (Rel.emit _).bind fun _ _ _ => ?_
  cases b
  · exact hf rfl
  · exact ht rfl

theorem Rel.forLoop {step : Nat} {f : Nat → σ → C σ} {g : Nat → τ → C τ} {I : σ → τ → Prop}
    (h : ∀ i s t, I s t → Rel (f i s) (g i t) I) :
    ∀ m i s t, I s t → Rel (Frodo.forLoop step f m i s) (Frodo.forLoop step g m i t) I := by
  intro m
  induction m with
  | zero =>
    intro i s t hI
    exact (Rel.emit _).bind fun _ _ _ => Rel.pure hI
  | succ m ih =>
    intro i s t hI
    refine (Rel.emit _).bind fun _ _ _ => ?_
    exact (h i s t hI).bind fun s' t' hI' => ih _ _ _ hI'

theorem Rel.for {lo hi step lo' hi' step' : Nat} {f : Nat → σ → C σ} {g : Nat → τ → C τ}
    {s : σ} {t : τ} {I : σ → τ → Prop} (h1 : lo = lo') (h2 : hi = hi') (h3 : step = step')
    (h0 : I s t) (h : ∀ i s t, I s t → Rel (f i s) (g i t) I) :
    Rel (forC lo hi step s f) (forC lo' hi' step' t g) I := by
  subst h1 h2 h3
  exact Rel.forLoop h _ _ _ _ h0

theorem Rel.while {c : σ → Bool} {d : τ → Bool} {f : σ → C σ} {g : τ → C τ} {I : σ → τ → Prop}
    (hc : ∀ s t, I s t → c s = d t)
    (h : ∀ s t, I s t → c s = true → Rel (f s) (g t) I) :
    ∀ s t, I s t → Rel (whileC c f s) (whileC d g t) I := by
  have key : ∀ s a u, whileC c f s = .ok a u →
      ∀ t b v, I s t → whileC d g t = .ok b v → u = v ∧ I a b := by
    refine whileC.fixpoint_induct c f
      (fun w => ∀ s a u, w s = .ok a u →
        ∀ t b v, I s t → whileC d g t = .ok b v → u = v ∧ I a b) ?_ ?_
    · refine Lean.Order.admissible_pi_apply (fun s (x : C σ) => ∀ a u, x = .ok a u →
        ∀ t b v, I s t → whileC d g t = .ok b v → u = v ∧ I a b) ?_
      intro s
      apply Lean.Order.admissible_flatOrder
      intro a u h; cases h
    · intro w ih s a u hw t b v hI ht
      rw [whileC] at ht
      obtain ⟨_, u1, u2, hu1, hu2, rfl⟩ := bind_ok hw
      obtain ⟨_, v1, v2, hv1, hv2, rfl⟩ := bind_ok ht
      injection hu1 with _ hu1
      injection hv1 with _ hv1
      subst hu1 hv1
      rw [hc s t hI] at hu2 ⊢
      by_cases hd : d t = true
      · rw [if_pos hd] at hu2 hv2
        obtain ⟨s', u3, u4, hu3, hu4, rfl⟩ := bind_ok hu2
        obtain ⟨t', v3, v4, hv3, hv4, rfl⟩ := bind_ok hv2
        obtain ⟨rfl, hI'⟩ := h s t hI (by rw [hc s t hI]; exact hd) _ _ _ _ hu3 hv3
        obtain ⟨rfl, hI''⟩ := ih _ _ _ hu4 _ _ _ hI' hv4
        exact ⟨rfl, hI''⟩
      · rw [if_neg hd] at hu2 hv2
        rw [pure_def] at hu2 hv2
        injection hu2 with h1 h2
        injection hv2 with h3 h4
        subst h1 h2 h3 h4
        exact ⟨rfl, hI⟩
  intro s t hI a u b v h1 h2
  exact key s a u h1 t b v hI h2

/-- A loop that never ends. -/
theorem while_div {cond : σ → Bool} {body : σ → C σ} (I : σ → Prop)
    (hstep : ∀ s, I s → cond s = true ∧ (∀ u, body s ≠ .ub u) ∧ ∀ s' t, body s = .ok s' t → I s') :
    ∀ s, I s → whileC cond body s = .div := by
  refine whileC.fixpoint_induct cond body (motive := fun f => ∀ s, I s → f s = .div) ?_ ?_
  · refine Lean.Order.admissible_pi_apply (fun s (x : C σ) => I s → x = .div) ?_
    intro s
    exact Lean.Order.admissible_flatOrder (b := C.div) _ (fun _ => rfl)
  · intro f ih s hI
    obtain ⟨hc, hu, hb⟩ := hstep s hI
    show C.bind' (C.emit _) _ = _
    rw [if_pos hc]
    unfold C.emit C.bind'
    simp only
    have : (body s >>= f) = .div := by
      cases hbs : body s with
      | div => rfl
      | ub u => exact absurd hbs (hu u)
      | ok s' t =>
        rw [C.bind_def]
        simp only [C.bind', ih s' (hb s' t hbs)]
    rw [this]

/-- Below 2^32 the counter does not wrap around. -/
theorem forU32_eq {n : Nat} (hn : n < 2 ^ 32) (s : σ) (body : Nat → σ → C σ) :
    forU32 n s body = forC 0 n 1 s body := by
  have key : ∀ k i s, i + k = n →
      (whileC (fun x : Nat × σ => decide (x.1 < n))
        (fun x => do
          let s ← body x.1 x.2
          pure ((x.1 + 1) % 2 ^ 32, s)) (i, s) >>= fun r => pure r.2) = forLoop 1 body k i s := by
    intro k
    induction k with
    | zero =>
      intro i s h
      rw [whileC, if_neg (by simp; omega)]
      simp [forLoop, show ¬ i < n by omega]
    | succ k ih =>
      intro i s h
      rw [whileC, if_pos (by simp; omega)]
      simp only [forLoop, bind_assoc, pure_bind, show decide (i < n) = true by simp; omega]
      congr 1
      funext _
      congr 1
      funext s'
      rw [Nat.mod_eq_of_lt (by omega), ← ih (i + 1) s' (by omega)]
  unfold forU32 forC
  rw [key (n - 0 + (1 - 1)) 0 s (by omega), Nat.div_one]

end Frodo
