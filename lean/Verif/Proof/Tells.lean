import Verif.Proof.CtKem
import Verif.Proof.Aes

/-! # What a trace tells

`Rel` is used to show that traces are equal.  Here the converse direction: from equal traces of two executions, equal data are concluded.
The traces of the parts of two executions are compared as long as the executions agree, so equality is replaced by
compatibility: each can be extended to the same list. -/

namespace Frodo

open C

variable {α β α' β' : Type}

/-- If the traces are compatible then they are equal and `R` holds of the results. -/
def Reveals (m : C α) (m' : C β) (R : α → β → Prop) : Prop :=
  ∀ a t a' t' u u', m = .ok a t → m' = .ok a' t' → t ++ u = t' ++ u' → t = t' ∧ R a a'

/-- If the traces are compatible then `Q`. -/
def Tells (m : C α) (m' : C β) (Q : Prop) : Prop :=
  ∀ a t a' t' u u', m = .ok a t → m' = .ok a' t' → t ++ u = t' ++ u' → Q

theorem Rel.reveals {m : C α} {m' : C β} {R : α → β → Prop} (h : Rel m m' R) : Reveals m m' R :=
  fun a t a' t' _ _ h1 h2 _ => h a t a' t' h1 h2

theorem Reveals.mono {m : C α} {m' : C β} {R S : α → β → Prop} (h : Reveals m m' R) (hRS : ∀ a b, R a b → S a b) :
    Reveals m m' S := by
  intro a t a' t' u u' h1 h2 h3
  obtain ⟨e, hR⟩ := h _ _ _ _ _ _ h1 h2 h3
  exact ⟨e, hRS _ _ hR⟩

theorem Reveals.strengthen {m : C α} {m' : C β} {R : α → β → Prop} {p : α → Prop} {q : β → Prop} (h : Reveals m m' R)
    (h1 : Ret m p) (h2 : Ret m' q) : Reveals m m' (fun a b => R a b ∧ p a ∧ q b) := by
  intro a t a' t' u u' e1 e2 e3
  obtain ⟨e, hR⟩ := h _ _ _ _ _ _ e1 e2 e3
  exact ⟨e, hR, h1.elim _ _ e1, h2.elim _ _ e2⟩

theorem Reveals.bind {m : C α} {m' : C β} {f : α → C α'} {f' : β → C β'} {R : α → β → Prop} {S : α' → β' → Prop}
    (h : Reveals m m' R) (hf : ∀ a b, R a b → Reveals (f a) (f' b) S) : Reveals (m >>= f) (m' >>= f') S := by
  intro a t a' t' u u' e1 e2 e3
  obtain ⟨x, u1, u2, hx, hf1, rfl⟩ := bind_ok e1
  obtain ⟨y, v1, v2, hy, hf2, rfl⟩ := bind_ok e2
  rw [List.append_assoc, List.append_assoc] at e3
  obtain ⟨rfl, hR⟩ := h _ _ _ _ _ _ hx hy e3
  obtain ⟨rfl, hS⟩ := hf _ _ hR _ _ _ _ _ _ hf1 hf2 (List.append_cancel_left e3)
  exact ⟨rfl, hS⟩

theorem Reveals.tells {m : C α} {m' : C β} {R : α → β → Prop} {Q : Prop} (h : Reveals m m' R) (hQ : ∀ a b, R a b → Q) :
    Tells m m' Q := fun _ _ _ _ _ _ h1 h2 h3 => hQ _ _ (h _ _ _ _ _ _ h1 h2 h3).2

theorem Tells.left {m : C α} {m' : C β} {f : α → C α'} {f' : β → C β'} {Q : Prop} (h : Tells m m' Q) :
    Tells (m >>= f) (m' >>= f') Q := by
  intro a t a' t' u u' e1 e2 e3
  obtain ⟨x, u1, u2, hx, hf1, rfl⟩ := bind_ok e1
  obtain ⟨y, v1, v2, hy, hf2, rfl⟩ := bind_ok e2
  rw [List.append_assoc, List.append_assoc] at e3
  exact h _ _ _ _ _ _ hx hy e3

theorem Rel.tells {m : C α} {m' : C β} {f : α → C α'} {f' : β → C β'} {R : α → β → Prop} {Q : Prop}
    (h : Rel m m' R) (hf : ∀ a b, R a b → Tells (f a) (f' b) Q) : Tells (m >>= f) (m' >>= f') Q := by
  intro a t a' t' u u' e1 e2 e3
  obtain ⟨x, u1, u2, hx, hf1, rfl⟩ := bind_ok e1
  obtain ⟨y, v1, v2, hy, hf2, rfl⟩ := bind_ok e2
  obtain ⟨rfl, hR⟩ := h _ _ _ _ hx hy
  rw [List.append_assoc, List.append_assoc] at e3
  exact hf _ _ hR _ _ _ _ _ _ hf1 hf2 (List.append_cancel_left e3)

theorem Tells.mono {m : C α} {m' : C β} {P Q : Prop} (h : Tells m m' P) (hPQ : P → Q) : Tells m m' Q :=
  fun _ _ _ _ _ _ h1 h2 h3 => hPQ (h _ _ _ _ _ _ h1 h2 h3)

/-- From equal traces of two executions that return. -/
theorem Tells.of_trace {m : C α} {m' : C β} {Q : Prop} (h : Tells m m' Q) {t : List Event} (h1 : traceOf m = some t)
    (h2 : traceOf m' = some t) : Q := by
  cases m with
  | div => cases h1
  | ub u => cases h1
  | ok a s =>
    cases m' with
    | div => cases h2
    | ub u => cases h2
    | ok b s' =>
      injection h1 with h1
      injection h2 with h2
      exact h a s b s' [] [] rfl rfl (by rw [h1, h2])

theorem Reveals.forLoop {σ τ : Type} {step : Nat} {f : Nat → σ → C σ} {g : Nat → τ → C τ} {I : Nat → σ → τ → Prop} :
    ∀ n i s t, I i s t → (∀ k s t, k < n → I (i + k * step) s t → Reveals (f (i + k * step) s) (g (i + k * step) t)
      (I (i + (k + 1) * step))) →
      Reveals (Frodo.forLoop step f n i s) (Frodo.forLoop step g n i t) (I (i + n * step)) := by
  intro n
  induction n with
  | zero =>
    intro i s t hI _
    refine (Rel.emit _).reveals.bind fun _ _ _ => (Rel.pure ?_).reveals
    simpa using hI
  | succ n ih =>
    intro i s t hI h
    refine (Rel.emit _).reveals.bind fun _ _ _ => ?_
    have h0 := h 0 s t (by omega) (by simpa using hI)
    simp only [Nat.zero_mul, Nat.add_zero, Nat.zero_add, Nat.one_mul] at h0
    refine h0.bind fun s' t' hI' => ?_
    refine (ih (i + step) s' t' hI' ?_).mono ?_
    · intro k s t hk hI
      have := h (k + 1) s t (by omega) (by rw [Nat.succ_mul]; rwa [Nat.add_assoc, Nat.add_comm step] at hI)
      rw [Nat.succ_mul, Nat.add_comm (k * step), ← Nat.add_assoc] at this
      refine this.mono fun a b hab => ?_
      rw [Nat.succ_mul (k + 1), Nat.add_comm ((k + 1) * step), ← Nat.add_assoc] at hab
      exact hab
    · intro a b hab
      rwa [Nat.succ_mul, Nat.add_comm (n * step), ← Nat.add_assoc]

theorem Reveals.for1 {σ τ : Type} {lo hi : Nat} {f : Nat → σ → C σ} {g : Nat → τ → C τ} {I : Nat → σ → τ → Prop}
    {s : σ} {t : τ} (hl : lo ≤ hi) (h0 : I lo s t)
    (h : ∀ i s t, lo ≤ i → i < hi → I i s t → Reveals (f i s) (g i t) (I (i + 1))) :
    Reveals (forC lo hi 1 s f) (forC lo hi 1 t g) (I hi) := by
  unfold forC
  simp only [Nat.sub_self, Nat.add_zero, Nat.div_one]
  refine (Reveals.forLoop (I := I) (step := 1) (hi - lo) lo s t h0 ?_).mono ?_
  · intro k s t hk hI
    simp only [Nat.mul_one] at hI ⊢
    exact h (lo + k) s t (by omega) (by omega) hI
  · intro a b hab
    rwa [Nat.mul_one, Nat.add_sub_cancel' hl] at hab

/-! ## The key schedule of the portable AES -/

theorem rd_eq {l : List α} [Zero α] {i : Nat} (h : i < l.length) : rd l i = .ok l[i] [.read i] := by
  unfold rd
  rw [List.getElem?_eq_getElem h]
  rfl

theorem wr_eq {l : List α} {i : Nat} {v : α} (h : i < l.length) : wr l i v = .ok (l.set i v) [.write i] := by
  unfold wr
  rw [if_pos h]
  rfl

/-- Reading a table at an index reveals the index. -/
theorem Reveals.rd {l l' : List α} {i j : Nat} : Reveals (Frodo.rd l i) (Frodo.rd l' j) (fun _ _ => i = j) := by
  intro a t a' t' u u' h1 h2 h3
  obtain ⟨-, rfl⟩ := rd_ok h1
  obtain ⟨-, rfl⟩ := rd_ok h2
  simp only [List.cons_append, List.nil_append, List.cons.injEq, Event.read.injEq] at h3
  exact ⟨by rw [h3.1], h3.1⟩

theorem sbox_reveals {a b : U8} : Reveals (getSBoxValue a) (getSBoxValue b) (fun _ _ => a = b) :=
  Reveals.rd.mono fun _ _ h => BitVec.eq_of_toNat_eq h

/-- One S-box lookup in place (proof device). -/
theorem sbox_step {t t' : List U8} {i : Nat} {f f' : List U8 → C α} {S : α → α → Prop}
    (h : ∀ x y v w, t[i]? = some x → t'[i]? = some y → x = y → Reveals (f (t.set i v)) (f' (t'.set i w)) S) :
    Reveals (do let x ← rd t i; let y ← getSBoxValue x; let t ← wr t i y; f t)
      (do let x ← rd t' i; let y ← getSBoxValue x; let t ← wr t' i y; f' t) S := by
  refine (Rel.rd rfl).reveals.bind ?_
  rintro x y ⟨hx, hy⟩
  refine sbox_reveals.bind ?_
  rintro v w rfl
  refine (Rel.wr rfl).reveals.bind ?_
  rintro _ _ ⟨rfl, rfl⟩
  exact h x x v w hx hy rfl

theorem schedSub_reveals {a b c d a' b' c' d' : U8} :
    Reveals (schedSub [a, b, c, d]) (schedSub [a', b', c', d']) (fun x y => (x.length = 4 ∧ y.length = 4) ∧
      a = a' ∧ b = b' ∧ c = c' ∧ d = d') := by
  unfold schedSub
  refine sbox_step fun x y v w hx hy e1 => ?_
  refine sbox_step fun x y v w hx hy e2 => ?_
  refine sbox_step fun x y v w hx hy e3 => ?_
  refine (Rel.rd rfl).reveals.bind ?_
  rintro x y ⟨hx, hy⟩
  refine sbox_reveals.bind ?_
  rintro v w rfl
  refine (Rel.wr rfl).reveals.mono ?_
  rintro _ _ ⟨rfl, rfl⟩
  simp_all

theorem schedRot_reveals {a b c d a' b' c' d' : U8} {i Nk : Nat} :
    Reveals (schedRot [a, b, c, d] i Nk) (schedRot [a', b', c', d'] i Nk) (fun x y => (x.length = 4 ∧ y.length = 4) ∧
      a = a' ∧ b = b' ∧ c = c' ∧ d = d') := by
  unfold schedRot
  refine (Rel.rd rfl).reveals.bind ?_
  rintro k k' ⟨hk, hk'⟩
  refine (Rel.rd rfl).reveals.bind ?_
  rintro x1 x1' ⟨h1, h1'⟩
  refine (Rel.wr rfl).reveals.bind ?_
  rintro _ _ ⟨rfl, rfl⟩
  refine (Rel.rd rfl).reveals.bind ?_
  rintro x2 x2' ⟨h2, h2'⟩
  refine (Rel.wr rfl).reveals.bind ?_
  rintro _ _ ⟨rfl, rfl⟩
  refine (Rel.rd rfl).reveals.bind ?_
  rintro x3 x3' ⟨h3, h3'⟩
  refine (Rel.wr rfl).reveals.bind ?_
  rintro _ _ ⟨rfl, rfl⟩
  refine (Rel.wr rfl).reveals.bind ?_
  rintro _ _ ⟨rfl, rfl⟩
  refine sbox_step fun x y v w hx hy e1 => ?_
  refine sbox_step fun x y v w hx hy e2 => ?_
  refine sbox_step fun x y v w hx hy e3 => ?_
  refine sbox_step fun x y v w hx hy e4 => ?_
  refine (Rel.rd rfl).reveals.bind ?_
  rintro x5 x5' ⟨h5, h5'⟩
  refine (Rel.rd rfl).reveals.bind ?_
  rintro x6 x6' ⟨h6, h6'⟩
  refine (Rel.wr rfl).reveals.mono ?_
  rintro _ _ ⟨rfl, rfl⟩
  simp_all

theorem Reveals.ifC {b : Bool} {m n : C α} {m' n' : C β} {R : α → β → Prop} (ht : b = true → Reveals m m' R)
    (hf : b = false → Reveals n n' R) : Reveals (Frodo.ifC b m n) (Frodo.ifC b m' n') R := by
  unfold Frodo.ifC
  refine (Rel.emit _).reveals.bind fun _ _ _ => ?_
  cases b
  · exact hf rfl
  · exact ht rfl

theorem eq_of_getElem? {l : List U8} {i : Nat} {x : U8} (h : l[i]? = some x) : nth l i = x := by
  unfold nth
  rw [List.getD_eq_getElem?_getD, h]
  rfl

/-- A step of the key schedule with a substitution reveals the word that is substituted. -/
theorem schedStep_reveals {Nk i : Nat} {key key' rk rk' o o' tempa tempa' : List U8}
    (ht : tempa.length = 4) (ht' : tempa'.length = 4) (hi : 0 < i)
    (h : SchedInv Nk key rk i o) (h' : SchedInv Nk key' rk' i o') :
    Reveals (schedStep Nk i (o, tempa)) (schedStep Nk i (o', tempa')) (fun _ _ =>
      i % Nk = 0 ∨ i % Nk = 4 → Spec.keyWord Nk key (i - 1) = Spec.keyWord Nk key' (i - 1)) := by
  obtain ⟨t0, t1, t2, t3, rfl⟩ : ∃ a b c d, tempa = [a, b, c, d] := by
    match tempa, ht with
    | [a, b, c, d], _ => exact ⟨a, b, c, d, rfl⟩
  obtain ⟨t0', t1', t2', t3', rfl⟩ : ∃ a b c d, tempa' = [a, b, c, d] := by
    match tempa', ht' with
    | [a, b, c, d], _ => exact ⟨a, b, c, d, rfl⟩
  unfold schedStep
  simp only
  refine (Rel.rd rfl).reveals.bind ?_
  rintro x0 y0 ⟨hx0, hy0⟩
  refine (Rel.wr rfl).reveals.bind ?_
  rintro _ _ ⟨rfl, rfl⟩
  refine (Rel.rd rfl).reveals.bind ?_
  rintro x1 y1 ⟨hx1, hy1⟩
  refine (Rel.wr rfl).reveals.bind ?_
  rintro _ _ ⟨rfl, rfl⟩
  refine (Rel.rd rfl).reveals.bind ?_
  rintro x2 y2 ⟨hx2, hy2⟩
  refine (Rel.wr rfl).reveals.bind ?_
  rintro _ _ ⟨rfl, rfl⟩
  refine (Rel.rd rfl).reveals.bind ?_
  rintro x3 y3 ⟨hx3, hy3⟩
  refine (Rel.wr rfl).reveals.bind ?_
  rintro _ _ ⟨rfl, rfl⟩
  simp only [List.set_cons_zero, List.set_cons_succ]
  have hp := h.2.1 (i - 1) (by omega)
  have hp' := h'.2.1 (i - 1) (by omega)
  have hw : x0 = y0 ∧ x1 = y1 ∧ x2 = y2 ∧ x3 = y3 → Spec.keyWord Nk key (i - 1) = Spec.keyWord Nk key' (i - 1) := by
    rintro ⟨e0, e1, e2, e3⟩
    funext j
    rw [← hp j, ← hp' j]
    fin_cases j
    · exact (eq_of_getElem? hx0).trans (e0.trans (eq_of_getElem? hy0).symm)
    · exact (eq_of_getElem? hx1).trans (e1.trans (eq_of_getElem? hy1).symm)
    · exact (eq_of_getElem? hx2).trans (e2.trans (eq_of_getElem? hy2).symm)
    · exact (eq_of_getElem? hx3).trans (e3.trans (eq_of_getElem? hy3).symm)
  refine Reveals.bind (R := fun t t' => (i % Nk = 0 → Spec.keyWord Nk key (i - 1) = Spec.keyWord Nk key' (i - 1)) ∧
    (i % Nk ≠ 0 → t = [x0, x1, x2, x3] ∧ t' = [y0, y1, y2, y3])) ?_ ?_
  · refine Reveals.ifC (fun hb => ?_) (fun hb => ?_)
    · have hb : i % Nk = 0 := by simpa using hb
      exact schedRot_reveals.mono fun _ _ hR => ⟨fun _ => hw hR.2, fun hn => absurd hb hn⟩
    · have hb : i % Nk ≠ 0 := by simpa using hb
      exact (Rel.pure ⟨fun h0 => absurd h0 hb, fun _ => ⟨rfl, rfl⟩⟩).reveals
  rintro t t' ⟨h0, h1⟩
  refine Reveals.bind (R := fun _ _ => i % Nk = 4 → Spec.keyWord Nk key (i - 1) = Spec.keyWord Nk key' (i - 1)) ?_ ?_
  · refine Reveals.ifC (fun hb => ?_) (fun hb => ?_)
    · have hb : i % Nk = 4 := by simpa using hb
      obtain ⟨rfl, rfl⟩ := h1 (by omega)
      exact schedSub_reveals.mono fun _ _ hR _ => hw hR.2
    · have hb : i % Nk ≠ 4 := by simpa using hb
      exact (Rel.pure fun h4 => absurd h4 hb).reveals
  intro t t' h4
  refine Rel.reveals (Rel.mono (R := fun _ _ => True) ?_ fun _ _ _ hc => hc.elim h0 h4)
  ct_steps

/-- The words that the traces of two key schedules have in common if they are compatible. -/
theorem load_schedule_c_reveals {J J' : Junk} {Nk Nr : Nat} {key key' rk rk' : List U8}
    (h : (Nk = 4 ∧ Nr = 10) ∨ (Nk = 8 ∧ Nr = 14)) (hk : 4 * Nk ≤ key.length) (hk' : 4 * Nk ≤ key'.length)
    (hrk : 16 * (Nr + 1) ≤ rk.length) (hrk' : 16 * (Nr + 1) ≤ rk'.length) :
    Reveals (load_schedule_c J Nk Nr key rk) (load_schedule_c J' Nk Nr key' rk') (fun _ _ =>
      ∀ i, Nk ≤ i → i < 4 * (Nr + 1) → (i % Nk = 0 ∨ i % Nk = 4) →
        Spec.keyWord Nk key (i - 1) = Spec.keyWord Nk key' (i - 1)) := by
  have hNk : Nk = 4 ∨ Nk = 8 := by omega
  unfold load_schedule_c
  have first : ∀ {key rk : List U8}, 4 * Nk ≤ key.length → 16 * (Nr + 1) ≤ rk.length →
      Ret (forC 0 Nk 1 rk fun i rk => do
        let rk ← wr rk (i * 4 + 0) (← rd key (i * 4 + 0))
        let rk ← wr rk (i * 4 + 1) (← rd key (i * 4 + 1))
        let rk ← wr rk (i * 4 + 2) (← rd key (i * 4 + 2))
        wr rk (i * 4 + 3) (← rd key (i * 4 + 3))) (SchedInv Nk key rk Nk) := by
    intro key rk hk hrk
    refine Ret.for1 (SchedInv Nk key rk) ⟨rfl, by intro i hi; omega, fun _ _ => rfl⟩ ?_
      (fun _ h => h)
    intro i o hi hI
    have hol := hI.1
    simp only [wp, List.length_set]
    refine ⟨by omega, by omega, by omega, by omega, by omega, by omega, by omega, by omega, ?_⟩
    refine SchedInv.step (w := fun j => nth key (i * 4 + j)) hI ?_ (by omega)
    rw [Spec.keyWord.eq_def, dif_pos (Or.inl hi)]
    funext j
    rw [Nat.mul_comm]
  refine Reveals.bind (Reveals.strengthen (R := fun _ _ => True) (Rel.reveals ?_) (first hk hrk) (first hk' hrk')) ?_
  · refine Rel.for (I := fun _ _ => True) rfl rfl rfl trivial ?_
    intros
    ct_steps
  rintro o o' ⟨-, hI, hI'⟩
  refine Reveals.bind (R := fun _ _ => ∀ i, Nk ≤ i → i < 4 * (Nr + 1) → (i % Nk = 0 ∨ i % Nk = 4) →
        Spec.keyWord Nk key (i - 1) = Spec.keyWord Nk key' (i - 1)) ?_ fun _ _ hR => (Rel.pure hR).reveals
  refine (Reveals.for1 (I := fun n s s' => ((s.2.length = 4 ∧ SchedInv Nk key rk n s.1) ∧
      (s'.2.length = 4 ∧ SchedInv Nk key' rk' n s'.1)) ∧
      ∀ i, Nk ≤ i → i < n → (i % Nk = 0 ∨ i % Nk = 4) →
        Spec.keyWord Nk key (i - 1) = Spec.keyWord Nk key' (i - 1)) (by omega)
    ⟨⟨⟨by simp, hI⟩, ⟨by simp, hI'⟩⟩, by intro i h1 h2; omega⟩ ?_).mono fun _ _ hR => hR.2
  rintro i ⟨o, t⟩ ⟨o', t'⟩ hi hi2 ⟨⟨⟨ht, hI⟩, ⟨ht', hI'⟩⟩, hR⟩
  have hd : i / Nk < 11 := by rcases h with ⟨rfl, rfl⟩ | ⟨rfl, rfl⟩ <;> omega
  refine ((schedStep_reveals ht ht' (by omega) hI hI').strengthen
    (schedStep_ret hNk hi hd (by omega) ht hI) (schedStep_ret hNk hi hd (by omega) ht' hI')).mono ?_
  rintro s s' ⟨hw, hs, hs'⟩
  refine ⟨⟨hs, hs'⟩, fun k h1 h2 h3 => ?_⟩
  by_cases hk : k = i
  · subst hk; exact hw h3
  · exact hR k h1 (by omega) h3

/-! ## The key schedule can be inverted -/

theorem keyWord_step {Nk : Nat} (hN : 0 < Nk) (key : List U8) (i : Nat) :
    Spec.keyWord Nk key (i + Nk) = Spec.xorWord (Spec.keyWord Nk key i) (schedTemp Nk (i + Nk) (Spec.keyWord Nk key (i + Nk - 1))) := by
  rw [Spec.keyWord.eq_def Nk key (i + Nk), dif_neg (by omega), Nat.add_sub_cancel]
  rfl

theorem xorWord_cancel {a b c d : Spec.AWord} (h : Spec.xorWord a c = Spec.xorWord b d) (hc : c = d) : a = b := by
  subst hc
  funext j
  have := congrFun h j
  unfold Spec.xorWord at this
  have e := congrArg (· ^^^ c j) this
  simpa [BitVec.xor_assoc] using e

theorem xorWord_cancel' {a b c d : Spec.AWord} (h : Spec.xorWord a c = Spec.xorWord b d) (ha : a = b) : c = d := by
  subst ha
  funext j
  have := congrFun h j
  unfold Spec.xorWord at this
  have e := congrArg (a j ^^^ ·) this
  simpa [← BitVec.xor_assoc] using e

/-- `Nk` successive words determine all earlier words. -/
theorem keyWord_back {Nk : Nat} (hN : 1 < Nk) {key key' : List U8} :
    ∀ n, (∀ j, j < Nk → Spec.keyWord Nk key (n + j) = Spec.keyWord Nk key' (n + j)) →
      ∀ j, j < n → Spec.keyWord Nk key j = Spec.keyWord Nk key' j := by
  intro n
  induction n with
  | zero => intro _ j hj; omega
  | succ n ih =>
    intro h
    have hn : Spec.keyWord Nk key n = Spec.keyWord Nk key' n := by
      have h1 := h (Nk - 1) (by omega)
      rw [show n + 1 + (Nk - 1) = n + Nk by omega, keyWord_step (by omega), keyWord_step (by omega)] at h1
      refine xorWord_cancel h1 ?_
      have h2 := h (Nk - 2) (by omega)
      rw [show n + 1 + (Nk - 2) = n + Nk - 1 by omega] at h2
      rw [h2]
    intro j hj
    by_cases he : j = n
    · rw [he, hn]
    · refine ih (fun k hk => ?_) j (by omega)
      by_cases hk0 : k = 0
      · subst hk0; exact hn
      · have := h (k - 1) (by omega)
        rwa [show n + 1 + (k - 1) = n + k by omega] at this

theorem keyWord_mid {Nk i : Nat} (hN : Nk = 4 ∨ Nk = 8) (hi : i % 4 ≠ 0) {key key' : List U8}
    (h1 : Spec.keyWord Nk key (i + Nk) = Spec.keyWord Nk key' (i + Nk))
    (h2 : Spec.keyWord Nk key i = Spec.keyWord Nk key' i) :
    Spec.keyWord Nk key (i + Nk - 1) = Spec.keyWord Nk key' (i + Nk - 1) := by
  rw [keyWord_step (by omega), keyWord_step (by omega)] at h1
  have h3 := xorWord_cancel' h1 h2
  unfold schedTemp at h3
  rw [if_neg (by rcases hN with rfl | rfl <;> omega), if_neg (by rcases hN with rfl | rfl <;> omega),
    if_neg (by rcases hN with rfl | rfl <;> omega), if_neg (by rcases hN with rfl | rfl <;> omega)] at h3
  exact h3

/-- The substituted words of the schedule determine the key. -/
theorem key_of_words {Nk Nr : Nat} {key key' : List U8} (h : (Nk = 4 ∧ Nr = 10) ∨ (Nk = 8 ∧ Nr = 14))
    (hk : 4 * Nk ≤ key.length) (hk' : 4 * Nk ≤ key'.length)
    (hw : ∀ i, Nk ≤ i → i < 4 * (Nr + 1) → (i % Nk = 0 ∨ i % Nk = 4) →
        Spec.keyWord Nk key (i - 1) = Spec.keyWord Nk key' (i - 1)) : key.take (4 * Nk) = key'.take (4 * Nk) := by
  have hN : Nk = 4 ∨ Nk = 8 := by omega
  have all : ∀ j, j < Nk → Spec.keyWord Nk key j = Spec.keyWord Nk key' j := by
    rcases h with ⟨rfl, rfl⟩ | ⟨rfl, rfl⟩
    · have w3 := hw 4 (by omega) (by omega) (by omega)
      have w7 := hw 8 (by omega) (by omega) (by omega)
      have w11 := hw 12 (by omega) (by omega) (by omega)
      have w15 := hw 16 (by omega) (by omega) (by omega)
      have w6 := keyWord_mid (i := 3) hN (by omega) w7 w3
      have w10 := keyWord_mid (i := 7) hN (by omega) w11 w7
      have w14 := keyWord_mid (i := 11) hN (by omega) w15 w11
      have w9 := keyWord_mid (i := 6) hN (by omega) w10 w6
      have w13 := keyWord_mid (i := 10) hN (by omega) w14 w10
      have w12 := keyWord_mid (i := 9) hN (by omega) w13 w9
      intro j hj
      refine keyWord_back (by omega) 12 (fun j hj => ?_) j (by omega)
      obtain rfl | rfl | rfl | rfl : j = 0 ∨ j = 1 ∨ j = 2 ∨ j = 3 := by omega
      · exact w12
      · exact w13
      · exact w14
      · exact w15
    · have w7 := hw 8 (by omega) (by omega) (by omega)
      have w11 := hw 12 (by omega) (by omega) (by omega)
      have w15 := hw 16 (by omega) (by omega) (by omega)
      have w19 := hw 20 (by omega) (by omega) (by omega)
      have w23 := hw 24 (by omega) (by omega) (by omega)
      have w27 := hw 28 (by omega) (by omega) (by omega)
      have w31 := hw 32 (by omega) (by omega) (by omega)
      have w35 := hw 36 (by omega) (by omega) (by omega)
      have w14 := keyWord_mid (i := 7) hN (by omega) w15 w7
      have w18 := keyWord_mid (i := 11) hN (by omega) w19 w11
      have w22 := keyWord_mid (i := 15) hN (by omega) w23 w15
      have w26 := keyWord_mid (i := 19) hN (by omega) w27 w19
      have w30 := keyWord_mid (i := 23) hN (by omega) w31 w23
      have w34 := keyWord_mid (i := 27) hN (by omega) w35 w27
      have w21 := keyWord_mid (i := 14) hN (by omega) w22 w14
      have w25 := keyWord_mid (i := 18) hN (by omega) w26 w18
      have w29 := keyWord_mid (i := 22) hN (by omega) w30 w22
      have w33 := keyWord_mid (i := 26) hN (by omega) w34 w26
      have w28 := keyWord_mid (i := 21) hN (by omega) w29 w21
      have w32 := keyWord_mid (i := 25) hN (by omega) w33 w25
      intro j hj
      refine keyWord_back (by omega) 28 (fun j hj => ?_) j (by omega)
      obtain rfl | rfl | rfl | rfl | rfl | rfl | rfl | rfl :
        j = 0 ∨ j = 1 ∨ j = 2 ∨ j = 3 ∨ j = 4 ∨ j = 5 ∨ j = 6 ∨ j = 7 := by omega
      · exact w28
      · exact w29
      · exact w30
      · exact w31
      · exact w32
      · exact w33
      · exact w34
      · exact w35
  apply ext_nth
  · simp; omega
  · intro t ht
    rw [List.length_take] at ht
    rw [nth_take, nth_take, if_pos (by omega), if_pos (by omega)]
    have := congrFun (all (t / 4) (by omega)) ⟨t % 4, by omega⟩
    rw [Spec.keyWord.eq_def, Spec.keyWord.eq_def Nk key', dif_pos (by omega), dif_pos (by omega)] at this
    simp only at this
    rwa [show 4 * (t / 4) + t % 4 = t by omega] at this

/-- The trace of the key schedule of the portable AES tells the key. -/
theorem load_schedule_c_tells {J J' : Junk} {Nk Nr : Nat} {key key' rk rk' : List U8}
    (h : (Nk = 4 ∧ Nr = 10) ∨ (Nk = 8 ∧ Nr = 14)) (hk : 4 * Nk ≤ key.length) (hk' : 4 * Nk ≤ key'.length)
    (hrk : 16 * (Nr + 1) ≤ rk.length) (hrk' : 16 * (Nr + 1) ≤ rk'.length) :
    Tells (load_schedule_c J Nk Nr key rk) (load_schedule_c J' Nk Nr key' rk') (key.take (4 * Nk) = key'.take (4 * Nk)) :=
  (load_schedule_c_reveals h hk hk' hrk hrk').tells fun _ _ hw => key_of_words h hk hk' hw

/-! ## The products with `A` -/

theorem setup128_tells {E E' : Env} {s s' : List U8} (h : 16 ≤ s.length) (h' : 16 ≤ s'.length) :
    Tells (setup128 .c E s) (setup128 .c E' s') (s.take 16 = s'.take 16) := by
  unfold setup128
  refine Tells.left ?_
  exact load_schedule_c_tells (Nk := 4) (.inl ⟨rfl, rfl⟩) h h' (by simp) (by simp)

theorem Tells.atFirst {m : C α} {m' : C β} {f : α → C α'} {f' : β → C β'} {Q : Prop}
    (h : SameTrace m m') (hf : ∀ a b, Tells (f a) (f' b) Q) : Tells (m >>= f) (m' >>= f') Q :=
  Rel.tells h fun a b _ => hf a b

theorem genA_memory_tells {B : Build} {E E' : Env} {P : Params} {s s' : List U8} (hg : B.gen = .aes) (hc : B.aes = .c)
    (h : 16 ≤ s.length) (h' : 16 ≤ s'.length) :
    Tells (genA_memory B E P s) (genA_memory B E' P s') (s.take 16 = s'.take 16) := by
  unfold genA_memory
  rw [hg, hc]
  simp only
  refine Tells.atFirst Rel.refl.same fun _ _ => ?_
  exact Tells.left (setup128_tells h h')

theorem as_plus_e_tells {B : Build} {E E' : Env} {P : Params} {a a' b b' : Nat}
    {out out' s s' e e' : List U16} {seed seed' : List U8} (hg : B.gen = .aes) (hc : B.aes = .c)
    (h : 16 ≤ seed.length) (h' : 16 ≤ seed'.length) :
    Tells (frodo_mul_add_as_plus_e B E P a b out s e seed) (frodo_mul_add_as_plus_e B E' P a' b' out' s' e' seed')
      (seed.take 16 = seed'.take 16) := by
  have hopt : Tells (as_plus_e_optimized B E P a b out s e seed) (as_plus_e_optimized B E' P a' b' out' s' e' seed')
      (seed.take 16 = seed'.take 16) := by
    unfold as_plus_e_optimized as_plus_e_optimized_full
    refine Tells.left ?_
    refine Tells.atFirst (Rel.for (I := fun _ _ => True) rfl rfl rfl trivial ?_) fun _ _ => ?_
    · intros
      ct_steps
    rw [hg, hc]
    exact Tells.left (setup128_tells h h')
  unfold frodo_mul_add_as_plus_e
  cases B.impl
  · unfold as_plus_e_reference as_plus_e_reference_full genA_reference
    exact Tells.left (Tells.left (Tells.left (genA_memory_tells hg hc h h')))
  · exact hopt
  · exact hopt

theorem sa_plus_e_tells {B : Build} {E E' : Env} {P : Params} {a a' : Nat}
    {out out' s s' e e' : List U16} {seed seed' : List U8} (hg : B.gen = .aes) (hc : B.aes = .c)
    (h : 16 ≤ seed.length) (h' : 16 ≤ seed'.length) :
    Tells (frodo_mul_add_sa_plus_e B E P a out s e seed) (frodo_mul_add_sa_plus_e B E' P a' out' s' e' seed')
      (seed.take 16 = seed'.take 16) := by
  have hopt : Tells (sa_plus_e_optimized B E P a out s e seed) (sa_plus_e_optimized B E' P a' out' s' e' seed')
      (seed.take 16 = seed'.take 16) := by
    unfold sa_plus_e_optimized sa_plus_e_optimized_full sa_plus_e_core
    simp only
    rw [hg, hc]
    exact Tells.left (Tells.left (Tells.left (setup128_tells h h')))
  unfold frodo_mul_add_sa_plus_e
  cases B.impl
  · unfold sa_plus_e_reference sa_plus_e_reference_full genA_reference
    exact Tells.left (Tells.left (Tells.left (Tells.left (genA_memory_tells hg hc h h'))))
  · exact hopt
  · exact hopt

theorem mulSA_tells {B : Build} {E E' : Env} {P : Params} {Bp Bp' Sp Sp' : List U16}
    {seed seed' : List U8} (hg : B.gen = .aes) (hc : B.aes = .c)
    (h : 16 ≤ seed.length) (h' : 16 ≤ seed'.length) :
    Tells (mulSA B E P Bp Sp seed) (mulSA B E' P Bp' Sp' seed') (seed.take 16 = seed'.take 16) := by
  unfold mulSA
  refine Tells.atFirst (Rel.ptr rfl).same fun _ _ => ?_
  exact Tells.left (sa_plus_e_tells hg hc h h')

/-! ## The KEM -/

theorem crypto_kem_keypair_tells {B : Build} {E E' : Env} {P : Params} {rb rb' : RandomBytes}
    {pk pk' sk sk' : List U8} (hA : P.seedA = 16) (hg : B.gen = .aes) (hc : B.aes = .c)
    (hl : 16 ≤ pk.length) (hl' : 16 ≤ pk'.length) {Q : Prop}
    (hrb : Rel (rb (uninit E.junk 41 8 (2 * P.bytes + P.seedA)) (P.bytes + P.bytes + P.seedA))
      (rb' (uninit E'.junk 41 8 (2 * P.bytes + P.seedA)) (P.bytes + P.bytes + P.seedA))
      (fun r r' => 2 * P.bytes + P.seedA ≤ r.1.length ∧ 2 * P.bytes + P.seedA ≤ r'.1.length ∧
        (P.shake.fn ((r.1.drop (2 * P.bytes)).take P.seedA) P.seedA =
          P.shake.fn ((r'.1.drop (2 * P.bytes)).take P.seedA) P.seedA → Q))) :
    Tells (crypto_kem_keypair B E P rb pk sk) (crypto_kem_keypair B E' P rb' pk' sk') Q := by
  unfold crypto_kem_keypair
  refine Rel.tells hrb ?_
  rintro ⟨R, rv⟩ ⟨R', rv'⟩ ⟨l1, l2, hQ⟩
  simp only at l1 l2 hQ ⊢
  refine Rel.tells (Rel.ptr rfl) ?_
  rintro _ _ ⟨rfl, rfl⟩
  refine Rel.tells (shake_rel.strengthen
    (shake_ret (by rw [List.length_drop]; omega) (by omega)).elim
    (shake_ret (by rw [List.length_drop]; omega) (by omega)).elim) ?_
  rintro _ _ ⟨-, rfl, rfl⟩
  refine Tells.atFirst (Rel.ptr rfl).same fun _ _ => ?_
  refine Tells.atFirst expandNoise_rel fun _ _ => ?_
  refine Tells.atFirst (Rel.ptr rfl).same fun _ _ => ?_
  refine Tells.left ((as_plus_e_tells hg hc ?_ ?_).mono ?_)
  · rw [List.length_append, length_shakeFn]; omega
  · rw [List.length_append, length_shakeFn]; omega
  · intro h
    rw [List.take_left' (by rw [length_shakeFn, hA]), List.take_left' (by rw [length_shakeFn, hA])] at h
    exact hQ h

theorem crypto_kem_enc_tells {B : Build} {E E' : Env} {P : Params} {rb rb' : RandomBytes}
    {ct ct' ss ss' pk pk' : List U8} (hg : B.gen = .aes) (hc : B.aes = .c)
    (h : 16 ≤ pk.length) (h' : 16 ≤ pk'.length) (hrb : ∀ b b' n, SameTrace (rb b n) (rb' b' n)) :
    Tells (crypto_kem_enc B E P rb ct ss pk) (crypto_kem_enc B E' P rb' ct' ss' pk') (pk.take 16 = pk'.take 16) := by
  unfold crypto_kem_enc
  refine Tells.atFirst shake_rel fun _ _ => ?_
  refine Tells.atFirst (Rel.ptr rfl).same fun _ _ => ?_
  refine Tells.atFirst (hrb _ _ _) fun _ _ => ?_
  refine Tells.atFirst shake_rel fun _ _ => ?_
  refine Tells.atFirst expandNoise_rel fun _ _ => ?_
  exact Tells.left (mulSA_tells hg hc h h')

theorem crypto_kem_dec_tells {B : Build} {E E' : Env} {P : Params} {a a' : Nat}
    {ss ss' ct ct' sk sk' : List U8} (hg : B.gen = .aes) (hc : B.aes = .c)
    (h : P.bytes + 16 ≤ sk.length) (h' : P.bytes + 16 ≤ sk'.length) :
    Tells (crypto_kem_dec B E P a ss ct sk) (crypto_kem_dec B E' P a' ss' ct' sk')
      ((sk.drop P.bytes).take 16 = (sk'.drop P.bytes).take 16) := by
  unfold crypto_kem_dec
  refine Tells.atFirst loadS_rel fun _ _ => ?_
  refine Tells.atFirst decryptMu_rel fun _ _ => ?_
  refine Tells.atFirst (Rel.memcpy rfl rfl rfl).same fun _ _ => ?_
  refine Tells.atFirst shake_rel fun _ _ => ?_
  refine Tells.atFirst expandNoise_rel fun _ _ => ?_
  refine Rel.tells (Rel.ptr rfl) ?_
  rintro _ _ ⟨rfl, rfl⟩
  exact Tells.left (mulSA_tells hg hc (by rw [List.length_drop]; omega) (by rw [List.length_drop]; omega))

end Frodo
