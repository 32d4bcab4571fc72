import Verif.C.Ct
import Verif.Model.Aes
import Verif.Proof.CtMatrix

/-! # Traces of AES

The portable AES looks up the S-box, so its trace depends on key and data; it depends on nothing
else.  The AES-NI code has the same trace for all inputs. -/

namespace Frodo

theorem Rel.refl {α : Type} {m : C α} : Rel m m (· = ·) := by
  intro a t b u h1 h2
  rw [h1] at h2
  injection h2 with e1 e2
  exact ⟨e2, e1⟩

theorem Rel.of_eq {α : Type} {m m' : C α} (h : m = m') : Rel m m' (· = ·) := by
  subst h; exact Rel.refl

/-- Two buffers of length `L` have the same first `n` elements (proof device). -/
def Agree {α : Type} (L n : Nat) (l l' : List α) : Prop :=
  (l.length = L ∧ l'.length = L) ∧ ∀ t, t < n → l[t]? = l'[t]?

theorem Rel.rd_agree {α : Type} {n i : Nat} {l l' : List α} (h : ∀ t, t < n → l[t]? = l'[t]?)
    (hi : i < n) : Rel (Frodo.rd l i) (Frodo.rd l' i) (· = ·) := by
  refine (Rel.rd rfl).mono ?_
  rintro a b ⟨h1, h2⟩
  rw [h i hi, h2] at h1
  exact (Option.some.inj h1).symm

theorem Agree.set {α : Type} {L n i : Nat} {l l' : List α} (h : Agree L n l l') (v : α)
    {m : Nat} (hm : ∀ t, t < m → t < n ∨ t = i) : Agree L m (l.set i v) (l'.set i v) := by
  refine ⟨by simp [h.1], fun t ht => ?_⟩
  rw [List.getElem?_set, List.getElem?_set, h.1.1, h.1.2]
  by_cases e : i = t
  · rw [if_pos e, if_pos e]
  · rw [if_neg e, if_neg e]
    exact h.2 t ((hm t ht).resolve_right (Ne.symm e))

theorem Rel.wr_agree {α : Type} {L n m i : Nat} {l l' : List α} {v w : α} (h : Agree L n l l')
    (hv : v = w) (hm : ∀ t, t < m → t < n ∨ t = i) :
    Rel (Frodo.wr l i v) (Frodo.wr l' i w) (Agree L m) := by
  subst hv
  refine (Rel.wr rfl).mono ?_
  rintro a b ⟨rfl, rfl⟩
  exact h.set v hm

theorem Agree.eq {α : Type} {n : Nat} {l l' : List α} (h : Agree n n l l') :
    l = l' := by
  refine List.ext_getElem? fun t => ?_
  by_cases ht : t < n
  · exact h.2 t ht
  · have := h.1
    rw [List.getElem?_eq_none (by omega), List.getElem?_eq_none (by omega)]

theorem schedRot_rel {l l' : List U8} {i Nk : Nat} (h : Agree 4 4 l l') :
    Rel (schedRot l i Nk) (schedRot l' i Nk) (Agree 4 4) := by
  unfold schedRot getSBoxValue
  refine Rel.bind (Rel.rd_agree h.2 (by omega)) ?_
  rintro k _ rfl
  refine Rel.bind (Rel.rd_agree h.2 (by omega)) ?_
  rintro x _ rfl
  refine Rel.bind (Rel.wr_agree (m := 4) h rfl (by omega)) fun l l' h => ?_
  refine Rel.bind (Rel.rd_agree h.2 (by omega)) ?_
  rintro x _ rfl
  refine Rel.bind (Rel.wr_agree (m := 4) h rfl (by omega)) fun l l' h => ?_
  refine Rel.bind (Rel.rd_agree h.2 (by omega)) ?_
  rintro x _ rfl
  refine Rel.bind (Rel.wr_agree (m := 4) h rfl (by omega)) fun l l' h => ?_
  refine Rel.bind (Rel.wr_agree (m := 4) h rfl (by omega)) fun l l' h => ?_
  have step : ∀ i, i < 4 → ∀ (l l' : List U8), Agree 4 4 l l' →
      Rel (do let x ← rd l i; let y ← rd sbox x.toNat; wr l i y)
        (do let x ← rd l' i; let y ← rd sbox x.toNat; wr l' i y) (Agree 4 4) := by
    intro i hi l l' h
    refine Rel.bind (Rel.rd_agree h.2 hi) ?_
    rintro x _ rfl
    refine Rel.bind Rel.refl ?_
    rintro y _ rfl
    exact Rel.wr_agree h rfl (by omega)
  have step' : ∀ (i : Nat) (l : List U8) (f : List U8 → C (List U8)), (do
      let x ← rd l i; let y ← rd sbox x.toNat; let l ← wr l i y; f l) =
      ((do let x ← rd l i; let y ← rd sbox x.toNat; wr l i y) >>= f) := by
    intro i l f; simp only [bind_assoc]
  rw [step', step']
  refine Rel.bind (step 0 (by omega) _ _ h) fun l l' h => ?_
  rw [step', step']
  refine Rel.bind (step 1 (by omega) _ _ h) fun l l' h => ?_
  rw [step', step']
  refine Rel.bind (step 2 (by omega) _ _ h) fun l l' h => ?_
  rw [step', step']
  refine Rel.bind (step 3 (by omega) _ _ h) fun l l' h => ?_
  refine Rel.bind (Rel.rd_agree h.2 (by omega)) ?_
  rintro x _ rfl
  refine Rel.bind Rel.refl ?_
  rintro y _ rfl
  exact Rel.wr_agree h rfl (by omega)

theorem schedSub_rel {l l' : List U8} (h : Agree 4 4 l l') :
    Rel (schedSub l) (schedSub l') (Agree 4 4) := by
  unfold schedSub getSBoxValue
  have step : ∀ i, i < 4 → ∀ (l l' : List U8), Agree 4 4 l l' →
      Rel (do let x ← rd l i; let y ← rd sbox x.toNat; wr l i y)
        (do let x ← rd l' i; let y ← rd sbox x.toNat; wr l' i y) (Agree 4 4) := by
    intro i hi l l' h
    refine Rel.bind (Rel.rd_agree h.2 hi) ?_
    rintro x _ rfl
    refine Rel.bind Rel.refl ?_
    rintro y _ rfl
    exact Rel.wr_agree h rfl (by omega)
  have step' : ∀ (i : Nat) (l : List U8) (f : List U8 → C (List U8)), (do
      let x ← rd l i; let y ← rd sbox x.toNat; let l ← wr l i y; f l) =
      ((do let x ← rd l i; let y ← rd sbox x.toNat; wr l i y) >>= f) := by
    intro i l f; simp only [bind_assoc]
  rw [step', step']
  refine Rel.bind (step 0 (by omega) _ _ h) fun l l' h => ?_
  rw [step', step']
  refine Rel.bind (step 1 (by omega) _ _ h) fun l l' h => ?_
  rw [step', step']
  refine Rel.bind (step 2 (by omega) _ _ h) fun l l' h => ?_
  exact step 3 (by omega) _ _ h

theorem schedStep_rel {L Nk i : Nat} (hN : 0 < Nk) (hi : Nk ≤ i) {s s' : List U8 × List U8}
    (h : Agree L (4 * i) s.1 s'.1 ∧ Agree 4 0 s.2 s'.2) :
    Rel (schedStep Nk i s) (schedStep Nk i s')
      (fun a b => Agree L (4 * (i + 1)) a.1 b.1 ∧ Agree 4 0 a.2 b.2) := by
  obtain ⟨rk, t⟩ := s
  obtain ⟨rk', t'⟩ := s'
  obtain ⟨h, h0⟩ := h
  simp only at h h0
  unfold schedStep
  simp only
  refine Rel.bind (Rel.rd_agree h.2 (by omega)) ?_
  rintro x _ rfl
  refine Rel.bind (Rel.wr_agree (m := 1) h0 rfl (by omega)) fun t t' h0 => ?_
  refine Rel.bind (Rel.rd_agree h.2 (by omega)) ?_
  rintro x _ rfl
  refine Rel.bind (Rel.wr_agree (m := 2) h0 rfl (by omega)) fun t t' h0 => ?_
  refine Rel.bind (Rel.rd_agree h.2 (by omega)) ?_
  rintro x _ rfl
  refine Rel.bind (Rel.wr_agree (m := 3) h0 rfl (by omega)) fun t t' h0 => ?_
  refine Rel.bind (Rel.rd_agree h.2 (by omega)) ?_
  rintro x _ rfl
  refine Rel.bind (Rel.wr_agree (m := 4) h0 rfl (by omega)) fun t t' h0 => ?_
  refine Rel.bind (Rel.ifC rfl (fun _ => schedRot_rel h0) (fun _ => Rel.pure h0)) fun t t' h0 => ?_
  refine Rel.bind (Rel.ifC rfl (fun _ => schedSub_rel h0) (fun _ => Rel.pure h0)) fun t t' h0 => ?_
  refine Rel.bind (Rel.rd_agree h.2 (by omega)) ?_
  rintro x _ rfl
  refine Rel.bind (Rel.rd_agree h0.2 (by omega)) ?_
  rintro y _ rfl
  refine Rel.bind (Rel.wr_agree (m := 4 * i + 1) h rfl (by omega)) fun r r' h => ?_
  refine Rel.bind (Rel.rd_agree h.2 (by omega)) ?_
  rintro x _ rfl
  refine Rel.bind (Rel.rd_agree h0.2 (by omega)) ?_
  rintro y _ rfl
  refine Rel.bind (Rel.wr_agree (m := 4 * i + 2) h rfl (by omega)) fun r r' h => ?_
  refine Rel.bind (Rel.rd_agree h.2 (by omega)) ?_
  rintro x _ rfl
  refine Rel.bind (Rel.rd_agree h0.2 (by omega)) ?_
  rintro y _ rfl
  refine Rel.bind (Rel.wr_agree (m := 4 * i + 3) h rfl (by omega)) fun r r' h => ?_
  refine Rel.bind (Rel.rd_agree h.2 (by omega)) ?_
  rintro x _ rfl
  refine Rel.bind (Rel.rd_agree h0.2 (by omega)) ?_
  rintro y _ rfl
  refine Rel.bind (Rel.wr_agree (m := 4 * (i + 1)) h rfl (by omega)) fun r r' h => ?_
  exact Rel.pure ⟨h, h0.1, by omega⟩

/-- A counting loop with a relation that depends on the number of iterations done. -/
theorem Rel.forIdx {σ τ : Type} {lo hi : Nat} {f : Nat → σ → C σ} {g : Nat → τ → C τ} {s : σ} {t : τ}
    (I : Nat → σ → τ → Prop) (h0 : I lo s t) (hle : lo ≤ hi)
    (h : ∀ i s t, lo ≤ i → i < hi → I i s t → Rel (f i s) (g i t) (I (i + 1))) :
    Rel (forC lo hi 1 s f) (forC lo hi 1 t g) (I hi) := by
  unfold forC
  have key : ∀ m i s t, lo ≤ i → i + m = hi → I i s t →
      Rel (Frodo.forLoop 1 f m i s) (Frodo.forLoop 1 g m i t) (I hi) := by
    intro m
    induction m with
    | zero =>
      intro i s t _ hm hI
      unfold Frodo.forLoop
      refine Rel.bind (Rel.emit _) fun _ _ _ => Rel.pure ?_
      have : i = hi := by omega
      exact this ▸ hI
    | succ m ih =>
      intro i s t hl hm hI
      unfold Frodo.forLoop
      refine Rel.bind (Rel.emit _) fun _ _ _ => ?_
      refine Rel.bind (h i s t hl (by omega) hI) fun s t hI => ?_
      exact ih (i + 1) s t (by omega) (by omega) hI
  have e : (hi - lo + (1 - 1)) / 1 = hi - lo := by simp
  rw [e]
  exact key _ _ _ _ (Nat.le_refl _) (by omega) h0

theorem load_schedule_c_rel {J J' : Junk} {L Nk Nr : Nat} {key key' rk rk' : List U8}
    (hN : 0 < Nk) (hle : Nk ≤ 4 * (Nr + 1)) (hk : ∀ t, t < 4 * Nk → key[t]? = key'[t]?)
    (hl : rk.length = L) (hl' : rk'.length = L) :
    Rel (load_schedule_c J Nk Nr key rk) (load_schedule_c J' Nk Nr key' rk')
      (Agree L (16 * (Nr + 1))) := by
  unfold load_schedule_c
  refine Rel.bind (Rel.forIdx (fun i => Agree L (4 * i)) ⟨⟨hl, hl'⟩, by omega⟩ (by omega) ?_) ?_
  · intro i l l' _ hi h
    refine Rel.bind (Rel.rd_agree hk (by omega)) ?_
    rintro x _ rfl
    refine Rel.bind (Rel.wr_agree (m := 4 * i + 1) h rfl (by omega)) fun l l' h => ?_
    refine Rel.bind (Rel.rd_agree hk (by omega)) ?_
    rintro x _ rfl
    refine Rel.bind (Rel.wr_agree (m := 4 * i + 2) h rfl (by omega)) fun l l' h => ?_
    refine Rel.bind (Rel.rd_agree hk (by omega)) ?_
    rintro x _ rfl
    refine Rel.bind (Rel.wr_agree (m := 4 * i + 3) h rfl (by omega)) fun l l' h => ?_
    refine Rel.bind (Rel.rd_agree hk (by omega)) ?_
    rintro x _ rfl
    exact Rel.wr_agree (m := 4 * (i + 1)) h rfl (by omega)
  · intro l l' h
    refine Rel.bind (Rel.forIdx (fun i s s' => Agree L (4 * i) s.1 s'.1 ∧ Agree 4 0 s.2 s'.2)
      ⟨h, by simp, by omega⟩ hle ?_) ?_
    · intro i s s' hi _ hI
      exact schedStep_rel hN hi hI
    · rintro s s' ⟨h1, _⟩
      exact Rel.pure ⟨h1.1, fun t ht => h1.2 t (by omega)⟩

theorem mm_loadu_rel {l l' : List U8} {i : Nat} : SameTrace (mm_loadu l i) (mm_loadu l' i) := by
  unfold mm_loadu
  refine Rel.bind Rel.require fun _ _ _ => ?_
  refine Rel.bind (Rel.emit _) fun _ _ _ => Rel.pure trivial

theorem mm_storeu_rel {l l' : List U8} {i : Nat} {v v' : M128} :
    SameTrace (mm_storeu l i v) (mm_storeu l' i v') := by
  unfold mm_storeu
  refine Rel.bind Rel.require fun _ _ _ => ?_
  refine Rel.bind (Rel.emit _) fun _ _ _ => Rel.pure trivial

theorem mm_get_rel {a a' : Nat} {l l' : List U8} {i : Nat} :
    SameTrace (mm_get a l i) (mm_get a' l' i) := by
  unfold mm_get
  exact Rel.bind Rel.require fun _ _ _ => mm_loadu_rel

theorem mm_put_rel {a a' : Nat} {l l' : List U8} {i : Nat} {v v' : M128} :
    SameTrace (mm_put a l i v) (mm_put a' l' i v') := by
  unfold mm_put
  exact Rel.bind Rel.require fun _ _ _ => mm_storeu_rel

theorem key_exp_ni_rel {a a' : Nat} {l l' : List U8} {i j : Nat} {r : U8} :
    SameTrace (key_exp_ni a l j i r) (key_exp_ni a' l' j i r) := by
  unfold key_exp_ni
  exact Rel.bind mm_get_rel fun _ _ _ => mm_put_rel

theorem key_exp256_ni_rel {a a' : Nat} {l l' : List U8} {i j k : Nat} {r : U8} :
    SameTrace (key_exp256_ni a l j i k r) (key_exp256_ni a' l' j i k r) := by
  unfold key_exp256_ni
  exact Rel.bind mm_get_rel fun _ _ _ => Rel.bind mm_get_rel fun _ _ _ => mm_put_rel

theorem key_exp256b_ni_rel {a a' : Nat} {l l' : List U8} {i j k : Nat} {r : U8} :
    SameTrace (key_exp256b_ni a l j i k r) (key_exp256b_ni a' l' j i k r) := by
  unfold key_exp256b_ni
  exact Rel.bind mm_get_rel fun _ _ _ => Rel.bind mm_get_rel fun _ _ _ => mm_put_rel

theorem aes128_load_schedule_ni_rel {a a' : Nat} {key key' l l' : List U8} :
    SameTrace (aes128_load_schedule_ni a key l) (aes128_load_schedule_ni a' key' l') := by
  unfold aes128_load_schedule_ni
  refine Rel.bind mm_loadu_rel fun _ _ _ => ?_
  refine Rel.bind mm_put_rel fun _ _ _ => ?_
  repeat (refine Rel.bind key_exp_ni_rel fun _ _ _ => ?_)
  exact key_exp_ni_rel

theorem aes256_load_schedule_ni_rel {a a' : Nat} {key key' l l' : List U8} :
    SameTrace (aes256_load_schedule_ni a key l) (aes256_load_schedule_ni a' key' l') := by
  unfold aes256_load_schedule_ni
  refine Rel.bind mm_loadu_rel fun _ _ _ => ?_
  refine Rel.bind mm_put_rel fun _ _ _ => ?_
  refine Rel.bind mm_loadu_rel fun _ _ _ => ?_
  refine Rel.bind mm_put_rel fun _ _ _ => ?_
  refine Rel.bind key_exp256_ni_rel fun _ _ _ => ?_
  refine Rel.bind key_exp256b_ni_rel fun _ _ _ => ?_
  refine Rel.bind key_exp256_ni_rel fun _ _ _ => ?_
  refine Rel.bind key_exp256b_ni_rel fun _ _ _ => ?_
  refine Rel.bind key_exp256_ni_rel fun _ _ _ => ?_
  refine Rel.bind key_exp256b_ni_rel fun _ _ _ => ?_
  refine Rel.bind key_exp256_ni_rel fun _ _ _ => ?_
  refine Rel.bind key_exp256b_ni_rel fun _ _ _ => ?_
  refine Rel.bind key_exp256_ni_rel fun _ _ _ => ?_
  refine Rel.bind key_exp256b_ni_rel fun _ _ _ => ?_
  refine Rel.bind key_exp256_ni_rel fun _ _ _ => ?_
  refine Rel.bind key_exp256b_ni_rel fun _ _ _ => ?_
  exact key_exp256_ni_rel

theorem aes128_enc_ni_rel {a a' : Nat} {p p' s s' c c' : List U8} :
    SameTrace (aes128_enc_ni a p s c) (aes128_enc_ni a' p' s' c') := by
  unfold aes128_enc_ni
  refine Rel.bind mm_loadu_rel fun _ _ _ => ?_
  refine Rel.bind mm_get_rel fun _ _ _ => ?_
  ct_for
  · exact Rel.bind mm_get_rel fun _ _ _ => Rel.pure trivial
  · refine Rel.bind mm_get_rel fun _ _ _ => ?_
    exact mm_storeu_rel

theorem aes256_enc_ni_rel {a a' : Nat} {p p' s s' c c' : List U8} :
    SameTrace (aes256_enc_ni a p s c) (aes256_enc_ni a' p' s' c') := by
  unfold aes256_enc_ni
  refine Rel.bind mm_loadu_rel fun _ _ _ => ?_
  refine Rel.bind mm_get_rel fun _ _ _ => ?_
  ct_for
  · exact Rel.bind mm_get_rel fun _ _ _ => Rel.pure trivial
  · refine Rel.bind mm_get_rel fun _ _ _ => ?_
    exact mm_storeu_rel

/-- How much two executions have in common: everything for the portable AES, nothing for AES-NI
(proof device). -/
def AesImpl.same (I : AesImpl) {α : Type} (x y : α) : Prop := I = .c → x = y

theorem AES128_load_schedule_rel {I : AesImpl} {J J' : Junk} {a a' : Nat} {key key' rk rk' : List U8}
    (hk : I = .c → ∀ t, t < 16 → key[t]? = key'[t]?) (hl : rk.length = 176) (hl' : rk'.length = 176) :
    Rel (AES128_load_schedule I J a key rk) (AES128_load_schedule I J' a' key' rk') I.same := by
  cases I
  · unfold AES128_load_schedule aes128_load_schedule_c
    exact (load_schedule_c_rel (by omega) (by omega) (hk rfl) hl hl').mono fun l l' h _ => h.eq
  · exact aes128_load_schedule_ni_rel.mono fun _ _ _ h => nomatch h

theorem AES256_load_schedule_rel {I : AesImpl} {J J' : Junk} {a a' : Nat} {key key' rk rk' : List U8}
    (hk : I = .c → ∀ t, t < 32 → key[t]? = key'[t]?) (hl : rk.length = 240) (hl' : rk'.length = 240) :
    Rel (AES256_load_schedule I J a key rk) (AES256_load_schedule I J' a' key' rk') I.same := by
  cases I
  · unfold AES256_load_schedule aes256_load_schedule_c
    exact (load_schedule_c_rel (by omega) (by omega) (hk rfl) hl hl').mono fun l l' h _ => h.eq
  · exact aes256_load_schedule_ni_rel.mono fun _ _ _ h => nomatch h

theorem AES128_ECB_enc_sch_rel {I : AesImpl} {a a' n : Nat} {p p' s s' c c' : List U8}
    (hp : I.same p p') (hs : I.same s s') (hc : I.same c c') :
    Rel (AES128_ECB_enc_sch I a p n s c) (AES128_ECB_enc_sch I a' p' n s' c') I.same := by
  cases I
  · rw [hp rfl, hs rfl, hc rfl]
    exact Rel.refl.mono fun _ _ h _ => h
  · refine Rel.mono (R := fun _ _ => True) ?_ fun _ _ _ h => nomatch h
    unfold AES128_ECB_enc_sch
    refine Rel.bind Rel.require fun _ _ _ => ?_
    ct_for
    ct_step
    exact (Rel.atPtr rfl aes128_enc_ni_rel).same

theorem AES128_ECB_enc_sch_inplace_rel {I : AesImpl} {a a' n : Nat} {s s' c c' : List U8}
    (hs : I.same s s') (hc : I.same c c') :
    Rel (AES128_ECB_enc_sch_inplace I a n s c) (AES128_ECB_enc_sch_inplace I a' n s' c') I.same := by
  cases I
  · rw [hs rfl, hc rfl]
    exact Rel.refl.mono fun _ _ h _ => h
  · refine Rel.mono (R := fun _ _ => True) ?_ fun _ _ _ h => nomatch h
    unfold AES128_ECB_enc_sch_inplace
    refine Rel.bind Rel.require fun _ _ _ => ?_
    ct_for
    ct_step
    exact (Rel.atPtr rfl aes128_enc_ni_rel).same

theorem AES256_ECB_enc_sch_rel {I : AesImpl} {a a' n : Nat} {p p' s s' c c' : List U8}
    (hp : I.same p p') (hs : I.same s s') (hc : I.same c c') :
    Rel (AES256_ECB_enc_sch I a p n s c) (AES256_ECB_enc_sch I a' p' n s' c') I.same := by
  cases I
  · rw [hp rfl, hs rfl, hc rfl]
    exact Rel.refl.mono fun _ _ h _ => h
  · refine Rel.mono (R := fun _ _ => True) ?_ fun _ _ _ h => nomatch h
    unfold AES256_ECB_enc_sch
    refine Rel.bind Rel.require fun _ _ _ => ?_
    ct_for
    ct_step
    exact (Rel.atPtr rfl aes256_enc_ni_rel).same

end Frodo
