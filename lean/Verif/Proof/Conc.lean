import Verif.Spec.Conc
import Verif.C.Logic
import Verif.C.Nth

/-! # Interleaved threads -/

namespace Frodo.Conc

open C

/-! ## Code on the block, run alone -/

/-- `s` alone on a block (proof device). -/
def SProg.runC : SProg α → List U8 → C (α × List U8)
  | .ret a, b => pure (a, b)
  | .loc m k, b => m >>= fun x => (k x).runC b
  | .ld i k, b => rd b i >>= fun v => (k v).runC b
  | .st i v k, b => wr b i v >>= fun b => k.runC b

theorem runC_bind (s : SProg α) (f : α → SProg β) (b : List U8) :
    (s >>= f).runC b = s.runC b >>= fun p => (f p.1).runC p.2 := by
  show (s.bind' f).runC b = _
  induction s generalizing b with
  | ret a => simp [SProg.bind', SProg.runC]
  | loc m k ih => simp only [SProg.bind', SProg.runC, ih, bind_assoc]
  | ld i k ih => simp only [SProg.bind', SProg.runC, ih, bind_assoc]
  | st i v k ih => simp only [SProg.bind', SProg.runC, ih, bind_assoc]

theorem runC_pure (a : α) (b : List U8) : (pure a : SProg α).runC b = pure (a, b) := rfl

theorem runC_ldS (i : Nat) (b : List U8) : (ldS i).runC b = rd b i >>= fun v => pure (v, b) := rfl

theorem runC_stS (i : Nat) (v : U8) (b : List U8) :
    (stS i v).runC b = wr b i v >>= fun b => pure ((), b) := rfl

theorem runC_locS (m : C α) (b : List U8) : (locS m).runC b = m >>= fun v => pure (v, b) := rfl

/-- `s` does what the sequential `f` does (proof device). -/
def Does (s : SProg Unit) (f : List U8 → C (List U8)) : Prop :=
  ∀ b, s.runC b = f b >>= fun b => pure ((), b)

theorem Does.loop {body : Nat → SProg Unit} {f : Nat → List U8 → C (List U8)}
    (h : ∀ i, Does (body i) (f i)) (k i : Nat) : Does (loopS body k i) (forLoop 1 f k i) := by
  induction k generalizing i with
  | zero => intro b; simp [loopS, forLoop, runC_locS]
  | succ k ih =>
    intro b
    simp only [loopS, forLoop, runC_bind, runC_locS, bind_assoc, pure_bind, h i _, ih _ _]

theorem Does.for {body : Nat → SProg Unit} {f : Nat → List U8 → C (List U8)}
    (h : ∀ i, Does (body i) (f i)) (lo hi : Nat) :
    Does (forS lo hi body) (fun b => forC lo hi 1 b f) := by
  intro b
  unfold forS forC
  rw [Does.loop h, show (hi - lo + (1 - 1)) / 1 = hi - lo by omega]

theorem does_addRoundKey (rk : List U8) (r : Nat) : Does (addRoundKey_s rk r) (addRoundKey_c rk r) := by
  unfold addRoundKey_s addRoundKey_c
  refine Does.for (fun i => Does.for (fun j => ?_) 0 4) 0 4
  intro b
  simp only [runC_bind, runC_ldS, runC_stS, runC_locS, bind_assoc, pure_bind]

theorem does_subBytes : Does subBytes_s subBytes_c := by
  unfold subBytes_s
  refine Does.for (fun i => Does.for (fun j => ?_) 0 4) 0 4
  intro b
  simp only [runC_bind, runC_ldS, runC_stS, runC_locS, bind_assoc, pure_bind]

theorem does_shiftRows : Does shiftRows_s shiftRows_c := by
  intro b
  unfold shiftRows_s shiftRows_c
  simp only [runC_bind, runC_ldS, runC_stS, runC_locS, bind_assoc, pure_bind]

theorem does_mixColumns : Does mixColumns_s mixColumns_c := by
  unfold mixColumns_s
  refine Does.for (fun i => ?_) 0 4
  intro b
  unfold mixColumn_s mixColumn_c
  simp only [runC_bind, runC_ldS, runC_stS, runC_locS, bind_assoc, pure_bind]

theorem does_cipher (rk : List U8) (Nr : Nat) : Does (cipher_s rk Nr) (cipher_c rk Nr) := by
  intro b
  unfold cipher_s cipher_c
  simp only [runC_bind, does_addRoundKey rk _ _, bind_assoc, pure_bind]
  have h := fun b => Does.for (body := fun round => (do
    subBytes_s
    shiftRows_s
    mixColumns_s
    addRoundKey_s rk round)) (f := fun round st => do
    let st ← subBytes_c st
    let st ← shiftRows_c st
    let st ← mixColumns_c st
    addRoundKey_c rk round st) (by
      intro i b
      simp only [runC_bind, does_subBytes _, does_shiftRows _, does_mixColumns _,
        does_addRoundKey rk _ _, bind_assoc, pure_bind]) 1 Nr b
  simp only [h, does_subBytes _, does_shiftRows _, bind_assoc, pure_bind]

/-! ## One thread as if it were alone -/

/-- The result of thread `t` when nobody else touches its memory and, while it is inside, `state`
(proof device). -/
def own (t : Nat) : Prog β → List U8 → Option Nat → Option β
  | .ret b, _, none => some b
  | .ret _, _, some _ => none
  | .loc m k, b, a =>
    match m with
    | .ok x _ => own t (k x) b a
    | _ => none
  | .getPtr k, b, a =>
    match a with
    | some o => own t (k ⟨t, o⟩) b (some o)
    | none => none
  | .setPtr p k, b, _ => if p.obj = t then own t k b (some p.off) else none
  | .load p k, b, a =>
    if p.obj = t then
      match b[p.off]? with
      | some v => own t (k v) b a
      | none => none
    else none
  | .store p v k, b, a =>
    if p.obj = t ∧ p.off < b.length then own t k (b.set p.off v) a else none
  | .leave k, b, _ => own t k b none

theorem rd_ok {b : List U8} {i : Nat} {v : U8} {tr : List Event} (h : rd b i = .ok v tr) :
    b[i]? = some v := by
  unfold rd at h
  cases hb : b[i]? with
  | none => rw [hb] at h; cases h
  | some w => rw [hb] at h; cases h; rfl

theorem wr_ok {b b' : List U8} {i : Nat} {v : U8} {tr : List Event} (h : wr b i v = .ok b' tr) :
    i < b.length ∧ b' = b.set i v := by
  unfold wr at h
  by_cases hi : i < b.length
  · rw [if_pos hi] at h; cases h; exact ⟨hi, rfl⟩
  · rw [if_neg hi] at h; cases h

theorem bind_ok {m : C α} {f : α → C β} {b : β} {tr : List Event} (h : (m >>= f) = .ok b tr) :
    ∃ a tr1 tr2, m = .ok a tr1 ∧ f a = .ok b tr2 := by
  cases m with
  | div => cases h
  | ub u => cases h
  | ok a t =>
    rw [C.bind_def] at h
    unfold C.bind' at h
    simp only at h
    cases hf : f a with
    | div => rw [hf] at h; cases h
    | ub u => rw [hf] at h; cases h
    | ok c t' => rw [hf] at h; cases h; exact ⟨a, _, _, rfl, hf⟩

theorem getElem?_append_drop {l : List U8} {a i : Nat} (ha : a ≤ l.length) :
    (l.drop a)[i]? = l[a + i]? := by
  rw [List.getElem?_drop]

theorem own_toProg {t a : Nat} {s : SProg α} {κ : α → Prog β} {m b' : List U8} {x : α}
    {tr : List Event} (ha : a ≤ m.length) (h : s.runC (m.drop a) = .ok (x, b') tr) :
    own t (s.toProg κ) m (some a) = own t (κ x) (m.take a ++ b') (some a) := by
  induction s generalizing m tr with
  | ret y =>
    cases h
    rw [SProg.toProg, List.take_append_drop]
  | loc c k ih =>
    obtain ⟨y, _, _, h1, h2⟩ := bind_ok h
    subst h1
    rw [SProg.toProg, own]
    exact ih _ ha h2
  | ld i k ih =>
    obtain ⟨y, _, _, h1, h2⟩ := bind_ok h
    have h3 := rd_ok h1
    rw [List.getElem?_drop] at h3
    rw [SProg.toProg, own]
    simp only
    rw [own, if_pos rfl]
    simp only [h3]
    exact ih _ ha h2
  | st i v k ih =>
    obtain ⟨y, _, _, h1, h2⟩ := bind_ok h
    obtain ⟨h3, rfl⟩ := wr_ok h1
    rw [List.length_drop] at h3
    rw [SProg.toProg, own]
    simp only
    rw [own, if_pos ⟨rfl, by show a + i < _; omega⟩]
    have e : (m.set (a + i) v).drop a = (m.drop a).set i v := by
      rw [List.drop_set, if_neg (by omega)]; congr 1; omega
    have e2 : (m.set (a + i) v).take a = m.take a := by
      rw [List.take_set, List.set_eq_of_length_le (by rw [List.length_take]; omega)]
    have := ih (m := m.set (a + i) v) (tr := _) (by simpa using ha) (by rw [e]; exact h2)
    rw [this, e2]

theorem own_stores {t off : Nat} {l m : List U8} {κ : Prog β} {a : Option Nat}
    (h : off + l.length ≤ m.length) : own t (stores ⟨t, off⟩ l κ) m a =
      own t κ (m.take off ++ l ++ m.drop (off + l.length)) a := by
  induction l generalizing off m with
  | nil => rw [stores, List.append_nil, List.length_nil, Nat.add_zero, List.take_append_drop]
  | cons v l ih =>
    rw [List.length_cons] at h
    have hlt : off < m.length := by omega
    rw [stores, own, if_pos ⟨rfl, hlt⟩]
    rw [ih (off := off + 1) (by rw [List.length_set]; omega)]
    congr 1
    rw [List.length_cons]
    have e1 : (m.set off v).take (off + 1) = m.take off ++ [v] := by
      rw [List.take_set, List.take_succ_eq_append_getElem (by omega), List.set_append_right _ _ (by rw [List.length_take]; omega)]
      congr 1
      rw [List.length_take, Nat.min_eq_left (by omega), Nat.sub_self]
      rfl
    have e2 : (m.set off v).drop (off + 1 + l.length) = m.drop (off + (l.length + 1)) := by
      rw [List.drop_set_of_lt (by omega)]; congr 1; omega
    rw [e1, e2]
    simp

theorem own_loads {t off n : Nat} {m : List U8} {κ : List U8 → Prog β} {a : Option Nat}
    (h : off + n ≤ m.length) : own t (loads ⟨t, off⟩ n κ) m a =
      own t (κ ((m.drop off).take n)) m a := by
  induction n generalizing off κ with
  | zero => rw [loads, List.take_zero]
  | succ n ih =>
    rw [loads, own, if_pos rfl, List.getElem?_eq_getElem (by show off < _; omega)]
    simp only
    rw [ih (by omega), List.drop_eq_getElem_cons (show off < m.length by omega), List.take_succ_cons]

theorem memcpy_ok {dst src b : List U8} {n : Nat} {tr : List Event}
    (h : memcpy dst 0 src 0 n = .ok b tr) :
    n ≤ src.length ∧ n ≤ dst.length ∧ b = src.take n ++ dst.drop n := by
  unfold memcpy at h
  by_cases h1 : 0 + n ≤ src.length
  · rw [if_pos h1] at h
    by_cases h2 : 0 + n ≤ dst.length
    · rw [if_pos h2] at h
      cases h
      refine ⟨by omega, by omega, ?_⟩
      rw [List.take_zero, List.drop_zero, List.nil_append, Nat.zero_add]
    · rw [if_neg h2] at h; cases h
  · rw [if_neg h1] at h; cases h

theorem atPtr_ok {m m' : List U8} {off : Nat} {f : List U8 → C (List U8)} {tr : List Event}
    (h : atPtr m off f = .ok m' tr) :
    off ≤ m.length ∧ ∃ s tr', f (m.drop off) = .ok s tr' ∧ m' = m.take off ++ s := by
  unfold atPtr at h
  by_cases h1 : off ≤ m.length
  · rw [if_pos h1] at h
    obtain ⟨_, _, _, _, h⟩ := bind_ok h
    obtain ⟨s, _, _, h2, h3⟩ := bind_ok h
    cases h3
    exact ⟨h1, s, _, h2, rfl⟩
  · rw [if_neg h1] at h; cases h

theorem ptr_ok {m p : List U8} {off : Nat} {tr : List Event} (h : ptr m off = .ok p tr) :
    off ≤ m.length ∧ p = m.drop off := by
  unfold ptr at h
  by_cases h1 : off ≤ m.length
  · rw [if_pos h1] at h; cases h; exact ⟨h1, rfl⟩
  · rw [if_neg h1] at h; cases h

theorem enc_ok {w : Which} {input schedule out b : List U8} {tr : List Event}
    (h : w.enc input schedule out = .ok b tr) :
    16 ≤ input.length ∧ 16 ≤ out.length ∧
      ∃ tr', (cipher_s schedule w.rounds).runC (input.take 16 ++ out.drop 16) = .ok ((), b) tr' := by
  have h' : (memcpy out 0 input 0 16 >>= fun o => cipher_c schedule w.rounds o) = .ok b tr := by
    cases w <;> exact h
  obtain ⟨o, _, _, h1, h2⟩ := bind_ok h'
  obtain ⟨h3, h4, rfl⟩ := memcpy_ok h1
  refine ⟨h3, h4, ?_⟩
  rw [does_cipher, h2]
  exact ⟨_, rfl⟩

theorem runC_length {s : SProg α} {b b' : List U8} {x : α} {tr : List Event}
    (h : s.runC b = .ok (x, b') tr) : b'.length = b.length := by
  induction s generalizing b tr with
  | ret y => cases h; rfl
  | loc c k ih =>
    obtain ⟨y, _, _, h1, h2⟩ := bind_ok h
    exact ih _ h2
  | ld i k ih =>
    obtain ⟨y, _, _, h1, h2⟩ := bind_ok h
    exact ih _ h2
  | st i v k ih =>
    obtain ⟨y, _, _, h1, h2⟩ := bind_ok h
    obtain ⟨h3, rfl⟩ := wr_ok h1
    rw [ih h2, List.length_set]

/-- What a call does to the memory of its thread (proof device). -/
theorem call_ok {w : Which} {input schedule m : List U8} {off : Nat} {k : List U8 → Thread β} {b : β}
    {tr : List Event} (h : (Thread.call w input schedule off k).alone m = .ok b tr) :
    16 ≤ input.length ∧ off + 16 ≤ m.length ∧ ∃ s tr' tr'',
      (cipher_s schedule w.rounds).runC ((m.take off ++ input.take 16 ++ m.drop (off + 16)).drop off) =
        .ok ((), s) tr' ∧ s.length + off = m.length ∧
      (k (s.take 16)).alone (m.take off ++ s) = .ok b tr'' := by
  rw [Thread.alone] at h
  obtain ⟨m', _, _, h1, h⟩ := bind_ok h
  obtain ⟨p, _, _, h2, h⟩ := bind_ok h
  obtain ⟨h3, s, _, h4, rfl⟩ := atPtr_ok h1
  obtain ⟨h5, rfl⟩ := ptr_ok h2
  obtain ⟨h6, h7, _, h8⟩ := enc_ok h4
  rw [List.length_drop] at h7
  have e : (m.take off ++ input.take 16 ++ m.drop (off + 16)).drop off =
      input.take 16 ++ (m.drop off).drop 16 := by
    rw [List.append_assoc, List.drop_left' (by rw [List.length_take]; omega), List.drop_drop]
  have h9 := runC_length h8
  have h10 : s.length + off = m.length := by
    rw [h9]; simp; omega
  have e2 : (m.take off ++ s).drop off = s := List.drop_left' (by rw [List.length_take]; omega)
  rw [e2] at h
  exact ⟨h6, by omega, s, _, _, by rw [e]; exact h8, h10, h⟩

theorem own_thread {t : Nat} {T : Thread β} {m : List U8} {b : β} {tr : List Event}
    (h : T.alone m = .ok b tr) : own t (T.prog t) m none = some b := by
  induction T generalizing m tr with
  | done x => cases h; rfl
  | priv c k ih =>
    obtain ⟨y, _, _, h1, h2⟩ := bind_ok h
    subst h1
    rw [Thread.prog, own]
    exact ih _ h2
  | call w input schedule off k ih =>
    obtain ⟨h1, h2, s, _, _, h3, h4, h5⟩ := call_ok h
    have hl : (input.take 16).length = 16 := by rw [List.length_take]; omega
    have hr : require (16 ≤ input.length) .oobRead = (.ok () [] : C Unit) := by
      unfold require; rw [if_pos h1]; rfl
    rw [Thread.prog, hr, own, own_stores (by rw [hl]; omega), hl, own, if_pos rfl,
      own_toProg (by simp; omega) h3, own]
    have e1 : (m.take off ++ input.take 16 ++ m.drop (off + 16)).take off = m.take off := by
      rw [List.append_assoc]; exact List.take_left' (by rw [List.length_take]; omega)
    rw [e1, own_loads (by simp; omega), List.drop_left' (by rw [List.length_take]; omega)]
    exact ih _ h5

/-! ## Schedules -/

/-- Every thread is on its way to `b t`, and `state` points to the block of the thread that is inside
(proof device). -/
structure Inv (b : Nat → β) (c : Conf β) : Prop where
  own : ∀ t, own t (c.thr t) (c.mem t) (c.inside t) = some (b t)
  ptr : ∀ t a, c.inside t = some a → c.ptr = some ⟨t, a⟩

theorem Inv.step {b : Nat → β} {c : Conf β} {t : Nat} (h : Inv b c)
    (hs : Enters c t → ∀ u, u ≠ t → c.inside u = none) : ∃ c', step t c = some c' ∧ Inv b c' := by
  have ht := h.own t
  unfold Conc.step
  cases hp : c.thr t with
  | ret x => exact ⟨c, rfl, h⟩
  | loc m k =>
    rw [hp] at ht
    cases m with
    | div => rw [Conc.own] at ht; cases ht; nofun
    | ub u => rw [Conc.own] at ht; cases ht; nofun
    | ok x tr =>
      rw [Conc.own] at ht
      refine ⟨_, rfl, ⟨fun u => ?_, h.ptr⟩⟩
      by_cases hu : u = t
      · subst hu; simpa using ht
      · simpa [hu] using h.own u
  | getPtr k =>
    cases hi : c.inside t with
    | none => rw [hp, hi, Conc.own] at ht; cases ht
    | some a =>
      rw [hp, hi, Conc.own] at ht
      rw [h.ptr t a hi]
      refine ⟨_, rfl, ⟨fun u => ?_, fun u a' hu => by rw [← h.ptr u a' hu, h.ptr t a hi]⟩⟩
      by_cases hu : u = t
      · subst hu; simpa [hi] using ht
      · simpa [hu] using h.own u
  | setPtr p k =>
    rw [hp, Conc.own] at ht
    by_cases hpo : p.obj = t
    · rw [if_pos hpo] at ht
      have hn := hs ⟨p, k, hp⟩
      refine ⟨_, rfl, ⟨fun u => ?_, fun u a hu2 => ?_⟩⟩
      · by_cases hu : u = t
        · subst hu; simpa using ht
        · simpa [hu] using h.own u
      · by_cases hu : u = t
        · subst hu
          simp only [Function.update_self, Option.some.injEq] at hu2
          subst hu2
          rw [← hpo]
        · simp only [ne_eq, hu, not_false_eq_true, Function.update_of_ne] at hu2
          rw [hn u hu] at hu2
          cases hu2
    · rw [if_neg hpo] at ht; cases ht
  | load p k =>
    rw [hp, Conc.own] at ht
    by_cases hpo : p.obj = t
    · rw [if_pos hpo] at ht
      simp only
      rw [hpo]
      cases hv : (c.mem t)[p.off]? with
      | none => rw [hv] at ht; cases ht
      | some v =>
        rw [hv] at ht
        refine ⟨_, rfl, ⟨fun u => ?_, h.ptr⟩⟩
        by_cases hu : u = t
        · subst hu; simpa using ht
        · simpa [hu] using h.own u
    · rw [if_neg hpo] at ht; cases ht
  | store p v k =>
    rw [hp, Conc.own] at ht
    by_cases hpo : p.obj = t ∧ p.off < (c.mem t).length
    · rw [if_pos hpo] at ht
      obtain ⟨h1, h2⟩ := hpo
      simp only
      rw [h1, if_pos h2]
      refine ⟨_, rfl, ⟨fun u => ?_, h.ptr⟩⟩
      by_cases hu : u = t
      · subst hu; simpa using ht
      · simpa [hu] using h.own u
    · rw [if_neg hpo] at ht; cases ht
  | leave k =>
    rw [hp, Conc.own] at ht
    refine ⟨_, rfl, ⟨fun u => ?_, fun u a hu2 => ?_⟩⟩
    · by_cases hu : u = t
      · subst hu; simpa using ht
      · simpa [hu] using h.own u
    · by_cases hu : u = t
      · subst hu
        simp at hu2
      · simp only [ne_eq, hu, not_false_eq_true, Function.update_of_ne] at hu2
        exact h.ptr u a hu2

theorem Inv.run {b : Nat → β} {c : Conf β} {l : List Nat} (h : Inv b c) (hs : Serial c l) :
    ∃ c', run l c = some c' ∧ Inv b c' := by
  induction l generalizing c with
  | nil => exact ⟨c, rfl, h⟩
  | cons t l ih =>
    obtain ⟨h1, h2⟩ := hs
    obtain ⟨c', hc, hi⟩ := h.step h1
    obtain ⟨c'', hc', hi'⟩ := ih hi (h2 _ hc)
    exact ⟨c'', by rw [Conc.run, hc]; exact hc', hi'⟩

theorem inv_init {T : Nat → Thread β} {mem : Nat → List U8} {b : Nat → β}
    (h : ∀ t, ∃ tr, (T t).alone (mem t) = .ok (b t) tr) : Inv b (init T mem) :=
  ⟨fun t => own_thread (h t).choose_spec, fun _ _ h => by cases h⟩

end Frodo.Conc
