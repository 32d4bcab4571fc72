import Verif.Proof.Conc
import Verif.Proof.AesNi

/-! # Particular schedules -/

namespace Frodo.Conc

open C

theorem run_append (l l' : List Nat) (c : Conf β) : run (l ++ l') c = (run l c).bind (run l') := by
  induction l generalizing c with
  | nil => rfl
  | cons t l ih =>
    rw [List.cons_append, run, run]
    cases step t c with
    | none => rfl
    | some c' => exact ih c'

/-- Steps of thread `t` only lead from `c` to `c'` (proof device). -/
def Reach (t : Nat) (c c' : Conf β) : Prop := ∃ n, run (List.replicate n t) c = some c'

theorem Reach.refl (t : Nat) (c : Conf β) : Reach t c c := ⟨0, rfl⟩

theorem Reach.head {t : Nat} {c c' c'' : Conf β} (h : step t c = some c') (h' : Reach t c' c'') :
    Reach t c c'' := by
  obtain ⟨n, hn⟩ := h'
  exact ⟨n + 1, by rw [List.replicate_succ, run, h]; exact hn⟩

theorem Reach.trans {t : Nat} {c c' c'' : Conf β} (h : Reach t c c') (h' : Reach t c' c'') :
    Reach t c c'' := by
  obtain ⟨n, hn⟩ := h
  obtain ⟨n', hn'⟩ := h'
  exact ⟨n + n', by rw [List.replicate_add, run_append, hn]; exact hn'⟩

/-- `c` with memory `m` of thread `u` and program `p` of thread `t` (proof device). -/
def Conf.put (c : Conf β) (u : Nat) (m : List U8) (t : Nat) (p : Prog β) : Conf β :=
  { c with mem := Function.update c.mem u m, thr := Function.update c.thr t p }

theorem put_put (c : Conf β) (u : Nat) (m m' : List U8) (t : Nat) (p p' : Prog β) :
    (c.put u m t p).put u m' t p' = c.put u m' t p' := by
  unfold Conf.put
  simp only [Function.update_idem]

theorem put_self (c : Conf β) (u t : Nat) {m : List U8} {p : Prog β} (hm : m = c.mem u) (hp : p = c.thr t) :
    c.put u m t p = c := by
  unfold Conf.put
  rw [hm, hp, Function.update_eq_self, Function.update_eq_self]

theorem put_thr (c : Conf β) (u : Nat) (m : List U8) (t : Nat) (p : Prog β) :
    (c.put u m t p).thr t = p := by simp [Conf.put]

theorem put_mem (c : Conf β) (u : Nat) (m : List U8) (t : Nat) (p : Prog β) :
    (c.put u m t p).mem u = m := by simp [Conf.put]

theorem put_ptr (c : Conf β) (u : Nat) (m : List U8) (t : Nat) (p : Prog β) :
    (c.put u m t p).ptr = c.ptr := rfl

theorem step_loc {c : Conf β} {t : Nat} {x : γ} {tr : List Event} {k : γ → Prog β} (u : Nat)
    (h : c.thr t = .loc (.ok x tr) k) : step t c = some (c.put u (c.mem u) t (k x)) := by
  unfold step; rw [h]; unfold Conf.put; rw [Function.update_eq_self]

theorem step_getPtr {c : Conf β} {t : Nat} {p : Ptr} {k : Ptr → Prog β} (u : Nat)
    (h : c.thr t = .getPtr k) (hp : c.ptr = some p) :
    step t c = some (c.put u (c.mem u) t (k p)) := by
  unfold step; rw [h]; simp only [hp]; unfold Conf.put; rw [Function.update_eq_self, hp]

theorem step_load {c : Conf β} {t : Nat} {p : Ptr} {v : U8} {k : U8 → Prog β} (u : Nat)
    (h : c.thr t = .load p k) (hp : (c.mem p.obj)[p.off]? = some v) :
    step t c = some (c.put u (c.mem u) t (k v)) := by
  unfold step; rw [h]; simp only [hp]; unfold Conf.put; rw [Function.update_eq_self]

theorem step_store {c : Conf β} {t : Nat} {p : Ptr} {v : U8} {k : Prog β}
    (h : c.thr t = .store p v k) (hp : p.off < (c.mem p.obj).length) :
    step t c = some (c.put p.obj ((c.mem p.obj).set p.off v) t k) := by
  unfold step; rw [h]; simp only; rw [if_pos hp]; rfl

theorem reach_toProg {t u a : Nat} {s : SProg α} {κ : α → Prog β} {b' : List U8} {x : α}
    {tr : List Event} {c : Conf β} (ht : c.thr t = s.toProg κ) (hp : c.ptr = some ⟨u, a⟩)
    (ha : a ≤ (c.mem u).length) (h : s.runC ((c.mem u).drop a) = .ok (x, b') tr) :
    Reach t c (c.put u ((c.mem u).take a ++ b') t (κ x)) := by
  induction s generalizing c tr with
  | ret y =>
    cases h
    rw [put_self _ _ _ (List.take_append_drop _ _) (by rw [ht]; rfl)]
    exact Reach.refl _ _
  | loc m k ih =>
    obtain ⟨y, _, _, h1, h2⟩ := bind_ok h
    subst h1
    refine Reach.head (step_loc u (by rw [ht]; rfl)) ?_
    have := ih y (c := c.put u (c.mem u) t ((k y).toProg κ)) (put_thr _ _ _ _ _) hp
      (by rw [put_mem]; exact ha) (by rw [put_mem]; exact h2)
    rwa [put_put, put_mem] at this
  | ld i k ih =>
    obtain ⟨y, _, _, h1, h2⟩ := bind_ok h
    have h3 := rd_ok h1
    rw [List.getElem?_drop] at h3
    refine Reach.head (step_getPtr u (by rw [ht]; rfl) hp) ?_
    refine Reach.head (step_load (v := y) u (put_thr _ _ _ _ _) (by
      rw [put_mem]; exact h3)) ?_
    rw [put_put, put_mem]
    have := ih y (c := c.put u (c.mem u) t ((k y).toProg κ)) (put_thr _ _ _ _ _) hp
      (by rw [put_mem]; exact ha) (by rw [put_mem]; exact h2)
    rwa [put_put, put_mem] at this
  | st i v k ih =>
    obtain ⟨y, _, _, h1, h2⟩ := bind_ok h
    obtain ⟨h3, rfl⟩ := wr_ok h1
    rw [List.length_drop] at h3
    refine Reach.head (step_getPtr u (by rw [ht]; rfl) hp) ?_
    refine Reach.head (step_store (put_thr _ _ _ _ _) (by
      rw [put_mem]; show a + i < _; omega)) ?_
    simp only
    rw [put_put, put_mem]
    have e : ((c.mem u).set (a + i) v).drop a = ((c.mem u).drop a).set i v := by
      rw [List.drop_set, if_neg (by omega)]; congr 1; omega
    have e2 : ((c.mem u).set (a + i) v).take a = (c.mem u).take a := by
      rw [List.take_set, List.set_eq_of_length_le (by rw [List.length_take]; omega)]
    have := ih (c := c.put u ((c.mem u).set (a + i) v) t (k.toProg κ)) (put_thr _ _ _ _ _) hp
      (by rw [put_mem, List.length_set]; exact ha) (by rw [put_mem, e]; exact h2)
    rwa [put_put, put_mem, e2] at this

theorem reach_stores {t u off : Nat} {l : List U8} {κ : Prog β} {c : Conf β}
    (ht : c.thr t = stores ⟨u, off⟩ l κ) (h : off + l.length ≤ (c.mem u).length) :
    Reach t c (c.put u ((c.mem u).take off ++ l ++ (c.mem u).drop (off + l.length)) t κ) := by
  induction l generalizing off c with
  | nil =>
    rw [put_self _ _ _ (by rw [List.append_nil, List.length_nil, Nat.add_zero,
      List.take_append_drop]) (by rw [ht]; rfl)]
    exact Reach.refl _ _
  | cons v l ih =>
    rw [List.length_cons] at h
    have hlt : off < (c.mem u).length := by omega
    refine Reach.head (step_store (by rw [ht]; rfl) hlt) ?_
    simp only
    have := ih (c := c.put u ((c.mem u).set off v) t (stores ⟨u, off + 1⟩ l κ)) (off := off + 1)
      (put_thr _ _ _ _ _) (by rw [put_mem, List.length_set]; omega)
    rw [put_put, put_mem] at this
    convert this using 2
    rw [List.length_cons]
    have e1 : ((c.mem u).set off v).take (off + 1) = (c.mem u).take off ++ [v] := by
      rw [List.take_set, List.take_succ_eq_append_getElem (by omega),
        List.set_append_right _ _ (by rw [List.length_take]; omega)]
      congr 1
      rw [List.length_take, Nat.min_eq_left (by omega), Nat.sub_self]
      rfl
    have e2 : ((c.mem u).set off v).drop (off + 1 + l.length) = (c.mem u).drop (off + (l.length + 1)) := by
      rw [List.drop_set_of_lt (by omega)]; congr 1; omega
    rw [e1, e2]
    simp

theorem reach_loads {t u off n : Nat} {κ : List U8 → Prog β} {c : Conf β}
    (ht : c.thr t = loads ⟨u, off⟩ n κ) (h : off + n ≤ (c.mem u).length) :
    Reach t c (c.put u (c.mem u) t (κ (((c.mem u).drop off).take n))) := by
  induction n generalizing off κ c with
  | zero =>
    rw [put_self _ _ _ rfl (by rw [ht]; rfl)]
    exact Reach.refl _ _
  | succ n ih =>
    have hlt : off < (c.mem u).length := by omega
    refine Reach.head (step_load u (by rw [ht]; rfl) (List.getElem?_eq_getElem hlt)) ?_
    have := ih (c := c.put u (c.mem u) t (loads ⟨u, off + 1⟩ n fun l => κ ((c.mem u)[off] :: l)))
      (off := off + 1) (put_thr _ _ _ _ _) (by rw [put_mem]; omega)
    rw [put_put, put_mem] at this
    rw [List.drop_eq_getElem_cons hlt, List.take_succ_cons]
    exact this

end Frodo.Conc
