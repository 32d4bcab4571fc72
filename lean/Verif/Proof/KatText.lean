import Verif.Model.Kat
import Verif.Spec.Kat
import Verif.C.Logic

/-! # Reading of texts: lemmas -/

namespace Frodo
open Spec

theorem strlen_ret {m r : List U8} (h : ∀ c ∈ m, c ≠ 0) : Ret (strlen (m ++ 0 :: r)) (· = m.length) := by
  unfold strlen
  simp only [wp]
  refine ⟨by simp, ?_⟩
  refine Ret.bind (Q := fun s : Nat × U8 => s.1 = m.length) ?_ ?_
  · refine Ret.while (fun s : Nat × U8 => s.1 ≤ m.length ∧ s.2 = nth (m ++ 0 :: r) s.1)
      (fun s => m.length - s.1) ?_ ?_ _ ⟨Nat.zero_le _, rfl⟩
    · rintro ⟨i, c⟩ ⟨hi, hc⟩ hne
      simp only [bne_iff_ne, ne_eq] at hi hc hne
      have : i ≠ m.length := by
        rintro rfl
        apply hne
        rw [hc, nth_eq_getElem (by simp)]
        simp
      simp only [wp]
      refine ⟨by simp; omega, ⟨by omega, trivial⟩, by omega⟩
    · rintro ⟨i, c⟩ ⟨hi, hc⟩ hne
      simp only [bne_eq_false_iff_eq] at hi hc hne ⊢
      rcases Nat.lt_or_ge i m.length with hl | hl
      · exfalso
        refine h (nth m i) ?_ ?_
        · rw [nth_eq_getElem hl]; exact List.getElem_mem hl
        · rw [← hne, hc, nth_append, if_pos hl]
      · omega
  · rintro ⟨i, c⟩ h
    exact ⟨_, _, rfl, h⟩

theorem take_succ_nth {l : List U8} {i : Nat} (h : i < l.length) : l.take (i + 1) = l.take i ++ [nth l i] := by
  rw [List.take_add_one, List.getElem?_eq_getElem h, nth_eq_getElem h]
  rfl

theorem strncmp_ret {a b : List U8} {n : Nat} (ha : n ≤ a.length) (hb : n ≤ b.length)
    (h0 : ∀ c ∈ b.take n, c ≠ 0) : Ret (strncmp a b n) (fun r => r = 0 ↔ a.take n = b.take n) := by
  unfold strncmp
  refine Ret.bind (Q := fun s : Nat × Option Int => s.2.getD 0 = 0 ↔ a.take n = b.take n) ?_ ?_
  · refine Ret.while (fun s : Nat × Option Int => s.1 ≤ n ∧
      ((s.2 = none ∧ a.take s.1 = b.take s.1) ∨
        (∃ d, s.2 = some d ∧ d ≠ 0 ∧ a.take n ≠ b.take n)))
      (fun s => n - s.1) ?_ ?_ _ ⟨Nat.zero_le _, .inl ⟨rfl, rfl⟩⟩
    · rintro ⟨i, r⟩ ⟨hi, hr⟩ hc
      simp only [Bool.and_eq_true, decide_eq_true_eq, Option.isNone_iff_eq_none] at hi hr hc
      obtain ⟨rfl, hin⟩ := hc
      rcases hr with ⟨-, hr⟩ | ⟨d, h, -⟩
      · simp only [wp]
        refine ⟨by omega, by omega, ⟨by omega, ?_⟩, by omega⟩
        by_cases hx : nth a i = nth b i
        · left
          have hb0 : nth b i ≠ 0 := by
            apply h0
            rw [nth_eq_getElem (by omega)]
            exact List.mem_take_iff_getElem.2 ⟨i, by omega, rfl⟩
          refine ⟨by rw [if_neg (by simp [hx]), if_neg (by rw [hx]; exact hb0)], ?_⟩
          rw [take_succ_nth (by omega), take_succ_nth (by omega), hr, hx]
        · right
          refine ⟨_, by simp [hx]; rfl, ?_, ?_⟩
          · intro h
            apply hx
            apply BitVec.eq_of_toNat_eq
            omega
          · intro h
            apply hx
            have := congrArg (nth · i) h
            rwa [nth_take, nth_take, if_pos hin, if_pos hin] at this
      · cases h
    · rintro ⟨i, r⟩ ⟨hi, hr⟩ hc
      simp only at hi hr hc ⊢
      rcases hr with ⟨rfl, hr⟩ | ⟨d, rfl, h, hne⟩
      · simp only [Option.isNone_none, Bool.true_and, decide_eq_false_iff_not, not_lt] at hc
        have : i = n := by omega
        subst this
        simp [hr]
      · simp [h, hne]
  · rintro ⟨i, r⟩ h
    exact ⟨_, _, rfl, h⟩

theorem after_append (m f : List U8) : after m (m ++ f) = some f := by
  rw [after.eq_def, if_pos (List.prefix_append m f), List.drop_left]

theorem after_short {m : List U8} : ∀ {f : List U8}, f.length < m.length → after m f = none := by
  intro f
  induction f with
  | nil =>
    intro h
    rw [after.eq_def, if_neg (fun h' => by have := h'.length_le; omega)]
  | cons b f ih =>
    intro h
    rw [after.eq_def, if_neg (fun h' => by have := h'.length_le; omega)]
    exact ih (by simp at h; omega)

theorem after_step {m w f : List U8} {a : U8} (h : (a :: w).length = m.length) (hne : a :: w ≠ m) :
    after m (a :: w ++ f) = after m (w ++ f) := by
  rw [after.eq_def, if_neg]
  · rfl
  · intro h'
    apply hne
    have h1 : m = (a :: w ++ f).take m.length := List.prefix_iff_eq_take.1 h'
    rw [h1, ← h, List.take_left]

/-- The result of `FindMarker` when `r` is what comes after the first occurrence. -/
def found (r : Option (List U8)) : Int × List U8 :=
  match r with
  | some f => (1, f)
  | none => (0, [])

theorem markFill_loop (m : List U8) (len : Nat) (hm : m.length = len) (hl : len ≤ 49) (line f : List U8)
    (hline : line.length = 50) :
    Ret (whileC (fun s : MarkSt => s.ret.isNone && decide (s.i < len)) markFill ⟨line, f, 0, none⟩)
      (fun s => s.line.length = 50 ∧
        ((s.ret = some 0 ∧ s.file = [] ∧ after m f = none) ∨
          (s.ret = none ∧ len ≤ f.length ∧ s.line.take len = f.take len ∧ s.file = f.drop len))) := by
  refine Ret.while (fun s : MarkSt => s.line.length = 50 ∧ ((s.ret = some 0 ∧ s.file = [] ∧ after m f = none) ∨
      (s.ret = none ∧ s.i ≤ len ∧ s.i ≤ f.length ∧ s.line.take s.i = f.take s.i ∧ s.file = f.drop s.i)))
      (fun s => (len - s.i) + (if s.ret.isNone then 1 else 0)) ?_ ?_ _
      ⟨hline, .inr ⟨rfl, Nat.zero_le _, Nat.zero_le _, rfl, rfl⟩⟩
  · rintro ⟨line, g, i, r⟩ ⟨h50, h⟩ hc
    simp only [Bool.and_eq_true, decide_eq_true_eq, Option.isNone_iff_eq_none] at h50 h hc
    obtain ⟨rfl, hi⟩ := hc
    rcases h with ⟨h, -⟩ | ⟨-, h1, h2, h3, rfl⟩
    · cases h
    · unfold markFill
      simp only
      rcases Nat.lt_or_ge i f.length with hlt | hge
      · rw [List.drop_eq_getElem_cons hlt]
        simp only [fgetc, wp]
        refine ⟨by omega, ?_⟩
        rw [if_neg (by simp)]
        simp only [wp]
        refine ⟨⟨by simp [h50], .inr ⟨trivial, by omega, by omega, ?_, trivial⟩⟩, by simp; omega⟩
        rw [take_succ_nth (by simp; omega), List.take_set, List.set_eq_of_length_le (by simp),
          nth_set_eq (by omega), take_succ_nth hlt, h3, nth_eq_getElem hlt]
        congr 2
        unfold u8
        rw [BitVec.ofInt_natCast, BitVec.ofNat_toNat, BitVec.setWidth_eq]
      · rw [List.drop_eq_nil_of_le hge]
        simp only [fgetc, wp]
        refine ⟨by omega, ?_⟩
        rw [if_pos (by simp)]
        simp only [wp]
        refine ⟨⟨by simp [h50], .inl ⟨trivial, trivial, after_short (by omega)⟩⟩, by simp⟩
  · rintro ⟨line, g, i, r⟩ ⟨h50, h⟩ hc
    simp only at h50 h hc ⊢
    refine ⟨h50, ?_⟩
    rcases h with h | ⟨rfl, h1, h2, h3, rfl⟩
    · exact .inl h
    · simp only [Option.isNone_none, Bool.true_and, decide_eq_false_iff_not, not_lt] at hc
      have : i = len := by omega
      subst this
      exact .inr ⟨rfl, h2, h3, rfl⟩

theorem shiftLine_ret {line : List U8} {n : Nat} (h : n < line.length) :
    Ret (forC 0 n 1 line fun i line => do
      let x ← rd line (i + 1)
      wr line i x) (fun l => l.length = line.length ∧ l.take n = (line.drop 1).take n) := by
  refine Ret.for1 (fun i l => l.length = line.length ∧
    ∀ j, j < line.length → nth l j = if j < i then nth line (j + 1) else nth line j) ?_ ?_ ?_
  · exact ⟨rfl, fun j _ => by simp⟩
  · rintro k l hk ⟨h1, h2⟩
    simp only [wp]
    refine ⟨by omega, by omega, by simp [h1], fun j hj => ?_⟩
    rw [h2 (k + 1) (by omega), if_neg (by omega), nth_set]
    by_cases hjk : k = j
    · subst hjk; simp [h1, hj]
    · rw [if_neg (by simp [hjk]), h2 _ hj]
      by_cases h3 : j < k
      · rw [if_pos h3, if_pos (by omega)]
      · rw [if_neg h3, if_neg (by omega)]
  · rintro l ⟨h1, h2⟩
    refine ⟨h1, ext_nth (by simp [h1]; omega) fun j hj => ?_⟩
    rw [List.length_take] at hj
    rw [nth_take, nth_take, if_pos (by omega), if_pos (by omega), nth_drop, h2 _ (by omega), if_pos (by omega),
      Nat.add_comm]

theorem u8_byte (b : U8) : u8 ((b.toNat : Nat) : Int) = b := by
  unfold u8
  rw [BitVec.ofInt_natCast, BitVec.ofNat_toNat, BitVec.setWidth_eq]

theorem markStep_loop {marker m : List U8} {len : Nat} (hm : m = marker.take len) (hlm : len ≤ marker.length)
    (h0 : ∀ c ∈ m, c ≠ 0) (hl : len ≤ 49) (line f : List U8) (i : Nat) (hline : line.length = 50) :
    Ret (whileC (fun s : MarkSt => s.ret.isNone) (markStep marker len) ⟨line, f, i, none⟩)
      (fun s => (s.ret.getD 0, s.file) = found (after m (line.take len ++ f))) := by
  generalize hr : found (after m (line.take len ++ f)) = R
  have hml : m.length = len := by rw [hm, List.length_take]; omega
  refine Ret.while (fun s : MarkSt => s.line.length = 50 ∧
      ((s.ret = none ∧ found (after m (s.line.take len ++ s.file)) = R) ∨
        (∃ d, s.ret = some d ∧ (d, s.file) = R)))
      (fun s => 2 * s.file.length + (if s.ret.isNone then 1 else 0)) ?_ ?_ _
      ⟨hline, .inl ⟨rfl, hr⟩⟩
  · rintro ⟨line, g, i, r⟩ ⟨h50, h⟩ hc
    simp only [Option.isNone_iff_eq_none] at h50 h hc
    subst hc
    rcases h with ⟨-, h⟩ | ⟨d, h, -⟩
    swap
    · cases h
    unfold markStep
    refine (strncmp_ret (n := len) (by show len ≤ line.length; omega) hlm (by rw [← hm]; exact h0)).bind ?_
    intro r hr
    rw [Ret_ifC]
    by_cases hz : r = 0
    · rw [if_pos (by simp [hz])]
      have he := hr.1 hz
      simp only [wp]
      refine ⟨⟨h50, .inr ⟨1, rfl, ?_⟩⟩, by simp⟩
      rw [← h, he, ← hm, after_append]
      rfl
    · rw [if_neg (by simp [hz])]
      have hne : line.take len ≠ m := by rw [hm]; exact fun h => hz (hr.2 h)
      have hlen : 0 < len := by
        rcases Nat.eq_zero_or_pos len with h0 | h0
        · subst h0
          simp at hm
          subst hm
          simp at hne
        · exact h0
      obtain ⟨a, w, hw⟩ : ∃ a w, line.take len = a :: w := by
        cases hc : line.take len with
        | nil =>
          have := congrArg List.length hc
          rw [List.length_take, List.length_nil] at this
          omega
        | cons a w => exact ⟨a, w, rfl⟩
      have hwl : w.length + 1 = len := by
        have := congrArg List.length hw
        rw [List.length_take, List.length_cons] at this
        omega
      have hw' : (line.drop 1).take (len - 1) = w := by
        have := congrArg (List.drop 1) hw
        rwa [List.drop_take, List.drop_succ_cons, List.drop_zero] at this
      rw [hw, after_step (by rw [List.length_cons, hml, hwl]) (by rw [← hw]; exact hne)] at h
      refine (shiftLine_ret (line := line) (n := len - 1) (by omega)).bind ?_
      rintro l ⟨l1, l2⟩
      rw [hw'] at l2
      cases g with
      | nil =>
        simp only [fgetc, wp]
        refine ⟨by omega, ?_⟩
        rw [if_pos (by simp)]
        simp only [wp]
        refine ⟨⟨by simp [l1, h50], .inr ⟨0, rfl, ?_⟩⟩, by simp⟩
        rw [List.append_nil, after_short (by omega)] at h
        exact h
      | cons b g =>
        simp only [fgetc, wp]
        refine ⟨by omega, ?_⟩
        rw [if_neg (by simp)]
        simp only [wp]
        refine ⟨by simp; omega, ⟨by simp [l1, h50], .inl ⟨trivial, ?_⟩⟩, by simp⟩
        rw [← h, List.take_set, List.set_eq_of_length_le (by simp), u8_byte]
        have e : (l.set (len - 1) b).take len = w ++ [b] := by
          rw [show len = (len - 1) + 1 by omega, take_succ_nth (by simp; omega), Nat.add_sub_cancel,
            List.take_set, List.set_eq_of_length_le (by simp), l2, nth_set_eq (by omega)]
        rw [e, List.append_assoc]
        rfl
  · rintro ⟨line, g, i, r⟩ ⟨h50, h⟩ hc
    simp only at h50 h hc ⊢
    rcases h with ⟨rfl, -⟩ | ⟨d, rfl, h⟩
    · cases hc
    · exact h

/-- `FindMarker` finds the first occurrence (of the first 49 characters of the marker). -/
theorem FindMarker_ret {J : Junk} {f m r : List U8} (h0 : ∀ c ∈ m, c ≠ 0) :
    Ret (FindMarker J f (m ++ 0 :: r)) (· = found (after (m.take 49) f)) := by
  unfold FindMarker
  refine (strlen_ret (r := r) h0).bind_eq ?_
  refine Ret.bind (Q := (· = min 49 m.length)) ?_ ?_
  · rw [Ret_ifC]
    by_cases h : m.length > 50 - 1
    · rw [if_pos (by simp; omega)]; exact ⟨_, _, rfl, by omega⟩
    · rw [if_neg (by simp; omega)]; exact ⟨_, _, rfl, by omega⟩
  rintro len rfl
  have hm : m.take 49 = (m ++ 0 :: r).take (min 49 m.length) := by
    rw [List.take_append_of_le_length (by omega), Nat.min_comm, ← List.take_take]
    simp
  refine (markFill_loop (m.take 49) (min 49 m.length) (by simp) (by omega) _ f (by simp)).bind ?_
  rintro ⟨line, g, i, q⟩ ⟨h50, h⟩
  simp only at h50 h ⊢
  rw [Ret_ifC]
  rcases h with ⟨rfl, rfl, h⟩ | ⟨rfl, h1, h2, h3⟩
  · rw [if_pos (by simp), h]
    exact ⟨_, _, rfl, rfl⟩
  · rw [if_neg (by simp), Ret_wr_bind]
    refine ⟨by omega, ?_⟩
    refine (markStep_loop hm (by simp) (fun c hc => h0 c (List.mem_of_mem_take hc)) (by omega) _ g i
      (by simp [h50])).bind ?_
    intro s hs
    refine ⟨_, _, rfl, ?_⟩
    rw [hs, List.take_set, List.set_eq_of_length_le (by simp), h2, h3, List.take_append_drop]

end Frodo
