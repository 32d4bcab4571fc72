import Verif.C.Ct
import Verif.Model.Util

namespace Frodo

/-- Public part of the state of `frodo_pack`. -/
def PackPub (s t : PackSt) : Prop :=
  s.i = t.i ∧ s.j = t.j ∧ s.bits = t.bits ∧ s.b = t.b ∧ s.brk = t.brk

theorem packInner_rel {inp inp' : List U16} {inlen lsb : Nat} {s t : PackSt} (h : PackPub s t) :
    Rel (packInner inp inlen lsb s) (packInner inp' inlen lsb t) PackPub := by
  obtain ⟨out, i, j, w, bits, b, brk⟩ := s
  obtain ⟨out', i', j', w', bits', b', brk'⟩ := t
  obtain ⟨rfl, rfl, rfl, rfl, rfl⟩ := h
  unfold packInner
  simp only
  refine Rel.bind (R := Eq) (Rel.ifC rfl (fun _ => Rel.pure rfl) (fun _ => Rel.pure rfl)) ?_
  rintro nbits _ rfl
  ct_steps
  refine Rel.ifC rfl (fun _ => Rel.ifC rfl (fun _ => ?_) (fun _ => ?_)) (fun _ => ?_)
  · ct_step
    exact Rel.pure ⟨rfl, rfl, rfl, rfl, rfl⟩
  · exact Rel.pure ⟨rfl, rfl, rfl, rfl, rfl⟩
  · exact Rel.pure ⟨rfl, rfl, rfl, rfl, rfl⟩

theorem frodo_pack_rel {out out' : List U8} {inp inp' : List U16} {outlen inlen lsb : Nat} :
    SameTrace (frodo_pack out outlen inp inlen lsb) (frodo_pack out' outlen inp' inlen lsb) := by
  unfold frodo_pack
  ct_step
  refine Rel.bind (R := PackPub) ?_ (fun _ _ _ => Rel.pure trivial)
  refine Rel.while ?_ ?_ _ _ ⟨rfl, rfl, rfl, rfl, rfl⟩
  · rintro s t ⟨h1, h2, h3, h4, h5⟩
    rw [h1, h2, h3]
  · intro s t h _
    unfold packOuter
    refine Rel.bind (R := PackPub) ?_ ?_
    · refine Rel.while ?_ ?_ _ _ ⟨h.1, h.2.1, h.2.2.1, rfl, rfl⟩
      · rintro s t ⟨h1, h2, h3, h4, h5⟩
        rw [h4, h5]
      · intro s t h _
        exact packInner_rel h
    · rintro s t ⟨h1, h2, h3, h4, h5⟩
      exact Rel.ifC (by rw [h4]) (fun _ => Rel.pure ⟨by simp [h1], h2, h3, h4, h5⟩)
        (fun _ => Rel.pure ⟨h1, h2, h3, h4, h5⟩)

/-- Public part of the state of `frodo_unpack`. -/
def UnpackPub (s t : UnpackSt) : Prop :=
  s.i = t.i ∧ s.j = t.j ∧ s.bits = t.bits ∧ s.b = t.b ∧ s.brk = t.brk

theorem unpackInner_rel {inp inp' : List U8} {inlen lsb : Nat} {s t : UnpackSt}
    (h : UnpackPub s t) :
    Rel (unpackInner inp inlen lsb s) (unpackInner inp' inlen lsb t) UnpackPub := by
  obtain ⟨out, i, j, w, bits, b, brk⟩ := s
  obtain ⟨out', i', j', w', bits', b', brk'⟩ := t
  obtain ⟨rfl, rfl, rfl, rfl, rfl⟩ := h
  unfold unpackInner
  simp only
  refine Rel.bind (R := Eq) (Rel.ifC rfl (fun _ => Rel.pure rfl) (fun _ => Rel.pure rfl)) ?_
  rintro nbits _ rfl
  ct_steps
  refine Rel.ifC rfl (fun _ => Rel.ifC rfl (fun _ => ?_) (fun _ => ?_)) (fun _ => ?_)
  · ct_step
    exact Rel.pure ⟨rfl, rfl, rfl, rfl, rfl⟩
  · exact Rel.pure ⟨rfl, rfl, rfl, rfl, rfl⟩
  · exact Rel.pure ⟨rfl, rfl, rfl, rfl, rfl⟩

theorem frodo_unpack_rel {out out' : List U16} {inp inp' : List U8} {outlen inlen lsb : Nat} :
    SameTrace (frodo_unpack out outlen inp inlen lsb)
      (frodo_unpack out' outlen inp' inlen lsb) := by
  unfold frodo_unpack
  ct_step
  refine Rel.bind (R := UnpackPub) ?_ (fun _ _ _ => Rel.pure trivial)
  refine Rel.while ?_ ?_ _ _ ⟨rfl, rfl, rfl, rfl, rfl⟩
  · rintro s t ⟨h1, h2, h3, h4, h5⟩
    rw [h1, h2, h3]
  · intro s t h _
    unfold unpackOuter
    refine Rel.bind (R := UnpackPub) ?_ ?_
    · refine Rel.while ?_ ?_ _ _ ⟨h.1, h.2.1, h.2.2.1, rfl, rfl⟩
      · rintro s t ⟨h1, h2, h3, h4, h5⟩
        rw [h4, h5]
      · intro s t h _
        exact unpackInner_rel h
    · rintro s t ⟨h1, h2, h3, h4, h5⟩
      exact Rel.ifC (by rw [h4]) (fun _ => Rel.pure ⟨by simp [h1], h2, h3, h4, h5⟩)
        (fun _ => Rel.pure ⟨h1, h2, h3, h4, h5⟩)

theorem ct_verify_rel {a b a' b' : List U16} {len : Nat} :
    SameTrace (ct_verify a b len) (ct_verify a' b' len) := by
  unfold ct_verify
  refine Rel.bind (R := fun _ _ => True) (Rel.for rfl rfl rfl trivial ?_) (fun _ _ _ => ?_)
  · intro i s t _
    ct_steps
  · ct_steps

theorem ct_select_rel {r a b r' a' b' : List U8} {len : Nat} {sel sel' : Int} :
    SameTrace (ct_select r a b len sel) (ct_select r' a' b' len sel') := by
  unfold ct_select
  refine Rel.for rfl rfl rfl trivial ?_
  intro i s t _
  ct_steps

theorem clear_bytes_rel {m m' : List U8} {n : Nat} :
    SameTrace (clear_bytes m n) (clear_bytes m' n) := by
  unfold clear_bytes
  refine Rel.for rfl rfl rfl trivial ?_
  intro i s t _
  ct_steps

theorem frodo_sample_n_rel {cdf s s' : List U16} {n : Nat} :
    SameTrace (frodo_sample_n cdf s n) (frodo_sample_n cdf s' n) := by
  unfold frodo_sample_n forU32
  refine Rel.bind (R := fun x y => x.1 = y.1) (Rel.while ?_ ?_ _ _ rfl)
    (fun _ _ _ => Rel.pure trivial)
  · rintro ⟨i, s⟩ ⟨_, s'⟩ rfl
    rfl
  rintro ⟨i, s⟩ ⟨_, s'⟩ rfl
  refine fun _ => Rel.bind (R := fun _ _ => True) ?_ (fun _ _ _ => Rel.pure rfl)
  unfold sampleBody
  ct_steps
  refine Rel.bind (R := fun _ _ => True) (Rel.for rfl rfl rfl trivial ?_) (fun _ _ _ => ?_)
  · intro i s t _
    ct_steps
  · ct_steps

end Frodo
