import Verif.Spec.Equality

namespace Xacml
open Spec

theorem num?_denotes (a : Native) (q : Rat) : a.num? = some q ↔ Denotes a q := by
  constructor
  · intro h
    cases a with
    | str | datetime | timedelta => simp [Native.num?] at h
    | int i => simp [Native.num?] at h; subst h; exact .int i
    | bool b => cases b <;> simp [Native.num?] at h <;> subst h <;> constructor
    | float f =>
      cases f <;> simp [Native.num?] at h
      subst h; exact .float _
  · rintro (_ | _ | _ | _) <;> simp [Native.num?]

private theorem num_eq (a b : Native) :
    (match a.num?, b.num? with | some x, some y => x == y | _, _ => false) = true ↔
      ∃ q, Denotes a q ∧ Denotes b q := by
  simp only [← num?_denotes]
  cases a.num? <;> cases b.num? <;> simp
  exact eq_comm

theorem native_eq_iff (a b : Native) : a.eq b = true ↔ SameValue (some a) (some b) := by
  constructor
  · intro h
    unfold Native.eq at h
    split at h
    · simp at h; subst h; exact .str _
    · rename_i x y
      unfold PyDateTime.eq at h
      obtain ⟨l, o⟩ := x
      obtain ⟨l', o'⟩ := y
      cases o <;> cases o' <;> simp at h
      · subst h; exact .localTime _
      · exact .instant h
    · simp at h; subst h; exact .duration _
    · simp at h; subst h; exact .infinity _
    · obtain ⟨q, h1, h2⟩ := (num_eq _ _).1 h
      exact .number h1 h2
  · intro h
    cases h with
    | str => simp [Native.eq]
    | duration => simp [Native.eq]
    | localTime => simp [Native.eq, PyDateTime.eq]
    | instant h => simp [Native.eq, PyDateTime.eq, h]
    | infinity => simp [Native.eq]
    | number ha hb => cases ha <;> cases hb <;> simp_all [Native.eq, Native.num?]

theorem optNativeEq_iff (a b : Option Native) : optNativeEq a b = true ↔ SameValue a b := by
  cases a with
  | none =>
    cases b with
    | none => simp [optNativeEq, SameValue.unset]
    | some b => simp only [optNativeEq, Bool.false_eq_true, false_iff]; intro h; cases h
  | some a =>
    cases b with
    | none => simp only [optNativeEq, Bool.false_eq_true, false_iff]; intro h; cases h
    | some b => exact native_eq_iff a b

theorem Spec.SameValue.symm {a b} (h : SameValue a b) : SameValue b a := by
  cases h with
  | unset => exact .unset
  | str s => exact .str s
  | duration u => exact .duration u
  | localTime l => exact .localTime l
  | instant h => exact .instant h.symm
  | infinity n => exact .infinity n
  | number ha hb => exact .number hb ha

theorem Spec.Denotes.det {a q q'} (h : Denotes a q) (h' : Denotes a q') : q = q' := by
  cases h <;> cases h' <;> rfl

theorem Spec.SameValue.trans {a b c} (h : SameValue a b) (h' : SameValue b c) : SameValue a c := by
  cases h with
  | unset => exact h'
  | str s => exact h'
  | duration u => exact h'
  | localTime l => exact h'
  | infinity n => exact h'
  | instant h =>
    cases h' with
    | instant h' => exact .instant (h.trans h')
    | number hb => cases hb
  | number ha hb =>
    cases h' with
    | number hb' hc => exact .number ha ((hb.det hb') ▸ hc)
    | str | duration | localTime | instant | infinity => cases hb

theorem Spec.SameValue.refl (a : Option Native) (h : a ≠ some (.float .nan)) : SameValue a a := by
  match a with
  | none => exact .unset
  | some (.str s) => exact .str s
  | some (.int i) => exact .number (.int i) (.int i)
  | some (.bool true) => exact .number .true .true
  | some (.bool false) => exact .number .false .false
  | some (.float .nan) => exact absurd rfl h
  | some (.float (.inf n)) => exact .infinity n
  | some (.float (.fin q)) => exact .number (.float q) (.float q)
  | some (.datetime ⟨l, none⟩) => exact .localTime l
  | some (.datetime ⟨l, some o⟩) => exact .instant rfl
  | some (.timedelta u) => exact .duration u

end Xacml
