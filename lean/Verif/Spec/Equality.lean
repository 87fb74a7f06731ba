import Verif.Model.Py

/-!
# Specification of equality of native values
-/
namespace Xacml.Spec
open Xacml

/-- The number a native value denotes. -/
inductive Denotes : Native → Rat → Prop
  | int (i : Int) : Denotes (.int i) i
  | true : Denotes (.bool .true) 1
  | false : Denotes (.bool .false) 0
  | float (q : Rat) : Denotes (.float (.fin q)) q

/-- Two (possibly unset) values are equal: same string, same duration, same instant or same local
time, same infinity, same number. NaN is equal to nothing. -/
inductive SameValue : Option Native → Option Native → Prop
  | unset : SameValue none none
  | str (s) : SameValue (some (.str s)) (some (.str s))
  | duration (u) : SameValue (some (.timedelta u)) (some (.timedelta u))
  | localTime (l) : SameValue (some (.datetime ⟨l, none⟩)) (some (.datetime ⟨l, none⟩))
  | instant {l o l' o'} (h : l - o = l' - o') :
      SameValue (some (.datetime ⟨l, some o⟩)) (some (.datetime ⟨l', some o'⟩))
  | infinity (n) : SameValue (some (.float (.inf n))) (some (.float (.inf n)))
  | number {a b q} (ha : Denotes a q) (hb : Denotes b q) : SameValue (some a) (some b)

end Xacml.Spec
