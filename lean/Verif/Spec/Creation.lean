import Verif.Model.Creation
import Verif.Spec.Comparison

/-! # What the arguments of `createInitialised` may be -/
namespace Xacml.Spec

/-- The four status codes of XACML 2.0. -/
def codes : List String :=
  ["urn:oasis:names:tc:xacml:1.0:status:missing-attribute", "urn:oasis:names:tc:xacml:1.0:status:ok",
   "urn:oasis:names:tc:xacml:1.0:status:processing-error", "urn:oasis:names:tc:xacml:1.0:status:syntax-error"]

/-- The arguments are of the documented types, and say `d`, `c`, `m` and `o`. -/
structure Wellformed {V : Type} (a : ResultArgs V) (d c m : String) (o : Option V) : Prop where
  decision : Says .decision a.decision d
  vocabulary : d ∈ vocabulary .decision
  code : a.code = .str c
  known : c ∈ codes
  message : a.message = .str m
  obligations : a.obligations = match o with | some x => .obligation x | none => .none_

end Xacml.Spec
