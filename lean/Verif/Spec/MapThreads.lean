import Verif.Model.MapThreads

/-!
# Specification: calls of several threads on the function map
-/
namespace Xacml

/-- Thread `i` has returned or raised. -/
def MapProcess.Finished (s : MapProcess) (i : Nat) (x : Except Exc (Option FnEntry)) : Prop :=
  s.threads[i]? = some (.done x)

/-- What the call does when no other thread interferes: the model of C35 and C36. -/
def MapCall.sequential (imp : Importer) (m : FunctionMap) : MapCall → Except Exc (Option FnEntry) × FunctionMap
  | .get ns => ((m.get imp ns).1.map some, (m.get imp ns).2)
  | .register ns a => ((m.loadCustom imp ns a).1.map fun _ => none, (m.loadCustom imp ns a).2)

namespace Spec

/-- The identifier does not start with one of the two function namespaces of the standard. -/
def Outside (ns : String) : Prop :=
  ¬ "urn:oasis:names:tc:xacml:1.0:function:".toList <+: ns.toList ∧
  ¬ "urn:oasis:names:tc:xacml:2.0:function:".toList <+: ns.toList

end Spec
end Xacml
