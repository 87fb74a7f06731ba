import Verif.Spec.Reordering

/-!
# Specification: a request as a collection of facts
-/
namespace Xacml.Spec
open Xacml

/-- One value of one attribute. -/
structure Fact where
  attributeId : Option String
  dataType : Option String
  issuer : Option String
  value : AttrVal

/-- What attributes say, value by value. -/
def facts (as : List Attribute) : List Fact :=
  as.flatMap fun a => a.values.map fun v => ⟨a.attributeId, a.dataType, a.issuer, v⟩

/-- The attributes say the same, as often, however values are grouped into attributes and in whatever order. -/
def SameFacts (as as' : List Attribute) : Prop := (facts as).Perm (facts as')

/-- The same for the action and the environment, which may be absent. -/
def PartSays : Option (List Attribute) → Option (List Attribute) → Prop
  | none, none => True
  | some as, some as' => SameFacts as as'
  | _, _ => False

/-- The requests say the same of the subjects, the resources, the action and the environment. -/
structure SaysSame (d d' : ReqData) : Prop where
  subjects : SameFacts (d.subjects.flatMap (·.attributes)) (d'.subjects.flatMap (·.attributes))
  resources : SameFacts (d.resources.flatMap (·.attributes)) (d'.resources.flatMap (·.attributes))
  action : PartSays d.action d'.action
  environment : PartSays d.environment d'.environment

end Xacml.Spec
