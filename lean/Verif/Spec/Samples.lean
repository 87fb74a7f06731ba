import Verif.Model.Policy

/-!
# Sample data used by the non-vacuity examples
-/
namespace Xacml.Samples
open Xacml

/-- A regular expression engine accepting exact strings only, rejecting the pattern "(". -/
def sampleRe (p : String) : Except Exc (String → Bool) :=
  if p = "(" then .error .reError else .ok (fun s => s == p)

def env : Env := { re := sampleRe, classMap := stdClassMap, debug := false }
def w0 : World := { pipLog := [], cache := [] }

def str (s : String) : AttrVal := { cls := stringClass, dataType := xsd "string", value := some (.str s) }
def uri (s : String) : AttrVal := { cls := anyURIClass, dataType := xsd "anyURI", value := some (.str s) }

/-- Subject with a role attribute holding two values. -/
def roleAttr (vs : List String) : Attribute :=
  { attributeId := some "role", dataType := some (xsd "string"), issuer := none, values := vs.map str }

def actAttr (s : String) : Attribute :=
  { attributeId := some "action-id", dataType := some (xsd "string"), issuer := none, values := [str s] }

def data : ReqData :=
  { subjects := [{ category := none, attributes := [roleAttr ["admin", "staff"]] }]
    resources := [], action := some [actAttr "read"], environment := none }

def req : Request := { data := data, ctxHandler := none, attributeSelector := none }
def ctx : Ctx := some req

def roleDes : Designator :=
  { attributeId := some "role", dataType := some (xsd "string"), issuer := none, mustBePresent := true }
def actDes : Designator :=
  { attributeId := some "action-id", dataType := some (xsd "string"), issuer := none, mustBePresent := true }
def missingDes : Designator :=
  { attributeId := some "clearance", dataType := some (xsd "string"), issuer := none, mustBePresent := true }

def roleMatch (s : String) : Match :=
  { value := some (str s), designator := some (.subject, roleDes), selector := none
    func := some (.equal stringClass) }
def actMatch (s : String) : Match :=
  { value := some (str s), designator := some (.action, actDes), selector := none
    func := some (.equal stringClass) }
/-- A match element that raises MissingAttributeError. -/
def errMatch : Match :=
  { value := some (str "x"), designator := some (.subject, missingDes), selector := none
    func := some (.equal stringClass) }

def roleTarget (s : String) : Target :=
  { subjects := [{ matches_ := [roleMatch s] }], resources := [], actions := [], environments := [] }
def errTarget : Target :=
  { subjects := [{ matches_ := [errMatch] }], resources := [], actions := [], environments := [] }

/-- Applies to everybody with role `s`. -/
def roleRule (e : Effect) (s : String) : Rule :=
  { effect := some e, target := some (roleTarget s), condition := none }
/-- Always applicable. -/
def always (e : Effect) : Rule := { effect := some e, target := none, condition := none }
/-- Always Indeterminate. -/
def failing (e : Effect) : Rule := { effect := some e, target := some errTarget, condition := none }

def hdr (a : Alg) (t : Option Target := none) : Header := { alg := some a, target := t }

end Xacml.Samples
