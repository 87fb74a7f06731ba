import Verif.Model.Eval
import Verif.Model.Str

/-!
# Function map: from function URNs to function classes
-/
namespace Xacml

/-- Families of functions with an implementation in the package, one per base class.
Models: ndg/xacml/core/functions/v1/*.py, ndg/xacml/core/functions/v2/*.py. -/
inductive Family where
  | equal | matchFn | bag | oneAndOnly | atLeastOneMemberOf | and | not | round
  | regexpMatch | concatenate
  deriving DecidableEq

/-- A function class: base class of the family with its TYPE variable, or a class supplied by the
user of the package (identified by a number). -/
inductive FnClass where
  | std (fam : Family) (type : Option AVClass)
  | custom (n : Nat)
  deriving DecidableEq

/-- A value of the function map. Models: ndg/xacml/core/functions/__init__.py:585-606. -/
inductive FnEntry where
  | notImplemented
  | cls (c : FnClass)
  deriving DecidableEq

/-- The function object `functionClass()` evaluates to; `customs` gives the behaviour of user classes.
Models: ndg/xacml/core/match.py:244, ndg/xacml/core/apply.py:142. -/
def FnClass.toFunc (customs : Nat → List PyVal → Except Exc PyVal) : FnClass → Option Func
  | .std .equal (some t) => some (.equal t)
  | .std .matchFn (some t) => some (.matchFn t)
  | .std .bag (some t) => some (.bag t)
  | .std .oneAndOnly (some t) => some (.oneAndOnly t)
  | .std .atLeastOneMemberOf (some t) => some (.atLeastOneMemberOf t)
  | .std .regexpMatch (some t) => some (.regexpMatch t)
  | .std .concatenate (some t) => some (.concatenate t)
  | .std .and none => some .and
  | .std .not none => some .not
  | .std .round none => some .round
  | .std _ _ => none
  | .custom n => some (.custom (customs n))

/-- What calling a class factory may return: nothing, an entry, or an object that is not a
function class. -/
inductive FactoryOut where
  | none
  | entry (e : FnEntry)
  | junk

/-- A function class factory: deterministic, may raise; its argument is the identifier. -/
abbrev Factory := List Char → Except Exc FactoryOut

/-- XACML 1.0 function namespace. Models: ndg/xacml/core/functions/__init__.py:43. -/
def v1ns : List Char := chars% "urn:oasis:names:tc:xacml:1.0:function:"
/-- XACML 2.0 function namespace. Models: ndg/xacml/core/functions/__init__.py:44. -/
def v2ns : List Char := chars% "urn:oasis:names:tc:xacml:2.0:function:"

/-- SPECIAL_TYPE_MAP. Models: ndg/xacml/core/functions/__init__.py:26-28. -/
def specialTypes : List (List Char × List Char) :=
  [(chars% "url-string", chars% "AnyURI"), (chars% "xpath-node", chars% "String")]

/-- Keys of TYPE_URI_MAP, in the order of `typeTable`. Models: ndg/xacml/core/attributevalue.py:88-105. -/
def typeNames : List (List Char) := [
  chars% "String", chars% "AnyURI", chars% "Integer", chars% "Boolean", chars% "Double", chars% "Date",
  chars% "DateTime", chars% "Time", chars% "DayTimeDuration", chars% "YearMonthDuration",
  chars% "X500Name", chars% "Rfc822Name", chars% "HexBinary", chars% "Base64Binary",
  chars% "IpAddress", chars% "DnsName"]

/-- `TYPE_URI_MAP.get(name)`. Models: ndg/xacml/core/attributevalue.py:125. -/
def typeURI (name : List Char) : Option String :=
  (typeNames.zip (typeTable.map fun r => r.2.1)).lookup name

/-- Camel case name of the type part of a function name; `none` stands for IndexError.
Models: ndg/xacml/core/functions/__init__.py:449-461. -/
def camelCase (typePart : List Char) : Option (List Char) :=
  match strCapitalize typePart with
  | none => none
  | some n =>
    if n.contains '-' then
      match (strSplit ['-'] n).mapM strCapitalize with
      | some ps => some ps.flatten
      | none => none
    else some n

/-- The type URI a function identifier refers to.
Models: ndg/xacml/core/functions/__init__.py:451-473. -/
def functionTypeURI (suffix : List Char) (identifier : List Char) : Except Exc String :=
  let functionName := (strSplit [':'] identifier).getLastD []
  let typePart := (strSplit suffix functionName).headD []
  match camelCase typePart with
  | none => .error .indexError
  | some typeName =>
    match typeURI typeName with
    | some u => .ok u
    | none =>
      match specialTypes.lookup typePart with
      | some n =>
        match typeURI n with
        | some u => .ok u
        | none => .error .keyError
      | none => .error .typeError

/-- `FunctionClassFactoryBase.__call__`. Simplification: the factory's own cache is left out;
under a fixed class map it returns what is computed here.
Models: ndg/xacml/core/functions/__init__.py:438-512. -/
def baseFactory (classMap : List (String × AVClass)) (fam : Family) (suffix : List Char) : Factory :=
  fun identifier =>
    match functionTypeURI suffix identifier with
    | .error e => .error e
    | .ok u =>
      match classLookup classMap (some u) with
      | some t => .ok (.entry (.cls (.std fam (some t))))
      | none => .error .typeError

/-- A factory for a single identifier. Models: ndg/xacml/core/functions/v1/and.py:61-72,
v1/not.py:61-72, v1/round.py:41-52, v1/regexp_match.py:93-105. -/
def exactFactory (c : FnClass) (ns : List Char) : Factory := fun identifier =>
  if identifier == ns then .ok (.entry (.cls c)) else .ok .none

/-- `callModuleObject(path)`: the factory, or the exception raised by the import. -/
abbrev Importer := List Char → Except Exc Factory

/-- The factories in the package. Paths that are not listed raise ImportError. Simplification: that
is not exact for paths in which the module name itself contains '.' or ':'.
Models: the modules below ndg/xacml/core/functions/v1 and v2 (their FUNCTION_NS_SUFFIX,
FUNCTION_BASE_CLASS and FunctionClassFactory). -/
def stdImporter (classMap : List (String × AVClass)) : Importer := fun path =>
  let b := fun fam sfx => (Except.ok (baseFactory classMap fam sfx) : Except Exc Factory)
  let str := classLookup classMap (some (xsd "string"))
  let x := fun c name => (Except.ok (exactFactory c (v1ns ++ name)) : Except Exc Factory)
  match ([
    (chars% "ndg.xacml.core.functions.v1.and.FunctionClassFactory", x (.std .and none) chars% "and"),
    (chars% "ndg.xacml.core.functions.v1.at_least_one_member_of.FunctionClassFactory",
      b .atLeastOneMemberOf chars% "-at-least-one-member-of"),
    (chars% "ndg.xacml.core.functions.v1.bag.FunctionClassFactory", b .bag chars% "-bag"),
    (chars% "ndg.xacml.core.functions.v1.equal.FunctionClassFactory", b .equal chars% "-equal"),
    (chars% "ndg.xacml.core.functions.v1.match.FunctionClassFactory", b .matchFn chars% "-match"),
    (chars% "ndg.xacml.core.functions.v1.not.FunctionClassFactory", x (.std .not none) chars% "not"),
    (chars% "ndg.xacml.core.functions.v1.one_and_only.FunctionClassFactory", b .oneAndOnly chars% "-one-and-only"),
    (chars% "ndg.xacml.core.functions.v1.regexp_match.FunctionClassFactory",
      x (.std .regexpMatch str) chars% "string-regexp-match"),
    (chars% "ndg.xacml.core.functions.v1.round.FunctionClassFactory", x (.std .round none) chars% "round"),
    (chars% "ndg.xacml.core.functions.v2.concatenate.FunctionClassFactory", b .concatenate chars% "-concatenate"),
    (chars% "ndg.xacml.core.functions.v2.regexp_match.FunctionClassFactory", b .regexpMatch chars% "-regexp-match")
    ] : List (List Char × Except Exc Factory)).lookup path with
  | some f => f
  | none => .error .importError

/-- XacmlFunctionNames.FUNCTION_NAMES. Models: ndg/xacml/core/functions/__init__.py:71-284. -/
def stdFunctionNames : List String := [
  "urn:oasis:names:tc:xacml:1.0:function:string-equal",
  "urn:oasis:names:tc:xacml:1.0:function:boolean-equal",
  "urn:oasis:names:tc:xacml:1.0:function:integer-equal",
  "urn:oasis:names:tc:xacml:1.0:function:double-equal",
  "urn:oasis:names:tc:xacml:1.0:function:date-equal",
  "urn:oasis:names:tc:xacml:1.0:function:time-equal",
  "urn:oasis:names:tc:xacml:1.0:function:dateTime-equal",
  "urn:oasis:names:tc:xacml:1.0:function:dayTimeDuration-equal",
  "urn:oasis:names:tc:xacml:1.0:function:yearMonthDuration-equal",
  "urn:oasis:names:tc:xacml:1.0:function:anyURI-equal",
  "urn:oasis:names:tc:xacml:1.0:function:x500Name-equal",
  "urn:oasis:names:tc:xacml:1.0:function:rfc822Name-equal",
  "urn:oasis:names:tc:xacml:1.0:function:hexBinary-equal",
  "urn:oasis:names:tc:xacml:1.0:function:base64Binary-equal",
  "urn:oasis:names:tc:xacml:1.0:function:integer-add",
  "urn:oasis:names:tc:xacml:1.0:function:double-add",
  "urn:oasis:names:tc:xacml:1.0:function:integer-subtract",
  "urn:oasis:names:tc:xacml:1.0:function:double-subtract",
  "urn:oasis:names:tc:xacml:1.0:function:integer-multiply",
  "urn:oasis:names:tc:xacml:1.0:function:double-multiply",
  "urn:oasis:names:tc:xacml:1.0:function:integer-divide",
  "urn:oasis:names:tc:xacml:1.0:function:double-divide",
  "urn:oasis:names:tc:xacml:1.0:function:integer-mod",
  "urn:oasis:names:tc:xacml:1.0:function:integer-abs",
  "urn:oasis:names:tc:xacml:1.0:function:double-abs",
  "urn:oasis:names:tc:xacml:1.0:function:round",
  "urn:oasis:names:tc:xacml:1.0:function:floor",
  "urn:oasis:names:tc:xacml:1.0:function:string-normalize-space",
  "urn:oasis:names:tc:xacml:1.0:function:string-normalize-to-lower-case",
  "urn:oasis:names:tc:xacml:1.0:function:double-to-integer",
  "urn:oasis:names:tc:xacml:1.0:function:integer-to-double",
  "urn:oasis:names:tc:xacml:1.0:function:or",
  "urn:oasis:names:tc:xacml:1.0:function:and",
  "urn:oasis:names:tc:xacml:1.0:function:n-of",
  "urn:oasis:names:tc:xacml:1.0:function:not",
  "urn:oasis:names:tc:xacml:1.0:function:integer-greater-than",
  "urn:oasis:names:tc:xacml:1.0:function:integer-greater-than-or-equal",
  "urn:oasis:names:tc:xacml:1.0:function:integer-less-than",
  "urn:oasis:names:tc:xacml:1.0:function:integer-less-than-or-equal",
  "urn:oasis:names:tc:xacml:1.0:function:double-greater-than",
  "urn:oasis:names:tc:xacml:1.0:function:double-greater-than-or-equal",
  "urn:oasis:names:tc:xacml:1.0:function:double-less-than",
  "urn:oasis:names:tc:xacml:1.0:function:double-less-than-or-equal",
  "urn:oasis:names:tc:xacml:1.0:function:dateTime-add-dayTimeDuration",
  "urn:oasis:names:tc:xacml:1.0:function:dateTime-add-yearMonthDuration",
  "urn:oasis:names:tc:xacml:1.0:function:dateTime-subtract-dayTimeDuration",
  "urn:oasis:names:tc:xacml:1.0:function:dateTime-subtract-yearMonthDuration",
  "urn:oasis:names:tc:xacml:1.0:function:date-add-yearMonthDuration",
  "urn:oasis:names:tc:xacml:1.0:function:date-subtract-yearMonthDuration",
  "urn:oasis:names:tc:xacml:1.0:function:string-greater-than",
  "urn:oasis:names:tc:xacml:1.0:function:string-greater-than-or-equal",
  "urn:oasis:names:tc:xacml:1.0:function:string-less-than",
  "urn:oasis:names:tc:xacml:1.0:function:string-less-than-or-equal",
  "urn:oasis:names:tc:xacml:1.0:function:time-greater-than",
  "urn:oasis:names:tc:xacml:1.0:function:time-greater-than-or-equal",
  "urn:oasis:names:tc:xacml:1.0:function:time-less-than",
  "urn:oasis:names:tc:xacml:1.0:function:time-less-than-or-equal",
  "urn:oasis:names:tc:xacml:2.0:function:time-in-range",
  "urn:oasis:names:tc:xacml:1.0:function:dateTime-greater-than",
  "urn:oasis:names:tc:xacml:1.0:function:dateTime-greater-than-or-equal",
  "urn:oasis:names:tc:xacml:1.0:function:dateTime-less-than",
  "urn:oasis:names:tc:xacml:1.0:function:dateTime-less-than-or-equal",
  "urn:oasis:names:tc:xacml:1.0:function:date-greater-than",
  "urn:oasis:names:tc:xacml:1.0:function:date-greater-than-or-equal",
  "urn:oasis:names:tc:xacml:1.0:function:date-less-than",
  "urn:oasis:names:tc:xacml:1.0:function:date-less-than-or-equal",
  "urn:oasis:names:tc:xacml:1.0:function:string-one-and-only",
  "urn:oasis:names:tc:xacml:1.0:function:string-bag-size",
  "urn:oasis:names:tc:xacml:1.0:function:string-is-in",
  "urn:oasis:names:tc:xacml:1.0:function:string-bag",
  "urn:oasis:names:tc:xacml:1.0:function:boolean-one-and-only",
  "urn:oasis:names:tc:xacml:1.0:function:boolean-bag-size",
  "urn:oasis:names:tc:xacml:1.0:function:boolean-is-in",
  "urn:oasis:names:tc:xacml:1.0:function:boolean-bag",
  "urn:oasis:names:tc:xacml:1.0:function:integer-one-and-only",
  "urn:oasis:names:tc:xacml:1.0:function:integer-bag-size",
  "urn:oasis:names:tc:xacml:1.0:function:integer-is-in",
  "urn:oasis:names:tc:xacml:1.0:function:integer-bag",
  "urn:oasis:names:tc:xacml:1.0:function:double-one-and-only",
  "urn:oasis:names:tc:xacml:1.0:function:double-bag-size",
  "urn:oasis:names:tc:xacml:1.0:function:double-is-in",
  "urn:oasis:names:tc:xacml:1.0:function:double-bag",
  "urn:oasis:names:tc:xacml:1.0:function:time-one-and-only",
  "urn:oasis:names:tc:xacml:1.0:function:time-bag-size",
  "urn:oasis:names:tc:xacml:1.0:function:time-is-in",
  "urn:oasis:names:tc:xacml:1.0:function:time-bag",
  "urn:oasis:names:tc:xacml:1.0:function:date-one-and-only",
  "urn:oasis:names:tc:xacml:1.0:function:date-bag-size",
  "urn:oasis:names:tc:xacml:1.0:function:date-is-in",
  "urn:oasis:names:tc:xacml:1.0:function:date-bag",
  "urn:oasis:names:tc:xacml:1.0:function:dateTime-one-and-only",
  "urn:oasis:names:tc:xacml:1.0:function:dateTime-bag-size",
  "urn:oasis:names:tc:xacml:1.0:function:dateTime-is-in",
  "urn:oasis:names:tc:xacml:1.0:function:dateTime-bag",
  "urn:oasis:names:tc:xacml:1.0:function:anyURI-one-and-only",
  "urn:oasis:names:tc:xacml:1.0:function:anyURI-bag-size",
  "urn:oasis:names:tc:xacml:1.0:function:anyURI-is-in",
  "urn:oasis:names:tc:xacml:1.0:function:anyURI-bag",
  "urn:oasis:names:tc:xacml:1.0:function:hexBinary-one-and-only",
  "urn:oasis:names:tc:xacml:1.0:function:hexBinary-bag-size",
  "urn:oasis:names:tc:xacml:1.0:function:hexBinary-is-in",
  "urn:oasis:names:tc:xacml:1.0:function:hexBinary-bag",
  "urn:oasis:names:tc:xacml:1.0:function:base64Binary-one-and-only",
  "urn:oasis:names:tc:xacml:1.0:function:base64Binary-bag-size",
  "urn:oasis:names:tc:xacml:1.0:function:base64Binary-is-in",
  "urn:oasis:names:tc:xacml:1.0:function:base64Binary-bag",
  "urn:oasis:names:tc:xacml:1.0:function:dayTimeDuration-one-and-only",
  "urn:oasis:names:tc:xacml:1.0:function:dayTimeDuration-bag-size",
  "urn:oasis:names:tc:xacml:1.0:function:dayTimeDuration-is-in",
  "urn:oasis:names:tc:xacml:1.0:function:dayTimeDuration-bag",
  "urn:oasis:names:tc:xacml:1.0:function:yearMonthDuration-one-and-only",
  "urn:oasis:names:tc:xacml:1.0:function:yearMonthDuration-bag-size",
  "urn:oasis:names:tc:xacml:1.0:function:yearMonthDuration-is-in",
  "urn:oasis:names:tc:xacml:1.0:function:yearMonthDuration-bag",
  "urn:oasis:names:tc:xacml:1.0:function:x500Name-one-and-only",
  "urn:oasis:names:tc:xacml:1.0:function:x500Name-bag-size",
  "urn:oasis:names:tc:xacml:1.0:function:x500Name-is-in",
  "urn:oasis:names:tc:xacml:1.0:function:x500Name-bag",
  "urn:oasis:names:tc:xacml:1.0:function:rfc822Name-one-and-only",
  "urn:oasis:names:tc:xacml:1.0:function:rfc822Name-bag-size",
  "urn:oasis:names:tc:xacml:1.0:function:rfc822Name-is-in",
  "urn:oasis:names:tc:xacml:1.0:function:rfc822Name-bag",
  "urn:oasis:names:tc:xacml:2.0:function:string-concatenate",
  "urn:oasis:names:tc:xacml:2.0:function:uri-string-concatenate",
  "urn:oasis:names:tc:xacml:1.0:function:any-of",
  "urn:oasis:names:tc:xacml:1.0:function:all-of",
  "urn:oasis:names:tc:xacml:1.0:function:any-of-any",
  "urn:oasis:names:tc:xacml:1.0:function:all-of-any",
  "urn:oasis:names:tc:xacml:1.0:function:any-of-all",
  "urn:oasis:names:tc:xacml:1.0:function:all-of-all",
  "urn:oasis:names:tc:xacml:1.0:function:map",
  "urn:oasis:names:tc:xacml:1.0:function:x500Name-match",
  "urn:oasis:names:tc:xacml:1.0:function:rfc822Name-match",
  "urn:oasis:names:tc:xacml:1.0:function:string-regexp-match",
  "urn:oasis:names:tc:xacml:2.0:function:anyURI-regexp-match",
  "urn:oasis:names:tc:xacml:2.0:function:ipAddress-regexp-match",
  "urn:oasis:names:tc:xacml:2.0:function:dnsName-regexp-match",
  "urn:oasis:names:tc:xacml:2.0:function:rfc822Name-regexp-match",
  "urn:oasis:names:tc:xacml:2.0:function:x500Name-regexp-match",
  "urn:oasis:names:tc:xacml:1.0:function:xpath-node-count",
  "urn:oasis:names:tc:xacml:1.0:function:xpath-node-equal",
  "urn:oasis:names:tc:xacml:1.0:function:xpath-node-match",
  "urn:oasis:names:tc:xacml:1.0:function:string-intersection",
  "urn:oasis:names:tc:xacml:1.0:function:string-at-least-one-member-of",
  "urn:oasis:names:tc:xacml:1.0:function:string-union",
  "urn:oasis:names:tc:xacml:1.0:function:string-subset",
  "urn:oasis:names:tc:xacml:1.0:function:string-set-equals",
  "urn:oasis:names:tc:xacml:1.0:function:boolean-intersection",
  "urn:oasis:names:tc:xacml:1.0:function:boolean-at-least-one-member-of",
  "urn:oasis:names:tc:xacml:1.0:function:boolean-union",
  "urn:oasis:names:tc:xacml:1.0:function:boolean-subset",
  "urn:oasis:names:tc:xacml:1.0:function:boolean-set-equals",
  "urn:oasis:names:tc:xacml:1.0:function:integer-intersection",
  "urn:oasis:names:tc:xacml:1.0:function:integer-at-least-one-member-of",
  "urn:oasis:names:tc:xacml:1.0:function:integer-union",
  "urn:oasis:names:tc:xacml:1.0:function:integer-subset",
  "urn:oasis:names:tc:xacml:1.0:function:integer-set-equals",
  "urn:oasis:names:tc:xacml:1.0:function:double-intersection",
  "urn:oasis:names:tc:xacml:1.0:function:double-at-least-one-member-of",
  "urn:oasis:names:tc:xacml:1.0:function:double-union",
  "urn:oasis:names:tc:xacml:1.0:function:double-subset",
  "urn:oasis:names:tc:xacml:1.0:function:double-set-equals",
  "urn:oasis:names:tc:xacml:1.0:function:time-intersection",
  "urn:oasis:names:tc:xacml:1.0:function:time-at-least-one-member-of",
  "urn:oasis:names:tc:xacml:1.0:function:time-union",
  "urn:oasis:names:tc:xacml:1.0:function:time-subset",
  "urn:oasis:names:tc:xacml:1.0:function:time-set-equals",
  "urn:oasis:names:tc:xacml:1.0:function:date-intersection",
  "urn:oasis:names:tc:xacml:1.0:function:date-at-least-one-member-of",
  "urn:oasis:names:tc:xacml:1.0:function:date-union",
  "urn:oasis:names:tc:xacml:1.0:function:date-subset",
  "urn:oasis:names:tc:xacml:1.0:function:date-set-equals",
  "urn:oasis:names:tc:xacml:1.0:function:dateTime-intersection",
  "urn:oasis:names:tc:xacml:1.0:function:dateTime-at-least-one-member-of",
  "urn:oasis:names:tc:xacml:1.0:function:dateTime-union",
  "urn:oasis:names:tc:xacml:1.0:function:dateTime-subset",
  "urn:oasis:names:tc:xacml:1.0:function:dateTime-set-equals",
  "urn:oasis:names:tc:xacml:1.0:function:anyURI-intersection",
  "urn:oasis:names:tc:xacml:1.0:function:anyURI-at-least-one-member-of",
  "urn:oasis:names:tc:xacml:1.0:function:anyURI-union",
  "urn:oasis:names:tc:xacml:1.0:function:anyURI-subset",
  "urn:oasis:names:tc:xacml:1.0:function:anyURI-set-equals",
  "urn:oasis:names:tc:xacml:1.0:function:hexBinary-intersection",
  "urn:oasis:names:tc:xacml:1.0:function:hexBinary-at-least-one-member-of",
  "urn:oasis:names:tc:xacml:1.0:function:hexBinary-union",
  "urn:oasis:names:tc:xacml:1.0:function:hexBinary-subset",
  "urn:oasis:names:tc:xacml:1.0:function:hexBinary-set-equals",
  "urn:oasis:names:tc:xacml:1.0:function:base64Binary-intersection",
  "urn:oasis:names:tc:xacml:1.0:function:base64Binary-at-least-one-member-of",
  "urn:oasis:names:tc:xacml:1.0:function:base64Binary-union",
  "urn:oasis:names:tc:xacml:1.0:function:base64Binary-subset",
  "urn:oasis:names:tc:xacml:1.0:function:base64Binary-set-equals",
  "urn:oasis:names:tc:xacml:1.0:function:dayTimeDuration-intersection",
  "urn:oasis:names:tc:xacml:1.0:function:dayTimeDuration-at-least-one-member-of",
  "urn:oasis:names:tc:xacml:1.0:function:dayTimeDuration-union",
  "urn:oasis:names:tc:xacml:1.0:function:dayTimeDuration-subset",
  "urn:oasis:names:tc:xacml:1.0:function:dayTimeDuration-set-equals",
  "urn:oasis:names:tc:xacml:1.0:function:yearMonthDuration-intersection",
  "urn:oasis:names:tc:xacml:1.0:function:yearMonthDuration-at-least-one-member-of",
  "urn:oasis:names:tc:xacml:1.0:function:yearMonthDuration-union",
  "urn:oasis:names:tc:xacml:1.0:function:yearMonthDuration-subset",
  "urn:oasis:names:tc:xacml:1.0:function:yearMonthDuration-set-equals",
  "urn:oasis:names:tc:xacml:1.0:function:x500Name-intersection",
  "urn:oasis:names:tc:xacml:1.0:function:x500Name-at-least-one-member-of",
  "urn:oasis:names:tc:xacml:1.0:function:x500Name-union",
  "urn:oasis:names:tc:xacml:1.0:function:x500Name-subset",
  "urn:oasis:names:tc:xacml:1.0:function:x500Name-set-equals",
  "urn:oasis:names:tc:xacml:1.0:function:rfc822Name-intersection",
  "urn:oasis:names:tc:xacml:1.0:function:rfc822Name-at-least-one-member-of",
  "urn:oasis:names:tc:xacml:1.0:function:rfc822Name-union",
  "urn:oasis:names:tc:xacml:1.0:function:rfc822Name-subset",
  "urn:oasis:names:tc:xacml:1.0:function:rfc822Name-set-equals"]

/-- State of a FunctionMap: the dict and the cached factories (the map of custom factories is only
written, never read). Models: ndg/xacml/core/functions/__init__.py:551-569. -/
structure FunctionMap where
  store : List (String × FnEntry)
  factories : List (String × Factory)

/-- A new FunctionMap. -/
def FunctionMap.new : FunctionMap := ⟨[], []⟩

/-- Python module path for a function name within its namespace.
Models: ndg/xacml/core/functions/__init__.py:645-665. -/
def functionModule (functionName : List Char) : List Char :=
  let parts := strSplit ['-'] functionName
  if parts.length == 1 then parts.headD []
  else
    match specialTypes.find? fun p => (p.1 ++ ['-']).isPrefixOf functionName with
    | some p => strLower (strJoin ['_'] (strSplit ['-'] (functionName.drop (p.1.length + 1))))
    | none => strLower (strJoin ['_'] (parts.drop 1))

/-- Class path of the factory for a URN; `none` if the namespace is not supported.
Models: ndg/xacml/core/functions/__init__.py:637-669. -/
def functionClassPath (ns : List Char) : Option (List Char) :=
  match [(v1ns, chars% "ndg.xacml.core.functions.v1."), (v2ns, chars% "ndg.xacml.core.functions.v2.")].find?
      fun p => p.1.isPrefixOf ns with
  | none => none
  | some (pfx, pkg) =>
    let functionName := (strSplit pfx ns).getLastD []
    some (pkg ++ functionModule functionName ++ chars% ".FunctionClassFactory")

/-- `unsupportedFunctionErrorFactory`: it raises. Models: ndg/xacml/core/functions/__init__.py:299-319. -/
def unsupportedError (ns : String) : Exc :=
  if stdFunctionNames.contains ns then .unsupportedStdFunctionError else .unsupportedFunctionError

/-- `self[ns] = value` with the value filter. Models: ndg/xacml/core/functions/__init__.py:585-606,
ndg/xacml/utils/__init__.py:204-214. -/
def FunctionMap.setItem (m : FunctionMap) (ns : String) : FactoryOut → Except Exc Unit × FunctionMap
  | .entry e => (.ok (), { m with store := dictSet m.store ns e })
  | .none | .junk => (.error .typeError, m)

/-- `loadFunction`. Models: ndg/xacml/core/functions/__init__.py:620-691. -/
def FunctionMap.loadFunction (imp : Importer) (m : FunctionMap) (ns : String) : Except Exc Unit × FunctionMap :=
  match dictGet m.store ns with
  | some _ => (.ok (), m)
  | none =>
    match dictGet m.factories ns with
    | some f =>
      match f ns.toList with
      | .error e => (.error e, m)
      | .ok out => m.setItem ns out
    | none =>
      match functionClassPath ns.toList with
      | none => (.error .functionMapConfigError, m)
      | some path =>
        match imp path with
        | .error e =>
          if e = .importError ∨ e = .attributeError then m.setItem ns (.entry .notImplemented)
          else (.error e, m)
        | .ok f =>
          match f ns.toList with
          | .error e => (.error e, m)
          | .ok .none => (.error (unsupportedError ns), m)
          | .ok out =>
            match m.setItem ns out with
            | (.error e, m') => (.error e, m')
            | (.ok (), m') => (.ok (), { m' with factories := dictSet m'.factories ns f })

/-- `map.get(ns)` and `map[ns]`: the entry, loading it first if need be. (`get` ignores a single
default argument, so it behaves alike with one.) Models: ndg/xacml/core/functions/__init__.py:725-757. -/
def FunctionMap.get (imp : Importer) (m : FunctionMap) (ns : String) : Except Exc FnEntry × FunctionMap :=
  match dictGet m.store ns with
  | some e => (.ok e, m)
  | none =>
    match m.loadFunction imp ns with
    | (.error e, m') => (.error e, m')
    | (.ok (), m') =>
      match dictGet m'.store ns with
      | some e => (.ok e, m')
      | none => (.error .keyError, m')

/-- The factory argument of `load_custom_function`. -/
inductive CustomArg where
  | factory (f : Factory)
  | path (p : String)
  | notAString

/-- `load_custom_function`. Models: ndg/xacml/core/functions/__init__.py:693-723. -/
def FunctionMap.loadCustom (imp : Importer) (m : FunctionMap) (ns : String) (a : CustomArg) :
    Except Exc Unit × FunctionMap :=
  if stdFunctionNames.contains ns then (.error .overwritingStdFunctionError, m)
  else
    let install (f : Factory) : Except Exc Unit × FunctionMap :=
      match f ns.toList with
      | .error e => (.error e, m)
      | .ok .none => (.error (unsupportedError ns), m)
      | .ok out => m.setItem ns out
    match a with
    | .factory f => install f
    | .path p =>
      match imp p.toList with
      | .error e => (.error e, m)
      | .ok f => install f
    | .notAString => (.error .typeError, m)

/-- `del map[ns]`. Models: ndg/xacml/utils/__init__.py:264-265. -/
def FunctionMap.delItem (m : FunctionMap) (ns : String) : Except Exc Unit × FunctionMap :=
  match dictGet m.store ns with
  | some _ => (.ok (), { m with store := dictErase m.store ns })
  | none => (.error .keyError, m)

/-- `loadAllCore` from a list of names. Models: ndg/xacml/core/functions/__init__.py:614-618. -/
def FunctionMap.loadAll (imp : Importer) (m : FunctionMap) : List String → Except Exc Unit × FunctionMap
  | [] => (.ok (), m)
  | n :: ns =>
    match m.loadFunction imp n with
    | (.error e, m') => (.error e, m')
    | (.ok (), m') => m'.loadAll imp ns

/-- Calls on a function map. -/
inductive FmEvent where
  | get (ns : String)
  | loadCustom (ns : String) (a : CustomArg)
  | del (ns : String)
  | loadAllCore

/-- State after a call, successful or not. -/
def FmEvent.step (imp : Importer) (m : FunctionMap) : FmEvent → FunctionMap
  | .get ns => (m.get imp ns).2
  | .loadCustom ns a => (m.loadCustom imp ns a).2
  | .del ns => (m.delItem ns).2
  | .loadAllCore => (m.loadAll imp stdFunctionNames).2

/-- State after a sequence of calls. -/
def fmRun (imp : Importer) (m : FunctionMap) (es : List FmEvent) : FunctionMap :=
  es.foldl (FmEvent.step imp) m

end Xacml
