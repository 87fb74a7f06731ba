import Verif.Model.FunctionMap

/-!
# What function lookup should give
-/
namespace Xacml.Spec
open Xacml

/-! The classes for the XACML types (see `typeTable`; String, Boolean, Integer, Double and AnyURI are
in the model). -/
def timeClass : AVClass := stdClass ("Time", xsd "time", .datetime)
def dateClass : AVClass := stdClass ("Date", xsd "date", .datetime)
def dateTimeClass : AVClass := stdClass ("DateTime", xsd "dateTime", .datetime)
def hexBinaryClass : AVClass := stdClass ("HexBinary", xsd "hexBinary", .int)
def base64BinaryClass : AVClass := stdClass ("Base64Binary", xsd "base64Binary", .notImplemented)
def dayTimeDurationClass : AVClass := stdClass ("DayTimeDuration",
  "http://www.w3.org/TR/2002/WD-xquery-operators-20020816#dayTimeDuration", .timedelta)
def yearMonthDurationClass : AVClass := stdClass ("YearMonthDuration",
  "http://www.w3.org/TR/2002/WD-xquery-operators-20020816#yearMonthDuration", .timedelta)
def ipAddressClass : AVClass := stdClass ("IpAddress", "urn:oasis:names:tc:xacml:2.0:data-type:ipAddress", .str)
def dnsNameClass : AVClass := stdClass ("DnsName", "urn:oasis:names:tc:xacml:2.0:data-type:dnsName", .str)
def x500NameClass : AVClass := stdClass ("X500Name", "urn:oasis:names:tc:xacml:1.0:data-type:x500Name", .str)
def rfc822NameClass : AVClass := stdClass ("Rfc822Name", "urn:oasis:names:tc:xacml:1.0:data-type:rfc822Name", .str)

/-- The implemented standard functions: URN, family, type. -/
def implemented : List (String × Family × Option AVClass) := [
  ("urn:oasis:names:tc:xacml:1.0:function:string-equal", .equal, some stringClass),
  ("urn:oasis:names:tc:xacml:1.0:function:boolean-equal", .equal, some booleanClass),
  ("urn:oasis:names:tc:xacml:1.0:function:integer-equal", .equal, some integerClass),
  ("urn:oasis:names:tc:xacml:1.0:function:double-equal", .equal, some doubleClass),
  ("urn:oasis:names:tc:xacml:1.0:function:time-equal", .equal, some timeClass),
  ("urn:oasis:names:tc:xacml:1.0:function:date-equal", .equal, some dateClass),
  ("urn:oasis:names:tc:xacml:1.0:function:dateTime-equal", .equal, some dateTimeClass),
  ("urn:oasis:names:tc:xacml:1.0:function:anyURI-equal", .equal, some anyURIClass),
  ("urn:oasis:names:tc:xacml:1.0:function:hexBinary-equal", .equal, some hexBinaryClass),
  ("urn:oasis:names:tc:xacml:1.0:function:base64Binary-equal", .equal, some base64BinaryClass),
  ("urn:oasis:names:tc:xacml:1.0:function:dayTimeDuration-equal", .equal, some dayTimeDurationClass),
  ("urn:oasis:names:tc:xacml:1.0:function:yearMonthDuration-equal", .equal, some yearMonthDurationClass),
  ("urn:oasis:names:tc:xacml:1.0:function:x500Name-equal", .equal, some x500NameClass),
  ("urn:oasis:names:tc:xacml:1.0:function:rfc822Name-equal", .equal, some rfc822NameClass),
  ("urn:oasis:names:tc:xacml:1.0:function:string-bag", .bag, some stringClass),
  ("urn:oasis:names:tc:xacml:1.0:function:boolean-bag", .bag, some booleanClass),
  ("urn:oasis:names:tc:xacml:1.0:function:integer-bag", .bag, some integerClass),
  ("urn:oasis:names:tc:xacml:1.0:function:double-bag", .bag, some doubleClass),
  ("urn:oasis:names:tc:xacml:1.0:function:time-bag", .bag, some timeClass),
  ("urn:oasis:names:tc:xacml:1.0:function:date-bag", .bag, some dateClass),
  ("urn:oasis:names:tc:xacml:1.0:function:dateTime-bag", .bag, some dateTimeClass),
  ("urn:oasis:names:tc:xacml:1.0:function:anyURI-bag", .bag, some anyURIClass),
  ("urn:oasis:names:tc:xacml:1.0:function:hexBinary-bag", .bag, some hexBinaryClass),
  ("urn:oasis:names:tc:xacml:1.0:function:base64Binary-bag", .bag, some base64BinaryClass),
  ("urn:oasis:names:tc:xacml:1.0:function:dayTimeDuration-bag", .bag, some dayTimeDurationClass),
  ("urn:oasis:names:tc:xacml:1.0:function:yearMonthDuration-bag", .bag, some yearMonthDurationClass),
  ("urn:oasis:names:tc:xacml:1.0:function:x500Name-bag", .bag, some x500NameClass),
  ("urn:oasis:names:tc:xacml:1.0:function:rfc822Name-bag", .bag, some rfc822NameClass),
  ("urn:oasis:names:tc:xacml:1.0:function:string-one-and-only", .oneAndOnly, some stringClass),
  ("urn:oasis:names:tc:xacml:1.0:function:boolean-one-and-only", .oneAndOnly, some booleanClass),
  ("urn:oasis:names:tc:xacml:1.0:function:integer-one-and-only", .oneAndOnly, some integerClass),
  ("urn:oasis:names:tc:xacml:1.0:function:double-one-and-only", .oneAndOnly, some doubleClass),
  ("urn:oasis:names:tc:xacml:1.0:function:time-one-and-only", .oneAndOnly, some timeClass),
  ("urn:oasis:names:tc:xacml:1.0:function:date-one-and-only", .oneAndOnly, some dateClass),
  ("urn:oasis:names:tc:xacml:1.0:function:dateTime-one-and-only", .oneAndOnly, some dateTimeClass),
  ("urn:oasis:names:tc:xacml:1.0:function:anyURI-one-and-only", .oneAndOnly, some anyURIClass),
  ("urn:oasis:names:tc:xacml:1.0:function:hexBinary-one-and-only", .oneAndOnly, some hexBinaryClass),
  ("urn:oasis:names:tc:xacml:1.0:function:base64Binary-one-and-only", .oneAndOnly, some base64BinaryClass),
  ("urn:oasis:names:tc:xacml:1.0:function:dayTimeDuration-one-and-only", .oneAndOnly, some dayTimeDurationClass),
  ("urn:oasis:names:tc:xacml:1.0:function:yearMonthDuration-one-and-only", .oneAndOnly, some yearMonthDurationClass),
  ("urn:oasis:names:tc:xacml:1.0:function:x500Name-one-and-only", .oneAndOnly, some x500NameClass),
  ("urn:oasis:names:tc:xacml:1.0:function:rfc822Name-one-and-only", .oneAndOnly, some rfc822NameClass),
  ("urn:oasis:names:tc:xacml:1.0:function:string-at-least-one-member-of", .atLeastOneMemberOf, some stringClass),
  ("urn:oasis:names:tc:xacml:1.0:function:boolean-at-least-one-member-of", .atLeastOneMemberOf, some booleanClass),
  ("urn:oasis:names:tc:xacml:1.0:function:integer-at-least-one-member-of", .atLeastOneMemberOf, some integerClass),
  ("urn:oasis:names:tc:xacml:1.0:function:double-at-least-one-member-of", .atLeastOneMemberOf, some doubleClass),
  ("urn:oasis:names:tc:xacml:1.0:function:time-at-least-one-member-of", .atLeastOneMemberOf, some timeClass),
  ("urn:oasis:names:tc:xacml:1.0:function:date-at-least-one-member-of", .atLeastOneMemberOf, some dateClass),
  ("urn:oasis:names:tc:xacml:1.0:function:dateTime-at-least-one-member-of", .atLeastOneMemberOf, some dateTimeClass),
  ("urn:oasis:names:tc:xacml:1.0:function:anyURI-at-least-one-member-of", .atLeastOneMemberOf, some anyURIClass),
  ("urn:oasis:names:tc:xacml:1.0:function:hexBinary-at-least-one-member-of", .atLeastOneMemberOf, some hexBinaryClass),
  ("urn:oasis:names:tc:xacml:1.0:function:base64Binary-at-least-one-member-of", .atLeastOneMemberOf, some base64BinaryClass),
  ("urn:oasis:names:tc:xacml:1.0:function:dayTimeDuration-at-least-one-member-of", .atLeastOneMemberOf, some dayTimeDurationClass),
  ("urn:oasis:names:tc:xacml:1.0:function:yearMonthDuration-at-least-one-member-of", .atLeastOneMemberOf, some yearMonthDurationClass),
  ("urn:oasis:names:tc:xacml:1.0:function:x500Name-at-least-one-member-of", .atLeastOneMemberOf, some x500NameClass),
  ("urn:oasis:names:tc:xacml:1.0:function:rfc822Name-at-least-one-member-of", .atLeastOneMemberOf, some rfc822NameClass),
  ("urn:oasis:names:tc:xacml:1.0:function:xpath-node-equal", .equal, some stringClass),
  ("urn:oasis:names:tc:xacml:1.0:function:x500Name-match", .matchFn, some x500NameClass),
  ("urn:oasis:names:tc:xacml:1.0:function:rfc822Name-match", .matchFn, some rfc822NameClass),
  ("urn:oasis:names:tc:xacml:1.0:function:xpath-node-match", .matchFn, some stringClass),
  ("urn:oasis:names:tc:xacml:1.0:function:and", .and, none),
  ("urn:oasis:names:tc:xacml:1.0:function:not", .not, none),
  ("urn:oasis:names:tc:xacml:1.0:function:round", .round, none),
  ("urn:oasis:names:tc:xacml:1.0:function:string-regexp-match", .regexpMatch, some stringClass),
  ("urn:oasis:names:tc:xacml:2.0:function:anyURI-regexp-match", .regexpMatch, some anyURIClass),
  ("urn:oasis:names:tc:xacml:2.0:function:ipAddress-regexp-match", .regexpMatch, some ipAddressClass),
  ("urn:oasis:names:tc:xacml:2.0:function:dnsName-regexp-match", .regexpMatch, some dnsNameClass),
  ("urn:oasis:names:tc:xacml:2.0:function:rfc822Name-regexp-match", .regexpMatch, some rfc822NameClass),
  ("urn:oasis:names:tc:xacml:2.0:function:x500Name-regexp-match", .regexpMatch, some x500NameClass),
  ("urn:oasis:names:tc:xacml:2.0:function:string-concatenate", .concatenate, some stringClass)]

/-- What a standard URN resolves to: its class, or the marker for unimplemented functions. -/
def stdResolution (urn : String) : FnEntry :=
  match implemented.lookup urn with
  | some (fam, t) => .cls (.std fam t)
  | none => .notImplemented

/-- The function class a registration call offers, if it is a valid one for a non-standard URN. -/
inductive Offers (imp : Importer) (ns : String) (e : FnEntry) : CustomArg → Prop
  | factory {f} : ns ∉ stdFunctionNames → f ns.toList = .ok (.entry e) → Offers imp ns e (.factory f)
  | path {p f} : ns ∉ stdFunctionNames → imp p.toList = .ok f → f ns.toList = .ok (.entry e) → Offers imp ns e (.path p)

/-- `Registered imp ns es r`: after the calls `es`, the function in force for `ns` by registration is
`r` (the last valid one, unless it was deleted since). -/
inductive Registered (imp : Importer) (ns : String) : List FmEvent → Option FnEntry → Prop
  | start : Registered imp ns [] none
  | registers {es r a e} : Registered imp ns es r → Offers imp ns e a →
      Registered imp ns (es ++ [.loadCustom ns a]) (some e)
  | rejected {es r a} : Registered imp ns es r → (∀ e, ¬ Offers imp ns e a) →
      Registered imp ns (es ++ [.loadCustom ns a]) r
  | deleted {es r} : Registered imp ns es r → Registered imp ns (es ++ [.del ns]) none
  | otherCustom {es r n a} : Registered imp ns es r → n ≠ ns → Registered imp ns (es ++ [.loadCustom n a]) r
  | otherDel {es r n} : Registered imp ns es r → n ≠ ns → Registered imp ns (es ++ [.del n]) r
  | lookup {es r n} : Registered imp ns es r → Registered imp ns (es ++ [.get n]) r
  | loadAll {es r} : Registered imp ns es r → Registered imp ns (es ++ [.loadAllCore]) r

/-- The letters with a given ASCII capital: itself, the small letter, and two letters outside ASCII: the dotless i
(U+0131) and the long s (U+017F). -/
def LetterOf (capital c : Char) : Prop :=
  c.toUpper = capital ∨ (capital = 'I' ∧ c = Char.ofNat 0x131) ∨ (capital = 'S' ∧ c = Char.ofNat 0x17f)

/-- A word for a type in a function identifier: the name of the type, its first letter in lower (or upper) case, or one
of two words that stand for other types. -/
def TypeWord (w : String) (t : AVClass) : Prop :=
  (∃ row ∈ typeTable, t = stdClass row ∧ ∃ capital c cs, LetterOf capital c ∧ w.toList = c :: cs ∧
    row.1.toList = capital :: cs) ∨
  (w = "url-string" ∧ t = anyURIClass) ∨ (w = "xpath-node" ∧ t = stringClass)

/-- Namespace and ending of the identifiers of the families of functions that exist for several types. -/
def ending : Family → Option (String × String)
  | .equal => some ("urn:oasis:names:tc:xacml:1.0:function:", "-equal")
  | .matchFn => some ("urn:oasis:names:tc:xacml:1.0:function:", "-match")
  | .bag => some ("urn:oasis:names:tc:xacml:1.0:function:", "-bag")
  | .oneAndOnly => some ("urn:oasis:names:tc:xacml:1.0:function:", "-one-and-only")
  | .atLeastOneMemberOf => some ("urn:oasis:names:tc:xacml:1.0:function:", "-at-least-one-member-of")
  | .regexpMatch => some ("urn:oasis:names:tc:xacml:2.0:function:", "-regexp-match")
  | .concatenate => some ("urn:oasis:names:tc:xacml:2.0:function:", "-concatenate")
  | .and | .not | .round => none

/-- The identifier says which function is meant: it is one of four fixed ones, or it starts with the namespace of the
family and its last part consists of a word for the type and the ending of the family. -/
inductive Identifies : String → Family → Option AVClass → Prop
  | and : Identifies "urn:oasis:names:tc:xacml:1.0:function:and" .and none
  | not : Identifies "urn:oasis:names:tc:xacml:1.0:function:not" .not none
  | round : Identifies "urn:oasis:names:tc:xacml:1.0:function:round" .round none
  | regexp : Identifies "urn:oasis:names:tc:xacml:1.0:function:string-regexp-match" .regexpMatch (some stringClass)
  | typed {ns fam t space more word stop} : ending fam = some (space, stop) → (more = "" ∨ ∃ x, more = x ++ ":") →
      TypeWord word t → ns = space ++ more ++ word ++ stop → Identifies ns fam (some t)

end Xacml.Spec
