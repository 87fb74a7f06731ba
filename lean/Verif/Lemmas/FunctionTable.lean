import Verif.Spec.FunctionMap

/-!
# The standard function table on character lists

Character lists are cheap to compute with in the kernel; the names are related to the strings of the
model and the specification by `String.ofList`.
-/
namespace Xacml

set_option maxRecDepth 20000

/-- The names of `stdFunctionNames`. -/
def stdNamesL : List (List Char) := [
  chars% "urn:oasis:names:tc:xacml:1.0:function:string-equal",
  chars% "urn:oasis:names:tc:xacml:1.0:function:boolean-equal",
  chars% "urn:oasis:names:tc:xacml:1.0:function:integer-equal",
  chars% "urn:oasis:names:tc:xacml:1.0:function:double-equal",
  chars% "urn:oasis:names:tc:xacml:1.0:function:date-equal",
  chars% "urn:oasis:names:tc:xacml:1.0:function:time-equal",
  chars% "urn:oasis:names:tc:xacml:1.0:function:dateTime-equal",
  chars% "urn:oasis:names:tc:xacml:1.0:function:dayTimeDuration-equal",
  chars% "urn:oasis:names:tc:xacml:1.0:function:yearMonthDuration-equal",
  chars% "urn:oasis:names:tc:xacml:1.0:function:anyURI-equal",
  chars% "urn:oasis:names:tc:xacml:1.0:function:x500Name-equal",
  chars% "urn:oasis:names:tc:xacml:1.0:function:rfc822Name-equal",
  chars% "urn:oasis:names:tc:xacml:1.0:function:hexBinary-equal",
  chars% "urn:oasis:names:tc:xacml:1.0:function:base64Binary-equal",
  chars% "urn:oasis:names:tc:xacml:1.0:function:integer-add",
  chars% "urn:oasis:names:tc:xacml:1.0:function:double-add",
  chars% "urn:oasis:names:tc:xacml:1.0:function:integer-subtract",
  chars% "urn:oasis:names:tc:xacml:1.0:function:double-subtract",
  chars% "urn:oasis:names:tc:xacml:1.0:function:integer-multiply",
  chars% "urn:oasis:names:tc:xacml:1.0:function:double-multiply",
  chars% "urn:oasis:names:tc:xacml:1.0:function:integer-divide",
  chars% "urn:oasis:names:tc:xacml:1.0:function:double-divide",
  chars% "urn:oasis:names:tc:xacml:1.0:function:integer-mod",
  chars% "urn:oasis:names:tc:xacml:1.0:function:integer-abs",
  chars% "urn:oasis:names:tc:xacml:1.0:function:double-abs",
  chars% "urn:oasis:names:tc:xacml:1.0:function:round",
  chars% "urn:oasis:names:tc:xacml:1.0:function:floor",
  chars% "urn:oasis:names:tc:xacml:1.0:function:string-normalize-space",
  chars% "urn:oasis:names:tc:xacml:1.0:function:string-normalize-to-lower-case",
  chars% "urn:oasis:names:tc:xacml:1.0:function:double-to-integer",
  chars% "urn:oasis:names:tc:xacml:1.0:function:integer-to-double",
  chars% "urn:oasis:names:tc:xacml:1.0:function:or",
  chars% "urn:oasis:names:tc:xacml:1.0:function:and",
  chars% "urn:oasis:names:tc:xacml:1.0:function:n-of",
  chars% "urn:oasis:names:tc:xacml:1.0:function:not",
  chars% "urn:oasis:names:tc:xacml:1.0:function:integer-greater-than",
  chars% "urn:oasis:names:tc:xacml:1.0:function:integer-greater-than-or-equal",
  chars% "urn:oasis:names:tc:xacml:1.0:function:integer-less-than",
  chars% "urn:oasis:names:tc:xacml:1.0:function:integer-less-than-or-equal",
  chars% "urn:oasis:names:tc:xacml:1.0:function:double-greater-than",
  chars% "urn:oasis:names:tc:xacml:1.0:function:double-greater-than-or-equal",
  chars% "urn:oasis:names:tc:xacml:1.0:function:double-less-than",
  chars% "urn:oasis:names:tc:xacml:1.0:function:double-less-than-or-equal",
  chars% "urn:oasis:names:tc:xacml:1.0:function:dateTime-add-dayTimeDuration",
  chars% "urn:oasis:names:tc:xacml:1.0:function:dateTime-add-yearMonthDuration",
  chars% "urn:oasis:names:tc:xacml:1.0:function:dateTime-subtract-dayTimeDuration",
  chars% "urn:oasis:names:tc:xacml:1.0:function:dateTime-subtract-yearMonthDuration",
  chars% "urn:oasis:names:tc:xacml:1.0:function:date-add-yearMonthDuration",
  chars% "urn:oasis:names:tc:xacml:1.0:function:date-subtract-yearMonthDuration",
  chars% "urn:oasis:names:tc:xacml:1.0:function:string-greater-than",
  chars% "urn:oasis:names:tc:xacml:1.0:function:string-greater-than-or-equal",
  chars% "urn:oasis:names:tc:xacml:1.0:function:string-less-than",
  chars% "urn:oasis:names:tc:xacml:1.0:function:string-less-than-or-equal",
  chars% "urn:oasis:names:tc:xacml:1.0:function:time-greater-than",
  chars% "urn:oasis:names:tc:xacml:1.0:function:time-greater-than-or-equal",
  chars% "urn:oasis:names:tc:xacml:1.0:function:time-less-than",
  chars% "urn:oasis:names:tc:xacml:1.0:function:time-less-than-or-equal",
  chars% "urn:oasis:names:tc:xacml:2.0:function:time-in-range",
  chars% "urn:oasis:names:tc:xacml:1.0:function:dateTime-greater-than",
  chars% "urn:oasis:names:tc:xacml:1.0:function:dateTime-greater-than-or-equal",
  chars% "urn:oasis:names:tc:xacml:1.0:function:dateTime-less-than",
  chars% "urn:oasis:names:tc:xacml:1.0:function:dateTime-less-than-or-equal",
  chars% "urn:oasis:names:tc:xacml:1.0:function:date-greater-than",
  chars% "urn:oasis:names:tc:xacml:1.0:function:date-greater-than-or-equal",
  chars% "urn:oasis:names:tc:xacml:1.0:function:date-less-than",
  chars% "urn:oasis:names:tc:xacml:1.0:function:date-less-than-or-equal",
  chars% "urn:oasis:names:tc:xacml:1.0:function:string-one-and-only",
  chars% "urn:oasis:names:tc:xacml:1.0:function:string-bag-size",
  chars% "urn:oasis:names:tc:xacml:1.0:function:string-is-in",
  chars% "urn:oasis:names:tc:xacml:1.0:function:string-bag",
  chars% "urn:oasis:names:tc:xacml:1.0:function:boolean-one-and-only",
  chars% "urn:oasis:names:tc:xacml:1.0:function:boolean-bag-size",
  chars% "urn:oasis:names:tc:xacml:1.0:function:boolean-is-in",
  chars% "urn:oasis:names:tc:xacml:1.0:function:boolean-bag",
  chars% "urn:oasis:names:tc:xacml:1.0:function:integer-one-and-only",
  chars% "urn:oasis:names:tc:xacml:1.0:function:integer-bag-size",
  chars% "urn:oasis:names:tc:xacml:1.0:function:integer-is-in",
  chars% "urn:oasis:names:tc:xacml:1.0:function:integer-bag",
  chars% "urn:oasis:names:tc:xacml:1.0:function:double-one-and-only",
  chars% "urn:oasis:names:tc:xacml:1.0:function:double-bag-size",
  chars% "urn:oasis:names:tc:xacml:1.0:function:double-is-in",
  chars% "urn:oasis:names:tc:xacml:1.0:function:double-bag",
  chars% "urn:oasis:names:tc:xacml:1.0:function:time-one-and-only",
  chars% "urn:oasis:names:tc:xacml:1.0:function:time-bag-size",
  chars% "urn:oasis:names:tc:xacml:1.0:function:time-is-in",
  chars% "urn:oasis:names:tc:xacml:1.0:function:time-bag",
  chars% "urn:oasis:names:tc:xacml:1.0:function:date-one-and-only",
  chars% "urn:oasis:names:tc:xacml:1.0:function:date-bag-size",
  chars% "urn:oasis:names:tc:xacml:1.0:function:date-is-in",
  chars% "urn:oasis:names:tc:xacml:1.0:function:date-bag",
  chars% "urn:oasis:names:tc:xacml:1.0:function:dateTime-one-and-only",
  chars% "urn:oasis:names:tc:xacml:1.0:function:dateTime-bag-size",
  chars% "urn:oasis:names:tc:xacml:1.0:function:dateTime-is-in",
  chars% "urn:oasis:names:tc:xacml:1.0:function:dateTime-bag",
  chars% "urn:oasis:names:tc:xacml:1.0:function:anyURI-one-and-only",
  chars% "urn:oasis:names:tc:xacml:1.0:function:anyURI-bag-size",
  chars% "urn:oasis:names:tc:xacml:1.0:function:anyURI-is-in",
  chars% "urn:oasis:names:tc:xacml:1.0:function:anyURI-bag",
  chars% "urn:oasis:names:tc:xacml:1.0:function:hexBinary-one-and-only",
  chars% "urn:oasis:names:tc:xacml:1.0:function:hexBinary-bag-size",
  chars% "urn:oasis:names:tc:xacml:1.0:function:hexBinary-is-in",
  chars% "urn:oasis:names:tc:xacml:1.0:function:hexBinary-bag",
  chars% "urn:oasis:names:tc:xacml:1.0:function:base64Binary-one-and-only",
  chars% "urn:oasis:names:tc:xacml:1.0:function:base64Binary-bag-size",
  chars% "urn:oasis:names:tc:xacml:1.0:function:base64Binary-is-in",
  chars% "urn:oasis:names:tc:xacml:1.0:function:base64Binary-bag",
  chars% "urn:oasis:names:tc:xacml:1.0:function:dayTimeDuration-one-and-only",
  chars% "urn:oasis:names:tc:xacml:1.0:function:dayTimeDuration-bag-size",
  chars% "urn:oasis:names:tc:xacml:1.0:function:dayTimeDuration-is-in",
  chars% "urn:oasis:names:tc:xacml:1.0:function:dayTimeDuration-bag",
  chars% "urn:oasis:names:tc:xacml:1.0:function:yearMonthDuration-one-and-only",
  chars% "urn:oasis:names:tc:xacml:1.0:function:yearMonthDuration-bag-size",
  chars% "urn:oasis:names:tc:xacml:1.0:function:yearMonthDuration-is-in",
  chars% "urn:oasis:names:tc:xacml:1.0:function:yearMonthDuration-bag",
  chars% "urn:oasis:names:tc:xacml:1.0:function:x500Name-one-and-only",
  chars% "urn:oasis:names:tc:xacml:1.0:function:x500Name-bag-size",
  chars% "urn:oasis:names:tc:xacml:1.0:function:x500Name-is-in",
  chars% "urn:oasis:names:tc:xacml:1.0:function:x500Name-bag",
  chars% "urn:oasis:names:tc:xacml:1.0:function:rfc822Name-one-and-only",
  chars% "urn:oasis:names:tc:xacml:1.0:function:rfc822Name-bag-size",
  chars% "urn:oasis:names:tc:xacml:1.0:function:rfc822Name-is-in",
  chars% "urn:oasis:names:tc:xacml:1.0:function:rfc822Name-bag",
  chars% "urn:oasis:names:tc:xacml:2.0:function:string-concatenate",
  chars% "urn:oasis:names:tc:xacml:2.0:function:uri-string-concatenate",
  chars% "urn:oasis:names:tc:xacml:1.0:function:any-of",
  chars% "urn:oasis:names:tc:xacml:1.0:function:all-of",
  chars% "urn:oasis:names:tc:xacml:1.0:function:any-of-any",
  chars% "urn:oasis:names:tc:xacml:1.0:function:all-of-any",
  chars% "urn:oasis:names:tc:xacml:1.0:function:any-of-all",
  chars% "urn:oasis:names:tc:xacml:1.0:function:all-of-all",
  chars% "urn:oasis:names:tc:xacml:1.0:function:map",
  chars% "urn:oasis:names:tc:xacml:1.0:function:x500Name-match",
  chars% "urn:oasis:names:tc:xacml:1.0:function:rfc822Name-match",
  chars% "urn:oasis:names:tc:xacml:1.0:function:string-regexp-match",
  chars% "urn:oasis:names:tc:xacml:2.0:function:anyURI-regexp-match",
  chars% "urn:oasis:names:tc:xacml:2.0:function:ipAddress-regexp-match",
  chars% "urn:oasis:names:tc:xacml:2.0:function:dnsName-regexp-match",
  chars% "urn:oasis:names:tc:xacml:2.0:function:rfc822Name-regexp-match",
  chars% "urn:oasis:names:tc:xacml:2.0:function:x500Name-regexp-match",
  chars% "urn:oasis:names:tc:xacml:1.0:function:xpath-node-count",
  chars% "urn:oasis:names:tc:xacml:1.0:function:xpath-node-equal",
  chars% "urn:oasis:names:tc:xacml:1.0:function:xpath-node-match",
  chars% "urn:oasis:names:tc:xacml:1.0:function:string-intersection",
  chars% "urn:oasis:names:tc:xacml:1.0:function:string-at-least-one-member-of",
  chars% "urn:oasis:names:tc:xacml:1.0:function:string-union",
  chars% "urn:oasis:names:tc:xacml:1.0:function:string-subset",
  chars% "urn:oasis:names:tc:xacml:1.0:function:string-set-equals",
  chars% "urn:oasis:names:tc:xacml:1.0:function:boolean-intersection",
  chars% "urn:oasis:names:tc:xacml:1.0:function:boolean-at-least-one-member-of",
  chars% "urn:oasis:names:tc:xacml:1.0:function:boolean-union",
  chars% "urn:oasis:names:tc:xacml:1.0:function:boolean-subset",
  chars% "urn:oasis:names:tc:xacml:1.0:function:boolean-set-equals",
  chars% "urn:oasis:names:tc:xacml:1.0:function:integer-intersection",
  chars% "urn:oasis:names:tc:xacml:1.0:function:integer-at-least-one-member-of",
  chars% "urn:oasis:names:tc:xacml:1.0:function:integer-union",
  chars% "urn:oasis:names:tc:xacml:1.0:function:integer-subset",
  chars% "urn:oasis:names:tc:xacml:1.0:function:integer-set-equals",
  chars% "urn:oasis:names:tc:xacml:1.0:function:double-intersection",
  chars% "urn:oasis:names:tc:xacml:1.0:function:double-at-least-one-member-of",
  chars% "urn:oasis:names:tc:xacml:1.0:function:double-union",
  chars% "urn:oasis:names:tc:xacml:1.0:function:double-subset",
  chars% "urn:oasis:names:tc:xacml:1.0:function:double-set-equals",
  chars% "urn:oasis:names:tc:xacml:1.0:function:time-intersection",
  chars% "urn:oasis:names:tc:xacml:1.0:function:time-at-least-one-member-of",
  chars% "urn:oasis:names:tc:xacml:1.0:function:time-union",
  chars% "urn:oasis:names:tc:xacml:1.0:function:time-subset",
  chars% "urn:oasis:names:tc:xacml:1.0:function:time-set-equals",
  chars% "urn:oasis:names:tc:xacml:1.0:function:date-intersection",
  chars% "urn:oasis:names:tc:xacml:1.0:function:date-at-least-one-member-of",
  chars% "urn:oasis:names:tc:xacml:1.0:function:date-union",
  chars% "urn:oasis:names:tc:xacml:1.0:function:date-subset",
  chars% "urn:oasis:names:tc:xacml:1.0:function:date-set-equals",
  chars% "urn:oasis:names:tc:xacml:1.0:function:dateTime-intersection",
  chars% "urn:oasis:names:tc:xacml:1.0:function:dateTime-at-least-one-member-of",
  chars% "urn:oasis:names:tc:xacml:1.0:function:dateTime-union",
  chars% "urn:oasis:names:tc:xacml:1.0:function:dateTime-subset",
  chars% "urn:oasis:names:tc:xacml:1.0:function:dateTime-set-equals",
  chars% "urn:oasis:names:tc:xacml:1.0:function:anyURI-intersection",
  chars% "urn:oasis:names:tc:xacml:1.0:function:anyURI-at-least-one-member-of",
  chars% "urn:oasis:names:tc:xacml:1.0:function:anyURI-union",
  chars% "urn:oasis:names:tc:xacml:1.0:function:anyURI-subset",
  chars% "urn:oasis:names:tc:xacml:1.0:function:anyURI-set-equals",
  chars% "urn:oasis:names:tc:xacml:1.0:function:hexBinary-intersection",
  chars% "urn:oasis:names:tc:xacml:1.0:function:hexBinary-at-least-one-member-of",
  chars% "urn:oasis:names:tc:xacml:1.0:function:hexBinary-union",
  chars% "urn:oasis:names:tc:xacml:1.0:function:hexBinary-subset",
  chars% "urn:oasis:names:tc:xacml:1.0:function:hexBinary-set-equals",
  chars% "urn:oasis:names:tc:xacml:1.0:function:base64Binary-intersection",
  chars% "urn:oasis:names:tc:xacml:1.0:function:base64Binary-at-least-one-member-of",
  chars% "urn:oasis:names:tc:xacml:1.0:function:base64Binary-union",
  chars% "urn:oasis:names:tc:xacml:1.0:function:base64Binary-subset",
  chars% "urn:oasis:names:tc:xacml:1.0:function:base64Binary-set-equals",
  chars% "urn:oasis:names:tc:xacml:1.0:function:dayTimeDuration-intersection",
  chars% "urn:oasis:names:tc:xacml:1.0:function:dayTimeDuration-at-least-one-member-of",
  chars% "urn:oasis:names:tc:xacml:1.0:function:dayTimeDuration-union",
  chars% "urn:oasis:names:tc:xacml:1.0:function:dayTimeDuration-subset",
  chars% "urn:oasis:names:tc:xacml:1.0:function:dayTimeDuration-set-equals",
  chars% "urn:oasis:names:tc:xacml:1.0:function:yearMonthDuration-intersection",
  chars% "urn:oasis:names:tc:xacml:1.0:function:yearMonthDuration-at-least-one-member-of",
  chars% "urn:oasis:names:tc:xacml:1.0:function:yearMonthDuration-union",
  chars% "urn:oasis:names:tc:xacml:1.0:function:yearMonthDuration-subset",
  chars% "urn:oasis:names:tc:xacml:1.0:function:yearMonthDuration-set-equals",
  chars% "urn:oasis:names:tc:xacml:1.0:function:x500Name-intersection",
  chars% "urn:oasis:names:tc:xacml:1.0:function:x500Name-at-least-one-member-of",
  chars% "urn:oasis:names:tc:xacml:1.0:function:x500Name-union",
  chars% "urn:oasis:names:tc:xacml:1.0:function:x500Name-subset",
  chars% "urn:oasis:names:tc:xacml:1.0:function:x500Name-set-equals",
  chars% "urn:oasis:names:tc:xacml:1.0:function:rfc822Name-intersection",
  chars% "urn:oasis:names:tc:xacml:1.0:function:rfc822Name-at-least-one-member-of",
  chars% "urn:oasis:names:tc:xacml:1.0:function:rfc822Name-union",
  chars% "urn:oasis:names:tc:xacml:1.0:function:rfc822Name-subset",
  chars% "urn:oasis:names:tc:xacml:1.0:function:rfc822Name-set-equals"]

/-- The rows of `Spec.implemented`. -/
def implementedL : List (List Char × Family × Option AVClass) :=
  open Spec in [
  (chars% "urn:oasis:names:tc:xacml:1.0:function:string-equal", .equal, some stringClass),
  (chars% "urn:oasis:names:tc:xacml:1.0:function:boolean-equal", .equal, some booleanClass),
  (chars% "urn:oasis:names:tc:xacml:1.0:function:integer-equal", .equal, some integerClass),
  (chars% "urn:oasis:names:tc:xacml:1.0:function:double-equal", .equal, some doubleClass),
  (chars% "urn:oasis:names:tc:xacml:1.0:function:time-equal", .equal, some timeClass),
  (chars% "urn:oasis:names:tc:xacml:1.0:function:date-equal", .equal, some dateClass),
  (chars% "urn:oasis:names:tc:xacml:1.0:function:dateTime-equal", .equal, some dateTimeClass),
  (chars% "urn:oasis:names:tc:xacml:1.0:function:anyURI-equal", .equal, some anyURIClass),
  (chars% "urn:oasis:names:tc:xacml:1.0:function:hexBinary-equal", .equal, some hexBinaryClass),
  (chars% "urn:oasis:names:tc:xacml:1.0:function:base64Binary-equal", .equal, some base64BinaryClass),
  (chars% "urn:oasis:names:tc:xacml:1.0:function:dayTimeDuration-equal", .equal, some dayTimeDurationClass),
  (chars% "urn:oasis:names:tc:xacml:1.0:function:yearMonthDuration-equal", .equal, some yearMonthDurationClass),
  (chars% "urn:oasis:names:tc:xacml:1.0:function:x500Name-equal", .equal, some x500NameClass),
  (chars% "urn:oasis:names:tc:xacml:1.0:function:rfc822Name-equal", .equal, some rfc822NameClass),
  (chars% "urn:oasis:names:tc:xacml:1.0:function:string-bag", .bag, some stringClass),
  (chars% "urn:oasis:names:tc:xacml:1.0:function:boolean-bag", .bag, some booleanClass),
  (chars% "urn:oasis:names:tc:xacml:1.0:function:integer-bag", .bag, some integerClass),
  (chars% "urn:oasis:names:tc:xacml:1.0:function:double-bag", .bag, some doubleClass),
  (chars% "urn:oasis:names:tc:xacml:1.0:function:time-bag", .bag, some timeClass),
  (chars% "urn:oasis:names:tc:xacml:1.0:function:date-bag", .bag, some dateClass),
  (chars% "urn:oasis:names:tc:xacml:1.0:function:dateTime-bag", .bag, some dateTimeClass),
  (chars% "urn:oasis:names:tc:xacml:1.0:function:anyURI-bag", .bag, some anyURIClass),
  (chars% "urn:oasis:names:tc:xacml:1.0:function:hexBinary-bag", .bag, some hexBinaryClass),
  (chars% "urn:oasis:names:tc:xacml:1.0:function:base64Binary-bag", .bag, some base64BinaryClass),
  (chars% "urn:oasis:names:tc:xacml:1.0:function:dayTimeDuration-bag", .bag, some dayTimeDurationClass),
  (chars% "urn:oasis:names:tc:xacml:1.0:function:yearMonthDuration-bag", .bag, some yearMonthDurationClass),
  (chars% "urn:oasis:names:tc:xacml:1.0:function:x500Name-bag", .bag, some x500NameClass),
  (chars% "urn:oasis:names:tc:xacml:1.0:function:rfc822Name-bag", .bag, some rfc822NameClass),
  (chars% "urn:oasis:names:tc:xacml:1.0:function:string-one-and-only", .oneAndOnly, some stringClass),
  (chars% "urn:oasis:names:tc:xacml:1.0:function:boolean-one-and-only", .oneAndOnly, some booleanClass),
  (chars% "urn:oasis:names:tc:xacml:1.0:function:integer-one-and-only", .oneAndOnly, some integerClass),
  (chars% "urn:oasis:names:tc:xacml:1.0:function:double-one-and-only", .oneAndOnly, some doubleClass),
  (chars% "urn:oasis:names:tc:xacml:1.0:function:time-one-and-only", .oneAndOnly, some timeClass),
  (chars% "urn:oasis:names:tc:xacml:1.0:function:date-one-and-only", .oneAndOnly, some dateClass),
  (chars% "urn:oasis:names:tc:xacml:1.0:function:dateTime-one-and-only", .oneAndOnly, some dateTimeClass),
  (chars% "urn:oasis:names:tc:xacml:1.0:function:anyURI-one-and-only", .oneAndOnly, some anyURIClass),
  (chars% "urn:oasis:names:tc:xacml:1.0:function:hexBinary-one-and-only", .oneAndOnly, some hexBinaryClass),
  (chars% "urn:oasis:names:tc:xacml:1.0:function:base64Binary-one-and-only", .oneAndOnly, some base64BinaryClass),
  (chars% "urn:oasis:names:tc:xacml:1.0:function:dayTimeDuration-one-and-only", .oneAndOnly, some dayTimeDurationClass),
  (chars% "urn:oasis:names:tc:xacml:1.0:function:yearMonthDuration-one-and-only", .oneAndOnly, some yearMonthDurationClass),
  (chars% "urn:oasis:names:tc:xacml:1.0:function:x500Name-one-and-only", .oneAndOnly, some x500NameClass),
  (chars% "urn:oasis:names:tc:xacml:1.0:function:rfc822Name-one-and-only", .oneAndOnly, some rfc822NameClass),
  (chars% "urn:oasis:names:tc:xacml:1.0:function:string-at-least-one-member-of", .atLeastOneMemberOf, some stringClass),
  (chars% "urn:oasis:names:tc:xacml:1.0:function:boolean-at-least-one-member-of", .atLeastOneMemberOf, some booleanClass),
  (chars% "urn:oasis:names:tc:xacml:1.0:function:integer-at-least-one-member-of", .atLeastOneMemberOf, some integerClass),
  (chars% "urn:oasis:names:tc:xacml:1.0:function:double-at-least-one-member-of", .atLeastOneMemberOf, some doubleClass),
  (chars% "urn:oasis:names:tc:xacml:1.0:function:time-at-least-one-member-of", .atLeastOneMemberOf, some timeClass),
  (chars% "urn:oasis:names:tc:xacml:1.0:function:date-at-least-one-member-of", .atLeastOneMemberOf, some dateClass),
  (chars% "urn:oasis:names:tc:xacml:1.0:function:dateTime-at-least-one-member-of", .atLeastOneMemberOf, some dateTimeClass),
  (chars% "urn:oasis:names:tc:xacml:1.0:function:anyURI-at-least-one-member-of", .atLeastOneMemberOf, some anyURIClass),
  (chars% "urn:oasis:names:tc:xacml:1.0:function:hexBinary-at-least-one-member-of", .atLeastOneMemberOf, some hexBinaryClass),
  (chars% "urn:oasis:names:tc:xacml:1.0:function:base64Binary-at-least-one-member-of", .atLeastOneMemberOf, some base64BinaryClass),
  (chars% "urn:oasis:names:tc:xacml:1.0:function:dayTimeDuration-at-least-one-member-of", .atLeastOneMemberOf, some dayTimeDurationClass),
  (chars% "urn:oasis:names:tc:xacml:1.0:function:yearMonthDuration-at-least-one-member-of", .atLeastOneMemberOf, some yearMonthDurationClass),
  (chars% "urn:oasis:names:tc:xacml:1.0:function:x500Name-at-least-one-member-of", .atLeastOneMemberOf, some x500NameClass),
  (chars% "urn:oasis:names:tc:xacml:1.0:function:rfc822Name-at-least-one-member-of", .atLeastOneMemberOf, some rfc822NameClass),
  (chars% "urn:oasis:names:tc:xacml:1.0:function:xpath-node-equal", .equal, some stringClass),
  (chars% "urn:oasis:names:tc:xacml:1.0:function:x500Name-match", .matchFn, some x500NameClass),
  (chars% "urn:oasis:names:tc:xacml:1.0:function:rfc822Name-match", .matchFn, some rfc822NameClass),
  (chars% "urn:oasis:names:tc:xacml:1.0:function:xpath-node-match", .matchFn, some stringClass),
  (chars% "urn:oasis:names:tc:xacml:1.0:function:and", .and, none),
  (chars% "urn:oasis:names:tc:xacml:1.0:function:not", .not, none),
  (chars% "urn:oasis:names:tc:xacml:1.0:function:round", .round, none),
  (chars% "urn:oasis:names:tc:xacml:1.0:function:string-regexp-match", .regexpMatch, some stringClass),
  (chars% "urn:oasis:names:tc:xacml:2.0:function:anyURI-regexp-match", .regexpMatch, some anyURIClass),
  (chars% "urn:oasis:names:tc:xacml:2.0:function:ipAddress-regexp-match", .regexpMatch, some ipAddressClass),
  (chars% "urn:oasis:names:tc:xacml:2.0:function:dnsName-regexp-match", .regexpMatch, some dnsNameClass),
  (chars% "urn:oasis:names:tc:xacml:2.0:function:rfc822Name-regexp-match", .regexpMatch, some rfc822NameClass),
  (chars% "urn:oasis:names:tc:xacml:2.0:function:x500Name-regexp-match", .regexpMatch, some x500NameClass),
  (chars% "urn:oasis:names:tc:xacml:2.0:function:string-concatenate", .concatenate, some stringClass)]

theorem stdNames_eq : stdFunctionNames = stdNamesL.map String.ofList := by rfl
theorem implemented_eq : Spec.implemented = implementedL.map fun r => (String.ofList r.1, r.2) := by rfl

theorem ofList_inj {a b : List Char} : String.ofList a = String.ofList b ↔ a = b :=
  ⟨fun h => by have := congrArg String.toList h; simpa using this, fun h => h ▸ rfl⟩

theorem lookup_ofList {β} (l : List (List Char × β)) (k : List Char) :
    (l.map fun r => (String.ofList r.1, r.2)).lookup (String.ofList k) = l.lookup k := by
  induction l with
  | nil => rfl
  | cons r l ih =>
    simp only [List.map_cons, List.lookup_cons, ih]
    have : (String.ofList k == String.ofList r.1) = (k == r.1) := by
      rw [Bool.eq_iff_iff]; simp [ofList_inj]
    rw [this, List.lookup]

/-- What a new map gives, computed from the characters. -/
def resolveL (imp : Importer) (l : List Char) : Except Exc FnEntry :=
  match functionClassPath l with
  | none => .error .functionMapConfigError
  | some path =>
    match imp path with
    | .error e => if e = .importError ∨ e = .attributeError then .ok .notImplemented else .error e
    | .ok f =>
      match f l with
      | .error e => .error e
      | .ok .none => .error (unsupportedError (String.ofList l))
      | .ok .junk => .error .typeError
      | .ok (.entry e) => .ok e

theorem get_new (imp : Importer) (ns : String) : (FunctionMap.new.get imp ns).1 = resolveL imp ns.toList := by
  simp only [FunctionMap.get, FunctionMap.loadFunction, FunctionMap.new, dictGet, resolveL, String.ofList_toList]
  cases functionClassPath ns.toList with
  | none => rfl
  | some path =>
    simp only
    cases imp path with
    | error e =>
      simp only
      by_cases he : e = .importError ∨ e = .attributeError
      · simp [he, FunctionMap.setItem, dictSet, dictGet]
      · simp [he]
    | ok f =>
      simp only
      cases f ns.toList with
      | error e => rfl
      | ok out => cases out <;> simp [FunctionMap.setItem, dictSet, dictGet]

/-- The standard name resolves as the table says. -/
def rowOk (l : List Char) : Bool :=
  match resolveL (stdImporter stdClassMap) l with
  | .ok e => e == (match implementedL.lookup l with
    | some (fam, t) => .cls (.std fam t)
    | none => .notImplemented)
  | .error _ => false

/-! The whole (finite) table, checked by the kernel in four parts to keep memory use low. -/
theorem table_ok1 : ((stdNamesL.drop 0).take 53).all rowOk = true := by decide +kernel
theorem table_ok2 : ((stdNamesL.drop 53).take 53).all rowOk = true := by decide +kernel
theorem table_ok3 : ((stdNamesL.drop 106).take 53).all rowOk = true := by decide +kernel
theorem table_ok4 : ((stdNamesL.drop 159).take 53).all rowOk = true := by decide +kernel

theorem table_ok (l : List Char) (h : l ∈ stdNamesL) : rowOk l = true := by
  have e : stdNamesL = (stdNamesL.drop 0).take 53 ++ ((stdNamesL.drop 53).take 53 ++
    ((stdNamesL.drop 106).take 53 ++ (stdNamesL.drop 159).take 53)) := by rfl
  rw [e] at h
  simp only [List.mem_append] at h
  rcases h with h | h | h | h
  · exact List.all_eq_true.mp table_ok1 l h
  · exact List.all_eq_true.mp table_ok2 l h
  · exact List.all_eq_true.mp table_ok3 l h
  · exact List.all_eq_true.mp table_ok4 l h

theorem std_resolves (ns : String) (h : ns ∈ stdFunctionNames) :
    (FunctionMap.new.get (stdImporter stdClassMap) ns).1 = .ok (Spec.stdResolution ns) := by
  rw [stdNames_eq] at h
  obtain ⟨l, hl, rfl⟩ := List.mem_map.mp h
  have := table_ok l hl
  unfold rowOk at this
  rw [get_new, String.toList_ofList, Spec.stdResolution, implemented_eq, lookup_ofList]
  cases hr : resolveL (stdImporter stdClassMap) l with
  | error e => rw [hr] at this; simp at this
  | ok e =>
    rw [hr] at this
    simp only [beq_iff_eq] at this
    rw [this]
    cases List.lookup l implementedL <;> rfl

end Xacml
