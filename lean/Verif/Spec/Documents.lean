import Verif.Model.Finder
import Verif.Model.FunctionMap

/-!
# Documents that differ in comments or namespaces only, and a sample document
-/
namespace Xacml.Spec

/-- The second document is the first one with a comment (or processing instruction) added. The two
predicates say into which elements it may be put, given the tag and the content after the new comment,
and which elements these may be nested in. -/
inductive CommentAdded (into : String → List Doc → Prop) (within : String → Prop) : Doc → Doc → Prop
  | here (tag a pre s post) : into tag post →
      CommentAdded into within (.elem tag a (pre ++ post)) (.elem tag a (pre ++ .comment s :: post))
  | inside (tag a pre c c' post) : within tag → CommentAdded into within c c' →
      CommentAdded into within (.elem tag a (pre ++ c :: post)) (.elem tag a (pre ++ c' :: post))

/-- A comment added anywhere. -/
abbrev CommentAnywhere := CommentAdded (fun _ _ => True) (fun _ => True)

/-- Elements whose text or number of children matters. -/
def textElements : List String :=
  ["AttributeValue", "PolicyDefaults", "Description", "XPathVersion", "PolicyIdReference", "PolicySetIdReference"]

/-- A comment added outside of those elements, or in some of them after all of the text. -/
abbrev CommentOutsideText := CommentAdded
  (fun tag post => localPart tag ∉ textElements ∨
    (localPart tag ∉ ["AttributeValue", "PolicyDefaults"] ∧ ∀ s, Doc.text s ∉ post))
  (fun tag => localPart tag ≠ "AttributeValue")

/-- The part of a tag that gives the namespace: nothing, or `{uri}` (anything up to a closing brace). -/
def NsPart (ns : String) : Prop := ns = "" ∨ ∃ p, ns = p ++ "}"

/-- The tags have the same local name. -/
def SameLocal (t t' : String) : Prop :=
  ∃ ns ns' l, NsPart ns ∧ NsPart ns' ∧ '}' ∉ l.toList ∧ t = ns ++ l ∧ t' = ns' ++ l

mutual
/-- The trees differ in the namespaces of elements only. -/
def SameButNs : XNode → XNode → Prop
  | .other, .other => True
  | .elem t a x cs, .elem t' a' x' cs' => SameLocal t t' ∧ a' = a ∧ x' = x ∧ SameButNsL cs cs'
  | _, _ => False
/-- The children differ in namespaces only. -/
def SameButNsL : List XNode → List XNode → Prop
  | [], [] => True
  | n :: l, n' :: l' => SameButNs n n' ∧ SameButNsL l l'
  | _, _ => False
end

/-- Both fail with the same exception, or both give related trees. -/
def SameFetch (R : XNode → XNode → Prop) : Except Exc XNode → Except Exc XNode → Prop
  | .ok n, .ok n' => R n n'
  | .error e, .error e' => e = e'
  | _, _ => False

/-- Same for two documents. -/
def SameSource (R : Doc → Doc → Prop) : Except Exc Doc → Except Exc Doc → Prop
  | .ok d, .ok d' => R d d'
  | .error e, .error e' => e = e'
  | _, _ => False

/-- The readers as the package sets them up. -/
def stdRd : RdEnv where
  fn := loadWith (stdImporter stdClassMap) (fun _ _ => .error .keyError) .new
  classMap := stdClassMap
  dtReaders := stdDtReaders

end Xacml.Spec

namespace Xacml.Samples
open Xacml

def xmlns (s : String) : String := "{urn:oasis:names:tc:xacml:2.0:policy:schema:os}" ++ s

/-- A policy for one role; the AttributeValue's and the Description's content can be chosen. -/
def policyDoc (ns : String) (value descr : List Doc) : Doc :=
  .elem (ns ++ "Policy") [("PolicyId", "p1"),
      ("RuleCombiningAlgId", "urn:oasis:names:tc:xacml:1.0:rule-combining-algorithm:permit-overrides")]
    [.text "\n", .elem (ns ++ "Description") [] descr,
     .elem (ns ++ "Target") [] [
       .elem (ns ++ "Subjects") [] [
         .elem (ns ++ "Subject") [] [
           .elem (ns ++ "SubjectMatch") [("MatchId", "urn:oasis:names:tc:xacml:1.0:function:string-equal")] [
             .elem (ns ++ "AttributeValue") [("DataType", "http://www.w3.org/2001/XMLSchema#string")] value,
             .elem (ns ++ "SubjectAttributeDesignator") [("AttributeId", "role"),
               ("DataType", "http://www.w3.org/2001/XMLSchema#string"), ("MustBePresent", "True")] []]]]],
     .elem (ns ++ "Rule") [("RuleId", "r1"), ("Effect", "Permit")] [],
     .elem (ns ++ "Rule") [("RuleId", "r2"), ("Effect", "Deny")] [.elem (ns ++ "Target") [] []]]

/-- The role a policy asks for, if it has the form above. -/
def roleOf : Except Exc PolicyNode → Option String
  | .ok (.policy h _) =>
    match h.target with
    | some { subjects := [{ matches_ := [{ value := some { value := some (.str s), .. }, .. }] }], .. } => some s
    | _ => none
  | _ => none

end Xacml.Samples
