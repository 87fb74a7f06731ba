import Verif.Spec.Reader
import Verif.Model.Finder

/-!
# Policy sets, references, registered policies
-/
namespace Xacml.Spec

/-- Kinds of policies that can be referred to. -/
inductive Kind where
  | policy | policySet
  deriving DecidableEq

def Kind.of : PolicyNode → Kind
  | .policy .. => .policy
  | .policySet .. => .policySet

/-- What a finder has registered under an identifier. -/
def registered (s : Finder) : Kind → Option String → Option PolicyNode
  | .policy, k => dictGet s.policies k
  | .policySet, k => dictGet s.policySets k

/-- Everything registered is of the right kind and has the identifier it is registered under. -/
def Coherent (s : Finder) : Prop :=
  ∀ kind k q, registered s kind k = some q → Kind.of q = kind ∧ q.ident = k

/-- Nothing registered is lost or replaced. -/
def Extends (s s' : Finder) : Prop :=
  ∀ kind k q, registered s kind k = some q → registered s' kind k = some q

/-- Identifiers of the policy combining algorithms that are implemented. -/
def policyAlg (urn : String) : Option Alg :=
  if urn = "urn:oasis:names:tc:xacml:1.0:policy-combining-algorithm:deny-overrides" then some .denyOverrides
  else if urn = "urn:oasis:names:tc:xacml:1.0:policy-combining-algorithm:permit-overrides" then
    some .permitOverrides
  else if urn = "urn:oasis:names:tc:xacml:1.0:policy-combining-algorithm:first-applicable" then
    some .firstApplicable
  else none

/-- Elements that stand for policies of a policy set. -/
def memberTags : List String := ["Policy", "PolicySet", "PolicyIdReference", "PolicySetIdReference"]

mutual
/-- A PolicySet element; `ref kind text q` says what a reference may stand for. -/
def IsPolicySet (env : RdEnv) (ref : Kind → Option String → PolicyNode → Prop) : XNode → PolicyNode → Prop
  | .other, _ => False
  | .elem tag a t cs, p =>
    let n := XNode.elem tag a t cs
    n.name = "PolicySet" ∧ OnlyChildren n (["Description", "Target"] ++ memberTags) ∧
    ∃ h ps, p = .policySet h ps ∧ h.ident.isSome ∧ n.attr "PolicySetId" = h.ident ∧
      (∃ a, n.attr "PolicyCombiningAlgId" = some a ∧ h.algId = some a ∧ h.alg.isSome ∧ h.alg = policyAlg a) ∧
      h.version = version n ∧ h.description = description n ∧ h.xpathVersion = none ∧
      LastOf (IsTarget env) (childrenNamed n "Target") h.target ∧ h.obligations = [] ∧
      AreMembers env ref cs ps
/-- The policies of a policy set: one for each of the Policy, PolicySet, PolicyIdReference and
PolicySetIdReference children, in document order. -/
def AreMembers (env : RdEnv) (ref : Kind → Option String → PolicyNode → Prop) : List XNode → List PolicyNode → Prop
  | [], ps => ps = []
  | .other :: l, ps => AreMembers env ref l ps
  | .elem tag a t cs :: l, ps =>
    let n := XNode.elem tag a t cs
    if n.name ∈ memberTags then
      ∃ q qs, ps = q :: qs ∧ AreMembers env ref l qs ∧
        ((n.name = "Policy" ∧ IsPolicy env n q) ∨ (n.name = "PolicySet" ∧ IsPolicySet env ref n q) ∨
         (n.name = "PolicyIdReference" ∧ ref .policy t q) ∨ (n.name = "PolicySetIdReference" ∧ ref .policySet t q))
    else AreMembers env ref l ps
end

/-- A document: a policy or a policy set. -/
def IsDocument (env : RdEnv) (ref : Kind → Option String → PolicyNode → Prop) (n : XNode) (p : PolicyNode) : Prop :=
  (n.name = "Policy" ∧ IsPolicy env n p) ∨ (n.name = "PolicySet" ∧ IsPolicySet env ref n p)

/-- `m` is `n` or nested in it. -/
inductive Within : XNode → XNode → Prop
  | refl (n) : Within n n
  | child (m c n) : c ∈ n.children → Within m c → Within m n

mutual
/-- Kinds and identifiers of the policies and policy sets defined by an element, inner ones included. -/
def defined : XNode → List (Kind × Option String)
  | .other => []
  | .elem tag a t cs =>
    if localPart tag = "Policy" then [(.policy, (XNode.elem tag a t cs).attr "PolicyId")]
    else if localPart tag = "PolicySet" then
      definedL cs ++ [(.policySet, (XNode.elem tag a t cs).attr "PolicySetId")]
    else []
/-- `defined` for a list of elements. -/
def definedL : List XNode → List (Kind × Option String)
  | [] => []
  | n :: l => defined n ++ definedL l
end

/-- The PolicySet element refers to the policy set `r`, itself or in a nested PolicySet. -/
inductive Refers (r : String) : XNode → Prop
  | direct (n c) : n.name = "PolicySet" → c ∈ n.children → c.isElem = true → c.name = "PolicySetIdReference" →
      c.text = some r → Refers r n
  | nested (n c) : n.name = "PolicySet" → c ∈ n.children → Refers r c → Refers r n

/-- Registration by the method for policies or the one for policy sets. -/
def registerIn (s : Finder) (a : Kind × PolicyNode) : Except Exc Unit × Finder :=
  match a.1 with
  | .policy => addPolicyReference a.2 s
  | .policySet => addPolicySetReference a.2 s

/-- The first policy in a list of registrations that is registered by the method for its own kind and has
this kind and identifier. -/
def firstOf (k : Kind) (id : Option String) (l : List (Kind × PolicyNode)) : Option PolicyNode :=
  (l.find? fun a => decide (a.1 = k ∧ Kind.of a.2 = k ∧ a.2.ident = id)).map (·.2)

open Classical in
/-- `p` placed in the directory `b`. -/
noncomputable def below (b p : String) : String :=
  if b = "" ∨ ∃ d, b = d ++ "/" then b ++ p else b ++ "/" ++ p

/-- `s` does not start with `p`. -/
def NotStart (p s : String) : Prop := ∀ r, s ≠ p ++ r

/-- The URL for a reference, given the base path. -/
inductive Resolves (base : String) : String → String → Prop
  /-- URLs of other schemes are used unchanged. -/
  | remote (scheme rest) : scheme ∈ ["http://", "https://", "ftp://"] → Resolves base (scheme ++ rest) (scheme ++ rest)
  /-- Absolute file URLs too. -/
  | fileAbsolute (rest) : Resolves base ("file:///" ++ rest) ("file:///" ++ rest)
  /-- Relative file URLs are taken below the base path. -/
  | fileRelative (rest) : NotStart "/" rest → NotStart "./" rest → Resolves base ("file://" ++ rest) ("file://" ++ below base rest)
  /-- A leading `./` makes no difference. -/
  | fileDot (rest) : Resolves base ("file://./" ++ rest) ("file://" ++ below base rest)
  /-- An absolute path becomes a file URL. -/
  | path (rest) : Resolves base ("/" ++ rest) ("file:///" ++ rest)
  /-- Anything else is a path relative to the base path. -/
  | relative (ref) : NotStart "/" ref → (∀ scheme ∈ ["file://", "http://", "https://", "ftp://"], NotStart scheme ref) →
      Resolves base ref ("file://" ++ below base ref)

/-- The policy an event offers to a PDP, given the state of the finders. -/
def policyOffered (env : RdEnv) (finders : Nat → Finder) : LoadEvent → Option PolicyNode
  | .assign (.policy p) => some p
  | .assign .other => none
  | .load f res src => (fromSource env res src (finders f)).1.toOption

/-- The policies offered in a history that starts in the given state. -/
def policiesOffered (env : RdEnv) (st : LoadState) : List LoadEvent → List PolicyNode
  | [] => []
  | e :: es => (policyOffered env st.finders e).toList ++ policiesOffered env (st.step env e).2 es

end Xacml.Spec
