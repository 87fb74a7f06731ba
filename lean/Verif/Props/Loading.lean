import Verif.Props.Finder

/-!
# C65: the entry points that load policies
-/
namespace Xacml
open Spec

/-- C65: with an object that is not a policy finder, loading raises TypeError whatever the source is, and
neither the PDP nor any finder changes. -/
theorem C65_bad_finder (env : RdEnv) (src : Except Exc XNode) (pdp : Option PolicyNode) (s : Finder) :
    pdpSetPolicyFromSource env none src pdp s = (.error .typeError, pdp, s) := rfl

/-- C65: a source that cannot be parsed raises the parser's exception; neither the PDP nor the finder changes. -/
theorem C65_unparsable (env : RdEnv) (res : Resolver) (e : Exc) (pdp : Option PolicyNode) (s : Finder) :
    pdpSetPolicyFromSource env (some res) (.error e) pdp s = (.error e, pdp, s) := rfl

/-- C65: a document whose root is neither a Policy nor a PolicySet is rejected. -/
theorem C65_root (env : RdEnv) (res : Resolver) (n : XNode) (pdp : Option PolicyNode) (s : Finder)
    (h1 : n.name ≠ "Policy") (h2 : n.name ≠ "PolicySet") :
    pdpSetPolicyFromSource env (some res) (.ok n) pdp s = (.error .xmlParseError, pdp, s) := by
  have e : readRoot env res n s = (.error .xmlParseError, s) := by
    unfold readRoot
    rw [if_neg h1, if_neg h2]
    rfl
  have e' : fromSource env (some res) (.ok n) s = readRoot env res n s := rfl
  unfold pdpSetPolicyFromSource
  rw [e', e]

example : (XNode.elem "Request" [] none []).name ≠ "Policy" := by decide

/-- C65: loading a policy document with a finder that has no policy with its identifier gives what
`Policy.fromSource` gives: the same policy or the same exception. -/
theorem C65_agree (env : RdEnv) (res : Resolver) (n : XNode) (s : Finder) (hn : n.name = "Policy")
    (hs : registered s .policy (n.attr "PolicyId") = none) :
    (fromSource env (some res) (.ok n) s).1 = policyFromSource env n := by
  have e : fromSource env (some res) (.ok n) s = readRoot env res n s := rfl
  rw [e]
  unfold readRoot
  rw [if_pos hn]
  show (FM.bind (FM.lift (readPolicy env n)) _ s).1 = readPolicy env n
  unfold FM.bind
  cases hp : readPolicy env n with
  | error e => rfl
  | ok p =>
    obtain ⟨_, _, hd, rules, rfl, _, h1, _⟩ := readPolicy_ok.mp hp
    rw [h1] at hs
    have e2 : addPolicyReference (.policy hd rules) s =
        (.ok (), { s with policies := dictSet s.policies hd.ident (.policy hd rules) }) := by
      unfold addPolicyReference
      simp only [registered] at hs
      simp [hs]
    show (FM.bind (addPolicyReference (.policy hd rules)) _ s).1 = _
    unfold FM.bind
    rw [e2]
    rfl

/-- C65: a policy document gives a policy, a policy set document gives a policy set, and nothing else gives anything. -/
theorem C65_kind (env : RdEnv) (finder : FinderArg) (src : Except Exc XNode) (s : Finder) (p : PolicyNode)
    (h : (fromSource env finder src s).1 = .ok p) :
    ∃ n, src = .ok n ∧ ((n.name = "Policy" ∧ Kind.of p = .policy) ∨ (n.name = "PolicySet" ∧ Kind.of p = .policySet)) := by
  cases finder with
  | none => cases h
  | some res =>
    cases src with
    | error e => cases h
    | ok n =>
      refine ⟨n, rfl, ?_⟩
      rcases hr : readRoot env res n s with ⟨x, s'⟩
      have e : fromSource env (some res) (.ok n) s = readRoot env res n s := rfl
      rw [e, hr] at h
      simp only at h
      subst h
      unfold readRoot at hr
      by_cases h1 : n.name = "Policy"
      · rw [if_pos h1] at hr
        unfold readPolicyReg at hr
        simp only [FM.bind_ok, FM.lift_ok, FM.pure_ok] at hr
        obtain ⟨q, _, ⟨h2, _⟩, _, _, _, rfl, _⟩ := hr
        obtain ⟨_, _, hd, rules, rfl, _⟩ := readPolicy_ok.mp h2
        exact .inl ⟨h1, rfl⟩
      · rw [if_neg h1] at hr
        by_cases h2 : n.name = "PolicySet"
        · rw [if_pos h2] at hr
          cases n with
          | other => rw [readPolicySet] at hr; exact (FM.throw_ok.mp hr).elim
          | elem tag a t cs =>
            rw [readPolicySet] at hr
            simp only [FM.bind_ok, FM.lift_ok, FM.pure_ok] at hr
            obtain ⟨_, _, _, _, _, _, _, _, _, _, _, _, q, _, _, _, _, _, rfl, _⟩ := hr
            exact .inr ⟨h2, rfl⟩
        · rw [if_neg h2] at hr; exact (FM.throw_ok.mp hr).elim

/-- C65: `PDP.fromPolicySource` without a finder succeeds exactly for strings whose document can be loaded with
a new URL finder with the base path of the string. -/
theorem C65_default_finder (env : RdEnv) (fetch : Fetch) (limit : Nat) (source : SourceArg)
    (src : Except Exc XNode) (pdp : Option PolicyNode) :
    pdpFromPolicySource env fetch limit source src = .ok pdp ↔
      ∃ base p, source = .str base ∧ pdp = some p ∧
        (fromSource env (some (urlResolver env base fetch limit)) src {}).1 = .ok p := by
  cases source with
  | object =>
    constructor
    · intro h; cases h
    · rintro ⟨_, _, h, _⟩; cases h
  | str base =>
    unfold pdpFromPolicySource pdpSetPolicyFromSource
    simp only [defaultBasePath]
    rcases hf : fromSource env (some (urlResolver env base fetch limit)) src {} with ⟨_ | p, s⟩
    · constructor
      · intro h; cases h
      · rintro ⟨_, _, h, _, h2⟩; cases h; rw [hf] at h2; cases h2
    · constructor
      · intro h; injection h with h; exact ⟨base, p, rfl, h.symm, by rw [hf]⟩
      · rintro ⟨_, q, h, rfl, h2⟩; cases h; rw [hf] at h2; injection h2 with h2; subst h2; rfl

/-- C65 is violated: `PDP.fromPolicySource` without a finder fails for file objects and elements. -/
theorem C65_violated_object (env : RdEnv) (fetch : Fetch) (limit : Nat) (src : Except Exc XNode) :
    pdpFromPolicySource env fetch limit .object src = .error .nameError := rfl

/-- C65 is violated: `PolicySet.fromSource` fails for every document. -/
theorem C65_violated_policyset (env : RdEnv) (n : XNode) : policySetFromSource env n = .error .typeError := rfl

section
open Samples
set_option maxRecDepth 20000

example : (onePolicy "p").name = "Policy" ∧ registered {} .policy ((onePolicy "p").attr "PolicyId") = none :=
  ⟨by decide, rfl⟩
example : (pdpFromPolicySource stdRd twoFiles 5 (.str (some "/base")) (.ok (setOf "s1" [policyRef "p1.xml"]))).isOk = true := by
  decide +kernel
/-- The same document with the same finder passed explicitly loads from an object, so the failure is the default finder's. -/
example : (pdpSetPolicyFromSource stdRd (some (urlResolver stdRd (some "/base") twoFiles 5))
    (.ok (setOf "s1" [policyRef "p1.xml"])) none {}).2.1.isSome = true := by decide +kernel
end

end Xacml
