import Verif.Spec.RejectingContexts
import Verif.Props.Context

/-!
# C107: which exceptions reading a request or response document raises
-/
namespace Xacml
open Spec

section
variable {lib : Etree} {cm : List (String × AVClass)}

private def Only {α} (P : Exc → Prop) (x : Except Exc α) : Prop := ∀ e, x = .error e → P e

private theorem Only.ok {α} {P : Exc → Prop} {a : α} : Only P (.ok a) := by intro e h; cases h
private theorem Only.error {α} {P : Exc → Prop} {e : Exc} (h : P e) : Only P (.error e : Except Exc α) := by
  intro e' h'; cases h'; exact h
private theorem Only.bind {α β} {P : Exc → Prop} {x : Except Exc α} {f : α → Except Exc β} (hx : Only P x)
    (hf : ∀ a, x = .ok a → Only P (f a)) : Only P (x >>= f) := by
  cases x with
  | error e => exact Only.error (hx e rfl)
  | ok a => exact hf a rfl
private theorem Only.mono {α} {P Q : Exc → Prop} {x : Except Exc α} (hx : Only P x) (h : ∀ e, P e → Q e) : Only Q x :=
  fun e he => h e (hx e he)
private theorem only_forEach {α β} {P : Exc → Prop} {f : α → Except Exc β} (l : List α) (h : ∀ a ∈ l, Only P (f a)) :
    Only P (forEach f l) := by
  induction l with
  | nil => exact Only.ok
  | cons a l ih =>
    unfold forEach
    exact (h a (List.mem_cons_self ..)).bind fun _ _ =>
      (ih fun x hx => h x (List.mem_cons_of_mem _ hx)).bind fun _ _ => Only.ok

/-- An XMLParseError, or the exception of a flaw of an element below. -/
private def Due (F : XNode → Exc → Prop) (n : XNode) (e : Exc) : Prop :=
  e = .xmlParseError ∨ ∃ x, Within x n ∧ F x e

private theorem Due.child {F : XNode → Exc → Prop} {n c : XNode} {e : Exc} (hc : c ∈ n.children) (h : Due F c e) :
    Due F n e := by
  rcases h with h | ⟨x, hx, hf⟩
  · exact .inl h
  · exact .inr ⟨x, .child _ _ _ hc hx, hf⟩

private theorem only_name {F : XNode → Exc → Prop} (n : XNode) (k : String) : Only (Due F n) (expectName n k) := by
  unfold expectName
  split
  · exact Only.ok
  · exact Only.error (.inl rfl)

private theorem name_eq {n : XNode} {k : String} {u : Unit} (h : expectName n k = .ok u) : n.name = k := by
  unfold expectName at h
  split at h
  · assumption
  · cases h

private theorem mem_children {n c : XNode} (h : c ∈ elementChildren n.children) : c ∈ n.children := (List.mem_filter.mp h).1

private theorem only_attribute (n : XNode) : Only (Due (RequestFlaw lib cm) n) (readAttribute lib cm n) := by
  unfold readAttribute
  refine (only_name n _).bind fun u hu => ?_
  have hn := name_eq hu
  have here : ∀ {e}, RequestFlaw lib cm n e → Due (RequestFlaw lib cm) n e := fun h => .inr ⟨n, .refl _, h⟩
  refine Only.bind ?_ fun i hi => Only.bind ?_ fun dt hdt => ?_
  · cases h : n.attr "AttributeId" with
    | none => exact Only.error (here (.nameless hn (.inl h)))
    | some s => exact Only.ok
  · cases h : n.attr "DataType" with
    | none => exact Only.error (here (.nameless hn (.inr h)))
    | some s => exact Only.ok
  · have hd : n.attr "DataType" = some dt := by
      cases h : n.attr "DataType" with
      | none => rw [h] at hdt; cases hdt
      | some s => rw [h] at hdt; cases hdt; rfl
    cases hl : lib.getchildren with
    | false => exact Only.error (here (.library hn hl))
    | true =>
      cases hc : n.children.isEmpty with
      | true => exact Only.error (.inl rfl)
      | false =>
        refine (only_forEach _ fun c hc => ?_).bind fun _ _ => Only.ok
        unfold readAttributeChild
        split
        · rename_i hv
          unfold makeValue
          split
          · rename_i hk
            exact Only.error (here (.unknown hn hd hk hc hv))
          · rename_i k hk
            split
            · exact Only.ok
            · rename_i t ht
              unfold AVClass.newWith AttrVal.setValue
              dsimp only
              split
              · exact Only.ok
              · rename_i hnat
                refine Only.error (here (.notString hn hd hk (fun h => hnat ?_) hc hv ht))
                rw [show (AVClass.new k).cls = k from rfl, h]
                rfl
        · exact Only.error (.inl rfl)

private theorem only_attributes (n : XNode) : Only (Due (RequestFlaw lib cm) n) (readAttributes lib cm n) := by
  unfold readAttributes
  exact only_forEach _ fun c hc => (only_attribute c).mono fun _ he =>
    Due.child (mem_children (List.mem_filter.mp hc).1) he

private theorem only_resourceChildren (n : XNode) (l : List XNode) : ∀ r : ResourceX, (∀ c ∈ l, c ∈ n.children) →
    Only (Due (RequestFlaw lib cm) n) (readResourceChildren lib cm r l) := by
  induction l with
  | nil => intro r _; exact Only.ok
  | cons c l ih =>
    intro r hl
    have hr := fun r => ih r fun x hx => hl x (List.mem_cons_of_mem _ hx)
    unfold readResourceChildren
    split
    · exact ((only_attribute c).mono fun _ he => Due.child (hl c (List.mem_cons_self ..)) he).bind fun _ _ => hr _
    · split <;> exact hr _

private theorem only_requestChildren (n : XNode) (l : List XNode) : ∀ r : RequestX, (∀ c ∈ l, c ∈ n.children) →
    Only (Due (RequestFlaw lib cm) n) (readRequestChildren lib cm r l) := by
  induction l with
  | nil => intro r _; exact Only.ok
  | cons c l ih =>
    intro r hl
    have hr := fun r => ih r fun x hx => hl x (List.mem_cons_of_mem _ hx)
    have hd : ∀ {α} {x : Except Exc α}, Only (Due (RequestFlaw lib cm) c) x → Only (Due (RequestFlaw lib cm) n) x :=
      fun h => h.mono fun _ he => Due.child (hl c (List.mem_cons_self ..)) he
    have hp : ∀ k, Only (Due (RequestFlaw lib cm) c) (readPart lib cm k c) := fun k => by
      unfold readPart
      exact (only_name c _).bind fun _ _ => only_attributes c
    unfold readRequestChildren
    split
    · refine (hd ?_).bind fun _ _ => hr _
      unfold readSubject
      exact (only_name c _).bind fun _ _ => (only_attributes c).bind fun _ _ => Only.ok
    · split
      · refine (hd ?_).bind fun _ _ => hr _
        unfold readResource
        exact (only_name c _).bind fun _ _ => only_resourceChildren c _ _ fun x hx => mem_children hx
      · split
        · exact (hd (hp _)).bind fun _ _ => hr _
        · split
          · exact (hd (hp _)).bind fun _ _ => hr _
          · exact Only.error (.inl rfl)

private theorem only_decision (n : XNode) : Only (Due ResponseFlaw n) (readDecision n) := by
  unfold readDecision
  refine (only_name n _).bind fun u hu => ?_
  have hn := name_eq hu
  split
  · rename_i ht
    exact Only.error (.inr ⟨n, .refl _, .textless hn ht⟩)
  · rename_i s ht
    split
    · exact Only.ok
    · rename_i hs
      refine Only.error (.inr ⟨n, .refl _, .word hn ht fun d hd => ?_⟩)
      subst hd
      cases d <;> exact absurd hs (by decide)

private theorem only_result (n : XNode) : Only (Due ResponseFlaw n) (readResult n) := by
  have : ∀ (l : List XNode) (r : ResultX), (∀ c ∈ l, c ∈ n.children) → Only (Due ResponseFlaw n) (readResultChildren r l) := by
    intro l
    induction l with
    | nil => intro r _; exact Only.ok
    | cons c l ih =>
      intro r hl
      unfold readResultChildren
      split
      · exact ((only_decision c).mono fun _ he => Due.child (hl c (List.mem_cons_self ..)) he).bind fun _ _ =>
          ih _ fun x hx => hl x (List.mem_cons_of_mem _ hx)
      · exact Only.error (.inl rfl)
  unfold readResult
  exact (only_name n _).bind fun _ _ => this _ _ fun x hx => mem_children hx
end

/-- C107, what holds for requests: the exception is an XMLParseError, or some Attribute element has a flaw that
accounts for it. -/
theorem C107_request_partial (lib : Etree) (cm : List (String × AVClass)) (n : XNode) (e : Exc)
    (h : readRequest lib cm n = .error e) : e = .xmlParseError ∨ ∃ x, Within x n ∧ RequestFlaw lib cm x e := by
  refine (show Only (Due (RequestFlaw lib cm) n) (readRequest lib cm n) from ?_) e h
  unfold readRequest
  exact (only_name n _).bind fun _ _ => only_requestChildren n _ _ fun x hx => mem_children hx

/-- C107, what holds for responses. -/
theorem C107_response_partial (n : XNode) (e : Exc) (h : readResponse n = .error e) :
    e = .xmlParseError ∨ ∃ x, Within x n ∧ ResponseFlaw x e := by
  refine (show Only (Due ResponseFlaw n) (readResponse n) from ?_) e h
  unfold readResponse
  refine (only_name n _).bind fun _ _ => only_forEach _ fun c hc => ?_
  unfold readResponseChild
  split
  · exact (only_result c).mono fun _ he => Due.child (mem_children hc) he
  · exact Only.error (.inl rfl)

/-- C107: requests raise XMLParseError, TypeError or AttributeError; with a library that has `getchildren`
(lxml), only the first two. Responses raise one of the three. -/
theorem C107_kinds_partial (lib : Etree) (cm : List (String × AVClass)) (n : XNode) (e : Exc) :
    (readRequest lib cm n = .error e → e = .xmlParseError ∨ e = .typeError ∨ e = .attributeError ∧ lib.getchildren = false) ∧
    (readResponse n = .error e → e = .xmlParseError ∨ e = .typeError ∨ e = .attributeError) := by
  constructor
  · intro h
    rcases C107_request_partial lib cm n e h with rfl | ⟨x, -, hf⟩
    · exact .inl rfl
    · cases hf with
      | nameless => exact .inr (.inl rfl)
      | library _ hg => exact .inr (.inr ⟨rfl, hg⟩)
      | unknown => exact .inr (.inl rfl)
      | notString => exact .inr (.inl rfl)
  · intro h
    rcases C107_response_partial n e h with rfl | ⟨x, -, hf⟩
    · exact .inl rfl
    · cases hf with
      | textless => exact .inr (.inl rfl)
      | word => exact .inr (.inr rfl)

/-! ## Documents that raise something else -/

private theorem requestChildren_append (lib : Etree) (cm : List (String × AVClass)) (l l' : List XNode) :
    ∀ r : RequestX, readRequestChildren lib cm r (l ++ l')
      = (readRequestChildren lib cm r l >>= fun r' => readRequestChildren lib cm r' l') := by
  induction l with
  | nil => intro r; rfl
  | cons c l ih =>
    intro r
    simp only [List.cons_append, readRequestChildren]
    split
    · cases readSubject lib cm c with
      | error e => rfl
      | ok s => exact ih _
    · split
      · cases readResource lib cm c with
        | error e => rfl
        | ok s => exact ih _
      · split
        · cases readPart lib cm "Action" c with
          | error e => rfl
          | ok s => exact ih _
        · split
          · cases readPart lib cm "Environment" c with
            | error e => rfl
            | ok s => exact ih _
          · rfl

/-- C107 is violated, for any request that can be read: adding a subject with an attribute that lacks its
identifier or DataType, or that has a value of an unknown DataType, raises TypeError. -/
theorem C107_violated (lib : Etree) (cm : List (String × AVClass)) (n : XNode) (r : RequestX) (hl : lib.getchildren = true)
    (hr : readRequest lib cm n = .ok r) (s a : XNode) (hs : s.isElem = true) (hsn : s.name = "Subject")
    (hc : s.children = [a]) (ha : a.isElem = true) (han : a.name = "Attribute") (rest : List XNode) :
    ((a.attr "AttributeId" = none ∨ a.attr "DataType" = none) →
      readRequest lib cm (withChildren n (s :: rest)) = .error .typeError) ∧
    (∀ dt v vs, (a.attr "AttributeId").isSome → a.attr "DataType" = some dt → cm.lookup dt = none →
      a.children = v :: vs → v.isElem = true → v.name = "AttributeValue" →
      readRequest lib cm (withChildren n (s :: rest)) = .error .typeError) := by
  have key : readAttribute lib cm a = .error .typeError →
      readRequest lib cm (withChildren n (s :: rest)) = .error .typeError := by
    intro h
    have hsub : readSubject lib cm s = .error .typeError := by
      simp [readSubject, expectName, hsn, readAttributes, hc, elementChildren, ha, han, forEach, h, bind, Except.bind]
    cases n with
    | other => simp [readRequest, expectName, XNode.name, bind, Except.bind] at hr
    | elem tag at_ t cs =>
      have he : ∀ cs', expectName (.elem tag at_ t cs') = expectName (.elem tag at_ t []) := fun _ => rfl
      simp only [readRequest, withChildren, XNode.children] at hr ⊢
      rw [he] at hr ⊢
      cases h1 : expectName (.elem tag at_ t []) "Request" with
      | error e => rw [h1] at hr; cases hr
      | ok u =>
        rw [h1] at hr
        have hl' : elementChildren (cs ++ s :: rest) = elementChildren cs ++ s :: elementChildren rest := by
          simp [elementChildren, hs]
        simp only [bind, Except.bind] at hr ⊢
        rw [hl', requestChildren_append, hr]
        simp [bind, Except.bind, readRequestChildren, hsn, hsub]
  constructor
  · intro h
    refine key ?_
    rcases h with h | h
    · simp [readAttribute, expectName, han, h, stringSetting, bind, Except.bind]
    · cases hi : a.attr "AttributeId" <;>
        simp [readAttribute, expectName, han, h, hi, stringSetting, bind, Except.bind]
  · intro dt v vs hi hd hk hvs hv hvn
    obtain ⟨i, hi⟩ := Option.isSome_iff_exists.mp hi
    refine key ?_
    simp [readAttribute, expectName, han, hi, hd, stringSetting, bind, Except.bind, hl, hvs, elementChildren, hv,
      forEach, readAttributeChild, hvn, makeValue, hk]

/-- C107 is violated by every response with a decision that is none of the four: AttributeError. -/
theorem C107_violated_decision (n c : XNode) (s : String) (hn : n.name = "Response") (hc : n.children = [c])
    (hce : c.isElem = true) (hcn : c.name = "Result") (d : XNode) (hd : c.children = [d]) (hde : d.isElem = true)
    (hdn : d.name = "Decision") (ht : d.text = some s) (hs : ∀ x, s ≠ decisionWord x) :
    readResponse n = .error .attributeError := by
  have h0 : Decision.ofString s = none := by
    have h1 : s ≠ "Permit" := hs .permit
    have h2 : s ≠ "Deny" := hs .deny
    have h3 : s ≠ "Indeterminate" := hs .indeterminate
    have h4 : s ≠ "NotApplicable" := hs .notApplicable
    unfold Decision.ofString
    split
    · exact absurd rfl h1
    · exact absurd rfl h2
    · exact absurd rfl h3
    · exact absurd rfl h4
    · rfl
  simp [readResponse, expectName, hn, hc, elementChildren, hce, forEach, readResponseChild, hcn, readResult,
    readResultChildren, hd, hde, hdn, readDecision, ht, h0, bind, Except.bind]

/-! ## The hypotheses are met -/

namespace Samples

/-- A request with one attribute; its DataType can be chosen. -/
def rejRequestDoc (dt : List (String × String)) : XNode :=
  .elem "Request" [] none [.elem "Subject" [] none [.elem "Attribute" (("AttributeId", "role") :: dt) none
    [.elem "AttributeValue" [] (some "staff") []]]]

def lxmlLib : Etree := ⟨true, true⟩

end Samples

open Samples in
/-- `C107_violated`: an attribute without DataType, and one with a DataType nobody knows. -/
example : readRequest lxmlLib stdClassMap (withChildren (.elem "Request" [] none [])
      [.elem "Subject" [] none [.elem "Attribute" [("AttributeId", "role")] none []]]) = .error .typeError ∧
    readRequest lxmlLib stdClassMap (withChildren (.elem "Request" [] none [])
      [.elem "Subject" [] none [.elem "Attribute" [("AttributeId", "role"), ("DataType", "urn:mine")] none
        [.elem "AttributeValue" [] (some "x") []]]]) = .error .typeError := by
  have hr : readRequest lxmlLib stdClassMap (.elem "Request" [] none []) = .ok {} := by
    have : (XNode.elem "Request" [] none []).name = "Request" := by decide +kernel
    simp [readRequest, expectName, this, bind, Except.bind, XNode.children, elementChildren, readRequestChildren]
  exact ⟨(C107_violated lxmlLib stdClassMap _ _ rfl hr _ _ rfl (by decide +kernel) rfl rfl (by decide +kernel) []).1 (.inr rfl),
    (C107_violated lxmlLib stdClassMap _ _ rfl hr _ _ rfl (by decide +kernel) rfl rfl (by decide +kernel) []).2 "urn:mine" _ _ rfl rfl
      (by decide +kernel) rfl rfl (by decide +kernel)⟩

open Samples in
/-- `C107_request_partial`: with the standard library of Python 3.9 and later every attribute is a flaw. -/
example : readRequest ⟨false, false⟩ stdClassMap (rejRequestDoc [("DataType", "http://www.w3.org/2001/XMLSchema#string")])
    = .error .attributeError := by
  have of : ∀ {x : Except Exc RequestX},
      (match x with | .ok _ => false | .error e' => decide (e' = .attributeError)) = true → x = .error .attributeError := by
    intro x h
    cases x with
    | ok _ => cases h
    | error e' => rw [of_decide_eq_true h]
  exact of (by decide +kernel)

/-- `C107_violated_decision`: a misspelt decision. -/
example : readResponse (.elem "Response" [] none [.elem "Result" [] none [.elem "Decision" [] (some "permit") []]])
    = .error .attributeError :=
  C107_violated_decision _ _ "permit" (by decide +kernel) rfl rfl (by decide +kernel) _ rfl rfl (by decide +kernel) rfl
    (by intro x; cases x <;> decide +kernel)

end Xacml
