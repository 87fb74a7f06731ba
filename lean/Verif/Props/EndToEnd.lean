import Verif.Props.Semantics
import Verif.Props.Loading
import Verif.Props.ContextDocs
import Verif.Model.Service

/-!
# C66, C67: from documents to decisions
-/
namespace Xacml
open Spec

/-! ## Loaded policies are complete -/

/-- Everything registered in the finder is complete. -/
private def AllReg (s : Finder) : Prop := ∀ kind k q, registered s kind k = some q → Complete q

/-- Run on a finder with complete policies, `m` leaves such a finder and its result has the property. -/
private def Keeps {α} (m : FM α) (Q : α → Prop) : Prop :=
  ∀ s, AllReg s → AllReg (m s).2 ∧ ∀ a, (m s).1 = .ok a → Q a

private theorem keeps_bind {α β} {m : FM α} {f : α → FM β} {Q : α → Prop} {Q' : β → Prop} (hm : Keeps m Q)
    (hf : ∀ a, Q a → Keeps (f a) Q') : Keeps (m >>= f) Q' := by
  intro s hs
  show AllReg (FM.bind m f s).2 ∧ ∀ b, (FM.bind m f s).1 = .ok b → Q' b
  unfold FM.bind
  obtain ⟨h1, h2⟩ := hm s hs
  rcases h : m s with ⟨_ | a, s'⟩
  · rw [h] at h1; exact ⟨h1, fun b hb => by cases hb⟩
  · rw [h] at h1 h2; exact hf a (h2 a rfl) s' h1

private theorem keeps_pure {α} {a : α} {Q : α → Prop} (h : Q a) : Keeps (pure a : FM α) Q :=
  fun _ hs => ⟨hs, fun b hb => by injection hb with hb; subst hb; exact h⟩

private theorem keeps_throw {α} {e : Exc} {Q : α → Prop} : Keeps (FM.throw e : FM α) Q :=
  fun _ hs => ⟨hs, fun b hb => by cases hb⟩

private theorem keeps_lift {α} {x : Except Exc α} {Q : α → Prop} (h : ∀ a, x = .ok a → Q a) : Keeps (FM.lift x) Q := by
  cases x with
  | error e => exact keeps_throw
  | ok a => exact keeps_pure (h a rfl)

private theorem keeps_lift' {α} {x : Except Exc α} : Keeps (FM.lift x) fun a => x = .ok a := keeps_lift fun _ h => h

private theorem keeps_addPolicy {p : PolicyNode} (h : Complete p) : Keeps (addPolicyReference p) fun _ => True := by
  intro s hs
  refine ⟨?_, fun _ _ => trivial⟩
  cases p with
  | policySet h ps => exact hs
  | policy hd rs =>
    unfold addPolicyReference
    simp only
    split
    · exact hs
    · intro kind k q hq
      cases kind with
      | policySet => exact hs .policySet k q hq
      | policy =>
        simp only [registered, dictGet_set] at hq
        split at hq
        · injection hq with hq; subst hq; exact h
        · exact hs .policy k q hq

private theorem keeps_addPolicySet {p : PolicyNode} (h : Complete p) :
    Keeps (addPolicySetReference p) fun _ => True := by
  intro s hs
  refine ⟨?_, fun _ _ => trivial⟩
  cases p with
  | policy h ps => exact hs
  | policySet hd rs =>
    unfold addPolicySetReference
    simp only
    split
    · exact hs
    · intro kind k q hq
      cases kind with
      | policy => exact hs .policy k q hq
      | policySet =>
        simp only [registered, dictGet_set] at hq
        split at hq
        · injection hq with hq; subst hq; exact h
        · exact hs .policySet k q hq

theorem isPolicy_complete {env : RdEnv} {n : XNode} {p : PolicyNode} (h : IsPolicy env n p) : Complete p := by
  obtain ⟨_, _, hd, rules, rfl, _, _, ⟨a, _, _, h1, _⟩, _, _, _, _, _, h2, _⟩ := h
  unfold Complete
  refine ⟨fun h => (by simp [h] at h1), fun r hr => ?_⟩
  obtain ⟨c, _, h3⟩ := each_mem_right h2 r hr
  obtain ⟨_, _, _, (⟨_, h4⟩ | ⟨_, h4⟩), _⟩ := h3 <;> simp [h4]

private theorem keeps_readPolicyReg (env : RdEnv) (n : XNode) : Keeps (readPolicyReg env n) Complete := by
  unfold readPolicyReg
  refine keeps_bind keeps_lift' fun p hp => ?_
  have hc := isPolicy_complete (readPolicy_ok.mp hp)
  exact keeps_bind (keeps_addPolicy hc) fun _ _ => keeps_pure hc

private theorem allComplete_append {ps : List PolicyNode} {q : PolicyNode} (h : AllComplete ps) (hq : Complete q) :
    AllComplete (ps ++ [q]) := by
  induction ps with
  | nil => exact ⟨hq, trivial⟩
  | cons p ps ih => unfold AllComplete at h; exact ⟨h.1, ih h.2⟩

/-- The policy set read so far has an algorithm and complete members. -/
private abbrev PartOk (p : Header × List PolicyNode) : Prop := p.1.alg ≠ none ∧ AllComplete p.2

mutual
private theorem keeps_readPolicySet {env : RdEnv} {res : Resolver} (hP : ∀ t, Keeps (res.findPolicy t) Complete)
    (hS : ∀ t, Keeps (res.findPolicySet t) Complete) : (n : XNode) → Keeps (readPolicySet env res n) Complete
  | .other => by rw [readPolicySet]; exact keeps_throw
  | .elem tag a t cs => by
    rw [readPolicySet]
    refine keeps_bind keeps_lift' fun _ _ => keeps_bind keeps_lift' fun pid _ => keeps_bind keeps_lift' fun alg _ =>
      keeps_bind keeps_lift' fun h hh => ?_
    have ha : h.alg ≠ none := by
      unfold loadAlg at hh
      split at hh
      · rename_i h'' heq
        cases hh
        unfold Header.setAlgId at heq
        simp only at heq
        split at heq <;> simp only [Prod.mk.injEq, reduceCtorEq, false_and, true_and] at heq
        rw [← heq]; simp
      · cases hh
    refine keeps_bind (keeps_readSetChildren hP hS cs _ ⟨ha, trivial⟩) fun p hp => ?_
    have hc : Complete (.policySet p.1 p.2) := by unfold Complete; exact hp
    exact keeps_bind (keeps_addPolicySet hc) fun _ _ => keeps_pure hc
private theorem keeps_readSetChildren {env : RdEnv} {res : Resolver} (hP : ∀ t, Keeps (res.findPolicy t) Complete)
    (hS : ∀ t, Keeps (res.findPolicySet t) Complete) : (l : List XNode) → (p : Header × List PolicyNode) → PartOk p →
      Keeps (readSetChildren env res p l) PartOk
  | [], p, h => by rw [readSetChildren]; exact keeps_pure h
  | .other :: l, p, h => by rw [readSetChildren]; exact keeps_readSetChildren hP hS l p h
  | .elem tag a t cs :: l, p, hp => by
    rw [readSetChildren_elem]
    refine keeps_bind (Q := PartOk) ?_ fun p' h' => keeps_readSetChildren hP hS l p' h'
    unfold setChild
    by_cases h : localPart tag = "Description"
    · rw [if_pos h]; cases t <;> exact keeps_pure hp
    rw [if_neg h]; clear h
    by_cases h : localPart tag = "PolicySetDefaults"
    · rw [if_pos h]; exact keeps_bind keeps_lift' fun _ _ => keeps_pure hp
    rw [if_neg h]; clear h
    by_cases h : localPart tag = "Target"
    · rw [if_pos h]; exact keeps_bind keeps_lift' fun _ _ => keeps_pure hp
    rw [if_neg h]; clear h
    by_cases h : localPart tag = "CombinerParameters"
    · rw [if_pos h]; exact keeps_throw
    rw [if_neg h]; clear h
    by_cases h : localPart tag = "PolicyCombinerParameters"
    · rw [if_pos h]; exact keeps_throw
    rw [if_neg h]; clear h
    by_cases h : localPart tag = "PolicySetCombinerParameters"
    · rw [if_pos h]; exact keeps_throw
    rw [if_neg h]; clear h
    by_cases h : localPart tag = "VariableDefinition"
    · rw [if_pos h]; exact keeps_throw
    rw [if_neg h]; clear h
    by_cases h : localPart tag = "Policy"
    · rw [if_pos h]
      exact keeps_bind (keeps_readPolicyReg env _) fun q hq => keeps_pure ⟨hp.1, allComplete_append hp.2 hq⟩
    rw [if_neg h]; clear h
    by_cases h : localPart tag = "PolicyIdReference"
    · rw [if_pos h]
      exact keeps_bind (hP t) fun q hq => keeps_pure ⟨hp.1, allComplete_append hp.2 hq⟩
    rw [if_neg h]; clear h
    by_cases h : localPart tag = "PolicySet"
    · rw [if_pos h]
      exact keeps_bind (keeps_readPolicySet hP hS (.elem tag a t cs)) fun q hq =>
        keeps_pure ⟨hp.1, allComplete_append hp.2 hq⟩
    rw [if_neg h]; clear h
    by_cases h : localPart tag = "PolicySetIdReference"
    · rw [if_pos h]
      exact keeps_bind (hS t) fun q hq => keeps_pure ⟨hp.1, allComplete_append hp.2 hq⟩
    rw [if_neg h]; clear h
    by_cases h : localPart tag = "Obligations"
    · rw [if_pos h]; exact keeps_throw
    rw [if_neg h]; exact keeps_throw
end

private theorem keeps_readRoot {env : RdEnv} {res : Resolver} (hP : ∀ t, Keeps (res.findPolicy t) Complete)
    (hS : ∀ t, Keeps (res.findPolicySet t) Complete) (n : XNode) : Keeps (readRoot env res n) Complete := by
  unfold readRoot
  split
  · exact keeps_readPolicyReg env n
  · split
    · exact keeps_readPolicySet hP hS n
    · exact keeps_throw

private theorem keeps_localResolver :
    (∀ t, Keeps (localResolver.findPolicy t) Complete) ∧ (∀ t, Keeps (localResolver.findPolicySet t) Complete) := by
  constructor
  · intro t s hs
    simp only [localResolver]
    cases h : dictGet s.policies t with
    | none => exact ⟨hs, fun _ h => by cases h⟩
    | some p => exact ⟨hs, fun q hq => by injection hq with hq; subst hq; exact hs .policy t p h⟩
  · intro t s hs
    simp only [localResolver]
    cases h : dictGet s.policySets t with
    | none => exact ⟨hs, fun _ h => by cases h⟩
    | some p => exact ⟨hs, fun q hq => by injection hq with hq; subst hq; exact hs .policySet t p h⟩

private theorem keeps_urlResolver (env : RdEnv) (base : Option String) (fetch : Fetch) (limit : Nat) :
    (∀ t, Keeps ((urlResolver env base fetch limit).findPolicy t) Complete) ∧
    (∀ t, Keeps ((urlResolver env base fetch limit).findPolicySet t) Complete) := by
  induction limit with
  | zero => exact ⟨fun _ => keeps_throw, fun _ => keeps_throw⟩
  | succ d ih =>
    have key : ∀ t, Keeps (fromReference base fetch (readRoot env (urlResolver env base fetch d)) t) Complete := by
      intro t
      unfold fromReference
      refine keeps_bind keeps_lift' fun u _ => keeps_bind (Q := fun _ => True) ?_ fun n _ => keeps_readRoot ih.1 ih.2 n
      intro s hs
      refine ⟨fun kind k q h => ?_, fun _ _ => trivial⟩
      cases kind
      · exact hs .policy k q h
      · exact hs .policySet k q h
    constructor
    · intro t s hs
      simp only [urlResolver]
      cases h : dictGet s.policies t with
      | some p => exact ⟨hs, fun q hq => by injection hq with hq; subst hq; exact hs .policy t p h⟩
      | none =>
        obtain ⟨h1, h2⟩ := key t s hs
        rcases hf : fromReference base fetch (readRoot env (urlResolver env base fetch d)) t s with ⟨_ | p, s'⟩
        · rw [hf] at h1; exact ⟨h1, fun _ h => by cases h⟩
        · rw [hf] at h1
          simp only
          cases h : dictGet s'.policies t with
          | none => exact ⟨h1, fun _ h => by cases h⟩
          | some p => exact ⟨h1, fun q hq => by injection hq with hq; subst hq; exact h1 .policy t p h⟩
    · intro t s hs
      simp only [urlResolver]
      cases h : dictGet s.policySets t with
      | some p => exact ⟨hs, fun q hq => by injection hq with hq; subst hq; exact hs .policySet t p h⟩
      | none =>
        obtain ⟨h1, h2⟩ := key t s hs
        rcases hf : fromReference base fetch (readRoot env (urlResolver env base fetch d)) t s with ⟨_ | p, s'⟩
        · rw [hf] at h1; exact ⟨h1, fun _ h => by cases h⟩
        · rw [hf] at h1
          simp only
          cases h : dictGet s'.policySets t with
          | none => exact ⟨h1, fun _ h => by cases h⟩
          | some p => exact ⟨h1, fun q hq => by injection hq with hq; subst hq; exact h1 .policySet t p h⟩

/-- A policy loaded with a new URL finder is complete. -/
theorem loaded_complete (env : RdEnv) (base : Option String) (fetch : Fetch) (limit : Nat) (n : XNode) (p : PolicyNode)
    (h : (fromSource env (some (urlResolver env base fetch limit)) (.ok n) {}).1 = .ok p) : Complete p := by
  have hk := keeps_urlResolver env base fetch limit
  exact (keeps_readRoot hk.1 hk.2 n {} (fun kind k q h => by cases kind <;> cases h)).2 p h

/-- A policy loaded with a new in-memory finder is complete. -/
theorem loaded_complete_local (env : RdEnv) (n : XNode) (p : PolicyNode)
    (h : (fromSource env (some localResolver) (.ok n) {}).1 = .ok p) : Complete p :=
  (keeps_readRoot keeps_localResolver.1 keeps_localResolver.2 n {} (fun kind k q h => by cases kind <;> cases h)).2 p h

/-! ## C66 -/

theorem answer_ok {env : Env} {lib : Etree} {pip sel pdp m w x} (hx : readRequest lib env.classMap m = .ok x) :
    answerDocument env lib pip sel pdp m w =
      (pdpEvaluate env pdp (some (x.toRequest pip (sel.map fun f => f m))) >>= fun response =>
        EvalM.ofExcept (writeResponse lib (response.results.map Result.toX))) w := by
  unfold answerDocument
  rw [hx]
  rfl

/-- The request a document holds, together with the context handler and the selector of the program: all its subjects,
resources (without their contents, which nothing reads), action and environment. -/
def Spec.Asks (x : RequestX) (pip : Option Pip) (sel : Option XPathEngine) (r : Request) : Prop :=
  r.data.subjects = x.subjects ∧ r.data.resources = x.resources.map (fun a => ⟨a.attributes, none⟩) ∧
  r.data.action = x.action ∧ r.data.environment = x.environment ∧ r.ctxHandler = pip ∧ r.attributeSelector = sel

/-- **C66.** A PDP created from a policy document answers a request document, after any history, with a response
document holding the one decision that the semantics gives the policy (the one the policy grammar assigns to the
policy document, references resolved) for the request (the one the request grammar assigns to the request
document). It answers nothing else than request documents. -/
theorem C66_end_to_end (rd : RdEnv) (fetch : Fetch) (limit : Nat) (source : SourceArg) (n : XNode)
    (pdp : Option PolicyNode) (hload : pdpFromPolicySource rd fetch limit source (.ok n) = .ok pdp)
    (env : Env) (lib : Etree) (hl : lib.getchildren = true) (pip : Option Pip)
    (hpip : ∀ f, pip = some f → ∀ log log' q, f log q = f log' q)
    (sel : Option (XNode → XPathEngine)) (m : XNode) {w : World} (hw : History env.re w) :
    ∃ p s, pdp = some p ∧ Coherent s ∧ IsDocument rd (RefIn s) n p ∧
      (∀ x, IsRequest env.classMap m x → ∃ r d doc, Spec.Asks x pip (sel.map fun f => f m) r ∧
        (∀ d', PolicyMeans env r p d' ↔ d' = d) ∧
        (answerDocument env lib pip sel pdp m w).1 = .ok doc ∧ IsResponse doc [{ decision := some d }]) ∧
      ((∀ x, ¬ IsRequest env.classMap m x) → ∃ e, (answerDocument env lib pip sel pdp m w).1 = .error e) := by
  obtain ⟨base, p, rfl, rfl, hp⟩ := (C65_default_finder ..).1 hload
  have hcomp := loaded_complete rd base fetch limit n p hp
  rcases hs : fromSource rd (some (urlResolver rd base fetch limit)) (.ok n) {} with ⟨y, s⟩
  rw [hs] at hp
  simp only at hp
  subst hp
  obtain ⟨hcoh, hdoc, _⟩ := C48_url rd base fetch limit n {} p s C48_new_finder hs
  refine ⟨p, s, rfl, hcoh, hdoc, ?_, ?_⟩
  · intro x hx
    rw [← C61_request lib hl] at hx
    have hst : StatelessPip (some (x.toRequest pip (sel.map fun f => f m))) := by
      intro r hr
      injection hr with hr
      subst hr
      exact hpip
    obtain ⟨d, hd, he⟩ := C64_pdp env _ hst p hcomp hw
    have hb : Each ResultBack [({ decision := some d } : ResultX)] [{ decision := some d }] :=
      ⟨_, _, rfl, ⟨rfl, d, rfl, rfl⟩, rfl⟩
    obtain ⟨doc, h1, h2⟩ := (C52_back .tree lib _ _).2 hb
    refine ⟨_, d, doc, ⟨rfl, rfl, rfl, rfl, rfl, rfl⟩, hd, ?_, (C62_response ..).1 h2⟩
    rw [answer_ok hx, run_bind]
    rcases hev : pdpEvaluate env (some p) (some (x.toRequest pip (sel.map fun f => f m))) w with ⟨z, w1⟩
    rw [hev] at he
    simp only at he
    subst he
    rw [hev]
    exact h1
  · intro hno
    cases hr : readRequest lib env.classMap m with
    | ok x => exact absurd ((C61_request lib hl ..).1 hr) (hno x)
    | error e =>
      refine ⟨e, ?_⟩
      unfold answerDocument
      rw [hr]
      rfl

/-! ## C67 -/

theorem toRequest_same {R : XNode → XNode → Prop} {x x' : RequestX} (h : SameRequest R x x') (pip sel) :
    x'.toRequest pip sel = x.toRequest pip sel := by
  obtain ⟨h1, h2, h3, h4⟩ := h
  have h5 : x'.resources.map (fun r => ({ attributes := r.attributes, content := none } : CtxResource)) =
      x.resources.map fun r => { attributes := r.attributes, content := none } := by
    generalize x.resources = l at h4 ⊢
    generalize x'.resources = l' at h4 ⊢
    induction l generalizing l' with
    | nil => rw [each_nil] at h4; subst h4; rfl
    | cons a l ih =>
      obtain ⟨b, bs, rfl, h6, h7⟩ := h4
      rw [List.map_cons, List.map_cons, ih _ h7, h6.1]
  unfold RequestX.toRequest
  rw [h1, h2, h3, h5]

mutual
theorem sameButNs_symm : (n n' : XNode) → SameButNs n n' → SameButNs n' n
  | .other, .other, h => h
  | .elem .., .elem .., h => by
    rw [Spec.SameButNs] at h ⊢
    exact ⟨sameLocal_iff.2 (sameLocal_iff.1 h.1).symm, h.2.1.symm, h.2.2.1.symm, sameButNsL_symm _ _ h.2.2.2⟩
  | .other, .elem .., h => by rw [Spec.SameButNs] at h <;> simp_all
  | .elem .., .other, h => by rw [Spec.SameButNs] at h <;> simp_all
theorem sameButNsL_symm : (l l' : List XNode) → SameButNsL l l' → SameButNsL l' l
  | [], [], h => h
  | _ :: _, _ :: _, h => by
    rw [Spec.SameButNsL] at h ⊢
    exact ⟨sameButNs_symm _ _ h.1, sameButNsL_symm _ _ h.2⟩
  | [], _ :: _, h => by rw [Spec.SameButNsL] at h <;> simp_all
  | _ :: _, [], h => by rw [Spec.SameButNsL] at h <;> simp_all
end

private theorem answer_same {env : Env} {lib : Etree} {pdp : Option PolicyNode} {m m' : XNode} {w : World}
    {R : XNode → XNode → Prop}
    (h : ∀ x, readRequest lib env.classMap m = .ok x → ∃ x', readRequest lib env.classMap m' = .ok x' ∧ SameRequest R x x')
    {doc : XNode} (hd : (answerDocument env lib none none pdp m w).1 = .ok doc) :
    (answerDocument env lib none none pdp m' w).1 = .ok doc := by
  cases hr : readRequest lib env.classMap m with
  | error e =>
    unfold answerDocument at hd
    rw [hr] at hd
    cases hd
  | ok x =>
    obtain ⟨x', h1, h2⟩ := h x hr
    rw [answer_ok hr] at hd
    rw [answer_ok h1, toRequest_same h2]
    exact hd

/-- **C67, namespaces.** A policy decision service gives the same response document for policy documents and
request documents that differ only in namespaces, documents fetched for references included. -/
theorem C67_namespaces (rd : RdEnv)
    (hdt : ∀ dt r, dictGet rd.dtReaders dt = some r → ∀ n n' v, SameButNs n n' → r n v = r n' v)
    (fetch fetch' : Fetch) (hf : ∀ past url, SameFetch SameButNs (fetch past url) (fetch' past url)) (limit : Nat)
    (source : SourceArg) (env : Env) (lib : Etree) (hl : lib.getchildren = true) (n n' m m' : XNode)
    (hn : SameButNs n n') (hm : SameButNs m m') (w : World) (doc : XNode) :
    serve rd fetch limit source env lib n m w = .ok doc ↔ serve rd fetch' limit source env lib n' m' w = .ok doc := by
  have hp : pdpFromPolicySource rd fetch limit source (.ok n) = pdpFromPolicySource rd fetch' limit source (.ok n') := by
    unfold pdpFromPolicySource pdpSetPolicyFromSource
    cases source with
    | object => rfl
    | str base =>
      simp only [defaultBasePath]
      rw [C46_load rd hdt base fetch fetch' limit hf (.ok n) (.ok n') hn]
  unfold serve
  rw [hp]
  cases pdpFromPolicySource rd fetch' limit source (.ok n') with
  | error e => exact Iff.rfl
  | ok pdp =>
    constructor
    · exact answer_same fun x hx => C63_namespaces lib hl env.classMap m m' hm x hx
    · exact answer_same fun x hx => C63_namespaces lib hl env.classMap m' m (sameButNs_symm _ _ hm) x hx

/-- **C67, comments, parser of the standard library.** Comments anywhere in the policy document and the request
document make no difference. -/
theorem C67_comments (rd : RdEnv) (fetch : Fetch) (limit : Nat) (source : SourceArg) (env : Env) (lib : Etree)
    (n n' m m' : Doc) (hn : CommentAnywhere n n') (hm : CommentAnywhere m m') (w : World) :
    serve rd fetch limit source env lib n.stdTree m.stdTree w =
      serve rd fetch limit source env lib n'.stdTree m'.stdTree w := by
  have e1 : n.stdTree = n'.stdTree := by unfold Doc.stdTree; rw [anywhere_strip hn]
  have e2 : m.stdTree = m'.stdTree := by unfold Doc.stdTree; rw [anywhere_strip hm]
  rw [e1, e2]

/-- **C67, comments, lxml (partial).** With lxml: comments outside of the elements whose text is read. (Elsewhere
C45 and C63 are violated.) -/
theorem C67_lxml_partial (rd : RdEnv) (fetch : Fetch) (limit : Nat) (source : SourceArg) (env : Env) (lib : Etree)
    (hl : lib.getchildren = true) (n n' m m' : Doc) (hn : CommentOutsideText n n') (hm : CommentOutsideValue m m')
    (w : World) (doc : XNode) (h : serve rd fetch limit source env lib n.lxmlTree m.lxmlTree w = .ok doc) :
    serve rd fetch limit source env lib n'.lxmlTree m'.lxmlTree w = .ok doc := by
  have hp : pdpFromPolicySource rd fetch limit source (.ok n.lxmlTree) =
      pdpFromPolicySource rd fetch limit source (.ok n'.lxmlTree) := by
    unfold pdpFromPolicySource pdpSetPolicyFromSource
    cases source with
    | object => rfl
    | str base =>
      have e : ∀ t : XNode, fromSource rd (some (urlResolver rd base fetch limit)) (.ok t) =
        readRoot rd (urlResolver rd base fetch limit) t := fun _ => rfl
      simp only [defaultBasePath, e, C45_lxml_partial rd _ n n' hn]
  unfold serve at h ⊢
  rw [← hp]
  cases hq : pdpFromPolicySource rd fetch limit source (.ok n.lxmlTree) with
  | error e => rw [hq] at h; cases h
  | ok pdp =>
    rw [hq] at h
    exact answer_same (fun x hx => C63_lxml_partial lib hl env.classMap m m' hm x hx) h

/-! Non-vacuity: documents that load and are answered, with Permit and, for another role, NotApplicable. -/

section
open Samples
set_option maxRecDepth 20000

/-- The decisions in a response document. -/
def decisionsIn (x : Except Exc XNode) : Option (List (Option Decision)) :=
  match x with
  | .error _ => none
  | .ok n => (readResponse n).toOption.map fun rs => rs.map (·.decision)

def adminPolicy : Doc := policyDoc (xmlns "") [.text "admin"] []
def stdlib : Etree := { lxml := false, getchildren := true }
def noFetch : Fetch := fun _ _ => .error .keyError

example : (pdpFromPolicySource stdRd noFetch 10 (.str none) (.ok adminPolicy.stdTree)).isOk = true := by decide +kernel
example : decisionsIn (serve stdRd noFetch 10 (.str none) Samples.env stdlib adminPolicy.stdTree
    (requestDoc "" [value "" [.text "admin"]]).stdTree w0) = some [some .permit] := by decide +kernel
example : decisionsIn (serve stdRd noFetch 10 (.str none) Samples.env stdlib adminPolicy.stdTree
    (requestDoc "" [value "" [.text "staff"]]).stdTree w0) = some [some .notApplicable] := by decide +kernel
example : decisionsIn (serve stdRd noFetch 10 (.str none) Samples.env lxml adminPolicy.lxmlTree
    (requestDoc "" [value "" [.text "staff"], .comment "x", value "" [.text "admin"]]).lxmlTree w0) =
      some [some .permit] := by decide +kernel
end

end Xacml
