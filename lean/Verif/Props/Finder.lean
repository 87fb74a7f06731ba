import Verif.Lemmas.Finder
import Verif.Spec.Documents

/-!
# C48–C50, C53, C56: references, finders, loading policies
-/
namespace Xacml
open Spec

/-! ## C48 -/

private theorem loadAlg_policy_ok {h h' : Header} {s : String} :
    loadAlg policyAlgMap h s = .ok h' ↔
      (policyAlg s).isSome ∧ h' = { h with algId := some s, alg := policyAlg s } := by
  have hget : dictGet policyAlgMap s =
      if s = "urn:oasis:names:tc:xacml:1.0:policy-combining-algorithm:first-applicable" then some (.cls .firstApplicable)
      else if s = "urn:oasis:names:tc:xacml:1.0:policy-combining-algorithm:permit-overrides" then
        some (.cls .permitOverrides)
      else if s = "urn:oasis:names:tc:xacml:1.0:policy-combining-algorithm:deny-overrides" then
        some (.cls .denyOverrides)
      else dictGet (fromKeys policyAlgorithms) s := by
    simp only [policyAlgMap, dictGet_set]
  have hrest := dictGet_fromKeys policyAlgorithms s
  unfold loadAlg Header.setAlgId policyAlg
  by_cases h1 : s = "urn:oasis:names:tc:xacml:1.0:policy-combining-algorithm:first-applicable"
  · rw [if_pos h1] at hget
    simp only [hget]
    subst h1
    simp [eq_comm]
  · rw [if_neg h1] at hget
    by_cases h2 : s = "urn:oasis:names:tc:xacml:1.0:policy-combining-algorithm:permit-overrides"
    · rw [if_pos h2] at hget
      simp only [hget]
      subst h2
      simp [eq_comm]
    · rw [if_neg h2] at hget
      by_cases h3 : s = "urn:oasis:names:tc:xacml:1.0:policy-combining-algorithm:deny-overrides"
      · rw [if_pos h3] at hget
        simp only [hget]
        subst h3
        simp [eq_comm]
      · rw [if_neg h3] at hget
        simp only [hget]
        rcases hrest with hr | hr <;> simp [hr, h1, h2, h3]

/-- What a reference stands for after reading: the policy registered under it, which has this identifier. -/
abbrev RefIn (s : Finder) (kind : Kind) (t : Option String) (q : PolicyNode) : Prop :=
  registered s kind t = some q ∧ Kind.of q = kind ∧ q.ident = t

mutual
private theorem isPolicySet_mono {env : RdEnv} {ref ref' : Kind → Option String → PolicyNode → Prop}
    (h : ∀ k t q, ref k t q → ref' k t q) : (n : XNode) → ∀ p, IsPolicySet env ref n p → IsPolicySet env ref' n p
  | .other, p => by rw [Spec.IsPolicySet]; exact False.elim
  | .elem tag a t cs, p => by
    rw [Spec.IsPolicySet, Spec.IsPolicySet]
    rintro ⟨h1, h2, hd, ps, h3, h4, h5, h6, h7, h8, h9, h10, h11, h12⟩
    exact ⟨h1, h2, hd, ps, h3, h4, h5, h6, h7, h8, h9, h10, h11, areMembers_mono h cs ps h12⟩
private theorem areMembers_mono {env : RdEnv} {ref ref' : Kind → Option String → PolicyNode → Prop}
    (h : ∀ k t q, ref k t q → ref' k t q) : (l : List XNode) → ∀ ps, AreMembers env ref l ps → AreMembers env ref' l ps
  | [], ps => by rw [Spec.AreMembers, Spec.AreMembers]; exact id
  | .other :: l, ps => by rw [Spec.AreMembers, Spec.AreMembers]; exact areMembers_mono h l ps
  | .elem tag a t cs :: l, ps => by
    rw [Spec.AreMembers, Spec.AreMembers]
    split
    · rintro ⟨q, qs, rfl, h1, h2⟩
      refine ⟨q, qs, rfl, areMembers_mono h l qs h1, ?_⟩
      rcases h2 with h2 | ⟨h2, h3⟩ | ⟨h2, h3⟩ | ⟨h2, h3⟩
      · exact .inl h2
      · exact .inr (.inl ⟨h2, isPolicySet_mono h _ q h3⟩)
      · exact .inr (.inr (.inl ⟨h2, h _ _ _ h3⟩))
      · exact .inr (.inr (.inr ⟨h2, h _ _ _ h3⟩))
    · exact areMembers_mono h l ps
end

private theorem good_readSetChildren {env : RdEnv} {res : Resolver} (hres : ResolverOk res) (l : List XNode) (p) :
    Steps Good (readSetChildren env res p l) :=
  steps_readSetChildren good_refl good_trans hres.stepsP hres.stepsS l p
    (fun _ _ _ p _ _ _ => good_addPolicy p) (fun _ _ _ _ _ _ _ _ => good_addPolicySet _)

private theorem good_readRoot {env : RdEnv} {res : Resolver} (hres : ResolverOk res) (n : XNode) :
    Steps Good (readRoot env res n) :=
  steps_readRoot good_refl good_trans hres.stepsP hres.stepsS n
    (fun _ p _ _ _ => good_addPolicy p) (fun _ _ _ _ _ _ => good_addPolicySet _)

private theorem good_setChild {env : RdEnv} {res : Resolver} (hres : ResolverOk res) (p tag a t cs) :
    Steps Good (setChild env res p tag a t cs) :=
  steps_setChild good_refl good_trans hres.stepsP hres.stepsS p tag a t cs
    (fun _ => steps_readPolicyReg good_refl good_trans fun _ p _ => good_addPolicy p)
    (fun _ => steps_readPolicySet good_refl good_trans hres.stepsP hres.stepsS _
      (fun _ p _ _ _ => good_addPolicy p) (fun _ _ _ _ _ _ => good_addPolicySet _))

private theorem readPolicyReg_ok {env : RdEnv} {n : XNode} {p : PolicyNode} {s s' : Finder} :
    readPolicyReg env n s = (.ok p, s') ↔ readPolicy env n = .ok p ∧ addPolicyReference p s = (.ok (), s') := by
  unfold readPolicyReg
  simp only [FM.bind_ok, FM.lift_ok, FM.pure_ok]
  constructor
  · rintro ⟨q, _, ⟨h1, rfl⟩, _, _, h2, rfl, rfl⟩; exact ⟨h1, h2⟩
  · rintro ⟨h1, h2⟩; exact ⟨p, s, ⟨h1, rfl⟩, _, _, h2, rfl, rfl⟩

mutual
private theorem readPolicySet_sound {env : RdEnv} {res : Resolver} (hres : ResolverOk res) : (n : XNode) →
    ∀ s p s', Coherent s → readPolicySet env res n s = (.ok p, s') → IsPolicySet env (RefIn s') n p
  | .other, s, p, s', _, h => by rw [readPolicySet] at h; exact (FM.throw_ok.mp h).elim
  | .elem tag a t cs, s, p, s', hc, h => by
    rw [readPolicySet] at h
    simp only [FM.bind_ok, FM.lift_ok, FM.pure_ok, expectName_ok, requiredAttr_ok, loadAlg_policy_ok] at h
    obtain ⟨_, _, ⟨hn, rfl⟩, pid, _, ⟨hpid, rfl⟩, alg, _, ⟨halg, rfl⟩, hd, _, ⟨⟨h1, rfl⟩, rfl⟩, p', s1, h2, _, s2, h3,
      rfl, rfl⟩ := h
    obtain ⟨hk, ts, qs, b1, b2, b3, b4⟩ := readSetChildren_sound hres cs _ _ _ _ hc h2
    rw [lastOr_map_none, lastOr_none] at b4
    have hgood : Good s1 s2 := by
      have := good_addPolicySet (.policySet p'.1 p'.2) s1
      rw [h3] at this; exact this
    rw [Spec.IsPolicySet]
    refine ⟨hn, hk, p'.1, p'.2, rfl, ?_, ?_, ⟨alg, halg, ?_, ?_, ?_⟩, ?_, ?_, ?_, ⟨ts, b1, ?_⟩, ?_, ?_⟩
    · rw [b4]; rfl
    · rw [b4]; exact hpid
    · rw [b4]
    · rw [b4]; exact h1
    · rw [b4]
    · rw [b4]; exact readVersion_eq _
    · rw [b4]; rfl
    · rw [b4]
    · rw [b4]
    · rw [b4]
    · rw [b3, List.nil_append]
      exact areMembers_mono (fun k t q hq => ⟨hgood.1 _ _ _ hq.1, hq.2⟩) cs qs b2
private theorem readSetChildren_sound {env : RdEnv} {res : Resolver} (hres : ResolverOk res) : (l : List XNode) →
    ∀ p s p' s', Coherent s → readSetChildren env res p l s = (.ok p', s') →
      (∀ c ∈ elementChildren l, c.name ∈ ["Description", "Target"] ++ memberTags) ∧
      ∃ ts qs, Each (IsTarget env) ((elementChildren l).filter fun c => decide (c.name = "Target")) ts ∧
        AreMembers env (RefIn s') l qs ∧ p'.2 = p.2 ++ qs ∧
        p'.1 = { p.1 with
          description := lastOr ((descriptionsIn (elementChildren l)).map pyStrip) p.1.description
          target := lastOr ts p.1.target }
  | [], p, s, p', s', hc, h => by
    rw [readSetChildren, FM.pure_ok] at h
    obtain ⟨rfl, rfl⟩ := h
    exact ⟨by simp [elementChildren], [], [], by simp [elementChildren, each_nil],
      by rw [Spec.AreMembers], by simp, rfl⟩
  | .other :: l, p, s, p', s', hc, h => by
    rw [readSetChildren] at h
    obtain ⟨h1, ts, qs, h2, h3, h4⟩ := readSetChildren_sound hres l p s p' s' hc h
    exact ⟨h1, ts, qs, h2, by rw [Spec.AreMembers]; exact h3, h4⟩
  | .elem tag a t cs :: l, p, s, p', s', hc, h => by
    rw [readSetChildren_elem, FM.bind_ok] at h
    obtain ⟨p1, s1, h1, h2⟩ := h
    have hg1 : Good s s1 := by
      have := good_setChild (env := env) hres p tag a t cs s; rw [h1] at this; exact this
    have hg2 : Good s1 s' := by
      have := good_readSetChildren (env := env) hres l p1 s1; rw [h2] at this; exact this
    have hc1 := hg1.2 hc
    have hc2 := hg2.2 hc1
    obtain ⟨hk, ts, qs, b1, b2, b3, b4⟩ := readSetChildren_sound hres l p1 s1 p' s' hc1 h2
    have hel : elementChildren (.elem tag a t cs :: l) = .elem tag a t cs :: elementChildren l := rfl
    rw [hel, List.forall_mem_cons, List.filter_cons, descriptionsIn_cons]
    have hAM : ∀ ref qs, AreMembers env ref (.elem tag a t cs :: l) qs ↔
        if localPart tag ∈ memberTags then
          ∃ q qs', qs = q :: qs' ∧ AreMembers env ref l qs' ∧
            ((localPart tag = "Policy" ∧ IsPolicy env (.elem tag a t cs) q) ∨
             (localPart tag = "PolicySet" ∧ IsPolicySet env ref (.elem tag a t cs) q) ∨
             (localPart tag = "PolicyIdReference" ∧ ref .policy t q) ∨
             (localPart tag = "PolicySetIdReference" ∧ ref .policySet t q))
        else AreMembers env ref l qs := by
      intro ref qs; rw [Spec.AreMembers]; exact Iff.rfl
    simp only [hAM]
    have hnm : (XNode.elem tag a t cs).name = localPart tag := rfl
    have htx : (XNode.elem tag a t cs).text = t := rfl
    rw [hnm, htx]
    rcases setChild_ok.mp h1 with ⟨hn, rfl, rfl⟩ | ⟨hn, rfl, x, hx, rfl⟩ | ⟨q, rfl, hq⟩
    · rw [hn]
      refine ⟨⟨by decide, hk⟩, ts, qs, by simpa using b1, ?_, ?_, ?_⟩
      · rw [if_neg (by decide)]; exact b2
      · rw [b3]; cases t <;> rfl
      · rw [b4]; cases t
        · rfl
        · simp only [if_true, List.map_cons, lastOr_cons]
    · rw [hn]
      refine ⟨⟨by decide, hk⟩, x :: ts, qs, ?_, ?_, ?_, ?_⟩
      · rw [if_pos (by simp), each_cons]; exact ⟨x, ts, rfl, hx, b1⟩
      · rw [if_neg (by decide)]; exact b2
      · rw [b3]
      · rw [b4, lastOr_cons]; simp
    · have hm : localPart tag ∈ memberTags := by
        rcases hq with ⟨hq, _⟩ | ⟨hq, _⟩ | ⟨hq, _⟩ | ⟨hq, _⟩ <;> rw [hq] <;> decide
      have hnd : localPart tag ≠ "Description" ∧ localPart tag ≠ "Target" := by
        rcases hq with ⟨hq, _⟩ | ⟨hq, _⟩ | ⟨hq, _⟩ | ⟨hq, _⟩ <;> rw [hq] <;> decide
      rw [if_neg hnd.1]
      refine ⟨⟨by simp only [List.cons_append, List.nil_append, List.mem_cons]; exact .inr (.inr (by simpa using hm)), hk⟩,
        ts, q :: qs, ?_, ?_, ?_, ?_⟩
      · rw [if_neg (by simpa using hnd.2)]; exact b1
      · rw [if_pos hm]
        refine ⟨q, qs, rfl, b2, ?_⟩
        rcases hq with ⟨hq, hr⟩ | ⟨hq, hr⟩ | ⟨hq, hr⟩ | ⟨hq, hr⟩
        · exact .inl ⟨hq, readPolicy_ok.mp (readPolicyReg_ok.mp hr).1⟩
        · have hf := hg2.1 _ _ _ (hres.foundP _ _ _ _ hr)
          exact .inr (.inr (.inl ⟨hq, hf, hc2 _ _ _ hf⟩))
        · refine .inr (.inl ⟨hq, isPolicySet_mono (fun k t q h => ⟨hg2.1 _ _ _ h.1, h.2⟩) _ _
            (readPolicySet_sound hres (.elem tag a t cs) s q s1 hc hr)⟩)
        · have hf := hg2.1 _ _ _ (hres.foundS _ _ _ _ hr)
          exact .inr (.inr (.inr ⟨hq, hf, hc2 _ _ _ hf⟩))
      · rw [b3]; simp
      · rw [b4]
end

private theorem sound_readRoot {env : RdEnv} {res : Resolver} (hres : ResolverOk res) (n : XNode) (s p s')
    (hc : Coherent s) (h : readRoot env res n s = (.ok p, s')) :
    Coherent s' ∧ IsDocument env (RefIn s') n p ∧ registered s' (Kind.of p) p.ident = some p := by
  have hg : Good s s' := by
    have := good_readRoot (env := env) hres n s; rw [h] at this; exact this
  refine ⟨hg.2 hc, ?_⟩
  unfold readRoot at h
  by_cases h1 : n.name = "Policy"
  · rw [if_pos h1] at h
    obtain ⟨h2, h3⟩ := readPolicyReg_ok.mp h
    obtain ⟨hd, rs, rfl, _, rfl⟩ := addPolicyReference_ok.mp h3
    exact ⟨.inl ⟨h1, readPolicy_ok.mp h2⟩, by simp [registered, Kind.of, PolicyNode.ident, dictGet_set]⟩
  · rw [if_neg h1] at h
    by_cases h2 : n.name = "PolicySet"
    · rw [if_pos h2] at h
      refine ⟨.inr ⟨h2, readPolicySet_sound hres n s p s' hc h⟩, ?_⟩
      cases n with
      | other => rw [readPolicySet] at h; exact (FM.throw_ok.mp h).elim
      | elem tag a t cs =>
        rw [readPolicySet] at h
        simp only [FM.bind_ok, FM.lift_ok, FM.pure_ok] at h
        obtain ⟨_, _, _, _, _, _, _, _, _, _, _, _, q, _, _, _, _, h3, rfl, rfl⟩ := h
        obtain ⟨hd, rs, h4, _, rfl⟩ := addPolicySetReference_ok.mp h3
        cases h4
        simp [registered, Kind.of, PolicyNode.ident, dictGet_set]
    · rw [if_neg h2] at h; exact (FM.throw_ok.mp h).elim

/-- **C48, in-memory finder.** When reading succeeds, the policy (set) is the one the grammar assigns to
the document, every reference standing for a policy (set) of the right kind with this identifier, which
is registered in the finder; and the policy (set) read is registered itself. -/
theorem C48_local (env : RdEnv) (n : XNode) (s : Finder) (p : PolicyNode) (s' : Finder) (hc : Coherent s)
    (h : fromSource env (some localResolver) (.ok n) s = (.ok p, s')) :
    Coherent s' ∧ IsDocument env (RefIn s') n p ∧ registered s' (Kind.of p) p.ident = some p :=
  sound_readRoot localResolver_ok n s p s' hc h

/-- **C48, URL finder**, whatever the documents fetched and the recursion limit. -/
theorem C48_url (env : RdEnv) (base : Option String) (fetch : Fetch) (limit : Nat) (n : XNode) (s : Finder)
    (p : PolicyNode) (s' : Finder) (hc : Coherent s)
    (h : fromSource env (some (urlResolver env base fetch limit)) (.ok n) s = (.ok p, s')) :
    Coherent s' ∧ IsDocument env (RefIn s') n p ∧ registered s' (Kind.of p) p.ident = some p :=
  sound_readRoot (urlResolver_ok env base fetch limit) n s p s' hc h

/-- A new finder is coherent. -/
theorem C48_new_finder : Coherent {} := by
  intro kind k q h; cases kind <;> cases h

namespace Samples

def permitAlg : String := "urn:oasis:names:tc:xacml:1.0:rule-combining-algorithm:permit-overrides"
def denySetAlg : String := "urn:oasis:names:tc:xacml:1.0:policy-combining-algorithm:deny-overrides"

/-- A policy with one rule. -/
def onePolicy (id : String) : XNode :=
  .elem "Policy" [("PolicyId", id), ("RuleCombiningAlgId", permitAlg)] none
    [.elem "Rule" [("RuleId", "r"), ("Effect", "Permit")] none []]

/-- A policy set with the given children. -/
def setOf (id : String) (cs : List XNode) : XNode :=
  .elem "PolicySet" [("PolicySetId", id), ("PolicyCombiningAlgId", denySetAlg)] none cs

def policyRef (id : String) : XNode := .elem "PolicyIdReference" [] (some id) []
def policySetRef (id : String) : XNode := .elem "PolicySetIdReference" [] (some id) []

/-- A policy set that defines a policy and a policy set and then refers to them. -/
def selfContained : XNode :=
  setOf "s1" [onePolicy "p1", .other, setOf "s2" [policyRef "p1"], policySetRef "s2"]

/-- Two documents: one refers to the other, which is found below `/base`. -/
def twoFiles : Fetch := fun _ u =>
  if u = "file:///base/p1.xml" then .ok (onePolicy "p1.xml") else .error .keyError

end Samples

open Samples in
set_option maxRecDepth 20000 in
/-- The hypotheses of `C48_local` are met. -/
example : Coherent {} ∧ (fromSource stdRd (some localResolver) (.ok selfContained) {}).1.toOption.isSome = true :=
  ⟨C48_new_finder, by decide +kernel⟩

open Samples in
set_option maxRecDepth 20000 in
/-- The hypotheses of `C48_url` are met. -/
example : (fromSource stdRd (some (urlResolver stdRd (some "/base") twoFiles 5))
    (.ok (setOf "s1" [policyRef "p1.xml"])) {}).1.toOption.isSome = true := by decide +kernel

/-! ### Unresolved references -/

/-- Reading a list of children fails if it fails on one of them and the invariant is kept before. -/
private theorem children_fail {env : RdEnv} {res : Resolver} {I : Finder → Prop}
    (hP : ∀ t, Steps (fun s s' => I s → I s') (res.findPolicy t))
    (hS : ∀ t, Steps (fun s s' => I s → I s') (res.findPolicySet t))
    (l : List XNode) (hAP : ∀ c ∈ l, AddsP (fun s s' => I s → I s') env c)
    (hAS : ∀ c ∈ l, AddsS (fun s s' => I s → I s') c) (x : XNode) (hx : x ∈ l)
    (hfail : ∃ tag a t cs, x = .elem tag a t cs ∧ ∀ p s, I s → ∃ e s', setChild env res p tag a t cs s = (.error e, s'))
    (p : Header × List PolicyNode) (s : Finder) (hs : I s) :
    ∃ e s', readSetChildren env res p l s = (.error e, s') ∧ I s' := by
  have hst := steps_readSetChildren (env := env) (R := fun s s' => I s → I s') (fun s h => h) (fun _ _ _ h1 h2 h => h2 (h1 h)) hP hS
  have key : ∃ e s', readSetChildren env res p l s = (.error e, s') := by
    clear hst
    induction l generalizing p s with
    | nil => cases hx
    | cons n l ih =>
      cases n with
      | other =>
        rw [readSetChildren]
        rcases List.mem_cons.mp hx with rfl | hx
        · obtain ⟨_, _, _, _, h, _⟩ := hfail; cases h
        · exact ih (fun c hc => hAP c (List.mem_cons_of_mem _ hc)) (fun c hc => hAS c (List.mem_cons_of_mem _ hc)) hx p s hs
      | elem tag a t cs =>
        rw [readSetChildren_elem]
        show ∃ e s', FM.bind (setChild env res p tag a t cs) _ s = (.error e, s')
        unfold FM.bind
        have hsteps : Steps (fun s s' => I s → I s') (setChild env res p tag a t cs) :=
          steps_setChild (fun s h => h) (fun _ _ _ h1 h2 h => h2 (h1 h)) hP hS p tag a t cs
            (fun _ => steps_readPolicyReg (fun s h => h) (fun _ _ _ h1 h2 h => h2 (h1 h)) fun h q hq =>
              hAP _ List.mem_cons_self _ q (.refl _) h hq)
            (fun _ => steps_readPolicySet (fun s h => h) (fun _ _ _ h1 h2 h => h2 (h1 h)) hP hS _
              (hAP _ List.mem_cons_self) (hAS _ List.mem_cons_self))
        have h1 := hsteps s hs
        rcases hc : setChild env res p tag a t cs s with ⟨r, s1⟩
        rw [hc] at h1
        cases r with
        | error e => exact ⟨e, s1, rfl⟩
        | ok p1 =>
          rcases List.mem_cons.mp hx with rfl | hx
          · obtain ⟨_, _, _, _, h, hf⟩ := hfail
            cases h
            obtain ⟨e, s', he⟩ := hf p s hs
            rw [hc] at he; cases he
          · exact ih (fun c hc => hAP c (List.mem_cons_of_mem _ hc)) (fun c hc => hAS c (List.mem_cons_of_mem _ hc)) hx p1 s1 h1
  obtain ⟨e, s', h⟩ := key
  refine ⟨e, s', h, ?_⟩
  have := hst l p hAP hAS s hs
  rw [h] at this
  exact this

private theorem fails_bind {I : Finder → Prop} {α β} {m : FM α} {f : α → FM β} {s : Finder} (hm : I (m s).2)
    (hf : ∀ a s1, I s1 → ∃ e s', f a s1 = (.error e, s') ∧ I s') : ∃ e s', (m >>= f) s = (.error e, s') ∧ I s' := by
  show ∃ e s', FM.bind m f s = (.error e, s') ∧ I s'
  unfold FM.bind
  rcases h : m s with ⟨x, s1⟩
  rw [h] at hm
  cases x with
  | error e => exact ⟨e, s1, rfl, hm⟩
  | ok a => exact hf a s1 hm

private theorem fails_bind_left {I : Finder → Prop} {α β} {m : FM α} {f : α → FM β} {s : Finder}
    (hm : ∃ e s', m s = (.error e, s') ∧ I s') : ∃ e s', (m >>= f) s = (.error e, s') ∧ I s' := by
  obtain ⟨e, s', h, hi⟩ := hm
  refine ⟨e, s', ?_, hi⟩
  show FM.bind m f s = _
  unfold FM.bind
  rw [h]

private theorem lift_keeps {I : Finder → Prop} {α} (x : Except Exc α) (s : Finder) (hs : I s) :
    I (FM.lift x s).2 := by cases x <;> exact hs

/-- A PolicySet that refers to a policy set which cannot be found is not read. -/
private theorem refers_fails {env : RdEnv} {res : Resolver} {I : Finder → Prop} {r : String}
    (hP : ∀ t, Steps (fun s s' => I s → I s') (res.findPolicy t))
    (hS : ∀ t, Steps (fun s s' => I s → I s') (res.findPolicySet t))
    (hfail : ∀ s, I s → ∃ e s', res.findPolicySet (some r) s = (.error e, s'))
    (n : XNode) (hr : Refers r n) (hAP : ∀ c ∈ n.children, AddsP (fun s s' => I s → I s') env c)
    (hAS : ∀ c ∈ n.children, AddsS (fun s s' => I s → I s') c) (s : Finder) (hs : I s) :
    ∃ e s', readPolicySet env res n s = (.error e, s') ∧ I s' := by
  have main : ∀ n, (∀ c ∈ n.children, AddsP (fun s s' => I s → I s') env c) →
      (∀ c ∈ n.children, AddsS (fun s s' => I s → I s') c) →
      (∃ x ∈ n.children, ∃ tag a t cs, x = .elem tag a t cs ∧
        ∀ p s, I s → ∃ e s', setChild env res p tag a t cs s = (.error e, s')) →
      ∀ s, I s → ∃ e s', readPolicySet env res n s = (.error e, s') ∧ I s' := by
    intro n hAP hAS hx s hs
    obtain ⟨x, hx, hf⟩ := hx
    cases n with
    | other => cases hx
    | elem tag a t cs =>
      rw [readPolicySet]
      refine fails_bind (lift_keeps _ s hs) fun _ s hs => fails_bind (lift_keeps _ s hs) fun _ s hs =>
        fails_bind (lift_keeps _ s hs) fun _ s hs => fails_bind (lift_keeps _ s hs) fun _ s hs => fails_bind_left ?_
      exact children_fail hP hS cs hAP hAS x hx hf _ s hs
  induction hr generalizing s with
  | direct n c hn hc hel hnm htx =>
    refine main n hAP hAS ⟨c, hc, ?_⟩ s hs
    cases c with
    | other => cases hel
    | elem tag a t cs =>
      refine ⟨tag, a, t, cs, rfl, fun p s hs => ?_⟩
      cases h : setChild env res p tag a t cs s with
      | mk x s1 =>
        cases x with
        | error e => exact ⟨e, s1, rfl⟩
        | ok p1 =>
          exfalso
          have hnm : localPart tag = "PolicySetIdReference" := hnm
          have htx : t = some r := htx
          rcases setChild_ok.mp h with ⟨hn, _⟩ | ⟨hn, _⟩ | ⟨q, _, ⟨hn, _⟩ | ⟨hn, _⟩ | ⟨hn, _⟩ | ⟨_, hq⟩⟩
          all_goals first | (rw [hnm] at hn; simp at hn) | skip
          rw [htx] at hq
          obtain ⟨e, s', he⟩ := hfail s hs
          rw [he] at hq; cases hq
  | nested n c hn hc hrc ih =>
    have ih := fun s hs => ih (fun d hd m p hm => hAP c hc m p (.child _ _ _ hd hm))
      (fun d hd m h ps hm => hAS c hc m h ps (.child _ _ _ hd hm)) s hs
    refine main n hAP hAS ⟨c, hc, ?_⟩ s hs
    have hcn : c.name = "PolicySet" := by cases hrc <;> assumption
    cases c with
    | other => simp [XNode.name] at hcn
    | elem tag a t cs =>
      refine ⟨tag, a, t, cs, rfl, fun p s hs => ?_⟩
      cases h : setChild env res p tag a t cs s with
      | mk x s1 =>
        cases x with
        | error e => exact ⟨e, s1, rfl⟩
        | ok p1 =>
          exfalso
          have hnm : localPart tag = "PolicySet" := hcn
          rcases setChild_ok.mp h with ⟨hn, _⟩ | ⟨hn, _⟩ | ⟨q, _, ⟨hn, _⟩ | ⟨hn, _⟩ | ⟨_, hq⟩ | ⟨hn, _⟩⟩
          all_goals first | (rw [hnm] at hn; simp at hn) | skip
          obtain ⟨e, s', he, _⟩ := ih s hs
          rw [he] at hq; cases hq

private theorem keeps_addPolicySet {Q : String → Prop} {h : Header} {ps : List PolicyNode}
    (hn : ∀ r, Q r → h.ident ≠ some r) :
    Steps (fun s s' => (∀ r, Q r → registered s .policySet (some r) = none) →
      ∀ r, Q r → registered s' .policySet (some r) = none) (addPolicySetReference (.policySet h ps)) := by
  intro s hs
  rcases he : addPolicySetReference (.policySet h ps) s with ⟨x, s'⟩
  cases x with
  | error e => rw [addPolicySetReference_error he]; exact hs
  | ok u =>
    obtain ⟨_, _, h1, _, rfl⟩ := addPolicySetReference_ok.mp he
    cases h1
    intro r hr
    simp only [registered, dictGet_set]
    rw [if_neg (fun h => hn r hr h.symm)]
    exact hs r hr

private theorem keeps_addPolicy {Q : String → Prop} (p : PolicyNode) :
    Steps (fun s s' => (∀ r, Q r → registered s .policySet (some r) = none) →
      ∀ r, Q r → registered s' .policySet (some r) = none) (addPolicyReference p) := by
  intro s hs
  rcases he : addPolicyReference p s with ⟨x, s'⟩
  cases x with
  | error e => rw [addPolicyReference_error he]; exact hs
  | ok u =>
    obtain ⟨_, _, rfl, _, rfl⟩ := addPolicyReference_ok.mp he
    exact hs

/-- C48: with the in-memory finder, a PolicySet that refers, directly or in a nested PolicySet, to a
policy set that is neither registered nor defined inside the document is not read. -/
theorem C48_unresolved (env : RdEnv) (n : XNode) (r : String) (s : Finder) (hr : Refers r n)
    (hs : registered s .policySet (some r) = none)
    (hdef : ∀ c ∈ n.children, ∀ m, Within m c → m.name = "PolicySet" → m.attr "PolicySetId" ≠ some r) :
    ∃ e s', fromSource env (some localResolver) (.ok n) s = (.error e, s') := by
  have hst := steps_localResolver (R := fun s s' => (∀ r', r' = r → registered s .policySet (some r') = none) →
      ∀ r', r' = r → registered s' .policySet (some r') = none) (fun s h => h)
  obtain ⟨e, s', h, _⟩ := refers_fails (env := env) (res := localResolver)
    (I := fun s => ∀ r', r' = r → registered s .policySet (some r') = none) hst.1 hst.2
    (fun s hi => ⟨.xmlParseError, s, by
      have := hi r rfl; simp only [registered] at this; simp only [localResolver, this]⟩) n hr
    (fun c hc m p hm _ _ => keeps_addPolicy p)
    (fun c hc m h ps hm hn ha => keeps_addPolicySet (by rintro r' rfl he; exact hdef c hc m hm hn (ha.trans he)))
    s (by rintro r' rfl; exact hs)
  refine ⟨e, s', ?_⟩
  have hn : n.name = "PolicySet" := by cases hr <;> assumption
  show readRoot env localResolver n s = _
  unfold readRoot
  rw [if_neg (by rw [hn]; decide), if_pos hn, h]

open Samples in
/-- The hypotheses of `C48_unresolved` are met: `s3` is not defined, `s2` is. -/
example : Refers "s3" (setOf "s1" [setOf "s2" [], setOf "s4" [policySetRef "s3"]]) ∧
    registered {} .policySet (some "s3") = none ∧
    ∀ c ∈ (setOf "s1" [setOf "s2" [], setOf "s4" [policySetRef "s3"]]).children, ∀ m, Within m c →
      m.name = "PolicySet" → m.attr "PolicySetId" ≠ some "s3" := by
  refine ⟨.nested _ (setOf "s4" [policySetRef "s3"]) (by decide +kernel) (by simp [XNode.children, setOf])
    (.direct _ (policySetRef "s3") (by decide +kernel) (by simp [XNode.children, setOf]) rfl (by decide +kernel) rfl), rfl, ?_⟩
  intro c hc m hm
  simp only [setOf, XNode.children, List.mem_cons, List.not_mem_nil, or_false] at hc
  rcases hc with rfl | rfl
  · cases hm with
    | refl => intro _; decide +kernel
    | child c' _ hc' _ => cases hc'
  · cases hm with
    | refl => intro _; decide +kernel
    | child c' _ hc' hm' =>
      simp only [XNode.children, List.mem_cons, List.not_mem_nil, or_false] at hc'
      subst hc'
      cases hm' with
      | refl => intro h; exact absurd h (by decide +kernel)
      | child c'' _ hc'' _ => cases hc''

/-! ### Completeness -/

/-- The finder returns what is registered without doing anything else. -/
private structure Prefers (res : Resolver) : Prop where
  policy : ∀ t s q, registered s .policy t = some q → res.findPolicy t s = (.ok q, s)
  policySet : ∀ t s q, registered s .policySet t = some q → res.findPolicySet t s = (.ok q, s)

private theorem extends_trans {s1 s2 s3 : Finder} (h1 : Extends s1 s2) (h2 : Extends s2 s3) : Extends s1 s3 :=
  fun k i q h => h2 k i q (h1 k i q h)

private theorem addPolicy_fresh {h : Header} {rs} {s : Finder} (hn : registered s .policy h.ident = none) :
    ∃ s', addPolicyReference (.policy h rs) s = (.ok (), s') ∧ Extends s s' ∧
      ∀ k id, (k, id) ≠ (Kind.policy, h.ident) → registered s' k id = registered s k id := by
  have hok := addPolicyReference_ok.mpr ⟨h, rs, rfl, hn, rfl⟩
  refine ⟨_, hok, ?_, ?_⟩
  · have := (good_addPolicy (.policy h rs) s).1
    rw [hok] at this; exact this
  · rintro (_ | _) id hne
    · simp only [registered, dictGet_set]
      rw [if_neg (fun h => hne (by rw [h]))]
    · rfl

private theorem addPolicySet_fresh {h : Header} {rs} {s : Finder} (hn : registered s .policySet h.ident = none) :
    ∃ s', addPolicySetReference (.policySet h rs) s = (.ok (), s') ∧ Extends s s' ∧
      ∀ k id, (k, id) ≠ (Kind.policySet, h.ident) → registered s' k id = registered s k id := by
  have hok := addPolicySetReference_ok.mpr ⟨h, rs, rfl, hn, rfl⟩
  refine ⟨_, hok, ?_, ?_⟩
  · have := (good_addPolicySet (.policySet h rs) s).1
    rw [hok] at this; exact this
  · rintro (_ | _) id hne
    · rfl
    · simp only [registered, dictGet_set]
      rw [if_neg (fun h => hne (by rw [h]))]

private theorem readPolicyReg_complete {env : RdEnv} {n : XNode} {p : PolicyNode} {s : Finder} (hp : IsPolicy env n p)
    (hf : registered s .policy (n.attr "PolicyId") = none) :
    ∃ s', readPolicyReg env n s = (.ok p, s') ∧ Extends s s' ∧
      ∀ k id, (k, id) ≠ (Kind.policy, n.attr "PolicyId") → registered s' k id = registered s k id := by
  obtain ⟨_, _, h, rs, rfl, _, hid, _⟩ := id hp
  rw [hid] at hf ⊢
  obtain ⟨s', h1, h2, h3⟩ := addPolicy_fresh (rs := rs) hf
  exact ⟨s', readPolicyReg_ok.mpr ⟨readPolicy_ok.mpr hp, h1⟩, h2, h3⟩

mutual
private theorem readPolicySet_complete {env : RdEnv} {res : Resolver} (hres : Prefers res) : (n : XNode) →
    ∀ s p, IsPolicySet env (fun k t q => registered s k t = some q) n p →
      (∀ d ∈ defined n, registered s d.1 d.2 = none) → (defined n).Nodup →
      ∃ s', readPolicySet env res n s = (.ok p, s') ∧ Extends s s' ∧
        ∀ k id, (k, id) ∉ defined n → registered s' k id = registered s k id
  | .other, s, p, h, _, _ => by rw [Spec.IsPolicySet] at h; exact h.elim
  | .elem tag a t cs, s, p, h, hf, hnd => by
    rw [Spec.IsPolicySet] at h
    obtain ⟨hn, hoc, hd, ps, rfl, hid, hattr, ⟨al, hal, hal1, hal2, hal3⟩, hv, hdesc, hx, ⟨ts, ht1, ht2⟩, hob, hm⟩ := h
    have hn' : localPart tag = "PolicySet" := hn
    have hdef : defined (.elem tag a t cs) =
        definedL cs ++ [(.policySet, (XNode.elem tag a t cs).attr "PolicySetId")] := by
      rw [defined, if_neg (by rw [hn']; decide), if_pos hn']
    rw [hdef] at hf hnd ⊢
    rw [hattr] at hf hnd ⊢
    obtain ⟨hnd1, _, hnd3⟩ := List.nodup_append.mp hnd
    obtain ⟨pid, hpid⟩ := Option.isSome_iff_exists.mp hid
    obtain ⟨s1, h1, h2, h3⟩ := readSetChildren_complete hres cs s
      ({ ident := some pid, algId := some al, alg := policyAlg al, target := none,
         version := readVersion (.elem tag a t cs) }, []) ps ts hoc ht1 hm
      (fun d hd => hf d (List.mem_append_left _ hd)) hnd1
    have hfresh : registered s1 .policySet hd.ident = none := by
      rw [h3 _ _ (fun hmem => hnd3 _ hmem _ List.mem_cons_self rfl)]
      exact hf (.policySet, hd.ident) (List.mem_append_right _ List.mem_cons_self)
    obtain ⟨s2, h4, h5, h6⟩ := addPolicySet_fresh (rs := ps) hfresh
    refine ⟨s2, ?_, extends_trans h2 h5, ?_⟩
    · rw [readPolicySet]
      simp only [FM.bind_ok, FM.lift_ok, FM.pure_ok, expectName_ok, requiredAttr_ok, loadAlg_policy_ok]
      refine ⟨(), s, ⟨hn, rfl⟩, pid, s, ⟨hattr.trans hpid, rfl⟩, al, s, ⟨hal, rfl⟩, _, s, ⟨⟨by rw [← hal3]; exact hal2, rfl⟩, rfl⟩,
        (hd, ps), s1, ?_, (), s2, h4, rfl, rfl⟩
      rw [h1, List.nil_append]
      congr 3
      rw [lastOr_map_none, lastOr_none]
      cases hd
      simp only at hpid hal1 hal3 hv hdesc hx ht2 hob
      subst hpid hal1 hal3 hv hdesc hx ht2 hob
      rw [← readVersion_eq]; rfl
    · intro k id hne
      rw [List.mem_append, not_or] at hne
      rw [h6 k id (fun h => hne.2 (by rw [h]; exact List.mem_cons_self)), h3 k id hne.1]
private theorem readSetChildren_complete {env : RdEnv} {res : Resolver} (hres : Prefers res) : (l : List XNode) →
    ∀ s p qs ts, (∀ c ∈ elementChildren l, c.name ∈ ["Description", "Target"] ++ memberTags) →
      Each (IsTarget env) ((elementChildren l).filter fun c => decide (c.name = "Target")) ts →
      AreMembers env (fun k t q => registered s k t = some q) l qs →
      (∀ d ∈ definedL l, registered s d.1 d.2 = none) → (definedL l).Nodup →
      ∃ s', readSetChildren env res p l s =
          (.ok ({ p.1 with
            description := lastOr ((descriptionsIn (elementChildren l)).map pyStrip) p.1.description
            target := lastOr ts p.1.target }, p.2 ++ qs), s') ∧ Extends s s' ∧
        ∀ k id, (k, id) ∉ definedL l → registered s' k id = registered s k id
  | [], s, p, qs, ts, _, h2, h3, _, _ => by
    rw [Spec.AreMembers] at h3
    have h2 : ts = [] := each_nil.mp h2
    subst h3 h2
    refine ⟨s, ?_, fun _ _ _ h => h, fun _ _ _ => rfl⟩
    rw [readSetChildren, List.append_nil]; rfl
  | .other :: l, s, p, qs, ts, h1, h2, h3, h4, h5 => by
    rw [Spec.AreMembers] at h3
    rw [readSetChildren]
    rw [definedL, defined, List.nil_append] at h4 h5 ⊢
    exact readSetChildren_complete hres l s p qs ts h1 h2 h3 h4 h5
  | .elem tag a t cs :: l, s, p, qs, ts, h1, h2, h3, h4, h5 => by
    have hel : elementChildren (.elem tag a t cs :: l) = .elem tag a t cs :: elementChildren l := rfl
    rw [hel, List.forall_mem_cons] at h1
    rw [hel, List.filter_cons] at h2
    rw [hel, descriptionsIn_cons]
    rw [Spec.AreMembers] at h3
    rw [readSetChildren_elem]
    rw [definedL] at h4 h5 ⊢
    obtain ⟨hnd1, hnd2, hnd3⟩ := List.nodup_append.mp h5
    have hnm : (XNode.elem tag a t cs).name = localPart tag := rfl
    have htx : (XNode.elem tag a t cs).text = t := rfl
    rw [hnm] at h1 h2 h3
    rw [hnm, htx]
    -- after the first child
    have finish : ∀ p1 s1 qs' ts', setChild env res p tag a t cs s = (.ok p1, s1) → Extends s s1 →
        (∀ k id, (k, id) ∉ defined (.elem tag a t cs) → registered s1 k id = registered s k id) →
        Each (IsTarget env) ((elementChildren l).filter fun c => decide (c.name = "Target")) ts' →
        AreMembers env (fun k t q => registered s k t = some q) l qs' →
        ∃ s', (setChild env res p tag a t cs >>= fun p' => readSetChildren env res p' l) s =
            (.ok ({ p1.1 with
              description := lastOr ((descriptionsIn (elementChildren l)).map pyStrip) p1.1.description
              target := lastOr ts' p1.1.target }, p1.2 ++ qs'), s') ∧ Extends s s' ∧
          ∀ k id, (k, id) ∉ defined (.elem tag a t cs) ++ definedL l → registered s' k id = registered s k id := by
      intro p1 s1 qs' ts' hc he hu ht hm
      obtain ⟨s', g1, g2, g3⟩ := readSetChildren_complete hres l s1 p1 qs' ts' h1.2 ht
        (areMembers_mono (fun k t q h => he k t q h) l qs' hm)
        (fun d hd => by
          rw [hu d.1 d.2 (fun hmem => hnd3 _ hmem _ hd rfl)]
          exact h4 d (List.mem_append_right _ hd)) hnd2
      refine ⟨s', FM.bind_ok.mpr ⟨p1, s1, hc, g1⟩, extends_trans he g2, ?_⟩
      intro k id hne
      rw [List.mem_append, not_or] at hne
      rw [g3 k id hne.2, hu k id hne.1]
    by_cases hm : localPart tag ∈ memberTags
    · rw [if_pos hm] at h3
      have hnd : localPart tag ≠ "Description" ∧ localPart tag ≠ "Target" := by
        simp only [memberTags, List.mem_cons, List.not_mem_nil, or_false] at hm
        rcases hm with hq | hq | hq | hq <;> rw [hq] <;> decide
      rw [if_neg (by simpa using hnd.2)] at h2
      obtain ⟨q, qs', rfl, hm2, hq⟩ := h3
      have child : ∃ s1, Extends s s1 ∧
          (∀ k id, (k, id) ∉ defined (.elem tag a t cs) → registered s1 k id = registered s k id) ∧
          setChild env res p tag a t cs s = (.ok (p.1, p.2 ++ [q]), s1) := by
        rcases hq with ⟨hq, hr⟩ | ⟨hq, hr⟩ | ⟨hq, hr⟩ | ⟨hq, hr⟩
        · have hd : defined (.elem tag a t cs) = [(.policy, (XNode.elem tag a t cs).attr "PolicyId")] := by
            rw [defined, if_pos hq]
          rw [hd] at h4 ⊢
          obtain ⟨s1, c1, c2, c3⟩ := readPolicyReg_complete hr (h4 (_, _) (by simp only [List.cons_append]; exact List.mem_cons_self))
          exact ⟨s1, c2, fun k id hne => c3 k id (by simpa using hne),
            setChild_ok.mpr (.inr (.inr ⟨q, rfl, .inl ⟨hq, c1⟩⟩))⟩
        · obtain ⟨s1, c1, c2, c3⟩ := readPolicySet_complete hres (.elem tag a t cs) s q hr
            (fun d hd => h4 d (List.mem_append_left _ hd)) hnd1
          exact ⟨s1, c2, c3, setChild_ok.mpr (.inr (.inr ⟨q, rfl, .inr (.inr (.inl ⟨hq, c1⟩))⟩))⟩
        · exact ⟨s, fun _ _ _ h => h, fun _ _ _ => rfl, setChild_ok.mpr (.inr (.inr ⟨q, rfl, .inr (.inl ⟨hq, hres.policy _ _ _ hr⟩)⟩))⟩
        · exact ⟨s, fun _ _ _ h => h, fun _ _ _ => rfl,
            setChild_ok.mpr (.inr (.inr ⟨q, rfl, .inr (.inr (.inr ⟨hq, hres.policySet _ _ _ hr⟩))⟩))⟩
      obtain ⟨s1, c1, c2, c3⟩ := child
      obtain ⟨s', g1, g2⟩ := finish _ s1 qs' ts c3 c1 c2 h2 hm2
      refine ⟨s', ?_, g2⟩
      rw [g1, if_neg hnd.1, List.append_assoc]; rfl
    · rw [if_neg hm] at h3
      have hdt : localPart tag = "Description" ∨ localPart tag = "Target" := by
        have := h1.1
        simp only [List.cons_append, List.nil_append, List.mem_cons] at this
        rcases this with h | h | h
        · exact .inl h
        · exact .inr h
        · exact absurd (by simpa using h) hm
      rcases hdt with hd | hd
      · have h2' : Each (IsTarget env) ((elementChildren l).filter fun c => decide (c.name = "Target")) ts := by
          rw [hd] at h2; simpa using h2
        obtain ⟨s', g1, g2⟩ := finish _ s qs ts (setChild_ok.mpr (.inl ⟨hd, rfl, rfl⟩)) (fun _ _ _ h => h)
          (fun _ _ _ => rfl) h2' h3
        refine ⟨s', ?_, g2⟩
        rw [g1, if_pos hd]
        cases t
        · rfl
        · simp only [List.map_cons, lastOr_cons]
      · rw [if_pos (by simpa using hd), each_cons] at h2
        obtain ⟨x, ts', rfl, hx, h2⟩ := h2
        obtain ⟨s', g1, g2⟩ := finish _ s qs ts' (setChild_ok.mpr (.inr (.inl ⟨hd, rfl, x, hx, rfl⟩))) (fun _ _ _ h => h)
          (fun _ _ _ => rfl) h2 h3
        refine ⟨s', ?_, g2⟩
        rw [g1, if_neg (by rw [hd]; decide), lastOr_cons]
end

private theorem complete_readRoot {env : RdEnv} {res : Resolver} (hres : Prefers res) (n : XNode) (s : Finder)
    (p : PolicyNode) (h : IsDocument env (fun k t q => registered s k t = some q) n p)
    (hf : ∀ d ∈ defined n, registered s d.1 d.2 = none) (hnd : (defined n).Nodup) :
    ∃ s', readRoot env res n s = (.ok p, s') := by
  unfold readRoot
  rcases h with ⟨hn, h⟩ | ⟨hn, h⟩
  · rw [if_pos hn]
    obtain ⟨s', h1, _⟩ := readPolicyReg_complete (s := s) h (by
      cases n with
      | other => simp [XNode.name] at hn
      | elem tag a t cs =>
        have hn' : localPart tag = "Policy" := hn
        rw [defined, if_pos hn'] at hf
        exact hf _ List.mem_cons_self)
    exact ⟨s', h1⟩
  · rw [if_neg (by rw [hn]; decide), if_pos hn]
    obtain ⟨s', h1, _⟩ := readPolicySet_complete hres n s p h hf hnd
    exact ⟨s', h1⟩

/-- **C48, what is accepted.** A document that is a policy (set) when its references stand for what is
registered, whose definitions have distinct identifiers that are not registered yet, is read as this
policy (set) by both finders. -/
theorem C48_complete (env : RdEnv) (n : XNode) (s : Finder) (p : PolicyNode)
    (h : IsDocument env (fun k t q => registered s k t = some q) n p)
    (hf : ∀ d ∈ defined n, registered s d.1 d.2 = none) (hnd : (defined n).Nodup) :
    (∃ s', fromSource env (some localResolver) (.ok n) s = (.ok p, s')) ∧
    ∀ base fetch limit, 0 < limit →
      ∃ s', fromSource env (some (urlResolver env base fetch limit)) (.ok n) s = (.ok p, s') := by
  refine ⟨complete_readRoot (res := localResolver) ⟨?_, ?_⟩ n s p h hf hnd, fun base fetch limit hl => ?_⟩
  · intro t s q h; simp only [registered] at h; simp only [localResolver, h]
  · intro t s q h; simp only [registered] at h; simp only [localResolver, h]
  · obtain ⟨d, rfl⟩ : ∃ d, limit = d + 1 := ⟨limit - 1, by omega⟩
    refine complete_readRoot (res := urlResolver env base fetch (d + 1)) ⟨?_, ?_⟩ n s p h hf hnd
    · intro t s q h; simp only [registered] at h; simp only [urlResolver, h]
    · intro t s q h; simp only [registered] at h; simp only [urlResolver, h]

open Samples in
set_option maxRecDepth 20000 in
/-- The hypotheses of `C48_complete` are met by a policy set with a policy of its own and a reference to a
registered one. -/
example : ∃ s p, IsDocument stdRd (fun k t q => registered s k t = some q)
      (setOf "s1" [onePolicy "p2", policyRef "p1"]) p ∧
    (∀ d ∈ defined (setOf "s1" [onePolicy "p2", policyRef "p1"]), registered s d.1 d.2 = none) ∧
    (defined (setOf "s1" [onePolicy "p2", policyRef "p1"])).Nodup := by
  have hp : ∀ id, id = "p1" ∨ id = "p2" → ∃ q, readPolicy stdRd (onePolicy id) = .ok q := by
    intro id hid
    have h : (readPolicy stdRd (onePolicy id)).toOption.isSome = true := by
      rcases hid with rfl | rfl <;> decide +kernel
    cases hq : readPolicy stdRd (onePolicy id) with
    | ok q => exact ⟨q, rfl⟩
    | error e => rw [hq] at h; cases h
  obtain ⟨q1, _⟩ := hp "p1" (.inl rfl)
  obtain ⟨q2, h2⟩ := hp "p2" (.inr rfl)
  have hd : defined (setOf "s1" [onePolicy "p2", policyRef "p1"]) =
      [(.policy, some "p2"), (.policySet, some "s1")] := by decide +kernel
  refine ⟨{ policies := [(some "p1", q1)] },
    .policySet { ident := some "s1", algId := some denySetAlg, alg := some .denyOverrides, target := none,
                 version := Spec.version (setOf "s1" [onePolicy "p2", policyRef "p1"]) } [q2, q1], ?_, ?_, ?_⟩
  · refine .inr ⟨by decide +kernel, ?_⟩
    rw [setOf, Spec.IsPolicySet]
    refine ⟨by decide +kernel, ?_, _, _, rfl, rfl, by decide +kernel, ⟨denySetAlg, by decide +kernel, rfl, rfl, by decide +kernel⟩,
      rfl, by decide +kernel, rfl, ⟨[], ?_, rfl⟩, rfl, ?_⟩
    · unfold OnlyChildren
      have hc : elementChildren [onePolicy "p2", policyRef "p1"] = [onePolicy "p2", policyRef "p1"] := rfl
      intro c hc'
      have hc' : c ∈ [onePolicy "p2", policyRef "p1"] := hc'
      simp only [List.mem_cons, List.not_mem_nil, or_false] at hc'
      rcases hc' with rfl | rfl <;> decide +kernel
    · have : childrenNamed (setOf "s1" [onePolicy "p2", policyRef "p1"]) "Target" = [] := by
        have h1 : (onePolicy "p2").name ≠ "Target" := by decide +kernel
        have h2 : (policyRef "p1").name ≠ "Target" := by decide +kernel
        show ([onePolicy "p2", policyRef "p1"].filter _) = []
        simp [h1, h2]
      exact this ▸ each_nil.mpr rfl
    · rw [onePolicy, Spec.AreMembers, if_pos (by decide +kernel)]
      refine ⟨q2, [q1], rfl, ?_, .inl ⟨by decide +kernel, readPolicy_ok.mp h2⟩⟩
      rw [policyRef, Spec.AreMembers, if_pos (by decide +kernel)]
      exact ⟨q1, [], rfl, by rw [Spec.AreMembers], .inr (.inr (.inl ⟨by decide +kernel, rfl⟩))⟩
  · rw [hd]; intro d hd
    simp only [List.mem_cons, List.not_mem_nil, or_false] at hd
    rcases hd with rfl | rfl <;> rfl
  · rw [hd]; decide

/-! ## C49 -/

private theorem registerIn_registered (s : Finder) (a : Kind × PolicyNode) (k : Kind) (id : Option String) :
    registered (registerIn s a).2 k id =
      (registered s k id).or (if a.1 = k ∧ Kind.of a.2 = k ∧ a.2.ident = id then some a.2 else none) := by
  obtain ⟨m, p⟩ := a
  unfold registerIn
  cases m <;> cases p <;> cases k <;> simp [addPolicyReference, addPolicySetReference, Kind.of, PolicyNode.ident]
  all_goals
    rename_i h _
    by_cases hid : h.ident = id
    · subst hid
      simp only [if_true, registered]
      split
      · rename_i hs; obtain ⟨x, hx⟩ := Option.isSome_iff_exists.mp hs; simp [hx]
      · rename_i hs
        have hs := Option.not_isSome_iff_eq_none.mp hs
        simp [dictGet_set, hs]
    · simp only [hid, if_false, registered]
      split
      · simp
      · have : ¬ id = h.ident := fun h => hid h.symm
        simp [dictGet_set, this]

/-- **C49.** After any history of registrations, an identifier stands for the policy it stood for before,
or else for the first one registered under it. -/
theorem C49_first_wins (s : Finder) (l : List (Kind × PolicyNode)) (k : Kind) (id : Option String) :
    registered (l.foldl (fun s a => (registerIn s a).2) s) k id = (registered s k id).or (firstOf k id l) := by
  induction l generalizing s with
  | nil => simp [firstOf]
  | cons a l ih =>
    rw [List.foldl_cons, ih, registerIn_registered]
    unfold firstOf
    rw [List.find?_cons]
    by_cases h : a.1 = k ∧ Kind.of a.2 = k ∧ a.2.ident = id
    · simp only [h]; cases registered s k id <;> simp
    · simp only [h, decide_false]; cases registered s k id <;> simp

/-- C49: a registration succeeds exactly for a policy (set) of the right kind under a new identifier; one
that fails changes nothing. -/
theorem C49_atomic (s : Finder) (a : Kind × PolicyNode) :
    ((registerIn s a).1 = .ok () ↔ Kind.of a.2 = a.1 ∧ registered s a.1 a.2.ident = none) ∧
    ((registerIn s a).1 ≠ .ok () → (registerIn s a).2 = s) := by
  obtain ⟨m, p⟩ := a
  unfold registerIn
  cases m <;> cases p <;>
    simp [addPolicyReference, addPolicySetReference, Kind.of, PolicyNode.ident, registered] <;>
    split <;> simp_all [Option.isSome_iff_ne_none]

/-- C49: reading documents, successfully or not, never replaces what is registered, with both finders. -/
theorem C49_reading (env : RdEnv) (src : Except Exc XNode) (s : Finder) :
    Extends s (fromSource env (some localResolver) src s).2 ∧
    ∀ base fetch limit, Extends s (fromSource env (some (urlResolver env base fetch limit)) src s).2 := by
  have key : ∀ res, ResolverOk res → Extends s (fromSource env (some res) src s).2 := by
    intro res hres
    have : Steps Good (fromSource env (some res) src) :=
      steps_bind good_trans (steps_lift good_refl _) fun n _ => good_readRoot hres n
    exact (this s).1
  exact ⟨key _ localResolver_ok, fun base fetch limit => key _ (urlResolver_ok env base fetch limit)⟩

private theorem steps_at {α} {R : Finder → Finder → Prop} {m : FM α} (hm : Steps R m) {s s' : Finder} {x}
    (h : m s = (x, s')) : R s s' := by
  have := hm s; rw [h] at this; exact this

private theorem load_once {env : RdEnv} {res : Resolver} (hres : ResolverOk res) (n : XNode) (s : Finder)
    (p : PolicyNode) (s' : Finder) (hc : Coherent s) (h : readRoot env res n s = (.ok p, s')) (s'' : Finder)
    (hs : Extends s' s'') (hc' : Coherent s'') : ∀ q t, readRoot env res n s'' ≠ (.ok q, t) := by
  intro q t h2
  obtain ⟨_, hd, hr⟩ := sound_readRoot hres n s p s' hc h
  have hident : q.ident = p.ident ∧ Kind.of q = Kind.of p := by
    obtain ⟨_, hd2, _⟩ := sound_readRoot hres n s'' q t hc' h2
    rcases hd with ⟨hn, _, _, h1, r1, rfl, _, hi1, _⟩ | ⟨hn, hd⟩ <;>
      rcases hd2 with ⟨hn2, _, _, h2, r2, rfl, _, hi2, _⟩ | ⟨hn2, hd2⟩
    · exact ⟨hi2.symm.trans hi1, rfl⟩
    · rw [hn] at hn2; simp at hn2
    · rw [hn] at hn2; simp at hn2
    · cases n with
      | other => simp [XNode.name] at hn
      | elem tag a t cs =>
        rw [Spec.IsPolicySet] at hd hd2
        obtain ⟨_, _, h1, r1, rfl, _, hi1, _⟩ := hd
        obtain ⟨_, _, h2, r2, rfl, _, hi2, _⟩ := hd2
        exact ⟨hi2.symm.trans hi1, rfl⟩
  have hreg := hs _ _ _ hr
  rw [← hident.1, ← hident.2] at hreg
  -- registering `q` succeeded although its identifier was taken
  unfold readRoot at h2
  by_cases h1 : n.name = "Policy"
  · rw [if_pos h1] at h2
    obtain ⟨_, h3⟩ := readPolicyReg_ok.mp h2
    obtain ⟨hd, rs, rfl, h4, rfl⟩ := addPolicyReference_ok.mp h3
    simp only [Kind.of, registered, PolicyNode.ident] at hreg
    rw [h4] at hreg; cases hreg
  · rw [if_neg h1] at h2
    by_cases h3 : n.name = "PolicySet"
    · rw [if_pos h3] at h2
      cases n with
      | other => rw [readPolicySet] at h2; exact (FM.throw_ok.mp h2).elim
      | elem tag a t cs =>
        rw [readPolicySet] at h2
        simp only [FM.bind_ok, FM.lift_ok, FM.pure_ok] at h2
        obtain ⟨_, _, ⟨_, rfl⟩, _, _, ⟨_, rfl⟩, _, _, ⟨_, rfl⟩, _, _, ⟨_, rfl⟩, q', s1, h4, _, _, h5, rfl, rfl⟩ := h2
        have hg : Good s'' s1 := steps_at (good_readSetChildren hres cs _) h4
        have hreg := hg.1 _ _ _ hreg
        obtain ⟨hd, rs, h6, h7, rfl⟩ := addPolicySetReference_ok.mp h5
        cases h6
        simp only [Kind.of, registered, PolicyNode.ident] at hreg
        rw [h7] at hreg; cases hreg
    · rw [if_neg h3] at h2; exact (FM.throw_ok.mp h2).elim

/-- C49: so with the same finder a document can be loaded only once, whatever is loaded in between. -/
theorem C49_load_once (env : RdEnv) (n : XNode) (s : Finder) (p : PolicyNode) (s' : Finder) (hc : Coherent s)
    (s'' : Finder) (hs : Extends s' s'') (hc' : Coherent s'') :
    (fromSource env (some localResolver) (.ok n) s = (.ok p, s') →
      ∀ q t, fromSource env (some localResolver) (.ok n) s'' ≠ (.ok q, t)) ∧
    ∀ base fetch limit, fromSource env (some (urlResolver env base fetch limit)) (.ok n) s = (.ok p, s') →
      ∀ q t, fromSource env (some (urlResolver env base fetch limit)) (.ok n) s'' ≠ (.ok q, t) :=
  ⟨fun h => load_once localResolver_ok n s p s' hc h s'' hs hc',
   fun base fetch limit h => load_once (urlResolver_ok env base fetch limit) n s p s' hc h s'' hs hc'⟩

/-- Concrete case: of three registrations the second has a new identifier, the third has not. -/
example (a b c : Header) (ha : a.ident = some "a") (_hb : b.ident = some "b") (_hc : c.ident = some "a") :
    registered ([(Kind.policy, PolicyNode.policy a []), (.policy, .policy b []), (.policy, .policy c [])].foldl
      (fun s a => (registerIn s a).2) {}) .policy (some "a") = some (.policy a []) := by
  rw [C49_first_wins]
  simp [firstOf, registered, dictGet, Kind.of, PolicyNode.ident, ha]

open Samples in
set_option maxRecDepth 20000 in
/-- The hypotheses of `C49_load_once` are met: a document is loaded, then another one. -/
example : ∃ p s' q s'', fromSource stdRd (some localResolver) (.ok selfContained) {} = (.ok p, s') ∧
    fromSource stdRd (some localResolver) (.ok (onePolicy "p2")) s' = (.ok q, s'') ∧
    Extends s' s'' ∧ Coherent s'' := by
  have h : (match fromSource stdRd (some localResolver) (.ok selfContained) {} with
      | (.ok _, s') => match fromSource stdRd (some localResolver) (.ok (onePolicy "p2")) s' with
        | (.ok _, _) => true
        | _ => false
      | _ => false) = true := by decide +kernel
  rcases h1 : fromSource stdRd (some localResolver) (.ok selfContained) {} with ⟨x | p, s'⟩
  · rw [h1] at h; cases h
  · rcases h2 : fromSource stdRd (some localResolver) (.ok (onePolicy "p2")) s' with ⟨x | q, s''⟩
    · simp only [h1, h2] at h; cases h
    · refine ⟨p, s', q, s'', rfl, h2, ?_, ?_⟩
      · have := (C49_reading stdRd (.ok (onePolicy "p2")) s').1
        rw [h2] at this; exact this
      · exact (C48_local _ _ _ _ _ (C48_local _ _ _ _ _ C48_new_finder h1).1 h2).1

/-! ## C50 -/

/-- **C50.** Suppose every document at a URL in `U` refers to a policy set in `R`, references in `R` lead
to URLs in `U`, and no policy set in `R` is defined elsewhere than by the root of a document in `U`. Then
reading a document that refers to a policy set in `R` fails, whatever the recursion limit, as long as no
policy set in `R` was registered before. -/
theorem C50_cycle (env : RdEnv) (base : Option String) (fetch : Fetch) (limit : Nat) (U R : String → Prop)
    (hrefs : ∀ past u n, U u → fetch past u = .ok n → ∃ r, R r ∧ Refers r n)
    (hurl : ∀ r u, R r → makeUrlOpt base (some r) = .ok u → U u)
    (hinner : ∀ past u n, fetch past u = .ok n →
      ∀ c ∈ n.children, ∀ m r, Within m c → m.name = "PolicySet" → R r → m.attr "PolicySetId" ≠ some r)
    (houter : ∀ past u n, ¬ U u → fetch past u = .ok n →
      ∀ r, n.name = "PolicySet" → R r → n.attr "PolicySetId" ≠ some r)
    (root : XNode) (r : String) (hr : R r) (hroot : Refers r root)
    (hrootdef : ∀ c ∈ root.children, ∀ m r, Within m c → m.name = "PolicySet" → R r → m.attr "PolicySetId" ≠ some r)
    (s : Finder) (hs : ∀ r, R r → registered s .policySet (some r) = none) :
    ∃ e s', fromSource env (some (urlResolver env base fetch limit)) (.ok root) s = (.error e, s') := by
  let I : Finder → Prop := fun s => ∀ r, R r → registered s .policySet (some r) = none
  have hrefl : ∀ s : Finder, I s → I s := fun s h => h
  have htrans : ∀ s1 s2 s3 : Finder, (I s1 → I s2) → (I s2 → I s3) → I s1 → I s3 := fun _ _ _ h1 h2 h => h2 (h1 h)
  have hAP : ∀ c, AddsP (fun s s' => I s → I s') env c := fun c m p _ _ _ => keeps_addPolicy p
  -- documents that refer to `R` are not read
  have hdoc : ∀ (res : Resolver), (∀ t, Steps (fun s s' => I s → I s') (res.findPolicy t)) →
      (∀ t, Steps (fun s s' => I s → I s') (res.findPolicySet t)) →
      (∀ r, R r → ∀ s, I s → ∃ e s', res.findPolicySet (some r) s = (.error e, s')) →
      ∀ (n : XNode) (r : String), R r → Refers r n →
      (∀ c ∈ n.children, ∀ m r, Within m c → m.name = "PolicySet" → R r → m.attr "PolicySetId" ≠ some r) →
      ∀ s, I s → ∃ e s', readRoot env res n s = (.error e, s') ∧ I s' := by
    intro res hP hS hf n r hr hn hdef s hs
    obtain ⟨e, s', h, hi⟩ := refers_fails (env := env) hP hS (hf r hr) n hn (fun c _ => hAP c)
      (fun c hc m h ps hm hnm ha => keeps_addPolicySet (fun r' hr' he => hdef c hc m r' hm hnm hr' (ha.trans he))) s hs
    refine ⟨e, s', ?_, hi⟩
    have hn : n.name = "PolicySet" := by cases hn <;> assumption
    unfold readRoot
    rw [if_neg (by rw [hn]; decide), if_pos hn, h]
  have hres : ∀ d, (∀ t, Steps (fun s s' => I s → I s') ((urlResolver env base fetch d).findPolicy t)) ∧
      (∀ t, Steps (fun s s' => I s → I s') ((urlResolver env base fetch d).findPolicySet t)) ∧
      (∀ r, R r → ∀ s, I s → ∃ e s', (urlResolver env base fetch d).findPolicySet (some r) s = (.error e, s')) := by
    intro d
    induction d with
    | zero => exact ⟨fun t s h => h, fun t s h => h, fun r _ s _ => ⟨_, s, rfl⟩⟩
    | succ d ih =>
      obtain ⟨ihP, ihS, ihF⟩ := ih
      have hU : ∀ past u n, U u → fetch past u = .ok n → ∀ s, I s →
          ∃ e s', readRoot env (urlResolver env base fetch d) n s = (.error e, s') ∧ I s' := by
        intro past u n hu hn s hs
        obtain ⟨r, hr, href⟩ := hrefs past u n hu hn
        exact hdoc _ ihP ihS ihF n r hr href (hinner past u n hn) s hs
      have key : ∀ t, Steps (fun s s' => I s → I s') (fromReference base fetch (readRoot env (urlResolver env base fetch d)) t) := by
        intro t
        unfold fromReference
        refine steps_bind htrans (steps_lift hrefl _) fun u _ => steps_bind htrans (fun s h => h) fun n hn => ?_
        obtain ⟨s, s', hn⟩ := hn
        simp only [fetchDoc, Prod.mk.injEq] at hn
        by_cases hu : U u
        · intro s1 hs1
          obtain ⟨e, s2, h, hi⟩ := hU _ u n hu hn.1 s1 hs1
          rw [h]; exact hi
        · refine steps_readRoot hrefl htrans ihP ihS n (hAP n) ?_
          intro m h ps hm hnm ha
          refine keeps_addPolicySet fun r' hr' he => ?_
          cases hm with
          | refl => exact houter _ u n hu hn.1 r' hnm hr' (ha.trans he)
          | child c _ hc hmc => exact hinner _ u n hn.1 c hc m r' hmc hnm hr' (ha.trans he)
      have keyF : ∀ r, R r → ∀ s, I s → ∃ e s',
          fromReference base fetch (readRoot env (urlResolver env base fetch d)) (some r) s = (.error e, s') := by
        intro r hr s hs
        unfold fromReference
        cases hm : makeUrlOpt base (some r) with
        | error e => exact ⟨e, s, rfl⟩
        | ok u =>
          show ∃ e s', FM.bind (fetchDoc fetch u) _ s = (.error e, s')
          unfold FM.bind fetchDoc
          cases hf : fetch s.fetched u with
          | error e => exact ⟨e, _, rfl⟩
          | ok n =>
            obtain ⟨e, s2, h, _⟩ := hU _ u n (hurl r u hr hm) hf { s with fetched := u :: s.fetched } hs
            exact ⟨e, s2, h⟩
      refine ⟨?_, ?_, ?_⟩
      · intro t s hs
        simp only [urlResolver]
        split
        · exact hs
        · have := key t s hs
          split
          · rename_i h; rw [h] at this; exact this
          · rename_i h; rw [h] at this; split <;> exact this
      · intro t s hs
        simp only [urlResolver]
        split
        · exact hs
        · have := key t s hs
          split
          · rename_i h; rw [h] at this; exact this
          · rename_i h; rw [h] at this; split <;> exact this
      · intro r hr s hs
        have hn := hs r hr
        simp only [registered] at hn
        obtain ⟨e, s', h⟩ := keyF r hr s hs
        refine ⟨e, s', ?_⟩
        simp only [urlResolver, hn, h]
  obtain ⟨h1, h2, h3⟩ := hres limit
  obtain ⟨e, s', h, _⟩ := hdoc _ h1 h2 h3 root r hr hroot hrootdef s hs
  exact ⟨e, s', h⟩

namespace Samples

/-- Two policy sets that refer to each other. -/
def cyclic : Fetch := fun _ u =>
  if u = "file:///base/a.xml" then .ok (setOf "a.xml" [policySetRef "b.xml"])
  else if u = "file:///base/b.xml" then .ok (setOf "b.xml" [policySetRef "a.xml"])
  else .error .keyError

theorem refers_setOf (id r : String) : Refers r (setOf id [policySetRef r]) :=
  .direct _ (policySetRef r) (by simp only [setOf, XNode.name]; decide +kernel) (by simp [XNode.children, setOf]) rfl
    (by simp only [policySetRef, XNode.name]; decide +kernel) rfl

theorem inner_setOf {id r : String} {c m : XNode} (hc : c ∈ (setOf id [policySetRef r]).children) (hm : Within m c) :
    m.name ≠ "PolicySet" := by
  simp only [XNode.children, setOf, List.mem_cons, List.not_mem_nil, or_false] at hc
  subst hc
  cases hm with
  | refl => simp only [policySetRef, XNode.name]; decide +kernel
  | child c' _ hc' _ => cases hc'

end Samples

open Samples in
/-- The hypotheses of `C50_cycle` are met by two documents that refer to each other. -/
example (limit : Nat) : ∃ e s', fromSource stdRd (some (urlResolver stdRd (some "/base") cyclic limit))
    (.ok (setOf "root" [policySetRef "a.xml"])) {} = (.error e, s') := by
  have hU : ∀ past u n, cyclic past u = .ok n → ∃ i r, n = setOf i [policySetRef r] ∧
      (u = "file:///base/a.xml" ∧ r = "b.xml" ∨ u = "file:///base/b.xml" ∧ r = "a.xml") := by
    intro past u n h
    unfold cyclic at h
    by_cases h1 : u = "file:///base/a.xml"
    · rw [if_pos h1] at h; cases h; exact ⟨_, _, rfl, .inl ⟨h1, rfl⟩⟩
    · rw [if_neg h1] at h
      by_cases h2 : u = "file:///base/b.xml"
      · rw [if_pos h2] at h; cases h; exact ⟨_, _, rfl, .inr ⟨h2, rfl⟩⟩
      · rw [if_neg h2] at h; cases h
  refine C50_cycle stdRd (some "/base") cyclic limit
    (fun u => u = "file:///base/a.xml" ∨ u = "file:///base/b.xml") (fun r => r = "a.xml" ∨ r = "b.xml")
    ?_ ?_ ?_ ?_ _ "a.xml" (.inl rfl) (refers_setOf _ _) (fun c hc m _ hm h => absurd h (inner_setOf hc hm)) {}
    (fun _ _ => rfl)
  · intro past u n _ hn
    obtain ⟨i, r, rfl, h⟩ := hU past u n hn
    exact ⟨r, by rcases h with ⟨_, rfl⟩ | ⟨_, rfl⟩ <;> simp, refers_setOf _ _⟩
  · have ha : makeUrlOpt (some "/base") (some "a.xml") = .ok "file:///base/a.xml" := by rfl
    have hb : makeUrlOpt (some "/base") (some "b.xml") = .ok "file:///base/b.xml" := by rfl
    rintro r u (rfl | rfl) h
    · rw [ha] at h; cases h; exact .inl rfl
    · rw [hb] at h; cases h; exact .inr rfl
  · intro past u n hn c hc m r hm hnm
    obtain ⟨i, r, rfl, h⟩ := hU past u n hn
    exact absurd hnm (inner_setOf hc hm)
  · intro past u n hu hn
    obtain ⟨i, r, rfl, h⟩ := hU past u n hn
    exact absurd (h.imp And.left And.left) hu

/-! ## C53 -/

private theorem starts {p s : String} : p.toList.isPrefixOf s.toList = true ↔ ∃ r, s = p ++ r := by
  rw [List.isPrefixOf_iff_prefix]
  constructor
  · rintro ⟨r, h⟩
    exact ⟨String.ofList r, by apply String.toList_inj.mp; simp [h]⟩
  · rintro ⟨r, rfl⟩; simp

private theorem pathJoin_below {b p : String} (hp : NotStart "/" p) :
    pathJoin b.toList p.toList = (below b p).toList := by
  have h1 : ¬ ['/'].isPrefixOf p.toList = true := fun h => by
    obtain ⟨r, hr⟩ := (starts (p := "/")).mp h
    exact hp r hr
  have h2 : (b.toList.isEmpty || ['/'].isSuffixOf b.toList) = true ↔ b = "" ∨ ∃ d, b = d ++ "/" := by
    rw [Bool.or_eq_true, List.isEmpty_iff, List.isSuffixOf_iff_suffix]
    constructor
    · rintro (h | ⟨d, h⟩)
      · left; apply String.toList_inj.mp; simpa using h
      · right; exact ⟨String.ofList d, by apply String.toList_inj.mp; simp [← h]⟩
    · rintro (rfl | ⟨d, rfl⟩)
      · left; rfl
      · right; exact ⟨d.toList, by simp⟩
  unfold pathJoin below
  rw [if_neg h1]
  by_cases h : b = "" ∨ ∃ d, b = d ++ "/"
  · rw [if_pos h, if_pos (h2.mpr h)]; simp
  · rw [if_neg h, if_neg (fun h' => h (h2.mp h'))]; simp

private theorem toList_file : fileScheme = "file://".toList := by decide
private theorem toList_rel : relativePrefix = "./".toList := by decide
private theorem toList_schemes : nonFileSchemes = ["ftp://".toList, "http://".toList, "https://".toList] := by decide

private theorem join_ok {b p : String} (hp : NotStart "/" p) :
    ((joinBase (some b.toList) p.toList).map (fileScheme ++ ·)).map String.ofList = .ok ("file://" ++ below b p) := by
  simp only [joinBase, Except.map, pathJoin_below hp]
  congr 1
  apply String.toList_inj.mp
  rw [toList_file]; simp

private theorem not_starts {p s : String} (h : NotStart p s) : ¬ p.toList.isPrefixOf s.toList = true :=
  fun h' => by obtain ⟨r, hr⟩ := starts.mp h'; exact h r hr

private theorem makeUrl_resolves (base ref url : String) (h : Resolves base ref url) (hd : NotStart "file://.//" ref) :
    makeUrlOpt (some base) (some ref) = .ok url := by
  simp only [makeUrlOpt, Option.map_some, makeUrl]
  rw [toList_rel, toList_schemes]
  cases h with
  | remote scheme rest hs =>
    have hnf : ¬ fileScheme.isPrefixOf (scheme ++ rest).toList = true := by
      simp only [List.mem_cons, List.not_mem_nil, or_false] at hs
      rcases hs with rfl | rfl | rfl <;> simp [fileScheme]
    rw [if_neg hnf, if_pos]
    · simp [Except.map]
    · simp only [List.mem_cons, List.not_mem_nil, or_false] at hs
      rcases hs with rfl | rfl | rfl <;> simp
  | fileAbsolute rest =>
    rw [if_pos (by simp [fileScheme])]
    have hdrop : ("file:///" ++ rest).toList.drop fileScheme.length = '/' :: rest.toList := by simp [fileScheme]
    simp only [hdrop]
    rw [if_neg (by simp), if_neg (by simp)]
    simp only [Except.map, String.ofList_toList]
  | fileRelative rest h1 h2 =>
    rw [if_pos (by rw [toList_file]; exact starts.mpr ⟨rest, rfl⟩)]
    have hdrop : ("file://" ++ rest).toList.drop fileScheme.length = rest.toList := by simp [fileScheme]
    simp only [hdrop]
    rw [if_neg (not_starts h2), if_pos]
    · exact join_ok h1
    · rw [Bool.not_eq_true']
      exact Bool.eq_false_iff.mpr (not_starts h1)
  | fileDot rest =>
    rw [if_pos (by rw [toList_file]; exact starts.mpr ⟨"./" ++ rest, by rw [← String.append_assoc]; rfl⟩)]
    have hdrop : ("file://./" ++ rest).toList.drop fileScheme.length = '.' :: '/' :: rest.toList := by simp [fileScheme]
    simp only [hdrop]
    rw [if_pos (by simp)]
    have hr : NotStart "/" rest := fun r hr => hd r (by rw [hr, ← String.append_assoc]; rfl)
    exact join_ok hr
  | path rest =>
    rw [if_neg (by simp [fileScheme]), if_neg (by simp), if_pos (by simp)]
    simp only [Except.map]
    congr 1
    apply String.toList_inj.mp
    rw [toList_file]; simp
  | relative _ h1 h2 =>
    rw [if_neg (by rw [toList_file]; exact not_starts (h2 _ (by simp))), if_neg, if_neg]
    · exact join_ok h1
    · exact not_starts h1
    · have a := not_starts (h2 "ftp://" (by simp))
      have b := not_starts (h2 "http://" (by simp))
      have c := not_starts (h2 "https://" (by simp))
      rw [List.any_cons, List.any_cons, List.any_cons, List.any_nil]
      simp only [Bool.or_eq_true, Bool.false_eq_true, or_false, not_or]
      exact ⟨a, b, c⟩

private theorem resolves_total (base ref : String) : ∃ url, Resolves base ref url := by
  have em : ∀ p s, (∃ r, s = p ++ r) ∨ NotStart p s := fun p s =>
    (Classical.em (∃ r, s = p ++ r)).imp_right fun h r hr => h ⟨r, hr⟩
  rcases em "file://" ref with ⟨r, rfl⟩ | h1
  · rcases em "/" r with ⟨r', rfl⟩ | h2
    · exact ⟨"file:///" ++ r', by rw [← String.append_assoc]; exact .fileAbsolute r'⟩
    · rcases em "./" r with ⟨r', rfl⟩ | h3
      · exact ⟨_, by rw [← String.append_assoc]; exact .fileDot r'⟩
      · exact ⟨_, .fileRelative r h2 h3⟩
  · rcases em "http://" ref with ⟨r, rfl⟩ | h2
    · exact ⟨_, .remote "http://" r (by simp)⟩
    rcases em "https://" ref with ⟨r, rfl⟩ | h3
    · exact ⟨_, .remote "https://" r (by simp)⟩
    rcases em "ftp://" ref with ⟨r, rfl⟩ | h4
    · exact ⟨_, .remote "ftp://" r (by simp)⟩
    rcases em "/" ref with ⟨r, rfl⟩ | h5
    · exact ⟨_, .path r⟩
    · exact ⟨_, .relative ref h5 (by
        intro s hs
        simp only [List.mem_cons, List.not_mem_nil, or_false] at hs
        rcases hs with rfl | rfl | rfl | rfl <;> assumption)⟩

/-- **C53 (partial).** With a base path, every reference resolves as specified, except those that start
with `file://.//`, see `C53_violated`. -/
theorem C53_partial (base ref url : String) (hd : NotStart "file://.//" ref) :
    makeUrlOpt (some base) (some ref) = .ok url ↔ Resolves base ref url := by
  constructor
  · intro h
    obtain ⟨url', h'⟩ := resolves_total base ref
    rw [makeUrl_resolves base ref url' h' hd] at h
    cases h
    exact h'
  · intro h; exact makeUrl_resolves base ref url h hd

/-- C53: without a base path relative references are rejected with TypeError, the others resolve as with one. -/
theorem C53_no_base (ref : String) :
    makeUrlOpt none (some ref) = .error .typeError ∨
    ∀ base, makeUrlOpt none (some ref) = makeUrlOpt (some base) (some ref) := by
  simp only [makeUrlOpt, Option.map_none, Option.map_some, makeUrl]
  split
  · split
    · exact .inl rfl
    · split
      · exact .inl rfl
      · exact .inr fun _ => rfl
  · split
    · exact .inr fun _ => rfl
    · split
      · exact .inr fun _ => rfl
      · exact .inl rfl

/-- C53: an empty reference element raises AttributeError. -/
theorem C53_empty (base : Option String) : makeUrlOpt base none = .error .attributeError := rfl

/-- **C53 is violated**: `file://.//rest` names an absolute file, whatever the base path. -/
theorem C53_violated (base rest : String) :
    makeUrlOpt (some base) (some ("file://.//" ++ rest)) = .ok ("file:///" ++ rest) ∧
    (base ≠ "" → "file:///" ++ rest ≠ "file://" ++ below base ("/" ++ rest)) := by
  constructor
  · simp only [makeUrlOpt, Option.map_some, makeUrl]
    have hdrop : ("file://.//" ++ rest).toList.drop fileScheme.length = '.' :: '/' :: '/' :: rest.toList := by
      simp [fileScheme]
    rw [if_pos (by simp [fileScheme])]
    simp only [hdrop]
    rw [if_pos (by simp [relativePrefix])]
    simp only [joinBase, Except.map, relativePrefix, pathJoin, List.length_cons, List.length_nil, List.drop_succ_cons,
      List.drop_zero, List.isPrefixOf_cons_cons, List.isPrefixOf_nil_left, Bool.and_true, beq_self_eq_true, if_true]
    congr 1
    apply String.toList_inj.mp
    simp [fileScheme]
  · intro hb h
    have hb' : 0 < base.toList.length := by
      rcases hl : base.toList with _ | ⟨c, l⟩
      · exact absurd (String.toList_inj.mp (by simpa using hl)) hb
      · simp
    have := congrArg (fun s => s.toList.length) h
    unfold below at this
    simp only [String.toList_append, List.length_append] at this
    split at this <;> simp at this <;> omega

/-- Concrete cases of `C53_partial`. -/
example : NotStart "file://.//" "sub/p.xml" ∧ Resolves "/base" "sub/p.xml" "file:///base/sub/p.xml" := by
  have h : NotStart "file://.//" "sub/p.xml" := by
    intro r hr
    have := congrArg String.toList hr
    simp at this
  exact ⟨h, (C53_partial _ _ _ h).mp rfl⟩

/-! ## C56 -/

/-- **C56, one event.** An event that succeeds installs the policy offered, one that fails leaves the
policy in force. -/
theorem C56_step (env : RdEnv) (st : LoadState) (e : LoadEvent) :
    ((st.step env e).1 = .ok () → ∃ p, policyOffered env st.finders e = some p ∧ (st.step env e).2.policy = some p) ∧
    ((st.step env e).1 ≠ .ok () → policyOffered env st.finders e = none ∧ (st.step env e).2.policy = st.policy) := by
  cases e with
  | assign a => cases a <;> simp [LoadState.step, pdpSetPolicy, policyOffered]
  | load f res src =>
    simp only [LoadState.step, pdpSetPolicyFromSource, policyOffered]
    rcases fromSource env res src (st.finders f) with ⟨x | x, s'⟩ <;> simp [pdpSetPolicy, Except.toOption]

/-- **C56.** After any history of assignments and loads the policy in force is the last one offered, or
else the one before the history. -/
theorem C56_history (env : RdEnv) (st : LoadState) (es : List LoadEvent) :
    (st.run env es).policy = ((policiesOffered env st es).getLast?).or st.policy := by
  induction es generalizing st with
  | nil => rfl
  | cons e es ih =>
    show ((st.step env e).2.run env es).policy = _
    rw [ih, policiesOffered]
    have hs := C56_step env st e
    by_cases h : (st.step env e).1 = .ok ()
    · obtain ⟨p, hp, hp2⟩ := hs.1 h
      rw [hp, hp2]
      rcases ho : policiesOffered env (st.step env e).2 es with _ | ⟨a, l⟩
      · simp
      · simp [List.getLast?_cons]
    · obtain ⟨hp, hp2⟩ := hs.2 h
      rw [hp, hp2]; rfl

open Samples in
set_option maxRecDepth 20000 in
/-- Concrete case: a load that fails after one that succeeds. -/
example : (policiesOffered stdRd {} [.load 0 (some localResolver) (.ok (onePolicy "p1")),
    .load 0 (some localResolver) (.ok (onePolicy "p1")), .assign .other]).map PolicyNode.ident = [some "p1"] ∧
    ((LoadState.run stdRd {} [.load 0 (some localResolver) (.ok (onePolicy "p1")),
      .load 0 (some localResolver) (.ok (onePolicy "p1")), .assign .other]).policy.map PolicyNode.ident) =
      some (some "p1") := by
  constructor <;> decide +kernel

end Xacml
