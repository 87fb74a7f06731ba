import Verif.Lemmas.Snapshot
import Verif.Props.Finder

/-!
# C97: documents that change while a policy is loaded
-/
namespace Xacml
open Spec

/-- C97, exactly: when loading succeeds, the documents that were fetched for it declare different policies and policy
sets. So a URL is fetched a second time only if the document there has got another kind or identifier in between. -/
theorem C97_versions (rd : RdEnv) (base : Option String) (fetch : Fetch) (limit : Nat) (src : Except Exc XNode)
    (s s' : Finder) (p : PolicyNode)
    (h : fromSource rd (some (urlResolver rd base fetch limit)) src s = (.ok p, s')) :
    ∃ new, s'.fetched = new ++ s.fetched ∧
      (∀ a ∈ answers fetch s.fetched new, ∃ d, a.2 = .ok d ∧ (docKey d).isSome = true) ∧
      (answers fetch s.fetched new).Pairwise fun a b => ∀ d d', a.2 = .ok d → b.2 = .ok d' → docKey d ≠ docKey d' := by
  obtain ⟨_, new, hf, hn, hk⟩ := ledger_fromSource fetch rd base limit src s p s' h
  refine ⟨new, hf, ?_, ?_⟩
  · intro a ha
    obtain ⟨x, hx, _⟩ := hk _ (List.mem_map.mpr ⟨a, ha, rfl⟩)
    obtain ⟨d, hd, hdx⟩ := Option.bind_eq_some_iff.mp hx
    refine ⟨d, ?_, by rw [hdx]; rfl⟩
    cases h2 : a.2 with
    | error e => rw [h2] at hd; cases hd
    | ok d' => rw [h2] at hd; cases hd; rfl
  · have := List.pairwise_map.mp hn
    refine this.imp ?_
    intro a b hab d d' hd hd' heq
    apply hab
    rw [hd, hd']
    exact heq

private theorem answers_urls (fetch : Fetch) (past new : List String) :
    (answers fetch past new).map (·.1) = new := by
  induction new with
  | nil => rfl
  | cons u l ih => simp [answers, ih]

private theorem answers_is {fetch : Fetch} {past new : List String} {a} (h : a ∈ answers fetch past new) :
    ∃ h, fetch h a.1 = a.2 := by
  induction new with
  | nil => cases h
  | cons u l ih =>
    rcases List.mem_cons.mp h with rfl | h
    · exact ⟨_, rfl⟩
    · exact ih h

/-- C97: if the documents keep their kinds and identifiers, loading fetches each of them at most once, if it succeeds. -/
theorem C97_once (rd : RdEnv) (base : Option String) (fetch : Fetch) (hk : KeepsIds fetch) (limit : Nat)
    (src : Except Exc XNode) (s s' : Finder) (p : PolicyNode)
    (h : fromSource rd (some (urlResolver rd base fetch limit)) src s = (.ok p, s')) :
    ∃ new, s'.fetched = new ++ s.fetched ∧ new.Nodup := by
  obtain ⟨new, hf, hok, hp⟩ := C97_versions rd base fetch limit src s s' p h
  refine ⟨new, hf, ?_⟩
  rw [← answers_urls fetch s.fetched new]
  unfold List.Nodup
  rw [List.pairwise_map]
  refine List.Pairwise.imp_of_mem ?_ hp
  intro a b ha hb hab heq
  obtain ⟨d, hd, _⟩ := hok a ha
  obtain ⟨d', hd', _⟩ := hok b hb
  obtain ⟨h1, e1⟩ := answers_is ha
  obtain ⟨h2, e2⟩ := answers_is hb
  rw [← heq] at e2
  exact hab d d' hd hd' (hk h1 h2 a.1 d d' (e1.trans hd) (e2.trans hd'))

private theorem lookup_answers {fetch : Fetch} {past : List String} {u : String} : {l1 l2 : List String} →
    (l1 ++ u :: l2).Nodup → (answers fetch past (l1 ++ u :: l2)).lookup u = some (fetch (l2 ++ past) u)
  | [], l2, _ => by simp [answers]
  | v :: l1, l2, h => by
    have hne : (u == v) = false := by
      have hv : v ∉ l1 ++ u :: l2 := (List.nodup_cons.mp h).1
      simp only [List.mem_append, List.mem_cons, not_or] at hv
      simpa using fun e : u = v => hv.2.1 e.symm
    simp only [List.cons_append, answers, List.lookup_cons, hne]
    exact lookup_answers (List.nodup_cons.mp h).2

/-- C97, the part that holds: documents may change while a policy is loaded as long as they keep their kinds and
identifiers; the policy that results is the one made from one version of each document. What is missing: see
`C97_violated_mixed`. -/
theorem C97_snapshot_partial (rd : RdEnv) (base : Option String) (fetch : Fetch) (hk : KeepsIds fetch) (limit : Nat)
    (src : Except Exc XNode) (s s' : Finder) (p : PolicyNode)
    (h : fromSource rd (some (urlResolver rd base fetch limit)) src s = (.ok p, s')) :
    ∃ (new : List String) (F : String → Except Exc XNode), s'.fetched = new ++ s.fetched ∧
      (∀ a ∈ answers fetch s.fetched new, F a.1 = a.2) ∧
      fromSource rd (some (urlResolver rd base (unchanging F) limit)) src s = (.ok p, s') := by
  obtain ⟨new, hf, hn⟩ := C97_once rd base fetch hk limit src s s' p h
  refine ⟨new, fun u => ((answers fetch s.fetched new).lookup u).getD (.error .keyError), hf, ?_, ?_⟩
  · intro a ha
    have hm : a.1 ∈ new := by
      rw [← answers_urls fetch s.fetched new]
      exact List.mem_map_of_mem ha
    have hl : ∀ l : List (String × Except Exc XNode), (l.map (·.1)).Nodup → a ∈ l → l.lookup a.1 = some a.2 := by
      intro l hnd
      induction l with
      | nil => intro h; cases h
      | cons b l ih =>
        intro h
        rw [List.map_cons, List.nodup_cons] at hnd
        obtain ⟨b1, b2⟩ := b
        rcases List.mem_cons.mp h with h | h
        · subst h; simp
        · have hne : (a.1 == b1) = false := by
            simpa using fun e : a.1 = b1 => hnd.1 (List.mem_map.mpr ⟨a, h, e⟩)
          simp only [List.lookup_cons, hne]
          exact ih hnd.2 h
    show ((answers fetch s.fetched new).lookup a.1).getD _ = _
    rw [hl _ (by rw [answers_urls]; exact hn) ha]
    rfl
  · refine (fetchSim_fromSource rd base fetch _ limit src s _ s' h).2 ?_
    intro u l hl hs
    obtain ⟨l2, rfl⟩ := hs
    obtain ⟨l1, hl1⟩ := hl
    have hnew : new = l1 ++ u :: l2 := by
      have : (l1 ++ u :: l2) ++ s.fetched = new ++ s.fetched := by rw [← hf, ← hl1]; simp
      exact (List.append_cancel_right this).symm
    subst hnew
    show _ = ((answers fetch s.fetched (l1 ++ u :: l2)).lookup u).getD _
    rw [lookup_answers hn]
    rfl

/-- C97 for a new PDP. -/
theorem C97_pdp_partial (rd : RdEnv) (fetch : Fetch) (hk : KeepsIds fetch) (limit : Nat) (source : SourceArg)
    (src : Except Exc XNode) (p : Option PolicyNode) (h : pdpFromPolicySource rd fetch limit source src = .ok p) :
    ∃ (urls : List String) (F : String → Except Exc XNode), urls.Nodup ∧ (∀ a ∈ answers fetch [] urls, F a.1 = a.2) ∧
      pdpFromPolicySource rd (unchanging F) limit source src = .ok p := by
  unfold pdpFromPolicySource at h ⊢
  cases hb : defaultBasePath source with
  | error e => rw [hb] at h; cases h
  | ok base =>
    rw [hb] at h
    simp only [pdpSetPolicyFromSource] at h ⊢
    rcases hr : fromSource rd (some (urlResolver rd base fetch limit)) src {} with ⟨r, s⟩
    rw [hr] at h
    cases r with
    | error e => cases h
    | ok q =>
      obtain ⟨new, F, hf, hF, h2⟩ := C97_snapshot_partial rd base fetch hk limit src {} s q hr
      obtain ⟨new', hf', hn⟩ := C97_once rd base fetch hk limit src {} s q hr
      have : new = new' := by rw [hf] at hf'; exact List.append_cancel_right hf'
      subst this
      refine ⟨new, F, hn, hF, ?_⟩
      rw [h2]
      exact h

namespace Samples

/-- A file that is edited between the first and the second fetch. -/
def edited (before after : XNode) : Fetch := fun past u =>
  if u = "file:///base/a" then .ok (if u ∈ past then after else before) else .error .keyError

/-- Two references that name the same file. -/
def twice : XNode := setOf "s" [policyRef "a", policyRef "/base/a"]

def loadsTwice (fetch : Fetch) : Bool :=
  (fromSource stdRd (some (urlResolver stdRd (some "/base") fetch 5)) (.ok twice) {}).1.toOption.isSome

/-- The same for a policy and a policy set of the same name. -/
def both : XNode := setOf "s" [policyRef "a", policySetRef "a"]

def loadsBoth (fetch : Fetch) : Bool :=
  (fromSource stdRd (some (urlResolver stdRd (some "/base") fetch 5)) (.ok both) {}).1.toOption.isSome

end Samples

open Samples in
set_option maxRecDepth 20000 in
/-- C97 is violated: two references to the same file are resolved with two versions of it if its identifier is changed
in between. With either version alone loading fails. -/
theorem C97_violated_mixed :
    loadsTwice (edited (onePolicy "a") (onePolicy "/base/a")) = true ∧
    loadsTwice (edited (onePolicy "a") (onePolicy "a")) = false ∧
    loadsTwice (edited (onePolicy "/base/a") (onePolicy "/base/a")) = false := by decide +kernel

open Samples in
set_option maxRecDepth 20000 in
/-- C97 is violated: so are a reference to a policy and one to a policy set of the same name. -/
theorem C97_violated_kind :
    loadsBoth (edited (onePolicy "a") (setOf "a" [])) = true ∧
    loadsBoth (edited (onePolicy "a") (onePolicy "a")) = false ∧
    loadsBoth (edited (setOf "a" []) (setOf "a" [])) = false := by decide +kernel

open Samples in
set_option maxRecDepth 20000 in
/-- The hypotheses are met: the file changes (it gets another rule) but not its identifier, and it is referred to
twice. -/
example :
    let fetch := edited (onePolicy "a") (.elem "Policy" [("PolicyId", "a"), ("RuleCombiningAlgId", permitAlg)] none [])
    KeepsIds fetch ∧
    (fromSource stdRd (some (urlResolver stdRd (some "/base") fetch 5))
      (.ok (setOf "s" [policyRef "a", policyRef "a"])) {}).1.toOption.isSome = true := by
  refine ⟨?_, by decide +kernel⟩
  intro past past' u d d' h h'
  simp only [edited] at h h'
  split at h
  · rename_i hu
    rw [if_pos hu] at h'
    cases h; cases h'
    split <;> split <;> decide +kernel
  · cases h

end Xacml
