import Verif.Props.Combining
import Verif.Props.FunctionMap
import Verif.Spec.Setters
import Verif.Spec.Samples

/-!
# C31–C33, C60: setters of policies and of match and apply elements
-/
namespace Xacml
open Spec

/-! ## Combining algorithm identifiers -/

/-- C32 for policies: an identifier is accepted iff it is one of the three, and then the policy is
evaluated by that algorithm. -/
theorem C32_rules (h : Header) (s : String) :
    (ruleAlgorithm s = none → (h.setAlgId ruleAlgMap (.str s)).1 = .error .typeError) ∧
    (∀ table, ruleAlgorithm s = some table →
      (h.setAlgId ruleAlgMap (.str s)).1 = .ok () ∧ (h.setAlgId ruleAlgMap (.str s)).2.algId = some s ∧
      ∀ env ctx rules w w1 w2 ds, (∀ r ∈ rules, r.effect ≠ none) →
        targetMatch env h.target ctx w = (.ok true, w1) →
        Runs (rules.map (Rule.evaluate env · ctx)) w1 ds w2 →
        ∃ w3, (PolicyNode.policy (h.setAlgId ruleAlgMap (.str s)).2 rules).evaluate env ctx w
          = (.ok (table (rules.map (·.effect)) ds), w3)) := by
  have hget : dictGet ruleAlgMap s =
      if s = "urn:oasis:names:tc:xacml:1.0:rule-combining-algorithm:first-applicable" then some (.cls .firstApplicable)
      else if s = "urn:oasis:names:tc:xacml:1.0:rule-combining-algorithm:permit-overrides" then
        some (.cls .permitOverrides)
      else if s = "urn:oasis:names:tc:xacml:1.0:rule-combining-algorithm:deny-overrides" then
        some (.cls .denyOverrides)
      else dictGet (fromKeys ruleAlgorithms) s := by
    simp only [ruleAlgMap, dictGet_set]
  have hrest := dictGet_fromKeys ruleAlgorithms s
  constructor
  · intro hn
    unfold ruleAlgorithm at hn
    split at hn
    · cases hn
    · split at hn
      · cases hn
      · split at hn
        · cases hn
        · rename_i h1 h2 h3
          simp only [h1, h2, h3, if_false] at hget
          simp only [Header.setAlgId, hget]
          rcases hrest with h | h <;> rw [h]
  · intro table ht
    unfold ruleAlgorithm at ht
    split at ht
    · rename_i h1
      subst h1
      simp only [String.reduceEq, if_false, if_true] at hget
      cases ht
      have hh : h.setAlgId ruleAlgMap (.str "urn:oasis:names:tc:xacml:1.0:rule-combining-algorithm:deny-overrides")
        = (.ok (), { h with algId := some "urn:oasis:names:tc:xacml:1.0:rule-combining-algorithm:deny-overrides", alg := some .denyOverrides }) := by
        simp only [Header.setAlgId, hget]
      rw [hh]
      refine ⟨rfl, rfl, fun env ctx rules w w1 w2 ds heff htm hrun => ?_⟩
      obtain ⟨w3, h3, _⟩ := C01_rule_deny_overrides env ctx
            { h with algId := some "urn:oasis:names:tc:xacml:1.0:rule-combining-algorithm:deny-overrides", alg := some .denyOverrides } rules w w1 w2 ds rfl htm hrun heff
      exact ⟨w3, h3⟩
    · split at ht
      · rename_i h1
        subst h1
        simp only [String.reduceEq, if_false, if_true] at hget
        cases ht
        have hh : h.setAlgId ruleAlgMap (.str "urn:oasis:names:tc:xacml:1.0:rule-combining-algorithm:permit-overrides")
          = (.ok (), { h with algId := some "urn:oasis:names:tc:xacml:1.0:rule-combining-algorithm:permit-overrides", alg := some .permitOverrides }) := by
          simp only [Header.setAlgId, hget]
        rw [hh]
        refine ⟨rfl, rfl, fun env ctx rules w w1 w2 ds heff htm hrun => ?_⟩
        obtain ⟨w3, h3, _⟩ := C02_rule_permit_overrides env ctx
            { h with algId := some "urn:oasis:names:tc:xacml:1.0:rule-combining-algorithm:permit-overrides", alg := some .permitOverrides } rules w w1 w2 ds rfl htm hrun heff
        exact ⟨w3, h3⟩
      · split at ht
        · rename_i h1
          subst h1
          simp only [if_true] at hget
          cases ht
          have hh : h.setAlgId ruleAlgMap (.str "urn:oasis:names:tc:xacml:1.0:rule-combining-algorithm:first-applicable")
            = (.ok (), { h with algId := some "urn:oasis:names:tc:xacml:1.0:rule-combining-algorithm:first-applicable", alg := some .firstApplicable }) := by
            simp only [Header.setAlgId, hget]
          rw [hh]
          refine ⟨rfl, rfl, fun env ctx rules w w1 w2 ds heff htm hrun => ?_⟩
          obtain ⟨w3, h3, _⟩ := C03_rule_first_applicable env ctx
            { h with algId := some "urn:oasis:names:tc:xacml:1.0:rule-combining-algorithm:first-applicable", alg := some .firstApplicable } rules w w1 w2 ds rfl htm hrun
          exact ⟨w3, h3⟩
        · cases ht

/-- C32 for policy sets. -/
theorem C32_policies (h : Header) (s : String) :
    (policyAlgorithm s = none → (h.setAlgId policyAlgMap (.str s)).1 = .error .typeError) ∧
    (∀ table, policyAlgorithm s = some table →
      (h.setAlgId policyAlgMap (.str s)).1 = .ok () ∧ (h.setAlgId policyAlgMap (.str s)).2.algId = some s ∧
      ∀ env ctx ps w w1 w2 ds,
        targetMatch env h.target ctx w = (.ok true, w1) →
        Runs (ps.map (PolicyNode.evaluate env ctx)) w1 ds w2 →
        ∃ w3, (PolicyNode.policySet (h.setAlgId policyAlgMap (.str s)).2 ps).evaluate env ctx w
          = (.ok (table ds), w3)) := by
  have hget : dictGet policyAlgMap s =
      if s = "urn:oasis:names:tc:xacml:1.0:policy-combining-algorithm:first-applicable" then some (.cls .firstApplicable)
      else if s = "urn:oasis:names:tc:xacml:1.0:policy-combining-algorithm:permit-overrides" then
        some (.cls .permitOverrides)
      else if s = "urn:oasis:names:tc:xacml:1.0:policy-combining-algorithm:deny-overrides" then
        some (.cls .denyOverrides)
      else dictGet (fromKeys policyAlgorithms) s := by
    simp only [policyAlgMap, dictGet_set]
  have hrest := dictGet_fromKeys policyAlgorithms s
  constructor
  · intro hn
    unfold policyAlgorithm at hn
    split at hn
    · cases hn
    · split at hn
      · cases hn
      · split at hn
        · cases hn
        · rename_i h1 h2 h3
          simp only [h1, h2, h3, if_false] at hget
          simp only [Header.setAlgId, hget]
          rcases hrest with h | h <;> rw [h]
  · intro table ht
    unfold policyAlgorithm at ht
    split at ht
    · rename_i h1
      subst h1
      simp only [String.reduceEq, if_false, if_true] at hget
      cases ht
      have hh : h.setAlgId policyAlgMap (.str "urn:oasis:names:tc:xacml:1.0:policy-combining-algorithm:deny-overrides")
        = (.ok (), { h with algId := some "urn:oasis:names:tc:xacml:1.0:policy-combining-algorithm:deny-overrides", alg := some .denyOverrides }) := by
        simp only [Header.setAlgId, hget]
      rw [hh]
      refine ⟨rfl, rfl, fun env ctx ps w w1 w2 ds htm hrun => ?_⟩
      obtain ⟨w3, h3, _⟩ := C04_policy_deny_overrides env ctx
            { h with algId := some "urn:oasis:names:tc:xacml:1.0:policy-combining-algorithm:deny-overrides", alg := some .denyOverrides } ps w w1 w2 ds rfl htm hrun
      exact ⟨w3, h3⟩
    · split at ht
      · rename_i h1
        subst h1
        simp only [String.reduceEq, if_false, if_true] at hget
        cases ht
        have hh : h.setAlgId policyAlgMap (.str "urn:oasis:names:tc:xacml:1.0:policy-combining-algorithm:permit-overrides")
          = (.ok (), { h with algId := some "urn:oasis:names:tc:xacml:1.0:policy-combining-algorithm:permit-overrides", alg := some .permitOverrides }) := by
          simp only [Header.setAlgId, hget]
        rw [hh]
        refine ⟨rfl, rfl, fun env ctx ps w w1 w2 ds htm hrun => ?_⟩
        obtain ⟨w3, h3, _⟩ := C05_policy_permit_overrides env ctx
            { h with algId := some "urn:oasis:names:tc:xacml:1.0:policy-combining-algorithm:permit-overrides", alg := some .permitOverrides } ps w w1 w2 ds rfl htm hrun
        exact ⟨w3, h3⟩
      · split at ht
        · rename_i h1
          subst h1
          simp only [if_true] at hget
          cases ht
          have hh : h.setAlgId policyAlgMap (.str "urn:oasis:names:tc:xacml:1.0:policy-combining-algorithm:first-applicable")
            = (.ok (), { h with algId := some "urn:oasis:names:tc:xacml:1.0:policy-combining-algorithm:first-applicable", alg := some .firstApplicable }) := by
            simp only [Header.setAlgId, hget]
          rw [hh]
          refine ⟨rfl, rfl, fun env ctx ps w w1 w2 ds htm hrun => ?_⟩
          obtain ⟨w3, h3, _⟩ := C03_policy_first_applicable env ctx
            { h with algId := some "urn:oasis:names:tc:xacml:1.0:policy-combining-algorithm:first-applicable", alg := some .firstApplicable } ps w w1 w2 ds rfl htm hrun
          exact ⟨w3, h3⟩
        · cases ht

/-- C31 does not hold: after assigning a good identifier and then a bad one, the policy shows the bad
identifier while the algorithm of the good one stays in force. -/
theorem C31_violated :
    ∃ (h : Header) (good bad : String),
      (h.setAlgId ruleAlgMap (.str good)).1 = .ok () ∧
      let h1 := (h.setAlgId ruleAlgMap (.str good)).2
      (h1.setAlgId ruleAlgMap (.str bad)).1 = .error .typeError ∧
      (h1.setAlgId ruleAlgMap (.str bad)).2 ≠ h1 ∧
      (h1.setAlgId ruleAlgMap (.str bad)).2.algId = some bad ∧
      (h1.setAlgId ruleAlgMap (.str bad)).2.alg = some .permitOverrides := by
  have hg : dictGet ruleAlgMap "urn:oasis:names:tc:xacml:1.0:rule-combining-algorithm:permit-overrides"
      = some (.cls .permitOverrides) := by simp [ruleAlgMap, dictGet_set]
  have hb : dictGet ruleAlgMap "urn:oasis:names:tc:xacml:1.1:rule-combining-algorithm:ordered-deny-overrides"
      = some .notImplemented := by simp [ruleAlgMap, dictGet_set, fromKeys, ruleAlgorithms, dictGet]
  refine ⟨{ alg := none, target := none },
    "urn:oasis:names:tc:xacml:1.0:rule-combining-algorithm:permit-overrides",
    "urn:oasis:names:tc:xacml:1.1:rule-combining-algorithm:ordered-deny-overrides", ?_⟩
  simp [Header.setAlgId, hg, hb]

/-- C31, what holds: a failing assignment never changes how the policy is evaluated, and a successful
one makes the identifier and the algorithm agree. Missing: a failing assignment of a string changes
the identifier. -/
theorem C31_step_partial (map : List (String × AlgEntry)) (h : Header) (a : StrArg) :
    (named map a = none → (h.setAlgId map a).1 = .error .typeError ∧
      (h.setAlgId map a).2 = { h with algId := (h.setAlgId map a).2.algId } ∧
      ∀ env ctx rules children,
        (PolicyNode.policy (h.setAlgId map a).2 rules).evaluate env ctx = (PolicyNode.policy h rules).evaluate env ctx ∧
        (PolicyNode.policySet (h.setAlgId map a).2 children).evaluate env ctx
          = (PolicyNode.policySet h children).evaluate env ctx) ∧
    (∀ alg, named map a = some alg → (h.setAlgId map a).1 = .ok () ∧
      ∃ s, a = .str s ∧ (h.setAlgId map a).2 = { h with algId := some s, alg := some alg }) := by
  cases a with
  | other => simp [named, Header.setAlgId]
  | str s =>
    have he : ∀ (h' : Header), h' = { h with algId := some s } → ∀ env ctx rules children,
        (PolicyNode.policy h' rules).evaluate env ctx = (PolicyNode.policy h rules).evaluate env ctx ∧
        (PolicyNode.policySet h' children).evaluate env ctx = (PolicyNode.policySet h children).evaluate env ctx := by
      intro h' hh env ctx rules children
      subst hh
      simp only [PolicyNode.evaluate]
      exact ⟨rfl, rfl⟩
    cases hd : dictGet map s with
    | none => simpa [named, Header.setAlgId, hd] using he _ rfl
    | some x =>
      cases x with
      | cls a => simp [named, Header.setAlgId, hd]
      | notImplemented => simpa [named, Header.setAlgId, hd] using he _ rfl

/-- C31, what holds over histories: the algorithm in force is the one named by the last assignment
that named one (and the initial one if there was none). -/
theorem C31_history_partial (map : List (String × AlgEntry)) (h : Header) (as : List StrArg) :
    (h.setAlgIds map as).alg = ((as.filterMap (named map)).getLast?).or h.alg := by
  induction as using List.reverseRec' with
  | h0 => simp [Header.setAlgIds]
  | h1 as a ih =>
    have hstep : h.setAlgIds map (as ++ [a]) = ((h.setAlgIds map as).setAlgId map a).2 := by
      simp [Header.setAlgIds]
    rw [hstep, List.filterMap_append, List.getLast?_append]
    obtain ⟨h1, h2⟩ := C31_step_partial map (h.setAlgIds map as) a
    cases hn : named map a with
    | none =>
      obtain ⟨_, h1, _⟩ := h1 hn
      rw [h1]
      simp [hn, ih]
    | some alg =>
      obtain ⟨_, s, _, h2⟩ := h2 alg hn
      rw [h2]
      simp [hn]

/-! ## Match elements -/

/-- C33: after any history of assignments to a new match element it has the designator or selector
that was assigned last, and never both. -/
theorem C33_exclusive (imp : Importer) (fm : FunctionMap) (es : List MatchEvent) :
    let m := (({ fn := { map := fm } } : MatchState).run imp es)
    match lastAssigned es with
    | .nothing => m.designator = none ∧ m.selector = none
    | .designator d => m.designator = some d ∧ m.selector = none
    | .selector s => m.designator = none ∧ m.selector = some s := by
  have gen : ∀ (es : List MatchEvent) (m : MatchState),
      match lastAssigned es with
      | .nothing => (m.run imp es).designator = m.designator ∧ (m.run imp es).selector = m.selector
      | .designator d => (m.run imp es).designator = some d ∧ (m.run imp es).selector = none
      | .selector s => (m.run imp es).designator = none ∧ (m.run imp es).selector = some s := by
    intro es
    induction es with
    | nil => intro m; exact ⟨rfl, rfl⟩
    | cons e es ih =>
      intro m
      have h := ih (m.apply imp e).2
      have hr : m.run imp (e :: es) = ((m.apply imp e).2).run imp es := rfl
      rw [hr]
      simp only [lastAssigned]
      cases hd : lastAssigned es with
      | nothing =>
        rw [hd] at h
        obtain ⟨h1, h2⟩ := h
        cases e with
        | setDesignator d => cases d <;> exact ⟨h1, h2⟩
        | setSelector d => cases d <;> exact ⟨h1, h2⟩
        | setValue d => cases d <;> exact ⟨h1, h2⟩
        | setMatchId a => exact ⟨h1, h2⟩
        | setLoad b => exact ⟨h1, h2⟩
        | setMap m => exact ⟨h1, h2⟩
        | setFunctionFromMap m => exact ⟨h1, h2⟩
      | designator d => rw [hd] at h; exact h
      | selector d => rw [hd] at h; exact h
  exact gen es _

/-- C33: a failing assignment of a designator or selector changes nothing. -/
theorem C33_failed (imp : Importer) (m : MatchState) (e : MatchEvent) (x : Exc)
    (he : (∃ d, e = .setDesignator d) ∨ (∃ s, e = .setSelector s))
    (hx : (m.apply imp e).1 = .error x) : (m.apply imp e).2 = m := by
  rcases he with ⟨d, rfl⟩ | ⟨d, rfl⟩ <;> cases d <;> first | rfl | cases hx

/-- C33: an object of the wrong type is refused with a TypeError and changes nothing; the other assignments
of values, designators, selectors, flags and function maps succeed. -/
theorem C33_types (imp : Importer) (m : MatchState) (e : MatchEvent) :
    (wrongType e = true → m.apply imp e = (.error .typeError, m)) ∧
    (wrongType e = false → (∀ a, e ≠ .setMatchId a) → (∀ fm, e ≠ .setFunctionFromMap fm) →
      (m.apply imp e).1 = .ok ()) := by
  constructor
  · intro h
    cases e with
    | setValue v => cases v <;> first | rfl | cases h
    | setDesignator v => cases v <;> first | rfl | cases h
    | setSelector v => cases v <;> first | rfl | cases h
    | setMatchId v => cases v <;> first | rfl | cases h
    | setLoad v => cases v <;> first | rfl | cases h
    | setMap v => cases v <;> first | rfl | cases h
    | setFunctionFromMap _ => cases h
  · intro h h1 h2
    cases e with
    | setValue v => cases v <;> first | rfl | cases h
    | setDesignator v => cases v <;> first | rfl | cases h
    | setSelector v => cases v <;> first | rfl | cases h
    | setMatchId v => exact absurd rfl (h1 v)
    | setLoad v => cases v <;> first | rfl | cases h
    | setMap v => cases v <;> first | rfl | cases h
    | setFunctionFromMap v => exact absurd rfl (h2 v)

/-- C33: the value and the flag are the last ones assigned, whatever else was assigned, successfully
or not; in particular assigning identifiers, designators and selectors does not touch them. -/
theorem C33_value (imp : Importer) (fm : FunctionMap) (es : List MatchEvent) :
    (({ fn := { map := fm } } : MatchState).run imp es).value = lastValue es ∧
    (({ fn := { map := fm } } : MatchState).run imp es).fn.load
      = ((es.filterMap fun e => match e with | .setLoad b => b | _ => none).getLast?).getD true := by
  induction es using List.reverseRec' with
  | h0 => exact ⟨rfl, rfl⟩
  | h1 es e ih =>
    unfold lastValue at ih ⊢
    simp only [MatchState.run, List.foldl_append, List.foldl_cons, List.foldl_nil, List.filterMap_append,
      List.getLast?_append] at ih ⊢
    generalize es.foldl (fun m e => (m.apply imp e).2) ({ fn := { map := fm } } : MatchState) = m at ih ⊢
    have hfn : ∀ m', (m.fn.setFunctionFromMap imp m').2.1.load = m.fn.load := by
      intro m'
      unfold FnHolder.setFunctionFromMap
      split
      · rfl
      · split <;> rfl
    cases e with
    | setValue v => cases v <;> simp [MatchState.apply, ih]
    | setDesignator v => cases v <;> simp [MatchState.apply, ih]
    | setSelector v => cases v <;> simp [MatchState.apply, ih]
    | setMatchId v =>
      have : (m.fn.setIdent imp v).2.load = m.fn.load := by
        cases v with
        | other => rfl
        | str s =>
          unfold FnHolder.setIdent
          dsimp only
          split
          · unfold FnHolder.setFunctionFromMap
            dsimp only
            split <;> rfl
          · rfl
      simp [MatchState.apply, ih, this]
    | setLoad v => cases v <;> simp [MatchState.apply, FnHolder.setLoad, ih]
    | setMap v => cases v <;> simp [MatchState.apply, FnHolder.setMap, ih]
    | setFunctionFromMap v => simp [MatchState.apply, ih, hfn]

/-- `C33_value`: a history with a refused assignment and a failing identifier after the value. -/
example : (({ fn := { map := .new } } : MatchState).run (fun _ => .error .keyError)
    [.setLoad (some false), .setValue (some { cls := stringClass, dataType := "d", value := some (.str "a") }),
     .setValue none, .setMatchId (.str "urn:unknown"), .setDesignator none]).value
      = some { cls := stringClass, dataType := "d", value := some (.str "a") } :=
  (C33_value _ _ _).1

/-! ## Functions of match and apply elements -/

/-- C60 does not hold: assigning a bad identifier after a good one fails, but the element then shows
the bad identifier and goes on using the function of the good one. -/
theorem C60_violated (imp : Importer) :
    ∃ (h : FnHolder) (good bad : String) (c : FnClass),
      (h.setIdent imp (.str good)).1 = .ok () ∧
      let h1 := (h.setIdent imp (.str good)).2
      (h1.setIdent imp (.str bad)).1 = .error .unsupportedStdFunctionError ∧
      (h1.setIdent imp (.str bad)).2.ident = some bad ∧ (h1.setIdent imp (.str bad)).2.func = some c ∧
      (h1.map.get imp good).1 = .ok (.cls c) := by
  refine ⟨{ map := ⟨[("urn:good", .cls (.custom 1)), ("urn:bad", .notImplemented)], []⟩ }, "urn:good", "urn:bad",
    .custom 1, ?_⟩
  simp [FnHolder.setIdent, FnHolder.setFunctionFromMap, FunctionMap.get, dictGet]

/-- C60: why an assignment of an identifier fails: it is not a string, the function is not implemented, or the
function map raises; the function can also be looked up once more, unless no identifier was assigned. -/
theorem C60_exceptions (imp : Importer) (h : FnHolder) (fm : FunctionMap) (s : String) (x : Exc) :
    ((h.setIdent imp (.str s)).1 = .error x ↔ h.load = true ∧
      ((h.map.get imp s).1 = .error x ∨ (h.map.get imp s).1 = .ok .notImplemented ∧ x = .unsupportedStdFunctionError)) ∧
    ((h.setFunctionFromMap imp fm).1 = .error x ↔
      h.ident = none ∧ x = .attributeError ∨ ∃ i, h.ident = some i ∧ ((fm.get imp i).1 = .error x ∨
        (fm.get imp i).1 = .ok .notImplemented ∧ x = .unsupportedStdFunctionError)) := by
  have gen : ∀ (h : FnHolder) (fm : FunctionMap) (i : String), h.ident = some i →
      ((h.setFunctionFromMap imp fm).1 = .error x ↔ ((fm.get imp i).1 = .error x ∨
        (fm.get imp i).1 = .ok .notImplemented ∧ x = .unsupportedStdFunctionError)) := by
    intro h fm i hi
    simp only [FnHolder.setFunctionFromMap, hi]
    rcases fm.get imp i with ⟨r, m'⟩
    cases r with
    | error e => simp
    | ok y => cases y <;> simp [eq_comm]
  constructor
  · cases hl : h.load with
    | false => simp [FnHolder.setIdent, hl]
    | true =>
      have := gen { h with ident := some s } h.map s rfl
      simp only [FnHolder.setIdent, hl, if_true, true_and]
      rw [hl] at this
      exact this
  · cases hi : h.ident with
    | none => simp [FnHolder.setFunctionFromMap, hi, eq_comm]
    | some i =>
      rw [gen h fm i hi]
      simp

/-- `C60_exceptions`: a function that is not implemented. -/
example : (({ map := ⟨[("urn:bad", .notImplemented)], []⟩ } : FnHolder).setIdent (fun _ => .error .keyError)
    (.str "urn:bad")).1 = .error .unsupportedStdFunctionError :=
  (C60_exceptions _ _ .new _ _).1.mpr ⟨rfl, .inr ⟨by simp [FunctionMap.get, dictGet], rfl⟩⟩

/-- C60, what holds: with function loading on, assigning an identifier succeeds iff the map has an
implementation for it, and then exactly that one is used from now on; a failing assignment leaves the
function as it was. Missing: a failing assignment of a string changes the identifier. -/
theorem C60_step_partial (imp : Importer) (h : FnHolder) (hl : h.load = true) (s : String) :
    (∀ c, (h.map.get imp s).1 = .ok (.cls c) →
      (h.setIdent imp (.str s)).1 = .ok () ∧ (h.setIdent imp (.str s)).2.ident = some s ∧
      (h.setIdent imp (.str s)).2.func = some c) ∧
    ((∀ c, (h.map.get imp s).1 ≠ .ok (.cls c)) →
      (∃ x, (h.setIdent imp (.str s)).1 = .error x) ∧ (h.setIdent imp (.str s)).2.func = h.func) ∧
    h.setIdent imp .other = (.error .typeError, h) := by
  simp only [FnHolder.setIdent, FnHolder.setFunctionFromMap, hl, if_true]
  generalize h.map.get imp s = r
  obtain ⟨r, m'⟩ := r
  refine ⟨fun c hc => ?_, fun hc => ?_, trivial⟩
  · simp only at hc; subst hc; exact ⟨rfl, rfl, rfl⟩
  · simp only at hc
    match r with
    | .error e => exact ⟨⟨e, rfl⟩, rfl⟩
    | .ok .notImplemented => exact ⟨⟨_, rfl⟩, rfl⟩
    | .ok (.cls c) => exact (hc c rfl).elim

/-- C60 for the functions of the standard: on an element whose map has any history, assigning the
identifier of an implemented standard function makes the match evaluate that function. -/
theorem C60_standard (customs : Nat → List PyVal → Except Exc PyVal) (es : List FmEvent) (m : MatchState)
    (hl : m.fn.load = true) (hm : m.fn.map = fmRun (stdImporter stdClassMap) .new es)
    (s : String) (fam : Family) (t : Option AVClass) (hs : implemented.lookup s = some (fam, t)) :
    let r := m.apply (stdImporter stdClassMap) (.setMatchId (.str s))
    r.1 = .ok () ∧ (r.2.toMatch customs).func = (FnClass.std fam t).toFunc customs ∧
      (r.2.toMatch customs).func ≠ none := by
  have hmem : (s, fam, t) ∈ implemented := mem_of_lookup hs
  obtain ⟨hstd, f, hf⟩ := C35_implemented customs _ hmem
  have hget : (m.fn.map.get (stdImporter stdClassMap) s).1 = .ok (.cls (.std fam t)) := by
    rw [hm, C35_standard es s hstd, stdResolution, hs]
  obtain ⟨h1, _, _⟩ := C60_step_partial (stdImporter stdClassMap) m.fn hl s
  obtain ⟨h1, h2, h3⟩ := h1 _ hget
  refine ⟨h1, ?_, ?_⟩ <;> simp only [MatchState.apply, MatchState.toMatch, h3, Option.bind_some]
  rw [hf]; simp

/-- C60 over histories in which loading stays on and the map is not replaced: the function in use is
the one for the last identifier that had an implementation, as a new element would find it. -/
theorem C60_history_partial (imp : Importer) (fm : FunctionMap) (ids : List StrArg) :
    (ids.foldl (fun h a => (h.setIdent imp a).2) ({ map := fm } : FnHolder)).func =
      (ids.filterMap fun a => match a with
        | .str s => (match (fm.get imp s).1 with | .ok (.cls c) => some c | _ => none)
        | .other => none).getLast? := by
  generalize hf : (fun a : StrArg => match a with
        | .str s => (match (fm.get imp s).1 with | .ok (.cls c) => some c | _ => none)
        | .other => none) = f
  have gen : let h := ids.foldl (fun h a => (h.setIdent imp a).2) ({ map := fm } : FnHolder)
      h.load = true ∧ (∃ before : List String, h.map = fmRun imp fm (before.map .get)) ∧
      h.func = (ids.filterMap f).getLast? := by
    induction ids using List.reverseRec' with
    | h0 => exact ⟨rfl, ⟨[], rfl⟩, rfl⟩
    | h1 ids a ih =>
      simp only [List.foldl_append, List.foldl_cons, List.foldl_nil, List.filterMap_append, List.getLast?_append]
      revert ih
      generalize List.foldl (fun h a => (FnHolder.setIdent imp h a).2) _ ids = h
      rintro ⟨h1, ⟨before, h2⟩, h3⟩
      cases a with
      | other => subst hf; exact ⟨h1, ⟨before, h2⟩, by simp [FnHolder.setIdent, h3]⟩
      | str s =>
        have hst : (h.map.get imp s).1 = (fm.get imp s).1 := by rw [h2]; exact C34_stable imp fm before s
        have hrun : (h.map.get imp s).2 = fmRun imp fm ((before ++ [s]).map .get) := by
          rw [h2]; simp [fmRun, FmEvent.step]
        have hmap : (h.setIdent imp (.str s)).2.map = (h.map.get imp s).2 := by
          simp only [FnHolder.setIdent, FnHolder.setFunctionFromMap, h1, if_true]
          generalize h.map.get imp s = r
          obtain ⟨r, m'⟩ := r
          match r with
          | .error e => rfl
          | .ok .notImplemented => rfl
          | .ok (.cls c) => rfl
        have hload : (h.setIdent imp (.str s)).2.load = true := by
          simp only [FnHolder.setIdent, FnHolder.setFunctionFromMap, h1, if_true]
          generalize h.map.get imp s = r
          obtain ⟨r, m'⟩ := r
          match r with
          | .error e => rfl
          | .ok .notImplemented => rfl
          | .ok (.cls c) => rfl
        refine ⟨hload, ⟨before ++ [s], by rw [hmap, hrun]⟩, ?_⟩
        obtain ⟨g1, g2, _⟩ := C60_step_partial imp h h1 s
        rw [hst] at g1 g2
        subst hf
        match hg : (fm.get imp s).1 with
        | .ok (.cls c) => rw [(g1 c hg).2.2]; simp [hg]
        | .ok .notImplemented =>
          rw [(g2 (by intro c hc; rw [hg] at hc; injection hc with hc; cases hc)).2, h3]; simp [hg]
        | .error e => rw [(g2 (by intro c hc; rw [hg] at hc; cases hc)).2, h3]; simp [hg]
  exact gen.2.2

section NonVacuity
private def hdr0 : Header := { alg := none, target := none }

/-- A policy with the permit-overrides identifier; the assignment of an unknown one fails. -/
example : ruleAlgorithm "urn:oasis:names:tc:xacml:1.0:rule-combining-algorithm:permit-overrides"
    = some rulePermitOverrides := by simp [ruleAlgorithm]
example : ruleAlgorithm "urn:oasis:names:tc:xacml:1.1:rule-combining-algorithm:ordered-deny-overrides" = none := by
  simp [ruleAlgorithm]
example : policyAlgorithm "urn:oasis:names:tc:xacml:1.0:policy-combining-algorithm:only-one-applicable" = none := by
  simp [policyAlgorithm]

/-- A history: good, unknown, good of another kind, not a string. -/
example : (hdr0.setAlgIds ruleAlgMap
    [.str "urn:oasis:names:tc:xacml:1.0:rule-combining-algorithm:deny-overrides", .str "x",
     .str "urn:oasis:names:tc:xacml:1.0:rule-combining-algorithm:first-applicable", .other]).alg
    = some .firstApplicable := by
  rw [C31_history_partial]
  simp [named, ruleAlgMap, dictGet_set, fromKeys, ruleAlgorithms, dictGet, List.filterMap]

/-- A history of a match element ending with a selector. -/
example : lastAssigned [.setDesignator (some (.subject, Samples.roleDes)), .setSelector (some ⟨none, none, false⟩),
    .setDesignator none, .setMatchId .other] = .selector ⟨none, none, false⟩ := rfl

example : implemented.lookup "urn:oasis:names:tc:xacml:1.0:function:string-equal"
    = some (.equal, some stringClass) := by simp [implemented]
end NonVacuity

end Xacml
