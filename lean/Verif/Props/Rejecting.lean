import Verif.Spec.Rejecting
import Verif.Props.Finder

/-!
# C106: which exceptions reading a policy document raises
-/
namespace Xacml
open Spec

section
variable {env : RdEnv}

/-- Reading failed with an XMLParseError or with the exception of a flaw in the document. -/
private def Blamed (env : RdEnv) (n : XNode) (e : Exc) : Prop := e = .xmlParseError ∨ FlawIn env n e

private theorem Blamed.child {n c : XNode} {e : Exc} (hc : c ∈ n.children) (h : Blamed env c e) : Blamed env n e := by
  rcases h with h | ⟨x, hx, hf⟩
  · exact .inl h
  · exact .inr ⟨x, .child _ _ _ hc hx, hf⟩

private theorem Blamed.here {n : XNode} {e : Exc} (h : Flaw env n e) : Blamed env n e := .inr ⟨n, .refl _, h⟩

/-- The exceptions of a computation all satisfy `P`. -/
private def Only {α} (P : Exc → Prop) (x : Except Exc α) : Prop := ∀ e, x = .error e → P e

private theorem Only.ok {α} {P : Exc → Prop} {a : α} : Only P (.ok a) := by intro e h; cases h
private theorem Only.pure {α} {P : Exc → Prop} {a : α} : Only P (Pure.pure a : Except Exc α) := by intro e h; cases h
private theorem Only.error {α} {P : Exc → Prop} {e : Exc} (h : P e) : Only P (.error e : Except Exc α) := by
  intro e' h'; cases h'; exact h

private theorem Only.bind {α β} {P : Exc → Prop} {x : Except Exc α} {f : α → Except Exc β} (hx : Only P x)
    (hf : ∀ a, x = .ok a → Only P (f a)) : Only P (x >>= f) := by
  cases x with
  | error e => exact Only.error (hx e rfl)
  | ok a => exact hf a rfl

private theorem Only.map {α β} {P : Exc → Prop} {x : Except Exc α} {f : α → β} (hx : Only P x) :
    Only P (x.map f) := by
  cases x with
  | error e => exact Only.error (hx e rfl)
  | ok a => exact Only.ok

private theorem Only.mono {α} {P Q : Exc → Prop} {x : Except Exc α} (hx : Only P x) (h : ∀ e, P e → Q e) : Only Q x :=
  fun e he => h e (hx e he)

private theorem only_expectName (n : XNode) (k : String) : Only (Blamed env n) (expectName n k) := by
  unfold expectName
  split
  · exact Only.ok
  · exact Only.error (.inl rfl)

private theorem expectName_eq {n : XNode} {k : String} {u : Unit} (h : expectName n k = .ok u) : n.name = k := by
  unfold expectName at h
  split at h
  · assumption
  · cases h

private theorem only_requiredAttr (n : XNode) (k : String) : Only (Blamed env n) (requiredAttr n k) := by
  unfold requiredAttr
  split
  · exact Only.ok
  · exact Only.error (.inl rfl)

private theorem requiredAttr_eq {n : XNode} {k s : String} (h : requiredAttr n k = .ok s) : n.attr k = some s := by
  unfold requiredAttr at h
  split at h
  · cases h; assumption
  · cases h

private theorem only_value (n : XNode) : Only (Blamed env n) (readAttributeValue env n) := by
  unfold readAttributeValue
  refine (only_expectName n _).bind fun u hu => (only_requiredAttr n _).bind fun dt hdt => ?_
  have hn := expectName_eq hu
  have ha := requiredAttr_eq hdt
  split
  · exact Only.error (.inl rfl)
  · rename_i c hc
    have hc' : env.classMap.lookup dt = some c := hc
    split
    · rename_i hr
      exact Only.error (.here (.unread hn ha (by rw [hc']; rfl) hr))
    · rename_i r hr
      intro e he
      exact .here (.value hn ha hc' hr he)

private theorem only_designator {cat : Category} (n : XNode) (hcat : cat ≠ .environment) :
    Only (Blamed env n) (readDesignator cat n) := by
  unfold readDesignator
  rw [if_neg hcat]
  exact (only_expectName n _).bind fun _ _ => (only_requiredAttr n _).bind fun _ _ =>
    (only_requiredAttr n _).bind fun _ _ => Only.ok

private theorem only_environmentDesignator (n : XNode) (hn : n.name = "EnvironmentAttributeDesignator") :
    Only (Blamed env n) (readDesignator .environment n) := by
  unfold readDesignator
  exact Only.error (.here (.readerless (by rw [hn]; simp [readerlessTags])))

private theorem only_selector (n : XNode) : Only (Blamed env n) (readSelector n) := by
  unfold readSelector
  exact (only_expectName n _).bind fun _ _ => (only_requiredAttr n _).bind fun _ _ =>
    (only_requiredAttr n _).bind fun _ _ => Only.ok

/-- Blamed on an element of a list. -/
private def BlamedL (env : RdEnv) (l : List XNode) (e : Exc) : Prop :=
  e = .xmlParseError ∨ ∃ c ∈ l, FlawIn env c e

private theorem BlamedL.node {n : XNode} {e : Exc} (h : BlamedL env n.children e) : Blamed env n e := by
  rcases h with h | ⟨c, hc, hf⟩
  · exact .inl h
  · exact Blamed.child hc (.inr hf)

private theorem BlamedL.elemsNode {n : XNode} {e : Exc} (h : BlamedL env (elementChildren n.children) e) :
    Blamed env n e := by
  rcases h with h | ⟨c, hc, hf⟩
  · exact .inl h
  · exact Blamed.child (List.mem_filter.mp hc).1 (.inr hf)

private theorem BlamedL.head {n : XNode} {l : List XNode} {e : Exc} (h : Blamed env n e) : BlamedL env (n :: l) e := by
  rcases h with h | h
  · exact .inl h
  · exact .inr ⟨n, List.mem_cons_self .., h⟩

private theorem BlamedL.tail {n : XNode} {l : List XNode} {e : Exc} (h : BlamedL env l e) : BlamedL env (n :: l) e := by
  rcases h with h | ⟨c, hc, h⟩
  · exact .inl h
  · exact .inr ⟨c, List.mem_cons_of_mem _ hc, h⟩

/-- An argument list: its flaws, or a Condition among the arguments. -/
private def BlamedArgs (env : RdEnv) (l : List XNode) (e : Exc) : Prop :=
  BlamedL env l e ∨ (e = .typeError ∧ ∃ c ∈ l, c.isElem = true ∧ c.name = "Condition")

/-- The child of a condition: its flaws, or not an Apply. -/
private def BlamedSole (env : RdEnv) (l : List XNode) (e : Exc) : Prop :=
  BlamedL env l e ∨ ((elementChildren l).length = 1 → e = .attributeError ∧ ∃ c, elementChildren l = [c] ∧ c.name ≠ "Apply")

mutual
private theorem only_apply (env : RdEnv) : ∀ n : XNode, n.isElem = true → Only (Blamed env n) (readApply env n)
  | .other, h => by cases h
  | .elem tag attrib text children, _ => by
    unfold readApply
    refine (only_expectName _ _).bind fun u hu => (only_requiredAttr _ _).bind fun fid hfid =>
      Only.bind (fun e he => .here (.applied (expectName_eq hu) (requiredAttr_eq hfid) he)) fun f _ =>
      Only.bind ((only_args env children).mono fun e he => ?_) fun _ _ => Only.ok
    rcases he with he | ⟨rfl, c, hc, hel, hcn⟩
    · exact BlamedL.node (n := .elem tag attrib text children) he
    · exact .here (.conditionInApply (expectName_eq hu) (List.mem_filter.mpr ⟨hc, hel⟩) hcn)
private theorem only_args (env : RdEnv) : ∀ l : List XNode, Only (BlamedArgs env l) (readArgs env l)
  | [] => by unfold readArgs; exact Only.ok
  | .other :: rest => by
    unfold readArgs
    refine (only_args env rest).mono fun e he => ?_
    rcases he with he | ⟨h1, c, hc, h2⟩
    · exact .inl he.tail
    · exact .inr ⟨h1, c, List.mem_cons_of_mem _ hc, h2⟩
  | .elem tag a t cs :: rest => by
    unfold readArgs
    have hd : ∀ {α} {x : Except Exc α}, Only (Blamed env (.elem tag a t cs)) x →
        Only (BlamedArgs env (.elem tag a t cs :: rest)) x :=
      fun h => h.mono fun e he => .inl (BlamedL.head he)
    refine Only.bind ?_ fun x _ => Only.bind ((only_args env rest).mono fun e he => ?_) fun _ _ => Only.ok
    · split
      · exact hd (only_apply env _ rfl)
      · split
        · exact hd (only_value _).map
        · split
          · exact hd (only_designator _ (by decide)).map
          · split
            · exact hd (only_designator _ (by decide)).map
            · split
              · rename_i h
                exact hd (only_environmentDesignator (.elem tag a t cs) h).map
              · split
                · exact hd (only_designator _ (by decide)).map
                · split
                  · exact hd (only_selector _).map
                  · split
                    · rename_i h
                      exact (hd (only_condition env _ rfl)).bind fun _ _ =>
                        Only.error (.inr ⟨rfl, _, List.mem_cons_self .., rfl, h⟩)
                    · split
                      · rename_i h
                        have h' : (XNode.elem tag a t cs).name = "Function" := h
                        exact hd (Only.error (.here (.unsupported (by rw [h']; simp [unsupportedTags]))))
                      · split
                        · rename_i h
                          have h' : (XNode.elem tag a t cs).name = "VariableReference" := h
                          exact hd (Only.error (.here (.unsupported (by rw [h']; simp [unsupportedTags]))))
                        · exact hd (Only.error (.inl rfl))
    · rcases he with he | ⟨h1, c, hc, h2⟩
      · exact .inl he.tail
      · exact .inr ⟨h1, c, List.mem_cons_of_mem _ hc, h2⟩
private theorem only_condition (env : RdEnv) : ∀ n : XNode, n.isElem = true → Only (Blamed env n) (readConditionExpr env n)
  | .other, h => by cases h
  | .elem tag attrib text children, _ => by
    unfold readConditionExpr
    refine (only_expectName _ _).bind fun u hu => ?_
    split
    · exact Only.error (.inl rfl)
    · rename_i hl
      refine (only_sole env children).mono fun e he => ?_
      rcases he with he | he
      · exact BlamedL.node (n := .elem tag attrib text children) he
      · obtain ⟨rfl, c, hc, hn⟩ := he (by omega)
        exact .here (.condition (expectName_eq hu) hc hn)
private theorem only_sole (env : RdEnv) : ∀ l : List XNode, Only (BlamedSole env l) (readSoleChild env l)
  | [] => by unfold readSoleChild; exact Only.error (.inr fun h => by cases h)
  | .other :: rest => by
    unfold readSoleChild
    refine (only_sole env rest).mono fun e he => ?_
    rcases he with he | he
    · exact .inl he.tail
    · exact .inr he
  | .elem tag a t cs :: rest => by
    unfold readSoleChild
    split
    · exact (only_apply env _ rfl).mono fun e he => .inl (BlamedL.head he)
    · rename_i h
      refine Only.error (.inr fun hl => ⟨rfl, .elem tag a t cs, ?_, h⟩)
      have : elementChildren (.elem tag a t cs :: rest) = .elem tag a t cs :: elementChildren rest := rfl
      rw [this] at hl ⊢
      have : (elementChildren rest) = [] := by simpa using hl
      rw [this]
end

private theorem designatorTag_of {cat : Category} (h : cat ≠ .environment) : designatorTag cat = some cat.designatorName := by
  cases cat <;> first | rfl | exact absurd rfl h

private theorem matchTag_of {cat : Category} (h : cat ≠ .environment) : matchTag cat = some cat.matchName := by
  cases cat <;> first | rfl | exact absurd rfl h

private theorem only_matchChild {cat : Category} (hcat : cat ≠ .environment) (m : Match) (p n : XNode)
    (hp : matchTag cat = some p.name) (hn : n ∈ elementChildren p.children) :
    Only (Blamed env p) (readMatchChild env cat m n) := by
  have hc : ∀ e, Blamed env n e → Blamed env p e := fun e => Blamed.child (List.mem_filter.mp hn).1
  unfold readMatchChild
  split
  · exact ((only_value n).mono hc).bind fun _ _ => Only.ok
  · rename_i h1
    split
    · split
      · exact Only.error (.inl rfl)
      · exact ((only_designator n hcat).mono hc).bind fun _ _ => Only.ok
    · rename_i h2
      split
      · split
        · exact Only.error (.inl rfl)
        · exact ((only_selector n).mono hc).bind fun _ _ => Only.ok
      · rename_i h3
        refine Only.error (.here (.matchChild hp hn h1 ?_ h3))
        rw [designatorTag_of hcat]
        intro h
        exact h2 (Option.some.inj h).symm

private theorem only_matchChildren {cat : Category} (hcat : cat ≠ .environment) (p : XNode)
    (hp : matchTag cat = some p.name) (l : List XNode) : ∀ m : Match, (∀ n ∈ l, n ∈ elementChildren p.children) →
    Only (Blamed env p) (readMatchChildren env cat m l) := by
  induction l with
  | nil => intro m _; exact Only.ok
  | cons n rest ih =>
    intro m hl
    unfold readMatchChildren
    exact (only_matchChild hcat m p n hp (hl n (List.mem_cons_self ..))).bind fun m' _ =>
      ih m' fun x hx => hl x (List.mem_cons_of_mem _ hx)

private theorem only_match (cat : Category) (n : XNode) (hn : n.name = cat.matchName) :
    Only (Blamed env n) (readMatch env cat n) := by
  unfold readMatch
  split
  · rename_i h
    subst h
    exact Only.error (.here (.readerless (by rw [hn]; simp [readerlessTags, Category.matchName])))
  · rename_i h
    have ht : matchTag cat = some n.name := by rw [hn]; exact matchTag_of h
    exact (only_expectName n _).bind fun _ _ => (only_requiredAttr n _).bind fun mid hmid =>
      Only.bind (fun e he => .here (.matched ht (requiredAttr_eq hmid) he)) fun f _ =>
      only_matchChildren h n ht _ _ fun _ hx => hx

private theorem only_matches (cat : Category) (l : List XNode) : Only (BlamedL env l) (readMatches env cat l) := by
  induction l with
  | nil => exact Only.ok
  | cons n rest ih =>
    unfold readMatches
    split
    · rename_i h
      exact ((only_match cat n h).mono fun _ he => BlamedL.head he).bind fun _ _ =>
        (ih.mono fun _ he => he.tail).bind fun _ _ => Only.ok
    · exact Only.error (.inl rfl)

private theorem only_targetChild (cat : Category) (n : XNode) : Only (Blamed env n) (readTargetChild env cat n) := by
  unfold readTargetChild
  exact (only_expectName n _).bind fun _ _ =>
    ((only_matches cat _).mono fun _ he => he.elemsNode).bind fun _ _ => Only.ok

private theorem only_targetChildren (cat : Category) (l : List XNode) :
    Only (BlamedL env l) (readTargetChildren env cat l) := by
  induction l with
  | nil => exact Only.ok
  | cons n rest ih =>
    unfold readTargetChildren
    exact ((only_targetChild cat n).mono fun _ he => BlamedL.head he).bind fun _ _ =>
      (ih.mono fun _ he => he.tail).bind fun _ _ => Only.ok

private theorem only_section (t : Target) (n : XNode) : Only (Blamed env n) (readSection env t n) := by
  have h : ∀ cat, Only (Blamed env n) (readTargetChildren env cat (elementChildren n.children)) :=
    fun cat => (only_targetChildren cat _).mono fun _ he => he.elemsNode
  unfold readSection
  split
  · exact (h _).bind fun _ _ => Only.ok
  · split
    · exact (h _).bind fun _ _ => Only.ok
    · split
      · exact (h _).bind fun _ _ => Only.ok
      · split
        · exact (h _).bind fun _ _ => Only.ok
        · exact Only.error (.inl rfl)

private theorem only_sections (l : List XNode) : ∀ t : Target, Only (BlamedL env l) (readSections env t l) := by
  induction l with
  | nil => intro t; exact Only.ok
  | cons n rest ih =>
    intro t
    unfold readSections
    exact ((only_section t n).mono fun _ he => BlamedL.head he).bind fun t' _ => (ih t').mono fun _ he => he.tail

private theorem only_target (n : XNode) : Only (Blamed env n) (readTarget env n) := by
  unfold readTarget
  exact (only_expectName n _).bind fun _ _ => (only_sections _ _).mono fun _ he => he.elemsNode

private theorem only_ruleChild (r : Rule) (n : XNode) (hn : n.isElem = true) :
    Only (Blamed env n) (readRuleChild env r n) := by
  unfold readRuleChild
  split
  · split <;> exact Only.ok
  · split
    · exact (only_condition env n hn).bind fun _ _ => Only.ok
    · split
      · exact (only_target n).bind fun _ _ => Only.ok
      · exact Only.error (.inl rfl)

private theorem only_ruleChildren (l : List XNode) : ∀ r : Rule, (∀ n ∈ l, n.isElem = true) →
    Only (BlamedL env l) (readRuleChildren env r l) := by
  induction l with
  | nil => intro r _; exact Only.ok
  | cons n rest ih =>
    intro r hl
    unfold readRuleChildren
    exact ((only_ruleChild r n (hl n (List.mem_cons_self ..))).mono fun _ he => BlamedL.head he).bind fun r' _ =>
      (ih r' fun x hx => hl x (List.mem_cons_of_mem _ hx)).mono fun _ he => he.tail

private theorem isElem_of_elementChildren {l : List XNode} : ∀ n ∈ elementChildren l, n.isElem = true :=
  fun _ h => (List.mem_filter.mp h).2

private theorem only_rule (n : XNode) : Only (Blamed env n) (readRule env n) := by
  unfold readRule
  refine (only_expectName n _).bind fun u hu => (only_requiredAttr n _).bind fun _ _ =>
    (only_requiredAttr n _).bind fun s hs => Only.bind ?_ fun _ _ =>
    (only_ruleChildren _ _ isElem_of_elementChildren).mono fun _ he => he.elemsNode
  unfold parseEffect
  split
  · exact Only.ok
  · split
    · exact Only.ok
    · rename_i h1 h2
      exact Only.error (.here (.effect (expectName_eq hu) (requiredAttr_eq hs) fun x => by
        cases x <;> assumption))

private theorem only_defaults (n : XNode) : Only (Blamed env n) (readPolicyDefaults n) := by
  unfold readPolicyDefaults
  refine (only_expectName n _).bind fun u hu => ?_
  split
  · split
    · exact Only.error (.inl rfl)
    · split
      · exact Only.ok
      · exact Only.error (.inl rfl)
  · rename_i h
    exact Only.error (.here (.defaults (expectName_eq hu) ⟨_, h, rfl⟩))
  · exact Only.error (.inl rfl)

private theorem setAlgId_error {map : List (String × AlgEntry)} {h : Header} {s : String} {e : Exc}
    (he : loadAlg map h s = .error e) : e = .typeError := by
  unfold loadAlg Header.setAlgId at he
  split at he
  · cases he
  · cases he
    rename_i heq
    split at heq
    · cases heq; rfl
    · split at heq
      all_goals first | (cases heq; done) | (cases heq; rfl)

private theorem only_ruleAlg {n : XNode} {h : Header} {s : String} (hn : n.name = "Policy")
    (ha : n.attr "RuleCombiningAlgId" = some s) : Only (Blamed env n) (loadAlg ruleAlgMap h s) := by
  intro e he
  have := setAlgId_error he
  subst this
  refine .here (.ruleAlgorithm hn ha ?_)
  cases hs : ruleAlg s with
  | none => rfl
  | some a =>
    have := (loadAlg_rule_ok (h := h) (h' := { h with algId := some s, alg := ruleAlg s }) (s := s)).mpr ⟨by rw [hs]; rfl, rfl⟩
    rw [he] at this; cases this

private theorem only_policyAlg {n : XNode} {h : Header} {s : String} (hn : n.name = "PolicySet")
    (ha : n.attr "PolicyCombiningAlgId" = some s) : Only (Blamed env n) (loadAlg policyAlgMap h s) := by
  intro e he
  have := setAlgId_error he
  subst this
  refine .here (.policyAlgorithm hn ha ?_)
  cases hs : policyAlg s with
  | none => rfl
  | some a =>
    exfalso
    unfold policyAlg at hs
    split at hs
    · rename_i h1; subst h1; cases he
    · split at hs
      · rename_i h1; subst h1; cases he
      · split at hs
        · rename_i h1; subst h1; cases he
        · cases hs

private theorem only_policyChild (p : Header × List Rule) (n : XNode) :
    Only (Blamed env n) (readPolicyChild env p n) := by
  unfold readPolicyChild
  split
  · split <;> exact Only.ok
  · split
    · exact (only_defaults n).bind fun _ _ => Only.ok
    · split
      · exact (only_target n).bind fun _ _ => Only.ok
      · split
        · rename_i h
          exact Only.error (.here (.unsupported (by rw [h]; simp [unsupportedTags])))
        · split
          · rename_i h
            exact Only.error (.here (.unsupported (by rw [h]; simp [unsupportedTags])))
          · split
            · rename_i h
              exact Only.error (.here (.readerless (by rw [h]; simp [readerlessTags])))
            · split
              · refine (only_rule n).bind fun r _ => ?_
                split
                · exact Only.error (.inl rfl)
                · exact Only.ok
              · split
                · rename_i h
                  exact Only.error (.here (.unsupported (by rw [h]; simp [unsupportedTags])))
                · exact Only.error (.inl rfl)

private theorem only_policyChildren (l : List XNode) : ∀ p : Header × List Rule,
    Only (BlamedL env l) (readPolicyChildren env p l) := by
  induction l with
  | nil => intro p; exact Only.ok
  | cons n rest ih =>
    intro p
    unfold readPolicyChildren
    exact ((only_policyChild p n).mono fun _ he => BlamedL.head he).bind fun p' _ => (ih p').mono fun _ he => he.tail

private theorem only_policy (n : XNode) : Only (Blamed env n) (readPolicy env n) := by
  unfold readPolicy
  exact (only_expectName n _).bind fun u hu => (only_requiredAttr n _).bind fun _ _ =>
    (only_requiredAttr n _).bind fun s hs => (only_ruleAlg (expectName_eq hu) (requiredAttr_eq hs)).bind fun _ _ =>
    ((only_policyChildren _ _).mono fun _ he => he.elemsNode).bind fun _ _ => Only.ok

/-! ## Policy sets -/

/-- The exceptions of a computation with a finder all satisfy `P`. -/
private def OnlyM {α} (P : Exc → Prop) (m : FM α) : Prop := ∀ s, Only P (m s).1

private theorem OnlyM.pure {α} {P : Exc → Prop} {a : α} : OnlyM P (Pure.pure a : FM α) := fun _ => Only.ok
private theorem OnlyM.throw {α} {P : Exc → Prop} {e : Exc} (h : P e) : OnlyM P (FM.throw e : FM α) := fun _ => Only.error h
private theorem OnlyM.lift {α} {P : Exc → Prop} {x : Except Exc α} (h : Only P x) : OnlyM P (FM.lift x) := by
  cases x with
  | ok a => exact OnlyM.pure
  | error e => exact OnlyM.throw (h e rfl)
private theorem OnlyM.bind {α β} {P : Exc → Prop} {x : FM α} {f : α → FM β} (hx : OnlyM P x)
    (hf : ∀ a, OnlyM P (f a)) : OnlyM P (x >>= f) := by
  intro s
  show Only P (FM.bind x f s).1
  unfold FM.bind
  have h1 := hx s
  split
  · rename_i a s' h
    exact hf a s'
  · rename_i e s' h
    rw [h] at h1
    exact Only.error (h1 e rfl)
private theorem OnlyM.mono {α} {P Q : Exc → Prop} {x : FM α} (hx : OnlyM P x) (h : ∀ e, P e → Q e) : OnlyM Q x :=
  fun s => (hx s).mono h
private theorem OnlyM.ite {α} {P : Exc → Prop} {c : Prop} [Decidable c] {a b : FM α} (ha : c → OnlyM P a)
    (hb : OnlyM P b) : OnlyM P (if c then a else b) := by
  by_cases h : c
  · rw [if_pos h]; exact ha h
  · rw [if_neg h]; exact hb
private theorem OnlyM.lift_bind {α β} {P : Exc → Prop} {x : Except Exc α} {f : α → FM β} (hx : Only P x)
    (hf : ∀ a, x = .ok a → OnlyM P (f a)) : OnlyM P (FM.lift x >>= f) := by
  cases x with
  | ok a => exact fun s => hf a rfl s
  | error e => exact fun s => Only.error (hx e rfl)

private theorem only_policyReg (n : XNode) : OnlyM (Blamed env n) (readPolicyReg env n) := by
  unfold readPolicyReg
  refine OnlyM.lift_bind (only_policy n) fun p hp => OnlyM.bind ?_ fun _ => OnlyM.pure
  obtain ⟨-, -, h, rules, rfl, -⟩ := readPolicy_ok.mp hp
  intro s
  unfold addPolicyReference
  dsimp only
  split
  · exact Only.error (.inl rfl)
  · exact Only.ok

private theorem only_addSet (P : Exc → Prop) (hP : P .xmlParseError) (h : Header) (ps : List PolicyNode) :
    OnlyM P (addPolicySetReference (.policySet h ps)) := by
  intro s
  unfold addPolicySetReference
  dsimp only
  split
  · exact Only.error hP
  · exact Only.ok

mutual
private theorem only_set (env : RdEnv) (res : Resolver) (Q : Exc → Prop) (h1 : ∀ r, OnlyM Q (res.findPolicy r))
    (h2 : ∀ r, OnlyM Q (res.findPolicySet r)) : ∀ n : XNode, n.isElem = true →
      OnlyM (fun e => Blamed env n e ∨ Q e) (readPolicySet env res n)
  | .other, h => by cases h
  | .elem tag attrib text children, _ => by
    unfold readPolicySet
    refine OnlyM.lift_bind ((only_expectName _ _).mono fun _ => .inl) fun u hu =>
      OnlyM.lift_bind ((only_requiredAttr _ _).mono fun _ => .inl) fun _ _ =>
      OnlyM.lift_bind ((only_requiredAttr _ _).mono fun _ => .inl) fun s hs =>
      OnlyM.lift_bind ((only_policyAlg (expectName_eq hu) (requiredAttr_eq hs)).mono fun _ => .inl) fun h _ =>
      OnlyM.bind ((only_setChildren env res Q h1 h2 children _).mono fun e he => ?_) fun p =>
      OnlyM.bind (only_addSet _ (.inl (.inl rfl)) _ _) fun _ => OnlyM.pure
    rcases he with he | he
    · exact .inl (BlamedL.node (n := .elem tag attrib text children) he)
    · exact .inr he
private theorem only_setChildren (env : RdEnv) (res : Resolver) (Q : Exc → Prop) (h1 : ∀ r, OnlyM Q (res.findPolicy r))
    (h2 : ∀ r, OnlyM Q (res.findPolicySet r)) : ∀ (l : List XNode) (p : Header × List PolicyNode),
      OnlyM (fun e => BlamedL env l e ∨ Q e) (readSetChildren env res p l)
  | [], p => by unfold readSetChildren; exact OnlyM.pure
  | .other :: rest, p => by
    unfold readSetChildren
    exact (only_setChildren env res Q h1 h2 rest p).mono fun e he => he.imp BlamedL.tail id
  | .elem tag a t cs :: rest, p => by
    unfold readSetChildren
    have hd : ∀ {α} {x : Except Exc α}, Only (Blamed env (.elem tag a t cs)) x →
        Only (fun e => BlamedL env (.elem tag a t cs :: rest) e ∨ Q e) x :=
      fun h => h.mono fun e he => .inl (BlamedL.head he)
    have hu : ∀ {α}, (XNode.elem tag a t cs).name ∈ unsupportedTags →
        OnlyM (fun e => BlamedL env (.elem tag a t cs :: rest) e ∨ Q e) (FM.throw .notImplementedError : FM α) :=
      fun h => OnlyM.throw (.inl (BlamedL.head (.here (.unsupported h))))
    refine OnlyM.bind ?_ fun p' => (only_setChildren env res Q h1 h2 rest p').mono fun e he => he.imp BlamedL.tail id
    have mem : ∀ {k : String}, localPart tag = k → k ∈ unsupportedTags → (XNode.elem tag a t cs).name ∈ unsupportedTags :=
      fun h hk => by
        have h' : (XNode.elem tag a t cs).name = _ := h
        rw [h']; exact hk
    refine OnlyM.ite (fun _ => ?_) (OnlyM.ite (fun _ => ?_) (OnlyM.ite (fun _ => ?_) (OnlyM.ite (fun h => ?_)
      (OnlyM.ite (fun h => ?_) (OnlyM.ite (fun h => ?_) (OnlyM.ite (fun h => ?_) (OnlyM.ite (fun _ => ?_)
      (OnlyM.ite (fun _ => ?_) (OnlyM.ite (fun _ => ?_) (OnlyM.ite (fun _ => ?_) (OnlyM.ite (fun h => ?_) ?_)))))))))))
    · cases t <;> exact OnlyM.pure
    · exact OnlyM.bind (OnlyM.lift (hd (only_defaults _))) fun _ => OnlyM.pure
    · exact OnlyM.bind (OnlyM.lift (hd (only_target _))) fun _ => OnlyM.pure
    · exact hu (mem h (by simp [unsupportedTags]))
    · exact hu (mem h (by simp [unsupportedTags]))
    · exact hu (mem h (by simp [unsupportedTags]))
    · have h' : (XNode.elem tag a t cs).name = "VariableDefinition" := h
      exact OnlyM.throw (.inl (BlamedL.head (.here (.readerless (by rw [h']; simp [readerlessTags])))))
    · exact OnlyM.bind ((only_policyReg _).mono fun e he => .inl (BlamedL.head he)) fun _ => OnlyM.pure
    · exact OnlyM.bind ((h1 t).mono fun e he => .inr he) fun _ => OnlyM.pure
    · exact OnlyM.bind ((only_set env res Q h1 h2 _ rfl).mono fun e he => he.imp BlamedL.head id) fun _ => OnlyM.pure
    · exact OnlyM.bind ((h2 t).mono fun e he => .inr he) fun _ => OnlyM.pure
    · exact hu (mem h (by simp [unsupportedTags]))
    · exact OnlyM.throw (.inl (.inl rfl))
end

private theorem only_root (env : RdEnv) (res : Resolver) (Q : Exc → Prop) (h1 : ∀ r, OnlyM Q (res.findPolicy r))
    (h2 : ∀ r, OnlyM Q (res.findPolicySet r)) (n : XNode) :
    OnlyM (fun e => Blamed env n e ∨ Q e) (readRoot env res n) := by
  unfold readRoot
  split
  · exact (only_policyReg n).mono fun e he => .inl he
  · split
    · refine only_set env res Q h1 h2 n ?_
      rename_i h
      cases n with
      | other => exact absurd h (by decide)
      | elem => rfl
    · exact OnlyM.throw (.inl (.inl rfl))

private theorem only_local : (∀ r, OnlyM (· = .xmlParseError) (localResolver.findPolicy r)) ∧
    (∀ r, OnlyM (· = .xmlParseError) (localResolver.findPolicySet r)) := by
  constructor <;> intro r s <;> simp only [localResolver] <;> split <;> first | exact Only.ok | exact Only.error rfl

private theorem only_joinBase {base : Option (List Char)} {path : List Char} :
    Only (fun e => base = none ∧ e = .typeError) (joinBase base path) := by
  unfold joinBase
  split
  · exact Only.ok
  · exact Only.error ⟨rfl, rfl⟩

private theorem only_makeUrl (env : RdEnv) (base : Option String) (fetch : Fetch) (ref : Option String) :
    Only (Trouble env base fetch) (makeUrlOpt base ref) := by
  cases ref with
  | none => exact Only.error .textless
  | some ref =>
    have hb : ∀ path, Only (Trouble env base fetch) (joinBase (base.map String.toList) path) :=
      fun path => only_joinBase.mono fun e he => by
        obtain ⟨h, rfl⟩ := he
        exact .relative (by simpa using h)
    unfold makeUrlOpt makeUrl
    refine Only.map ?_
    dsimp only
    split
    · split
      · exact (hb _).map
      · split
        · exact (hb _).map
        · exact Only.ok
    · split
      · exact Only.ok
      · split
        · exact Only.ok
        · exact (hb _).map

private theorem only_url (env : RdEnv) (base : Option String) (fetch : Fetch) (depth : Nat) :
    (∀ r, OnlyM (fun e => e = .xmlParseError ∨ Trouble env base fetch e)
      ((urlResolver env base fetch depth).findPolicy r)) ∧
    (∀ r, OnlyM (fun e => e = .xmlParseError ∨ Trouble env base fetch e)
      ((urlResolver env base fetch depth).findPolicySet r)) := by
  induction depth with
  | zero =>
    unfold urlResolver
    exact ⟨fun r => OnlyM.throw (.inr .nested), fun r => OnlyM.throw (.inr .nested)⟩
  | succ depth ih =>
    have href : ∀ r, OnlyM (fun e => e = .xmlParseError ∨ Trouble env base fetch e)
        (fromReference base fetch (readRoot env (urlResolver env base fetch depth)) r) := by
      intro r
      unfold fromReference
      refine OnlyM.bind (OnlyM.lift ((only_makeUrl env base fetch r).mono fun _ => .inr)) fun url => ?_
      intro s
      show Only _ (FM.bind (fetchDoc fetch url) _ s).1
      unfold FM.bind fetchDoc
      dsimp only
      cases hf : fetch s.fetched url with
      | error e => exact Only.error (.inr (.fetching hf))
      | ok n =>
        refine ((only_root env _ _ ih.1 ih.2 n) _).mono fun e he => ?_
        rcases he with (he | he) | he
        · exact .inl he
        · exact .inr (.document hf he)
        · exact he
    have hgen : ∀ (r : Option String) (s : Finder) (get : Finder → Option PolicyNode),
        Only (fun e => e = .xmlParseError ∨ Trouble env base fetch e)
          (match get s with
            | some p => ((.ok p : Except Exc PolicyNode), s)
            | none =>
              match fromReference base fetch (readRoot env (urlResolver env base fetch depth)) r s with
              | (.error e, s') => (.error e, s')
              | (.ok _, s') =>
                match get s' with
                | some p => (.ok p, s')
                | none => (.error .xmlParseError, s')).1 := by
      intro r s get
      have h := href r s
      cases get s with
      | some p => exact Only.ok
      | none =>
        rcases hx : fromReference base fetch (readRoot env (urlResolver env base fetch depth)) r s with ⟨x, s'⟩
        rw [hx] at h
        cases x with
        | error e => exact Only.error (h e rfl)
        | ok _ =>
          dsimp only
          cases get s' with
          | some p => exact Only.ok
          | none => exact Only.error (.inl rfl)
    rw [urlResolver]
    exact ⟨fun r s => hgen r s fun s => dictGet s.policies r, fun r s => hgen r s fun s => dictGet s.policySets r⟩

end

/-! ## The theorems -/

/-- C106, what holds: reading a policy raises an XMLParseError, or else the document has an element that
accounts for the exception raised. -/
theorem C106_policy_partial (env : RdEnv) (n : XNode) (e : Exc) (h : policyFromSource env n = .error e) :
    e = .xmlParseError ∨ FlawIn env n e := only_policy n e h

/-- C106, what holds, for policies and policy sets read with a finder that only looks references up. -/
theorem C106_local_partial (env : RdEnv) (n : XNode) (s s' : Finder) (e : Exc)
    (h : fromSource env (some localResolver) (.ok n) s = (.error e, s')) :
    e = .xmlParseError ∨ FlawIn env n e := by
  have := only_root env localResolver _ only_local.1 only_local.2 n s e (by
    have h' : readRoot env localResolver n s = (.error e, s') := h
    rw [h'])
  rcases this with h | h
  · exact h
  · exact .inl h

/-- C106, what holds, when the finder follows references. -/
theorem C106_loading_partial (env : RdEnv) (fetch : Fetch) (depth : Nat) (dirname : Option String) (n : XNode)
    (e : Exc) (h : pdpFromPolicySource env fetch depth (.str dirname) (.ok n) = .error e) :
    e = .xmlParseError ∨ FlawIn env n e ∨ Trouble env dirname fetch e := by
  have hr := only_root env _ _ (only_url env dirname fetch depth).1 (only_url env dirname fetch depth).2 n {} e
  simp only [pdpFromPolicySource, defaultBasePath, pdpSetPolicyFromSource] at h
  rcases hx : readRoot env (urlResolver env dirname fetch depth) n {} with ⟨x, s'⟩
  have hf : fromSource env (some (urlResolver env dirname fetch depth)) (.ok n) {} = (x, s') := hx
  rw [hf] at h
  cases x with
  | ok p => cases h
  | error e' =>
    cases h
    rw [hx] at hr
    rcases hr rfl with (h | h) | h | h
    · exact .inl h
    · exact .inr (.inl h)
    · exact .inl h
    · exact .inr (.inr h)

/-- C106: a policy without flaws is read, or rejected with an XMLParseError. -/
theorem C106_flawless_partial (env : RdEnv) (n : XNode) (h : ∀ e, ¬ FlawIn env n e) :
    (∃ p, IsPolicy env n p ∧ policyFromSource env n = .ok p) ∨ policyFromSource env n = .error .xmlParseError := by
  cases hr : policyFromSource env n with
  | ok p => exact .inl ⟨p, readPolicy_ok.mp hr, rfl⟩
  | error e =>
    rcases C106_policy_partial env n e hr with rfl | h'
    · exact .inr rfl
    · exact absurd h' (h e)

private theorem typeURI_error {sfx ident : List Char} {e : Exc} (h : functionTypeURI sfx ident = .error e) :
    e = .indexError ∨ e = .typeError := by
  unfold functionTypeURI at h
  dsimp only at h
  split at h
  · cases h; exact .inl rfl
  · split at h
    · cases h
    · split at h
      · rename_i n hn
        split at h
        · cases h
        · rename_i hu
          obtain ⟨l1, l2, hl, -⟩ := List.lookup_eq_some_iff.1 hn
          have hm : ∀ x ∈ specialTypes, (typeURI x.2).isSome = true := by decide +kernel
          have := hm _ (hl ▸ List.mem_append_right _ (List.mem_cons_self ..))
          rw [hu] at this; cases this
      · cases h; exact .inr rfl

private theorem base_error {cm : List (String × AVClass)} {fam : Family} {sfx ident : List Char} :
    Only (· ∈ readingErrors) (baseFactory cm fam sfx ident) ∧ ∀ o, baseFactory cm fam sfx ident = .ok o → o ≠ .junk := by
  unfold baseFactory
  constructor
  · intro e h
    split at h
    · rename_i e' he
      cases h
      rcases typeURI_error he with rfl | rfl <;> simp [readingErrors]
    · split at h
      · cases h
      · cases h; simp [readingErrors]
  · intro o h
    split at h
    · cases h
    · split at h
      · cases h; simp
      · cases h

private theorem exact_error {c : FnClass} {ns ident : List Char} :
    Only (· ∈ readingErrors) (exactFactory c ns ident) ∧ ∀ o, exactFactory c ns ident = .ok o → o ≠ .junk := by
  unfold exactFactory
  split
  · exact ⟨Only.ok, fun o h => by cases h; simp⟩
  · exact ⟨Only.ok, fun o h => by cases h; simp⟩

private theorem std_factory {path : List Char} {f : Factory} (h : stdImporter stdClassMap path = .ok f) (ident : List Char) :
    Only (· ∈ readingErrors) (f ident) ∧ ∀ o, f ident = .ok o → o ≠ .junk := by
  unfold stdImporter at h
  simp only at h
  split at h
  · rename_i g hg
    subst h
    obtain ⟨l1, l2, hl, -⟩ := List.lookup_eq_some_iff.1 hg
    have hm : (path, (Except.ok f : Except Exc Factory)) ∈ l1 ++ (path, Except.ok f) :: l2 := by simp
    rw [← hl] at hm
    simp only [List.mem_cons, Prod.mk.injEq, Except.ok.injEq, List.not_mem_nil, or_false] at hm
    rcases hm with ⟨-, rfl⟩ | ⟨-, rfl⟩ | ⟨-, rfl⟩ | ⟨-, rfl⟩ | ⟨-, rfl⟩ | ⟨-, rfl⟩ | ⟨-, rfl⟩ |
      ⟨-, rfl⟩ | ⟨-, rfl⟩ | ⟨-, rfl⟩ | ⟨-, rfl⟩ <;> first | exact base_error | exact exact_error
  · cases h

private theorem std_importer_error {path : List Char} {e : Exc} (h : stdImporter stdClassMap path = .error e) :
    e = .importError := by
  unfold stdImporter at h
  simp only at h
  split at h
  · rename_i g hg
    subst h
    obtain ⟨l1, l2, hl, -⟩ := List.lookup_eq_some_iff.1 hg
    have hm : (path, (Except.error e : Except Exc Factory)) ∈ l1 ++ (path, Except.error e) :: l2 := by simp
    rw [← hl] at hm
    simp at hm
  · cases h; rfl

private theorem std_load (ns : String) : Only (· ∈ readingErrors)
    (FunctionMap.new.loadFunction (stdImporter stdClassMap) ns).1 := by
  intro e h
  have h0 : dictGet FunctionMap.new.store ns = none := rfl
  have h1 : dictGet FunctionMap.new.factories ns = none := rfl
  unfold FunctionMap.loadFunction at h
  rw [h0] at h
  dsimp only at h
  rw [h1] at h
  dsimp only at h
  cases hp : functionClassPath ns.toList with
  | none => rw [hp] at h; cases h; simp [readingErrors]
  | some path =>
    rw [hp] at h
    dsimp only at h
    cases hi : stdImporter stdClassMap path with
    | error e' =>
      rw [hi] at h
      have := std_importer_error hi
      subst this
      simp [FunctionMap.setItem] at h
    | ok f =>
      have hf := std_factory hi ns.toList
      rw [hi] at h
      dsimp only at h
      cases ho : f ns.toList with
      | error e' => rw [ho] at h; cases h; exact hf.1 _ ho
      | ok out =>
        rw [ho] at h
        cases out with
        | none =>
          cases h
          unfold unsupportedError
          split <;> simp [readingErrors]
        | junk => exact absurd rfl (hf.2 _ ho)
        | entry x => cases h

private theorem loaded_stored {imp : Importer} {ns : String} {u : Unit} {m' : FunctionMap}
    (h : FunctionMap.new.loadFunction imp ns = (.ok u, m')) : dictGet m'.store ns ≠ none := by
  have h0 : dictGet FunctionMap.new.store ns = none := rfl
  have h1 : dictGet FunctionMap.new.factories ns = none := rfl
  have hset : ∀ {out : FactoryOut} {u : Unit} {m' : FunctionMap},
      FunctionMap.new.setItem ns out = (.ok u, m') → dictGet m'.store ns ≠ none := by
    intro out u m' h
    cases out <;> cases h
    simp [dictGet_set]
  unfold FunctionMap.loadFunction at h
  rw [h0] at h
  dsimp only at h
  rw [h1] at h
  dsimp only at h
  cases hp : functionClassPath ns.toList with
  | none => rw [hp] at h; cases h
  | some path =>
    rw [hp] at h
    dsimp only at h
    cases hi : imp path with
    | error e' =>
      rw [hi] at h
      dsimp only at h
      split at h
      · exact hset h
      · cases h
    | ok f =>
      rw [hi] at h
      dsimp only at h
      cases ho : f ns.toList with
      | error e' => rw [ho] at h; cases h
      | ok out =>
        rw [ho] at h
        cases out with
        | none => cases h
        | junk => cases h
        | entry x =>
          cases h
          simp [FunctionMap.setItem, dictGet_set]

private theorem std_fn (s : String) : Only (· ∈ readingErrors) (stdRd.fn s) := by
  intro e h
  have hl := std_load s
  simp only [stdRd, loadWith, FnHolder.setIdent, if_true, FnHolder.setFunctionFromMap, FunctionMap.get] at h
  have h0 : dictGet FunctionMap.new.store s = none := rfl
  simp only [h0] at h
  rcases hx : FunctionMap.new.loadFunction (stdImporter stdClassMap) s with ⟨x, m'⟩
  rw [hx] at h hl
  cases x with
  | error e' => cases h; exact hl e rfl
  | ok u =>
    dsimp only at h
    cases hg : dictGet m'.store s with
    | some y =>
      rw [hg] at h
      cases y with
      | notImplemented => cases h; simp [readingErrors]
      | cls c => cases h
    | none => exact absurd hg (loaded_stored hx)

private theorem std_readers (l : List (String × AVClass)) (dt : String) :
    dictGet (l.map fun p => (p.1, baseDtReader)) dt = (l.lookup dt).map fun _ => baseDtReader := by
  induction l with
  | nil => rfl
  | cons p l ih =>
    obtain ⟨k, c⟩ := p
    simp only [List.map_cons, dictGet, List.lookup]
    by_cases h : dt = k
    · simp [h]
    · have h1 : (dt == k) = false := by simpa using h
      have h2 : (k == dt) = false := by simpa using Ne.symm h
      simp only [h1, h2, Bool.false_eq_true, if_false]
      exact ih

private theorem std_flaw {n : XNode} {e : Exc} (h : Flaw stdRd n e) : e ∈ readingErrors := by
  cases h with
  | applied _ _ h => exact std_fn _ _ h
  | matched _ _ h => exact std_fn _ _ h
  | @unread dt _ _ h1 h2 =>
    have hg : dictGet stdRd.dtReaders dt = _ := std_readers stdClassMap dt
    rw [hg] at h2
    have : stdClassMap.lookup dt = none := by simpa using h2
    rw [show stdRd.classMap = stdClassMap from rfl, this] at h1
    cases h1
  | @value dt c r e _ _ hc h1 h2 =>
    have hg : dictGet stdRd.dtReaders dt = _ := std_readers stdClassMap dt
    rw [hg, show stdClassMap.lookup dt = some c from hc] at h1
    cases h1
    simp only [baseDtReader] at h2
    split at h2
    · cases h2; simp [readingErrors]
    · simp only [AttrVal.setValue] at h2
      split at h2
      · cases h2
      · cases h2; simp [readingErrors]
  | _ => simp [readingErrors]

/-- C106: with the package's own functions, classes and readers, only nine exceptions are possible. -/
theorem C106_standard_partial (n : XNode) (e : Exc) (h : policyFromSource stdRd n = .error e) :
    e ∈ readingErrors := by
  rcases C106_policy_partial stdRd n e h with rfl | ⟨x, -, hf⟩
  · simp [readingErrors]
  · exact std_flaw hf

/-! ## Documents that raise something else -/

private theorem policyChildren_append (env : RdEnv) (l l' : List XNode) : ∀ p : Header × List Rule,
    readPolicyChildren env p (l ++ l') = (readPolicyChildren env p l >>= fun p' => readPolicyChildren env p' l') := by
  induction l with
  | nil => intro p; rfl
  | cons n rest ih =>
    intro p
    simp only [List.cons_append, readPolicyChildren]
    cases readPolicyChild env p n with
    | error e => rfl
    | ok p' => exact ih p'

private theorem policy_added {env : RdEnv} {n c : XNode} {rest : List XNode} {p : PolicyNode} {e : Exc}
    (hr : policyFromSource env n = .ok p) (hel : c.isElem = true) (hc : ∀ q, readPolicyChild env q c = .error e) :
    policyFromSource env (withChildren n (c :: rest)) = .error e := by
  cases n with
  | other => cases hr
  | elem tag a t cs =>
    have hv : ∀ cs', readVersion (.elem tag a t cs') = readVersion (.elem tag a t []) := fun _ => rfl
    have hq : ∀ cs', requiredAttr (.elem tag a t cs') = requiredAttr (.elem tag a t []) := fun _ => rfl
    have he : ∀ cs', expectName (.elem tag a t cs') = expectName (.elem tag a t []) := fun _ => rfl
    simp only [policyFromSource, readPolicy, withChildren, XNode.children] at hr ⊢
    rw [hv, hq, he] at hr ⊢
    cases h1 : expectName (.elem tag a t []) "Policy" with
    | error e' => rw [h1] at hr; cases hr
    | ok u =>
      rw [h1] at hr
      cases h2 : requiredAttr (.elem tag a t []) "PolicyId" with
      | error e' => rw [h2] at hr; cases hr
      | ok pid =>
        rw [h2] at hr
        cases h3 : requiredAttr (.elem tag a t []) "RuleCombiningAlgId" with
        | error e' => rw [h3] at hr; cases hr
        | ok alg =>
          rw [h3] at hr
          simp only [bind, Except.bind] at hr ⊢
          cases h4 : loadAlg ruleAlgMap { ident := some pid, alg := none, target := none } alg with
          | error e' => rw [h4] at hr; cases hr
          | ok h =>
            rw [h4] at hr
            dsimp only at hr ⊢
            have hl : elementChildren (cs ++ c :: rest) = elementChildren cs ++ c :: elementChildren rest := by
              simp [elementChildren, hel]
            rw [hl, policyChildren_append]
            cases h5 : readPolicyChildren env ({ h with version := readVersion (.elem tag a t []) }, []) (elementChildren cs) with
            | error e' => rw [h5] at hr; cases hr
            | ok q =>
              simp only [readPolicyChildren, hc, bind, Except.bind]

/-- C106 is violated, for any policy that can be read: adding Obligations or combiner parameters, a variable
definition, a rule with an unknown effect, or PolicyDefaults holding a comment only, makes reading raise
something else than an XMLParseError. Any other unknown element is reported by an XMLParseError. -/
theorem C106_violated (env : RdEnv) (n c : XNode) (rest : List XNode) (p : PolicyNode)
    (hr : policyFromSource env n = .ok p) (hc : c.isElem = true) :
    (c.name ∈ ["Obligations", "CombinerParameters", "RuleCombinerParameters"] →
      policyFromSource env (withChildren n (c :: rest)) = .error .notImplementedError) ∧
    (c.name = "VariableDefinition" → policyFromSource env (withChildren n (c :: rest)) = .error .importError) ∧
    (∀ s, c.name = "Rule" → (c.attr "RuleId").isSome → c.attr "Effect" = some s → (∀ x, s ≠ effectName x) →
      policyFromSource env (withChildren n (c :: rest)) = .error .attributeError) ∧
    (c.name = "PolicyDefaults" → c.children = [.other] →
      policyFromSource env (withChildren n (c :: rest)) = .error .attributeError) ∧
    (c.name ∉ ["Description", "PolicyDefaults", "Target", "Rule", "Obligations", "CombinerParameters",
        "RuleCombinerParameters", "VariableDefinition"] →
      policyFromSource env (withChildren n (c :: rest)) = .error .xmlParseError) := by
  refine ⟨fun h => policy_added hr hc fun q => ?_, fun h => policy_added hr hc fun q => ?_,
    fun s h h1 h2 h3 => policy_added hr hc fun q => ?_, fun h h1 => policy_added hr hc fun q => ?_,
    fun h => policy_added hr hc fun q => ?_⟩
  · simp only [List.mem_cons, List.not_mem_nil, or_false] at h
    rcases h with h | h | h <;> simp [readPolicyChild, h]
  · simp [readPolicyChild, h]
  · obtain ⟨id, hid⟩ := Option.isSome_iff_exists.mp h1
    have hs : parseEffect s = .error .attributeError := by
      unfold parseEffect
      have h4 : s ≠ "Deny" := h3 .deny
      have h5 : s ≠ "Permit" := h3 .permit
      rw [if_neg h4, if_neg h5]
    simp [readPolicyChild, h, readRule, expectName, requiredAttr, hid, h2, hs, bind, Except.bind]
  · simp [readPolicyChild, h, readPolicyDefaults, expectName, h1, bind, Except.bind]
  · simp only [List.mem_cons, List.not_mem_nil, or_false, not_or] at h
    obtain ⟨h1, h2, h3, h4, h5, h6, h7, h8⟩ := h
    simp [readPolicyChild, h1, h2, h3, h4, h5, h6, h7, h8]

/-- C106 is violated by every policy with an unknown combining algorithm: a TypeError is raised. -/
theorem C106_algorithm (env : RdEnv) (n : XNode) (s : String) (hn : n.name = "Policy")
    (hid : (n.attr "PolicyId").isSome) (ha : n.attr "RuleCombiningAlgId" = some s) (hs : ruleAlg s = none) :
    policyFromSource env n = .error .typeError := by
  obtain ⟨id, hid⟩ := Option.isSome_iff_exists.mp hid
  simp only [policyFromSource, readPolicy, expectName, hn, if_true, requiredAttr, hid, ha, bind, Except.bind]
  cases hl : loadAlg ruleAlgMap { ident := some id, alg := none, target := none } s with
  | ok h' =>
    have := (loadAlg_rule_ok.mp hl).1
    rw [hs] at this; cases this
  | error e => rw [setAlgId_error hl]

/-! ## The hypotheses are met -/

namespace Samples

/-- A policy with a match on an environment attribute, which XACML 2.0 allows. -/
def environmentPolicy : XNode :=
  .elem "Policy" [("PolicyId", "p"), ("RuleCombiningAlgId", permitAlg)] none
    [.elem "Target" [] none [.elem "Environments" [] none [.elem "Environment" [] none
      [.elem "EnvironmentMatch" [("MatchId", "urn:oasis:names:tc:xacml:1.0:function:string-equal")] none []]]]]

def failsWith (e : Exc) : Except Exc PolicyNode → Bool
  | .ok _ => false
  | .error e' => decide (e' = e)

theorem of_failsWith {e : Exc} {x : Except Exc PolicyNode} (h : failsWith e x = true) : x = .error e := by
  cases x with
  | ok _ => cases h
  | error e' => rw [of_decide_eq_true h]

end Samples

open Samples in
set_option maxRecDepth 20000 in
/-- `C106_policy_partial`: the flaw is the match, deep inside the document. -/
example : policyFromSource stdRd environmentPolicy = .error .importError ∧ FlawIn stdRd environmentPolicy .importError := by
  have h : policyFromSource stdRd environmentPolicy = .error .importError := of_failsWith (by decide +kernel)
  refine ⟨h, ?_⟩
  rcases C106_policy_partial stdRd _ _ h with h | h
  · cases h
  · exact h

open Samples in
set_option maxRecDepth 20000 in
/-- `C106_flawless_partial`: a policy without flaws. -/
example : (∀ e, ¬ FlawIn stdRd (onePolicy "p") e) ∧ (policyFromSource stdRd (onePolicy "p")).toOption.isSome = true := by
  refine ⟨?_, by decide +kernel⟩
  rintro e ⟨x, hx, hf⟩
  have hx' : x = onePolicy "p" ∨ x = .elem "Rule" [("RuleId", "r"), ("Effect", "Permit")] none [] := by
    cases hx with
    | refl => exact .inl rfl
    | child c _ hc hw =>
      simp only [onePolicy, XNode.children, List.mem_cons, List.not_mem_nil, or_false] at hc
      subst hc
      cases hw with
      | refl => exact .inr rfl
      | child c' _ hc' => cases hc'
  rcases hx' with rfl | rfl
  · have hn : (onePolicy "p").name = "Policy" := by decide +kernel
    cases hf with
    | ruleAlgorithm _ h1 h2 =>
      have : some permitAlg = some _ := h1
      cases this
      revert h2; decide +kernel
    | unsupported h => rw [hn] at h; revert h; decide +kernel
    | readerless h => rw [hn] at h; revert h; decide +kernel
    | @matchChild cat _ h => rw [hn] at h; cases cat <;> revert h <;> decide +kernel
    | @matched cat _ _ h => rw [hn] at h; cases cat <;> revert h <;> decide +kernel
    | effect h => rw [hn] at h; revert h; decide +kernel
    | condition h => rw [hn] at h; revert h; decide +kernel
    | conditionInApply h => rw [hn] at h; revert h; decide +kernel
    | defaults h => rw [hn] at h; revert h; decide +kernel
    | policyAlgorithm h => rw [hn] at h; revert h; decide +kernel
    | applied h => rw [hn] at h; revert h; decide +kernel
    | unread h => rw [hn] at h; revert h; decide +kernel
    | value h => rw [hn] at h; revert h; decide +kernel
  · have hn : (XNode.elem "Rule" [("RuleId", "r"), ("Effect", "Permit")] none []).name = "Rule" := by decide +kernel
    cases hf with
    | effect _ h1 h2 =>
      have : some "Permit" = some _ := h1
      cases this
      exact h2 .permit rfl
    | unsupported h => rw [hn] at h; revert h; decide +kernel
    | readerless h => rw [hn] at h; revert h; decide +kernel
    | @matchChild cat _ h => rw [hn] at h; cases cat <;> revert h <;> decide +kernel
    | @matched cat _ _ h => rw [hn] at h; cases cat <;> revert h <;> decide +kernel
    | ruleAlgorithm h => rw [hn] at h; revert h; decide +kernel
    | condition h => rw [hn] at h; revert h; decide +kernel
    | conditionInApply h => rw [hn] at h; revert h; decide +kernel
    | defaults h => rw [hn] at h; revert h; decide +kernel
    | policyAlgorithm h => rw [hn] at h; revert h; decide +kernel
    | applied h => rw [hn] at h; revert h; decide +kernel
    | unread h => rw [hn] at h; revert h; decide +kernel
    | value h => rw [hn] at h; revert h; decide +kernel

open Samples in
set_option maxRecDepth 20000 in
/-- `C106_violated`: the policy above with obligations, and with a rule whose effect is misspelt. -/
example : policyFromSource stdRd (withChildren (onePolicy "p") [.elem "Obligations" [] none []])
      = .error .notImplementedError ∧
    policyFromSource stdRd (withChildren (onePolicy "p") [.elem "Rule" [("RuleId", "r2"), ("Effect", "permit")] none []])
      = .error .attributeError :=
  ⟨of_failsWith (by decide +kernel), of_failsWith (by decide +kernel)⟩

open Samples in
/-- `C106_algorithm`: one of the algorithms of XACML 2.0 that is not implemented. -/
example : policyFromSource stdRd (.elem "Policy" [("PolicyId", "p"),
    ("RuleCombiningAlgId", "urn:oasis:names:tc:xacml:1.1:rule-combining-algorithm:ordered-deny-overrides")] none [])
      = .error .typeError :=
  C106_algorithm _ _ "urn:oasis:names:tc:xacml:1.1:rule-combining-algorithm:ordered-deny-overrides" (by decide +kernel)
    rfl (by decide +kernel) (by decide +kernel)

open Samples in
set_option maxRecDepth 20000 in
/-- `C106_loading_partial`: a policy set that refers to a document that cannot be fetched, and one with a
relative reference and without a base path. -/
example :
    (∃ e, pdpFromPolicySource stdRd twoFiles 5 (.str (some "/base")) (.ok (setOf "s" [policyRef "p2.xml"])) = .error e ∧
      e = .keyError) ∧
    (∃ e, pdpFromPolicySource stdRd twoFiles 5 (.str none) (.ok (setOf "s" [policyRef "p1.xml"])) = .error e ∧
      e = .typeError) := by
  have of : ∀ {e : Exc} {x : Except Exc (Option PolicyNode)},
      (match x with | .ok _ => false | .error e' => decide (e' = e)) = true → x = .error e := by
    intro e x h
    cases x with
    | ok _ => cases h
    | error e' => rw [of_decide_eq_true h]
  exact ⟨⟨_, of (e := .keyError) (by decide +kernel), rfl⟩, ⟨_, of (e := .typeError) (by decide +kernel), rfl⟩⟩

end Xacml
