import Verif.Model.Finder

/-!
# What the readers do not look at

`norm rt` changes tags by `rt`, which keeps local names, drops nodes that are not elements and the text
of the elements whose text is not read. All readers give the same on `norm rt n` as on `n`.
-/
namespace Xacml

mutual
/-- Changes all tags. -/
def XNode.retag (rt : String → String) : XNode → XNode
  | .elem tag a t cs => .elem (rt tag) a t (XNode.retagL rt cs)
  | .other => .other
/-- `retag` on children. -/
def XNode.retagL (rt : String → String) : List XNode → List XNode
  | [] => []
  | n :: l => XNode.retag rt n :: XNode.retagL rt l
end

/-- Elements other than AttributeValue whose text is read. -/
def textual : List String := ["Description", "XPathVersion", "PolicyIdReference", "PolicySetIdReference"]

mutual
/-- See the head of the file. -/
def norm (rt : String → String) : XNode → XNode
  | .other => .other
  | .elem tag a t cs =>
    if localPart tag = "AttributeValue" then .elem (rt tag) a t (XNode.retagL rt cs)
    else if localPart tag = "PolicyDefaults" then .elem (rt tag) a none (normKeep rt cs)
    else .elem (rt tag) a (if localPart tag ∈ textual then t else none) (normL rt cs)
/-- `norm` on children. -/
def normL (rt : String → String) : List XNode → List XNode
  | [] => []
  | .other :: l => normL rt l
  | .elem tag a t cs :: l => norm rt (.elem tag a t cs) :: normL rt l
/-- `norm` on the children of PolicyDefaults, which are counted. -/
def normKeep (rt : String → String) : List XNode → List XNode
  | [] => []
  | n :: l => norm rt n :: normKeep rt l
end

/-- Local names are kept. -/
def KeepsLocal (rt : String → String) : Prop := ∀ t, localPart (rt t) = localPart t
/-- The data type readers give the same on the changed tags. -/
def ReadersRespect (rt : String → String) (env : RdEnv) : Prop :=
  ∀ dt r, dictGet env.dtReaders dt = some r → ∀ n v, r (XNode.retag rt n) v = r n v

section
variable {rt : String → String} (hrt : KeepsLocal rt)

theorem norm_form (tag a t cs) : ∃ t' cs', norm rt (.elem tag a t cs) = .elem (rt tag) a t' cs' := by
  rw [norm]
  split
  · exact ⟨_, _, rfl⟩
  · split <;> exact ⟨_, _, rfl⟩

theorem norm_attr (n : XNode) (k : String) : (norm rt n).attr k = n.attr k := by
  cases n with
  | other => rw [norm]
  | elem tag a t cs => obtain ⟨t', cs', h⟩ := norm_form (rt := rt) tag a t cs; rw [h]; rfl

theorem norm_isElem (n : XNode) : (norm rt n).isElem = n.isElem := by
  cases n with
  | other => rw [norm]
  | elem tag a t cs => obtain ⟨t', cs', h⟩ := norm_form (rt := rt) tag a t cs; rw [h]; rfl

include hrt in
theorem norm_name (n : XNode) : (norm rt n).name = n.name := by
  cases n with
  | other => rw [norm]
  | elem tag a t cs =>
    obtain ⟨t', cs', h⟩ := norm_form (rt := rt) tag a t cs; rw [h]; exact hrt tag

theorem norm_text {n : XNode} (h : n.name ∈ textual) : (norm rt n).text = n.text := by
  cases n with
  | other => rw [norm]
  | elem tag a t cs =>
    have h' : localPart tag ∈ textual := h
    rw [norm]
    split
    · rfl
    · split
      · rename_i _ h2; rw [h2] at h'; simp [textual] at h'
      · rfl

theorem normL_elementChildren (cs : List XNode) :
    elementChildren (normL rt cs) = (elementChildren cs).map (norm rt) := by
  induction cs with
  | nil => rw [normL]; rfl
  | cons n l ih =>
    cases n with
    | other => rw [normL]; simpa [elementChildren, XNode.isElem] using ih
    | elem tag a t cs =>
      rw [normL]
      have := norm_isElem (rt := rt) (.elem tag a t cs)
      simp only [elementChildren, List.filter_cons, this] at ih ⊢
      rw [ih]; simp [XNode.isElem]

theorem normKeep_elementChildren (cs : List XNode) :
    elementChildren (normKeep rt cs) = (elementChildren cs).map (norm rt) := by
  induction cs with
  | nil => rw [normKeep]; rfl
  | cons n l ih =>
    rw [normKeep]
    simp only [elementChildren, List.filter_cons, norm_isElem] at ih ⊢
    rw [ih]; cases n <;> simp [XNode.isElem]

theorem norm_children {n : XNode} (h : n.name ≠ "AttributeValue") :
    elementChildren (norm rt n).children = (elementChildren n.children).map (norm rt) := by
  cases n with
  | other => rw [norm]; rfl
  | elem tag a t cs =>
    have h : ¬ localPart tag = "AttributeValue" := h
    rw [norm, if_neg h]
    split
    · exact normKeep_elementChildren cs
    · exact normL_elementChildren cs

theorem norm_value {n : XNode} (h : n.name = "AttributeValue") : norm rt n = n.retag rt := by
  cases n with
  | other => rw [norm, XNode.retag]
  | elem tag a t cs =>
    have h : localPart tag = "AttributeValue" := h
    rw [norm, if_pos h, XNode.retag]

include hrt in
theorem expectName_norm (n : XNode) (k : String) : expectName (norm rt n) k = expectName n k := by
  unfold expectName; rw [norm_name hrt]

theorem requiredAttr_norm (n : XNode) (k : String) : requiredAttr (norm rt n) k = requiredAttr n k := by
  unfold requiredAttr; rw [norm_attr]

theorem readVersion_norm (n : XNode) : readVersion (norm rt n) = readVersion n := by
  unfold readVersion; rw [norm_attr]

include hrt in
theorem readDesignator_norm (cat : Category) (n : XNode) :
    readDesignator cat (norm rt n) = readDesignator cat n := by
  unfold readDesignator
  simp only [expectName_norm hrt, requiredAttr_norm, norm_attr]

include hrt in
theorem readSelector_norm (n : XNode) : readSelector (norm rt n) = readSelector n := by
  unfold readSelector
  simp only [expectName_norm hrt, requiredAttr_norm, norm_attr]

variable {env : RdEnv} (hdt : ReadersRespect rt env)

include hrt hdt in
theorem readAttributeValue_norm (n : XNode) : readAttributeValue env (norm rt n) = readAttributeValue env n := by
  unfold readAttributeValue
  rw [expectName_norm hrt, requiredAttr_norm]
  unfold expectName
  split
  · rename_i h
    simp only [norm_value h]
    congr 1; funext _; congr 1; funext dt
    split
    · rfl
    · split
      · rfl
      · rename_i r hr; exact hdt dt r hr _ _
  · rfl

mutual
theorem readApply_norm (hrt : KeepsLocal rt) (hdt : ReadersRespect rt env) : (n : XNode) → readApply env (norm rt n) = readApply env n
  | .other => by rw [norm]
  | .elem tag a t cs => by
    by_cases h : localPart tag = "AttributeValue"
    · have hne : ¬ (XNode.elem tag a t cs).name = "Apply" := by
        show ¬ localPart tag = "Apply"; rw [h]; decide
      have hne' : ¬ (norm rt (XNode.elem tag a t cs)).name = "Apply" := by rw [norm_name hrt]; exact hne
      obtain ⟨t', cs', hf⟩ := norm_form (rt := rt) tag a t cs
      rw [hf] at hne' ⊢
      rw [readApply, readApply]
      simp only [expectName, if_neg hne, if_neg hne']
      rfl
    · by_cases h2 : localPart tag = "PolicyDefaults"
      · have hne : ¬ (XNode.elem tag a t cs).name = "Apply" := by
          show ¬ localPart tag = "Apply"; rw [h2]; decide
        have hne' : ¬ (norm rt (XNode.elem tag a t cs)).name = "Apply" := by rw [norm_name hrt]; exact hne
        obtain ⟨t', cs', hf⟩ := norm_form (rt := rt) tag a t cs
        rw [hf] at hne' ⊢
        rw [readApply, readApply]
        simp only [expectName, if_neg hne, if_neg hne']
        rfl
      · have hn := norm_name hrt (.elem tag a t cs)
        rw [norm, if_neg h, if_neg h2] at hn ⊢
        rw [readApply, readApply, readArgs_norm hrt hdt cs]
        unfold expectName
        rw [hn]
        rfl
theorem readArgs_norm (hrt : KeepsLocal rt) (hdt : ReadersRespect rt env) : (l : List XNode) → readArgs env (normL rt l) = readArgs env l
  | [] => by rw [normL]
  | .other :: l => by rw [normL, readArgs, readArgs_norm hrt hdt l]
  | .elem tag a t cs :: l => by
    have h1 := readApply_norm hrt hdt (.elem tag a t cs)
    have h2 := readAttributeValue_norm hrt hdt (.elem tag a t cs)
    have h3 := fun cat => readDesignator_norm hrt cat (.elem tag a t cs)
    have h4 := readSelector_norm hrt (.elem tag a t cs)
    have h5 := readConditionExpr_norm hrt hdt (.elem tag a t cs)
    rw [normL]
    obtain ⟨t', cs', hf⟩ := norm_form (rt := rt) tag a t cs
    rw [hf] at h1 h2 h3 h4 h5 ⊢
    rw [readArgs, readArgs, readArgs_norm hrt hdt l, hrt, h1, h2, h3, h3, h3, h3, h4, h5]
theorem readConditionExpr_norm (hrt : KeepsLocal rt) (hdt : ReadersRespect rt env) : (n : XNode) → readConditionExpr env (norm rt n) = readConditionExpr env n
  | .other => by rw [norm]
  | .elem tag a t cs => by
    by_cases h : localPart tag = "Condition"
    · have hn := norm_name hrt (.elem tag a t cs)
      have e1 : ¬ localPart tag = "AttributeValue" := by rw [h]; decide
      have e2 : ¬ localPart tag = "PolicyDefaults" := by rw [h]; decide
      rw [norm, if_neg e1, if_neg e2] at hn ⊢
      rw [readConditionExpr, readConditionExpr, readSoleChild_norm hrt hdt cs, normL_elementChildren, List.length_map]
      unfold expectName
      rw [hn]
    · have hne : ¬ (XNode.elem tag a t cs).name = "Condition" := h
      have hne' : ¬ (norm rt (XNode.elem tag a t cs)).name = "Condition" := by rw [norm_name hrt]; exact hne
      obtain ⟨t', cs', hf⟩ := norm_form (rt := rt) tag a t cs
      rw [hf] at hne' ⊢
      rw [readConditionExpr, readConditionExpr]
      simp only [expectName, if_neg hne, if_neg hne']
      rfl
theorem readSoleChild_norm (hrt : KeepsLocal rt) (hdt : ReadersRespect rt env) : (l : List XNode) → readSoleChild env (normL rt l) = readSoleChild env l
  | [] => by rw [normL]
  | .other :: l => by rw [normL, readSoleChild, readSoleChild_norm hrt hdt l]
  | .elem tag a t cs :: l => by
    have h1 := readApply_norm hrt hdt (.elem tag a t cs)
    rw [normL]
    obtain ⟨t', cs', hf⟩ := norm_form (rt := rt) tag a t cs
    rw [hf] at h1 ⊢
    rw [readSoleChild, readSoleChild, hrt, h1]
end

include hrt hdt in
theorem readMatchChildren_norm (cat : Category) (l : List XNode) (m : Match) :
    readMatchChildren env cat m (l.map (norm rt)) = readMatchChildren env cat m l := by
  induction l generalizing m with
  | nil => rfl
  | cons n l ih =>
    rw [List.map_cons]
    unfold readMatchChildren
    have : readMatchChild env cat m (norm rt n) = readMatchChild env cat m n := by
      unfold readMatchChild
      simp only [norm_name hrt, readAttributeValue_norm hrt hdt, readDesignator_norm hrt, readSelector_norm hrt]
    rw [this]
    congr 1; funext m'; exact ih m'

theorem expectName_error {α} {n : XNode} {k : String} (h : n.name ≠ k) (f : Unit → Except Exc α) :
    (expectName n k >>= f) = .error .xmlParseError := by
  unfold expectName; rw [if_neg h]; rfl

include hrt hdt in
theorem readMatch_norm (cat : Category) (n : XNode) : readMatch env cat (norm rt n) = readMatch env cat n := by
  unfold readMatch
  split
  · rfl
  · by_cases h : n.name = cat.matchName
    · have hne : n.name ≠ "AttributeValue" := by rw [h]; cases cat <;> decide
      simp only [expectName_norm hrt, requiredAttr_norm, norm_children hne, readMatchChildren_norm hrt hdt]
    · rw [expectName_error h, expectName_error (by rw [norm_name hrt]; exact h)]

include hrt hdt in
theorem readMatches_norm (cat : Category) (l : List XNode) :
    readMatches env cat (l.map (norm rt)) = readMatches env cat l := by
  induction l with
  | nil => rfl
  | cons n l ih =>
    rw [List.map_cons]
    unfold readMatches
    rw [norm_name hrt, readMatch_norm hrt hdt, ih]

include hrt hdt in
theorem readTargetChild_norm (cat : Category) (n : XNode) :
    readTargetChild env cat (norm rt n) = readTargetChild env cat n := by
  unfold readTargetChild
  by_cases h : n.name = cat.childName
  · have hne : n.name ≠ "AttributeValue" := by rw [h]; cases cat <;> decide
    simp only [expectName_norm hrt, norm_children hne, readMatches_norm hrt hdt]
  · rw [expectName_error h, expectName_error (by rw [norm_name hrt]; exact h)]

include hrt hdt in
theorem readTargetChildren_norm (cat : Category) (l : List XNode) :
    readTargetChildren env cat (l.map (norm rt)) = readTargetChildren env cat l := by
  induction l with
  | nil => rfl
  | cons n l ih =>
    rw [List.map_cons]
    unfold readTargetChildren
    rw [readTargetChild_norm hrt hdt, ih]

include hrt hdt in
theorem readSection_norm (t : Target) (n : XNode) : readSection env t (norm rt n) = readSection env t n := by
  unfold readSection
  rw [norm_name hrt]
  by_cases h : n.name = "AttributeValue"
  · simp [h]
  · simp only [norm_children h, readTargetChildren_norm hrt hdt]

include hrt hdt in
theorem readSections_norm (l : List XNode) (t : Target) :
    readSections env t (l.map (norm rt)) = readSections env t l := by
  induction l generalizing t with
  | nil => rfl
  | cons n l ih =>
    rw [List.map_cons]
    unfold readSections
    rw [readSection_norm hrt hdt]
    congr 1; funext t'; exact ih t'

include hrt hdt in
theorem readTarget_norm (n : XNode) : readTarget env (norm rt n) = readTarget env n := by
  unfold readTarget
  by_cases h : n.name = "Target"
  · simp only [expectName_norm hrt, norm_children (by rw [h]; decide : n.name ≠ "AttributeValue"),
      readSections_norm hrt hdt]
  · rw [expectName_error h, expectName_error (by rw [norm_name hrt]; exact h)]

include hrt hdt in
theorem readRuleChildren_norm (l : List XNode) (r : Rule) :
    readRuleChildren env r (l.map (norm rt)) = readRuleChildren env r l := by
  induction l generalizing r with
  | nil => rfl
  | cons n l ih =>
    rw [List.map_cons]
    unfold readRuleChildren
    have : readRuleChild env r (norm rt n) = readRuleChild env r n := by
      unfold readRuleChild
      rw [norm_name hrt]
      by_cases h : n.name = "Description"
      · rw [if_pos h, if_pos h, norm_text (by rw [h]; simp [textual])]
      · rw [if_neg h, if_neg h]
        simp only [readConditionExpr_norm hrt hdt, readTarget_norm hrt hdt]
    rw [this]
    congr 1; funext r'; exact ih r'

include hrt hdt in
theorem readRule_norm (n : XNode) : readRule env (norm rt n) = readRule env n := by
  unfold readRule
  by_cases h : n.name = "Rule"
  · simp only [expectName_norm hrt, requiredAttr_norm,
      norm_children (by rw [h]; decide : n.name ≠ "AttributeValue"), readRuleChildren_norm hrt hdt]
  · rw [expectName_error h, expectName_error (by rw [norm_name hrt]; exact h)]

include hrt in
theorem readPolicyDefaults_norm (n : XNode) : readPolicyDefaults (norm rt n) = readPolicyDefaults n := by
  unfold readPolicyDefaults
  by_cases h : n.name = "PolicyDefaults"
  · rw [expectName_norm hrt]
    congr 1; funext _
    cases n with
    | other => rw [norm]
    | elem tag a t cs =>
      have h' : localPart tag = "PolicyDefaults" := h
      rw [norm, if_neg (by rw [h']; decide), if_pos h']
      simp only [XNode.children]
      cases cs with
      | nil => rw [normKeep]
      | cons c l =>
        cases l with
        | nil =>
          rw [normKeep, normKeep]
          cases c with
          | other => rw [norm]
          | elem tag' a' t' cs' =>
            obtain ⟨t'', cs'', hf⟩ := norm_form (rt := rt) tag' a' t' cs'
            have ht := @norm_text rt (.elem tag' a' t' cs')
            rw [hf] at ht ⊢
            have hl := hrt tag'
            by_cases hx : localPart tag' = "XPathVersion"
            · have := ht (by show localPart tag' ∈ textual; rw [hx]; simp [textual])
              simp only [this, hl]
            · simp [hx, hl]
        | cons c' l =>
          rw [normKeep, normKeep]
          generalize norm rt c = x
          cases x <;> cases c <;> rfl
  · rw [expectName_error h, expectName_error (by rw [norm_name hrt]; exact h)]

include hrt hdt in
theorem readPolicyChildren_norm (l : List XNode) (p : Header × List Rule) :
    readPolicyChildren env p (l.map (norm rt)) = readPolicyChildren env p l := by
  induction l generalizing p with
  | nil => rfl
  | cons n l ih =>
    rw [List.map_cons]
    unfold readPolicyChildren
    have : readPolicyChild env p (norm rt n) = readPolicyChild env p n := by
      unfold readPolicyChild
      rw [norm_name hrt]
      by_cases h : n.name = "Description"
      · rw [if_pos h, if_pos h, norm_text (by rw [h]; simp [textual])]
      · rw [if_neg h, if_neg h]
        simp only [readPolicyDefaults_norm hrt, readTarget_norm hrt hdt, readRule_norm hrt hdt]
    rw [this]
    congr 1; funext r'; exact ih r'

include hrt hdt in
theorem readPolicy_norm (n : XNode) : readPolicy env (norm rt n) = readPolicy env n := by
  unfold readPolicy
  by_cases h : n.name = "Policy"
  · simp only [expectName_norm hrt, requiredAttr_norm, readVersion_norm,
      norm_children (by rw [h]; decide : n.name ≠ "AttributeValue"), readPolicyChildren_norm hrt hdt]
  · rw [expectName_error h, expectName_error (by rw [norm_name hrt]; exact h)]

mutual
theorem readPolicySet_norm (hrt : KeepsLocal rt) (hdt : ReadersRespect rt env) (res : Resolver) : (n : XNode) →
    readPolicySet env res (norm rt n) = readPolicySet env res n
  | .other => by rw [norm]
  | .elem tag a t cs => by
    by_cases h : localPart tag = "PolicySet"
    · have hn := expectName_norm hrt (.elem tag a t cs)
      have ha := requiredAttr_norm (rt := rt) (.elem tag a t cs)
      have hv := readVersion_norm (rt := rt) (.elem tag a t cs)
      have e1 : ¬ localPart tag = "AttributeValue" := by rw [h]; decide
      have e2 : ¬ localPart tag = "PolicyDefaults" := by rw [h]; decide
      rw [norm, if_neg e1, if_neg e2] at hn ha hv ⊢
      rw [readPolicySet, readPolicySet]
      simp only [hn, ha, hv, readSetChildren_norm hrt hdt res cs]
    · have hne : ¬ (XNode.elem tag a t cs).name = "PolicySet" := h
      have hne' : ¬ (norm rt (XNode.elem tag a t cs)).name = "PolicySet" := by rw [norm_name hrt]; exact hne
      obtain ⟨t', cs', hf⟩ := norm_form (rt := rt) tag a t cs
      rw [hf] at hne' ⊢
      rw [readPolicySet, readPolicySet]
      simp only [expectName, if_neg hne, if_neg hne']
      rfl
theorem readSetChildren_norm (hrt : KeepsLocal rt) (hdt : ReadersRespect rt env) (res : Resolver) : (l : List XNode) → (p : Header × List PolicyNode) →
    readSetChildren env res p (normL rt l) = readSetChildren env res p l
  | [], p => by rw [normL]
  | .other :: l, p => by rw [normL, readSetChildren, readSetChildren_norm hrt hdt res l]
  | .elem tag a t cs :: l, p => by
    have h1 := readPolicyDefaults_norm hrt (.elem tag a t cs)
    have h2 := readTarget_norm hrt hdt (.elem tag a t cs)
    have h3 : readPolicyReg env (norm rt (.elem tag a t cs)) = readPolicyReg env (.elem tag a t cs) := by
      unfold readPolicyReg; rw [readPolicy_norm hrt hdt]
    have h4 := readPolicySet_norm hrt hdt res (.elem tag a t cs)
    have h5 := @norm_text rt (.elem tag a t cs)
    have ih := readSetChildren_norm hrt hdt res l
    rw [normL]
    obtain ⟨t', cs', hf⟩ := norm_form (rt := rt) tag a t cs
    rw [hf] at h1 h2 h3 h4 h5 ⊢
    rw [readSetChildren.eq_def, readSetChildren.eq_def env res p (.elem tag a t cs :: l)]
    dsimp only
    rw [hrt, h1, h2, h3, h4]
    by_cases ht : localPart tag ∈ textual
    · have : t' = t := h5 ht
      subst this
      congr 1; funext p'; exact ih p'
    · simp only [textual, List.mem_cons, List.not_mem_nil, or_false, not_or] at ht
      obtain ⟨e1, _, e2, e3⟩ := ht
      simp only [if_neg e1, if_neg e2, if_neg e3]
      congr 1; funext p'; exact ih p'
end

include hrt hdt in
theorem readRoot_norm (res : Resolver) (n : XNode) : readRoot env res (norm rt n) = readRoot env res n := by
  unfold readRoot
  rw [norm_name hrt, readPolicySet_norm hrt hdt]
  unfold readPolicyReg
  rw [readPolicy_norm hrt hdt]

end
end Xacml
