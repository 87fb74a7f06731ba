import Verif.Lemmas.Readers
import Verif.Spec.Finder

/-!
# Lemmas about finders and reading policy sets
-/
namespace Xacml
open Spec

/-! ## The monad -/

theorem FM.bind_ok {α β} {m : FM α} {f : α → FM β} {s s' : Finder} {b : β} :
    (m >>= f) s = (.ok b, s') ↔ ∃ a s1, m s = (.ok a, s1) ∧ f a s1 = (.ok b, s') := by
  show FM.bind m f s = _ ↔ _
  unfold FM.bind
  rcases m s with ⟨x, s1⟩
  cases x with
  | error e => simp
  | ok a =>
    simp only [Prod.mk.injEq, Except.ok.injEq]
    constructor
    · intro h; exact ⟨a, s1, ⟨rfl, rfl⟩, h⟩
    · rintro ⟨_, _, ⟨rfl, rfl⟩, h⟩; exact h

theorem FM.pure_ok {α} {a b : α} {s s' : Finder} : (Pure.pure a : FM α) s = (.ok b, s') ↔ a = b ∧ s = s' := by
  show FM.pure a s = _ ↔ _
  simp [FM.pure]

theorem FM.throw_ok {α} {e : Exc} {b : α} {s s' : Finder} : (FM.throw e : FM α) s = (.ok b, s') ↔ False := by
  simp [FM.throw]

theorem FM.lift_ok {α} {x : Except Exc α} {b : α} {s s' : Finder} :
    FM.lift x s = (.ok b, s') ↔ x = .ok b ∧ s = s' := by
  cases x <;> simp [FM.lift, FM.pure, FM.throw]

/-- Whatever happens, the states before and after are related. -/
def Steps {α} (R : Finder → Finder → Prop) (m : FM α) : Prop := ∀ s, R s (m s).2

section
variable {R : Finder → Finder → Prop} (hr : ∀ s, R s s) (ht : ∀ s1 s2 s3, R s1 s2 → R s2 s3 → R s1 s3)

include hr in
theorem steps_pure {α} (a : α) : Steps R (pure a : FM α) := fun s => hr s
include hr in
theorem steps_throw {α} (e : Exc) : Steps R (FM.throw e : FM α) := fun s => hr s
include hr in
theorem steps_lift {α} (x : Except Exc α) : Steps R (FM.lift x) := by
  cases x
  · exact steps_throw hr _
  · exact steps_pure hr _
include ht in
theorem steps_bind {α β} {m : FM α} {f : α → FM β} (hm : Steps R m)
    (hf : ∀ a, (∃ s s', m s = (.ok a, s')) → Steps R (f a)) : Steps R (m >>= f) := by
  intro s
  show R s (FM.bind m f s).2
  unfold FM.bind
  have h1 := hm s
  rcases h : m s with ⟨x, s1⟩
  rw [h] at h1
  cases x with
  | error e => exact h1
  | ok a => exact ht _ _ _ h1 (hf a ⟨s, s1, h⟩ s1)

end

/-! ## Children of policy sets -/

/-- The body of the loop over the children of PolicySet. -/
def setChild (env : RdEnv) (res : Resolver) (p : Header × List PolicyNode) (tag : String)
    (a : List (String × String)) (t : Option String) (cs : List XNode) : FM (Header × List PolicyNode) :=
  if localPart tag = "Description" then
    match t with
    | some t => pure ({ p.1 with description := some (pyStrip t) }, p.2)
    | none => pure p
  else if localPart tag = "PolicySetDefaults" then do
    let v ← FM.lift (readPolicyDefaults (.elem tag a t cs))
    pure ({ p.1 with xpathVersion := some v }, p.2)
  else if localPart tag = "Target" then do
    let t ← FM.lift (readTarget env (.elem tag a t cs))
    pure ({ p.1 with target := some t }, p.2)
  else if localPart tag = "CombinerParameters" then FM.throw .notImplementedError
  else if localPart tag = "PolicyCombinerParameters" then FM.throw .notImplementedError
  else if localPart tag = "PolicySetCombinerParameters" then FM.throw .notImplementedError
  else if localPart tag = "VariableDefinition" then FM.throw .importError
  else if localPart tag = "Policy" then do
    let q ← readPolicyReg env (.elem tag a t cs)
    pure (p.1, p.2 ++ [q])
  else if localPart tag = "PolicyIdReference" then do
    let q ← res.findPolicy t
    pure (p.1, p.2 ++ [q])
  else if localPart tag = "PolicySet" then do
    let q ← readPolicySet env res (.elem tag a t cs)
    pure (p.1, p.2 ++ [q])
  else if localPart tag = "PolicySetIdReference" then do
    let q ← res.findPolicySet t
    pure (p.1, p.2 ++ [q])
  else if localPart tag = "Obligations" then FM.throw .notImplementedError
  else FM.throw .xmlParseError

theorem readSetChildren_elem (env res p tag a t cs rest) :
    readSetChildren env res p (.elem tag a t cs :: rest) =
      setChild env res p tag a t cs >>= fun p' => readSetChildren env res p' rest := by
  rw [readSetChildren.eq_def]; rfl

theorem setChild_ok {env res p tag a t cs p' s s'} :
    setChild env res p tag a t cs s = (.ok p', s') ↔
      (localPart tag = "Description" ∧ s = s' ∧
        p' = (match t with | some t => ({ p.1 with description := some (pyStrip t) }, p.2) | none => p)) ∨
      (localPart tag = "Target" ∧ s = s' ∧ ∃ x, IsTarget env (.elem tag a t cs) x ∧
        p' = ({ p.1 with target := some x }, p.2)) ∨
      ∃ q, p' = (p.1, p.2 ++ [q]) ∧
        ((localPart tag = "Policy" ∧ readPolicyReg env (.elem tag a t cs) s = (.ok q, s')) ∨
         (localPart tag = "PolicyIdReference" ∧ res.findPolicy t s = (.ok q, s')) ∨
         (localPart tag = "PolicySet" ∧ readPolicySet env res (.elem tag a t cs) s = (.ok q, s')) ∨
         (localPart tag = "PolicySetIdReference" ∧ res.findPolicySet t s = (.ok q, s'))) := by
  unfold setChild
  by_cases h1 : localPart tag = "Description"
  · simp only [h1, if_true, true_and, show ("Description" = "Target") = False from by simp,
      show ("Description" = "Policy") = False from by simp, show ("Description" = "PolicySet") = False from by simp,
      show ("Description" = "PolicyIdReference") = False from by simp,
      show ("Description" = "PolicySetIdReference") = False from by simp, false_and, or_false, and_false, exists_false]
    cases t <;> simp only [FM.pure_ok] <;> exact ⟨fun h => ⟨h.2, h.1.symm⟩, fun h => ⟨h.2.symm, h.1⟩⟩
  rw [if_neg h1]
  by_cases h2 : localPart tag = "PolicySetDefaults"
  · have : readPolicyDefaults (.elem tag a t cs) = .error .xmlParseError := by
      unfold readPolicyDefaults expectName
      rw [if_neg (by show ¬ localPart tag = _; rw [h2]; decide)]; rfl
    simp [h2, this, FM.bind_ok, FM.lift_ok]
  rw [if_neg h2]
  by_cases h3 : localPart tag = "Target"
  · simp only [h3, if_true, true_and, show ("Target" = "Description") = False from by simp,
      show ("Target" = "Policy") = False from by simp, show ("Target" = "PolicySet") = False from by simp,
      show ("Target" = "PolicyIdReference") = False from by simp,
      show ("Target" = "PolicySetIdReference") = False from by simp, false_and, or_false, and_false, exists_false,
      false_or, FM.bind_ok, FM.lift_ok, FM.pure_ok, readTarget_ok]
    constructor
    · rintro ⟨x, _, ⟨hx, rfl⟩, rfl, rfl⟩; exact ⟨rfl, x, hx, rfl⟩
    · rintro ⟨rfl, x, hx, rfl⟩; exact ⟨x, _, ⟨hx, rfl⟩, rfl, rfl⟩
  rw [if_neg h3]
  by_cases h4 : localPart tag = "CombinerParameters"
  · simp [h4, FM.throw_ok]
  rw [if_neg h4]
  by_cases h5 : localPart tag = "PolicyCombinerParameters"
  · simp [h5, FM.throw_ok]
  rw [if_neg h5]
  by_cases h6 : localPart tag = "PolicySetCombinerParameters"
  · simp [h6, FM.throw_ok]
  rw [if_neg h6]
  by_cases h7 : localPart tag = "VariableDefinition"
  · simp [h7, FM.throw_ok]
  rw [if_neg h7]
  have aux : ∀ (m : FM PolicyNode), ((m >>= fun q => pure (p.1, p.2 ++ [q])) s = (.ok p', s') ↔
      ∃ q, p' = (p.1, p.2 ++ [q]) ∧ m s = (.ok q, s')) := by
    intro m
    rw [FM.bind_ok]
    simp only [FM.pure_ok]
    constructor
    · rintro ⟨q, _, h, rfl, rfl⟩; exact ⟨q, rfl, h⟩
    · rintro ⟨q, rfl, h⟩; exact ⟨q, _, h, rfl, rfl⟩
  by_cases h8 : localPart tag = "Policy"
  · rw [if_pos h8, aux]; simp [h8]
  rw [if_neg h8]
  by_cases h9 : localPart tag = "PolicyIdReference"
  · rw [if_pos h9, aux]; simp [h9]
  rw [if_neg h9]
  by_cases h10 : localPart tag = "PolicySet"
  · rw [if_pos h10, aux]; simp [h10]
  rw [if_neg h10]
  by_cases h11 : localPart tag = "PolicySetIdReference"
  · rw [if_pos h11, aux]; simp [h11]
  rw [if_neg h11]
  by_cases h12 : localPart tag = "Obligations"
  · simp [h12, FM.throw_ok]
  rw [if_neg h12]
  simp [FM.throw_ok, h1, h3, h8, h9, h10, h11]

/-! ## Invariants of reading -/

theorem addPolicyReference_ok {p : PolicyNode} {s s' : Finder} :
    addPolicyReference p s = (.ok (), s') ↔
      ∃ h rs, p = .policy h rs ∧ dictGet s.policies h.ident = none ∧
        s' = { s with policies := dictSet s.policies h.ident p } := by
  unfold addPolicyReference
  cases p with
  | policySet h ps => simp
  | policy h rs =>
    cases hd : dictGet s.policies h.ident with
    | none =>
      simp only [hd, Option.isSome_none, Bool.false_eq_true, if_false, Prod.mk.injEq, true_and]
      constructor
      · rintro rfl; exact ⟨h, rs, rfl, hd, rfl⟩
      · rintro ⟨_, _, h1, _, rfl⟩; cases h1; rfl
    | some q =>
      simp only [hd, Option.isSome_some, if_true, Prod.mk.injEq, reduceCtorEq, false_and, false_iff, not_exists, not_and]
      intro _ _ h1; cases h1; rw [hd]; simp

theorem addPolicySetReference_ok {p : PolicyNode} {s s' : Finder} :
    addPolicySetReference p s = (.ok (), s') ↔
      ∃ h ps, p = .policySet h ps ∧ dictGet s.policySets h.ident = none ∧
        s' = { s with policySets := dictSet s.policySets h.ident p } := by
  unfold addPolicySetReference
  cases p with
  | policy h ps => simp
  | policySet h rs =>
    cases hd : dictGet s.policySets h.ident with
    | none =>
      simp only [hd, Option.isSome_none, Bool.false_eq_true, if_false, Prod.mk.injEq, true_and]
      constructor
      · rintro rfl; exact ⟨h, rs, rfl, hd, rfl⟩
      · rintro ⟨_, _, h1, _, rfl⟩; cases h1; rfl
    | some q =>
      simp only [hd, Option.isSome_some, if_true, Prod.mk.injEq, reduceCtorEq, false_and, false_iff, not_exists, not_and]
      intro _ _ h1; cases h1; rw [hd]; simp

theorem addPolicyReference_error {p : PolicyNode} {s s' : Finder} {e : Exc}
    (h : addPolicyReference p s = (.error e, s')) : s' = s := by
  unfold addPolicyReference at h
  cases p with
  | policySet => simp only [Prod.mk.injEq] at h; exact h.2.symm
  | policy =>
    simp only at h
    split at h
    · simp only [Prod.mk.injEq] at h; exact h.2.symm
    · simp at h

theorem addPolicySetReference_error {p : PolicyNode} {s s' : Finder} {e : Exc}
    (h : addPolicySetReference p s = (.error e, s')) : s' = s := by
  unfold addPolicySetReference at h
  cases p with
  | policy => simp only [Prod.mk.injEq] at h; exact h.2.symm
  | policySet =>
    simp only at h
    split at h
    · simp only [Prod.mk.injEq] at h; exact h.2.symm
    · simp at h

section
variable {R : Finder → Finder → Prop} (hr : ∀ s, R s s) (ht : ∀ s1 s2 s3, R s1 s2 → R s2 s3 → R s1 s3)
  {env : RdEnv} {res : Resolver}

include hr ht in
theorem steps_setChild (hrP : ∀ t, Steps R (res.findPolicy t)) (hrS : ∀ t, Steps R (res.findPolicySet t))
    (p : Header × List PolicyNode) (tag : String) (a : List (String × String)) (t : Option String) (cs : List XNode)
    (hP : localPart tag = "Policy" → Steps R (readPolicyReg env (.elem tag a t cs)))
    (hS : localPart tag = "PolicySet" → Steps R (readPolicySet env res (.elem tag a t cs))) :
    Steps R (setChild env res p tag a t cs) := by
  unfold setChild
  by_cases h : localPart tag = "Description"
  · rw [if_pos h]; cases t <;> exact steps_pure hr _
  rw [if_neg h]; clear h
  by_cases h : localPart tag = "PolicySetDefaults"
  · rw [if_pos h]; exact steps_bind ht (steps_lift hr _) fun _ _ => steps_pure hr _
  rw [if_neg h]; clear h
  by_cases h : localPart tag = "Target"
  · rw [if_pos h]; exact steps_bind ht (steps_lift hr _) fun _ _ => steps_pure hr _
  rw [if_neg h]; clear h
  by_cases h : localPart tag = "CombinerParameters"
  · rw [if_pos h]; exact steps_throw hr _
  rw [if_neg h]; clear h
  by_cases h : localPart tag = "PolicyCombinerParameters"
  · rw [if_pos h]; exact steps_throw hr _
  rw [if_neg h]; clear h
  by_cases h : localPart tag = "PolicySetCombinerParameters"
  · rw [if_pos h]; exact steps_throw hr _
  rw [if_neg h]; clear h
  by_cases h : localPart tag = "VariableDefinition"
  · rw [if_pos h]; exact steps_throw hr _
  rw [if_neg h]; clear h
  by_cases h : localPart tag = "Policy"
  · rw [if_pos h]; exact steps_bind ht (hP h) fun _ _ => steps_pure hr _
  rw [if_neg h]; clear h
  by_cases h : localPart tag = "PolicyIdReference"
  · rw [if_pos h]; exact steps_bind ht (hrP t) fun _ _ => steps_pure hr _
  rw [if_neg h]; clear h
  by_cases h : localPart tag = "PolicySet"
  · rw [if_pos h]; exact steps_bind ht (hS h) fun _ _ => steps_pure hr _
  rw [if_neg h]; clear h
  by_cases h : localPart tag = "PolicySetIdReference"
  · rw [if_pos h]; exact steps_bind ht (hrS t) fun _ _ => steps_pure hr _
  rw [if_neg h]; clear h
  by_cases h : localPart tag = "Obligations"
  · rw [if_pos h]; exact steps_throw hr _
  rw [if_neg h]; exact steps_throw hr _

/-- Registration of a policy read from an element nested in `n` keeps `R`. -/
def AddsP (R : Finder → Finder → Prop) (env : RdEnv) (n : XNode) : Prop :=
  ∀ m p, Within m n → m.name = "Policy" → readPolicy env m = .ok p → Steps R (addPolicyReference p)
/-- Registration of a policy set read from an element nested in `n` keeps `R`. -/
def AddsS (R : Finder → Finder → Prop) (n : XNode) : Prop :=
  ∀ m h ps, Within m n → m.name = "PolicySet" → m.attr "PolicySetId" = h.ident →
    Steps R (addPolicySetReference (.policySet h ps))

include hr ht in
theorem steps_readPolicyReg {n : XNode} (hP : n.name = "Policy" → ∀ p, readPolicy env n = .ok p →
    Steps R (addPolicyReference p)) : Steps R (readPolicyReg env n) := by
  unfold readPolicyReg
  refine steps_bind ht (steps_lift hr _) fun p hp => ?_
  obtain ⟨s, s', h⟩ := hp
  have h := (FM.lift_ok.mp h).1
  refine steps_bind ht (hP ?_ p h) fun _ _ => steps_pure hr _
  exact (readPolicy_ok.mp h).1
end

theorem loadAlg_ident {map : List (String × AlgEntry)} {h h' : Header} {s : String} (hl : loadAlg map h s = .ok h') :
    h'.ident = h.ident := by
  unfold loadAlg at hl
  split at hl
  · rename_i h'' heq
    cases hl
    unfold Header.setAlgId at heq
    simp only at heq
    split at heq <;> simp only [Prod.mk.injEq, reduceCtorEq, false_and, true_and] at heq
    rw [← heq]
  · cases hl

theorem readSetChildren_ident {env res} (l : List XNode) : ∀ p s p' s',
    readSetChildren env res p l s = (.ok p', s') → p'.1.ident = p.1.ident := by
  induction l with
  | nil => intro p s p' s' h; rw [readSetChildren, FM.pure_ok] at h; rw [h.1]
  | cons n l ih =>
    intro p s p' s' h
    cases n with
    | other => rw [readSetChildren] at h; exact ih _ _ _ _ h
    | elem tag a t cs =>
      rw [readSetChildren_elem, FM.bind_ok] at h
      obtain ⟨p1, s1, h1, h2⟩ := h
      rw [ih _ _ _ _ h2]
      rcases setChild_ok.mp h1 with ⟨_, _, rfl⟩ | ⟨_, _, x, _, rfl⟩ | ⟨q, rfl, _⟩
      · cases t <;> rfl
      · rfl
      · rfl

section
variable {R : Finder → Finder → Prop} {env : RdEnv} {res : Resolver}

mutual
theorem steps_readPolicySet (hr : ∀ s, R s s) (ht : ∀ s1 s2 s3, R s1 s2 → R s2 s3 → R s1 s3)
    (hrP : ∀ t, Steps R (res.findPolicy t)) (hrS : ∀ t, Steps R (res.findPolicySet t)) :
    (n : XNode) → AddsP R env n → AddsS R n → Steps R (readPolicySet env res n)
  | .other, _, _ => by rw [readPolicySet]; exact steps_throw hr _
  | .elem tag a t cs, hP, hS => by
    rw [readPolicySet]
    refine steps_bind ht (steps_lift hr _) fun _ hn => ?_
    refine steps_bind ht (steps_lift hr _) fun pid hpid => ?_
    refine steps_bind ht (steps_lift hr _) fun alg _ => ?_
    refine steps_bind ht (steps_lift hr _) fun h hh => ?_
    refine steps_bind ht (steps_readSetChildren hr ht hrP hrS cs _
      (fun c hc m p hm => hP m p (.child _ _ _ hc hm)) (fun c hc m h ps hm => hS m h ps (.child _ _ _ hc hm)))
      fun p hp => ?_
    obtain ⟨s, s', hp⟩ := hp
    have hi := readSetChildren_ident _ _ _ _ _ hp
    obtain ⟨_, _, hh⟩ := hh
    have hi2 := loadAlg_ident (FM.lift_ok.mp hh).1
    obtain ⟨_, _, hpid⟩ := hpid
    obtain ⟨_, _, hn⟩ := hn
    refine steps_bind ht (hS _ _ _ (.refl _) ((expectName_ok).mp (FM.lift_ok.mp hn).1) ?_) fun _ _ => steps_pure hr _
    rw [hi]
    show _ = h.ident
    rw [hi2]
    exact requiredAttr_ok.mp (FM.lift_ok.mp hpid).1
theorem steps_readSetChildren (hr : ∀ s, R s s) (ht : ∀ s1 s2 s3, R s1 s2 → R s2 s3 → R s1 s3)
    (hrP : ∀ t, Steps R (res.findPolicy t)) (hrS : ∀ t, Steps R (res.findPolicySet t)) :
    (l : List XNode) → ∀ p, (∀ c ∈ l, AddsP R env c) → (∀ c ∈ l, AddsS R c) → Steps R (readSetChildren env res p l)
  | [], p, _, _ => by rw [readSetChildren]; exact steps_pure hr _
  | .other :: l, p, hP, hS => by
    rw [readSetChildren]
    exact steps_readSetChildren hr ht hrP hrS l p (fun c hc => hP c (List.mem_cons_of_mem _ hc))
      (fun c hc => hS c (List.mem_cons_of_mem _ hc))
  | .elem tag a t cs :: l, p, hP, hS => by
    rw [readSetChildren_elem]
    refine steps_bind ht (steps_setChild hr ht hrP hrS p tag a t cs ?_ ?_) fun p' _ =>
      steps_readSetChildren hr ht hrP hrS l p' (fun c hc => hP c (List.mem_cons_of_mem _ hc))
      (fun c hc => hS c (List.mem_cons_of_mem _ hc))
    · intro hn
      exact steps_readPolicyReg hr ht fun h p hp => hP _ List.mem_cons_self _ p (.refl _) h hp
    · intro _
      exact steps_readPolicySet hr ht hrP hrS (.elem tag a t cs) (hP _ List.mem_cons_self) (hS _ List.mem_cons_self)
end

theorem steps_readRoot (hr : ∀ s, R s s) (ht : ∀ s1 s2 s3, R s1 s2 → R s2 s3 → R s1 s3)
    (hrP : ∀ t, Steps R (res.findPolicy t)) (hrS : ∀ t, Steps R (res.findPolicySet t))
    (n : XNode) (hP : AddsP R env n) (hS : AddsS R n) : Steps R (readRoot env res n) := by
  unfold readRoot
  split
  · exact steps_readPolicyReg hr ht fun h p hp => hP _ p (.refl _) h hp
  · split
    · exact steps_readPolicySet hr ht hrP hrS n hP hS
    · exact steps_throw hr _

theorem steps_localResolver (hr : ∀ s, R s s) :
    (∀ t, Steps R (localResolver.findPolicy t)) ∧ (∀ t, Steps R (localResolver.findPolicySet t)) := by
  constructor <;> intro t s <;> simp only [localResolver] <;> split <;> exact hr s

/-- The URL finder's lookups keep `R`, if fetching and the registrations do. -/
theorem steps_urlResolver (hr : ∀ s, R s s) (ht : ∀ s1 s2 s3, R s1 s2 → R s2 s3 → R s1 s3)
    {base : Option String} {fetch : Fetch}
    (hf : ∀ s u, R s { s with fetched := u :: s.fetched })
    (hP : ∀ past u n, fetch past u = .ok n → AddsP R env n) (hS : ∀ past u n, fetch past u = .ok n → AddsS R n)
    (depth : Nat) :
    (∀ t, Steps R ((urlResolver env base fetch depth).findPolicy t)) ∧
    (∀ t, Steps R ((urlResolver env base fetch depth).findPolicySet t)) := by
  induction depth with
  | zero => exact ⟨fun t => steps_throw hr _, fun t => steps_throw hr _⟩
  | succ d ih =>
    have key : ∀ t, Steps R (fromReference base fetch (readRoot env (urlResolver env base fetch d)) t) := by
      intro t
      unfold fromReference
      refine steps_bind ht (steps_lift hr _) fun u _ => steps_bind ht (fun s => hf s u) fun n hn => ?_
      obtain ⟨s, s', hn⟩ := hn
      simp only [fetchDoc, Prod.mk.injEq] at hn
      exact steps_readRoot hr ht ih.1 ih.2 n (hP _ _ _ hn.1) (hS _ _ _ hn.1)
    constructor
    · intro t s
      simp only [urlResolver]
      split
      · exact hr s
      · have := key t s
        split
        · rename_i h; rw [h] at this; exact this
        · rename_i h; rw [h] at this; split <;> exact this
    · intro t s
      simp only [urlResolver]
      split
      · exact hr s
      · have := key t s
        split
        · rename_i h; rw [h] at this; exact this
        · rename_i h; rw [h] at this; split <;> exact this
end

/-! ## Coherence and extension -/

/-- Nothing is lost and coherence is kept. -/
def Good (s s' : Finder) : Prop := Extends s s' ∧ (Coherent s → Coherent s')

theorem good_refl (s : Finder) : Good s s := ⟨fun _ _ _ h => h, id⟩
theorem good_trans (s1 s2 s3 : Finder) (h1 : Good s1 s2) (h2 : Good s2 s3) : Good s1 s3 :=
  ⟨fun k i q h => h2.1 k i q (h1.1 k i q h), fun h => h2.2 (h1.2 h)⟩

theorem good_addPolicy (p : PolicyNode) : Steps Good (addPolicyReference p) := by
  intro s
  rcases h : addPolicyReference p s with ⟨x, s'⟩
  cases x with
  | error e => rw [addPolicyReference_error h]; exact good_refl s
  | ok u =>
    obtain ⟨hd, rs, rfl, hn, rfl⟩ := addPolicyReference_ok.mp h
    constructor
    · intro k i q hq
      cases k with
      | policySet => exact hq
      | policy =>
        simp only [registered, dictGet_set] at hq ⊢
        split
        · rename_i hi; rw [hi, hn] at hq; cases hq
        · exact hq
    · intro hc k i q hq
      cases k with
      | policySet => exact hc .policySet i q hq
      | policy =>
        simp only [registered, dictGet_set] at hq
        split at hq
        · rename_i hi; cases hq; exact ⟨rfl, hi.symm⟩
        · exact hc .policy i q hq

theorem good_addPolicySet (p : PolicyNode) : Steps Good (addPolicySetReference p) := by
  intro s
  rcases h : addPolicySetReference p s with ⟨x, s'⟩
  cases x with
  | error e => rw [addPolicySetReference_error h]; exact good_refl s
  | ok u =>
    obtain ⟨hd, rs, rfl, hn, rfl⟩ := addPolicySetReference_ok.mp h
    constructor
    · intro k i q hq
      cases k with
      | policy => exact hq
      | policySet =>
        simp only [registered, dictGet_set] at hq ⊢
        split
        · rename_i hi; rw [hi, hn] at hq; cases hq
        · exact hq
    · intro hc k i q hq
      cases k with
      | policy => exact hc .policy i q hq
      | policySet =>
        simp only [registered, dictGet_set] at hq
        split at hq
        · rename_i hi; cases hq; exact ⟨rfl, hi.symm⟩
        · exact hc .policySet i q hq

/-- What finders guarantee: registrations stay, and what they return is registered. -/
structure ResolverOk (res : Resolver) : Prop where
  stepsP : ∀ t, Steps Good (res.findPolicy t)
  stepsS : ∀ t, Steps Good (res.findPolicySet t)
  foundP : ∀ t s q s', res.findPolicy t s = (.ok q, s') → registered s' .policy t = some q
  foundS : ∀ t s q s', res.findPolicySet t s = (.ok q, s') → registered s' .policySet t = some q

theorem localResolver_ok : ResolverOk localResolver where
  stepsP := (steps_localResolver good_refl).1
  stepsS := (steps_localResolver good_refl).2
  foundP := by
    intro t s q s' h
    simp only [localResolver] at h
    split at h
    · rename_i p hp; simp only [Prod.mk.injEq, Except.ok.injEq] at h; rw [← h.1, ← h.2]; exact hp
    · simp at h
  foundS := by
    intro t s q s' h
    simp only [localResolver] at h
    split at h
    · rename_i p hp; simp only [Prod.mk.injEq, Except.ok.injEq] at h; rw [← h.1, ← h.2]; exact hp
    · simp at h

theorem urlResolver_ok (env : RdEnv) (base : Option String) (fetch : Fetch) (depth : Nat) :
    ResolverOk (urlResolver env base fetch depth) where
  stepsP := (steps_urlResolver good_refl good_trans
    (fun _ _ => ⟨fun k i q h => by cases k <;> exact h, fun h k i q hq => h k i q (by cases k <;> exact hq)⟩)
    (fun _ _ _ _ _ p _ _ _ => good_addPolicy p) (fun _ _ _ _ _ _ _ _ _ _ => good_addPolicySet _) depth).1
  stepsS := (steps_urlResolver good_refl good_trans
    (fun _ _ => ⟨fun k i q h => by cases k <;> exact h, fun h k i q hq => h k i q (by cases k <;> exact hq)⟩)
    (fun _ _ _ _ _ p _ _ _ => good_addPolicy p) (fun _ _ _ _ _ _ _ _ _ _ => good_addPolicySet _) depth).2
  foundP := by
    intro t s q s' h
    cases depth with
    | zero => simp [urlResolver, FM.throw] at h
    | succ d =>
      simp only [urlResolver] at h
      split at h
      · rename_i p hp; simp only [Prod.mk.injEq, Except.ok.injEq] at h; rw [← h.1, ← h.2]; exact hp
      · split at h
        · simp at h
        · split at h
          · rename_i p hp; simp only [Prod.mk.injEq, Except.ok.injEq] at h; rw [← h.1, ← h.2]; exact hp
          · simp at h
  foundS := by
    intro t s q s' h
    cases depth with
    | zero => simp [urlResolver, FM.throw] at h
    | succ d =>
      simp only [urlResolver] at h
      split at h
      · rename_i p hp; simp only [Prod.mk.injEq, Except.ok.injEq] at h; rw [← h.1, ← h.2]; exact hp
      · split at h
        · simp at h
        · split at h
          · rename_i p hp; simp only [Prod.mk.injEq, Except.ok.injEq] at h; rw [← h.1, ← h.2]; exact hp
          · simp at h

end Xacml
