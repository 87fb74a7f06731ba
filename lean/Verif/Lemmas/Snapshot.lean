import Verif.Lemmas.Finder
import Verif.Spec.Snapshot

/-!
# Lemmas about documents that change while a policy is loaded
-/
namespace Xacml
open Spec

/-! ## Two fetches that answer the same in one run -/

/-- A run only adds to the list of fetches; and it is the same run for any other way of fetching that answers the same to
the fetches of the run. -/
def FetchSim {α} (fetch fetch' : Fetch) (m m' : FM α) : Prop := ∀ s r s', m s = (r, s') →
  s.fetched <:+ s'.fetched ∧
  ((∀ u h, (u :: h) <:+ s'.fetched → s.fetched <:+ h → fetch h u = fetch' h u) → m' s = (r, s'))

theorem FetchSim.same {α} {fetch fetch' : Fetch} {m : FM α} (h : ∀ s, (m s).2.fetched = s.fetched) : FetchSim fetch fetch' m m := by
  intro s r s' hm
  refine ⟨?_, fun _ => hm⟩
  have := h s
  rw [hm] at this
  rw [this]
  exact List.suffix_refl _

theorem FetchSim.lift {α} {fetch fetch' : Fetch} (x : Except Exc α) : FetchSim fetch fetch' (FM.lift x) (FM.lift x) :=
  .same fun s => by cases x <;> rfl
theorem FetchSim.pure {α} {fetch fetch' : Fetch} (x : α) : FetchSim fetch fetch' (Pure.pure x : FM α) (Pure.pure x) :=
  .same fun _ => rfl
theorem FetchSim.throw {α} {fetch fetch' : Fetch} (e : Exc) : FetchSim fetch fetch' (FM.throw e : FM α) (FM.throw e) :=
  .same fun _ => rfl

theorem FetchSim.bind {α β} {fetch fetch' : Fetch} {m m' : FM α} {f f' : α → FM β} (h : FetchSim fetch fetch' m m')
    (hf : ∀ a, FetchSim fetch fetch' (f a) (f' a)) : FetchSim fetch fetch' (m >>= f) (m' >>= f') := by
  intro s r s' hm
  change FM.bind m f s = _ at hm
  show _ ∧ (_ → FM.bind m' f' s = _)
  unfold FM.bind at hm ⊢
  rcases hx : m s with ⟨x, s1⟩
  obtain ⟨h1, h2⟩ := h s x s1 hx
  rw [hx] at hm
  cases x with
  | error e =>
    simp only [Prod.mk.injEq] at hm
    obtain ⟨rfl, rfl⟩ := hm
    exact ⟨h1, fun hh => by rw [h2 hh]⟩
  | ok a =>
    simp only at hm
    obtain ⟨h3, h4⟩ := hf a s1 r s' hm
    refine ⟨h1.trans h3, fun hh => ?_⟩
    rw [h2 fun u l hl hs => hh u l (hl.trans h3) hs]
    exact h4 fun u l hl hs => hh u l hl (h1.trans hs)

theorem FetchSim.ite {α} {fetch fetch' : Fetch} {c : Prop} [Decidable c] {a a' b b' : FM α} (ha : FetchSim fetch fetch' a a')
    (hb : FetchSim fetch fetch' b b') : FetchSim fetch fetch' (if c then a else b) (if c then a' else b') := by
  split
  · exact ha
  · exact hb

theorem fetchSim_addPolicy {fetch fetch' : Fetch} (p : PolicyNode) :
    FetchSim fetch fetch' (addPolicyReference p) (addPolicyReference p) :=
  .same fun s => by
    unfold addPolicyReference
    cases p with
    | policySet => rfl
    | policy => dsimp only; split <;> rfl

theorem fetchSim_addPolicySet {fetch fetch' : Fetch} (p : PolicyNode) :
    FetchSim fetch fetch' (addPolicySetReference p) (addPolicySetReference p) :=
  .same fun s => by
    unfold addPolicySetReference
    cases p with
    | policy => rfl
    | policySet => dsimp only; split <;> rfl

theorem fetchSim_readPolicyReg {fetch fetch' : Fetch} (rd : RdEnv) (n : XNode) :
    FetchSim fetch fetch' (readPolicyReg rd n) (readPolicyReg rd n) :=
  (FetchSim.lift _).bind fun _ => (fetchSim_addPolicy _).bind fun _ => .pure _

section
variable {fetch fetch' : Fetch} {rd : RdEnv} {res res' : Resolver}
  (hp : ∀ r, FetchSim fetch fetch' (res.findPolicy r) (res'.findPolicy r))
  (hs : ∀ r, FetchSim fetch fetch' (res.findPolicySet r) (res'.findPolicySet r))
include hp hs

mutual
theorem fetchSim_readPolicySet : (n : XNode) → FetchSim fetch fetch' (readPolicySet rd res n) (readPolicySet rd res' n)
  | .other => by unfold readPolicySet; exact .throw _
  | .elem tag a t cs => by
    unfold readPolicySet
    exact (FetchSim.lift _).bind fun _ => (FetchSim.lift _).bind fun _ => (FetchSim.lift _).bind fun _ => (FetchSim.lift _).bind fun _ =>
      (fetchSim_readSetChildren _ cs).bind fun _ => (fetchSim_addPolicySet _).bind fun _ => .pure _
theorem fetchSim_readSetChildren (p : Header × List PolicyNode) : (l : List XNode) →
    FetchSim fetch fetch' (readSetChildren rd res p l) (readSetChildren rd res' p l)
  | [] => by unfold readSetChildren; exact .pure _
  | .other :: l => by
    simp only [readSetChildren]
    exact fetchSim_readSetChildren p l
  | .elem tag a t cs :: l => by
    simp only [readSetChildren]
    refine FetchSim.bind ?_ fun p' => fetchSim_readSetChildren p' l
    exact .ite (by cases t <;> exact .pure _) (.ite ((FetchSim.lift _).bind fun _ => .pure _)
      (.ite ((FetchSim.lift _).bind fun _ => .pure _)
      (.ite (.throw _) (.ite (.throw _) (.ite (.throw _) (.ite (.throw _)
      (.ite ((fetchSim_readPolicyReg rd _).bind fun _ => .pure _) (.ite ((hp _).bind fun _ => .pure _)
      (.ite ((fetchSim_readPolicySet _).bind fun _ => .pure _) (.ite ((hs _).bind fun _ => .pure _)
      (.ite (.throw _) (.throw _))))))))))))
end

theorem fetchSim_readRoot (n : XNode) : FetchSim fetch fetch' (readRoot rd res n) (readRoot rd res' n) := by
  unfold readRoot
  exact .ite (fetchSim_readPolicyReg rd n) (.ite (fetchSim_readPolicySet hp hs n) (.throw _))
end

theorem fetchSim_fetchDoc {fetch fetch' : Fetch} (u : String) : FetchSim fetch fetch' (fetchDoc fetch u) (fetchDoc fetch' u) := by
  intro s r s' h
  simp only [fetchDoc, Prod.mk.injEq] at h ⊢
  obtain ⟨rfl, rfl⟩ := h
  exact ⟨List.suffix_cons _ _, fun hh => ⟨(hh u s.fetched (List.suffix_refl _) (List.suffix_refl _)).symm, rfl⟩⟩

theorem fetchSim_urlResolver (rd : RdEnv) (base : Option String) (fetch fetch' : Fetch) (limit : Nat) :
    (∀ r, FetchSim fetch fetch' ((urlResolver rd base fetch limit).findPolicy r)
      ((urlResolver rd base fetch' limit).findPolicy r)) ∧
    (∀ r, FetchSim fetch fetch' ((urlResolver rd base fetch limit).findPolicySet r)
      ((urlResolver rd base fetch' limit).findPolicySet r)) := by
  induction limit with
  | zero => exact ⟨fun _ => .throw _, fun _ => .throw _⟩
  | succ k ih =>
    have hr : ∀ ref, FetchSim fetch fetch' (fromReference base fetch (readRoot rd (urlResolver rd base fetch k)) ref)
        (fromReference base fetch' (readRoot rd (urlResolver rd base fetch' k)) ref) := fun ref =>
      (FetchSim.lift _).bind fun _ => (fetchSim_fetchDoc _).bind fun d => fetchSim_readRoot ih.1 ih.2 d
    constructor
    all_goals
      intro ref s a s' h
      unfold urlResolver at h ⊢
      dsimp only at h ⊢
      split at h
      · rename_i p hp
        simp only [Prod.mk.injEq] at h
        obtain ⟨rfl, rfl⟩ := h
        exact ⟨List.suffix_refl _, fun _ => rfl⟩
      · rcases hx : fromReference base fetch (readRoot rd (urlResolver rd base fetch k)) ref s with ⟨r, s1⟩
        obtain ⟨h1, h2⟩ := hr ref s r s1 hx
        rw [hx] at h
        have hs1 : s1 = s' := by
          cases r with
          | error e => simp only [Prod.mk.injEq] at h; exact h.2
          | ok b => dsimp only at h; split at h <;> (simp only [Prod.mk.injEq] at h; exact h.2)
        subst hs1
        refine ⟨h1, fun hh => ?_⟩
        rw [h2 hh]
        exact h

theorem fetchSim_fromSource (rd : RdEnv) (base : Option String) (fetch fetch' : Fetch) (limit : Nat) (src : Except Exc XNode) :
    FetchSim fetch fetch' (fromSource rd (some (urlResolver rd base fetch limit)) src)
      (fromSource rd (some (urlResolver rd base fetch' limit)) src) :=
  (FetchSim.lift _).bind fun _ => fetchSim_readRoot (fetchSim_urlResolver rd base fetch fetch' limit).1
    (fetchSim_urlResolver rd base fetch fetch' limit).2 _

/-! ## What successful runs fetch -/

/-- Whenever a run succeeds the states before and after are related. -/
def OkSteps {α} (R : Finder → Finder → Prop) (m : FM α) : Prop := ∀ s a s', m s = (.ok a, s') → R s s'

section
variable {R : Finder → Finder → Prop} (hr : ∀ s, R s s) (ht : ∀ s1 s2 s3, R s1 s2 → R s2 s3 → R s1 s3)
  {rd : RdEnv} {res : Resolver} (hrP : ∀ t, OkSteps R (res.findPolicy t)) (hrS : ∀ t, OkSteps R (res.findPolicySet t))
  (hP : ∀ p, OkSteps R (addPolicyReference p)) (hS : ∀ p, OkSteps R (addPolicySetReference p))

include hP in
theorem okSteps_readPolicyReg (n : XNode) : OkSteps R (readPolicyReg rd n) := by
  intro s a s' h
  simp only [readPolicyReg, FM.bind_ok, FM.lift_ok, FM.pure_ok] at h
  obtain ⟨p, _, ⟨_, rfl⟩, _, _, h, rfl, rfl⟩ := h
  exact hP p _ _ _ h

include hr ht hrP hrS hP hS

mutual
theorem okSteps_readPolicySet : (n : XNode) → OkSteps R (readPolicySet rd res n)
  | .other => by
    intro s a s' h
    rw [readPolicySet] at h
    exact (FM.throw_ok.mp h).elim
  | .elem tag a t cs => by
    intro s q s' h
    rw [readPolicySet] at h
    simp only [FM.bind_ok, FM.lift_ok, FM.pure_ok] at h
    obtain ⟨_, _, ⟨_, rfl⟩, _, _, ⟨_, rfl⟩, _, _, ⟨_, rfl⟩, _, _, ⟨_, rfl⟩, p, s1, h1, _, _, h2, rfl, rfl⟩ := h
    exact ht _ _ _ (okSteps_readSetChildren cs _ _ _ _ h1) (hS _ _ _ _ h2)
theorem okSteps_readSetChildren : (l : List XNode) → ∀ p, OkSteps R (readSetChildren rd res p l)
  | [], p => by
    intro s a s' h
    rw [readSetChildren, FM.pure_ok] at h
    rw [h.2]
    exact hr _
  | .other :: l, p => by
    rw [readSetChildren]
    exact okSteps_readSetChildren l p
  | .elem tag a t cs :: l, p => by
    intro s q s' h
    rw [readSetChildren_elem, FM.bind_ok] at h
    obtain ⟨p1, s1, h1, h2⟩ := h
    refine ht _ _ _ ?_ (okSteps_readSetChildren l _ _ _ _ h2)
    rcases setChild_ok.mp h1 with ⟨_, rfl, _⟩ | ⟨_, rfl, _⟩ | ⟨q, _, ⟨_, h⟩ | ⟨_, h⟩ | ⟨_, h⟩ | ⟨_, h⟩⟩
    · exact hr _
    · exact hr _
    · exact okSteps_readPolicyReg hP _ _ _ _ h
    · exact hrP _ _ _ _ h
    · exact okSteps_readPolicySet (.elem tag a t cs) _ _ _ h
    · exact hrS _ _ _ _ h
end
end

/-- The kinds and identifiers of the documents fetched. -/
def keysOf (fetch : Fetch) (past new : List String) : List (Option (Kind × Option String)) :=
  (answers fetch past new).map fun a => a.2.toOption.bind docKey

theorem answers_append (fetch : Fetch) (past : List String) (l1 l2 : List String) :
    answers fetch past (l1 ++ l2) = answers fetch (l2 ++ past) l1 ++ answers fetch past l2 := by
  induction l1 with
  | nil => rfl
  | cons u l ih => simp only [List.cons_append, answers, ih, List.append_assoc]

/-- The documents fetched declare policies that were not registered before and are registered afterwards, all different
ones. -/
def Ledger (fetch : Fetch) (s s' : Finder) : Prop :=
  Extends s s' ∧ ∃ new, s'.fetched = new ++ s.fetched ∧ (keysOf fetch s.fetched new).Nodup ∧
    ∀ k ∈ keysOf fetch s.fetched new, ∃ x, k = some x ∧ registered s x.1 x.2 = none ∧
      (registered s' x.1 x.2).isSome = true

theorem ledger_refl (fetch : Fetch) (s : Finder) : Ledger fetch s s :=
  ⟨fun _ _ _ h => h, [], rfl, List.nodup_nil, fun _ h => nomatch h⟩

theorem extends_isSome {s s' : Finder} (h : Extends s s') {k i} (hs : (registered s k i).isSome = true) :
    (registered s' k i).isSome = true := by
  obtain ⟨q, hq⟩ := Option.isSome_iff_exists.mp hs
  rw [h _ _ _ hq]; rfl

theorem ledger_trans (fetch : Fetch) (s1 s2 s3 : Finder) (h1 : Ledger fetch s1 s2) (h2 : Ledger fetch s2 s3) :
    Ledger fetch s1 s3 := by
  obtain ⟨e1, n1, f1, d1, k1⟩ := h1
  obtain ⟨e2, n2, f2, d2, k2⟩ := h2
  have hk : keysOf fetch s1.fetched (n2 ++ n1) = keysOf fetch s2.fetched n2 ++ keysOf fetch s1.fetched n1 := by
    unfold keysOf
    rw [answers_append, f1, List.map_append]
  refine ⟨fun k i q h => e2 k i q (e1 k i q h), n2 ++ n1, by rw [f2, f1, List.append_assoc], ?_, ?_⟩
  · rw [hk, List.nodup_append]
    refine ⟨d2, d1, ?_⟩
    intro a ha b hb hab
    obtain ⟨x, rfl, hn, _⟩ := k2 a ha
    obtain ⟨y, rfl, _, hy⟩ := k1 b hb
    cases hab
    rw [hn] at hy
    cases hy
  · intro k hk'
    rw [hk, List.mem_append] at hk'
    rcases hk' with h | h
    · obtain ⟨x, rfl, hn, hy⟩ := k2 k h
      refine ⟨x, rfl, ?_, hy⟩
      cases hx : registered s1 x.1 x.2 with
      | none => rfl
      | some q => rw [e1 _ _ _ hx] at hn; cases hn
    · obtain ⟨x, rfl, hn, hy⟩ := k1 k h
      exact ⟨x, rfl, hn, extends_isSome e2 hy⟩

theorem ledger_addPolicy (fetch : Fetch) (p : PolicyNode) : OkSteps (Ledger fetch) (addPolicyReference p) := by
  intro s a s' h
  have hg := good_addPolicy p s
  rw [h] at hg
  obtain ⟨_, _, rfl, _, rfl⟩ := addPolicyReference_ok.mp h
  exact ⟨hg.1, [], rfl, List.nodup_nil, fun _ h => nomatch h⟩

theorem ledger_addPolicySet (fetch : Fetch) (p : PolicyNode) : OkSteps (Ledger fetch) (addPolicySetReference p) := by
  intro s a s' h
  have hg := good_addPolicySet p s
  rw [h] at hg
  obtain ⟨_, _, rfl, _, rfl⟩ := addPolicySetReference_ok.mp h
  exact ⟨hg.1, [], rfl, List.nodup_nil, fun _ h => nomatch h⟩

/-- Reading a document registers what it declares, last. -/
theorem ledger_readRoot {fetch : Fetch} {rd : RdEnv} {res : Resolver} (hrP : ∀ t, OkSteps (Ledger fetch) (res.findPolicy t))
    (hrS : ∀ t, OkSteps (Ledger fetch) (res.findPolicySet t)) {n : XNode} {s q s'}
    (h : readRoot rd res n s = (.ok q, s')) :
    ∃ s1 x, Ledger fetch s s1 ∧ s'.fetched = s1.fetched ∧ Extends s1 s' ∧ docKey n = some x ∧
      registered s1 x.1 x.2 = none ∧ (registered s' x.1 x.2).isSome = true := by
  unfold readRoot at h
  by_cases h1 : n.name = "Policy"
  · rw [if_pos h1] at h
    simp only [readPolicyReg, FM.bind_ok, FM.lift_ok, FM.pure_ok] at h
    obtain ⟨p, _, ⟨hp, rfl⟩, _, _, h, rfl, rfl⟩ := h
    have hg := good_addPolicy p s
    rw [h] at hg
    obtain ⟨hd, rs, rfl, hn, rfl⟩ := addPolicyReference_ok.mp h
    have hi : n.attr "PolicyId" = hd.ident := by
      have := readPolicy_ok.mp hp
      unfold IsPolicy at this
      obtain ⟨_, _, h', rs', h3, _, h4, _⟩ := this
      cases h3
      exact h4
    refine ⟨s, (.policy, hd.ident), ledger_refl _ _, rfl, hg.1, ?_, hn, ?_⟩
    · unfold docKey; rw [if_pos h1, hi]
    · simp [registered, dictGet_set]
  · rw [if_neg h1] at h
    by_cases h2 : n.name = "PolicySet"
    · rw [if_pos h2] at h
      cases n with
      | other => rw [readPolicySet] at h; exact (FM.throw_ok.mp h).elim
      | elem tag a t cs =>
        rw [readPolicySet] at h
        simp only [FM.bind_ok, FM.lift_ok, FM.pure_ok] at h
        obtain ⟨_, _, ⟨_, rfl⟩, pid, _, ⟨hpid, rfl⟩, alg, _, ⟨_, rfl⟩, h0, _, ⟨hh, rfl⟩, p, s1, h3, _, _, h4, rfl, rfl⟩ := h
        have hl := okSteps_readSetChildren (ledger_refl fetch) (ledger_trans fetch) hrP hrS (ledger_addPolicy fetch)
          (ledger_addPolicySet fetch) cs _ _ _ _ h3
        have hg := good_addPolicySet (.policySet p.1 p.2) s1
        rw [h4] at hg
        have hi : (XNode.elem tag a t cs).attr "PolicySetId" = p.1.ident := by
          rw [readSetChildren_ident _ _ _ _ _ h3]
          show _ = h0.ident
          rw [loadAlg_ident hh]
          exact requiredAttr_ok.mp hpid
        obtain ⟨hd, rs, h5, hn, rfl⟩ := addPolicySetReference_ok.mp h4
        cases h5
        refine ⟨s1, (.policySet, p.1.ident), hl, rfl, hg.1, ?_, hn, ?_⟩
        · unfold docKey; rw [if_neg h1, if_pos h2, hi]
        · simp [registered, dictGet_set]
    · rw [if_neg h2] at h; exact (FM.throw_ok.mp h).elim

theorem ledger_readRoot' {fetch : Fetch} {rd : RdEnv} {res : Resolver}
    (hrP : ∀ t, OkSteps (Ledger fetch) (res.findPolicy t)) (hrS : ∀ t, OkSteps (Ledger fetch) (res.findPolicySet t))
    (n : XNode) : OkSteps (Ledger fetch) (readRoot rd res n) := by
  intro s q s' h
  unfold readRoot at h
  split at h
  · exact okSteps_readPolicyReg (ledger_addPolicy fetch) _ _ _ _ h
  · split at h
    · exact okSteps_readPolicySet (ledger_refl fetch) (ledger_trans fetch) hrP hrS (ledger_addPolicy fetch)
        (ledger_addPolicySet fetch) _ _ _ _ h
    · exact (FM.throw_ok.mp h).elim

/-- A reference that is fetched. -/
theorem ledger_fromReference {fetch : Fetch} {rd : RdEnv} {base : Option String} {res : Resolver}
    (hrP : ∀ t, OkSteps (Ledger fetch) (res.findPolicy t)) (hrS : ∀ t, OkSteps (Ledger fetch) (res.findPolicySet t))
    (ref : Option String) : OkSteps (Ledger fetch) (fromReference base fetch (readRoot rd res) ref) := by
  intro s q s' h
  simp only [fromReference, FM.bind_ok, FM.lift_ok] at h
  obtain ⟨u, _, ⟨_, rfl⟩, d, s0, hd, h⟩ := h
  simp only [fetchDoc, Prod.mk.injEq] at hd
  obtain ⟨hd, rfl⟩ := hd
  obtain ⟨s1, x, ⟨e1, new, hf, hn, hk⟩, hf', e2, hx, hx1, hx2⟩ := ledger_readRoot hrP hrS h
  have e0 : ∀ k i, registered { s with fetched := u :: s.fetched } k i = registered s k i := by
    intro k i; cases k <;> rfl
  have hkeys : keysOf fetch s.fetched (new ++ [u]) = keysOf fetch (u :: s.fetched) new ++ [some x] := by
    unfold keysOf
    rw [answers_append, List.map_append]
    simp only [answers, List.nil_append, List.map_cons, List.map_nil, hd, Except.toOption, Option.bind_some, hx,
      List.singleton_append]
  refine ⟨fun k i q hq => e2 k i q (e1 k i q (by rw [e0]; exact hq)), new ++ [u], ?_, ?_, ?_⟩
  · rw [hf', hf]; simp
  · rw [hkeys, List.nodup_append]
    refine ⟨hn, by simp, ?_⟩
    intro a ha b hb hab
    obtain ⟨y, rfl, _, hy⟩ := hk a ha
    cases List.mem_singleton.mp hb
    cases hab
    rw [hx1] at hy
    cases hy
  · intro k hk'
    rw [hkeys, List.mem_append] at hk'
    rcases hk' with h | h
    · obtain ⟨y, rfl, h3, h4⟩ := hk k h
      rw [e0] at h3
      exact ⟨y, rfl, h3, extends_isSome e2 h4⟩
    · cases List.mem_singleton.mp h
      refine ⟨x, rfl, ?_, hx2⟩
      cases hy : registered s x.1 x.2 with
      | none => rfl
      | some q =>
        rw [← e0] at hy
        rw [e1 _ _ _ hy] at hx1
        cases hx1

theorem ledger_urlResolver (fetch : Fetch) (rd : RdEnv) (base : Option String) (limit : Nat) :
    (∀ t, OkSteps (Ledger fetch) ((urlResolver rd base fetch limit).findPolicy t)) ∧
    (∀ t, OkSteps (Ledger fetch) ((urlResolver rd base fetch limit).findPolicySet t)) := by
  induction limit with
  | zero => exact ⟨fun _ _ _ _ h => (FM.throw_ok.mp h).elim, fun _ _ _ _ h => (FM.throw_ok.mp h).elim⟩
  | succ k ih =>
    constructor
    all_goals
      intro ref s a s' h
      unfold urlResolver at h
      dsimp only at h
      split at h
      · simp only [Prod.mk.injEq] at h
        rw [← h.2]
        exact ledger_refl _ _
      · rcases hx : fromReference base fetch (readRoot rd (urlResolver rd base fetch k)) ref s with ⟨r, s1⟩
        rw [hx] at h
        cases r with
        | error e => cases h
        | ok b =>
          have hl := ledger_fromReference ih.1 ih.2 ref s b s1 hx
          dsimp only at h
          split at h
          · simp only [Prod.mk.injEq] at h
            rw [← h.2]
            exact hl
          · simp at h

theorem ledger_fromSource (fetch : Fetch) (rd : RdEnv) (base : Option String) (limit : Nat) (src : Except Exc XNode) :
    OkSteps (Ledger fetch) (fromSource rd (some (urlResolver rd base fetch limit)) src) := by
  intro s q s' h
  simp only [fromSource, FM.bind_ok, FM.lift_ok] at h
  obtain ⟨n, _, ⟨_, rfl⟩, h⟩ := h
  exact ledger_readRoot' (ledger_urlResolver fetch rd base limit).1 (ledger_urlResolver fetch rd base limit).2 n _ _ _ h

end Xacml
