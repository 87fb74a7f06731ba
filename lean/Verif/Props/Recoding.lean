import Verif.Lemmas.Sim
import Verif.Lemmas.Equality
import Verif.Spec.Recoding
import Verif.Props.Reordering

/-!
# C105: values are only compared
-/
namespace Xacml
open Spec

variable {c : Recoding}

private theorem opt_recoded (hc : c.Faithful) (a b : Option Native) :
    optNativeEq (a.map c.of) (b.map c.of) = optNativeEq a b := by
  cases a <;> cases b <;> try rfl
  rename_i x y
  have h := hc.1 x y
  rw [← optNativeEq_iff, ← optNativeEq_iff] at h
  simp only [Option.map_some]
  cases h1 : optNativeEq (some (c.of x)) (some (c.of y)) <;> cases h2 : optNativeEq (some x) (some y) <;> simp_all

private theorem isInst_recoded (v : AttrVal) (t : AVClass) : (c.inValue v).isInst t = v.isInst t := rfl

private theorem pyEq_recoded (hc : c.Faithful) (v w : AttrVal) : (c.inValue v).pyEq (c.inValue w) = v.pyEq w := by
  unfold AttrVal.pyEq AttrVal.dunderEq
  simp only [Recoding.inValue, AttrVal.isInst, opt_recoded hc]
  rfl

private theorem checkItems_recoded (et : Option AVClass) (xs : List PyVal) :
    checkItems et (xs.map c.inPyVal) = Returning (·.map c.inValue) (checkItems et xs) := by
  induction xs with
  | nil => rfl
  | cons x xs ih =>
    cases et with
    | none => cases x <;> rfl
    | some t =>
      cases x with
      | av v =>
        simp only [List.map_cons, checkItems, Recoding.inPyVal, isInst_recoded, ih]
        split
        · cases checkItems (some t) xs <;> rfl
        · rfl
      | _ => rfl

private theorem checkItems_av (et : Option AVClass) (vs : List AttrVal) :
    checkItems et ((vs.map c.inValue).map .av) = Returning (·.map c.inValue) (checkItems et (vs.map .av)) := by
  rw [← checkItems_recoded]
  simp [List.map_map, Function.comp_def, Recoding.inPyVal]

/-- The new values in a bag. -/
private def inBag (c : Recoding) (b : Bag) : Bag := { b with items := b.items.map c.inValue }

private theorem extend_recoded (b : Bag) (it : PyIter) :
    (inBag c b).extend { it with items := it.items.map c.inPyVal } = Returning (inBag c) (b.extend it) := by
  unfold Bag.extend
  simp only [checkItems_recoded, inBag]
  cases checkItems b.elementType it.items with
  | error e => rfl
  | ok vs => cases it.oneShot <;> simp [Returning, inBag]

private theorem memBag_recoded (hc : c.Faithful) (x : PyVal) (ys : List AttrVal) :
    memBag (c.inPyVal x) (ys.map c.inValue) = memBag x ys := by
  induction ys with
  | nil => rfl
  | cons y ys ih =>
    cases x with
    | av v =>
      simp only [Recoding.inPyVal] at ih
      simp only [List.map_cons, memBag, Recoding.inPyVal, pyEq_recoded hc, ih]
    | _ => rfl

private theorem weedOut_recoded (hc : c.Faithful) (ys : List AttrVal) (xs : List PyVal) :
    weedOut (ys.map c.inValue) (xs.map c.inPyVal) = Returning (·.map c.inPyVal) (weedOut ys xs) := by
  induction xs with
  | nil => rfl
  | cons x xs ih =>
    simp only [List.map_cons, weedOut, memBag_recoded hc, ih]
    cases memBag x ys with
    | error e => rfl
    | ok b => cases b <;> cases weedOut ys xs <;> rfl

private theorem addPip_recoded (hc : c.Faithful) (b : Bag) (ans : PipAnswer) :
    addPip (inBag c b) (c.inAnswer ans) = Returning (inBag c) (addPip b ans) := by
  cases ans with
  | none => rfl
  | iter it =>
    simp only [addPip, Recoding.inAnswer]
    have he : (inBag c b).items.isEmpty = b.items.isEmpty := by simp [inBag]
    rw [he]
    split
    · exact extend_recoded b it
    · rw [show (inBag c b).items = b.items.map c.inValue from rfl, weedOut_recoded hc]
      cases weedOut b.items it.items with
      | error e => rfl
      | ok ys => exact extend_recoded b ⟨false, ys⟩

private theorem collectAttrs_recoded (d : Designator) (as : List Attribute) (b : Bag) :
    collectAttrs d (inBag c b) (as.map c.inAttribute) = Returning (inBag c) (collectAttrs d b as) := by
  induction as generalizing b with
  | nil => rfl
  | cons a as ih =>
    have hm : attributeMatch d (c.inAttribute a) = attributeMatch d a := rfl
    simp only [List.map_cons, collectAttrs, hm]
    split
    · have hf : (((c.inAttribute a).values.filter fun v => some v.dataType == d.dataType).map PyVal.av) =
          ((a.values.filter fun v => some v.dataType == d.dataType).map PyVal.av).map c.inPyVal := by
        simp only [Recoding.inAttribute, List.filter_map, List.map_map]
        rfl
      have he := extend_recoded (c := c) b ⟨false, (a.values.filter fun v => some v.dataType == d.dataType).map PyVal.av⟩
      simp only at he
      rw [hf, he]
      cases b.extend ⟨false, (a.values.filter fun v => some v.dataType == d.dataType).map PyVal.av⟩ with
      | error e => rfl
      | ok b' => exact ih b'
    · exact ih b

private theorem collectResources_recoded (d : Designator) (xs : List CtxResource) (b : Bag) :
    collectResources d (inBag c b) (xs.map fun x => { x with attributes := x.attributes.map c.inAttribute }) =
      Returning (inBag c) (collectResources d b xs) := by
  induction xs generalizing b with
  | nil => rfl
  | cons x xs ih =>
    simp only [List.map_cons, collectResources, collectAttrs_recoded]
    cases collectAttrs d b x.attributes with
    | error e => rfl
    | ok b' => exact ih b'

private theorem checkPresent_recoded (m : Bool) (b : Bag) :
    checkPresent m (inBag c b) = Returning c.inPyVal (checkPresent m b) := by
  unfold checkPresent
  have he : (inBag c b).items.isEmpty = b.items.isEmpty := by simp [inBag]
  rw [he]
  split <;> rfl

private theorem selectValues_recoded (hc : c.Faithful) (t : AVClass) (dt : String) (ns : List (Option Native)) :
    selectValues t dt (ns.map (·.map c.of)) = Returning (·.map c.inValue) (selectValues t dt ns) := by
  induction ns with
  | nil => rfl
  | cons n ns ih =>
    cases n with
    | none => rfl
    | some n =>
      simp only [List.map_cons, Option.map_some, selectValues, AttrVal.setValue, hc.2, ih]
      by_cases h : n.isInstance t.native = true
      · simp only [AVClass.new, h, if_true]
        cases selectValues t dt ns <;> rfl
      · simp [AVClass.new, h, Returning]

/-- The computations do the same in new values, with the same history of questions in new values. -/
private def Alike (c : Recoding) {α β} (f : α → β) (m : EvalM α) (m' : EvalM β) : Prop :=
  ∀ w w', w'.pipLog = w.pipLog.map c.inQuery →
    (m' w').1 = Returning f (m w).1 ∧ (m' w').2.pipLog = (m w).2.pipLog.map c.inQuery

private theorem Alike.pure {α β} {f : α → β} (a : α) : Alike c f (Pure.pure a) (Pure.pure (f a)) :=
  fun _ _ h => ⟨rfl, h⟩

private theorem Alike.throw {α β} {f : α → β} (e : Exc) : Alike c f (EvalM.throw e) (EvalM.throw e) :=
  fun _ _ h => ⟨rfl, h⟩

private theorem Alike.ofExcept {α β} {f : α → β} {x : Except Exc α} {x' : Except Exc β} (hx : x' = Returning f x) :
    Alike c f (EvalM.ofExcept x) (EvalM.ofExcept x') := fun _ _ h => ⟨hx, h⟩

private theorem Alike.bind {α β γ δ} {f : α → β} {g : γ → δ} {m : EvalM α} {m' : EvalM β} {k : α → EvalM γ}
    {k' : β → EvalM δ} (hm : Alike c f m m') (hk : ∀ a, Alike c g (k a) (k' (f a))) :
    Alike c g (m >>= k) (m' >>= k') := by
  intro w w' h
  obtain ⟨h1, h2⟩ := hm w w' h
  rw [run_bind, run_bind]
  rcases hr : m w with ⟨x, w1⟩
  rcases hr' : m' w' with ⟨x', w1'⟩
  rw [hr, hr'] at h1 h2
  simp only at h1 h2
  subst h1
  cases x with
  | ok a => exact hk a w1 w1' h2
  | error e => exact ⟨rfl, h2⟩

private theorem Alike.catchAll {m m' : EvalM Decision} (h : Alike c id m m') :
    Alike c id (catchAll m) (catchAll m') := by
  intro w w' hw
  obtain ⟨h1, h2⟩ := h w w' hw
  unfold Xacml.catchAll
  rcases hr : m w with ⟨x, w1⟩
  rcases hr' : m' w' with ⟨x', w1'⟩
  rw [hr, hr'] at h1 h2
  simp only at h1 h2
  subst h1
  cases x <;> exact ⟨rfl, h2⟩

section
variable (hc : c.Faithful)
include hc

private theorem equal_recoded (t : AVClass) (args : List PyVal) :
    equalFn t (args.map c.inPyVal) = Returning c.inPyVal (equalFn t args) := by
  match args with
  | [] => rfl
  | [_] => rfl
  | [a, b] =>
    cases a <;> cases b <;> try rfl
    rename_i v w
    simp only [List.map_cons, List.map_nil, Recoding.inPyVal, equalFn, isInst_recoded]
    have := opt_recoded hc v.value w.value
    simp only [Recoding.inValue, this]
    repeat' split
    all_goals rfl
  | _ :: _ :: _ :: _ => rfl

private theorem match_recoded (t : AVClass) (args : List PyVal) :
    matchFnEval t (args.map c.inPyVal) = Returning c.inPyVal (matchFnEval t args) := by
  match args with
  | [] => rfl
  | [_] => rfl
  | [a, b] =>
    cases a <;> cases b <;> try rfl
    rename_i v w
    simp only [List.map_cons, List.map_nil, Recoding.inPyVal, matchFnEval, isInst_recoded, pyEq_recoded hc]
    cases v.pyEq w <;> (repeat' split) <;> first | rfl | simp_all [Returning, Recoding.inPyVal]
  | _ :: _ :: _ :: _ => rfl

omit hc in
private theorem oneAndOnly_recoded (t : AVClass) (args : List PyVal) :
    oneAndOnlyFn t (args.map c.inPyVal) = Returning c.inPyVal (oneAndOnlyFn t args) := by
  match args with
  | [] => rfl
  | [a] =>
    cases a <;> try rfl
    rename_i b
    obtain ⟨et, items⟩ := b
    simp only [List.map_cons, List.map_nil, Recoding.inPyVal, oneAndOnlyFn]
    split
    · match items with
      | [] => rfl
      | [_] => rfl
      | _ :: _ :: _ => rfl
    · rfl
  | a :: _ :: _ => cases a <;> rfl

private theorem member_recoded (t : AVClass) (args : List PyVal) :
    atLeastOneMemberOfFn t (args.map c.inPyVal) = Returning c.inPyVal (atLeastOneMemberOfFn t args) := by
  match args with
  | [] => rfl
  | [a] => cases a <;> rfl
  | [a, b] =>
    cases a <;> cases b <;> try rfl
    rename_i a b
    simp only [List.map_cons, List.map_nil, Recoding.inPyVal, atLeastOneMemberOfFn, List.any_map, Function.comp_def]
    have : ∀ v w : AttrVal, optNativeEq (c.inValue v).value (c.inValue w).value = optNativeEq v.value w.value :=
      fun v w => opt_recoded hc _ _
    simp only [this]
    repeat' split
    all_goals rfl
  | a :: b :: _ :: _ => cases a <;> cases b <;> rfl

omit hc in
private theorem and_recoded (args : List PyVal) : andFn (args.map c.inPyVal) = Returning c.inPyVal (andFn args) := by
  unfold andFn
  have h1 : (args.map c.inPyVal).all PyVal.isBool = args.all PyVal.isBool := by
    rw [List.all_map]; congr 1; funext x; cases x <;> rfl
  have h2 : (args.map c.inPyVal).all PyVal.truthy = args.all PyVal.truthy := by
    rw [List.all_map]; congr 1; funext x; cases x <;> simp [Recoding.inPyVal, PyVal.truthy]
  rw [h1, h2]
  split <;> rfl

omit hc in
private theorem not_recoded (args : List PyVal) : notFn (args.map c.inPyVal) = Returning c.inPyVal (notFn args) := by
  match args with
  | [] => rfl
  | [a] =>
    cases a <;> try rfl
    rename_i n
    cases n <;> rfl
  | .native n :: _ :: _ => cases n <;> rfl
  | .av _ :: _ :: _ => rfl
  | .bag _ :: _ :: _ => rfl
  | .none :: _ :: _ => rfl
  | .opaque_ _ :: _ :: _ => rfl

omit hc in
private theorem round_recoded (args : List PyVal) : roundFn (args.map c.inPyVal) = Returning c.inPyVal (roundFn args) := by
  match args with
  | [] => rfl
  | [a] =>
    cases a <;> try rfl
    rename_i n
    cases n <;> try rfl
    rename_i f
    cases f <;> rfl
  | a :: _ :: _ =>
    cases a <;> try rfl
    rename_i n
    cases n <;> try rfl
    rename_i f
    cases f <;> rfl

private theorem Alike.func (env : Env) {f : Func} (hf : c.Ignores f) (args : List PyVal) :
    Alike c c.inPyVal (f.evaluate env args) (f.evaluate env (args.map c.inPyVal)) := by
  cases f with
  | equal t => exact .ofExcept (equal_recoded hc t args)
  | matchFn t => exact .ofExcept (match_recoded hc t args)
  | bag t =>
    refine .ofExcept ?_
    unfold bagFn
    rw [checkItems_recoded]
    cases checkItems (some t) args <;> rfl
  | oneAndOnly t => exact .ofExcept (oneAndOnly_recoded t args)
  | atLeastOneMemberOf t => exact .ofExcept (member_recoded hc t args)
  | and => exact .ofExcept (and_recoded args)
  | not => exact .ofExcept (not_recoded args)
  | round => exact .ofExcept (round_recoded args)
  | regexpMatch t => exact hf.elim
  | concatenate t => exact hf.elim
  | custom g => exact .ofExcept (hf args)

private theorem Alike.collectSubjects {r r' : Request} (hr : c.Recodes r r') (d : Designator) (ss : List CtxSubject) (b : Bag) :
    Alike c (inBag c) (collectSubjects r d b ss)
      (collectSubjects r' d (inBag c b) (ss.map fun s => { s with attributes := s.attributes.map c.inAttribute })) := by
  induction ss generalizing b with
  | nil => exact .pure b
  | cons s ss ih =>
    simp only [List.map_cons, Xacml.collectSubjects]
    refine .bind (.ofExcept (collectAttrs_recoded d s.attributes b)) fun b => ?_
    have hp := hr.handler
    cases h : r.ctxHandler with
    | none =>
      cases h' : r'.ctxHandler with
      | none => exact ih b
      | some _ => rw [h, h'] at hp; exact hp.elim
    | some pip =>
      cases h' : r'.ctxHandler with
      | none => rw [h, h'] at hp; exact hp.elim
      | some pip' =>
        rw [h, h'] at hp
        simp only at hp ⊢
        refine .bind (f := c.inAnswer) ?_ fun ans => .bind (.ofExcept (addPip_recoded hc b ans)) fun b => ih b
        intro w w' hw
        simp only [pipQuery, hw]
        have := hp w.pipLog ⟨r.data, d⟩
        rw [hr.data]
        exact ⟨this, by simp [Recoding.inQuery]⟩

private theorem Alike.designator (env : Env) {r r' : Request} (hr : c.Recodes r r') (cat : Category) (d : Designator) :
    Alike c c.inPyVal (designatorEval env cat d (some r)) (designatorEval env cat d (some r')) := by
  unfold designatorEval
  have hb : (⟨classLookup env.classMap d.dataType, []⟩ : Bag) = inBag c ⟨classLookup env.classMap d.dataType, []⟩ := rfl
  cases cat with
  | subject =>
    simp only [hr.data, Recoding.inData]
    rw [hb]
    exact .bind (Alike.collectSubjects hc hr d r.data.subjects _) fun b => .ofExcept (checkPresent_recoded _ b)
  | resource =>
    simp only [hr.data, Recoding.inData]
    rw [hb]
    exact .bind (.ofExcept (collectResources_recoded d r.data.resources _)) fun b => .ofExcept (checkPresent_recoded _ b)
  | action =>
    simp only [hr.data, Recoding.inData]
    cases r.data.action with
    | none => exact .throw _
    | some as =>
      simp only [Option.map_some]
      rw [hb]
      exact .bind (.ofExcept (collectAttrs_recoded d as _)) fun b => .ofExcept (checkPresent_recoded _ b)
  | environment =>
    simp only [hr.data, Recoding.inData]
    cases r.data.environment with
    | none => exact .throw _
    | some as =>
      simp only [Option.map_some]
      rw [hb]
      exact .bind (.ofExcept (collectAttrs_recoded d as _)) fun b => .ofExcept (checkPresent_recoded _ b)

private theorem selectorEval_recoded (env : Env) {r r' : Request} (hr : c.Recodes r r') (s : Selector) :
    selectorEval env s (some r') = Returning c.inPyVal (selectorEval env s (some r)) := by
  unfold selectorEval
  have hx := hr.selector
  cases h : r.attributeSelector with
  | none =>
    cases h' : r'.attributeSelector with
    | none => simp only [h, h']; rfl
    | some _ => rw [h, h'] at hx; exact hx.elim
  | some x =>
    cases h' : r'.attributeSelector with
    | none => rw [h, h'] at hx; exact hx.elim
    | some x' =>
      rw [h, h'] at hx
      simp only [h, h'] at hx ⊢
      cases s.dataType with
      | none => rfl
      | some dt =>
        simp only
        cases classLookup env.classMap (some dt) with
        | none => rfl
        | some t =>
          simp only [hx]
          cases x s.path with
          | error e => rfl
          | ok texts =>
            simp only [Returning, selectValues_recoded hc]
            cases selectValues t dt texts with
            | error e => rfl
            | ok vs => exact checkPresent_recoded (c := c) _ ⟨some t, vs⟩

mutual
private theorem Alike.expr (env : Env) {r r' : Request} (hr : c.Recodes r r') :
    (e : Expr) → (∀ f, Applied f e → c.Ignores f) →
      Alike c c.inPyVal (e.evaluate env (some r)) ((c.inExpr e).evaluate env (some r'))
  | .value v, _ => by unfold Recoding.inExpr Expr.evaluate; exact .pure (f := c.inPyVal) (.av v)
  | .designator cat d, _ => by unfold Recoding.inExpr Expr.evaluate; exact Alike.designator hc env hr cat d
  | .selector s, _ => by unfold Recoding.inExpr Expr.evaluate; exact .ofExcept (selectorEval_recoded hc env hr s)
  | .apply fn args, h => by
    unfold Recoding.inExpr Expr.evaluate
    refine .bind (Alike.exprs env hr args fun f e he hf => h f (.inside he hf)) fun xs => ?_
    cases fn with
    | none => exact .throw _
    | some f => exact Alike.func hc env (h f .here) xs
private theorem Alike.exprs (env : Env) {r r' : Request} (hr : c.Recodes r r') :
    (es : List Expr) → (∀ f, ∀ e ∈ es, Applied f e → c.Ignores f) →
      Alike c (·.map c.inPyVal) (Expr.evaluateList env (some r) es) (Expr.evaluateList env (some r') (c.inExprs es))
  | [], _ => by unfold Recoding.inExprs Expr.evaluateList; exact .pure (f := List.map c.inPyVal) []
  | e :: es, h => by
    unfold Recoding.inExprs Expr.evaluateList
    exact .bind (Alike.expr env hr e fun f hf => h f e (by simp) hf) fun x =>
      .bind (Alike.exprs env hr es fun f e he hf => h f e (by simp [he]) hf) fun xs =>
        .pure (f := List.map c.inPyVal) (x :: xs)
end

omit hc in
private theorem truthy_recoded (x : PyVal) : (c.inPyVal x).truthy = x.truthy := by
  cases x <;> simp [Recoding.inPyVal, PyVal.truthy]

private theorem Alike.matchOne (env : Env) (m : Match) (hm : ∀ f, m.func = some f → c.Ignores f) (v : AttrVal) :
    Alike c c.inPyVal (matchOne env m v) (matchOne env (c.inMatch m) (c.inValue v)) := by
  unfold Xacml.matchOne
  have hf : (c.inMatch m).func = m.func := rfl
  rw [hf]
  have tail : ∀ x : PyVal, Alike c c.inPyVal (EvalM.ofExcept (debugCheck env.debug x) >>= fun _ => Pure.pure x)
      (EvalM.ofExcept (debugCheck env.debug (c.inPyVal x)) >>= fun _ => Pure.pure (c.inPyVal x)) := by
    intro x
    refine .bind (f := id) (.ofExcept ?_) fun _ => .pure x
    cases env.debug <;> cases x <;> rfl
  cases h : m.func with
  | none => exact .bind (f := c.inPyVal) (.throw _) tail
  | some f =>
    have ha : [optAv (c.inMatch m).value, .av (c.inValue v)] = [optAv m.value, PyVal.av v].map c.inPyVal := by
      cases hv : m.value <;> simp [Recoding.inMatch, hv, optAv, Recoding.inPyVal]
    simp only [ha]
    exact .bind (Alike.func hc env (hm f h) _) tail

private theorem Alike.matchLoop (env : Env) (m : Match) (hm : ∀ f, m.func = some f → c.Ignores f) (vs : List AttrVal) :
    Alike c (·.map c.inPyVal) (matchLoop env m vs) (matchLoop env (c.inMatch m) (vs.map c.inValue)) := by
  induction vs with
  | nil => exact .pure (f := List.map c.inPyVal) []
  | cons v vs ih =>
    simp only [List.map_cons, Xacml.matchLoop]
    exact .bind (Alike.matchOne hc env m hm v) fun x => .bind ih fun xs => .pure (f := List.map c.inPyVal) (x :: xs)

private theorem Alike.matchEval (env : Env) {r r' : Request} (hr : c.Recodes r r') (m : Match)
    (hm : ∀ f, m.func = some f → c.Ignores f) :
    Alike c id (m.evaluate env (some r)) ((c.inMatch m).evaluate env (some r')) := by
  unfold Match.evaluate
  refine .bind (f := c.inPyVal) ?_ fun x => ?_
  · unfold Match.requestValues
    show Alike c c.inPyVal (match m.designator with | some (cat, d) => _ | none => match m.selector with | some s => _ | none => _)
      (match m.designator with | some (cat, d) => _ | none => match m.selector with | some s => _ | none => _)
    cases m.designator with
    | some p => exact Alike.designator hc env hr p.1 p.2
    | none =>
      cases m.selector with
      | some s => exact .ofExcept (selectorEval_recoded hc env hr s)
      | none => exact .throw _
  · cases x with
    | bag b =>
      refine .bind (Alike.matchLoop hc env m hm b.items) fun xs => ?_
      have : (xs.map c.inPyVal).any PyVal.truthy = xs.any PyVal.truthy := by
        rw [List.any_map]; congr 1; funext x; exact truthy_recoded x
      rw [this]
      exact .pure (f := id) _
    | _ => exact .throw _

private theorem Alike.evalMatches (env : Env) {r r' : Request} (hr : c.Recodes r r') (ms : List Match)
    (hm : ∀ m ∈ ms, ∀ f, m.func = some f → c.Ignores f) :
    Alike c id (evalMatches env (some r) ms) (evalMatches env (some r') (ms.map c.inMatch)) := by
  induction ms with
  | nil => exact .pure (f := id) _
  | cons m ms ih =>
    simp only [List.map_cons, Xacml.evalMatches]
    exact .bind (f := id) (Alike.matchEval hc env hr m (hm m (by simp))) fun b =>
      .bind (f := id) (ih fun m h => hm m (by simp [h])) fun bs => .pure (f := id) _

private theorem Alike.sectionLoop (env : Env) {r r' : Request} (hr : c.Recodes r r') (cs : List TargetChild)
    (hm : ∀ t ∈ cs, ∀ m ∈ t.matches_, ∀ f, m.func = some f → c.Ignores f) (st : Bool) :
    Alike c id (sectionLoop env (some r) st cs) (sectionLoop env (some r') st (c.inSection cs)) := by
  induction cs generalizing st with
  | nil => exact .pure (f := id) _
  | cons t cs ih =>
    simp only [Recoding.inSection, List.map_cons, Xacml.sectionLoop]
    refine .bind (f := id) ?_ fun b => ih (fun t h => hm t (by simp [h])) _
    unfold Xacml.matchChild
    exact .bind (f := id) (Alike.evalMatches hc env hr t.matches_ (hm t (by simp))) fun bs => .pure (f := id) _

private theorem Alike.matchSection (env : Env) {r r' : Request} (hr : c.Recodes r r') (cs : List TargetChild)
    (hm : ∀ t ∈ cs, ∀ m ∈ t.matches_, ∀ f, m.func = some f → c.Ignores f) :
    Alike c id (matchSection env (some r) cs) (matchSection env (some r') (c.inSection cs)) := by
  unfold Xacml.matchSection
  rw [show (c.inSection cs).length = cs.length from by simp [Recoding.inSection]]
  split
  · exact .pure (f := id) _
  · exact Alike.sectionLoop hc env hr cs hm _

private theorem Alike.targetMatch (env : Env) {r r' : Request} (hr : c.Recodes r r') (t : Option Target)
    (hm : ∀ m ∈ optMatches t, ∀ f, m.func = some f → c.Ignores f) :
    Alike c id (targetMatch env t (some r)) (targetMatch env (t.map c.inTarget) (some r')) := by
  cases t with
  | none => exact .pure (f := id) _
  | some t =>
    have hm : ∀ u ∈ t.subjects ++ t.resources ++ t.actions ++ t.environments, ∀ m ∈ u.matches_,
        ∀ f, m.func = some f → c.Ignores f := by
      intro u hu m h
      exact hm m (by
        simp only [optMatches, Option.map_some, Option.getD_some, Spec.Target.allMatches]
        exact List.mem_flatMap.2 ⟨u, hu, h⟩)
    show Alike c id (t.match_ env (some r)) ((c.inTarget t).match_ env (some r'))
    unfold Target.match_
    refine .bind (f := id) (Alike.matchSection hc env hr _ fun u hu => hm u (by simp [hu])) fun _ => ?_
    refine .bind (f := id) (Alike.matchSection hc env hr _ fun u hu => hm u (by simp [hu])) fun _ => ?_
    refine .bind (f := id) (Alike.matchSection hc env hr _ fun u hu => hm u (by simp [hu])) fun _ => ?_
    exact .bind (f := id) (Alike.matchSection hc env hr _ fun u hu => hm u (by simp [hu])) fun _ => .pure (f := id) _

private theorem Alike.rule (env : Env) {r r' : Request} (hr : c.Recodes r r') (rule : Rule)
    (hm : ∀ m ∈ optMatches rule.target, ∀ f, m.func = some f → c.Ignores f)
    (ha : ∀ k e, rule.condition = some k → k.expression = some e → ∀ f, Applied f e → c.Ignores f) :
    Alike c id (rule.evaluate env (some r)) ((c.inRule rule).evaluate env (some r')) := by
  unfold Rule.evaluate
  refine .catchAll ?_
  unfold Rule.body
  refine .bind (f := id) (Alike.targetMatch hc env hr _ hm) fun tm => ?_
  cases tm with
  | false => exact .pure (f := id) _
  | true =>
    have tail : ∀ st : PyVal, Alike c id
        (if st.truthy = true then
          match rule.effect with
          | some e => Pure.pure e.toDecision
          | none => EvalM.throw Exc.attributeError
        else Pure.pure Decision.notApplicable)
        (if (c.inPyVal st).truthy = true then
          match rule.effect with
          | some e => Pure.pure e.toDecision
          | none => EvalM.throw Exc.attributeError
        else Pure.pure Decision.notApplicable) := by
      intro st
      rw [truthy_recoded]
      split
      · cases rule.effect
        · exact .throw _
        · exact .pure (f := id) _
      · exact .pure (f := id) _
    cases hk : rule.condition with
    | none =>
      simp only [Recoding.inRule, hk, Option.map_none]
      exact .bind (f := c.inPyVal) (.pure (f := c.inPyVal) (.native (.bool true))) tail
    | some k =>
      simp only [Recoding.inRule, hk, Option.map_some]
      refine .bind (f := c.inPyVal) ?_ tail
      unfold Condition.evaluate
      cases he : k.expression with
      | none => exact .throw _
      | some e => exact Alike.expr hc env hr e (ha k e hk he)

end

/-- Pointwise alike. -/
private inductive AlikeList (c : Recoding) : List (EvalM Decision) → List (EvalM Decision) → Prop
  | nil : AlikeList c [] []
  | cons {m m' ms ms'} : Alike c id m m' → AlikeList c ms ms' → AlikeList c (m :: ms) (m' :: ms')

private inductive AlikeRules (c : Recoding) : List RuleChild → List RuleChild → Prop
  | nil : AlikeRules c [] []
  | cons {k k' ks ks'} : k.effect = k'.effect → Alike c id k.run k'.run → AlikeRules c ks ks' →
      AlikeRules c (k :: ks) (k' :: ks')

private theorem AlikeRules.runs {cs cs'} (h : AlikeRules c cs cs') :
    AlikeList c (cs.map RuleChild.run) (cs'.map RuleChild.run) := by
  induction h with
  | nil => exact .nil
  | cons _ h _ ih => exact .cons h ih

private theorem Alike.firstApplicable {ms ms'} (h : AlikeList c ms ms') :
    Alike c id (firstApplicable ms) (firstApplicable ms') := by
  induction h with
  | nil => exact .pure (f := id) _
  | cons h _ ih =>
    unfold Xacml.firstApplicable
    refine .bind (f := id) h fun d => ?_
    cases d <;> first | exact .pure (f := id) _ | exact ih

private theorem Alike.denyOverridesPolicies {ms ms'} (h : AlikeList c ms ms') (b : Bool) :
    Alike c id (denyOverridesPolicies b ms) (denyOverridesPolicies b ms') := by
  induction h generalizing b with
  | nil => cases b <;> exact .pure (f := id) _
  | cons h _ ih =>
    unfold Xacml.denyOverridesPolicies
    refine .bind (f := id) h fun d => ?_
    cases d <;> first | exact .pure (f := id) _ | exact ih _

private theorem Alike.permitOverridesPolicies {ms ms'} (h : AlikeList c ms ms') (a b : Bool) :
    Alike c id (permitOverridesPolicies a b ms) (permitOverridesPolicies a b ms') := by
  induction h generalizing a b with
  | nil => cases a <;> cases b <;> exact .pure (f := id) _
  | cons h _ ih =>
    unfold Xacml.permitOverridesPolicies
    refine .bind (f := id) h fun d => ?_
    cases d <;> first | exact .pure (f := id) _ | exact ih _ _

private theorem Alike.denyOverridesRules {cs cs'} (h : AlikeRules c cs cs') (f : Flags) :
    Alike c id (denyOverridesRules f cs) (denyOverridesRules f cs') := by
  induction h generalizing f with
  | nil =>
    unfold Xacml.denyOverridesRules
    repeat' split
    all_goals exact .pure (f := id) _
  | cons he h _ ih =>
    unfold Xacml.denyOverridesRules
    refine .bind (f := id) h fun d => ?_
    rw [he]
    cases d with
    | deny => exact .pure (f := id) _
    | permit => exact ih _
    | notApplicable => exact ih _
    | indeterminate =>
      simp only [id]
      split
      · exact .throw _
      · exact ih _
      · exact ih _

private theorem Alike.permitOverridesRules {cs cs'} (h : AlikeRules c cs cs') (f : Flags) :
    Alike c id (permitOverridesRules f cs) (permitOverridesRules f cs') := by
  induction h generalizing f with
  | nil =>
    unfold Xacml.permitOverridesRules
    repeat' split
    all_goals exact .pure (f := id) _
  | cons he h _ ih =>
    unfold Xacml.permitOverridesRules
    refine .bind (f := id) h fun d => ?_
    rw [he]
    cases d with
    | permit => exact .pure (f := id) _
    | deny => exact ih _
    | notApplicable => exact ih _
    | indeterminate =>
      simp only [id]
      split
      · exact .throw _
      · exact ih _
      · exact ih _

private theorem Alike.policyBase (hc : c.Faithful) (env : Env) {r r' : Request} (hr : c.Recodes r r') (h : Header)
    (hm : ∀ m ∈ optMatches h.target, ∀ f, m.func = some f → c.Ignores f) {k k' : EvalM Decision} (hk : Alike c id k k') :
    Alike c id (policyBaseEvaluate env h (some r) k) (policyBaseEvaluate env (c.inHeader h) (some r') k') := by
  unfold policyBaseEvaluate
  refine .catchAll (.bind (f := id) (Alike.targetMatch hc env hr _ hm) fun tm => ?_)
  cases tm
  · exact .pure (f := id) _
  · exact hk

mutual
private theorem Alike.policy (hc : c.Faithful) (env : Env) {r r' : Request} (hr : c.Recodes r r') :
    (p : PolicyNode) → (∀ f, UsedIn f p → c.Ignores f) →
      Alike c id (p.evaluate env (some r)) ((c.inPolicy p).evaluate env (some r'))
  | .policy h rules, hu => by
    unfold Recoding.inPolicy PolicyNode.evaluate
    have hms : ∀ m ∈ policyMatches (.policy h rules), ∀ f, m.func = some f → c.Ignores f :=
      fun m hm f hf => hu f (.inr ⟨m, hm, hf⟩)
    unfold policyMatches at hms
    refine Alike.policyBase hc env hr h (fun m hm => hms m (by simp [hm])) ?_
    have hrules : AlikeRules c (rules.map (Rule.child env (some r))) ((rules.map c.inRule).map (Rule.child env (some r'))) := by
      have hin : ∀ rule ∈ rules, Alike c id (rule.evaluate env (some r)) ((c.inRule rule).evaluate env (some r')) :=
        fun rule hr' => Alike.rule hc env hr rule
          (fun m hm => hms m (List.mem_append_right _ (List.mem_flatMap.2 ⟨rule, hr', hm⟩)))
          (fun k e hk he f hf => hu f (.inl (.rule hr' hk he hf)))
      clear hms hu
      induction rules with
      | nil => exact .nil
      | cons rule rules ih =>
        exact .cons rfl (hin rule (by simp)) (ih fun x hx => hin x (by simp [hx]))
    show Alike c id (Xacml.combineRules h.alg _) (Xacml.combineRules h.alg _)
    unfold Xacml.combineRules
    split
    · exact .throw _
    · exact Alike.denyOverridesRules hrules _
    · exact Alike.permitOverridesRules hrules _
    · exact Alike.firstApplicable hrules.runs
  | .policySet h ps, hu => by
    unfold Recoding.inPolicy PolicyNode.evaluate
    refine Alike.policyBase hc env hr h (fun m hm f hf => hu f (.inr ⟨m, by unfold policyMatches; simp [hm], hf⟩)) ?_
    have hps := Alike.policies hc env hr ps fun f q hq hf => hu f (by
      rcases hf with hf | ⟨m, hm, hf⟩
      · exact .inl (.child hq hf)
      · refine .inr ⟨m, ?_, hf⟩
        unfold policyMatches
        refine List.mem_append_right _ ?_
        clear hf hu
        induction ps with
        | nil => cases hq
        | cons a ps ih =>
          unfold policiesMatches
          rcases List.mem_cons.1 hq with rfl | hq
          · exact List.mem_append_left _ hm
          · exact List.mem_append_right _ (ih hq))
    show Alike c id (Xacml.combinePolicies h.alg _) (Xacml.combinePolicies h.alg _)
    unfold Xacml.combinePolicies
    split
    · exact .throw _
    · exact Alike.denyOverridesPolicies hps _
    · exact Alike.permitOverridesPolicies hps _ _
    · exact Alike.firstApplicable hps
private theorem Alike.policies (hc : c.Faithful) (env : Env) {r r' : Request} (hr : c.Recodes r r') :
    (ps : List PolicyNode) → (∀ f, ∀ p ∈ ps, UsedIn f p → c.Ignores f) →
      AlikeList c (PolicyNode.evaluators env (some r) ps) (PolicyNode.evaluators env (some r') (c.inPolicies ps))
  | [], _ => by unfold Recoding.inPolicies PolicyNode.evaluators; exact .nil
  | p :: ps, hu => by
    unfold Recoding.inPolicies PolicyNode.evaluators
    exact .cons (Alike.policy hc env hr p fun f hf => hu f p (by simp) hf)
      (Alike.policies hc env hr ps fun f q hq hf => hu f q (by simp [hq]) hf)
end

/-- C105: replacing values by other ones, in the policy, the request, the answers of the context handler and
the texts XPath finds alike, different ones for different ones, does not change the response of a policy whose
functions only compare values, nor what the context handler is asked. The context handler may remember what it
was asked. -/
theorem C105_values (env : Env) (c : Recoding) (hc : c.Faithful) (p : PolicyNode) (hu : ∀ f, UsedIn f p → c.Ignores f)
    (r r' : Request) (hr : c.Recodes r r') (w w' : World) (hw : w'.pipLog = w.pipLog.map c.inQuery) :
    (pdpEvaluate env (some (c.inPolicy p)) (some r') w').1 = (pdpEvaluate env (some p) (some r) w).1 ∧
    (pdpEvaluate env (some (c.inPolicy p)) (some r') w').2.pipLog =
      (pdpEvaluate env (some p) (some r) w).2.pipLog.map c.inQuery := by
  obtain ⟨h1, h2⟩ := Alike.policy hc env hr p hu w w' hw
  unfold pdpEvaluate PolicyNode.evaluateResponse
  simp only
  rcases he : p.evaluate env (some r) w with ⟨x, w1⟩
  rcases he' : (c.inPolicy p).evaluate env (some r') w' with ⟨x', w1'⟩
  rw [he, he'] at h1 h2
  simp only at h1 h2
  subst h1
  cases x with
  | ok d => exact ⟨rfl, h2⟩
  | error e => simp only [Returning]; split <;> exact ⟨rfl, h2⟩

mutual
private theorem expr_unmentioned : (e : Expr) → (∀ v, Written v e → c.inValue v = v) → c.inExpr e = e
  | .value v, h => by unfold Recoding.inExpr; rw [h v .here]
  | .designator _ _, _ => by unfold Recoding.inExpr; rfl
  | .selector _, _ => by unfold Recoding.inExpr; rfl
  | .apply f args, h => by
    unfold Recoding.inExpr
    rw [exprs_unmentioned args fun v e he hv => h v (.inside he hv)]
private theorem exprs_unmentioned : (es : List Expr) → (∀ v, ∀ e ∈ es, Written v e → c.inValue v = v) → c.inExprs es = es
  | [], _ => by unfold Recoding.inExprs; rfl
  | e :: es, h => by
    unfold Recoding.inExprs
    rw [expr_unmentioned e fun v hv => h v e (by simp) hv, exprs_unmentioned es fun v e he hv => h v e (by simp [he]) hv]
end

private theorem map_same {α} {f : α → α} {l : List α} (h : ∀ a ∈ l, f a = a) : l.map f = l := by
  induction l with
  | nil => rfl
  | cons a l ih =>
    simp only [List.forall_mem_cons] at h
    rw [List.map_cons, h.1, ih h.2]

private theorem section_unmentioned (cs : List TargetChild)
    (h : ∀ t ∈ cs, ∀ m ∈ t.matches_, ∀ v, m.value = some v → c.inValue v = v) : c.inSection cs = cs := by
  refine map_same fun t ht => ?_
  have : t.matches_.map c.inMatch = t.matches_ := map_same fun m hm => by
    unfold Recoding.inMatch
    have : m.value.map c.inValue = m.value := by
      cases hv : m.value with
      | none => rfl
      | some v => simp [h t ht m hm v hv]
    rw [this]
  rw [this]

private theorem target_unmentioned (t : Option Target) (h : ∀ m ∈ optMatches t, ∀ v, m.value = some v → c.inValue v = v) :
    t.map c.inTarget = t := by
  cases t with
  | none => rfl
  | some t =>
    have h : ∀ u ∈ t.subjects ++ t.resources ++ t.actions ++ t.environments, ∀ m ∈ u.matches_,
        ∀ v, m.value = some v → c.inValue v = v := by
      intro u hu m hm
      exact h m (by
        simp only [optMatches, Option.map_some, Option.getD_some, Spec.Target.allMatches]
        exact List.mem_flatMap.2 ⟨u, hu, hm⟩)
    simp only [Option.map_some, Recoding.inTarget]
    rw [section_unmentioned _ fun u hu => h u (by simp [hu]), section_unmentioned _ fun u hu => h u (by simp [hu]),
      section_unmentioned _ fun u hu => h u (by simp [hu]), section_unmentioned _ fun u hu => h u (by simp [hu])]

private theorem header_unmentioned (h : Header) (hm : ∀ m ∈ optMatches h.target, ∀ v, m.value = some v → c.inValue v = v) :
    c.inHeader h = h := by
  unfold Recoding.inHeader
  rw [target_unmentioned _ hm]

mutual
private theorem policy_unmentioned : (p : PolicyNode) → (∀ v, Mentions p v → c.inValue v = v) → c.inPolicy p = p
  | .policy h rules, hv => by
    have hm : ∀ m ∈ policyMatches (.policy h rules), ∀ v, m.value = some v → c.inValue v = v :=
      fun m hm v hmv => hv v (.inr ⟨m, hm, hmv⟩)
    unfold policyMatches at hm
    unfold Recoding.inPolicy
    rw [header_unmentioned h fun m h' => hm m (by simp [h'])]
    congr 1
    refine map_same fun rule hr => ?_
    unfold Recoding.inRule
    rw [target_unmentioned rule.target fun m h' => hm m (List.mem_append_right _ (List.mem_flatMap.2 ⟨rule, hr, h'⟩))]
    have : rule.condition.map (fun k => { k with expression := k.expression.map c.inExpr }) = rule.condition := by
      cases hk : rule.condition with
      | none => rfl
      | some k =>
        have he : k.expression.map c.inExpr = k.expression := by
          cases he : k.expression with
          | none => rfl
          | some e =>
            rw [Option.map_some, expr_unmentioned e fun v hw => hv v (.inl (.rule hr hk he hw))]
        rw [Option.map_some, he]
    rw [this]
  | .policySet h ps, hv => by
    unfold Recoding.inPolicy
    rw [header_unmentioned h fun m hm v hmv => hv v (.inr ⟨m, by unfold policyMatches; simp [hm], hmv⟩)]
    rw [policies_unmentioned ps fun v q hq hw => hv v (by
      rcases hw with hw | ⟨m, hm, hw⟩
      · exact .inl (.child hq hw)
      · refine .inr ⟨m, ?_, hw⟩
        unfold policyMatches
        refine List.mem_append_right _ ?_
        clear hw hv
        induction ps with
        | nil => cases hq
        | cons a ps ih =>
          unfold policiesMatches
          rcases List.mem_cons.1 hq with rfl | hq
          · exact List.mem_append_left _ hm
          · exact List.mem_append_right _ (ih hq))]
private theorem policies_unmentioned : (ps : List PolicyNode) → (∀ v, ∀ p ∈ ps, Mentions p v → c.inValue v = v) →
    c.inPolicies ps = ps
  | [], _ => by unfold Recoding.inPolicies; rfl
  | p :: ps, hv => by
    unfold Recoding.inPolicies
    rw [policy_unmentioned p fun v hw => hv v p (by simp) hw,
      policies_unmentioned ps fun v q hq hw => hv v q (by simp [hq]) hw]
end

/-- C105: values that the policy does not mention can be replaced in the request alone. -/
theorem C105_unmentioned (env : Env) (c : Recoding) (hc : c.Faithful) (p : PolicyNode)
    (hu : ∀ f, UsedIn f p → c.Ignores f) (hv : ∀ v, Mentions p v → c.inValue v = v)
    (r r' : Request) (hr : c.Recodes r r') (w w' : World) (hw : w'.pipLog = w.pipLog.map c.inQuery) :
    (pdpEvaluate env (some p) (some r') w').1 = (pdpEvaluate env (some p) (some r) w).1 := by
  have h := (C105_values env c hc p hu r r' hr w w' hw).1
  rwa [policy_unmentioned p hv] at h

theorem exchange_faithful (a b : String) : (exchange a b).Faithful := by
  constructor
  · intro x y
    rw [← optNativeEq_iff, ← optNativeEq_iff]
    have hs : ∀ s (y : Native), (∀ t, y ≠ .str t) → Native.eq (.str s) y = false ∧ Native.eq y (.str s) = false := by
      intro s y hy
      cases y with
      | str t => exact absurd rfl (hy t)
      | float f => cases f <;> exact ⟨rfl, rfl⟩
      | _ => exact ⟨rfl, rfl⟩
    cases x with
    | str s =>
      cases y with
      | str t =>
        simp only [exchange, optNativeEq, Native.eq, beq_iff_eq]
        by_cases h1 : s = a <;> by_cases h2 : s = b <;> by_cases h3 : t = a <;> by_cases h4 : t = b <;> simp_all
        · exact ⟨fun h => absurd h.symm h4, fun h => absurd h.symm h3⟩
        · exact ⟨fun h => absurd h.symm h3, fun h => absurd h.symm h4⟩
      | _ => simp [exchange, optNativeEq, hs]
    | _ =>
      cases y with
      | str t => simp [exchange, optNativeEq, hs]
      | _ => exact Iff.rfl
  · intro x t
    cases x <;> cases t <;> rfl

/-- C105: two texts that the policy does not mention, for instance the names of two users, are treated alike:
exchanging them in a request does not change the response. -/
theorem C105_alike (env : Env) (a b : String) (p : PolicyNode) (hu : ∀ f, UsedIn f p → (exchange a b).Ignores f)
    (hv : ∀ v, Mentions p v → v.value ≠ some (.str a) ∧ v.value ≠ some (.str b)) (r r' : Request)
    (hr : (exchange a b).Recodes r r') (w w' : World) (hw : w'.pipLog = w.pipLog.map (exchange a b).inQuery) :
    (pdpEvaluate env (some p) (some r') w').1 = (pdpEvaluate env (some p) (some r) w).1 := by
  refine C105_unmentioned env _ (exchange_faithful a b) p hu (fun v h => ?_) r r' hr w w' hw
  obtain ⟨h1, h2⟩ := hv v h
  unfold Recoding.inValue
  have : v.value.map (exchange a b).of = v.value := by
    cases hx : v.value with
    | none => rfl
    | some x =>
      cases x with
      | str s =>
        rw [hx] at h1 h2
        have h1 : s ≠ a := fun h => h1 (by rw [h])
        have h2 : s ≠ b := fun h => h2 (by rw [h])
        simp [exchange, h1, h2]
      | _ => rfl
  rw [this]

section
open Samples

/-- The name of the user, and of the owner of the resource. -/
private def userDes : Designator := { attributeId := some "user", dataType := some (xsd "string"), issuer := none, mustBePresent := true }
private def ownerDes : Designator := { attributeId := some "owner", dataType := some (xsd "string"), issuer := none, mustBePresent := true }

/-- Who owns a resource may read it. -/
private def ownPolicy : PolicyNode :=
  .policySet (hdr .denyOverrides) [.policy (hdr .firstApplicable)
    [{ effect := some .permit
       target := some { subjects := [], resources := [], actions := [{ matches_ := [actMatch "read"] }], environments := [] }
       condition := some { expression := some (.apply (some (.equal stringClass))
         [.apply (some (.oneAndOnly stringClass)) [.designator .subject userDes],
          .apply (some (.oneAndOnly stringClass)) [.designator .resource ownerDes]]) } }]]

private def named (name value : String) : Attribute :=
  { attributeId := some name, dataType := some (xsd "string"), issuer := none, values := [str value] }

private def reads (user owner : String) : ReqData :=
  { subjects := [{ category := none, attributes := [named "user" user] }]
    resources := [{ attributes := [named "owner" owner] }], action := some [actAttr "read"], environment := none }

private theorem ownPolicy_functions (c : Recoding) (f : Func) (h : UsedIn f ownPolicy) : c.Ignores f := by
  unfold ownPolicy at h
  rcases h with h | ⟨m, hm, hf⟩
  · cases h with
    | child hp h =>
      simp only [List.mem_singleton] at hp
      subst hp
      cases h with
      | rule h1 h2 h3 h4 =>
        simp only [List.mem_singleton] at h1
        subst h1
        injection h2 with h2
        subst h2
        injection h3 with h3
        subst h3
        cases h4 with
        | here => trivial
        | inside h5 h6 =>
          simp only [List.mem_cons, List.not_mem_nil, or_false] at h5
          rcases h5 with rfl | rfl
          all_goals
            cases h6 with
            | here => trivial
            | inside h7 h8 =>
              simp only [List.mem_singleton] at h7
              subst h7
              cases h8
  · simp [policyMatches, policiesMatches, hdr, optMatches, Spec.Target.allMatches] at hm
    subst hm
    simp [actMatch] at hf
    subst hf
    trivial

private theorem ownPolicy_values (v : AttrVal) (h : Mentions ownPolicy v) : v = str "read" := by
  unfold ownPolicy at h
  rcases h with h | ⟨m, hm, hv⟩
  · cases h with
    | child hp h =>
      simp only [List.mem_singleton] at hp
      subst hp
      cases h with
      | rule h1 h2 h3 h4 =>
        simp only [List.mem_singleton] at h1
        subst h1
        injection h2 with h2
        subst h2
        injection h3 with h3
        subst h3
        cases h4 with
        | inside h5 h6 =>
          simp only [List.mem_cons, List.not_mem_nil, or_false] at h5
          rcases h5 with rfl | rfl
          all_goals
            cases h6 with
            | inside h7 h8 =>
              simp only [List.mem_singleton] at h7
              subst h7
              cases h8
  · simp [policyMatches, policiesMatches, hdr, optMatches, Spec.Target.allMatches] at hm
    subst hm
    simpa [actMatch] using hv.symm

/-- The hypotheses of `C105_alike` are met by a policy with a target and a condition on two names that are in
the request only, and by a context handler; it permits. -/
example : (pdpEvaluate env (some ownPolicy) (some ⟨reads "bob" "bob", some fun _ _ => .ok .none, none⟩) start).1 =
    .ok { results := [Result.createInitialised .permit] } := by
  rw [C105_alike env "alice" "bob" ownPolicy (ownPolicy_functions _)
    (fun v h => by rw [ownPolicy_values v h]; constructor <;> decide) ⟨reads "alice" "alice", some fun _ _ => .ok .none, none⟩ _
    ⟨by decide, fun _ _ => rfl, trivial⟩ start start rfl]
  exact of_gives (by decide +kernel)

/-- The hypotheses of `C105_values` are met by replacing the name of the action in the policy and in the
request; `C105_unmentioned` is used by `C105_alike`. -/
example : (pdpEvaluate env (some ((exchange "read" "see").inPolicy ownPolicy))
      (some ⟨(exchange "read" "see").inData (reads "bob" "bob"), none, none⟩) start).1 =
    .ok { results := [Result.createInitialised .permit] } := by
  rw [(C105_values env _ (exchange_faithful "read" "see") ownPolicy (ownPolicy_functions _) ⟨reads "bob" "bob", none, none⟩ _
    ⟨rfl, trivial, trivial⟩ start start rfl).1]
  exact of_gives (by decide +kernel)

/-- The action has another name in the policy of the example before, and the old one is refused. -/
example : (pdpEvaluate env (some ((exchange "read" "see").inPolicy ownPolicy)) (some ⟨reads "bob" "bob", none, none⟩) start).1 =
    .ok { results := [Result.createInitialised .notApplicable] } := of_gives (by decide +kernel)

/-- Every text becomes the same. -/
private def oneText : Recoding where
  of
    | .str _ => .str "x"
    | n => n

/-- C105: different values must stay different: if all texts become the same, everybody is the owner. -/
theorem C105_must_differ : ∃ (c : Recoding) (p : PolicyNode) (d : ReqData), (∀ f, UsedIn f p → c.Ignores f) ∧
    (pdpEvaluate env (some p) (some ⟨d, none, none⟩) start).1 = .ok { results := [Result.createInitialised .notApplicable] } ∧
    (pdpEvaluate env (some (c.inPolicy p)) (some ⟨c.inData d, none, none⟩) start).1 =
      .ok { results := [Result.createInitialised .permit] } :=
  ⟨oneText, ownPolicy, reads "alice" "bob", ownPolicy_functions _, of_gives (by decide +kernel), of_gives (by decide +kernel)⟩

/-- Permits if the function is true of the two texts. -/
private def iff_ (e : Expr) : PolicyNode :=
  .policy (hdr .denyOverrides) [{ effect := some .permit, target := none, condition := some { expression := some e } }]

/-- C105: functions that look into values must be left out: patterns and concatenation distinguish texts that
are only exchanged for other ones. -/
theorem C105_must_compare :
    (∃ (c : Recoding) (p : PolicyNode), c.Faithful ∧
      (pdpEvaluate env (some p) (some req) start).1 = .ok { results := [Result.createInitialised .permit] } ∧
      (pdpEvaluate env (some (c.inPolicy p)) (some ⟨c.inData data, none, none⟩) start).1 =
        .ok { results := [Result.createInitialised .indeterminate] } ∧ ∃ t, UsedIn (.regexpMatch t) p) ∧
    ∃ (c : Recoding) (p : PolicyNode), c.Faithful ∧
      (pdpEvaluate env (some p) (some req) start).1 = .ok { results := [Result.createInitialised .permit] } ∧
      (pdpEvaluate env (some (c.inPolicy p)) (some ⟨c.inData data, none, none⟩) start).1 =
        .ok { results := [Result.createInitialised .notApplicable] } ∧ ∃ t, UsedIn (.concatenate t) p := by
  refine ⟨⟨exchange "a" "(", iff_ (.apply (some (.regexpMatch stringClass)) [.value (str "a"), .value (str "a")]),
      exchange_faithful _ _, of_gives (by decide +kernel), of_gives (by decide +kernel), stringClass,
      .inl (.rule (List.mem_cons_self ..) rfl rfl .here)⟩,
    ⟨exchange "ab" "c", iff_ (.apply (some (.equal stringClass))
      [.apply (some (.concatenate stringClass)) [.value (str "a"), .value (str "b")], .value (str "ab")]),
      exchange_faithful _ _, of_gives (by decide +kernel), of_gives (by decide +kernel), stringClass,
      .inl (.rule (List.mem_cons_self ..) rfl rfl (.inside (List.mem_cons_self ..) .here))⟩⟩

end

end Xacml
