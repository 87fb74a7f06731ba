import Verif.Lemmas.Sim
import Verif.Spec.Faults

/-!
A run that can be interrupted beside one that is not. `P` says that failures are possible at all:
with `P := False` the two runs agree.
-/
namespace Xacml
open Spec

namespace Fault

variable {P : Prop} {re : String → Except Exc (String → Bool)}

theorem run_bind {α β} (m : M α) (f : α → M β) (w : FaultWorld) :
    (m >>= f) w = match m w with
      | (.ok a, w') => f a w'
      | (.error e, w') => (.error e, w') := rfl

def FRel (P : Prop) (re : String → Except Exc (String → Bool))
    (w' : FaultWorld) (w : World) : Prop :=
  Coh re w'.world ∧ Coh re w ∧ (P ∨ w'.world = w)

/-- The outcomes of both runs. -/
inductive Out (P : Prop) {α} (T : α → α → Prop) : Except Raised α → Except Exc α → Prop
  | ok {a' a} : T a' a → Out P T (.ok a') (.ok a)
  | error {e} : Out P T (.error (.exc e)) (.error e)
  | fault {r x} : P → Out P T (.error r) x

def FSim (P : Prop) (re : String → Except Exc (String → Bool)) {α}
    (T : α → α → Prop) (m' : M α) (m : EvalM α) : Prop :=
  ∀ w' w, FRel P re w' w → Out P T (m' w').1 (m w).1 ∧ FRel P re (m' w').2 (m w).2

variable {α β : Type} {T : α → α → Prop} {U : β → β → Prop}

theorem FSim.left {m' : M α} {m : EvalM α} (h : FSim P re T m' m) (hP : P) {w' : FaultWorld}
    (hw : Coh re w'.world) : Coh re (m' w').2.world := (h w' w'.world ⟨hw, hw, .inl hP⟩).2.1

theorem FSim.right {m' : M α} {m : EvalM α} (h : FSim P re T m' m) (hP : P) {w : World}
    (hw : Coh re w) : Coh re (m w).2 := (h ⟨w, 0⟩ w ⟨hw, hw, .inl hP⟩).2.2.1

theorem FSim.pure {a' a : α} (h : T a' a) : FSim P re T (Pure.pure a') (Pure.pure a) :=
  fun _ _ hw => ⟨.ok h, hw⟩

theorem FSim.throw (e : Exc) : FSim P re T (M.throw e) (EvalM.throw e) := fun _ _ hw => ⟨.error, hw⟩

theorem FSim.lift {m' m : EvalM α} (h : ∀ w' w, Coh re w' → Coh re w → (P ∨ w' = w) →
    ((m' w').1 = (m w).1 ∨ P ∧ ∃ e, (m' w').1 = .error e) ∧
      Coh re (m' w').2 ∧ Coh re (m w).2 ∧ (P ∨ (m' w').2 = (m w).2)) :
    FSim P re Eq (Fault.lift m') m := by
  intro w' w ⟨h1, h2, h3⟩
  obtain ⟨ho, hr⟩ := h w'.world w h1 h2 h3
  unfold Fault.lift
  rcases hm' : m' w'.world with ⟨x', v'⟩
  rcases hm : m w with ⟨x, v⟩
  rw [hm', hm] at ho hr
  simp only at ho hr
  rcases ho with rfl | ⟨hP, e, rfl⟩
  · cases x' with
    | ok a => exact ⟨.ok rfl, hr⟩
    | error e => exact ⟨.error, hr⟩
  · exact ⟨.fault hP, hr⟩

theorem FSim.ofExcept {x' x : Except Exc α} (h : x' = x ∨ P ∧ ∃ e, x' = .error e) :
    FSim P re Eq (Fault.lift (EvalM.ofExcept x')) (EvalM.ofExcept x) :=
  FSim.lift fun _ _ h1 h2 h3 => ⟨h, h1, h2, h3⟩

theorem FSim.bind {m' : M α} {m : EvalM α} {f' : α → M β} {f : α → EvalM β} (hm : FSim P re T m' m)
    (hr : ∀ a, T a a) (hf : ∀ a' a, T a' a → FSim P re U (f' a') (f a)) :
    FSim P re U (m' >>= f') (m >>= f) := by
  intro w' w hw
  obtain ⟨h1, h2⟩ := hm w' w hw
  rw [run_bind, Xacml.run_bind]
  rcases hx' : m' w' with ⟨x', v'⟩
  rcases hx : m w with ⟨x, v⟩
  rw [hx', hx] at h1 h2
  simp only at h1 h2
  cases h1 with
  | ok h => exact hf _ _ h v' v h2
  | error => exact ⟨.error, h2⟩
  | fault hP =>
    refine ⟨.fault hP, h2.1, ?_, .inl hP⟩
    cases x with
    | ok a => exact (hf a a (hr a)).right hP h2.2.1
    | error e => exact h2.2.1

theorem FSim.seq {m' : M α} {m : EvalM α} {f' : α → M β} {f : α → EvalM β} (hm : FSim P re Eq m' m)
    (hf : ∀ a, FSim P re U (f' a) (f a)) : FSim P re U (m' >>= f') (m >>= f) :=
  hm.bind (fun _ => rfl) fun _ _ h => h ▸ hf _

theorem run_point (s : Schedule) (w : FaultWorld) :
    (point s w).2.world = w.world ∧ ((point s w).1 = .ok () ∨ ∃ r, s w.points = some r ∧ (point s w).1 = .error r) := by
  unfold point
  cases h : s w.points with
  | none => exact ⟨rfl, .inl rfl⟩
  | some r => exact ⟨rfl, .inr ⟨r, rfl, rfl⟩⟩

/-- Raising only happens if failures are possible. -/
def Only (P : Prop) (s : Schedule) : Prop := ∀ n r, s n = some r → P

theorem FSim.before {s : Schedule} (hs : Only P s) {m' : M α} {m : EvalM α} (h : FSim P re T m' m) :
    FSim P re T (do point s; m') m := by
  intro w' w hw
  obtain ⟨h1, h2⟩ := run_point s w'
  rw [run_bind]
  rcases hx : point s w' with ⟨x, v⟩
  rw [hx] at h1 h2
  simp only at h1 h2
  have hv : FRel P re v w := by unfold FRel; rw [h1]; exact hw
  rcases h2 with rfl | ⟨r, hr, rfl⟩
  · exact h v w hv
  · have hP := hs _ _ hr
    exact ⟨.fault hP, hv.1, h.right hP hw.2.1, .inl hP⟩

theorem FSim.after {s : Schedule} (hs : Only P s) {m' : M α} {m : EvalM α} (h : FSim P re T m' m) :
    FSim P re T (do let a ← m'; point s; Pure.pure a) m := by
  intro w' w hw
  obtain ⟨h1, h2⟩ := h w' w hw
  rw [run_bind]
  rcases hx : m' w' with ⟨x, v⟩
  rw [hx] at h1 h2
  simp only at h1 h2
  cases x with
  | error e => exact ⟨h1, h2⟩
  | ok a =>
    obtain ⟨p1, p2⟩ := run_point s v
    simp only [run_bind]
    rcases hy : point s v with ⟨y, u⟩
    rw [hy] at p1 p2
    simp only at p1 p2
    have hu : FRel P re u (m w).2 := by unfold FRel; rw [p1]; exact h2
    rcases p2 with rfl | ⟨r, hr, rfl⟩
    · exact ⟨h1, hu⟩
    · exact ⟨.fault (hs _ _ hr), hu⟩

theorem FSim.call {s : Schedule} (hs : Only P s) {m' : M α} {m : EvalM α} (h : FSim P re T m' m) :
    FSim P re T (Fault.call s m') m := (h.after hs).before hs

theorem FSim.check {s : Schedule} (hs : Only P s) {x' x : Except Exc α} (h : x' = x ∨ P ∧ ∃ e, x' = .error e) :
    FSim P re Eq (Fault.check s x') (EvalM.ofExcept x) := (FSim.ofExcept h).call hs

/-- What the proofs need of the two environments. -/
structure EnvOK (P : Prop) (re : String → Except Exc (String → Bool)) (env' env : Env) : Prop where
  left : ∀ p, env'.re p = re p ∨ P ∧ ∃ e, env'.re p = .error e
  right : env.re = re
  classes : env'.classMap = env.classMap
  debug : env'.debug = env.debug

structure ReqOK (P : Prop) (r' r : Request) : Prop where
  data : r'.data = r.data
  pip : OptRel (fun p' p : Pip => ∀ l l' q, P ∨ l = l' →
    (p' l q = p l' q ∨ P ∧ ∃ e, p' l q = .error e)) r'.ctxHandler r.ctxHandler
  engine : OptRel (fun x' x : XPathEngine => ∀ path, x' path = x path ∨ P ∧ ∃ e, x' path = .error e)
    r'.attributeSelector r.attributeSelector

def CtxOK (P : Prop) (ctx' ctx : Ctx) : Prop :=
  OptRel (ReqOK P) ctx' ctx

theorem getRegex_fsim {env' env : Env} (he : EnvOK P re env' env) (p : String) :
    FSim P re Eq (Fault.lift (getRegex env' p)) (getRegex env p) := by
  refine FSim.lift fun w' w h1 h2 h3 => ?_
  obtain ⟨r1, r2, -⟩ := getRegex_coh env p w (by rw [he.right]; exact h2)
  rw [he.right] at r1 r2
  rw [r1]
  have hl : ((getRegex env' p w').1 = re p ∨ P ∧ ∃ e, (getRegex env' p w').1 = .error e) ∧
      Coh re (getRegex env' p w').2 := by
    unfold getRegex
    cases hc : w'.cache.lookup p with
    | some m => exact ⟨.inl (h1 p m hc).symm, h1⟩
    | none =>
      rcases he.left p with h | ⟨hP, e, h⟩
      · rw [h]
        cases hr : re p with
        | ok m => exact ⟨.inl rfl, coh_cons h1 hr⟩
        | error e => exact ⟨.inl rfl, h1⟩
      · rw [h]; exact ⟨.inr ⟨hP, e, rfl⟩, h1⟩
  refine ⟨hl.1, hl.2, r2, ?_⟩
  rcases h3 with hP | rfl
  · exact .inl hP
  · rcases he.left p with h | ⟨hP, -⟩
    · right
      unfold getRegex
      rw [h, he.right]
    · exact .inl hP

theorem func_fsim {s : Schedule} (hs : Only P s) {env' env : Env} (he : EnvOK P re env' env) (f : Func)
    (args : List PyVal) : FSim P re Eq (Fault.func s env' f args) (f.evaluate env args) := by
  unfold Fault.func
  refine FSim.call hs ?_
  cases f <;> try exact FSim.ofExcept (.inl rfl)
  rename_i t
  show FSim P re Eq (Fault.regexpMatchFn s env' t args) (Xacml.regexpMatchFn env t args)
  rcases args with _ | ⟨a, _ | ⟨b, _ | ⟨c, args⟩⟩⟩
  · exact FSim.throw _
  · exact FSim.throw _
  · cases a <;> cases b <;> try exact FSim.throw _
    rename_i p i
    unfold Fault.regexpMatchFn Xacml.regexpMatchFn
    simp only
    by_cases hp : p.isInst t = true
    · by_cases hi : i.isInst t = true
      · rw [if_pos hp, if_pos hi, if_pos hp, if_pos hi]
        rcases p.value with _ | x
        · exact FSim.throw _
        · cases x <;> try exact FSim.throw _
          refine FSim.seq ((getRegex_fsim he _).call hs) fun m => ?_
          rcases i.value with _ | y
          · exact FSim.throw _
          · cases y <;> first | exact FSim.throw _ | exact FSim.pure rfl
      · rw [if_pos hp, if_neg hi, if_pos hp, if_neg hi]; exact FSim.throw _
    · rw [if_neg hp, if_neg hp]; exact FSim.throw _
  · exact FSim.throw _

theorem collectSubjects_fsim {s : Schedule} (hs : Only P s) {r' r : Request} (hr : ReqOK P r' r) (d : Designator)
    (b : Bag) (xs : List CtxSubject) :
    FSim P re Eq (Fault.collectSubjects s r' d b xs) (Xacml.collectSubjects r d b xs) := by
  induction xs generalizing b with
  | nil => exact FSim.pure rfl
  | cons x xs ih =>
    unfold Fault.collectSubjects Xacml.collectSubjects
    refine FSim.seq (FSim.check hs (.inl rfl)) fun b => ?_
    have hp := hr.pip
    cases hc' : r'.ctxHandler with
    | none =>
      cases hc : r.ctxHandler with
      | none => exact ih b
      | some p => rw [hc', hc] at hp; exact hp.elim
    | some p' =>
      cases hc : r.ctxHandler with
      | none => rw [hc', hc] at hp; exact hp.elim
      | some p =>
        rw [hc', hc] at hp
        refine FSim.seq (FSim.call hs (FSim.lift fun w' w h1 h2 h3 => ?_)) fun ans =>
          FSim.seq (FSim.check hs (.inl rfl)) fun b => ih b
        have := hp w'.pipLog w.pipLog ⟨r.data, d⟩ (h3.imp id fun h => by rw [h])
        rw [hr.data]
        exact ⟨this, h1, h2, h3.imp id fun h => by rw [h]; rfl⟩

theorem designator_fsim {s : Schedule} (hs : Only P s) {env' env : Env} (he : EnvOK P re env' env) (cat : Category)
    (d : Designator) {ctx' ctx : Ctx} (hc : CtxOK P ctx' ctx) :
    FSim P re Eq (Fault.designatorEval s env' cat d ctx') (Xacml.designatorEval env cat d ctx) := by
  unfold Fault.designatorEval Xacml.designatorEval
  refine FSim.call hs ?_
  cases ctx' with
  | none =>
    cases ctx with
    | none => exact FSim.throw _
    | some r => exact hc.elim
  | some r' =>
    cases ctx with
    | none => exact hc.elim
    | some r =>
      have hr : ReqOK P r' r := hc
      simp only [he.classes, hr.data]
      cases cat with
      | subject =>
        exact FSim.seq (collectSubjects_fsim hs hr d _ _) fun b => FSim.check hs (.inl rfl)
      | resource => exact FSim.seq (FSim.check hs (.inl rfl)) fun b => FSim.check hs (.inl rfl)
      | action =>
        simp only
        rcases r.data.action with _ | attrs
        · exact FSim.throw _
        · exact FSim.seq (FSim.check hs (.inl rfl)) fun b => FSim.check hs (.inl rfl)
      | environment =>
        simp only
        rcases r.data.environment with _ | attrs
        · exact FSim.throw _
        · exact FSim.seq (FSim.check hs (.inl rfl)) fun b => FSim.check hs (.inl rfl)

theorem selector_out {env' env : Env} (he : EnvOK P re env' env) (x : Selector) {ctx' ctx : Ctx}
    (hc : CtxOK P ctx' ctx) :
    Xacml.selectorEval env' x ctx' = Xacml.selectorEval env x ctx ∨
      P ∧ ∃ e, Xacml.selectorEval env' x ctx' = .error e := by
  unfold Xacml.selectorEval
  cases ctx' with
  | none =>
    cases ctx with
    | none => exact .inl rfl
    | some r => exact hc.elim
  | some r' =>
    cases ctx with
    | none => exact hc.elim
    | some r =>
      have hx := (show ReqOK P r' r from hc).engine
      simp only [he.classes]
      cases hx' : r'.attributeSelector with
      | none =>
        cases hx0 : r.attributeSelector with
        | none => exact .inl rfl
        | some y => rw [hx', hx0] at hx; exact hx.elim
      | some y' =>
        cases hx0 : r.attributeSelector with
        | none => rw [hx', hx0] at hx; exact hx.elim
        | some y =>
          rw [hx', hx0] at hx
          simp only
          cases x.dataType with
          | none => exact .inl rfl
          | some dt =>
            simp only
            cases classLookup env.classMap (some dt) with
            | none => exact .inl rfl
            | some c =>
              simp only
              rcases hx x.path with h | ⟨hP, e, h⟩
              · rw [h]; exact .inl rfl
              · rw [h]; exact .inr ⟨hP, e, rfl⟩

theorem selector_fsim {s : Schedule} (hs : Only P s) {env' env : Env} (he : EnvOK P re env' env) (x : Selector)
    {ctx' ctx : Ctx} (hc : CtxOK P ctx' ctx) :
    FSim P re Eq (Fault.selectorEval s env' x ctx') (EvalM.ofExcept (Xacml.selectorEval env x ctx)) :=
  FSim.check hs (selector_out he x hc)

mutual
theorem expr_fsim {s : Schedule} (hs : Only P s) {env' env : Env} (he : EnvOK P re env' env) {ctx' ctx : Ctx}
    (hc : CtxOK P ctx' ctx) :
    (e : Expr) → FSim P re Eq (Fault.expr s env' ctx' e) (e.evaluate env ctx)
  | .value v => by unfold Fault.expr Expr.evaluate; exact FSim.check hs (.inl rfl)
  | .designator cat d => by unfold Fault.expr Expr.evaluate; exact designator_fsim hs he cat d hc
  | .selector x => by unfold Fault.expr Expr.evaluate; exact selector_fsim hs he x hc
  | .apply fn args => by
    unfold Fault.expr Expr.evaluate
    refine FSim.call hs (FSim.seq (exprs_fsim hs he hc args) fun vs => ?_)
    cases fn with
    | none => exact FSim.throw _
    | some f => exact func_fsim hs he f vs
theorem exprs_fsim {s : Schedule} (hs : Only P s) {env' env : Env} (he : EnvOK P re env' env) {ctx' ctx : Ctx}
    (hc : CtxOK P ctx' ctx) :
    (es : List Expr) → FSim P re Eq (Fault.exprs s env' ctx' es) (Expr.evaluateList env ctx es)
  | [] => by unfold Fault.exprs Expr.evaluateList; exact FSim.pure rfl
  | e :: es => by
    unfold Fault.exprs Expr.evaluateList
    exact FSim.seq (expr_fsim hs he hc e) fun v => FSim.seq (exprs_fsim hs he hc es) fun vs => FSim.pure rfl
end

theorem matchOne_fsim {s : Schedule} (hs : Only P s) {env' env : Env} (he : EnvOK P re env' env) (m : Match)
    (v : AttrVal) : FSim P re Eq (Fault.matchOne s env' m v) (Xacml.matchOne env m v) := by
  unfold Fault.matchOne Xacml.matchOne
  rw [he.debug]
  cases m.func with
  | none => exact FSim.seq (FSim.throw _) fun x => FSim.seq (FSim.check hs (.inl rfl)) fun _ => FSim.pure rfl
  | some f =>
    exact FSim.seq (func_fsim hs he f _) fun x => FSim.seq (FSim.check hs (.inl rfl)) fun _ => FSim.pure rfl

theorem matchLoop_fsim {s : Schedule} (hs : Only P s) {env' env : Env} (he : EnvOK P re env' env) (m : Match)
    (vs : List AttrVal) : FSim P re Eq (Fault.matchLoop s env' m vs) (Xacml.matchLoop env m vs) := by
  induction vs with
  | nil => exact FSim.pure rfl
  | cons v vs ih =>
    unfold Fault.matchLoop Xacml.matchLoop
    exact FSim.seq (matchOne_fsim hs he m v) fun x => FSim.seq ih fun xs => FSim.pure rfl

section
variable {s : Schedule} (hs : Only P s) {env' env : Env} (he : EnvOK P re env' env) {ctx' ctx : Ctx}
  (hc : CtxOK P ctx' ctx)
include hs he hc

theorem match_fsim (m : Match) : FSim P re Eq (Fault.matchEval s env' m ctx') (m.evaluate env ctx) := by
  unfold Fault.matchEval Match.evaluate
  refine FSim.call hs (FSim.seq ?_ fun vals => ?_)
  · unfold Fault.requestValues Match.requestValues
    rcases m.designator with _ | ⟨cat, d⟩
    · rcases m.selector with _ | x
      · exact FSim.throw _
      · exact selector_fsim hs he _ hc
    · exact designator_fsim hs he _ _ hc
  · cases vals with
    | bag b => exact FSim.seq (matchLoop_fsim hs he m _) fun xs => FSim.pure rfl
    | _ => exact FSim.throw _

theorem evalMatches_fsim (ms : List Match) :
    FSim P re Eq (Fault.evalMatches s env' ctx' ms) (Xacml.evalMatches env ctx ms) := by
  induction ms with
  | nil => exact FSim.pure rfl
  | cons m ms ih =>
    unfold Fault.evalMatches Xacml.evalMatches
    exact FSim.seq (match_fsim hs he hc m) fun b => FSim.seq ih fun bs => FSim.pure rfl

theorem section_fsim (cs : List TargetChild) :
    FSim P re Eq (Fault.matchSection s env' ctx' cs) (Xacml.matchSection env ctx cs) := by
  unfold Fault.matchSection Xacml.matchSection
  by_cases h0 : cs.length = 0
  · rw [if_pos h0, if_pos h0]; exact FSim.pure rfl
  · rw [if_neg h0, if_neg h0]
    clear h0
    generalize false = st
    induction cs generalizing st with
    | nil => exact FSim.pure rfl
    | cons c cs ih =>
      unfold Fault.sectionLoop Xacml.sectionLoop
      refine FSim.seq ?_ fun b => ih _
      unfold Fault.matchChild Xacml.matchChild
      exact FSim.call hs (FSim.seq (evalMatches_fsim hs he hc _) fun bs => FSim.pure rfl)

theorem target_fsim (t : Option Target) :
    FSim P re Eq (Fault.targetMatch s env' t ctx') (Xacml.targetMatch env t ctx) := by
  cases t with
  | none => exact FSim.pure rfl
  | some t =>
    show FSim P re Eq (Fault.targetMatch_ s env' t ctx') (t.match_ env ctx)
    unfold Fault.targetMatch_ Target.match_
    exact FSim.call hs <| FSim.seq (section_fsim hs he hc _) fun _ => FSim.seq (section_fsim hs he hc _) fun _ =>
      FSim.seq (section_fsim hs he hc _) fun _ => FSim.seq (section_fsim hs he hc _) fun _ => FSim.pure rfl

theorem ruleBody_fsim (r : Rule) : FSim P re Eq (Fault.ruleBody s env' r ctx') (r.body env ctx) := by
  unfold Fault.ruleBody Rule.body
  refine FSim.seq (target_fsim hs he hc _) fun tm => ?_
  cases tm with
  | false => exact FSim.pure rfl
  | true =>
    have tail : ∀ st : PyVal, FSim P re Eq
        (if st.truthy = true then
          match r.effect with
          | some e => Pure.pure e.toDecision
          | none => M.throw Exc.attributeError
        else Pure.pure Decision.notApplicable)
        (if st.truthy = true then
          match r.effect with
          | some e => Pure.pure e.toDecision
          | none => EvalM.throw Exc.attributeError
        else Pure.pure Decision.notApplicable) := by
      intro st
      cases st.truthy with
      | false => exact FSim.pure rfl
      | true =>
        rcases r.effect with _ | e
        · exact FSim.throw _
        · exact FSim.pure rfl
    cases hcd : r.condition with
    | none => exact FSim.seq (FSim.pure rfl) tail
    | some c =>
      refine FSim.seq ?_ tail
      unfold Fault.conditionEval Condition.evaluate
      refine FSim.call hs ?_
      rcases c.expression with _ | e
      · exact FSim.throw _
      · exact expr_fsim hs he hc _
end

/-! ## Decisions -/

/-- What failures make of the decision of a rule or policy. -/
def Dim (P : Prop) (d' d : Decision) : Prop := d' = d ∨ P ∧ d' = .indeterminate
/-- What failures make of the decision of a policy set. -/
def Low (P : Prop) (d' d : Decision) : Prop := d' = d ∨ P ∧ (d' = .deny ∨ d' = .indeterminate)

theorem Dim.low {d' d : Decision} (h : Dim P d' d) : Low P d' d := h.imp id fun ⟨hP, h⟩ => ⟨hP, .inr h⟩

theorem FSim.mono {T T' : α → α → Prop} (hT : ∀ a' a, T a' a → T' a' a) {m' : M α} {m : EvalM α}
    (h : FSim P re T m' m) : FSim P re T' m' m := by
  intro w' w hw
  obtain ⟨h1, h2⟩ := h w' w hw
  refine ⟨?_, h2⟩
  revert h1
  generalize (m' w').1 = x'
  generalize (m w).1 = x
  intro h1
  cases h1 with
  | ok h => exact .ok (hT _ _ h)
  | error => exact .error
  | fault hP => exact .fault hP

/-- Handlers turn exceptions into Indeterminate. -/
theorem FSim.catchAll {s : Schedule} (hs : Only P s) {T : Decision → Decision → Prop} (hi : ∀ d, P → T .indeterminate d)
    (hii : T .indeterminate .indeterminate) {m' : M Decision} {m : EvalM Decision} (h : FSim P re T m' m) :
    FSim P re T (Fault.catchAll s m') (Xacml.catchAll m) := by
  intro w' w hw
  obtain ⟨h1, h2⟩ := h w' w hw
  unfold Fault.catchAll Xacml.catchAll
  rcases hx' : m' w' with ⟨x', v'⟩
  rcases hx : m w with ⟨x, v⟩
  rw [hx', hx] at h1 h2
  simp only at h1 h2
  have hpt : ∀ d, T .indeterminate d → FSim P re T (do point s; Pure.pure Decision.indeterminate : M Decision)
      (Pure.pure d) := fun d hd => FSim.before hs (FSim.pure hd)
  cases h1 with
  | ok h => exact ⟨.ok h, h2⟩
  | error => exact hpt _ hii v' v h2
  | @fault r _ hP =>
    cases x with
    | ok d =>
      cases r with
      | exc e => exact hpt d (hi d hP) v' v h2
      | base => exact ⟨.fault hP, h2⟩
    | error e =>
      cases r with
      | exc e' => exact hpt _ hii v' v h2
      | base => exact ⟨.fault hP, h2⟩

/-- The undisturbed run always gives a decision. -/
def Total (m : EvalM Decision) : Prop := ∀ w, ∃ d, (m w).1 = .ok d

theorem total_catchAll (m : EvalM Decision) : Total (Xacml.catchAll m) := by
  intro w
  unfold Xacml.catchAll
  rcases m w with ⟨x, v⟩
  cases x with
  | ok d => exact ⟨d, rfl⟩
  | error e => exact ⟨_, rfl⟩

theorem total_first {ms : List (EvalM Decision)} (h : ∀ m ∈ ms, Total m) : Total (Xacml.firstApplicable ms) := by
  induction ms with
  | nil => exact fun w => ⟨_, rfl⟩
  | cons m ms ih =>
    intro w
    unfold Xacml.firstApplicable
    rw [Xacml.run_bind]
    obtain ⟨d, hd⟩ := h m (by simp) w
    rcases hm : m w with ⟨x, v⟩
    rw [hm] at hd
    simp only at hd
    subst hd
    cases d <;> first | exact ⟨_, rfl⟩ | exact ih (fun m hm => h m (by simp [hm])) v

theorem total_denyOverrides {ms : List (EvalM Decision)} (h : ∀ m ∈ ms, Total m) (b : Bool) :
    Total (Xacml.denyOverridesPolicies b ms) := by
  induction ms generalizing b with
  | nil => intro w; cases b <;> exact ⟨_, rfl⟩
  | cons m ms ih =>
    intro w
    unfold Xacml.denyOverridesPolicies
    rw [Xacml.run_bind]
    obtain ⟨d, hd⟩ := h m (by simp) w
    rcases hm : m w with ⟨x, v⟩
    rw [hm] at hd
    simp only at hd
    subst hd
    cases d <;> first | exact ⟨_, rfl⟩ | exact ih (fun m hm => h m (by simp [hm])) _ v

/-- The disturbed run stops with a decision that is fine whatever the other run goes on to decide. -/
theorem FSim.stop (hP : P) {T : Decision → Decision → Prop} {d' : Decision} (hd : ∀ d, T d' d) {m : EvalM Decision}
    (ht : Total m) (hm : ∀ w, Coh re w → Coh re (m w).2) : FSim P re T (Pure.pure d') m := by
  intro w' w hw
  obtain ⟨d, h⟩ := ht w
  refine ⟨?_, hw.1, hm w hw.2.1, .inl hP⟩
  rw [h]
  exact .ok (hd d)

/-- The disturbed run goes on although the other has decided. -/
theorem FSim.goOn (hP : P) {T : Decision → Decision → Prop} {d : Decision} {m' : M Decision}
    (hd : ∀ w' d', (m' w').1 = .ok d' → T d' d) (hm : ∀ w', Coh re w'.world → Coh re (m' w').2.world) :
    FSim P re T m' (Pure.pure d) := by
  intro w' w hw
  refine ⟨?_, hm w' hw.1, hw.2.1, .inl hP⟩
  cases h : (m' w').1 with
  | ok d' => exact .ok (hd w' d' h)
  | error r => exact .fault hP

inductive Children (P : Prop) (re : String → Except Exc (String → Bool))
    (T : Decision → Decision → Prop) : List (M Decision) → List (EvalM Decision) → Prop
  | nil : Children P re T [] []
  | cons {m' m ms' ms} : FSim P re T m' m → Total m → Children P re T ms' ms →
      Children P re T (m' :: ms') (m :: ms)

theorem Children.total {T} {ms' ms} (h : Children P re T ms' ms) : ∀ m ∈ ms, Total m := by
  induction h with
  | nil => intro m hm; cases hm
  | cons _ h _ ih => intro m hm; exact (List.mem_cons.1 hm).elim (fun e => e ▸ h) (ih m)

theorem FSim.fail (hP : P) {r : Exc} {m : EvalM α} (hm : ∀ w, Coh re w → Coh re (m w).2) :
    FSim P re T (M.throw r) m := fun _ w hw => ⟨.fault hP, hw.1, hm w hw.2.1, .inl hP⟩

theorem Low.refl (d : Decision) : Low P d d := .inl rfl

/-! ### Policies in a policy set -/

theorem firstApplicable_fsim {T : Decision → Decision → Prop} (hr : ∀ d, T d d)
    (hT : ∀ d' d, T d' d → d' = d ∨ P ∧ (d' = .deny ∨ d' = .indeterminate) ∧ ∀ e, T d' e)
    {ms' ms} (h : Children P re T ms' ms) :
    FSim P re T (Fault.firstApplicable ms') (Xacml.firstApplicable ms) := by
  induction h with
  | nil => exact FSim.pure (hr _)
  | @cons m' m ms' ms h ht hc ih =>
    unfold Fault.firstApplicable Xacml.firstApplicable
    refine FSim.bind h hr fun d' d hd => ?_
    rcases hT d' d hd with rfl | ⟨hP, hd', hall⟩
    · cases d' <;> first | exact FSim.pure (hr _) | exact ih
    · have hstop : FSim P re T (Pure.pure d') (Xacml.firstApplicable ms) :=
        FSim.stop hP hall (total_first hc.total) fun w hw => ih.right hP hw
      rcases hd' with rfl | rfl <;> cases d <;> first | exact FSim.pure (hall _) | exact hstop

theorem denyOverridesPolicies_fsim {ms' ms} (h : Children P re (Low P) ms' ms) (b : Bool) :
    FSim P re (Low P) (Fault.denyOverridesPolicies b ms') (Xacml.denyOverridesPolicies b ms) := by
  induction h generalizing b with
  | nil => cases b <;> exact FSim.pure (.inl rfl)
  | @cons m' m ms' ms h ht hc ih =>
    unfold Fault.denyOverridesPolicies Xacml.denyOverridesPolicies
    refine FSim.bind h Low.refl fun d' d hd => ?_
    rcases hd with rfl | ⟨hP, hd⟩
    · cases d' <;> first | exact FSim.pure (.inl rfl) | exact ih _
    · have hstop : ∀ b, FSim P re (Low P) (Pure.pure Decision.deny) (Xacml.denyOverridesPolicies b ms) := fun b =>
        FSim.stop hP (fun d => .inr ⟨hP, .inl rfl⟩) (total_denyOverrides hc.total b) fun w hw => (ih b).right hP hw
      rcases hd with rfl | rfl <;> cases d <;> first | exact FSim.pure (.inl rfl) | exact hstop _

theorem permit_go_on (ms : List (M Decision)) (a b : Bool) (hab : a = true ∨ b = true) (w : FaultWorld) :
    (Fault.permitOverridesPolicies a b ms w).1 ≠ .ok .notApplicable := by
  induction ms generalizing a b w with
  | nil => cases a <;> cases b <;> first | (intro h; cases h; done) | simp at hab
  | cons m ms ih =>
    unfold Fault.permitOverridesPolicies
    rw [run_bind]
    rcases m w with ⟨x, v⟩
    cases x with
    | error r => intro h; cases h
    | ok d =>
      cases d with
      | permit => intro h; cases h
      | deny => exact ih _ _ (.inr rfl) v
      | notApplicable => exact ih _ _ hab v
      | indeterminate => exact ih _ _ (.inl rfl) v

/-- The flags of the two runs. -/
def Noted (P : Prop) (a' b' a b : Bool) : Prop := (a' = a ∧ b' = b) ∨ P ∧ (a' = true ∨ b' = true)

theorem permitOverridesPolicies_fsim {ms' ms} (h : Children P re (Low P) ms' ms) (a' b' a b : Bool)
    (hn : Noted P a' b' a b) :
    FSim P re (Low P) (Fault.permitOverridesPolicies a' b' ms') (Xacml.permitOverridesPolicies a b ms) := by
  induction h generalizing a' b' a b with
  | nil =>
    rcases hn with ⟨rfl, rfl⟩ | ⟨hP, h⟩
    · cases a' <;> cases b' <;> exact FSim.pure (.inl rfl)
    · unfold Fault.permitOverridesPolicies Xacml.permitOverridesPolicies
      cases b' <;> cases a' <;> cases a <;> cases b <;>
        first
          | (simp at h; done)
          | exact FSim.pure (.inr ⟨hP, .inl rfl⟩)
          | exact FSim.pure (.inr ⟨hP, .inr rfl⟩)
  | @cons m' m ms' ms h ht hc ih =>
    unfold Fault.permitOverridesPolicies Xacml.permitOverridesPolicies
    refine FSim.bind h Low.refl fun d' d hd => ?_
    have hgo : P → ∀ a' b' : Bool, (a' = true ∨ b' = true) →
        FSim P re (Low P) (Fault.permitOverridesPolicies a' b' ms') (Pure.pure Decision.permit) := by
      intro hP a' b' hab
      refine FSim.goOn hP (fun w' d' hd' => ?_) fun w' hw => (ih a' b' a' b' (.inl ⟨rfl, rfl⟩)).left hP hw
      have := permit_go_on ms' a' b' hab w'
      rw [hd'] at this
      cases d' with
      | permit => exact .inl rfl
      | deny => exact .inr ⟨hP, .inl rfl⟩
      | indeterminate => exact .inr ⟨hP, .inr rfl⟩
      | notApplicable => exact absurd rfl this
    rcases hd with rfl | ⟨hP, hd⟩
    · cases d' with
      | permit => exact FSim.pure (.inl rfl)
      | deny => exact ih _ _ _ _ (hn.imp (fun h => ⟨h.1, rfl⟩) fun h => ⟨h.1, .inr rfl⟩)
      | notApplicable => exact ih _ _ _ _ hn
      | indeterminate => exact ih _ _ _ _ (hn.imp (fun h => ⟨rfl, h.2⟩) fun h => ⟨h.1, .inl rfl⟩)
    · rcases hd with rfl | rfl <;> cases d <;>
        first
          | exact hgo hP _ _ (.inl rfl)
          | exact hgo hP _ _ (.inr rfl)
          | exact ih _ _ _ _ (.inr ⟨hP, .inl rfl⟩)
          | exact ih _ _ _ _ (.inr ⟨hP, .inr rfl⟩)

/-! ### Rules in a policy -/

/-- The decisions a rule of this effect can give. -/
def Fits (e : Option Effect) (d : Decision) : Prop :=
  d = .notApplicable ∨ d = .indeterminate ∨ ∃ x, e = some x ∧ d = x.toDecision

/-- What failures make of the decision of a rule. -/
def RDim (P : Prop) (e : Option Effect) (d' d : Decision) : Prop := d' = d ∨ P ∧ d' = .indeterminate ∧ Fits e d

inductive Rules (P : Prop) (re : String → Except Exc (String → Bool)) :
    List Child → List RuleChild → Prop
  | nil : Rules P re [] []
  | cons {c' c cs' cs} : c'.effect = c.effect → FSim P re (RDim P c.effect) c'.run c.run → Total c.run →
      Rules P re cs' cs → Rules P re (c' :: cs') (c :: cs)

theorem RDim.refl {e : Option Effect} (d : Decision) : RDim P e d d := .inl rfl

theorem RDim.dim {e : Option Effect} {d' d : Decision} (h : RDim P e d' d) : Dim P d' d :=
  h.imp id fun h => ⟨h.1, h.2.1⟩

theorem Rules.children {cs' cs} (h : Rules P re cs' cs) :
    Children P re (Dim P) (cs'.map Child.run) (cs.map RuleChild.run) := by
  induction h with
  | nil => exact .nil
  | cons _ h ht _ ih => exact .cons (h.mono fun _ _ => RDim.dim) ht ih

theorem deny_go_on (cs : List Child) (f : Flags) (hf : f.potential = true) (w : FaultWorld) {d : Decision}
    (h : (Fault.denyOverridesRules f cs w).1 = .ok d) : d = .deny ∨ d = .indeterminate := by
  induction cs generalizing f w with
  | nil =>
    unfold Fault.denyOverridesRules at h
    rw [if_pos hf] at h
    injection h with h
    exact .inr h.symm
  | cons c cs ih =>
    unfold Fault.denyOverridesRules at h
    rw [run_bind] at h
    rcases hm : c.run w with ⟨x, v⟩
    rw [hm] at h
    cases x with
    | error r => cases h
    | ok d0 =>
      cases d0 with
      | deny => injection h with h; exact .inl h.symm
      | permit => exact ih _ (by exact hf) v h
      | notApplicable => exact ih _ hf v h
      | indeterminate =>
        simp only at h
        rcases hc : c.effect with _ | e <;> rw [hc] at h
        · cases h
        · cases e
          · exact ih _ (by exact hf) v h
          · exact ih _ rfl v h

theorem permit_rules_go_on (cs : List Child) (f : Flags) (hf : f.potential = true) (w : FaultWorld) {d : Decision}
    (h : (Fault.permitOverridesRules f cs w).1 = .ok d) : d = .permit ∨ d = .indeterminate := by
  induction cs generalizing f w with
  | nil =>
    unfold Fault.permitOverridesRules at h
    rw [if_pos hf] at h
    injection h with h
    exact .inr h.symm
  | cons c cs ih =>
    unfold Fault.permitOverridesRules at h
    rw [run_bind] at h
    rcases hm : c.run w with ⟨x, v⟩
    rw [hm] at h
    cases x with
    | error r => cases h
    | ok d0 =>
      cases d0 with
      | permit => injection h with h; exact .inl h.symm
      | deny => exact ih _ (by exact hf) v h
      | notApplicable => exact ih _ hf v h
      | indeterminate =>
        simp only at h
        rcases hc : c.effect with _ | e <;> rw [hc] at h
        · cases h
        · cases e
          · exact ih _ rfl v h
          · exact ih _ (by exact hf) v h

/-- The flags of the two runs. -/
def FRules (P : Prop) (f' f : Flags) : Prop :=
  f' = f ∨ P ∧ (f.potential = true → f'.potential = true) ∧ (f.error = true → f'.error = true) ∧
    (f'.other = true → f.other = true) ∧ (f.other = true → f'.other = true ∨ f'.error = true)

theorem FRules.loosen (_hP : P) {f' f : Flags} (h : FRules P f' f) :
    (f.potential = true → f'.potential = true) ∧ (f.error = true → f'.error = true) ∧
    (f'.other = true → f.other = true) ∧ (f.other = true → f'.other = true ∨ f'.error = true) := by
  rcases h with rfl | h
  · exact ⟨id, id, id, .inl⟩
  · exact h.2

theorem FRules.done {f' f : Flags} (h : FRules P f' f) (o : Decision) :
    Dim P (if f'.potential = true then .indeterminate else if f'.other = true then o
        else if f'.error = true then .indeterminate else .notApplicable)
      (if f.potential = true then .indeterminate else if f.other = true then o
        else if f.error = true then .indeterminate else .notApplicable) := by
  rcases h with rfl | ⟨hP, h1, h2, h3, h4⟩
  · exact .inl rfl
  · cases hp' : f'.potential
    · have hp : f.potential = false := by
        cases hp : f.potential with
        | false => rfl
        | true => rw [h1 hp] at hp'; cases hp'
      rw [hp]
      simp only [Bool.false_eq_true, if_false]
      cases ho' : f'.other
      · cases he' : f'.error
        · have ho : f.other = false := by
            cases ho : f.other with
            | false => rfl
            | true => rcases h4 ho with h | h <;> simp_all
          have he : f.error = false := by
            cases he : f.error with
            | false => rfl
            | true => rw [h2 he] at he'; cases he'
          rw [ho, he]; exact .inl rfl
        · exact .inr ⟨hP, rfl⟩
      · rw [h3 ho']; exact .inl rfl
    · exact .inr ⟨hP, rfl⟩

theorem denyOverridesRules_fsim {cs' cs} (h : Rules P re cs' cs) (f' f : Flags) (hf : FRules P f' f) :
    FSim P re (Dim P) (Fault.denyOverridesRules f' cs') (Xacml.denyOverridesRules f cs) := by
  induction h generalizing f' f with
  | nil =>
    have := hf.done .permit
    have e' : Fault.denyOverridesRules f' [] = Pure.pure (if f'.potential = true then .indeterminate
        else if f'.other = true then .permit else if f'.error = true then .indeterminate else .notApplicable) := by
      unfold Fault.denyOverridesRules
      cases f'.potential <;> cases f'.other <;> cases f'.error <;> rfl
    have e : Xacml.denyOverridesRules f [] = Pure.pure (if f.potential = true then .indeterminate
        else if f.other = true then .permit else if f.error = true then .indeterminate else .notApplicable) := by
      unfold Xacml.denyOverridesRules
      cases f.potential <;> cases f.other <;> cases f.error <;> rfl
    rw [e', e]
    exact FSim.pure this
  | @cons c' c cs' cs heff h ht hc ih =>
    unfold Fault.denyOverridesRules Xacml.denyOverridesRules
    refine FSim.bind h RDim.refl fun d' d hd => ?_
    rw [heff]
    rcases hd with rfl | ⟨hP, rfl, hfit⟩
    · cases d' with
      | deny => exact FSim.pure (.inl rfl)
      | permit =>
        refine ih _ _ (hf.imp (fun h => by rw [h]) fun ⟨hP, h1, h2, h3, h4⟩ => ⟨hP, h1, h2, ?_, ?_⟩)
        · exact fun _ => rfl
        · exact fun _ => .inl rfl
      | notApplicable => exact ih _ _ hf
      | indeterminate =>
        rcases c.effect with _ | e
        · exact FSim.throw _
        · cases e with
          | permit =>
            exact ih _ _ (hf.imp (fun h => by rw [h]) fun ⟨hP, h1, h2, h3, h4⟩ => ⟨hP, h1, fun _ => rfl, h3, fun _ => .inr rfl⟩)
          | deny =>
            exact ih _ _ (hf.imp (fun h => by rw [h]) fun ⟨hP, h1, h2, h3, h4⟩ =>
              ⟨hP, fun _ => rfl, fun _ => rfl, h3, fun _ => .inr rfl⟩)
    · obtain ⟨h1, h2, h3, h4⟩ := hf.loosen hP
      have hpres : ∀ f w, Coh re w → Coh re (Xacml.denyOverridesRules f cs w).2 := fun f w hw => (ih f f (.inl rfl)).right hP hw
      rcases hfit with rfl | rfl | ⟨e, he, rfl⟩
      · rcases c.effect with _ | e
        · exact FSim.fail hP (hpres _)
        · cases e with
          | permit => exact ih _ _ (.inr ⟨hP, h1, fun _ => rfl, h3, fun _ => .inr rfl⟩)
          | deny => exact ih _ _ (.inr ⟨hP, fun _ => rfl, fun _ => rfl, h3, fun _ => .inr rfl⟩)
      · rcases c.effect with _ | e
        · exact FSim.throw _
        · cases e with
          | permit => exact ih _ _ (.inr ⟨hP, h1, fun _ => rfl, h3, fun _ => .inr rfl⟩)
          | deny => exact ih _ _ (.inr ⟨hP, fun _ => rfl, fun _ => rfl, h3, fun _ => .inr rfl⟩)
      · rw [he]
        cases e with
        | permit => exact ih _ _ (.inr ⟨hP, h1, fun _ => rfl, fun _ => rfl, fun _ => .inr rfl⟩)
        | deny =>
          refine FSim.goOn hP (fun w' d' hd' => ?_) fun w' hw => (ih _ _ (.inl rfl)).left hP hw
          rcases deny_go_on cs' _ rfl w' hd' with rfl | rfl
          · exact .inl rfl
          · exact .inr ⟨hP, rfl⟩

theorem permitOverridesRules_fsim {cs' cs} (h : Rules P re cs' cs) (f' f : Flags) (hf : FRules P f' f) :
    FSim P re (Dim P) (Fault.permitOverridesRules f' cs') (Xacml.permitOverridesRules f cs) := by
  induction h generalizing f' f with
  | nil =>
    have := hf.done .deny
    have e' : Fault.permitOverridesRules f' [] = Pure.pure (if f'.potential = true then .indeterminate
        else if f'.other = true then .deny else if f'.error = true then .indeterminate else .notApplicable) := by
      unfold Fault.permitOverridesRules
      cases f'.potential <;> cases f'.other <;> cases f'.error <;> rfl
    have e : Xacml.permitOverridesRules f [] = Pure.pure (if f.potential = true then .indeterminate
        else if f.other = true then .deny else if f.error = true then .indeterminate else .notApplicable) := by
      unfold Xacml.permitOverridesRules
      cases f.potential <;> cases f.other <;> cases f.error <;> rfl
    rw [e', e]
    exact FSim.pure this
  | @cons c' c cs' cs heff h ht hc ih =>
    unfold Fault.permitOverridesRules Xacml.permitOverridesRules
    refine FSim.bind h RDim.refl fun d' d hd => ?_
    rw [heff]
    rcases hd with rfl | ⟨hP, rfl, hfit⟩
    · cases d' with
      | permit => exact FSim.pure (.inl rfl)
      | deny =>
        refine ih _ _ (hf.imp (fun h => by rw [h]) fun ⟨hP, h1, h2, h3, h4⟩ => ⟨hP, h1, h2, ?_, ?_⟩)
        · exact fun _ => rfl
        · exact fun _ => .inl rfl
      | notApplicable => exact ih _ _ hf
      | indeterminate =>
        rcases c.effect with _ | e
        · exact FSim.throw _
        · cases e with
          | deny =>
            exact ih _ _ (hf.imp (fun h => by rw [h]) fun ⟨hP, h1, h2, h3, h4⟩ => ⟨hP, h1, fun _ => rfl, h3, fun _ => .inr rfl⟩)
          | permit =>
            exact ih _ _ (hf.imp (fun h => by rw [h]) fun ⟨hP, h1, h2, h3, h4⟩ =>
              ⟨hP, fun _ => rfl, fun _ => rfl, h3, fun _ => .inr rfl⟩)
    · obtain ⟨h1, h2, h3, h4⟩ := hf.loosen hP
      have hpres : ∀ f w, Coh re w → Coh re (Xacml.permitOverridesRules f cs w).2 := fun f w hw => (ih f f (.inl rfl)).right hP hw
      rcases hfit with rfl | rfl | ⟨e, he, rfl⟩
      · rcases c.effect with _ | e
        · exact FSim.fail hP (hpres _)
        · cases e with
          | deny => exact ih _ _ (.inr ⟨hP, h1, fun _ => rfl, h3, fun _ => .inr rfl⟩)
          | permit => exact ih _ _ (.inr ⟨hP, fun _ => rfl, fun _ => rfl, h3, fun _ => .inr rfl⟩)
      · rcases c.effect with _ | e
        · exact FSim.throw _
        · cases e with
          | deny => exact ih _ _ (.inr ⟨hP, h1, fun _ => rfl, h3, fun _ => .inr rfl⟩)
          | permit => exact ih _ _ (.inr ⟨hP, fun _ => rfl, fun _ => rfl, h3, fun _ => .inr rfl⟩)
      · rw [he]
        cases e with
        | deny => exact ih _ _ (.inr ⟨hP, h1, fun _ => rfl, fun _ => rfl, fun _ => .inr rfl⟩)
        | permit =>
          refine FSim.goOn hP (fun w' d' hd' => ?_) fun w' hw => (ih _ _ (.inl rfl)).left hP hw
          rcases permit_rules_go_on cs' _ rfl w' hd' with rfl | rfl
          · exact .inl rfl
          · exact .inr ⟨hP, rfl⟩

theorem Dim.refl (d : Decision) : Dim P d d := .inl rfl

theorem combineRules_fsim {s : Schedule} (hs : Only P s) {cs' cs} (h : Rules P re cs' cs) (alg : Option Alg) :
    FSim P re (Dim P) (Fault.combineRules s alg cs') (Xacml.combineRules alg cs) := by
  unfold Fault.combineRules Xacml.combineRules
  refine FSim.call hs ?_
  rcases alg with _ | a
  · exact FSim.throw _
  · cases a with
    | denyOverrides => exact denyOverridesRules_fsim h _ _ (.inl rfl)
    | permitOverrides => exact permitOverridesRules_fsim h _ _ (.inl rfl)
    | firstApplicable =>
      refine firstApplicable_fsim Dim.refl (fun d' d hd => ?_) h.children
      rcases hd with h | ⟨hP, rfl⟩
      · exact .inl h
      · exact .inr ⟨hP, .inr rfl, fun e => .inr ⟨hP, rfl⟩⟩

theorem combinePolicies_fsim {s : Schedule} (hs : Only P s) {ms' ms} (h : Children P re (Low P) ms' ms)
    (alg : Option Alg) : FSim P re (Low P) (Fault.combinePolicies s alg ms') (Xacml.combinePolicies alg ms) := by
  unfold Fault.combinePolicies Xacml.combinePolicies
  refine FSim.call hs ?_
  rcases alg with _ | a
  · exact FSim.throw _
  · cases a with
    | denyOverrides => exact denyOverridesPolicies_fsim h _
    | permitOverrides => exact permitOverridesPolicies_fsim h _ _ _ _ (.inl ⟨rfl, rfl⟩)
    | firstApplicable =>
      refine firstApplicable_fsim Low.refl (fun d' d hd => ?_) h
      rcases hd with h | ⟨hP, h⟩
      · exact .inl h
      · exact .inr ⟨hP, h, fun e => .inr ⟨hP, h⟩⟩

theorem FSim.also {Q : α → Prop} {m' : M α} {m : EvalM α} (h : FSim P re T m' m)
    (hq : ∀ w a, (m w).1 = .ok a → Q a) : FSim P re (fun a' a => T a' a ∧ Q a) m' m := by
  intro w' w hw
  obtain ⟨h1, h2⟩ := h w' w hw
  refine ⟨?_, h2⟩
  have hq := hq w
  revert h1 hq
  generalize (m' w').1 = x'
  generalize (m w).1 = x
  intro h1 hq
  cases h1 with
  | ok h => exact .ok ⟨h, hq _ rfl⟩
  | error => exact .error
  | fault hP => exact .fault hP

theorem rule_fits (env : Env) (r : Rule) (ctx : Ctx) (w : World) {d : Decision}
    (h : (r.evaluate env ctx w).1 = .ok d) : Fits r.effect d := by
  unfold Rule.evaluate Xacml.catchAll at h
  rcases hb : r.body env ctx w with ⟨x, v⟩
  rw [hb] at h
  cases x with
  | error e => injection h with h; exact .inr (.inl h.symm)
  | ok d' =>
    injection h with h
    subst h
    unfold Rule.body at hb
    rw [run_bind_eq_ok] at hb
    obtain ⟨tm, w1, -, hb⟩ := hb
    cases tm with
    | false => injection hb with hb; injection hb with hb; exact .inl hb.symm
    | true =>
      simp only [Bool.not_true, Bool.false_eq_true, if_false] at hb
      have hb : ∃ (st : PyVal) (w2 : World), (if st.truthy = true then
            match r.effect with
            | some e => Pure.pure e.toDecision
            | none => EvalM.throw Exc.attributeError
          else Pure.pure Decision.notApplicable : EvalM Decision) w2 = (.ok d', v) := by
        rcases hcd : r.condition with _ | c <;> rw [hcd] at hb <;> simp only [run_bind_eq_ok] at hb <;>
          exact hb.elim fun st h => h.elim fun w2 h => ⟨st, w2, h.2⟩
      obtain ⟨st, w2, hb⟩ := hb
      cases ht : st.truthy with
      | false =>
        rw [ht] at hb
        injection hb with hb
        injection hb with hb
        exact .inl hb.symm
      | true =>
        rw [ht, if_pos rfl] at hb
        rcases he : r.effect with _ | e
        · rw [he] at hb; injection hb with hb; cases hb
        · rw [he] at hb
          injection hb with hb
          injection hb with hb
          exact .inr (.inr ⟨e, rfl, hb.symm⟩)

section
variable {s : Schedule} (hs : Only P s) {env' env : Env} (he : EnvOK P re env' env) {ctx' ctx : Ctx}
  (hc : CtxOK P ctx' ctx)
include hs he hc

theorem policyBase_fsim {T : Decision → Decision → Prop} (hr : ∀ d, T d d) (hi : ∀ d, P → T .indeterminate d)
    (hdr : Header) {c' : M Decision} {c : EvalM Decision} (h : FSim P re T c' c) :
    FSim P re T (Fault.policyBase s env' hdr ctx' c') (policyBaseEvaluate env hdr ctx c) := by
  unfold Fault.policyBase policyBaseEvaluate
  refine FSim.call hs (FSim.catchAll hs hi (hr _) (FSim.call hs (FSim.seq (target_fsim hs he hc _) fun tm => ?_)))
  cases tm with
  | false => exact FSim.pure (hr _)
  | true => exact h

theorem rules_fsim (rules : List Rule) :
    Rules P re (rules.map (Fault.child s env' ctx')) (rules.map (Rule.child env ctx)) := by
  induction rules with
  | nil => exact .nil
  | cons r rs ih =>
    refine .cons rfl ?_ (total_catchAll _) ih
    have hd : FSim P re (Dim P) (Fault.rule s env' r ctx') (r.evaluate env ctx) := by
      unfold Fault.rule Rule.evaluate
      exact FSim.call hs (FSim.catchAll hs (fun d hP => .inr ⟨hP, rfl⟩) (.inl rfl)
        (FSim.call hs ((ruleBody_fsim hs he hc r).mono fun _ _ => .inl)))
    refine (hd.also fun w d h => rule_fits env r ctx w h).mono fun d' d h => ?_
    exact h.1.imp id fun hP => ⟨hP.1, hP.2, h.2⟩

theorem single_fsim (hdr : Header) (rules : List Rule) :
    FSim P re (Dim P) (Fault.policy s env' ctx' (.policy hdr rules)) ((PolicyNode.policy hdr rules).evaluate env ctx) := by
  unfold Fault.policy PolicyNode.evaluate
  exact policyBase_fsim hs he hc Dim.refl (fun d hP => .inr ⟨hP, rfl⟩) hdr
    (combineRules_fsim hs (rules_fsim hs he hc rules) _)
end

mutual
theorem policy_fsim {s : Schedule} (hs : Only P s) {env' env : Env} (he : EnvOK P re env' env) {ctx' ctx : Ctx}
    (hc : CtxOK P ctx' ctx) :
    (p : PolicyNode) → FSim P re (Low P) (Fault.policy s env' ctx' p) (p.evaluate env ctx)
  | .policy hdr rules => by
    unfold Fault.policy PolicyNode.evaluate
    exact policyBase_fsim hs he hc Low.refl (fun d hP => .inr ⟨hP, .inr rfl⟩) hdr
      ((combineRules_fsim hs (rules_fsim hs he hc rules) _).mono fun _ _ => Dim.low)
  | .policySet hdr ps => by
    unfold Fault.policy PolicyNode.evaluate
    exact policyBase_fsim hs he hc Low.refl (fun d hP => .inr ⟨hP, .inr rfl⟩) hdr
      (combinePolicies_fsim hs (policies_fsim hs he hc ps) _)
theorem policies_fsim {s : Schedule} (hs : Only P s) {env' env : Env} (he : EnvOK P re env' env) {ctx' ctx : Ctx}
    (hc : CtxOK P ctx' ctx) :
    (ps : List PolicyNode) →
      Children P re (Low P) (Fault.policies s env' ctx' ps) (PolicyNode.evaluators env ctx ps)
  | [] => by unfold Fault.policies PolicyNode.evaluators; exact .nil
  | p :: ps => by
    unfold Fault.policies PolicyNode.evaluators
    refine .cons (policy_fsim hs he hc p) ?_ (policies_fsim hs he hc ps)
    cases p <;> unfold PolicyNode.evaluate policyBaseEvaluate <;> exact total_catchAll _
end

/-! ## The cache stays coherent whatever happens -/

/-- A run, disturbed or not, leaves a coherent cache coherent. -/
def Keeps (re : String → Except Exc (String → Bool)) (m : M α) : Prop :=
  ∀ w, Coh re w.world → Coh re (m w).2.world

theorem Keeps.pure (a : α) : Keeps re (Pure.pure a : M α) := fun _ h => h
theorem Keeps.throw (e : Exc) : Keeps re (M.throw e : M α) := fun _ h => h

theorem Keeps.bind {m : M α} {f : α → M β} (hm : Keeps re m) (hf : ∀ a, Keeps re (f a)) : Keeps re (m >>= f) := by
  intro w hw
  have h1 := hm w hw
  rw [run_bind]
  rcases hx : m w with ⟨x, v⟩
  rw [hx] at h1
  cases x with
  | ok a => exact hf a v h1
  | error e => exact h1

theorem Keeps.point (s : Schedule) : Keeps re (Fault.point s) := by
  intro w hw
  rw [(run_point s w).1]
  exact hw

theorem Keeps.call {m : M α} (s : Schedule) (hm : Keeps re m) : Keeps re (Fault.call s m) :=
  Keeps.bind (Keeps.point s) fun _ => hm.bind fun _ => (Keeps.point s).bind fun _ => Keeps.pure _

theorem Keeps.lift {m : EvalM α} (hm : ∀ w, Coh re w → Coh re (m w).2) : Keeps re (Fault.lift m) := by
  intro w hw
  have h1 := hm w.world hw
  unfold Fault.lift
  rcases hx : m w.world with ⟨x, v⟩
  rw [hx] at h1
  cases x <;> exact h1

theorem Keeps.check (s : Schedule) (x : Except Exc α) : Keeps re (Fault.check s x) :=
  Keeps.call s (Keeps.lift fun _ h => h)

theorem Keeps.catchAll {m : M Decision} (s : Schedule) (hm : Keeps re m) : Keeps re (Fault.catchAll s m) := by
  intro w hw
  have h1 := hm w hw
  unfold Fault.catchAll
  rcases hx : m w with ⟨x, v⟩
  rw [hx] at h1
  cases x with
  | ok d => exact h1
  | error r =>
    cases r with
    | exc e => exact Keeps.bind (Keeps.point s) (fun _ => Keeps.pure _) v h1
    | base => exact h1

section
variable {s : Schedule} {env : Env} (he : CompilerFails env.re re) {ctx : Ctx}
include he

theorem keeps_getRegex (p : String) : ∀ w, Coh re w → Coh re (getRegex env p w).2 := by
  intro w hw
  unfold getRegex
  cases hc : w.cache.lookup p with
  | some m => exact hw
  | none =>
    rcases he p with h | ⟨e, h⟩
    · rw [h]
      cases hr : re p with
      | ok m => exact coh_cons hw hr
      | error e => exact hw
    · rw [h]; exact hw

theorem keeps_func (f : Func) (args : List PyVal) : Keeps re (Fault.func s env f args) := by
  unfold Fault.func
  refine Keeps.call s ?_
  cases f <;> try exact Keeps.lift fun _ h => h
  rename_i t
  show Keeps re (Fault.regexpMatchFn s env t args)
  unfold Fault.regexpMatchFn
  split
  · split
    · split
      · split
        · split
          · refine Keeps.bind (Keeps.call s (Keeps.lift (keeps_getRegex he _))) fun m => ?_
            split
            · exact Keeps.pure _
            · exact Keeps.throw _
          · exact Keeps.throw _
        · exact Keeps.throw _
      · exact Keeps.throw _
    · exact Keeps.throw _
  · exact Keeps.throw _

omit he in
theorem keeps_subjects (r : Request) (d : Designator) (b : Bag) (xs : List CtxSubject) :
    Keeps re (Fault.collectSubjects s r d b xs) := by
  induction xs generalizing b with
  | nil => exact Keeps.pure _
  | cons x xs ih =>
    unfold Fault.collectSubjects
    refine Keeps.bind (Keeps.check s _) fun b => ?_
    rcases r.ctxHandler with _ | pip
    · exact ih b
    · exact Keeps.bind (Keeps.call s (Keeps.lift fun _ h => h)) fun ans => Keeps.bind (Keeps.check s _) fun b => ih b

omit he in
theorem keeps_designator (cat : Category) (d : Designator) : Keeps re (Fault.designatorEval s env cat d ctx) := by
  unfold Fault.designatorEval
  refine Keeps.call s ?_
  rcases ctx with _ | r
  · exact Keeps.throw _
  · cases cat with
    | subject => exact Keeps.bind (keeps_subjects r d _ _) fun b => Keeps.check s _
    | resource => exact Keeps.bind (Keeps.check s _) fun b => Keeps.check s _
    | action =>
      simp only
      rcases r.data.action with _ | attrs
      · exact Keeps.throw _
      · exact Keeps.bind (Keeps.check s _) fun b => Keeps.check s _
    | environment =>
      simp only
      rcases r.data.environment with _ | attrs
      · exact Keeps.throw _
      · exact Keeps.bind (Keeps.check s _) fun b => Keeps.check s _

omit he in
theorem keeps_selector (x : Selector) : Keeps re (Fault.selectorEval s env x ctx) := Keeps.check s _
end

mutual
theorem keeps_expr {s : Schedule} {env : Env} (he : CompilerFails env.re re) {ctx : Ctx} :
    (e : Expr) → Keeps re (Fault.expr s env ctx e)
  | .value v => by unfold Fault.expr; exact Keeps.check s _
  | .designator cat d => by unfold Fault.expr; exact keeps_designator cat d
  | .selector x => by unfold Fault.expr; exact keeps_selector x
  | .apply fn args => by
    unfold Fault.expr
    refine Keeps.call s (Keeps.bind (keeps_exprs he args) fun vs => ?_)
    cases fn with
    | none => exact Keeps.throw _
    | some f => exact keeps_func he f vs
theorem keeps_exprs {s : Schedule} {env : Env} (he : CompilerFails env.re re) {ctx : Ctx} :
    (es : List Expr) → Keeps re (Fault.exprs s env ctx es)
  | [] => by unfold Fault.exprs; exact Keeps.pure _
  | e :: es => by
    unfold Fault.exprs
    exact Keeps.bind (keeps_expr he e) fun v => Keeps.bind (keeps_exprs he es) fun vs => Keeps.pure _
end

section
variable {s : Schedule} {env : Env} (he : CompilerFails env.re re) {ctx : Ctx}
include he

theorem keeps_matchLoop (m : Match) (vs : List AttrVal) : Keeps re (Fault.matchLoop s env m vs) := by
  induction vs with
  | nil => exact Keeps.pure _
  | cons v vs ih =>
    unfold Fault.matchLoop Fault.matchOne
    refine Keeps.bind ?_ fun x => Keeps.bind ih fun xs => Keeps.pure _
    rcases m.func with _ | f
    · exact Keeps.bind (Keeps.throw _) fun x => Keeps.bind (Keeps.check s _) fun _ => Keeps.pure _
    · exact Keeps.bind (keeps_func he f _) fun x => Keeps.bind (Keeps.check s _) fun _ => Keeps.pure _

theorem keeps_match (m : Match) : Keeps re (Fault.matchEval s env m ctx) := by
  unfold Fault.matchEval
  refine Keeps.call s (Keeps.bind ?_ fun vals => ?_)
  · unfold Fault.requestValues
    rcases m.designator with _ | ⟨cat, d⟩
    · rcases m.selector with _ | x
      · exact Keeps.throw _
      · exact keeps_selector _
    · exact keeps_designator _ _
  · cases vals with
    | bag b => exact Keeps.bind (keeps_matchLoop he m _) fun xs => Keeps.pure _
    | _ => exact Keeps.throw _

theorem keeps_section (cs : List TargetChild) : Keeps re (Fault.matchSection s env ctx cs) := by
  unfold Fault.matchSection
  split
  · exact Keeps.pure _
  · rename_i h0
    clear h0
    generalize false = st
    induction cs generalizing st with
    | nil => exact Keeps.pure _
    | cons c cs ih =>
      unfold Fault.sectionLoop Fault.matchChild
      refine Keeps.bind (Keeps.call s (Keeps.bind ?_ fun bs => Keeps.pure _)) fun b => ih _
      generalize c.matches_ = ms
      induction ms with
      | nil => exact Keeps.pure _
      | cons m ms ih =>
        unfold Fault.evalMatches
        exact Keeps.bind (keeps_match he m) fun b => Keeps.bind ih fun bs => Keeps.pure _

theorem keeps_target (t : Option Target) : Keeps re (Fault.targetMatch s env t ctx) := by
  rcases t with _ | t
  · exact Keeps.pure _
  · show Keeps re (Fault.targetMatch_ s env t ctx)
    unfold Fault.targetMatch_
    exact Keeps.call s <| Keeps.bind (keeps_section he _) fun _ => Keeps.bind (keeps_section he _) fun _ =>
      Keeps.bind (keeps_section he _) fun _ => Keeps.bind (keeps_section he _) fun _ => Keeps.pure _

theorem keeps_rule (r : Rule) : Keeps re (Fault.rule s env r ctx) := by
  unfold Fault.rule Fault.ruleBody
  refine Keeps.call s (Keeps.catchAll s (Keeps.call s (Keeps.bind (keeps_target he _) fun tm => ?_)))
  cases tm with
  | false => exact Keeps.pure _
  | true =>
    have tail : ∀ st : PyVal, Keeps re
        (if st.truthy = true then
          match r.effect with
          | some e => Pure.pure e.toDecision
          | none => M.throw Exc.attributeError
        else Pure.pure Decision.notApplicable) := by
      intro st
      cases st.truthy with
      | false => exact Keeps.pure _
      | true =>
        rcases r.effect with _ | e
        · exact Keeps.throw _
        · exact Keeps.pure _
    rcases r.condition with _ | c
    · exact Keeps.bind (Keeps.pure _) tail
    · refine Keeps.bind ?_ tail
      unfold Fault.conditionEval
      refine Keeps.call s ?_
      rcases c.expression with _ | e
      · exact Keeps.throw _
      · exact keeps_expr he e
end

theorem keeps_first {ms : List (M Decision)} (h : ∀ m ∈ ms, Keeps re m) : Keeps re (Fault.firstApplicable ms) := by
  induction ms with
  | nil => exact Keeps.pure _
  | cons m ms ih =>
    unfold Fault.firstApplicable
    refine Keeps.bind (h m (by simp)) fun d => ?_
    cases d <;> first | exact Keeps.pure _ | exact ih fun m hm => h m (by simp [hm])

theorem keeps_denyPolicies {ms : List (M Decision)} (h : ∀ m ∈ ms, Keeps re m) (b : Bool) :
    Keeps re (Fault.denyOverridesPolicies b ms) := by
  induction ms generalizing b with
  | nil => cases b <;> exact Keeps.pure _
  | cons m ms ih =>
    unfold Fault.denyOverridesPolicies
    refine Keeps.bind (h m (by simp)) fun d => ?_
    cases d <;> first | exact Keeps.pure _ | exact ih (fun m hm => h m (by simp [hm])) _

theorem keeps_permitPolicies {ms : List (M Decision)} (h : ∀ m ∈ ms, Keeps re m) (a b : Bool) :
    Keeps re (Fault.permitOverridesPolicies a b ms) := by
  induction ms generalizing a b with
  | nil => cases a <;> cases b <;> exact Keeps.pure _
  | cons m ms ih =>
    unfold Fault.permitOverridesPolicies
    refine Keeps.bind (h m (by simp)) fun d => ?_
    cases d <;> first | exact Keeps.pure _ | exact ih (fun m hm => h m (by simp [hm])) _ _

theorem keeps_denyRules {cs : List Child} (h : ∀ c ∈ cs, Keeps re c.run) (f : Flags) :
    Keeps re (Fault.denyOverridesRules f cs) := by
  induction cs generalizing f with
  | nil =>
    unfold Fault.denyOverridesRules
    cases f.potential <;> cases f.other <;> cases f.error <;> exact Keeps.pure _
  | cons c cs ih =>
    have ih := ih fun c hc => h c (by simp [hc])
    unfold Fault.denyOverridesRules
    refine Keeps.bind (h c (by simp)) fun d => ?_
    cases d with
    | deny => exact Keeps.pure _
    | permit => exact ih _
    | notApplicable => exact ih _
    | indeterminate =>
      rcases c.effect with _ | e
      · exact Keeps.throw _
      · cases e <;> exact ih _

theorem keeps_permitRules {cs : List Child} (h : ∀ c ∈ cs, Keeps re c.run) (f : Flags) :
    Keeps re (Fault.permitOverridesRules f cs) := by
  induction cs generalizing f with
  | nil =>
    unfold Fault.permitOverridesRules
    cases f.potential <;> cases f.other <;> cases f.error <;> exact Keeps.pure _
  | cons c cs ih =>
    have ih := ih fun c hc => h c (by simp [hc])
    unfold Fault.permitOverridesRules
    refine Keeps.bind (h c (by simp)) fun d => ?_
    cases d with
    | permit => exact Keeps.pure _
    | deny => exact ih _
    | notApplicable => exact ih _
    | indeterminate =>
      rcases c.effect with _ | e
      · exact Keeps.throw _
      · cases e <;> exact ih _

theorem keeps_base {s : Schedule} {env : Env} (he : CompilerFails env.re re) {ctx : Ctx} (hdr : Header)
    {c : M Decision} (h : Keeps re c) : Keeps re (Fault.policyBase s env hdr ctx c) := by
  unfold Fault.policyBase
  refine Keeps.call s (Keeps.catchAll s (Keeps.call s (Keeps.bind (keeps_target he _) fun tm => ?_)))
  cases tm with
  | false => exact Keeps.pure _
  | true => exact h

mutual
theorem keeps_policy {s : Schedule} {env : Env} (he : CompilerFails env.re re) {ctx : Ctx} :
    (p : PolicyNode) → Keeps re (Fault.policy s env ctx p)
  | .policy hdr rules => by
    unfold Fault.policy Fault.combineRules
    refine keeps_base he hdr (Keeps.call s ?_)
    have h : ∀ c ∈ rules.map (Fault.child s env ctx), Keeps re c.run := by
      intro c hc
      obtain ⟨r, -, rfl⟩ := List.mem_map.1 hc
      exact keeps_rule he r
    rcases hdr.alg with _ | a
    · exact Keeps.throw _
    · cases a with
      | denyOverrides => exact keeps_denyRules h _
      | permitOverrides => exact keeps_permitRules h _
      | firstApplicable =>
        refine keeps_first fun m hm => ?_
        obtain ⟨c, hc, rfl⟩ := List.mem_map.1 hm
        exact h c hc
  | .policySet hdr ps => by
    unfold Fault.policy Fault.combinePolicies
    refine keeps_base he hdr (Keeps.call s ?_)
    have h := keeps_policies (s := s) he (ctx := ctx) ps
    rcases hdr.alg with _ | a
    · exact Keeps.throw _
    · cases a with
      | denyOverrides => exact keeps_denyPolicies h _
      | permitOverrides => exact keeps_permitPolicies h _ _
      | firstApplicable => exact keeps_first h
theorem keeps_policies {s : Schedule} {env : Env} (he : CompilerFails env.re re) {ctx : Ctx} :
    (ps : List PolicyNode) → ∀ m ∈ Fault.policies s env ctx ps, Keeps re m
  | [] => by unfold Fault.policies; intro m hm; cases hm
  | p :: ps => by
    unfold Fault.policies
    intro m hm
    rcases List.mem_cons.1 hm with rfl | hm
    · exact keeps_policy he p
    · exact keeps_policies he ps m hm
end

theorem keeps_pdp {s : Schedule} {env : Env} (he : CompilerFails env.re re) {ctx : Ctx} (p : Option PolicyNode) :
    Keeps re (Fault.pdp s env p ctx) := by
  unfold Fault.pdp
  refine Keeps.call s ?_
  rcases p with _ | p
  · exact Keeps.throw _
  · intro w hw
    have h1 := keeps_policy (s := s) he (ctx := ctx) p w hw
    simp only [Fault.evaluateResponse]
    rcases hx : Fault.policy s env ctx p w with ⟨x, v⟩
    rw [hx] at h1
    cases x with
    | ok d => exact h1
    | error r =>
      cases r with
      | base => exact h1
      | exc e =>
        simp only
        split
        · exact Keeps.bind (Keeps.point s) (fun _ => Keeps.pure _) v h1
        · exact h1

theorem faultHistory_coh {w : World} (h : FaultHistory re w) : Coh re w := by
  induction h with
  | start => intro p m h; simp [start] at h
  | pdp s n env policy ctx he _ ih => exact keeps_pdp he policy ⟨_, n⟩ ih

end Fault
end Xacml
