import Verif.Lemmas.Faults
import Verif.Spec.Samples

/-!
# C91: failures never grant
-/
namespace Xacml
open Spec

section
variable {re : String → Except Exc (String → Bool)}

private theorem only_true (s : Schedule) : Fault.Only True s := fun _ _ _ => trivial

private theorem envOK_true {env' env : Env} (h : EnvFails env' env) : Fault.EnvOK True env.re env' env :=
  ⟨fun p => (h.re p).imp id fun h => ⟨trivial, h⟩, rfl, h.classMap, h.debug⟩

private theorem ctxOK_true {ctx' ctx : Ctx} (h : CtxFails ctx' ctx) : Fault.CtxOK True ctx' ctx := by
  rcases ctx' with _ | r' <;> rcases ctx with _ | r
  · exact trivial
  · exact h
  · exact h
  · obtain ⟨h1, h2, h3⟩ : RequestFails r' r := h
    refine ⟨h1, ?_, ?_⟩
    · revert h2
      rcases r'.ctxHandler with _ | p' <;> rcases r.ctxHandler with _ | p <;> intro h2
      · exact trivial
      · exact h2
      · exact h2
      · exact fun l l' q _ => (h2 l l' q).imp id fun h => ⟨trivial, h⟩
    · revert h3
      rcases r'.attributeSelector with _ | p' <;> rcases r.attributeSelector with _ | p <;> intro h3
      · exact trivial
      · exact h3
      · exact h3
      · exact fun path => (h3 path).imp id fun h => ⟨trivial, h⟩

private theorem only_quiet : Fault.Only False quiet := fun _ _ h => nomatch h

private theorem envOK_false (env : Env) : Fault.EnvOK False env.re env env :=
  ⟨fun _ => .inl rfl, rfl, rfl, rfl⟩

private theorem ctxOK_false (ctx : Ctx) : Fault.CtxOK False ctx ctx := by
  rcases ctx with _ | r
  · exact trivial
  · refine ⟨rfl, ?_, ?_⟩
    · rcases r.ctxHandler with _ | p
      · exact trivial
      · exact fun l l' q h => .inl (by rw [h.resolve_left id])
    · rcases r.attributeSelector with _ | p
      · exact trivial
      · exact fun _ => .inl rfl

private theorem evaluate_total (env : Env) (ctx : Ctx) (p : PolicyNode) (w : World) :
    ∃ d, (p.evaluate env ctx w).1 = .ok d := by
  cases p <;> unfold PolicyNode.evaluate policyBaseEvaluate <;> exact Fault.total_catchAll _ w

private theorem pdp_decides {env : Env} {ctx : Ctx} {p : PolicyNode} {w : World} {d : Decision}
    (h : (p.evaluate env ctx w).1 = .ok d) :
    (pdpEvaluate env (some p) ctx w).1 = .ok { results := [Result.createInitialised d] } := by
  unfold pdpEvaluate PolicyNode.evaluateResponse
  rcases hx : p.evaluate env ctx w with ⟨x, v⟩
  rw [hx] at h
  simp only at h
  subst h
  simp only [hx]
  rfl

/-- A call that returns ran its body to the end. -/
private theorem call_ok {α} {s : Schedule} {m : Fault.M α} {w : FaultWorld} {a : α}
    (h : (Fault.call s m w).1 = .ok a) : ∃ n, (m ⟨w.world, n⟩).1 = .ok a := by
  unfold Fault.call at h
  rw [Fault.run_bind] at h
  rcases hp : Fault.point s w with ⟨x, v⟩
  have h1 := (Fault.run_point s w).1
  rw [hp] at h h1
  simp only at h1
  cases x with
  | error r => cases h
  | ok u =>
    simp only at h
    rw [Fault.run_bind] at h
    obtain ⟨vw, n⟩ := v
    simp only at h1
    subst h1
    refine ⟨n, ?_⟩
    rcases hm : m ⟨w.world, n⟩ with ⟨y, u⟩
    rw [hm] at h
    cases y with
    | error r => cases h
    | ok b =>
      simp only [Fault.run_bind] at h
      rcases hq : Fault.point s u with ⟨z, t⟩
      rw [hq] at h
      cases z with
      | error r => cases h
      | ok _ => exact h

private theorem call_error {α} {s : Schedule} {m : Fault.M α} {w : FaultWorld} {r : Raised}
    (h : (Fault.call s m w).1 = .error r) : (∃ n, s n = some r) ∨ ∃ v, (m v).1 = .error r := by
  have pt : ∀ w x v, Fault.point s w = (.error x, v) → ∃ n, s n = some x := by
    intro w x v h
    rcases (Fault.run_point s w).2 with h1 | ⟨r, h1, h2⟩
    · rw [h] at h1; cases h1
    · rw [h] at h2; injection h2 with h2; exact ⟨_, h2 ▸ h1⟩
  unfold Fault.call at h
  rw [Fault.run_bind] at h
  rcases hp : Fault.point s w with ⟨x, v⟩
  rw [hp] at h
  cases x with
  | error r' => injection h with h; exact .inl (h ▸ pt _ _ _ hp)
  | ok u =>
    simp only at h
    rw [Fault.run_bind] at h
    rcases hm : m v with ⟨y, u⟩
    rw [hm] at h
    cases y with
    | error r' => injection h with h; exact .inr ⟨v, by rw [hm, h]⟩
    | ok b =>
      simp only [Fault.run_bind] at h
      rcases hq : Fault.point s u with ⟨z, t⟩
      rw [hq] at h
      cases z with
      | error r' => injection h with h; exact .inl (h ▸ pt _ _ _ hq)
      | ok _ => cases h

private theorem catchAll_error {s : Schedule} {m : Fault.M Decision} {w : FaultWorld} {e : Exc}
    (h : (Fault.catchAll s m w).1 = .error (.exc e)) : ∃ n, s n = some (.exc e) := by
  unfold Fault.catchAll at h
  rcases hm : m w with ⟨x, v⟩
  rw [hm] at h
  cases x with
  | ok d => cases h
  | error r =>
    cases r with
    | base => cases h
    | exc e' =>
      simp only [Fault.run_bind] at h
      rcases hp : Fault.point s v with ⟨y, u⟩
      rw [hp] at h
      cases y with
      | ok _ => cases h
      | error r =>
        injection h with h
        subst h
        rcases (Fault.run_point s v).2 with h1 | ⟨r, h1, h2⟩
        · rw [hp] at h1; cases h1
        · rw [hp] at h2; injection h2 with h2; exact ⟨_, h2 ▸ h1⟩

/-- Exceptions leave a policy only if they are raised outside of its `try` block. -/
private theorem policy_error {s : Schedule} {env : Env} {ctx : Ctx} {p : PolicyNode} {w : FaultWorld} {e : Exc}
    (h : (Fault.policy s env ctx p w).1 = .error (.exc e)) : ∃ n, s n = some (.exc e) := by
  cases p <;> unfold Fault.policy Fault.policyBase at h <;>
    rcases call_error h with h | ⟨v, h⟩ <;> first | exact h | exact catchAll_error h

private theorem response_ok {s : Schedule} {env : Env} {ctx : Ctx} {p : PolicyNode} {w : FaultWorld} {r : Response}
    (h : (Fault.evaluateResponse s env p ctx w).1 = .ok r) :
    (∃ d, (Fault.policy s env ctx p w).1 = .ok d ∧ Decides r d) ∨
      (∃ n e, s n = some (.exc e) ∧ e.isContextError = true) ∧ Decides r .notApplicable := by
  unfold Fault.evaluateResponse at h
  rcases hx : Fault.policy s env ctx p w with ⟨x, v⟩
  rw [hx] at h
  cases x with
  | ok d => injection h with h; exact .inl ⟨d, rfl, h.symm⟩
  | error r' =>
    cases r' with
    | base => cases h
    | exc e =>
      have hn := policy_error (show (Fault.policy s env ctx p w).1 = .error (.exc e) by rw [hx])
      simp only at h
      by_cases he : e.isContextError = true
      · rw [if_pos he, Fault.run_bind] at h
        rcases hp : Fault.point s v with ⟨y, u⟩
        rw [hp] at h
        cases y with
        | error r => cases h
        | ok _ => injection h with h; exact .inr ⟨hn.elim fun n h => ⟨n, e, h, he⟩, h.symm⟩
      · rw [if_neg he] at h; cases h

/-- **C91.** Let a request be decided while anything may fail: the schedule may have exceptions
raised at any points, and the context handler, XPath engine and regular expression compiler may
raise whenever they are called. If a response comes back, then the same policy and request
without failures get a response too, and the decision is the same, or Deny or Indeterminate. Permit is
never among the decisions that failures bring about, nor is NotApplicable unless a
schedule has XacmlContextErrors raised. Both processes may have any history. -/
theorem C91_response {env' env : Env} (he : EnvFails env' env) {ctx' ctx : Ctx} (hc : CtxFails ctx' ctx)
    {w' w : World} (hw' : FaultHistory env.re w') (hw : FaultHistory env.re w) (s : Schedule) (n : Nat)
    (p : PolicyNode) {r' : Response} (h : (Fault.pdp s env' (some p) ctx' ⟨w', n⟩).1 = .ok r') :
    ∃ r d' d, (pdpEvaluate env (some p) ctx w).1 = .ok r ∧ Decides r' d' ∧ Decides r d ∧
      (d' = .permit → d = .permit) ∧ (Foreign s → Worsened d' d) := by
  obtain ⟨d, hd⟩ := evaluate_total env ctx p w
  obtain ⟨k, hk⟩ := call_ok (m := Fault.evaluateResponse s env' p ctx') h
  rcases response_ok hk with ⟨d', hd', hr⟩ | ⟨⟨m, e, hs, hce⟩, hr⟩
  · refine ⟨_, d', d, pdp_decides hd, hr, rfl, ?_⟩
    have := (Fault.policy_fsim (only_true s) (envOK_true he) (ctxOK_true hc) p ⟨w', k⟩ w
      ⟨Fault.faultHistory_coh hw', Fault.faultHistory_coh hw, .inl trivial⟩).1
    rw [hd, show (Fault.policy s env' ctx' p ⟨w', k⟩).1 = .ok d' from hd'] at this
    cases this with
    | ok h =>
      rcases h with rfl | ⟨-, rfl | rfl⟩
      · exact ⟨id, fun _ => .inl rfl⟩
      · exact ⟨fun h => (nomatch h), fun _ => .inr (.inl rfl)⟩
      · exact ⟨fun h => (nomatch h), fun _ => .inr (.inr rfl)⟩
  · refine ⟨_, _, d, pdp_decides hd, hr, rfl, fun h => (nomatch h), fun hf => ?_⟩
    rw [hf m e hs] at hce
    cases hce

/-- **C91.** A Permit given while anything may fail is the response given without failures. -/
theorem C91_never_grants {env' env : Env} (he : EnvFails env' env) {ctx' ctx : Ctx} (hc : CtxFails ctx' ctx)
    {w' w : World} (hw' : FaultHistory env.re w') (hw : FaultHistory env.re w) (s : Schedule) (n : Nat)
    (p : PolicyNode) {r' : Response} (h : (Fault.pdp s env' (some p) ctx' ⟨w', n⟩).1 = .ok r')
    (hp : Decides r' .permit) : (pdpEvaluate env (some p) ctx w).1 = .ok r' := by
  obtain ⟨r, d', d, h1, h2, h3, h4, -⟩ := C91_response he hc hw' hw s n p h
  have : d' = .permit := by
    unfold Decides at hp h2
    rw [hp] at h2
    injection h2 with h2
    injection h2 with h2
    injection h2 with h2
    exact h2.symm
  rw [h1, h3, h4 this, hp]

/-- **C91.** For a single policy (not a policy set) failures never bring about a Deny either: the
decision is the one without failures or Indeterminate. -/
theorem C91_policy {env' env : Env} (he : EnvFails env' env) {ctx' ctx : Ctx} (hc : CtxFails ctx' ctx)
    {w' w : World} (hw' : FaultHistory env.re w') (hw : FaultHistory env.re w) (s : Schedule) (hs : Foreign s)
    (n : Nat) (hdr : Header) (rules : List Rule) {r' : Response}
    (h : (Fault.pdp s env' (some (.policy hdr rules)) ctx' ⟨w', n⟩).1 = .ok r') :
    Decides r' .indeterminate ∨ (pdpEvaluate env (some (.policy hdr rules)) ctx w).1 = .ok r' := by
  obtain ⟨d, hd⟩ := evaluate_total env ctx (.policy hdr rules) w
  obtain ⟨k, hk⟩ := call_ok (m := Fault.evaluateResponse s env' (.policy hdr rules) ctx') h
  rcases response_ok hk with ⟨d', hd', hr⟩ | ⟨⟨m, e, hx, hce⟩, hr⟩
  · have := (Fault.single_fsim (only_true s) (envOK_true he) (ctxOK_true hc) hdr rules ⟨w', k⟩ w
      ⟨Fault.faultHistory_coh hw', Fault.faultHistory_coh hw, .inl trivial⟩).1
    rw [hd, show (Fault.policy s env' ctx' (.policy hdr rules) ⟨w', k⟩).1 = .ok d' from hd'] at this
    cases this with
    | ok h =>
      rcases h with rfl | ⟨-, rfl⟩
      · exact .inr (hr ▸ pdp_decides hd)
      · exact .inl hr
  · rw [hs m e hx] at hce
    cases hce

/-- **C91.** Without interruptions the evaluation of `Verif.Model.Faults` is that of
`Verif.Model.Policy`: same outcome, same queries to the context handler, same cache. -/
theorem C91_undisturbed (env : Env) (p : Option PolicyNode) (ctx : Ctx) (w : World) (n : Nat)
    (hw : FaultHistory env.re w) :
    (Fault.pdp quiet env p ctx ⟨w, n⟩).1 = (match (pdpEvaluate env p ctx w).1 with
      | .ok r => .ok r
      | .error e => .error (.exc e)) ∧
    (Fault.pdp quiet env p ctx ⟨w, n⟩).2.world = (pdpEvaluate env p ctx w).2 := by
  have hcoh := Fault.faultHistory_coh hw
  suffices h : Fault.FSim False env.re Eq (Fault.pdp quiet env p ctx) (pdpEvaluate env p ctx) by
    obtain ⟨h1, -, -, h2⟩ := h ⟨w, n⟩ w ⟨hcoh, hcoh, .inr rfl⟩
    refine ⟨?_, h2.resolve_left id⟩
    revert h1
    generalize (Fault.pdp quiet env p ctx ⟨w, n⟩).1 = x'
    generalize (pdpEvaluate env p ctx w).1 = x
    intro h1
    cases h1 with
    | ok h => rw [h]
    | error => rfl
    | fault h => exact h.elim
  unfold Fault.pdp
  refine Fault.FSim.call only_quiet ?_
  rcases p with _ | p
  · exact Fault.FSim.throw _
  · intro w' w hw
    obtain ⟨h1, h2⟩ := Fault.policy_fsim only_quiet (envOK_false env) (ctxOK_false ctx) p w' w hw
    obtain ⟨d, hd⟩ := evaluate_total env ctx p w
    simp only [pdpEvaluate, Fault.evaluateResponse, PolicyNode.evaluateResponse]
    rcases hx' : Fault.policy quiet env ctx p w' with ⟨x', v'⟩
    rcases hx : p.evaluate env ctx w with ⟨x, v⟩
    rw [hx] at hd
    rw [hx', hx] at h1 h2
    simp only at hd
    subst hd
    cases h1 with
    | ok h => rcases h with rfl | ⟨h, -⟩
              · exact ⟨.ok rfl, h2⟩
              · exact h.elim
    | fault h => exact h.elim

/-- **C91.** A context handler, XPath engine or regular expression compiler that raises whenever
it likes never brings about a Permit or NotApplicable (statement about `PDP.evaluate` as it is). -/
theorem C91_unreliable {env' env : Env} (he : EnvFails env' env) {ctx' ctx : Ctx} (hc : CtxFails ctx' ctx)
    {w' w : World} (hw' : FaultHistory env'.re w') (hw : FaultHistory env.re w) (p : PolicyNode) :
    ∃ d' d, (pdpEvaluate env' (some p) ctx' w').1 = .ok { results := [Result.createInitialised d'] } ∧
      (pdpEvaluate env (some p) ctx w).1 = .ok { results := [Result.createInitialised d] } ∧ Worsened d' d := by
  have hw'' : FaultHistory env.re w' := by
    induction hw' with
    | start => exact .start
    | pdp s n e p c h _ ih =>
      refine .pdp s n e p c (fun q => ?_) ih
      rcases h q with h | h
      · rcases he.re q with h' | ⟨x, h'⟩
        · exact .inl (h.trans h')
        · exact .inr ⟨x, h.trans h'⟩
      · exact .inr h
  obtain ⟨d', hd'⟩ := evaluate_total env' ctx' p w'
  have h := pdp_decides hd'
  have hu := (C91_undisturbed env' (some p) ctx' w' 0 hw').1
  rw [h] at hu
  obtain ⟨r, e', d, h1, h2, h3, -, h5⟩ := C91_response he hc hw'' hw quiet 0 p hu
  have : e' = d' := by
    unfold Decides at h2
    injection h2 with h2
    injection h2 with h2
    injection h2 with h2
    exact h2.symm
  subst this
  exact ⟨e', d, h, by rw [h1, h3], h5 fun _ _ h => nomatch h⟩

/-- **C91.** Interruptions leave nothing behind: after any interrupted history a PDP whose context
handler is stateless gives the same response as after any other. -/
theorem C91_recovers (env : Env) {ctx : Ctx} (hc : StatelessPip ctx) {w w' : World} (hw : FaultHistory env.re w)
    (hw' : FaultHistory env.re w') (p : PolicyNode) :
    (pdpEvaluate env (some p) ctx w).1 = (pdpEvaluate env (some p) ctx w').1 :=
  (Sim.pdp (Sim.policy (envOK_refl env) (pipOK_stateless hc) p fun m _ => debugOK_refl env m) w w'
    ⟨Fault.faultHistory_coh hw, Fault.faultHistory_coh hw', trivial⟩).1

end

/-! ## Examples -/
namespace Samples

def clearance : Designator :=
  { attributeId := some "clearance", dataType := some (xsd "string"), issuer := none, mustBePresent := false }

/-- A request without attributes about a subject known to the context handler. -/
def askPip (pip : Pip) : Ctx :=
  some { data := { subjects := [{ category := none, attributes := [] }], resources := [], action := none, environment := none }
         ctxHandler := some pip, attributeSelector := none }

/-- Knows the clearance of the subject. -/
def knows (s : String) : Pip := fun _ _ => .ok (.iter { oneShot := false, items := [.av (str s)] })
/-- The same, but the first query fails. -/
def firstFails (s : String) : Pip := fun log q => if log.isEmpty then .error (.other 0) else knows s log q
/-- Answers that there is no value. -/
def silent : Pip := fun _ _ => .ok .none

def clearanceTarget (s : String) : Target :=
  { subjects := [{ matches_ := [{ value := some (str s), designator := some (.subject, clearance), selector := none
                                  func := some (.equal stringClass) }] }]
    resources := [], actions := [], environments := [] }

/-- Who is blocked is refused, everybody else admitted. -/
def blockPolicy : PolicyNode :=
  .policy (hdr .firstApplicable) [{ effect := some .deny, target := some (clearanceTarget "blocked"), condition := none },
    always .permit]

/-- Who has the clearance is admitted. -/
def admitPolicy : PolicyNode :=
  .policy (hdr .denyOverrides) [{ effect := some .permit, target := some (clearanceTarget "high"), condition := none }]

/-- Asks twice: the first answer decides the target of the policy, the second that of its rule. -/
def admitSet : PolicyNode := .policySet (hdr .denyOverrides) [admitPolicy]

/-- Raises `e` at point `k` only. -/
def onceAt (k : Nat) (e : Exc) : Schedule := fun n => if n = k then some (.exc e) else none

end Samples

open Samples in
theorem firstFails_fails (s : String) : PipFails (firstFails s) (knows s) := by
  intro log log' q
  unfold firstFails
  split
  · exact .inr ⟨_, rfl⟩
  · exact .inl rfl

open Samples in
theorem askPip_fails {pip' pip : Pip} (h : PipFails pip' pip) : CtxFails (askPip pip') (askPip pip) :=
  ⟨rfl, h, trivial⟩

/-- Deciding what an evaluation gave. -/
private def gave {ε} (x : Except ε Response) (d : Decision) : Bool :=
  match x with
  | .ok r => decide (r = { results := [Result.createInitialised d] })
  | .error _ => false

private theorem of_gave {ε} {x : Except ε Response} {d : Decision} (h : gave x d = true) :
    x = .ok { results := [Result.createInitialised d] } := by
  cases x with
  | ok r => rw [of_decide_eq_true h]
  | error e => cases h

theorem envFails_refl (env : Env) : EnvFails env env := ⟨fun _ => .inl rfl, rfl, rfl⟩

open Samples in
/-- A context handler whose first query fails: the policy that blocks gives Indeterminate instead of
Deny, the policy set that admits gives Deny instead of Permit; nothing is granted. -/
theorem C91_can_deny :
    CtxFails (askPip (firstFails "high")) (askPip (knows "high")) ∧
    (pdpEvaluate env (some admitSet) (askPip (knows "high")) start).1 = .ok { results := [Result.createInitialised .permit] } ∧
    (pdpEvaluate env (some admitSet) (askPip (firstFails "high")) start).1 =
      .ok { results := [Result.createInitialised .deny] } ∧
    (pdpEvaluate env (some admitPolicy) (askPip (firstFails "high")) start).1 =
      .ok { results := [Result.createInitialised .indeterminate] } :=
  ⟨askPip_fails (firstFails_fails _), of_gave (by decide +kernel), of_gave (by decide +kernel), of_gave (by decide +kernel)⟩

open Samples in
/-- Failing must mean raising: a context handler that fails by answering that there is no value can
grant. -/
theorem C91_silence_may_grant :
    (pdpEvaluate env (some blockPolicy) (askPip (knows "blocked")) start).1 =
      .ok { results := [Result.createInitialised .deny] } ∧
    (pdpEvaluate env (some blockPolicy) (askPip silent) start).1 =
      .ok { results := [Result.createInitialised .permit] } ∧
    (pdpEvaluate env (some blockPolicy) (askPip (firstFails "blocked")) start).1 =
      .ok { results := [Result.createInitialised .indeterminate] } :=
  ⟨of_gave (by decide +kernel), of_gave (by decide +kernel), of_gave (by decide +kernel)⟩

open Samples in
/-- The restriction to schedules without XacmlContextErrors is needed: raised at the entry of the
policy's `evaluate`, outside of its `try` block, such an exception turns Permit into NotApplicable. -/
theorem C91_context_error :
    (Fault.pdp quiet env (some admitPolicy) (askPip (knows "high")) ⟨start, 0⟩).1 =
      .ok { results := [Result.createInitialised .permit] } ∧
    (Fault.pdp (onceAt 1 .xacmlContextError) env (some admitPolicy) (askPip (knows "high")) ⟨start, 0⟩).1 =
      .ok { results := [Result.createInitialised .notApplicable] } ∧
    (Fault.pdp (onceAt 9 .recursionError) env (some admitPolicy) (askPip (knows "high")) ⟨start, 0⟩).1 =
      .ok { results := [Result.createInitialised .indeterminate] } :=
  ⟨of_gave (by decide +kernel), of_gave (by decide +kernel), of_gave (by decide +kernel)⟩

open Samples in
example : Foreign (onceAt 9 .recursionError) := by
  intro n e h
  unfold onceAt at h
  split at h
  · injection h with h; injection h with h; subst h; rfl
  · cases h

open Samples in
/-- A response Permit under a schedule that does interrupt (after the rule, in a part not reached). -/
example : ∃ r, (Fault.pdp (onceAt 1000 .recursionError) env (some admitPolicy) (askPip (knows "high")) ⟨start, 0⟩).1 = .ok r ∧
    Decides r .permit := ⟨_, of_gave (d := .permit) (by decide +kernel), rfl⟩

open Samples in
example : FaultHistory env.re
    (Fault.pdp (onceAt 9 .recursionError) env (some admitPolicy) (askPip (firstFails "high")) ⟨start, 0⟩).2.world :=
  .pdp _ _ _ _ _ (fun _ => .inl rfl) .start

open Samples in
example : StatelessPip (askPip (knows "high")) := by
  intro r hr pip hp log log' q
  injection hr with hr
  subst hr
  injection hp with hp
  subst hp
  rfl

end Xacml
