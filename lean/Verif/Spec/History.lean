import Verif.Model.Policy

/-!
# Specification: histories of a process, stateless PIPs
-/
namespace Xacml.Spec
open Xacml

/-- The process at start: no PIP query made, no regular expression compiled. -/
def start : World := ⟨[], []⟩

/-- States a process can be in after any history of PDP, expression and function evaluations, with
any policies, requests, PIPs and logging levels; `re` is Python's regular expression engine. -/
inductive History (re : String → Except Exc (String → Bool)) : World → Prop
  | start : History re start
  | pdp {w} (env : Env) (policy : Option PolicyNode) (ctx : Ctx) (h : env.re = re) :
      History re w → History re (pdpEvaluate env policy ctx w).2
  | expr {w} (env : Env) (e : Expr) (ctx : Ctx) (h : env.re = re) :
      History re w → History re (e.evaluate env ctx w).2
  | call {w} (env : Env) (f : Func) (args : List PyVal) (h : env.re = re) :
      History re w → History re (f.evaluate env args w).2

/-- The PIP of the request, if any, answers by the query alone. -/
def StatelessPip (ctx : Ctx) : Prop :=
  ∀ r, ctx = some r → ∀ pip, r.ctxHandler = some pip → ∀ log log' q, pip log q = pip log' q

/-- All match elements in targets of a policy or policy set and everything below it. -/
def Target.allMatches (t : Target) : List Match :=
  (t.subjects ++ t.resources ++ t.actions ++ t.environments).flatMap (·.matches_)

def optMatches (t : Option Target) : List Match := (t.map Target.allMatches).getD []

mutual
def policyMatches : PolicyNode → List Match
  | .policy hdr rules => optMatches hdr.target ++ rules.flatMap fun r => optMatches r.target
  | .policySet hdr ps => optMatches hdr.target ++ policiesMatches ps
def policiesMatches : List PolicyNode → List Match
  | [] => []
  | p :: ps => policyMatches p ++ policiesMatches ps
end

/-- The match function never returns an attribute value (XACML requires a boolean). -/
def Match.Quiet (m : Match) : Prop :=
  ∀ f, m.func = some f → ∀ env args w v, (f.evaluate env args w).1 ≠ .ok (.av v)

end Xacml.Spec
