import Verif.Spec.History
import Verif.Model.Faults

/-!
# Specification: failures and what they may do to a decision
-/
namespace Xacml.Spec
open Xacml

/-- `pip'` gives the answers of `pip` or raises, whenever it likes: its failures may depend on
everything that was asked before. (Where it does not fail, the answer depends on the query only.) -/
def PipFails (pip' pip : Pip) : Prop :=
  ∀ log log' q, pip' log q = pip log' q ∨ ∃ e, pip' log q = .error e

/-- The XPath engine `xp'` selects what `xp` selects or raises. -/
def EngineFails (xp' xp : XPathEngine) : Prop :=
  ∀ path, xp' path = xp path ∨ ∃ e, xp' path = .error e

/-- Both absent, or both present and related. -/
def OptRel {α} (R : α → α → Prop) : Option α → Option α → Prop
  | none, none => True
  | some a', some a => R a' a
  | _, _ => False

/-- The same request whose context handler and XPath engine may fail. -/
structure RequestFails (r' r : Request) : Prop where
  data : r'.data = r.data
  pip : OptRel PipFails r'.ctxHandler r.ctxHandler
  engine : OptRel EngineFails r'.attributeSelector r.attributeSelector

/-- The same context, which may fail. -/
def CtxFails (ctx' ctx : Ctx) : Prop := OptRel RequestFails ctx' ctx

/-- The regular expression compiler `re'` compiles like `re` or raises. -/
def CompilerFails (re' re : String → Except Exc (String → Bool)) : Prop :=
  ∀ p, re' p = re p ∨ ∃ e, re' p = .error e

/-- The same surroundings whose regular expression compiler may fail. -/
structure EnvFails (env' env : Env) : Prop where
  re : CompilerFails env'.re env.re
  classMap : env'.classMap = env.classMap
  debug : env'.debug = env.debug

/-- States of a process in which any number of requests have been decided, with any policies,
requests and schedules of interruptions, and with a compiler that compiles like `re` or raises. -/
inductive FaultHistory (re : String → Except Exc (String → Bool)) : World → Prop
  | start : FaultHistory re start
  | pdp {w} (s : Schedule) (n : Nat) (env : Env) (policy : Option PolicyNode) (ctx : Ctx)
      (h : CompilerFails env.re re) :
      FaultHistory re w → FaultHistory re (Fault.pdp s env policy ctx ⟨w, n⟩).2.world

/-- The schedule never has an XacmlContextError raised: RecursionError, MemoryError, errors of
logging handlers and KeyboardInterrupt are none. -/
def Foreign (s : Schedule) : Prop := ∀ n e, s n = some (.exc e) → e.isContextError = false

/-- Nothing is raised. -/
def quiet : Schedule := fun _ => none

/-- The single decision of a response. -/
def Decides (r : Response) (d : Decision) : Prop := r = { results := [Result.createInitialised d] }

/-- What failures may make of decision `d`. -/
def Worsened (d' d : Decision) : Prop := d' = d ∨ d' = .deny ∨ d' = .indeterminate

end Xacml.Spec
