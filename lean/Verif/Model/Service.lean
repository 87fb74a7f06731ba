import Verif.Model.ContextXml
import Verif.Model.Policy
import Verif.Model.Finder

/-!
# A program that answers request documents
-/
namespace Xacml

/-- The request object read from a document, as the evaluator sees it, with a context handler and an
attribute selector attached by the program.
Models: ndg/xacml/parsers/etree/context.py:77-120, ndg/xacml/core/context/request.py:25-170.
Simplification: resource contents are left out; no module of the package reads them. -/
def RequestX.toRequest (x : RequestX) (pip : Option Pip) (sel : Option XPathEngine) : Request where
  data := { subjects := x.subjects
            resources := x.resources.map fun r => { attributes := r.attributes, content := none }
            action := x.action
            environment := x.environment }
  ctxHandler := pip
  attributeSelector := sel

/-- A result of the PDP, as the writer sees it. Models: ndg/xacml/core/context/result.py:491-523.
Simplification: the status code and the obligations are left out; they are not written. -/
def Result.toX (r : Result) : ResultX := { resourceId := r.resourceId, decision := some r.decision }

/-- What a policy decision service does with a request document: `RequestElementTree.fromXML`, attach a
context handler and a selector on the request element, `PDP.evaluate`, `ResponseElementTree.toXML`.
Models: the sequence of calls in ndg/xacml/test/context/test_pdp_with_attributeselector.py:130-150 and
ndg/xacml/test/context/test_context.py. -/
def answerDocument (env : Env) (lib : Etree) (pip : Option Pip) (sel : Option (XNode → XPathEngine))
    (pdp : Option PolicyNode) (doc : XNode) : EvalM XNode := do
  let x ← EvalM.ofExcept (readRequest lib env.classMap doc)
  let response ← pdpEvaluate env pdp (some (x.toRequest pip (sel.map fun f => f doc)))
  EvalM.ofExcept (writeResponse lib (response.results.map Result.toX))

/-- Creating a PDP from a parsed policy document and answering one request document, without context handler and
selector. Models: `PDP.fromPolicySource` (ndg/xacml/core/context/pdp.py:40-57) followed by `answerDocument`. -/
def serve (rd : RdEnv) (fetch : Fetch) (limit : Nat) (source : SourceArg) (env : Env) (lib : Etree)
    (policy request : XNode) (w : World) : Except Exc XNode :=
  match pdpFromPolicySource rd fetch limit source (.ok policy) with
  | .error e => .error e
  | .ok pdp => (answerDocument env lib none none pdp request w).1

end Xacml
