import Verif.Model.Service
import Verif.Model.XPath

/-!
# A program that answers request documents, with attribute selectors

With the standard library's ElementTree.
-/
namespace Xacml

mutual
/-- An element as the readers see it. Simplification: readers never look at `tail`. -/
def PElem.node : PElem → XNode
  | .mk tag attrib text _ children =>
    .elem (String.ofList tag) (attrib.map fun a => (String.ofList a.1, String.ofList a.2)) (text.map String.ofList)
      (PElem.nodes children)
/-- The same for children. -/
def PElem.nodes : List PElem → List XNode
  | [] => []
  | c :: cs => c.node :: PElem.nodes cs
end

/-- `RequestElementTree.fromXML(elem)`, `request.attributeSelector = EtreeXPathSelector(elem)`, `PDP.evaluate(request)`,
`ResponseElementTree.toXML(response)`, for the element `elem` a request document starts with.
Models: the sequence of calls in ndg/xacml/test/context/test_pdp_with_attributeselector.py:133-143 with a request that
was read; ndg/xacml/utils/xpath_selector.py:27-49 (the constructor keeps the element). -/
def answerElement (env : Env) (lib : Etree) (pip : Option Pip) (pdp : Option PolicyNode) (elem : PElem) : EvalM XNode :=
  answerDocument env lib pip (some fun _ => selectText elem) pdp elem.node

/-- The same for a request that was made by a program: `request.elem = RequestElementTree.toXML(request)`,
`request.attributeSelector = EtreeXPathSelector(request.elem)`, `PDP.evaluate(request)`.
Models: ndg/xacml/test/context/test_pdp_with_attributeselector.py:139-142, 152-155. `elem` is the element that was
written. -/
def decideWritten (env : Env) (pip : Option Pip) (pdp : Option PolicyNode) (request : RequestX) (elem : PElem) :
    EvalM Response :=
  pdpEvaluate env pdp (some (request.toRequest pip (some (selectText elem))))

end Xacml
