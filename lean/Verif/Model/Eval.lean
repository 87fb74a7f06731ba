import Verif.Model.Value

/-!
# Requests, functions, expressions and their evaluation
-/
namespace Xacml

/-! ## Request contexts -/

/-- A context attribute. Models: ndg/xacml/core/attribute.py:20-158. -/
structure Attribute where
  attributeId : Option String
  dataType : Option String
  issuer : Option String
  values : List AttrVal
  deriving DecidableEq

/-- Request subject. Models: ndg/xacml/core/context/subject.py:15-59,
ndg/xacml/core/context/__init__.py:62-97. -/
structure CtxSubject where
  category : Option String
  attributes : List Attribute
  deriving DecidableEq

/-- Request resource. Models: ndg/xacml/core/context/resource.py,
ndg/xacml/core/context/__init__.py:62-97. Simplification: resourceContent is an opaque text. -/
structure CtxResource where
  attributes : List Attribute
  content : Option String := none
  deriving DecidableEq

/-- The data part of a Request (everything but the two engine hooks).
Models: ndg/xacml/core/context/request.py:25-124. -/
structure ReqData where
  subjects : List CtxSubject
  resources : List CtxResource
  action : Option (List Attribute)
  environment : Option (List Attribute)
  deriving DecidableEq

/-- Attribute designator fields. Models: ndg/xacml/core/attributedesignator.py:24-138 and
`dataType` from ndg/xacml/core/expression.py:30-45. -/
structure Designator where
  attributeId : Option String
  dataType : Option String
  issuer : Option String
  mustBePresent : Bool
  deriving DecidableEq

/-- Which part of the request a designator reads (the four derived classes).
Models: ndg/xacml/core/attributedesignator.py:141,219,272,325. -/
inductive Category where
  | subject | resource | action | environment
  deriving DecidableEq, Repr

/-- Attribute selector fields (`mustBePresent` is `None` by default, i.e. falsy).
Models: ndg/xacml/core/attributeselector.py:23-107. -/
structure Selector where
  path : Option String
  dataType : Option String
  mustBePresent : Bool
  deriving DecidableEq

/-- Arguments of a PIP query: the request and the designator.
Models: call at ndg/xacml/core/attributedesignator.py:192. -/
structure PipQuery where
  ctx : ReqData
  designator : Designator
  deriving DecidableEq

/-- What a PIP query returns: `None` or an iterable of arbitrary objects.
Simplification: a non-iterable answer is represented by an exception raised by the query. -/
inductive PipAnswer where
  | none
  | iter (it : PyIter)

/-- A context handler: an arbitrary, possibly stateful PIP. Its answer may depend on the
complete history of queries made so far in the process.
Models: ndg/xacml/core/context/handlerinterface.py (pipQuery).
Simplification: the PIP does not mutate the request or the policy. -/
def Pip := List PipQuery → PipQuery → Except Exc PipAnswer

/-- XPath engine: texts selected by a path (the path may be `None`; texts may be `None`).
Models: ndg/xacml/utils/xpath_selector.py:15-93 (interface). -/
def XPathEngine := Option String → Except Exc (List (Option Native))

/-- A Request. Models: ndg/xacml/core/context/request.py:25-171. -/
structure Request where
  data : ReqData
  ctxHandler : Option Pip
  attributeSelector : Option XPathEngine

/-- The object handed to `evaluate`: a Request, or something that is not a Request. -/
abbrev Ctx := Option Request

/-! ## The evaluation monad -/

/-- Process state that evaluation reads and writes: the log of PIP queries and the shared
cache of compiled regular expressions (functions/v1/regexp_match.py:44). -/
structure World where
  pipLog : List PipQuery
  cache : List (String × (String → Bool))

/-- Evaluation: may raise, and changes to the world survive an exception. -/
def EvalM (α : Type) := World → Except Exc α × World

def EvalM.pure {α} (a : α) : EvalM α := fun w => (.ok a, w)
def EvalM.throw {α} (e : Exc) : EvalM α := fun w => (.error e, w)
def EvalM.bind {α β} (m : EvalM α) (f : α → EvalM β) : EvalM β := fun w =>
  match m w with
  | (.ok a, w') => f a w'
  | (.error e, w') => (.error e, w')
def EvalM.ofExcept {α} (x : Except Exc α) : EvalM α := fun w => (x, w)

instance : Monad EvalM where
  pure := EvalM.pure
  bind := EvalM.bind

/-- Parameters fixed during an evaluation: the regular expression compiler (`re.compile`,
with `bool(compiled.match(·))` as its result), the attribute value class registry and
whether debug logging is enabled. -/
structure Env where
  re : String → Except Exc (String → Bool)
  classMap : List (String × AVClass)
  debug : Bool

/-! ## Functions -/

/-- XACML functions implemented by the package, with their TYPE, and custom functions.
Models: ndg/xacml/core/functions/v1/*.py, ndg/xacml/core/functions/v2/*.py.
Simplification: custom functions are pure in the world. -/
inductive Func where
  | equal (t : AVClass)
  | matchFn (t : AVClass)
  | bag (t : AVClass)
  | oneAndOnly (t : AVClass)
  | atLeastOneMemberOf (t : AVClass)
  | and
  | not
  | round
  | regexpMatch (t : AVClass)
  | concatenate (t : AVClass)
  | custom (f : List PyVal → Except Exc PyVal)

/-- `EqualBase.evaluate`. Models: ndg/xacml/core/functions/v1/equal.py:25-47. -/
def equalFn (t : AVClass) : List PyVal → Except Exc PyVal
  | [a, b] =>
    match a, b with
    | .av v, .av w =>
      if v.isInst t then
        if w.isInst t then .ok (.native (.bool (optNativeEq v.value w.value)))
        else .error .xacmlContextTypeError
      else .error .xacmlContextTypeError
    | _, _ => .error .xacmlContextTypeError
  | _ => .error .typeError

/-- `MatchBase.evaluate`. Models: ndg/xacml/core/functions/v1/match.py:26-48.
(`Rfc822NameMatch`, match.py:54-80, is never returned by the factory and is not modelled.) -/
def matchFnEval (t : AVClass) : List PyVal → Except Exc PyVal
  | [a, b] =>
    match a, b with
    | .av v, .av w =>
      if v.isInst t then
        if w.isInst t then
          match v.pyEq w with
          | .ok r => .ok (.native (.bool r))
          | .error e => .error e
        else .error .xacmlContextTypeError
      else .error .xacmlContextTypeError
    | _, _ => .error .xacmlContextTypeError
  | _ => .error .typeError

/-- `BagBase.evaluate`. Models: ndg/xacml/core/functions/v1/bag.py:35-50. -/
def bagFn (t : AVClass) (args : List PyVal) : Except Exc PyVal :=
  match checkItems (some t) args with
  | .ok vs => .ok (.bag { elementType := some t, items := vs })
  | .error e => .error e

/-- Comparison `bag.elementType == TYPE` of class objects. -/
def sameType (et : Option AVClass) (t : AVClass) : Bool :=
  match et with
  | some c => c.uid == t.uid
  | none => false

/-- `OneAndOnlyBase.evaluate`. Models: ndg/xacml/core/functions/v1/one_and_only.py:27-49. -/
def oneAndOnlyFn (t : AVClass) : List PyVal → Except Exc PyVal
  | [.bag b] =>
    if sameType b.elementType t then
      match b.items with
      | [v] => .ok (.av v)
      | _ => .error .xacmlContextError
    else .error .xacmlContextError
  | [_] => .error .xacmlContextError
  | _ => .error .typeError

/-- `AtLeastOneMemberOfBase.evaluate`: the two Python sets of values intersect.
Models: ndg/xacml/core/functions/v1/at_least_one_member_of.py:28-60. -/
def atLeastOneMemberOfFn (t : AVClass) : List PyVal → Except Exc PyVal
  | [.bag a, .bag b] =>
    if sameType a.elementType t then
      if sameType b.elementType t then
        .ok (.native (.bool (a.items.any fun v => b.items.any fun w => optNativeEq v.value w.value)))
      else .error .xacmlContextTypeError
    else .error .xacmlContextTypeError
  | [_, _] => .error .xacmlContextTypeError
  | _ => .error .typeError

/-- `type(arg) == bool`. -/
def PyVal.isBool : PyVal → Bool
  | .native (.bool _) => true
  | _ => false

/-- `And.evaluate`: every argument is type-checked before any is inspected.
Models: ndg/xacml/core/functions/v1/and.py:27-50. -/
def andFn (args : List PyVal) : Except Exc PyVal :=
  if args.all PyVal.isBool then .ok (.native (.bool (args.all PyVal.truthy)))
  else .error .xacmlContextTypeError

/-- `Not.evaluate(attribute=None)`. Models: ndg/xacml/core/functions/v1/not.py:27-50. -/
def notFn : List PyVal → Except Exc PyVal
  | [.native (.bool b)] => .ok (.native (.bool (!b)))
  | [_] => .error .xacmlContextTypeError
  | [] => .error .xacmlContextTypeError
  | _ => .error .typeError

/-- Python 3 `round(x)` of a finite float: nearest integer, ties to even. -/
def roundHalfEven (q : Rat) : Int :=
  let f := q.floor
  let r := q - (f : Rat)
  if r < 1/2 then f
  else if 1/2 < r then f + 1
  else if f % 2 = 0 then f else f + 1

/-- `Round.evaluate`: Python `round`; only a TypeError is converted.
Models: ndg/xacml/core/functions/v1/round.py:24-35.
Simplification: an opaque object is taken not to define `__round__`. -/
def roundFn : List PyVal → Except Exc PyVal
  | [.native (.int i)] => .ok (.native (.int i))
  | [.native (.bool b)] => .ok (.native (.int (if b then 1 else 0)))
  | [.native (.float .nan)] => .error .valueError
  | [.native (.float (.inf _))] => .error .overflowError
  | [.native (.float (.fin q))] => .ok (.native (.int (roundHalfEven q)))
  | [_] => .error .xacmlContextTypeError
  | _ => .error .typeError

/-- Joining attribute values' strings; a value that is not a string raises TypeError.
Models: ndg/xacml/core/functions/v2/concatenate.py:65. -/
def joinStrs : List AttrVal → Except Exc String
  | [] => .ok ""
  | v :: vs =>
    match v.value with
    | some (.str s) =>
      match joinStrs vs with
      | .ok r => .ok (s ++ r)
      | .error e => .error e
    | _ => .error .typeError

/-- The items of `xs`, all attribute values of class `c`, else XacmlContextTypeError.
Models: ndg/xacml/core/functions/v2/concatenate.py:57-63. -/
def checkRest (c : AVClass) : List PyVal → Except Exc (List AttrVal)
  | [] => .ok []
  | x :: xs =>
    match x with
    | .av v =>
      if v.isInst c then
        match checkRest c xs with
        | .ok vs => .ok (v :: vs)
        | .error e => .error e
      else .error .xacmlContextTypeError
    | _ => .error .xacmlContextTypeError

/-- `ConcatenateBase.evaluate`. Models: ndg/xacml/core/functions/v2/concatenate.py:31-67. -/
def concatenateFn (t : AVClass) : List PyVal → Except Exc PyVal
  | a :: b :: rest =>
    match a with
    | .av v =>
      if v.isInst t then
        match checkRest stringClass (b :: rest) with
        | .error e => .error e
        | .ok vs =>
          match joinStrs (v :: vs) with
          | .error e => .error e
          | .ok s =>
            match t.newWith (.str s) with
            | .ok r => .ok (.av r)
            | .error e => .error e
      else .error .xacmlContextTypeError
    | _ => .error .xacmlContextTypeError
  | _ => .error .xacmlContextError

/-- `compiled_regexes.get(pat.value)` or compile and store.
Models: ndg/xacml/core/functions/v1/regexp_match.py:64-67. -/
def getRegex (env : Env) (pat : String) : EvalM (String → Bool) := fun w =>
  match w.cache.lookup pat with
  | some m => (.ok m, w)
  | none =>
    match env.re pat with
    | .ok m => (.ok m, { w with cache := (pat, m) :: w.cache })
    | .error e => (.error e, w)

/-- `RegexpMatchBase.evaluate`: the pattern is compiled (and cached) before the input is used;
a pattern or input value that is not a string makes `re` raise TypeError.
Models: ndg/xacml/core/functions/v1/regexp_match.py:46-68. -/
def regexpMatchFn (env : Env) (t : AVClass) (args : List PyVal) : EvalM PyVal :=
  match args with
  | [a, b] =>
    match a, b with
    | .av p, .av i =>
      if p.isInst t then
        if i.isInst t then
          match p.value with
          | some (.str pat) => do
            let m ← getRegex env pat
            match i.value with
            | some (.str s) => pure (.native (.bool (m s)))
            | _ => EvalM.throw .typeError
          | _ => EvalM.throw .typeError
        else EvalM.throw .typeError
      else EvalM.throw .typeError
    | _, _ => EvalM.throw .typeError
  | _ => EvalM.throw .typeError

/-- `function.evaluate(*inputs)`. -/
def Func.evaluate (env : Env) : Func → List PyVal → EvalM PyVal
  | .equal t, args => EvalM.ofExcept (equalFn t args)
  | .matchFn t, args => EvalM.ofExcept (matchFnEval t args)
  | .bag t, args => EvalM.ofExcept (bagFn t args)
  | .oneAndOnly t, args => EvalM.ofExcept (oneAndOnlyFn t args)
  | .atLeastOneMemberOf t, args => EvalM.ofExcept (atLeastOneMemberOfFn t args)
  | .and, args => EvalM.ofExcept (andFn args)
  | .not, args => EvalM.ofExcept (notFn args)
  | .round, args => EvalM.ofExcept (roundFn args)
  | .regexpMatch t, args => regexpMatchFn env t args
  | .concatenate t, args => EvalM.ofExcept (concatenateFn t args)
  | .custom f, args => EvalM.ofExcept (f args)

/-! ## Designators and selectors -/

/-- The lambda `_attributeMatch`. Models: ndg/xacml/core/attributedesignator.py:169-176
(and identically 245-252, 299-306, 353-360). -/
def attributeMatch (d : Designator) (a : Attribute) : Bool :=
  a.attributeId == d.attributeId && a.dataType == d.dataType &&
    (match d.issuer with
     | some i => a.issuer == some i
     | none => true)

/-- The inner loop over the attributes of one subject/resource/action/environment.
Models: ndg/xacml/core/attributedesignator.py:179-182 (255-258, 308-311, 362-365). -/
def collectAttrs (d : Designator) : Bag → List Attribute → Except Exc Bag
  | b, [] => .ok b
  | b, a :: as =>
    if attributeMatch d a then
      match b.extend { oneShot := false,
                       items := (a.values.filter fun v => some v.dataType == d.dataType).map .av } with
      | .ok b' => collectAttrs d b' as
      | .error e => .error e
    else collectAttrs d b as

/-- `[v for v in attributeValues if v not in bag]`.
Models: ndg/xacml/core/attributedesignator.py:199-201. -/
def weedOut (bag : List AttrVal) : List PyVal → Except Exc (List PyVal)
  | [] => .ok []
  | x :: xs =>
    match memBag x bag with
    | .error e => .error e
    | .ok true => weedOut bag xs
    | .ok false =>
      match weedOut bag xs with
      | .ok ys => .ok (x :: ys)
      | .error e => .error e

/-- Adding the PIP answer to the bag. Models: ndg/xacml/core/attributedesignator.py:193-205. -/
def addPip (b : Bag) : PipAnswer → Except Exc Bag
  | .none => .ok b
  | .iter it =>
    if b.items.isEmpty then b.extend it
    else
      match weedOut b.items it.items with
      | .ok ys => b.extend { oneShot := false, items := ys }
      | .error e => .error e

/-- `context.ctxHandler.pipQuery(context, self)`; the query is logged.
Models: ndg/xacml/core/attributedesignator.py:192. -/
def pipQuery (pip : Pip) (q : PipQuery) : EvalM PipAnswer := fun w =>
  (pip w.pipLog q, { w with pipLog := w.pipLog ++ [q] })

/-- The loop over subjects. Models: ndg/xacml/core/attributedesignator.py:178-205. -/
def collectSubjects (r : Request) (d : Designator) : Bag → List CtxSubject → EvalM Bag
  | b, [] => pure b
  | b, s :: ss => do
    let b ← EvalM.ofExcept (collectAttrs d b s.attributes)
    match r.ctxHandler with
    | none => collectSubjects r d b ss
    | some pip => do
      let ans ← pipQuery pip { ctx := r.data, designator := d }
      let b ← EvalM.ofExcept (addPip b ans)
      collectSubjects r d b ss

/-- The loop over resources. Models: ndg/xacml/core/attributedesignator.py:254-258. -/
def collectResources (d : Designator) : Bag → List CtxResource → Except Exc Bag
  | b, [] => .ok b
  | b, s :: ss =>
    match collectAttrs d b s.attributes with
    | .ok b' => collectResources d b' ss
    | .error e => .error e

/-- The final `mustBePresent` check.
Models: ndg/xacml/core/attributedesignator.py:207-216 (260-269, 313-322, 367-376). -/
def checkPresent (mustBePresent : Bool) (b : Bag) : Except Exc PyVal :=
  if b.items.isEmpty && mustBePresent then .error .missingAttributeError else .ok (.bag b)

/-- `<Category>AttributeDesignator.evaluate(context)`.
Models: ndg/xacml/core/attributedesignator.py:149-216, 227-269, 280-322, 333-376. -/
def designatorEval (env : Env) (cat : Category) (d : Designator) (ctx : Ctx) : EvalM PyVal :=
  match ctx with
  | none => EvalM.throw .typeError
  | some r =>
    let bag : Bag := { elementType := classLookup env.classMap d.dataType, items := [] }
    match cat with
    | .subject => do
      let b ← collectSubjects r d bag r.data.subjects
      EvalM.ofExcept (checkPresent d.mustBePresent b)
    | .resource => do
      let b ← EvalM.ofExcept (collectResources d bag r.data.resources)
      EvalM.ofExcept (checkPresent d.mustBePresent b)
    | .action =>
      match r.data.action with
      | none => EvalM.throw .attributeError
      | some attrs => do
        let b ← EvalM.ofExcept (collectAttrs d bag attrs)
        EvalM.ofExcept (checkPresent d.mustBePresent b)
    | .environment =>
      match r.data.environment with
      | none => EvalM.throw .attributeError
      | some attrs => do
        let b ← EvalM.ofExcept (collectAttrs d bag attrs)
        EvalM.ofExcept (checkPresent d.mustBePresent b)

/-- The loop building the selector's bag.
Models: ndg/xacml/core/attributeselector.py:137-141. -/
def selectValues (c : AVClass) (dataType : String) : List (Option Native) → Except Exc (List AttrVal)
  | [] => .ok []
  | x :: xs =>
    match ({ c.new with dataType := dataType } : AttrVal).setValue x with
    | .error e => .error e
    | .ok v =>
      match selectValues c dataType xs with
      | .ok vs => .ok (v :: vs)
      | .error e => .error e

/-- `AttributeSelector.evaluate(context)`.
Models: ndg/xacml/core/attributeselector.py:109-148.
Simplification: XPath selector objects are taken to be truthy (line 123). -/
def selectorEval (env : Env) (s : Selector) (ctx : Ctx) : Except Exc PyVal :=
  match ctx with
  | none => .error .typeError
  | some r =>
    match r.attributeSelector with
    | none => .error .valueError
    | some xp =>
      match s.dataType with
      | none => .error .xmlParseError
      | some dt =>
        match classLookup env.classMap (some dt) with
        | none => .error .xmlParseError
        | some c =>
          match xp s.path with
          | .error e => .error e
          | .ok texts =>
            match selectValues c dt texts with
            | .error e => .error e
            | .ok vs => checkPresent s.mustBePresent { elementType := some c, items := vs }

/-! ## Expressions -/

/-- Expressions that can occur in a condition. `apply none` is an Apply whose function was
never set. Models: ndg/xacml/core/expression.py, apply.py, attributevalue.py,
attributedesignator.py, attributeselector.py.
Simplification: user-defined Expression subclasses are not represented. -/
inductive Expr where
  | value (v : AttrVal)
  | designator (cat : Category) (d : Designator)
  | selector (s : Selector)
  | apply (fn : Option Func) (args : List Expr)

mutual
/-- `expression.evaluate(context)`.
Models: ndg/xacml/core/attributevalue.py:187-196, attributedesignator.py, attributeselector.py,
ndg/xacml/core/apply.py:184-204 (calling `.evaluate` on a `None` function raises AttributeError). -/
def Expr.evaluate (env : Env) (ctx : Ctx) : Expr → EvalM PyVal
  | .value v => pure (.av v)
  | .designator cat d => designatorEval env cat d ctx
  | .selector s => EvalM.ofExcept (selectorEval env s ctx)
  | .apply fn args => do
    let inputs ← Expr.evaluateList env ctx args
    match fn with
    | some f => f.evaluate env inputs
    | none => EvalM.throw .attributeError
/-- The loop marshalling inputs. Models: ndg/xacml/core/apply.py:195-198. -/
def Expr.evaluateList (env : Env) (ctx : Ctx) : List Expr → EvalM (List PyVal)
  | [] => pure []
  | e :: es => do
    let v ← Expr.evaluate env ctx e
    let vs ← Expr.evaluateList env ctx es
    pure (v :: vs)
end

end Xacml
