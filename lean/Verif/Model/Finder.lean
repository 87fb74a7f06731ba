import Verif.Model.Readers

/-!
# Policy sets, policy finders, loading policies, the PDP's policy
-/
namespace Xacml

/-! ## Policy finders -/

/-- State of a policy finder: its two dicts and, for the URL finder, the URLs fetched so far (the last
one first). Models: ndg/xacml/finder/policyfinderbase.py:25-27.
Simplification: the reader recorded by `setReader` is always `PolicyBaseReader`. -/
structure Finder where
  policies : List (Option String × PolicyNode) := []
  policySets : List (Option String × PolicyNode) := []
  fetched : List String := []

/-- Computations that use a finder and may raise; the finder's state survives exceptions. -/
def FM (α : Type) := Finder → Except Exc α × Finder

def FM.pure {α} (a : α) : FM α := fun s => (.ok a, s)
def FM.throw {α} (e : Exc) : FM α := fun s => (.error e, s)
def FM.bind {α β} (m : FM α) (f : α → FM β) : FM β := fun s =>
  match m s with
  | (.ok a, s') => f a s'
  | (.error e, s') => (.error e, s')

instance : Monad FM where
  pure := FM.pure
  bind := FM.bind

/-- A computation that does not use the finder. -/
def FM.lift {α} : Except Exc α → FM α
  | .ok a => FM.pure a
  | .error e => FM.throw e

/-- `policyId` of a policy or `policySetId` of a policy set. -/
def PolicyNode.ident : PolicyNode → Option String
  | .policy h _ => h.ident
  | .policySet h _ => h.ident

/-- `addPolicyReference(policy)`; a policy set has no attribute `policyId`.
Models: ndg/xacml/finder/policyfinderbase.py:63-72. -/
def addPolicyReference (p : PolicyNode) : FM Unit := fun s =>
  match p with
  | .policy h _ =>
    if (dictGet s.policies h.ident).isSome then (.error .xmlParseError, s)
    else (.ok (), { s with policies := dictSet s.policies h.ident p })
  | .policySet _ _ => (.error .attributeError, s)

/-- `addPolicySetReference(policySet)`; a policy has no attribute `policySetId`.
Models: ndg/xacml/finder/policyfinderbase.py:74-83. -/
def addPolicySetReference (p : PolicyNode) : FM Unit := fun s =>
  match p with
  | .policySet h _ =>
    if (dictGet s.policySets h.ident).isSome then (.error .xmlParseError, s)
    else (.ok (), { s with policySets := dictSet s.policySets h.ident p })
  | .policy _ _ => (.error .attributeError, s)

/-- `findPolicy` and `findPolicySet` of a finder; the reference is the text of an element and may be
`None`. -/
structure Resolver where
  findPolicy : Option String → FM PolicyNode
  findPolicySet : Option String → FM PolicyNode

/-! ## Reading policy sets -/

/-- `PolicyReader.processElement` with common data holding a finder.
Models: ndg/xacml/parsers/etree/policyreader.py:60-153. -/
def readPolicyReg (env : RdEnv) (n : XNode) : FM PolicyNode := do
  let p ← FM.lift (readPolicy env n)
  addPolicyReference p
  pure p

mutual
/-- `PolicySetReader.processElement`.
Models: ndg/xacml/parsers/etree/policysetreader.py:46-150. -/
def readPolicySet (env : RdEnv) (res : Resolver) : XNode → FM PolicyNode
  | .other => FM.throw .attributeError
  | .elem tag attrib text children => do
    FM.lift (expectName (.elem tag attrib text children) "PolicySet")
    let pid ← FM.lift (requiredAttr (.elem tag attrib text children) "PolicySetId")
    let alg ← FM.lift (requiredAttr (.elem tag attrib text children) "PolicyCombiningAlgId")
    let h ← FM.lift (loadAlg policyAlgMap { ident := some pid, alg := none, target := none } alg)
    let p ← readSetChildren env res
      ({ h with version := readVersion (.elem tag attrib text children) }, []) children
    addPolicySetReference (.policySet p.1 p.2)
    pure (.policySet p.1 p.2)
/-- The loop over the children of PolicySet. The element PolicySetDefaults is handed to the reader of
PolicyDefaults, which rejects its name. The type check of the policies list cannot fail: finders return
policies and policy sets. Models: ndg/xacml/parsers/etree/policysetreader.py:87-145, 152-172. -/
def readSetChildren (env : RdEnv) (res : Resolver) (p : Header × List PolicyNode) :
    List XNode → FM (Header × List PolicyNode)
  | [] => pure p
  | .other :: rest => readSetChildren env res p rest
  | .elem tag a t cs :: rest => do
    let p' ← (
      if localPart tag = "Description" then
        match t with
        | some t => pure ({ p.1 with description := some (pyStrip t) }, p.2)
        | none => pure p
      else if localPart tag = "PolicySetDefaults" then do
        let v ← FM.lift (readPolicyDefaults (.elem tag a t cs))
        pure ({ p.1 with xpathVersion := some v }, p.2)
      else if localPart tag = "Target" then do
        let t ← FM.lift (readTarget env (.elem tag a t cs))
        pure ({ p.1 with target := some t }, p.2)
      else if localPart tag = "CombinerParameters" then FM.throw .notImplementedError
      else if localPart tag = "PolicyCombinerParameters" then FM.throw .notImplementedError
      else if localPart tag = "PolicySetCombinerParameters" then FM.throw .notImplementedError
      else if localPart tag = "VariableDefinition" then FM.throw .importError
      else if localPart tag = "Policy" then do
        let q ← readPolicyReg env (.elem tag a t cs)
        pure (p.1, p.2 ++ [q])
      else if localPart tag = "PolicyIdReference" then do
        let q ← res.findPolicy t
        pure (p.1, p.2 ++ [q])
      else if localPart tag = "PolicySet" then do
        let q ← readPolicySet env res (.elem tag a t cs)
        pure (p.1, p.2 ++ [q])
      else if localPart tag = "PolicySetIdReference" then do
        let q ← res.findPolicySet t
        pure (p.1, p.2 ++ [q])
      else if localPart tag = "Obligations" then FM.throw .notImplementedError
      else FM.throw .xmlParseError)
    readSetChildren env res p' rest
end

/-- `PolicyBaseReader` applied to the root element of a document.
Models: ndg/xacml/parsers/etree/policybasereader.py:30-55. -/
def readRoot (env : RdEnv) (res : Resolver) (n : XNode) : FM PolicyNode :=
  if n.name = "Policy" then readPolicyReg env n
  else if n.name = "PolicySet" then readPolicySet env res n
  else FM.throw .xmlParseError

/-! ## The local finder -/

/-- `LocalPolicyFinder`. Models: ndg/xacml/finder/localpolicyfinder.py:20-48. -/
def localResolver : Resolver where
  findPolicy := fun ref s =>
    match dictGet s.policies ref with
    | some p => (.ok p, s)
    | none => (.error .xmlParseError, s)
  findPolicySet := fun ref s =>
    match dictGet s.policySets ref with
    | some p => (.ok p, s)
    | none => (.error .xmlParseError, s)

/-! ## The URL finder -/

/-- `os.path.join(a, b)` on POSIX (Python standard library). -/
def pathJoin (a b : List Char) : List Char :=
  if ['/'].isPrefixOf b then b
  else if a.isEmpty || ['/'].isSuffixOf a then a ++ b
  else a ++ '/' :: b

/-- `_FILE_SCHEME`. Models: ndg/xacml/finder/urlpolicyfinder.py:25. -/
def fileScheme : List Char := chars% "file://"

/-- `_NON_FILE_SCHEMES`. Models: ndg/xacml/finder/urlpolicyfinder.py:27. -/
def nonFileSchemes : List (List Char) := [chars% "ftp://", chars% "http://", chars% "https://"]

/-- `_RELATIVE_PATH_PREFIX` on POSIX. Models: ndg/xacml/finder/urlpolicyfinder.py:33. -/
def relativePrefix : List Char := chars% "./"

/-- `os.path.join(self.basePath, path)`: a base path of `None` raises TypeError. -/
def joinBase (base : Option (List Char)) (path : List Char) : Except Exc (List Char) :=
  match base with
  | some b => .ok (pathJoin b path)
  | none => .error .typeError

/-- `_makeUrlFromReference(reference)` for a string.
Models: ndg/xacml/finder/urlpolicyfinder.py:105-140. -/
def makeUrl (base : Option (List Char)) (ref : List Char) : Except Exc (List Char) :=
  if fileScheme.isPrefixOf ref then
    let path := ref.drop fileScheme.length
    if relativePrefix.isPrefixOf path then
      (joinBase base (path.drop relativePrefix.length)).map (fileScheme ++ ·)
    else if !['/'].isPrefixOf path then (joinBase base path).map (fileScheme ++ ·)
    else .ok ref
  else if nonFileSchemes.any (·.isPrefixOf ref) then .ok ref
  else if ['/'].isPrefixOf ref then .ok (fileScheme ++ ref)
  else (joinBase base ref).map (fileScheme ++ ·)

/-- `_makeUrlFromReference(reference)` for the text of an element; `None` has no `startswith`. -/
def makeUrlOpt (base : Option String) : Option String → Except Exc String
  | none => .error .attributeError
  | some ref => (makeUrl (base.map String.toList) ref.toList).map String.ofList

/-- Fetching and parsing the document at a URL; the outcome may depend on the URLs fetched before.
Models: ndg/xacml/utils/urlfetcher.py:19-81 and the XML parser (outside the package). -/
abbrev Fetch := List String → String → Except Exc XNode

/-- `urlfetcher.fetch_stream_from_url(url)` followed by parsing the stream. -/
def fetchDoc (fetch : Fetch) (url : String) : FM XNode := fun s =>
  (fetch s.fetched url, { s with fetched := url :: s.fetched })

/-- `_findPolicyFromReference`, given the reader of documents.
Models: ndg/xacml/finder/urlpolicyfinder.py:88-103, ndg/xacml/core/policybase.py:81-97. -/
def fromReference (base : Option String) (fetch : Fetch) (read : XNode → FM PolicyNode)
    (ref : Option String) : FM PolicyNode := do
  let url ← FM.lift (makeUrlOpt base ref)
  let doc ← fetchDoc fetch url
  read doc

/-- `UrlPolicyFinder`. The number bounds the nesting of documents being read: beyond the interpreter's
recursion limit Python raises RecursionError. Simplification: the limit counts nested documents, not
frames. Models: ndg/xacml/finder/urlpolicyfinder.py:43-103. -/
def urlResolver (env : RdEnv) (base : Option String) (fetch : Fetch) : Nat → Resolver
  | 0 => { findPolicy := fun _ => FM.throw .recursionError
           findPolicySet := fun _ => FM.throw .recursionError }
  | depth + 1 =>
    { findPolicy := fun ref s =>
        match dictGet s.policies ref with
        | some p => (.ok p, s)
        | none =>
          match fromReference base fetch (readRoot env (urlResolver env base fetch depth)) ref s with
          | (.error e, s') => (.error e, s')
          | (.ok _, s') =>
            match dictGet s'.policies ref with
            | some p => (.ok p, s')
            | none => (.error .xmlParseError, s')
      findPolicySet := fun ref s =>
        match dictGet s.policySets ref with
        | some p => (.ok p, s)
        | none =>
          match fromReference base fetch (readRoot env (urlResolver env base fetch depth)) ref s with
          | (.error e, s') => (.error e, s')
          | (.ok _, s') =>
            match dictGet s'.policySets ref with
            | some p => (.ok p, s')
            | none => (.error .xmlParseError, s') }

/-! ## Loading policies -/

/-- `Policy.fromSource(source, ReaderFactory)` once the source is parsed: no finder is used.
Models: ndg/xacml/core/policy.py:175-200. -/
def policyFromSource (env : RdEnv) (n : XNode) : Except Exc PolicyNode := readPolicy env n

/-- `PolicySet.fromSource(source, ReaderFactory)`: `parse` is called without its argument `common`.
Models: ndg/xacml/core/policyset.py:133-158, ndg/xacml/parsers/__init__.py:43-52. -/
def policySetFromSource (_env : RdEnv) (_n : XNode) : Except Exc PolicyNode := .error .typeError

/-- A policy finder as passed by the caller, with the methods it resolves references with; `none` is an
object of another type. -/
abbrev FinderArg := Option Resolver

/-- `PolicyBase.fromSource(source, ReaderFactory, finder)`; `src` is the outcome of parsing the source.
The type of the finder is checked before the source is parsed.
Models: ndg/xacml/core/policybase.py:46-79. -/
def fromSource (env : RdEnv) (finder : FinderArg) (src : Except Exc XNode) : FM PolicyNode :=
  match finder with
  | none => FM.throw .typeError
  | some res => do
    let n ← FM.lift src
    readRoot env res n

/-! ## The PDP's policy -/

/-- The argument of the setter of `PDP.policy`: a policy or policy set, or any other object. -/
inductive PolicyArg where
  | policy (p : PolicyNode)
  | other

/-- `pdp.policy = value`. Models: ndg/xacml/core/context/pdp.py:80-90. -/
def pdpSetPolicy (pdp : Option PolicyNode) : PolicyArg → Except Exc Unit × Option PolicyNode
  | .policy p => (.ok (), some p)
  | .other => (.error .typeError, pdp)

/-- `pdp.setPolicyFromSource(source, readerFactory, finder)`.
Models: ndg/xacml/core/context/pdp.py:59-70. -/
def pdpSetPolicyFromSource (env : RdEnv) (finder : FinderArg) (src : Except Exc XNode)
    (pdp : Option PolicyNode) (s : Finder) : Except Exc Unit × Option PolicyNode × Finder :=
  match fromSource env finder src s with
  | (.error e, s') => (.error e, pdp, s')
  | (.ok p, s') => let r := pdpSetPolicy pdp (.policy p); (r.1, r.2, s')

/-- The `source` argument of `PDP.fromPolicySource`: a string, with the base path if it names an
existing file, or an object of another type (file object, XML element). -/
inductive SourceArg where
  | str (dirname : Option String)
  | object

/-- `getDefaultPolicyFinder(source)`: the base path. For other objects the name `file`, which Python 3
does not define, is evaluated. Models: ndg/xacml/finder/defaultfinder.py:17-37. -/
def defaultBasePath : SourceArg → Except Exc (Option String)
  | .str d => .ok d
  | .object => .error .nameError

/-- `PDP.fromPolicySource(source, readerFactory)` without a finder; `depth` is the recursion limit.
Models: ndg/xacml/core/context/pdp.py:40-57. -/
def pdpFromPolicySource (env : RdEnv) (fetch : Fetch) (depth : Nat) (source : SourceArg)
    (src : Except Exc XNode) : Except Exc (Option PolicyNode) :=
  match defaultBasePath source with
  | .error e => .error e
  | .ok base =>
    match pdpSetPolicyFromSource env (some (urlResolver env base fetch depth)) src none {} with
    | (.error e, _, _) => .error e
    | (.ok (), pdp, _) => .ok pdp

/-- What a program does to a PDP: it assigns to `policy`, or loads a policy with one of its finders. -/
inductive LoadEvent where
  | assign (a : PolicyArg)
  | load (finder : Nat) (res : FinderArg) (src : Except Exc XNode)

/-- The PDP's policy and the state of the program's finders. -/
structure LoadState where
  policy : Option PolicyNode := none
  finders : Nat → Finder := fun _ => {}

/-- One event. Models: ndg/xacml/core/context/pdp.py:59-90. -/
def LoadState.step (env : RdEnv) (st : LoadState) : LoadEvent → Except Exc Unit × LoadState
  | .assign a => let r := pdpSetPolicy st.policy a; (r.1, { st with policy := r.2 })
  | .load f res src =>
    let r := pdpSetPolicyFromSource env res src st.policy (st.finders f)
    (r.1, { policy := r.2.1, finders := fun g => if g = f then r.2.2 else st.finders g })

/-- A history of events, exceptions caught by the program. -/
def LoadState.run (env : RdEnv) (st : LoadState) (es : List LoadEvent) : LoadState :=
  es.foldl (fun st e => (st.step env e).2) st

end Xacml
