import Verif.Lemmas.ExtensionReading
import Verif.Lemmas.ExtensionEval
import Verif.Lemmas.Override
import Verif.Props.EndToEnd

/-!
# C95, C96: extending the package at run time
-/
namespace Xacml
open Spec

/-! ## C95: additions do not disturb what worked before -/

/-- C95: after any history of calls, calls that only add leave everything that could be used as it is: classes, readers
and functions. -/
theorem C95_registries (ext : Importer) (customs : Nat → List PyVal → Except Exc PyVal) (before added : List ExtEvent)
    (ha : AddsOnly ext (Package.initial.run ext before) added) :
    Enlarges ((Package.initial.run ext before).readers ext customs)
      ((Package.initial.run ext (before ++ added)).readers ext customs) := by
  rw [package_run_append]
  exact addsOnly_enlarges ha (run_known ext before _ _ (by decide +kernel))

/-- C95: policies that could be read are read as before. -/
theorem C95_policy (rd rd' : RdEnv) (he : Enlarges rd rd') (n : XNode) (p : PolicyNode)
    (h : policyFromSource rd n = .ok p) : policyFromSource rd' n = .ok p :=
  readPolicy_mono he h

/-- C95: so are policies and policy sets loaded with the URL finder, with everything they refer to; the same documents
are fetched and the finder knows the same policies afterwards. -/
theorem C95_load (rd rd' : RdEnv) (he : Enlarges rd rd') (base : Option String) (fetch : Fetch) (limit : Nat)
    (src : Except Exc XNode) (s s' : Finder) (p : PolicyNode)
    (h : fromSource rd (some (urlResolver rd base fetch limit)) src s = (.ok p, s')) :
    fromSource rd' (some (urlResolver rd' base fetch limit)) src s = (.ok p, s') := by
  have hu := urlResolver_mono he base fetch limit
  exact ((FLe.refl (FM.lift src)).bind fun n => readRoot_mono he hu.1 hu.2 n) s p s' h

/-- C95: and with the local finder. -/
theorem C95_load_local (rd rd' : RdEnv) (he : Enlarges rd rd') (src : Except Exc XNode) (s s' : Finder) (p : PolicyNode)
    (h : fromSource rd (some localResolver) src s = (.ok p, s')) :
    fromSource rd' (some localResolver) src s = (.ok p, s') :=
  ((FLe.refl (FM.lift src)).bind fun n => readRoot_mono he (fun _ => .refl _) (fun _ => .refl _) n) s p s' h

/-- C95: requests that could be read are read as before, with any of the XML libraries. -/
theorem C95_request (cm cm' : List (String × AVClass)) (hk : Keeps (fun i => cm.lookup i) (fun i => cm'.lookup i))
    (lib : Etree) (n : XNode) (r : RequestX) (h : readRequest lib cm n = .ok r) : readRequest lib cm' n = .ok r :=
  readRequest_mono hk lib h

/-- C95: a policy gives the same response to every request, with the same effects, if the data types its designators
and selectors ask for were known before. -/
theorem C95_decision (env : Env) (cm' : List (String × AVClass))
    (hk : Keeps (fun i => env.classMap.lookup i) (fun i => cm'.lookup i)) (p : PolicyNode)
    (ht : TypesKnown env.classMap p) (ctx : Ctx) (w : World) :
    pdpEvaluate { env with classMap := cm' } (some p) ctx w = pdpEvaluate env (some p) ctx w := by
  rw [pdpEvaluate_classes hk p ht ctx]

/-- Loading a policy into a PDP. -/
theorem pdpFromPolicySource_mono {rd rd' : RdEnv} (he : Enlarges rd rd') {fetch : Fetch} {limit : Nat}
    {source : SourceArg} {src : Except Exc XNode} {o : Option PolicyNode}
    (h : pdpFromPolicySource rd fetch limit source src = .ok o) :
    pdpFromPolicySource rd' fetch limit source src = .ok o := by
  unfold pdpFromPolicySource at h ⊢
  cases hb : defaultBasePath source with
  | error e => rw [hb] at h; cases h
  | ok base =>
    rw [hb] at h
    simp only [pdpSetPolicyFromSource] at h ⊢
    rcases hr : fromSource rd (some (urlResolver rd base fetch limit)) src {} with ⟨r, s⟩
    rw [hr] at h
    cases r with
    | error e => cases h
    | ok p => rw [C95_load rd rd' he base fetch limit src {} s p hr]; exact h

/-- C95: a service that could be set up, and that answered a request document, gives the same answer after any additions,
if the data types in its policy were known. -/
theorem C95_service (ext : Importer) (customs : Nat → List PyVal → Except Exc PyVal) (before added : List ExtEvent)
    (ha : AddsOnly ext (Package.initial.run ext before) added) (fetch : Fetch) (limit : Nat) (source : SourceArg)
    (re : String → Except Exc (String → Bool)) (debug : Bool) (lib : Etree) (policy request : XNode) (w : World)
    (p : PolicyNode) (doc : XNode)
    (hp : pdpFromPolicySource ((Package.initial.run ext before).readers ext customs) fetch limit source (.ok policy) =
      .ok (some p))
    (ht : TypesKnown (Package.initial.run ext before).classMap p)
    (h : serve ((Package.initial.run ext before).readers ext customs) fetch limit source
      ((Package.initial.run ext before).env re debug) lib policy request w = .ok doc) :
    serve ((Package.initial.run ext (before ++ added)).readers ext customs) fetch limit source
      ((Package.initial.run ext (before ++ added)).env re debug) lib policy request w = .ok doc := by
  have he := C95_registries ext customs before added ha
  have hk : Keeps (fun i => (Package.initial.run ext before).classMap.lookup i)
      (fun i => (Package.initial.run ext (before ++ added)).classMap.lookup i) := he.classes
  unfold serve at h ⊢
  rw [hp] at h
  rw [pdpFromPolicySource_mono he hp]
  simp only [answerDocument, Bind.bind, EvalM.bind, EvalM.ofExcept] at h ⊢
  cases hx : readRequest lib ((Package.initial.run ext before).env re debug).classMap request with
  | error e => rw [hx] at h; cases h
  | ok x =>
    rw [hx] at h
    rw [C95_request _ ((Package.initial.run ext (before ++ added)).env re debug).classMap hk lib request x hx]
    simp only at h ⊢
    have hd : ∀ c, pdpEvaluate ((Package.initial.run ext (before ++ added)).env re debug) (some p) c w =
        pdpEvaluate ((Package.initial.run ext before).env re debug) (some p) c w := fun c =>
      C95_decision ((Package.initial.run ext before).env re debug) _ hk p ht c w
    rw [hd]
    exact h

/-! ## C96: replacing the class for a data type -/

/-- The families of functions whose only class is the one for their data type. (Regular expression functions and
`string-concatenate` use a class that is looked up when a module is imported, see `Package.importer`.) -/
def typedFamilies : List Family := [.equal, .matchFn, .bag, .oneAndOnly, .atLeastOneMemberOf]

private theorem retype_row {row} (hr : row ∈ implemented) {t : AVClass} (ht : row.2.2 = some t)
    (cm : List (String × AVClass)) :
    (stdResolution row.1).retype cm = .cls (.std row.2.1 (cm.lookup t.identifier)) := by
  have hl : implemented.lookup row.1 = some row.2 := by
    have hnd : ∀ r ∈ implementedL, implementedL.lookup r.1 = some r.2 := by decide +kernel
    rw [implemented_eq] at hr ⊢
    obtain ⟨r, hr', rfl⟩ := List.mem_map.mp hr
    rw [lookup_ofList]
    exact hnd r hr'
  unfold stdResolution
  rw [hl]
  obtain ⟨urn, fam, o⟩ := row
  simp only at ht
  subst ht
  rfl

private theorem row_ident {row} (hr : row ∈ implemented) {t : AVClass} (ht : row.2.2 = some t) :
    stdClassMap.lookup t.identifier = some t := by
  have h : ∀ r ∈ implementedL, ∀ t ∈ r.2.2, stdClassMap.lookup t.identifier = some t := by decide +kernel
  rw [implemented_eq] at hr
  obtain ⟨r, hr', rfl⟩ := List.mem_map.mp hr
  exact h r hr' t ht

private theorem unused_initial (ns : String) : FnUnused Package.initial.functions ns := ⟨rfl, rfl⟩

/-- C96, the part that holds: the functions for a data type that have not been looked up work on the class that is in
force for the data type: the one registered last with `overwrite`, if there is one. What is missing: see
`C96_violated_override`. -/
theorem C96_unused_partial (ext : Importer) (hx : NoOtherModules ext) (es : List ExtEvent)
    (row : String × Family × Option AVClass) (hr : row ∈ implemented) (_hf : row.2.1 ∈ typedFamilies) (t : AVClass)
    (ht : row.2.2 = some t) (hno : ∀ e ∈ es, ¬ LooksUp row.1 e) :
    ((Package.initial.run ext es).functions.get ((Package.initial.run ext es).importer ext) row.1).1 =
      .ok (.cls (.std row.2.1 (classAfter t.identifier (some t) es))) := by
  have hs : row.1 ∈ stdFunctionNames := (C35_implemented (fun _ _ => .error .keyError) row hr).1
  have hu := run_unused ext hs es hno _ (unused_initial row.1)
  rw [fmGet_eq]
  unfold fmOutcome
  rw [hu.1]
  simp only [hu.2]
  rw [resolveL_retype hx _ (allKnown_run ext es) _ hs, retype_row hr ht, classMap_run,
    show Package.initial.classMap.lookup t.identifier = some t from row_ident hr ht]

/-- C96, exactly: a function for a data type works on the class that was in force when the function was looked up for the
first time, whatever is registered, looked up or deleted later. -/
theorem C96_first_use (ext : Importer) (hx : NoOtherModules ext) (earlier later : List ExtEvent) (e : ExtEvent)
    (row : String × Family × Option AVClass) (hr : row ∈ implemented) (_hf : row.2.1 ∈ typedFamilies) (t : AVClass)
    (ht : row.2.2 = some t) (hno : ∀ e ∈ earlier, ¬ LooksUp row.1 e) (he : LooksUp row.1 e) :
    ((Package.initial.run ext (earlier ++ e :: later)).functions.get
      ((Package.initial.run ext (earlier ++ e :: later)).importer ext) row.1).1 =
      .ok (.cls (.std row.2.1 (classAfter t.identifier (some t) earlier))) := by
  have hs : row.1 ∈ stdFunctionNames := (C35_implemented (fun _ _ => .error .keyError) row hr).1
  have hu := run_unused ext hs earlier hno _ (unused_initial row.1)
  have hres : resolveL ((Package.initial.run ext earlier).importer ext) row.1.toList =
      .ok (.cls (.std row.2.1 (classAfter t.identifier (some t) earlier))) := by
    rw [resolveL_retype hx _ (allKnown_run ext earlier) _ hs, retype_row hr ht, classMap_run,
      show Package.initial.classMap.lookup t.identifier = some t from row_ident hr ht]
  have hb : FnBound (e.step ext (Package.initial.run ext earlier)).functions row.1
      (.cls (.std row.2.1 (classAfter t.identifier (some t) earlier))) := by
    cases e with
    | addClass i c o => exact he.elim
    | addReader i r => exact he.elim
    | function ev =>
      cases ev with
      | get n =>
        obtain rfl : n = row.1 := he
        show FnBound ((Package.initial.run ext earlier).functions.get _ row.1).2 _ _
        rw [(fmGet_spec _ _ _).2.1]
        exact load_unused hu hres (by simp)
      | loadCustom n a => exact he.elim
      | del n => exact he.elim
      | loadAllCore =>
        exact loadAll_unused stdFunctionNames (fun n hn => run_std_ok hx earlier hn) hs hu hres (by simp)
  rw [package_run_append]
  have : (Package.initial.run ext earlier).run ext (e :: later) =
      (e.step ext (Package.initial.run ext earlier)).run ext later := rfl
  rw [this, fmGet_eq]
  exact fnBound_outcome (run_bound ext hs later _ hb)

/-! Witnesses and non-vacuity. -/

section
open Samples
set_option maxRecDepth 20000

/-- No modules outside the package. -/
def noModules : Importer := fun _ => .error .importError

/-- A class for strings that is not derived from the package's, and one for another data type. -/
def otherString : AVClass := { uid := "MyString", identifier := xsd "string", native := .str, ancestors := [] }
def colourClass : AVClass := { uid := "Colour", identifier := "urn:example:colour", native := .str, ancestors := [] }

/-- What a program answers to the request of an administrator, after a history of calls. -/
def answerAfter (es : List ExtEvent) : Except Exc XNode :=
  serve ((Package.initial.run noModules es).readers noModules fun _ _ => .error .keyError) noFetch 10 (.str none)
    ((Package.initial.run noModules es).env sampleRe false) stdlib adminPolicy.stdTree
    (requestDoc "" [value "" [.text "admin"]]).stdTree w0

/-- A lookup of the function for comparing strings. -/
def looksUpEqual : ExtEvent := .function (.get "urn:oasis:names:tc:xacml:1.0:function:string-equal")

/-- C96 is violated: two programs make the same registrations; both replace the class for strings by one of their own. One
has used string-equal before, perhaps in another policy. Its policies compare with the old class from then on: the
request that the other one permits is Indeterminate. -/
theorem C96_violated_override :
    decisionsIn (answerAfter [.addClass (xsd "string") otherString true]) = some [some .permit] ∧
    decisionsIn (answerAfter [looksUpEqual, .addClass (xsd "string") otherString true]) = some [some .indeterminate] := by
  decide +kernel

/-- C96 is violated: deleting the entry for the function does not help, as its factory is kept. -/
theorem C96_violated_delete :
    decisionsIn (answerAfter [looksUpEqual, .addClass (xsd "string") otherString true,
      .function (.del "urn:oasis:names:tc:xacml:1.0:function:string-equal")]) = some [some .indeterminate] := by
  decide +kernel

/-- A program registers a new data type with a reader and a function, and tries to replace a class without `overwrite`. -/
def additions : List ExtEvent :=
  [.addClass "urn:example:colour" colourClass false, .addClass (xsd "string") otherString false,
   .addReader "urn:example:colour" baseDtReader,
   .function (.loadCustom "urn:example:colour-equal" (.factory fun _ => .ok (.entry (.cls (.custom 1)))))]

private theorem additions_add : AddsOnly noModules (Package.initial.run noModules [looksUpEqual]) additions := by
  refine .call .class_ (.call .class_ (.call (.reader ?_) (.call (.custom ?_) .done)))
  · decide +kernel
  · intro c h
    rw [fmGet_eq] at h
    have : fmOutcome ((Package.initial.run noModules (looksUpEqual :: additions.take 3)).importer noModules)
        (Package.initial.run noModules (looksUpEqual :: additions.take 3)).functions "urn:example:colour-equal" =
          .error .functionMapConfigError := by
      simp only [fmOutcome, show dictGet (Package.initial.run noModules (looksUpEqual :: additions.take 3)).functions.store
          "urn:example:colour-equal" = none from by decide +kernel,
        show (dictGet (Package.initial.run noModules (looksUpEqual :: additions.take 3)).functions.factories
          "urn:example:colour-equal") = none from by
            have : (dictGet (Package.initial.run noModules (looksUpEqual :: additions.take 3)).functions.factories
              "urn:example:colour-equal").isNone = true := by decide +kernel
            simpa using this]
      unfold resolveL
      rw [show functionClassPath "urn:example:colour-equal".toList = none from by decide +kernel]
    exact absurd (this.symm.trans h) (by simp)

/-- The hypotheses of C95 are met, and the additions have an effect: the new function can be used. -/
example : Enlarges ((Package.initial.run noModules [looksUpEqual]).readers noModules fun _ _ => .error .keyError)
    ((Package.initial.run noModules ([looksUpEqual] ++ additions)).readers noModules fun _ _ => .error .keyError) :=
  C95_registries _ _ _ _ additions_add

example : ((loadWith ((Package.initial.run noModules ([looksUpEqual] ++ additions)).importer noModules)
    (fun _ _ => .error .keyError) (Package.initial.run noModules ([looksUpEqual] ++ additions)).functions
      "urn:example:colour-equal").isOk = true) ∧
    ((loadWith ((Package.initial.run noModules [looksUpEqual]).importer noModules)
    (fun _ _ => .error .keyError) (Package.initial.run noModules [looksUpEqual]).functions
      "urn:example:colour-equal").isOk = false) := by decide +kernel

/-- The answer stays the same. -/
example : decisionsIn (answerAfter [looksUpEqual]) = some [some .permit] ∧
    decisionsIn (answerAfter ([looksUpEqual] ++ additions)) = some [some .permit] := by decide +kernel

example : TypesKnown stdClassMap (.policy (hdr .permitOverrides (some (roleTarget "admin"))) [always .permit]) := by
  constructor
  · intro cat d dt h hd
    cases h with
    | policyTarget h =>
      obtain ⟨t, ht, c, hc, m, hm, h⟩ := h
      cases ht
      simp only [roleTarget, List.mem_append, List.mem_singleton, List.not_mem_nil, or_false] at hc
      subst hc
      simp only [List.mem_singleton] at hm
      subst hm
      rcases h with ⟨_, _, h1, h2⟩ | ⟨_, h1, _⟩
      · cases h1; cases h2; cases hd; decide +kernel
      · cases h1
    | rule hm h =>
      simp only [List.mem_singleton] at hm
      subst hm
      rcases h with ⟨_, h, _⟩ | ⟨_, _, h, _⟩ <;> cases h
  · intro s dt h hd
    cases h with
    | policyTarget h =>
      obtain ⟨t, ht, c, hc, m, hm, h⟩ := h
      cases ht
      simp only [roleTarget, List.mem_append, List.mem_singleton, List.not_mem_nil, or_false] at hc
      subst hc
      simp only [List.mem_singleton] at hm
      subst hm
      rcases h with ⟨_, _, h1, h2⟩ | ⟨_, h1, _⟩
      · cases h2
      · cases h1
    | rule hm h =>
      simp only [List.mem_singleton] at hm
      subst hm
      rcases h with ⟨_, h, _⟩ | ⟨_, _, h, _⟩ <;> cases h

/-- The condition on data types is needed: a selector for a new type fails without its class. -/
theorem C95_types_needed : ∃ (s : Selector) (r : Request) (c : AVClass) (vs : PyVal),
    selectorEval { re := sampleRe, classMap := stdClassMap, debug := false } s (some r) = .error .xmlParseError ∧
    selectorEval { re := sampleRe, classMap := registerClass stdClassMap "urn:example:colour" c false, debug := false } s
      (some r) = .ok vs :=
  ⟨{ path := some "p", dataType := some "urn:example:colour", mustBePresent := false },
    { data := data, ctxHandler := none, attributeSelector := some fun _ => .ok [some (.str "red")] }, colourClass,
    .bag { elementType := some colourClass, items := [⟨colourClass, "urn:example:colour", some (.str "red")⟩] },
    by rfl, by rfl⟩

example : (("urn:oasis:names:tc:xacml:1.0:function:string-equal", Family.equal, some stringClass) ∈ implemented) ∧
    NoOtherModules noModules ∧ LooksUp "urn:oasis:names:tc:xacml:1.0:function:string-equal" looksUpEqual :=
  ⟨by simp [implemented], fun _ _ => rfl, rfl⟩

example : classAfter (xsd "string") (some stringClass)
    [.addClass (xsd "string") otherString false, .addClass (xsd "string") otherString true] = some otherString := by
  decide +kernel
end

end Xacml
