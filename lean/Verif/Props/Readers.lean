import Verif.Lemmas.Readers
import Verif.Lemmas.ReaderNorm
import Verif.Spec.Documents

/-!
# C44–C47: reading policy documents
-/
namespace Xacml
open Spec (IsPolicy IsRule IsValue IsExpr elems childrenNamed OnlyChildren Each)

/-! ## C44 -/

/-- **C44.** Reading a Policy element gives exactly the policy that the grammar assigns to it, and fails
on every element that is not in the grammar. -/
theorem C44_policy (env : RdEnv) (n : XNode) (p : PolicyNode) : readPolicy env n = .ok p ↔ IsPolicy env n p :=
  readPolicy_ok

/-- C44, the rules: one for each Rule element, in document order, with its id and effect. -/
theorem C44_rules (env : RdEnv) (n : XNode) (p : PolicyNode) (h : readPolicy env n = .ok p) :
    ∃ hd rules, p = .policy hd rules ∧ rules.length = (childrenNamed n "Rule").length ∧
      rules.map Rule.id = (childrenNamed n "Rule").map (·.attr "RuleId") ∧
      rules.map (fun r => r.effect.map Spec.effectName) = (childrenNamed n "Rule").map (·.attr "Effect") ∧
      (rules.map Rule.id).Nodup := by
  obtain ⟨_, _, hd, rules, rfl, _, _, _, _, _, _, _, _, hr, hnd⟩ := readPolicy_ok.mp h
  refine ⟨hd, rules, rfl, (each_length hr).symm, ?_, ?_, hnd⟩
  · generalize childrenNamed n "Rule" = l at hr
    clear hnd h
    induction l generalizing rules with
    | nil => rw [each_nil] at hr; subst hr; rfl
    | cons a l ih =>
      rw [each_cons] at hr
      obtain ⟨b, bs, rfl, hb, hbs⟩ := hr
      rw [List.map_cons, List.map_cons, ih _ hbs, hb.2.2.1]
  · generalize childrenNamed n "Rule" = l at hr
    clear hnd h
    induction l generalizing rules with
    | nil => rw [each_nil] at hr; subst hr; rfl
    | cons a l ih =>
      rw [each_cons] at hr
      obtain ⟨b, bs, rfl, hb, hbs⟩ := hr
      rw [List.map_cons, List.map_cons, ih _ hbs]
      rcases hb.2.2.2.1 with ⟨h1, h2⟩ | ⟨h1, h2⟩ <;> rw [h1, h2] <;> rfl

/-- C44, rejection: an unknown or unsupported child, a missing required attribute, an unknown combining
algorithm or a repeated rule id. -/
theorem C44_rejects (env : RdEnv) (n : XNode)
    (h : (∃ c ∈ elems n, c.name ∉ ["Description", "PolicyDefaults", "Target", "Rule"]) ∨
      n.attr "PolicyId" = none ∨ n.attr "RuleCombiningAlgId" = none ∨
      (∃ a, n.attr "RuleCombiningAlgId" = some a ∧ Spec.ruleAlg a = none) ∨
      (∃ c ∈ childrenNamed n "Rule", c.attr "RuleId" = none ∨ c.attr "Effect" = none) ∨
      ¬ ((childrenNamed n "Rule").map (·.attr "RuleId")).Nodup) :
    ∃ e, readPolicy env n = .error e := by
  cases hp : readPolicy env n with
  | error e => exact ⟨e, rfl⟩
  | ok p =>
    exfalso
    obtain ⟨hd, rules, hpe, hlen, hids, heff, hnd⟩ := C44_rules env n p hp
    obtain ⟨_, hk, hd', rules', hpe', h1, h2, ⟨a, ha, _, h3, h4⟩, _, _, _, _, _, hr, _⟩ := readPolicy_ok.mp hp
    rcases h with ⟨c, hc, hn⟩ | h | h | ⟨a', ha', hn⟩ | ⟨c, hc, hn⟩ | h
    · exact hn (hk c hc)
    · rw [h] at h2; rw [← h2] at h1; cases h1
    · rw [ha] at h; cases h
    · rw [ha] at ha'; injection ha' with ha'; subst ha'; rw [h4, hn] at h3; cases h3
    · have : ∀ (l : List XNode) (rs : List Rule), Each (IsRule env) l rs → ∀ c ∈ l, ∃ r, IsRule env c r := by
        intro l
        induction l with
        | nil => intro rs _ c hc; cases hc
        | cons x l ih =>
          intro rs hrs c hc
          rw [each_cons] at hrs
          obtain ⟨b, bs, rfl, hb, hbs⟩ := hrs
          rcases List.mem_cons.mp hc with rfl | hc
          · exact ⟨b, hb⟩
          · exact ih bs hbs c hc
      obtain ⟨r, _, hi, hid, heff, _⟩ := this _ _ hr c hc
      rcases hn with hn | hn
      · rw [hn] at hid; rw [← hid] at hi; cases hi
      · rw [hn] at heff; rcases heff with ⟨h, _⟩ | ⟨h, _⟩ <;> cases h
    · rw [← hids] at h; exact h hnd

-- Non-vacuity: the sample document is read; a repeated rule id is not.
set_option maxRecDepth 20000 in
example : Samples.roleOf (readPolicy Spec.stdRd (Samples.policyDoc (Samples.xmlns "") [.text "admin"] []).lxmlTree)
    = some "admin" := by decide +kernel
example : ∃ e, readPolicy Spec.stdRd (.elem "Policy" [("PolicyId", "p")] none []) = .error e :=
  C44_rejects _ _ (.inr (.inr (.inl rfl)))

/-! ## C46 -/

open Spec (SameButNs SameButNsL SameLocal NsPart)

private theorem localPart_ns {ns l : String} (hns : NsPart ns) (hl : '}' ∉ l.toList) : localPart (ns ++ l) = l := by
  unfold localPart
  have h1 : ∀ (x : List Char), '}' ∉ x → ∀ y, (x ++ '}' :: y).takeWhile (· != '}') = x := by
    intro x
    induction x with
    | nil => intro _ y; simp
    | cons a x ih =>
      intro hx y
      simp only [List.mem_cons, not_or] at hx
      rw [List.cons_append, List.takeWhile_cons, ih hx.2]
      simp [Ne.symm hx.1]
  have h2 : ∀ (x : List Char), '}' ∉ x → x.takeWhile (· != '}') = x := by
    intro x hx
    induction x with
    | nil => rfl
    | cons a x ih =>
      simp only [List.mem_cons, not_or] at hx
      rw [List.takeWhile_cons, ih hx.2]
      simp [Ne.symm hx.1]
  have hr : '}' ∉ l.toList.reverse := by simpa using hl
  rcases hns with rfl | ⟨p, rfl⟩
  · rw [String.toList_append, List.reverse_append]
    simp [h2 _ hr]
  · simp only [String.toList_append, List.reverse_append]
    have : ("}" : String).toList = ['}'] := rfl
    rw [this]
    simp only [List.reverse_cons, List.reverse_nil, List.nil_append, List.cons_append]
    rw [h1 _ hr]
    simp

private theorem localPart_split (t : String) : ∃ ns, NsPart ns ∧ '}' ∉ (localPart t).toList ∧ t = ns ++ localPart t := by
  refine ⟨String.ofList (t.toList.reverse.dropWhile (· != '}')).reverse, ?_, ?_, ?_⟩
  · cases h : t.toList.reverse.dropWhile (· != '}') with
    | nil => exact .inl rfl
    | cons a x =>
      right
      refine ⟨String.ofList x.reverse, ?_⟩
      have ha : a = '}' := by
        have := List.head?_dropWhile_not (· != '}') t.toList.reverse
        rw [h] at this
        simpa using this
      subst ha
      apply String.toList_inj.mp
      simp [String.toList_append]
  · unfold localPart
    simp only [String.toList_ofList, List.mem_reverse]
    intro h
    have := List.all_takeWhile (p := (· != '}')) (l := t.toList.reverse)
    rw [List.all_eq_true] at this
    simpa using this _ h
  · unfold localPart
    apply String.toList_inj.mp
    simp only [String.toList_append, String.toList_ofList, ← List.reverse_append, List.takeWhile_append_dropWhile,
      List.reverse_reverse]

theorem sameLocal_iff {t t' : String} : SameLocal t t' ↔ localPart t = localPart t' := by
  constructor
  · rintro ⟨ns, ns', l, h1, h2, hl, rfl, rfl⟩
    rw [localPart_ns h1 hl, localPart_ns h2 hl]
  · intro h
    obtain ⟨ns, h1, h2, h3⟩ := localPart_split t
    obtain ⟨ns', h1', h2', h3'⟩ := localPart_split t'
    exact ⟨ns, ns', localPart t, h1, h1', h2, h3, by rw [h]; exact h3'⟩

private theorem localPart_idem (t : String) : localPart (localPart t) = localPart t := by
  obtain ⟨ns, h1, h2, h3⟩ := localPart_split t
  have := localPart_ns (.inl rfl) h2
  simpa using this

mutual
private theorem sameButNs_retag : (n n' : XNode) → SameButNs n n' → n.retag localPart = n'.retag localPart
  | .other, .other, _ => rfl
  | .elem t a x cs, .elem t' a' x' cs', h => by
    rw [Spec.SameButNs] at h
    obtain ⟨h1, rfl, rfl, h2⟩ := h
    rw [XNode.retag, XNode.retag, sameLocal_iff.mp h1, sameButNsL_retag cs cs' h2]
  | .other, .elem .., h => by rw [Spec.SameButNs] at h <;> simp_all
  | .elem .., .other, h => by rw [Spec.SameButNs] at h <;> simp_all
private theorem sameButNsL_retag : (l l' : List XNode) → SameButNsL l l' →
    XNode.retagL localPart l = XNode.retagL localPart l'
  | [], [], _ => rfl
  | n :: l, n' :: l', h => by
    rw [Spec.SameButNsL] at h
    rw [XNode.retagL, XNode.retagL, sameButNs_retag n n' h.1, sameButNsL_retag l l' h.2]
  | [], _ :: _, h => by rw [Spec.SameButNsL] at h <;> simp_all
  | _ :: _, [], h => by rw [Spec.SameButNsL] at h <;> simp_all
end

mutual
private theorem retag_sameButNs : (n : XNode) → SameButNs (n.retag localPart) n
  | .other => by rw [XNode.retag, Spec.SameButNs]; trivial
  | .elem t a x cs => by
    rw [XNode.retag, Spec.SameButNs]
    exact ⟨sameLocal_iff.mpr (localPart_idem t), rfl, rfl, retagL_sameButNs cs⟩
private theorem retagL_sameButNs : (l : List XNode) → SameButNsL (XNode.retagL localPart l) l
  | [] => by rw [XNode.retagL, Spec.SameButNsL]; trivial
  | n :: l => by rw [XNode.retagL, Spec.SameButNsL]; exact ⟨retag_sameButNs n, retagL_sameButNs l⟩
end

/-- `norm` sees the local names only. -/
private theorem sameButNs_norm (n n' : XNode) (h : SameButNs n n') : norm localPart n = norm localPart n' := by
  have key : ∀ m : XNode, norm localPart m = norm localPart (m.retag localPart) := by
    intro m
    exact (normRetag m).symm
  rw [key n, key n', sameButNs_retag n n' h]
where
  normRetag : (m : XNode) → norm localPart (m.retag localPart) = norm localPart m
    | .other => by rw [XNode.retag]
    | .elem t a x cs => by
      have h1 : ∀ l, XNode.retagL localPart (XNode.retagL localPart l) = XNode.retagL localPart l := fun l =>
        sameButNsL_retag _ _ (retagL_sameButNs l)
      rw [XNode.retag, norm, norm, localPart_idem, h1, normLRetag cs, normKeepRetag cs]
  normLRetag : (l : List XNode) → normL localPart (XNode.retagL localPart l) = normL localPart l
    | [] => by rw [XNode.retagL]
    | .other :: l => by rw [XNode.retagL, XNode.retag, normL, normL, normLRetag l]
    | .elem t a x cs :: l => by
      have := normRetag (.elem t a x cs)
      rw [XNode.retagL]
      rw [XNode.retag] at this ⊢
      rw [normL, normL, normLRetag l, this]
  normKeepRetag : (l : List XNode) → normKeep localPart (XNode.retagL localPart l) = normKeep localPart l
    | [] => by rw [XNode.retagL]
    | n :: l => by rw [XNode.retagL, normKeep, normKeep, normRetag n, normKeepRetag l]

/-- **C46.** Elements that differ in namespaces only are read to the same policy (or exception), with
the same effect on the finder, provided the registered data type readers treat them alike, as the
package's own readers do. -/
theorem C46_read (env : RdEnv) (res : Resolver)
    (hdt : ∀ dt r, dictGet env.dtReaders dt = some r → ∀ n n' v, SameButNs n n' → r n v = r n' v)
    (n n' : XNode) (h : SameButNs n n') : readRoot env res n = readRoot env res n' := by
  have hrt : KeepsLocal localPart := localPart_idem
  have hr : ReadersRespect localPart env := fun dt r hr n v => hdt dt r hr _ _ v (retag_sameButNs n)
  rw [← readRoot_norm hrt hr res n, ← readRoot_norm hrt hr res n', sameButNs_norm n n' h]

/-- C46 with references: documents fetched for references may differ in namespaces too. -/
theorem C46_load (env : RdEnv)
    (hdt : ∀ dt r, dictGet env.dtReaders dt = some r → ∀ n n' v, SameButNs n n' → r n v = r n' v)
    (base : Option String) (fetch fetch' : Fetch) (depth : Nat)
    (hf : ∀ past url, Spec.SameFetch SameButNs (fetch past url) (fetch' past url))
    (src src' : Except Exc XNode) (h : Spec.SameFetch SameButNs src src') :
    fromSource env (some (urlResolver env base fetch depth)) src =
      fromSource env (some (urlResolver env base fetch' depth)) src' := by
  have hres : ∀ depth, urlResolver env base fetch depth = urlResolver env base fetch' depth := by
    intro depth
    induction depth with
    | zero => rfl
    | succ depth ih =>
      have : fromReference base fetch (readRoot env (urlResolver env base fetch depth)) =
          fromReference base fetch' (readRoot env (urlResolver env base fetch' depth)) := by
        rw [ih]
        funext ref s
        simp only [fromReference, bind, FM.bind, FM.lift, fetchDoc]
        cases makeUrlOpt base ref with
        | error e => rfl
        | ok url =>
          simp only [FM.pure]
          have := hf s.fetched url
          cases h1 : fetch s.fetched url with
          | error e => cases h2 : fetch' s.fetched url with
            | error e' => rw [h1, h2] at this; simp only [Spec.SameFetch] at this; rw [this]
            | ok m => rw [h1, h2] at this; exact this.elim
          | ok m => cases h2 : fetch' s.fetched url with
            | error e' => rw [h1, h2] at this; exact this.elim
            | ok m' =>
              rw [h1, h2] at this
              simp only [C46_read env _ hdt m m' this]
      simp only [urlResolver, this]
  rw [hres]
  cases src with
  | error e => cases src' with
    | error e' => simp only [Spec.SameFetch] at h; rw [h]
    | ok m => exact h.elim
  | ok m => cases src' with
    | error e' => exact h.elim
    | ok m' =>
      show readRoot env (urlResolver env base fetch' depth) m = readRoot env (urlResolver env base fetch' depth) m'
      rw [C46_read env _ hdt m m' h]

/-- The package's data type readers do not look at names. -/
theorem C46_standard_readers (dt : String) (r : DtReader) (h : dictGet stdDtReaders dt = some r)
    (n n' : XNode) (v : AttrVal) (hn : SameButNs n n') : r n v = r n' v := by
  have hmem : ∀ (l : List (String × AVClass)), dictGet (l.map fun p => (p.1, baseDtReader)) dt = some r →
      r = baseDtReader := by
    intro l
    induction l with
    | nil => intro h; simp [dictGet] at h
    | cons p l ih =>
      intro h
      simp only [List.map_cons, dictGet] at h
      split at h
      · injection h with h; exact h.symm
      · exact ih h
  rw [hmem _ h]
  have ht : n.text = n'.text := by
    cases n with
    | other => cases n' with
      | other => rfl
      | elem => rw [Spec.SameButNs] at hn <;> simp_all
    | elem => cases n' with
      | other => rw [Spec.SameButNs] at hn <;> simp_all
      | elem => rw [Spec.SameButNs] at hn; exact hn.2.2.1.symm
  unfold baseDtReader
  rw [ht]

-- Non-vacuity: a document in the XACML namespace and the same without a namespace.
example (ns : String) (hns : NsPart ns) : SameButNs (.elem "Target" [] none [.other])
    (.elem (ns ++ "Target") [] none [.other]) := by
  refine ⟨⟨"", ns, "Target", .inl rfl, hns, by decide, rfl, rfl⟩, rfl, rfl, trivial, trivial⟩
example : NsPart "{urn:oasis:names:tc:xacml:2.0:policy:schema:os}" :=
  .inr ⟨"{urn:oasis:names:tc:xacml:2.0:policy:schema:os", rfl⟩

/-! ## C45 -/

open Spec (CommentAdded CommentAnywhere CommentOutsideText)

theorem lxmlChildren_append (a b : List Doc) :
    Doc.lxmlChildren (a ++ b) = Doc.lxmlChildren a ++ Doc.lxmlChildren b := by
  induction a with
  | nil => rw [Doc.lxmlChildren]; rfl
  | cons d a ih =>
    cases d <;> rw [List.cons_append, Doc.lxmlChildren, Doc.lxmlChildren, ih] <;> simp

private theorem normL_append (rt) (a b : List XNode) : normL rt (a ++ b) = normL rt a ++ normL rt b := by
  induction a with
  | nil => rw [normL]; rfl
  | cons d a ih => cases d <;> rw [List.cons_append, normL, normL, ih]; rw [List.cons_append]

private theorem normKeep_append (rt) (a b : List XNode) : normKeep rt (a ++ b) = normKeep rt a ++ normKeep rt b := by
  induction a with
  | nil => rw [normKeep]; rfl
  | cons d a ih => rw [List.cons_append, normKeep, normKeep, ih, List.cons_append]

theorem leadingText_inside (pre : List Doc) (c c' : Doc) (post : List Doc)
    (hc : ∀ s, c ≠ .text s) (hc' : ∀ s, c' ≠ .text s) :
    leadingText (pre ++ c :: post) = leadingText (pre ++ c' :: post) := by
  induction pre with
  | nil =>
    cases c <;> cases c' <;> first | rfl | (exact absurd rfl (hc _)) | (exact absurd rfl (hc' _))
  | cons d pre ih => cases d <;> simp [leadingText, ih]

theorem leadingText_after (pre post : List Doc) (s : String) (h : ∀ s, Doc.text s ∉ post) :
    leadingText (pre ++ post) = leadingText (pre ++ .comment s :: post) := by
  induction pre with
  | nil =>
    cases post with
    | nil => rfl
    | cons d post => cases d with
      | text s => exact absurd List.mem_cons_self (h s)
      | _ => rfl
  | cons d pre ih => cases d <;> simp [leadingText, ih]

theorem commentAdded_elem {P Q d d'} (h : CommentAdded P Q d d') :
    ∃ tag a c c', d = .elem tag a c ∧ d' = .elem tag a c' := by
  cases h <;> exact ⟨_, _, _, _, rfl, rfl⟩

private theorem outsideText_norm {d d' : Doc} (h : CommentOutsideText d d') :
    norm id d.lxmlTree = norm id d'.lxmlTree := by
  induction h with
  | here tag a pre s post hi =>
    have h1 : ¬ localPart tag = "AttributeValue" := by
      rcases hi with hi | ⟨hi, _⟩ <;> intro he <;> simp [he, Spec.textElements] at hi
    have h2 : ¬ localPart tag = "PolicyDefaults" := by
      rcases hi with hi | ⟨hi, _⟩ <;> intro he <;> simp [he, Spec.textElements] at hi
    rw [Doc.lxmlTree, Doc.lxmlTree, norm, norm, if_neg h1, if_neg h2, if_neg h1, if_neg h2]
    congr 1
    · rcases hi with hi | ⟨_, hi⟩
      · have : localPart tag ∉ textual := by
          intro hm; apply hi
          simp only [textual, Spec.textElements, List.mem_cons, List.not_mem_nil, or_false] at hm ⊢
          rcases hm with h | h | h | h <;> simp [h]
        rw [if_neg this, if_neg this]
      · rw [leadingText_after pre post s hi]
    · rw [lxmlChildren_append, lxmlChildren_append, normL_append, normL_append]
      rw [show Doc.lxmlChildren (.comment s :: post) = .other :: Doc.lxmlChildren post from by
        rw [Doc.lxmlChildren, Doc.lxmlTree]; simp]
      rw [normL]
  | inside tag a pre c c' post hw hc ih =>
    obtain ⟨t1, a1, x, x', rfl, rfl⟩ := commentAdded_elem hc
    have h1 : ¬ localPart tag = "AttributeValue" := hw
    have hl := leadingText_inside pre (.elem t1 a1 x) (.elem t1 a1 x') post (by simp) (by simp)
    rw [Doc.lxmlTree, Doc.lxmlTree, norm, norm, if_neg h1, if_neg h1, hl]
    have hk : ∀ x, Doc.lxmlChildren (.elem t1 a1 x :: post) =
        (Doc.elem t1 a1 x).lxmlTree :: Doc.lxmlChildren post := by
      intro x; rw [Doc.lxmlChildren]; simp
    rw [lxmlChildren_append, lxmlChildren_append, hk, hk, normL_append, normL_append, normKeep_append,
      normKeep_append, normKeep, normKeep, ih]
    have hn : normL id ((Doc.elem t1 a1 x).lxmlTree :: Doc.lxmlChildren post) =
        normL id ((Doc.elem t1 a1 x').lxmlTree :: Doc.lxmlChildren post) := by
      rw [Doc.lxmlTree, Doc.lxmlTree] at ih ⊢
      rw [normL, normL, ih]
    rw [hn]

mutual
private theorem retag_id : (n : XNode) → n.retag id = n
  | .other => by rw [XNode.retag]
  | .elem t a x cs => by rw [XNode.retag, retagL_id cs]; rfl
private theorem retagL_id : (l : List XNode) → XNode.retagL id l = l
  | [] => by rw [XNode.retagL]
  | n :: l => by rw [XNode.retagL, retag_id n, retagL_id l]
end

private theorem stripList_append (a b : List Doc) :
    Doc.stripList (a ++ b) = Doc.stripList a ++ Doc.stripList b := by
  induction a with
  | nil => rw [Doc.stripList]; rfl
  | cons d a ih =>
    cases d <;> rw [List.cons_append, Doc.stripList, Doc.stripList, ih] <;> simp

theorem anywhere_strip {d d' : Doc} (h : CommentAnywhere d d') : d.stripComments = d'.stripComments := by
  induction h with
  | here tag a pre s post =>
    rw [Doc.stripComments, Doc.stripComments, stripList_append, stripList_append, Doc.stripList]
  | inside tag a pre c c' post _ hc ih =>
    obtain ⟨t1, a1, x, x', rfl, rfl⟩ := commentAdded_elem hc
    have hk : ∀ x, Doc.stripList (.elem t1 a1 x :: post) =
        (Doc.elem t1 a1 x).stripComments :: Doc.stripList post := by
      intro x; rw [Doc.stripList]; simp
    rw [Doc.stripComments, Doc.stripComments, stripList_append, stripList_append, hk, hk, ih]

/-- **C45 with the standard library's parser.** A comment anywhere in the document does not matter. -/
theorem C45_standard_library (env : RdEnv) (res : Resolver) (d d' : Doc) (h : CommentAnywhere d d') :
    readRoot env res d.stdTree = readRoot env res d'.stdTree := by
  unfold Doc.stdTree
  rw [anywhere_strip h]

/-- **C45 with lxml (partial).** A comment outside of the elements whose text is read, and outside of
PolicyDefaults, does not matter; in Description, XPathVersion and references one after the text does not
matter either. Missing: comments inside the text (`C45_violated`), within AttributeValue, where data type
readers supplied by the user may look at everything, and in PolicyDefaults (`C45_violated_defaults`). -/
theorem C45_lxml_partial (env : RdEnv) (res : Resolver) (d d' : Doc) (h : CommentOutsideText d d') :
    readRoot env res d.lxmlTree = readRoot env res d'.lxmlTree := by
  have hr : ReadersRespect id env := fun _ r _ n v => by rw [retag_id]
  rw [← readRoot_norm (rt := id) (fun _ => rfl) hr res, ← readRoot_norm (rt := id) (fun _ => rfl) hr res d'.lxmlTree,
    outsideText_norm h]

set_option maxRecDepth 20000 in
/-- **C45 is violated with lxml**: a comment in an attribute value cuts off the rest of it. The policy for
the role "administrator" becomes a policy for the role "admin". -/
theorem C45_violated : ∃ d d', CommentAnywhere d d' ∧
    Samples.roleOf (readPolicy Spec.stdRd d.lxmlTree) = some "administrator" ∧
    Samples.roleOf (readPolicy Spec.stdRd d'.lxmlTree) = some "admin" := by
  refine ⟨Samples.policyDoc "" [.text "admin", .text "istrator"] [],
    Samples.policyDoc "" [.text "admin", .comment "x", .text "istrator"] [], ?_, by decide +kernel, by decide +kernel⟩
  refine .inside _ _ [_, _] _ _ [_, _] trivial (.inside _ _ [] _ _ [] trivial (.inside _ _ [] _ _ [] trivial
    (.inside _ _ [] _ _ [] trivial (.inside _ _ [] _ _ [_] trivial (.here _ _ [.text "admin"] "x" [.text "istrator"]
      trivial)))))

private def defaultsDoc (c : List Doc) : Doc :=
  .elem "Policy" [("PolicyId", "p1"),
      ("RuleCombiningAlgId", "urn:oasis:names:tc:xacml:1.0:rule-combining-algorithm:permit-overrides")]
    [.elem "PolicyDefaults" [] (.elem "XPathVersion" [] [.text "1.0"] :: c)]

/-- C45 is violated with lxml: a comment in PolicyDefaults makes reading the policy fail. -/
theorem C45_violated_defaults : ∃ d d', CommentAnywhere d d' ∧
    (readPolicy Spec.stdRd d.lxmlTree).isOk = true ∧ (readPolicy Spec.stdRd d'.lxmlTree).isOk = false := by
  refine ⟨defaultsDoc [], defaultsDoc [.comment "x"], ?_, by decide +kernel, by decide +kernel⟩
  exact .inside _ _ [] _ _ [] trivial (.here _ _ [_] "x" [] trivial)

-- Non-vacuity: a comment between elements.
example : CommentOutsideText (.elem "Policy" [] [.text "\n", .elem "Target" [] []])
    (.elem "Policy" [] [.text "\n", .elem "Target" [] [.comment "any"]]) :=
  .inside _ _ [.text "\n"] _ _ [] (by decide) (.here _ _ [] "any" [] (.inl (by decide)))

/-! ## C47 -/

private theorem stdDt_get (l : List (String × AVClass)) (dt : String) :
    dictGet (l.map fun p => (p.1, baseDtReader)) dt = (l.lookup dt).map fun _ => baseDtReader := by
  induction l with
  | nil => rfl
  | cons p l ih =>
    obtain ⟨k, c⟩ := p
    simp only [List.map_cons, dictGet, List.lookup]
    by_cases h : dt = k
    · simp [h]
    · have : (k == dt) = false := by simpa using Ne.symm h
      have h' : (dt == k) = false := by simpa using h
      rw [this, h']
      simpa using ih

/-- C47, exactly what can be read with the package's own classes and readers: an AttributeValue with a
registered DataType whose native type is string, and a text. -/
theorem C47_exact (fn) (n : XNode) (v : AttrVal) :
    readAttributeValue { fn := fn, classMap := stdClassMap, dtReaders := stdDtReaders } n = .ok v ↔
      n.name = "AttributeValue" ∧ ∃ dt c t, n.attr "DataType" = some dt ∧ stdClassMap.lookup dt = some c ∧
        c.native = .str ∧ n.text = some t ∧ v = { cls := c, dataType := dt, value := some (.str t) } := by
  rw [readAttributeValue_ok]
  unfold IsValue
  refine and_congr_right fun _ => ?_
  have hs : ∀ (c : AVClass) dt t, ({ cls := c, dataType := dt, value := none } : AttrVal).setValue (some (.str t)) = .ok v ↔
      c.native = .str ∧ v = { cls := c, dataType := dt, value := some (.str t) } := by
    intro c dt t
    unfold AttrVal.setValue
    cases hn : c.native <;> simp [Native.isInstance, eq_comm]
  constructor
  · rintro ⟨dt, c, r, h1, h2, h3, h4⟩
    rw [show dictGet stdDtReaders dt = _ from stdDt_get stdClassMap dt, h2] at h3
    have h3 : baseDtReader = r := by simpa using h3
    subst h3
    unfold baseDtReader at h4
    cases ht : n.text with
    | none => simp [ht] at h4
    | some t =>
      simp only [ht] at h4
      obtain ⟨h5, h6⟩ := (hs c dt t).mp h4
      exact ⟨dt, c, t, h1, h2, h5, rfl, h6⟩
  · rintro ⟨dt, c, t, h1, h2, h3, h4, h5⟩
    refine ⟨dt, c, baseDtReader, h1, h2, ?_, ?_⟩
    · rw [show dictGet stdDtReaders dt = _ from stdDt_get stdClassMap dt, h2]; rfl
    · unfold baseDtReader
      rw [h4]
      exact (hs c dt t).mpr ⟨h3, h5⟩

/-- **C47 (partial)**: DataTypes whose native type is string, with every non-empty text. Missing: the
other DataTypes, see `C47_violated`; an empty string is not read either, since its text is `None`. -/
theorem C47_partial (fn) (n : XNode) (dt : String) (c : AVClass) (t : String) (hn : n.name = "AttributeValue")
    (hdt : n.attr "DataType" = some dt) (hc : stdClassMap.lookup dt = some c) (hs : c.native = .str)
    (ht : n.text = some t) :
    readAttributeValue { fn := fn, classMap := stdClassMap, dtReaders := stdDtReaders } n =
      .ok { cls := c, dataType := dt, value := some (.str t) } :=
  (C47_exact fn n _).mpr ⟨hn, dt, c, t, hdt, hc, hs, ht, rfl⟩

/-- **C47 is violated**: with the package's own readers no value of type integer, boolean, double, date,
time, dateTime, hexBinary, base64Binary, dayTimeDuration or yearMonthDuration can be read. -/
theorem C47_violated (fn) (n : XNode) (dt : String) (c : AVClass)
    (hdt : n.attr "DataType" = some dt) (hc : stdClassMap.lookup dt = some c) (hs : c.native ≠ .str) :
    ∃ e, readAttributeValue { fn := fn, classMap := stdClassMap, dtReaders := stdDtReaders } n = .error e := by
  cases h : readAttributeValue { fn := fn, classMap := stdClassMap, dtReaders := stdDtReaders } n with
  | error e => exact ⟨e, rfl⟩
  | ok v =>
    obtain ⟨_, dt', c', t, h1, h2, h3, _⟩ := (C47_exact fn n v).mp h
    rw [hdt] at h1; injection h1 with h1; subst h1
    rw [hc] at h2; injection h2 with h2; subst h2
    exact absurd h3 hs

-- Non-vacuity: an xsd:integer element, and the DataTypes that cannot be read.
example : stdClassMap.lookup (xsd "integer") = some integerClass ∧ integerClass.native ≠ .str := by decide +kernel
example : (stdClassMap.filter fun p => p.2.native ≠ .str).map Prod.fst =
    [xsd "integer", xsd "boolean", xsd "double", xsd "date", xsd "dateTime", xsd "time",
      "http://www.w3.org/TR/2002/WD-xquery-operators-20020816#dayTimeDuration",
      "http://www.w3.org/TR/2002/WD-xquery-operators-20020816#yearMonthDuration",
      xsd "hexBinary", xsd "base64Binary"] := by decide +kernel
end Xacml
