import Verif.Props.Functions
import Verif.Props.Semantics
import Verif.Spec.Rejections

/-!
# C103: functions reject arguments with the exceptions of XACML contexts
-/
namespace Xacml
open Spec

private theorem isInst_av {x : PyVal} {t : AVClass} (h : x.isInst t = true) : ∃ v, x = .av v ∧ v.isInst t = true := by
  cases x with
  | av v => exact ⟨v, rfl, h⟩
  | _ => cases h

private theorem all_av {args : List PyVal} {t : AVClass} (h : ∀ x ∈ args, x.isInst t = true) :
    ∃ vs : List AttrVal, args = vs.map .av ∧ ∀ v ∈ vs, v.isInst t = true := by
  induction args with
  | nil => exact ⟨[], rfl, by simp⟩
  | cons a args ih =>
    obtain ⟨v, rfl, hv⟩ := isInst_av (h a (by simp))
    obtain ⟨vs, rfl, hvs⟩ := ih fun x hx => h x (by simp [hx])
    exact ⟨v :: vs, rfl, by simpa using ⟨hv, hvs⟩⟩

private theorem sameType_iff' (et : Option AVClass) (t : AVClass) : sameType et t = true ↔ ∃ c, et = some c ∧ c.uid = t.uid := by
  cases et <;> simp [sameType]

private theorem bagOf_iff (t : AVClass) (b : Bag) : BagOf t (.bag b) ↔ sameType b.elementType t = true := by
  rw [sameType_iff']
  constructor
  · rintro ⟨c, items, h, hc⟩
    injection h with h
    subst h
    exact ⟨c, rfl, hc⟩
  · rintro ⟨c, h, hc⟩
    exact ⟨c, b.items, by cases b; cases h; rfl, hc⟩

private theorem checkItems_rejects (c : AVClass) (xs : List PyVal) (h : ¬ ∀ x ∈ xs, x.isInst c = true) :
    checkItems (some c) xs = .error .typeError := by
  induction xs with
  | nil => simp at h
  | cons x xs ih =>
    cases x with
    | av v =>
      simp only [checkItems]
      by_cases hv : v.isInst c = true
      · rw [if_pos hv, ih fun k => h fun y hy => by
          rcases List.mem_cons.1 hy with rfl | hy
          · exact hv
          · exact k y hy]
      · rw [if_neg hv]
    | _ => rfl

private theorem joinStrs_error (vs : List AttrVal) (h : ¬ ∀ v ∈ vs, ∃ s, HasText v s) : joinStrs vs = .error .typeError := by
  induction vs with
  | nil => simp at h
  | cons v vs ih =>
    simp only [joinStrs]
    split
    · rename_i s hs
      rw [ih fun k => h fun y hy => by
        rcases List.mem_cons.1 hy with rfl | hy
        · exact ⟨s, hs⟩
        · exact k y hy]
    · rfl

private theorem pyEq_error {a b : AttrVal} (h : ∀ r, a.pyEq b ≠ .ok r) : a.pyEq b = .error .typeError := by
  cases he : a.pyEq b with
  | ok r => exact absurd he (h r)
  | error e =>
    unfold AttrVal.pyEq AttrVal.dunderEq at he
    repeat' split at he
    all_goals first | cases he; rfl | cases he

/-- What the specification says is rejected is. -/
private theorem rejects_sound {env : Env} {f : Func} {args : List PyVal} {e : Exc} (h : Rejects env.re f args e)
    (hf : StandardFunction f) : Den (f.evaluate env args) = .error e := by
  have hg := fun p => (getRegex_coh env p start coh_start).1
  cases h with
  | count h =>
    cases f with
    | equal t => match args, h with
      | [], _ | [_], _ | _ :: _ :: _ :: _, _ => rfl
      | [_, _], h => exact absurd rfl h
    | matchFn t => match args, h with
      | [], _ | [_], _ | _ :: _ :: _ :: _, _ => rfl
      | [_, _], h => exact absurd rfl h
    | atLeastOneMemberOf t => match args, h with
      | [], _ => rfl
      | [x], _ => cases x <;> rfl
      | x :: y :: _ :: _, _ => cases x <;> cases y <;> rfl
      | [_, _], h => exact absurd rfl h
    | regexpMatch t => match args, h with
      | [], _ | [_], _ | _ :: _ :: _ :: _, _ => rfl
      | [_, _], h => exact absurd rfl h
    | oneAndOnly t => match args, h with
      | [], _ => rfl
      | x :: _ :: _, _ => show oneAndOnlyFn t _ = _; simp [oneAndOnlyFn]
      | [_], h => exact absurd rfl h
    | round => match args, h with
      | [], _ => rfl
      | x :: _ :: _, _ => show roundFn _ = _; simp [roundFn]
      | [_], h => exact absurd rfl h
    | not => match args, h with
      | [], h | [_], h => exact absurd (by simp [TakesArgs]) h
      | x :: _ :: _, _ => show notFn _ = _; simp [notFn]
    | bag t => exact absurd trivial h
    | and => exact absurd trivial h
    | concatenate t => exact absurd trivial h
    | custom g => exact absurd trivial h
  | @equal t a b h =>
    show equalFn t [a, b] = _
    cases a with
    | av v => cases b with
      | av u =>
        simp only [PyVal.isInst] at h
        simp only [equalFn]
        by_cases h1 : v.isInst t = true
        · rw [if_pos h1, if_neg fun h2 => h ⟨h1, h2⟩]
        · rw [if_neg h1]
      | _ => rfl
    | _ => rfl
  | @matchFn t a b h =>
    show matchFnEval t [a, b] = _
    cases a with
    | av v => cases b with
      | av u =>
        simp only [PyVal.isInst] at h
        simp only [matchFnEval]
        by_cases h1 : v.isInst t = true
        · rw [if_pos h1, if_neg fun h2 => h ⟨h1, h2⟩]
        · rw [if_neg h1]
      | _ => rfl
    | _ => rfl
  | @incomparable t a b h1 h2 h3 =>
    show matchFnEval t [.av a, .av b] = _
    simp only [matchFnEval, h1, h2, if_true, pyEq_error h3]
  | @bag t args h =>
    show bagFn t args = _
    simp only [bagFn, checkItems_rejects t args h]
  | @oneAndOnly t x h =>
    show oneAndOnlyFn t [x] = _
    cases x with
    | bag b =>
      simp only [oneAndOnlyFn]
      split
      · rename_i hs
        split
        · rename_i v hv
          exact absurd ⟨(bagOf_iff t b).2 hs, b.elementType, v, by cases b; cases hv; rfl⟩ h
        · rfl
      · rfl
    | _ => rfl
  | @atLeastOneMemberOf t a b h =>
    show atLeastOneMemberOfFn t [a, b] = _
    cases a with
    | bag a => cases b with
      | bag b =>
        simp only [bagOf_iff] at h
        simp only [atLeastOneMemberOfFn]
        by_cases h1 : sameType a.elementType t = true
        · rw [if_pos h1, if_neg fun h2 => h ⟨h1, h2⟩]
        · rw [if_neg h1]
      | _ => rfl
    | _ => rfl
  | @and args h =>
    show andFn args = _
    rw [andFn, if_neg]
    intro k
    refine h fun x hx => ?_
    have := List.all_eq_true.1 k x hx
    unfold PyVal.isBool at this
    split at this
    · exact ⟨_, rfl⟩
    · cases this
  | @not x h =>
    show notFn [x] = _
    unfold notFn
    split
    · rename_i hx; injection hx with hx; exact absurd ⟨_, hx⟩ h
    · rfl
    · rename_i hx; cases hx
    · rename_i hx _; exact absurd rfl (hx _)
  | notNothing => rfl
  | roundNan => rfl
  | roundInf => rfl
  | @round x h1 h2 h3 =>
    show roundFn [x] = _
    cases x with
    | native n => cases n with
      | int i => exact absurd ⟨i, rfl⟩ h1
      | bool b => exact absurd ⟨b, rfl⟩ h2
      | float q => exact absurd ⟨q, rfl⟩ h3
      | _ => rfl
    | _ => rfl
  | @concatenateCount t args h => exact congrArg Prod.fst ((C23_rejects env t args start).1 h)
  | @concatenate t a args hne h =>
    refine congrArg Prod.fst ((C23_rejects env t (a :: args) start).2 ?_ ⟨a, args, rfl, ?_⟩)
    · cases args with
      | nil => exact absurd rfl hne
      | cons b args => simp
    · by_cases h1 : a.isInst t = true
      · right
        simp only [h1, true_and, Classical.not_forall] at h
        obtain ⟨x, hx, h⟩ := h
        exact ⟨x, hx, by simpa using h⟩
      · left; simpa using h1
  | @concatenateText t v vs hne h1 h2 h3 =>
    show concatenateFn t _ = _
    cases vs with
    | nil => exact absurd rfl hne
    | cons u us =>
      have hc : checkRest stringClass (.av u :: us.map .av) = .ok (u :: us) := (checkRest_iff _ _ _).2 ⟨rfl, h2⟩
      simp only [List.map_cons, concatenateFn, h1, if_true, hc]
      by_cases h4 : ∀ x ∈ v :: u :: us, ∃ s, HasText x s
      · have hn : t.native ≠ .str := fun hn => h3 ⟨h4, hn⟩
        cases hj : joinStrs (v :: u :: us) with
        | error e =>
          exfalso
          have : ∀ {l : List AttrVal}, (∀ x ∈ l, ∃ s, HasText x s) → ∃ s, joinStrs l = .ok s := by
            intro l
            induction l with
            | nil => exact fun _ => ⟨_, rfl⟩
            | cons a l ih =>
              intro hl
              obtain ⟨s, hs⟩ := hl a (by simp)
              obtain ⟨s', hs'⟩ := ih fun x hx => hl x (by simp [hx])
              exact ⟨s ++ s', by unfold HasText at hs; simp [joinStrs, hs, hs']⟩
          obtain ⟨s, hs⟩ := this h4
          rw [hj] at hs; cases hs
        | ok s =>
          have hi : (Native.str s).isInstance t.native = false := by
            cases hnat : t.native <;> simp_all [Native.isInstance]
          simp [AVClass.newWith, AttrVal.setValue, AVClass.new, hi]
      · rw [joinStrs_error _ h4]
  | @regexpMatch t a b h =>
    show (regexpMatchFn env t [a, b] start).1 = _
    cases a with
    | av v => cases b with
      | av u =>
        simp only [PyVal.isInst] at h
        simp only [regexpMatchFn]
        by_cases h1 : v.isInst t = true
        · rw [if_pos h1, if_neg fun h2 => h ⟨h1, h2⟩]; rfl
        · rw [if_neg h1]; rfl
      | _ => rfl
    | _ => rfl
  | @pattern t p i h1 h2 h3 =>
    show (regexpMatchFn env t [.av p, .av i] start).1 = _
    simp only [regexpMatchFn, h1, h2, if_true]
    rcases hv : p.value with _ | n
    · rfl
    · cases n with
      | str s => exact absurd ⟨s, hv⟩ h3
      | _ => rfl
  | @invalid t p i pat _ h1 h2 h3 h4 =>
    show (regexpMatchFn env t [.av p, .av i] start).1 = _
    unfold HasText at h3
    simp only [regexpMatchFn, h1, h2, if_true, h3]
    have hgp := hg pat
    rw [run_bind]
    rcases hr : getRegex env pat start with ⟨e' | m', w1⟩
    · rw [h4, hr] at hgp; simpa using hgp
    · rw [hr, h4] at hgp; cases hgp
  | @input t p i pat m h1 h2 h3 h4 h5 =>
    show (regexpMatchFn env t [.av p, .av i] start).1 = _
    unfold HasText at h3
    simp only [regexpMatchFn, h1, h2, if_true, h3]
    have hgp := hg pat
    rw [run_bind]
    rcases hr : getRegex env pat start with ⟨e' | m', w1⟩
    · rw [hr, h4] at hgp; cases hgp
    · rcases hv : i.value with _ | n
      · rfl
      · cases n with
        | str s => exact absurd ⟨s, hv⟩ h5
        | _ => rfl

/-- What is not rejected means something. -/
private theorem rejects_total (re : String → Except Exc (String → Bool)) (f : Func) (args : List PyVal) (hf : StandardFunction f)
    (h : ∀ e, ¬ Rejects re f args e) : ∃ x, FuncMeans re f args x := by
  have hcount : TakesArgs f args.length := Classical.byContradiction fun k => h _ (.count k)
  have two : ∀ {l : List PyVal}, l.length = 2 → ∃ a b, l = [a, b] := by
    intro l hl
    match l, hl with
    | [a, b], _ => exact ⟨a, b, rfl⟩
  have one : ∀ {l : List PyVal}, l.length = 1 → ∃ a, l = [a] := by
    intro l hl
    match l, hl with
    | [a], _ => exact ⟨a, rfl⟩
  have boolOf : ∀ P : Prop, ∃ b : Bool, b = true ↔ P := fun P => by
    rcases Classical.em P with h | h
    · exact ⟨true, by simp [h]⟩
    · exact ⟨false, by simp [h]⟩
  have no : ∀ {P : Prop} {e}, (¬ P → Rejects re f args e) → P := fun {P e} k => Classical.byContradiction fun hp => h e (k hp)
  cases f with
  | equal t =>
    obtain ⟨a, b, rfl⟩ := two hcount
    obtain ⟨ha, hb⟩ := no .equal
    obtain ⟨a, rfl, ha⟩ := isInst_av ha
    obtain ⟨b, rfl, hb⟩ := isInst_av hb
    obtain ⟨r, hr⟩ := boolOf (SameValue a.value b.value)
    exact ⟨_, .equal ha hb hr⟩
  | matchFn t =>
    obtain ⟨a, b, rfl⟩ := two hcount
    obtain ⟨ha, hb⟩ := no .matchFn
    obtain ⟨a, rfl, ha⟩ := isInst_av ha
    obtain ⟨b, rfl, hb⟩ := isInst_av hb
    have : ∃ r, a.pyEq b = .ok r := no fun k => .incomparable ha hb fun r hr => k ⟨r, hr⟩
    obtain ⟨r, hr⟩ := this
    exact ⟨_, .matchFn ha hb hr⟩
  | bag t =>
    obtain ⟨vs, rfl, hvs⟩ := all_av (no .bag)
    exact ⟨_, .bag hvs⟩
  | oneAndOnly t =>
    obtain ⟨x, rfl⟩ := one hcount
    obtain ⟨⟨c, items, rfl, hc⟩, c', v, hv⟩ := no .oneAndOnly
    injection hv with hv
    injection hv with h1 h2
    subst h2
    exact ⟨_, .oneAndOnly hc⟩
  | atLeastOneMemberOf t =>
    obtain ⟨a, b, rfl⟩ := two hcount
    obtain ⟨⟨c, vs, rfl, hc⟩, c', ws, rfl, hc'⟩ := no .atLeastOneMemberOf
    obtain ⟨r, hr⟩ := boolOf (∃ v ∈ vs, ∃ w ∈ ws, SameValue v.value w.value)
    exact ⟨_, .atLeastOneMemberOf hc hc' hr⟩
  | and =>
    have hb := no .and
    have : ∃ bs : List Bool, args = bs.map (.native ∘ .bool) := by
      clear h hcount no hf
      induction args with
      | nil => exact ⟨[], rfl⟩
      | cons a args ih =>
        obtain ⟨b, rfl⟩ := hb a (by simp)
        obtain ⟨bs, rfl⟩ := ih fun x hx => hb x (by simp [hx])
        exact ⟨b :: bs, rfl⟩
    obtain ⟨bs, rfl⟩ := this
    obtain ⟨r, hr⟩ := boolOf (∀ b ∈ bs, b = true)
    exact ⟨_, .and hr⟩
  | not =>
    match args, hcount with
    | [], _ => exact absurd .notNothing (h _)
    | [x], _ =>
      obtain ⟨b, rfl⟩ := no .not
      obtain ⟨r, hr⟩ := boolOf (b = false)
      exact ⟨_, .not hr⟩
    | _ :: _ :: _, k => simp [TakesArgs] at k
  | round =>
    obtain ⟨x, rfl⟩ := one hcount
    by_cases h1 : ∃ i, x = .native (.int i)
    · obtain ⟨i, rfl⟩ := h1; exact ⟨_, .roundInt⟩
    by_cases h2 : ∃ b, x = .native (.bool b)
    · obtain ⟨b, rfl⟩ := h2; exact ⟨_, .roundBool⟩
    obtain ⟨q, rfl⟩ := no (.round h1 h2)
    cases q with
    | nan => exact absurd .roundNan (h _)
    | inf s => exact absurd .roundInf (h _)
    | fin q => exact ⟨_, .roundFloat (roundHalfEven_nearest q)⟩
  | concatenate t =>
    have hl : ¬ args.length < 2 := fun k => h _ (.concatenateCount k)
    match args, hl with
    | [], hl | [_], hl => simp at hl
    | a :: b :: rest, _ =>
      obtain ⟨ha, hr⟩ := no (.concatenate (by simp))
      obtain ⟨v, rfl, hv⟩ := isInst_av ha
      obtain ⟨vs, hvs, hi⟩ := all_av hr
      have hne : vs ≠ [] := by rintro rfl; cases hvs
      rw [hvs] at h no ⊢
      obtain ⟨ht, hn⟩ := no (.concatenateText hne hv hi)
      obtain ⟨s, hs⟩ := ht v (by simp)
      obtain ⟨texts, htx⟩ := each_total (l := vs) fun u hu => ht u (by simp [hu])
      exact ⟨_, .concatenate hv hne hi hs htx hn⟩
  | regexpMatch t =>
    obtain ⟨a, b, rfl⟩ := two hcount
    obtain ⟨ha, hb⟩ := no .regexpMatch
    obtain ⟨p, rfl, hp⟩ := isInst_av ha
    obtain ⟨i, rfl, hi⟩ := isInst_av hb
    obtain ⟨pat, hpat⟩ := no (.pattern hp hi)
    cases hre : re pat with
    | error e => exact absurd (.invalid hp hi hpat hre) (h _)
    | ok m =>
      obtain ⟨s, hs⟩ := no (.input hp hi hpat hre)
      exact ⟨_, .regexpMatch hp hi hpat hs hre⟩
  | custom g => cases hf

/-- C103: with which exception each standard function fails, for all arguments and after any history. -/
theorem C103_exceptions (env : Env) (f : Func) (hf : StandardFunction f) (args : List PyVal) {w : World}
    (hw : History env.re w) (e : Exc) : (f.evaluate env args w).1 = .error e ↔ Rejects env.re f args e := by
  rw [(func_stable env f args).den (history_coh hw)]
  constructor
  · intro h
    by_cases k : ∃ e', Rejects env.re f args e'
    · obtain ⟨e', k⟩ := k
      have := rejects_sound k hf
      rw [h] at this
      injection this with this
      exact this ▸ k
    · obtain ⟨x, hx⟩ := rejects_total env.re f args hf fun e' k' => k ⟨e', k'⟩
      rw [← func_den, h] at hx
      cases hx
  · exact fun h => rejects_sound h hf

/-- C103: the boolean functions, equality and the functions on bags but -bag, called with the right number of arguments,
fail with an exception of XACML contexts. -/
theorem C103_context_partial (env : Env) (f : Func) (hf : ContextChecked f) (args : List PyVal) (hn : TakesArgs f args.length)
    {w : World} (hw : History env.re w) (e : Exc) (h : (f.evaluate env args w).1 = .error e) :
    e = .xacmlContextError ∨ e = .xacmlContextTypeError := by
  rw [C103_exceptions env f (by cases f <;> first | trivial | cases hf) args hw] at h
  cases h with
  | count k => exact absurd hn k
  | oneAndOnly => exact .inl rfl
  | equal => exact .inr rfl
  | atLeastOneMemberOf => exact .inr rfl
  | and => exact .inr rfl
  | not => exact .inr rfl
  | notNothing => exact .inr rfl
  | _ => cases hf

/-- C103: a wrong number of arguments is a TypeError, as for any Python function. -/
theorem C103_count (env : Env) (f : Func) (hf : StandardFunction f) (args : List PyVal) (hn : ¬ TakesArgs f args.length)
    {w : World} (hw : History env.re w) : (f.evaluate env args w).1 = .error .typeError :=
  (C103_exceptions env f hf args hw _).2 (.count hn)

section
open Samples

/-- C103 is violated by -bag, -regexp-match, concatenate and round: these raise TypeError, ValueError, OverflowError or the
exceptions of the regular expression engine for values they cannot use. -/
theorem C103_violated :
    ((Func.bag stringClass).evaluate env [.av (uri "x")] w0).1 = .error .typeError ∧
    ((Func.regexpMatch stringClass).evaluate env [.av (str "a"), .av (uri "a")] w0).1 = .error .typeError ∧
    ((Func.regexpMatch stringClass).evaluate env [.av (str "("), .av (str "a")] w0).1 = .error .reError ∧
    ((Func.concatenate stringClass).evaluate env [.av (str "a"), .av stringClass.new] w0).1 = .error .typeError ∧
    (Func.round.evaluate env [.native (.float .nan)] w0).1 = .error .valueError ∧
    (Func.round.evaluate env [.native (.float (.inf true))] w0).1 = .error .overflowError :=
  ⟨rfl, rfl, rfl, rfl, rfl, rfl⟩

example : ((Func.equal stringClass).evaluate env [.av (str "a"), .av (uri "a")] w0).1 = .error .xacmlContextTypeError := rfl
example : ((Func.oneAndOnly stringClass).evaluate env [.bag ⟨some stringClass, []⟩] w0).1 = .error .xacmlContextError := rfl
example : (Func.not.evaluate env [.native (.bool true), .native (.bool true)] w0).1 = .error .typeError ∧
    ¬ TakesArgs .not [PyVal.native (.bool true), .native (.bool true)].length := ⟨rfl, by simp [TakesArgs]⟩
example : ContextChecked (.equal stringClass) ∧ TakesArgs (.equal stringClass) [PyVal.av (str "a"), .av (uri "a")].length :=
  ⟨trivial, rfl⟩

end

end Xacml
