import Verif.Lemmas.Extension
import Verif.Lemmas.Readers
import Verif.Props.Context

/-!
# Lemmas: larger registries read what smaller ones read
-/
namespace Xacml
open Spec

theorem each_mono {α β} {R R' : α → β → Prop} : {l : List α} → {bs : List β} →
    (∀ a ∈ l, ∀ b, R a b → R' a b) → Each R l bs → Each R' l bs
  | [], _, _, h => h
  | a :: l, _, hr, ⟨b, bs', rfl, h1, h2⟩ =>
    ⟨b, bs', rfl, hr a (by simp) b h1, each_mono (fun x hx => hr x (by simp [hx])) h2⟩

theorem lastOf_mono {β} {R R' : XNode → β → Prop} {l o} (hr : ∀ a b, R a b → R' a b) (h : LastOf R l o) :
    LastOf R' l o := by
  obtain ⟨bs, h1, h2⟩ := h
  exact ⟨bs, each_mono (fun a _ => hr a) h1, h2⟩

section
variable {rd rd' : RdEnv} (he : Enlarges rd rd')
include he

theorem isValue_mono {n v} (h : IsValue rd n v) : IsValue rd' n v := by
  obtain ⟨h1, dt, c, r, h2, h3, h4, h5⟩ := h
  exact ⟨h1, dt, c, r, h2, he.classes _ _ h3, he.readers _ _ h4, h5⟩

mutual
theorem isExpr_mono : (n : XNode) → (x : Expr) → IsExpr rd n x → IsExpr rd' n x
  | .other, _, h => h
  | .elem tag a t cs, x, h => by
    simp only [IsExpr] at h ⊢
    rcases h with ⟨v, h, rfl⟩ | h | h | ⟨hn, fid, f, xs, h1, h2, h3, rfl⟩
    · exact .inl ⟨v, isValue_mono he h, rfl⟩
    · exact .inr (.inl h)
    · exact .inr (.inr (.inl h))
    · exact .inr (.inr (.inr ⟨hn, fid, f, xs, h1, he.functions _ _ h2, areExprs_mono cs xs h3, rfl⟩))
theorem areExprs_mono : (l : List XNode) → (xs : List Expr) → AreExprs rd l xs → AreExprs rd' l xs
  | [], _, h => h
  | .other :: l, xs, h => by
    simp only [AreExprs] at h ⊢
    exact areExprs_mono l xs h
  | .elem tag a t cs :: l, xs, h => by
    simp only [AreExprs] at h ⊢
    obtain ⟨y, ys, rfl, h1, h2⟩ := h
    exact ⟨y, ys, rfl, isExpr_mono _ _ h1, areExprs_mono l ys h2⟩
end

theorem isCondition_mono {n c} (h : IsCondition rd n c) : IsCondition rd' n c := by
  obtain ⟨h1, e, x, h2, h3, h4, h5⟩ := h
  exact ⟨h1, e, x, h2, h3, isExpr_mono he _ _ h4, h5⟩

theorem isMatch_mono {cat n m} (h : IsMatch rd cat n m) : IsMatch rd' cat n m := by
  obtain ⟨h1, ⟨mid, h2, h3, h4⟩, dtag, h5, h6, h7, h8⟩ := h
  exact ⟨h1, ⟨mid, h2, h3, he.functions _ _ h4⟩, dtag, h5, h6, lastOf_mono (fun _ _ => isValue_mono he) h7, h8⟩

theorem isEntry_mono {cat n c} (h : IsEntry rd cat n c) : IsEntry rd' cat n c :=
  ⟨h.1, each_mono (fun _ _ _ => isMatch_mono he) h.2⟩

theorem isTarget_mono {n t} (h : IsTarget rd n t) : IsTarget rd' n t := by
  obtain ⟨h1, h2, h3, h4, h5, h6⟩ := h
  exact ⟨h1, h2, each_mono (fun _ _ _ => isEntry_mono he) h3, each_mono (fun _ _ _ => isEntry_mono he) h4,
    each_mono (fun _ _ _ => isEntry_mono he) h5, each_mono (fun _ _ _ => isEntry_mono he) h6⟩

theorem isRule_mono {n r} (h : IsRule rd n r) : IsRule rd' n r := by
  obtain ⟨h1, h2, h3, h4, h5, h6, h7, h8⟩ := h
  exact ⟨h1, h2, h3, h4, h5, h6, lastOf_mono (fun _ _ => isCondition_mono he) h7,
    lastOf_mono (fun _ _ => isTarget_mono he) h8⟩

theorem isPolicy_mono {n p} (h : IsPolicy rd n p) : IsPolicy rd' n p := by
  obtain ⟨h1, h2, hd, rules, h3, h4, h5, h6, h7, h8, h9, h10, h11, h12, h13⟩ := h
  exact ⟨h1, h2, hd, rules, h3, h4, h5, h6, h7, h8, h9, lastOf_mono (fun _ _ => isTarget_mono he) h10, h11,
    each_mono (fun _ _ _ => isRule_mono he) h12, h13⟩
end

/-! ## Policy sets and references -/

/-- If the first computation succeeds, the second one does, with the same result and the same state. -/
def FLe {α} (m m' : FM α) : Prop := ∀ s a s', m s = (.ok a, s') → m' s = (.ok a, s')

theorem FLe.refl {α} (m : FM α) : FLe m m := fun _ _ _ h => h

theorem FLe.bind {α β} {m m' : FM α} {f f' : α → FM β} (h : FLe m m') (hf : ∀ a, FLe (f a) (f' a)) :
    FLe (m >>= f) (m' >>= f') := by
  intro s b s' hb
  simp only [Bind.bind, FM.bind] at hb ⊢
  rcases hm : m s with ⟨r, s1⟩
  rw [hm] at hb
  cases r with
  | error e => simp at hb
  | ok a => rw [h s a s1 hm]; exact hf a s1 b s' hb

theorem FLe.ite {α} {c : Prop} [Decidable c] {a a' b b' : FM α} (ha : FLe a a') (hb : FLe b b') :
    FLe (if c then a else b) (if c then a' else b') := by
  split <;> assumption

theorem FLe.lift {α} {x x' : Except Exc α} (h : ∀ a, x = .ok a → x' = .ok a) : FLe (FM.lift x) (FM.lift x') := by
  intro s a s' ha
  cases x with
  | error e => simp [FM.lift, FM.throw] at ha
  | ok b => rw [h b rfl]; exact ha

section
variable {rd rd' : RdEnv} (he : Enlarges rd rd')
include he

theorem readPolicy_mono {n p} (h : readPolicy rd n = .ok p) : readPolicy rd' n = .ok p :=
  readPolicy_ok.mpr (isPolicy_mono he (readPolicy_ok.mp h))

theorem readTarget_mono {n t} (h : readTarget rd n = .ok t) : readTarget rd' n = .ok t :=
  readTarget_ok.mpr (isTarget_mono he (readTarget_ok.mp h))

theorem readPolicyReg_mono (n : XNode) : FLe (readPolicyReg rd n) (readPolicyReg rd' n) :=
  (FLe.lift fun _ => readPolicy_mono he).bind fun _ => .refl _

variable {res res' : Resolver} (hp : ∀ r, FLe (res.findPolicy r) (res'.findPolicy r))
  (hs : ∀ r, FLe (res.findPolicySet r) (res'.findPolicySet r))
include hp hs

mutual
theorem readPolicySet_mono : (n : XNode) → FLe (readPolicySet rd res n) (readPolicySet rd' res' n)
  | .other => by unfold readPolicySet; exact .refl _
  | .elem tag a t cs => by
    unfold readPolicySet
    exact (FLe.refl _).bind fun _ => (FLe.refl _).bind fun _ => (FLe.refl _).bind fun _ => (FLe.refl _).bind fun _ =>
      (readSetChildren_mono _ cs).bind fun _ => .refl _
theorem readSetChildren_mono (p : Header × List PolicyNode) : (l : List XNode) →
    FLe (readSetChildren rd res p l) (readSetChildren rd' res' p l)
  | [] => by unfold readSetChildren; exact .refl _
  | .other :: l => by
    simp only [readSetChildren]
    exact readSetChildren_mono p l
  | .elem tag a t cs :: l => by
    simp only [readSetChildren]
    refine FLe.bind ?_ fun p' => readSetChildren_mono p' l
    exact .ite (.refl _) (.ite (.refl _) (.ite ((FLe.lift fun _ => readTarget_mono he).bind fun _ => .refl _)
      (.ite (.refl _) (.ite (.refl _) (.ite (.refl _) (.ite (.refl _)
      (.ite ((readPolicyReg_mono he _).bind fun _ => .refl _) (.ite ((hp _).bind fun _ => .refl _)
      (.ite ((readPolicySet_mono _).bind fun _ => .refl _) (.ite ((hs _).bind fun _ => .refl _)
      (.refl _)))))))))))
end

theorem readRoot_mono (n : XNode) : FLe (readRoot rd res n) (readRoot rd' res' n) := by
  unfold readRoot
  repeat' split
  · exact readPolicyReg_mono he n
  · exact readPolicySet_mono he hp hs n
  · exact .refl _
end

theorem urlResolver_mono {rd rd' : RdEnv} (he : Enlarges rd rd') (base : Option String) (fetch : Fetch) (limit : Nat) :
    (∀ r, FLe ((urlResolver rd base fetch limit).findPolicy r) ((urlResolver rd' base fetch limit).findPolicy r)) ∧
    (∀ r, FLe ((urlResolver rd base fetch limit).findPolicySet r)
      ((urlResolver rd' base fetch limit).findPolicySet r)) := by
  induction limit with
  | zero => exact ⟨fun _ => .refl _, fun _ => .refl _⟩
  | succ k ih =>
    have hr : ∀ ref, FLe (fromReference base fetch (readRoot rd (urlResolver rd base fetch k)) ref)
        (fromReference base fetch (readRoot rd' (urlResolver rd' base fetch k)) ref) := fun ref =>
      (FLe.refl _).bind fun _ => (FLe.refl _).bind fun d => readRoot_mono he ih.1 ih.2 d
    constructor
    all_goals
      intro ref s a s' h
      unfold urlResolver at h ⊢
      dsimp only at h ⊢
      split at h
      · exact h
      · rcases hx : fromReference base fetch (readRoot rd (urlResolver rd base fetch k)) ref s with ⟨r, s1⟩
        rw [hx] at h
        cases r with
        | error e => cases h
        | ok b => rw [hr ref s b s1 hx]; exact h

/-! ## Requests -/

/-- Without `getchildren` no attribute can be read, so the classes do not matter. -/
theorem readRequest_noChildren (lib : Etree) (hl : lib.getchildren = false) (cm cm' : List (String × AVClass)) :
    readRequest lib cm = readRequest lib cm' := by
  have ha : readAttribute lib cm = readAttribute lib cm' := by
    funext n
    unfold readAttribute
    simp only [hl, Bool.not_false, if_true]
    rfl
  have has : readAttributes lib cm = readAttributes lib cm' := by
    funext n; unfold readAttributes; rw [ha]
  have hs : readSubject lib cm = readSubject lib cm' := by
    funext n; unfold readSubject; rw [has]
  have hp : readPart lib cm = readPart lib cm' := by
    funext k n; unfold readPart; rw [has]
  have hr : readResource lib cm = readResource lib cm' := by
    funext n
    unfold readResource
    congr 1
    funext _
    generalize elementChildren n.children = l
    generalize ({} : ResourceX) = x
    induction l generalizing x with
    | nil => rfl
    | cons c l ih => simp only [readResourceChildren, ha, ih]
  funext n
  unfold readRequest
  congr 1
  funext _
  generalize elementChildren n.children = l
  generalize ({} : RequestX) = x
  induction l generalizing x with
  | nil => rfl
  | cons c l ih => simp only [readRequestChildren, hs, hp, hr, ih]

section
variable {cm cm' : List (String × AVClass)} (hk : Keeps (fun i => cm.lookup i) (fun i => cm'.lookup i))
include hk

theorem isAttribute_mono {n a} (h : IsAttribute cm n a) : IsAttribute cm' n a := by
  obtain ⟨h1, h2, i, dt, h3, h4, h5, h6, h7, h8⟩ := h
  refine ⟨h1, h2, i, dt, h3, h4, h5, h6, h7, each_mono (fun _ _ v hv => ?_) h8⟩
  obtain ⟨h1, c, h2, h3⟩ := hv
  exact ⟨h1, c, hk _ _ h2, h3⟩

theorem hasAttributes_mono {n l} (h : HasAttributes cm n l) : HasAttributes cm' n l :=
  each_mono (fun _ _ _ => isAttribute_mono hk) h

theorem isRequest_mono {n r} (h : IsRequest cm n r) : IsRequest cm' n r := by
  obtain ⟨h1, h2, h3, h4, h5, h6⟩ := h
  exact ⟨h1, h2, each_mono (fun _ _ _ h => ⟨h.1, hasAttributes_mono hk h.2.1, h.2.2⟩) h3,
    each_mono (fun _ _ _ h => ⟨h.1, hasAttributes_mono hk h.2.1, h.2.2⟩) h4,
    lastOf_mono (fun _ _ h => ⟨h.1, hasAttributes_mono hk h.2⟩) h5,
    lastOf_mono (fun _ _ h => ⟨h.1, hasAttributes_mono hk h.2⟩) h6⟩

theorem readRequest_mono (lib : Etree) {n r} (h : readRequest lib cm n = .ok r) : readRequest lib cm' n = .ok r := by
  cases hl : lib.getchildren with
  | true => exact (C61_request lib hl cm' n r).mpr (isRequest_mono hk ((C61_request lib hl cm n r).mp h))
  | false => rw [← h, readRequest_noChildren lib hl cm' cm]
end

end Xacml
