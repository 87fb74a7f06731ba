import Verif.Model.Prog

/-! Reasoning about computations interrupted by other threads. -/
namespace Xacml.Prog
variable {σ α β : Type}

/-- If the other threads keep `I` and make only steps in `G`, then so does this one, and its result
satisfies `Q`. `F` is a fact that steps in `G` do not make false; `K` says it is known to hold. -/
def Ensures (I : σ → Prop) (G : σ → σ → Prop) (F : σ → Prop) (Q : Prop → Except Exc α → Prop) (K : Prop) : Prog σ α → Prop
  | .done x => Q K x
  | .act f k => ∀ s, I s → (K → F s) → I (f s) ∧ G s (f s) ∧
      ∃ K' : Prop, (K' → F (f s)) ∧ Ensures I G F Q K' (k s)

theorem Ensures.bind {I : σ → Prop} {G : σ → σ → Prop} {F : σ → Prop} {P : Prop → Except Exc α → Prop} {Q : Prop → Except Exc β → Prop}
    {t : Prog σ α} {f : α → Prog σ β} {K : Prop} (ht : t.Ensures I G F P K)
    (hok : ∀ K a, P K (.ok a) → (f a).Ensures I G F Q K)
    (herr : ∀ K e, P K (.error e) → Q K (.error e)) : (t >>= f).Ensures I G F Q K := by
  show (Prog.bind f t).Ensures I G F Q K
  induction t generalizing K with
  | done x =>
    cases x with
    | ok a => exact hok K a ht
    | error e => exact herr K e ht
  | act g k ih =>
    intro s hs hK
    obtain ⟨h1, h2, K', h3, h4⟩ := ht s hs hK
    exact ⟨h1, h2, K', h3, ih s h4⟩

/-- One read, then the rest. -/
theorem Ensures.read {γ : Type} {I : σ → Prop} {G : σ → σ → Prop} {F : σ → Prop} (hG : ∀ s, G s s) {Q : Prop → Except Exc β → Prop} {K : Prop} {g : σ → γ}
    {f : γ → Prog σ β} (h : ∀ s, I s → (K → F s) → ∃ K' : Prop, (K' → F s) ∧ (f (g s)).Ensures I G F Q K') :
    (Prog.read g >>= f).Ensures I G F Q K :=
  fun s hs hK => ⟨hs, hG s, h s hs hK⟩

theorem Ensures.imp {I : σ → Prop} {G : σ → σ → Prop} {F : σ → Prop} {P Q : Prop → Except Exc α → Prop} {K : Prop} {t : Prog σ α}
    (h : t.Ensures I G F P K) (hpq : ∀ K x, P K x → Q K x) : t.Ensures I G F Q K := by
  induction t generalizing K with
  | done x => exact hpq K x h
  | act f k ih =>
    intro s hs hK
    obtain ⟨h1, h2, K', h3, h4⟩ := h s hs hK
    exact ⟨h1, h2, K', h3, ih s h4⟩

/-- As long as `G` holds, the steps keep it and do not change `v`. -/
def Frame {γ : Type} (G : σ → Prop) (v : σ → γ) : Prog σ α → Prop
  | .done _ => True
  | .act f k => ∀ s, G s → G (f s) ∧ v (f s) = v s ∧ Frame G v (k s)

theorem Frame.bind {γ : Type} {G : σ → Prop} {v : σ → γ} {t : Prog σ α} {f : α → Prog σ β}
    (ht : t.Frame G v) (hf : ∀ a, (f a).Frame G v) : (t >>= f).Frame G v := by
  show (Prog.bind f t).Frame G v
  induction t with
  | done x =>
    cases x with
    | ok a => exact hf a
    | error e => trivial
  | act g k ih => exact fun s hs => ⟨(ht s hs).1, (ht s hs).2.1, ih s (ht s hs).2.2⟩

theorem Frame.read {γ δ : Type} {G : σ → Prop} {v : σ → γ} {g : σ → δ} {f : δ → Prog σ β}
    (h : ∀ s, G s → (f (g s)).Frame G v) : (Prog.read g >>= f).Frame G v :=
  fun s hs => ⟨hs, rfl, h s hs⟩

end Xacml.Prog
