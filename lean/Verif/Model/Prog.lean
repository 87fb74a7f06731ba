import Verif.Model.Py

/-!
# Computations cut into steps

What a thread does to state it shares with others. Simplification (here and in the models built on
this): one read or one write of a dictionary entry or attribute is atomic, as it is under CPython's
global interpreter lock.
-/
namespace Xacml

/-- The rest of a computation: its result, or one step on the shared state and, depending on the
state found, what follows. -/
inductive Prog (σ α : Type) where
  | done (x : Except Exc α)
  | act (f : σ → σ) (k : σ → Prog σ α)

namespace Prog
variable {σ α β : Type}

/-- Go on with `f` when the result is there; an exception ends the computation. -/
def bind (f : α → Prog σ β) : Prog σ α → Prog σ β
  | .done (.ok a) => f a
  | .done (.error e) => .done (.error e)
  | .act g k => .act g fun s => bind f (k s)

instance : Monad (Prog σ) where
  pure a := .done (.ok a)
  bind t f := bind f t

def throw (e : Exc) : Prog σ α := .done (.error e)
def ofExcept (x : Except Exc α) : Prog σ α := .done x

/-- `try: ... except Exception as e: h(e)`. -/
def handle (h : Exc → Prog σ α) : Prog σ α → Prog σ α
  | .done (.ok a) => .done (.ok a)
  | .done (.error e) => h e
  | .act g k => .act g fun s => handle h (k s)

/-- One step that reads. -/
def read (f : σ → α) : Prog σ α := .act id fun s => .done (.ok (f s))

/-- One step that writes. -/
def write (f : σ → σ) : Prog σ Unit := .act f fun _ => .done (.ok ())

/-- Without interruption. -/
def runAlone : Prog σ α → σ → Except Exc α × σ
  | .done x, s => (x, s)
  | .act f k, s => runAlone (k s) (f s)

end Prog
end Xacml
