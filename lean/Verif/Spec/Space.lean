import Verif.Model.Py

/-!
# Specification: texts without the white space around them
-/
namespace Xacml.Spec
open Xacml

/-- White space in the sense of Python's `str.isspace` (Unicode 6.1 and later): control characters that are
separators, and the characters with category Zs, Zl or Zp. -/
def whiteSpace : List Nat :=
  [0x09, 0x0A, 0x0B, 0x0C, 0x0D, 0x1C, 0x1D, 0x1E, 0x1F, 0x20, 0x85, 0xA0, 0x1680, 0x2000, 0x2001, 0x2002, 0x2003, 0x2004,
   0x2005, 0x2006, 0x2007, 0x2008, 0x2009, 0x200A, 0x2028, 0x2029, 0x202F, 0x205F, 0x3000]

def IsSpace (c : Char) : Prop := c.toNat ∈ whiteSpace

/-- `d` is `t` without the white space around it. -/
def WithoutSpace (t d : List Char) : Prop :=
  ∃ before after, t = before ++ d ++ after ∧ (∀ c ∈ before, IsSpace c) ∧ (∀ c ∈ after, IsSpace c) ∧
    (∀ c, d.head? = some c → ¬ IsSpace c) ∧ (∀ c, d.getLast? = some c → ¬ IsSpace c)

end Xacml.Spec
