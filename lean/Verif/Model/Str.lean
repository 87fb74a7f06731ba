/-!
# Python string and dict operations used by the package
-/
namespace Xacml

/-- `chars% "abc"` is the list of the characters of a literal. -/
macro:max "chars%" s:str : term => do
  let cs := s.getString.toList.toArray.map Lean.Syntax.mkCharLit
  `([$cs,*])

/-- Worker for `str.split(sep)`: `skip` characters of a separator remain to be dropped, `cur` is
the current piece, reversed. -/
def strSplitAux (sep : List Char) : List Char → Nat → List Char → List (List Char)
  | [], _, cur => [cur.reverse]
  | _ :: cs, k + 1, cur => strSplitAux sep cs k cur
  | c :: cs, 0, cur =>
    if sep.isPrefixOf (c :: cs) then cur.reverse :: strSplitAux sep cs (sep.length - 1) []
    else strSplitAux sep cs 0 (c :: cur)

/-- `s.split(sep)` for a non-empty separator (Python built-in). -/
def strSplit (sep s : List Char) : List (List Char) := strSplitAux sep s 0 []

/-- `c.lower()` for one character (Python built-in). Outside ASCII, only U+0130 and U+212A give ASCII letters.
Simplification: other characters outside ASCII stay as they are (Python maps them to characters outside ASCII). -/
def lowerChar (c : Char) : List Char :=
  if c = Char.ofNat 0x130 then ['i', Char.ofNat 0x307] else if c = Char.ofNat 0x212a then ['k'] else [c.toLower]

/-- `s.lower()` (Python built-in). -/
def strLower (s : List Char) : List Char := s.flatMap lowerChar

/-- The characters outside ASCII for which `c.upper()` has ASCII letters in it (Python built-in). -/
def upperSpecial : List (Char × List Char) :=
  [(Char.ofNat 0xdf, ['S', 'S']), (Char.ofNat 0x131, ['I']), (Char.ofNat 0x149, [Char.ofNat 0x2bc, 'N']),
   (Char.ofNat 0x17f, ['S']), (Char.ofNat 0x1f0, ['J', Char.ofNat 0x30c]), (Char.ofNat 0x1e96, ['H', Char.ofNat 0x331]),
   (Char.ofNat 0x1e97, ['T', Char.ofNat 0x308]), (Char.ofNat 0x1e98, ['W', Char.ofNat 0x30a]),
   (Char.ofNat 0x1e99, ['Y', Char.ofNat 0x30a]), (Char.ofNat 0x1e9a, ['A', Char.ofNat 0x2be]),
   (Char.ofNat 0xfb00, ['F', 'F']), (Char.ofNat 0xfb01, ['F', 'I']), (Char.ofNat 0xfb02, ['F', 'L']),
   (Char.ofNat 0xfb03, ['F', 'F', 'I']), (Char.ofNat 0xfb04, ['F', 'F', 'L']), (Char.ofNat 0xfb05, ['S', 'T']),
   (Char.ofNat 0xfb06, ['S', 'T'])]

/-- `c.upper()` for one character (Python built-in). Simplification: characters outside ASCII whose capital has no ASCII
letter stay as they are. -/
def upperChar (c : Char) : List Char := (upperSpecial.lookup c).getD [c.toUpper]

/-- `s[0].upper() + s[1:]`; `none` stands for the IndexError on the empty string.
Models: ndg/xacml/core/functions/__init__.py:449. -/
def strCapitalize : List Char → Option (List Char)
  | [] => none
  | c :: cs => some (upperChar c ++ cs)

/-- `sep.join(parts)` (Python built-in). -/
def strJoin (sep : List Char) : List (List Char) → List Char
  | [] => []
  | [p] => p
  | p :: ps => p ++ sep ++ strJoin sep ps

/-- `d[k] = v` on a Python dict: an existing key keeps its place. -/
def dictSet {κ α} [BEq κ] : List (κ × α) → κ → α → List (κ × α)
  | [], k, v => [(k, v)]
  | (k', v') :: l, k, v => if k' == k then (k', v) :: l else (k', v') :: dictSet l k v

/-- `del d[k]` on a Python dict, for a key that is present. -/
def dictErase {κ α} [BEq κ] : List (κ × α) → κ → List (κ × α)
  | [], _ => []
  | (k', v') :: l, k => if k' == k then dictErase l k else (k', v') :: dictErase l k

/-- `d.get(k)` on a Python dict. -/
def dictGet {κ α} [BEq κ] : List (κ × α) → κ → Option α
  | [], _ => none
  | (k', v') :: l, k => if k' == k then some v' else dictGet l k

end Xacml
