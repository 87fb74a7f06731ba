import Verif.Model.UrlFetch

/-!
# URLs and the environment variable no_proxy
-/
namespace Xacml.Spec

/-- A URL `scheme://user@host:port/path`; user and port may be missing. -/
structure Url where
  scheme : Chars
  user : Option Chars
  host : Chars
  /-- a literal IPv6 address, in brackets -/
  bracketed : Bool
  port : Option Chars
  /-- what follows: path, query and fragment -/
  rest : Chars

/-- The text of the URL. -/
def Url.text (u : Url) : Chars :=
  u.scheme ++ chars% "://" ++ (match u.user with | some i => i ++ ['@'] | none => []) ++
    (if u.bracketed then ['['] ++ u.host ++ [']'] else u.host) ++
    (match u.port with | some p => ':' :: p | none => []) ++ u.rest

/-- Characters with a meaning in URLs, and control characters and white space. -/
def reserved (c : Char) : Bool :=
  (chars% "/?#[]@").contains c || c.toNat ≤ 32 || isPySpace c

/-- The parts contain no delimiters. -/
structure Url.Valid (u : Url) : Prop where
  scheme_start : ∃ c l, u.scheme = c :: l ∧ c.isAlpha = true
  scheme : ∀ c ∈ u.scheme, c.isAlphanum = true ∨ c ∈ chars% "+-."
  user : ∀ i, u.user = some i → ∀ c ∈ i, reserved c = false
  host_some : u.host ≠ []
  host : ∀ c ∈ u.host, reserved c = false ∧ c ≠ '%'
  host_colon : u.bracketed = false → ':' ∉ u.host
  port : ∀ p, u.port = some p → ∀ c ∈ p, reserved c = false
  rest : u.rest = [] ∨ ∃ c l, u.rest = c :: l ∧ c ∈ chars% "/?#"

/-- `host` is an entry of the comma-separated list, perhaps with white space around it. -/
def Listed (noProxy : Option Chars) (host : Chars) : Prop :=
  ∃ text entries pre post, noProxy = some text ∧ text = strJoin [','] entries ∧ (∀ e ∈ entries, ',' ∉ e) ∧
    (pre ++ host ++ post) ∈ entries ∧ (∀ c ∈ pre, isPySpace c = true) ∧ ∀ c ∈ post, isPySpace c = true

end Xacml.Spec
