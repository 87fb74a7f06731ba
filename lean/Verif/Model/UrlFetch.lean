import Verif.Model.PrettyPrint

/-!
# Fetching documents by URL

`ndg/xacml/utils/urlfetcher.py`. The network is a parameter. `urllib.parse.urlparse` (Python standard library) is
modelled as far as the property `hostname` depends on it.
-/
namespace Xacml

/-- Characters that `urlsplit` removes from URLs (`_UNSAFE_URL_BYTES_TO_REMOVE`). -/
def isUrlUnsafe (c : Char) : Bool := c == '\t' || c == '\r' || c == '\n'

/-- The characters of schemes (`scheme_chars`). -/
def isSchemeChar (c : Char) : Bool := c.isAlphanum || c == '+' || c == '-' || c == '.'

/-- Characters that end the network location. -/
def isNetlocEnd (c : Char) : Bool := c == '/' || c == '?' || c == '#'

/-- `urlparse(url).netloc` (Python standard library). -/
def urlNetloc (url : Chars) : Chars :=
  let url := (url.dropWhile fun c => c.toNat ≤ 32).filter fun c => !isUrlUnsafe c
  let scheme := url.takeWhile (· != ':')
  let rest :=
    if url.contains ':' && (scheme.head?.map Char.isAlpha).getD false && scheme.all isSchemeChar then
      url.drop (scheme.length + 1)
    else url
  if (chars% "//").isPrefixOf rest then (rest.drop 2).takeWhile fun c => !isNetlocEnd c else []

/-- `urlparse(url).hostname` (Python standard library). Simplifications: see `lowerChar`; the
checks of what is inside brackets and of characters that normalise to delimiters are taken to succeed. -/
def urlHostname (url : Chars) : Except Exc (Option Chars) :=
  let netloc := urlNetloc url
  if netloc.contains '[' != netloc.contains ']' then .error .valueError
  else
    let hostinfo := (netloc.reverse.takeWhile (· != '@')).reverse
    let host :=
      if hostinfo.contains '[' then ((hostinfo.dropWhile (· != '[')).drop 1).takeWhile (· != ']')
      else hostinfo.takeWhile (· != ':')
    if host.isEmpty then .ok none
    else .ok (some (strLower (host.takeWhile (· != '%')) ++ host.dropWhile (· != '%')))

/-- `_should_use_proxy(url)`, given the value of the environment variable no_proxy.
Models: ndg/xacml/utils/urlfetcher.py:83-98. -/
def shouldUseProxy (noProxy : Option Chars) (url : Chars) : Except Exc Bool := do
  let hostname ← urlHostname url
  pure !(((strSplit [','] (noProxy.getD [])).map stripChars).any fun np => hostname == some np)

/-- What opening a URL gives: a response that can be read or not, an `HTTPError` or another exception. -/
inductive Opened where
  | response (content : Except Exc Chars)
  | httpError (text : Chars)
  | fails (e : Exc)

/-- The network; openers are built with or without the handler that turns proxies off. -/
structure Web where
  opener : (proxiesOff : Bool) → (url : Chars) → Opened

/-- What fetching does to the network. -/
inductive WebEvent where
  | opened (proxiesOff : Bool) (url : Chars)
  | read
  | closed
  deriving DecidableEq

/-- What the functions raise: `Exception(text)`, or an exception raised by something they call. -/
inductive FetchExc where
  | plain (text : Chars)
  | raised (e : Exc)

/-- `open_url(url)`: a response, given by what reading it does. Models: ndg/xacml/utils/urlfetcher.py:46-81. -/
def openUrl (w : Web) (noProxy : Option Chars) (url : Chars) : Except FetchExc (Except Exc Chars) × List WebEvent :=
  match shouldUseProxy noProxy url with
  | .error e => (.error (.raised e), [])
  | .ok use =>
    match w.opener (!use) url with
    | .response c => (.ok c, [.opened (!use) url])
    | .httpError t => (.error (.plain t), [.opened (!use) url])
    | .fails e => (.error (.raised e), [.opened (!use) url])

/-- `fetch_stream_from_url(url)`. Models: ndg/xacml/utils/urlfetcher.py:19-29. -/
def fetchStream (w : Web) (noProxy : Option Chars) (url : Chars) : Except FetchExc (Except Exc Chars) × List WebEvent :=
  openUrl w noProxy url

/-- `fetch_data_from_url(url)`. Models: ndg/xacml/utils/urlfetcher.py:31-44. -/
def fetchData (w : Web) (noProxy : Option Chars) (url : Chars) : Except FetchExc Chars × List WebEvent :=
  match openUrl w noProxy url with
  | (.error e, l) => (.error e, l)
  | (.ok (.error e), l) => (.error (.raised e), l ++ [.read])
  | (.ok (.ok c), l) => (.ok c, l ++ [.read, .closed])

end Xacml
