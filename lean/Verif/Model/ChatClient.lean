import Verif.Model.ChatRegistry
import Verif.Model.URL

/-!
# The registry as the chat program sees it (`examples/chat/registry.go`)

A call of `Unregister` and the registry that serves it, nothing else running.
-/

set_option autoImplicit false

namespace Goe2ee

/-- registry.go:49: `http.NewRequest` with "http://" + host + "/users/" + name.  `url.Parse` (net/url/url.go) cuts off
what follows `#`, rejects control characters in the rest, cuts off what follows `?`, and unescapes the path and the
fragment; net/http conveys the path as it is.  Simplified: the host is fine; the multiplexer of the registry redirects
requests whose path has an empty segment, `.` or `..`, which is not modelled. -/
def unregisterPath (userName : Bytes) : Except Err Bytes :=
  let target := str "/users/" ++ userName
  let (url, fragment) := cutAt 35#8 target
  if url.any (fun c => c < 32#8 || c == 127#8) then .error (.other "net/url: invalid control character in URL")
  else
    match unescapeURL false (cutAt 63#8 url).1, unescapeURL false fragment with
    | some path, some _ => .ok path
    | _, _ => .error (.other "invalid URL escape")

/-- The status that the registry responded with, if it did. -/
def statusIn (log : List RegEvent) : Option Nat :=
  log.findSome? fun e =>
    match e with
    | .responded _ status _ => some status
    | _ => none

/-- registry.go:47-68: the error, and the registry afterwards.  A handler that panics closes the connection without a
response. -/
def chatUnregister (order : List Bytes) (userName : Bytes) (w : RegWorld) : Option Err × RegWorld :=
  match unregisterPath userName with
  | .error e => (some e, w)
  | .ok path =>
    let w' := ((usersHandler { method := .delete, path, body := none }).run (regExec order 0) w).2
    match statusIn (w'.log.drop w.log.length) with
    | some 204 => (none, w')
    | some _ => (some (.other "unexpected error response"), w')
    | none => (some .eof, w')

end Goe2ee
