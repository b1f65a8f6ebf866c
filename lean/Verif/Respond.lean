import Verif.Auth
/-
C110: error responses of the web server. server/web/response.go:88-115, 204-325; server/web/websocket.go:44-63;
server/web/request.go:17-36; the error types of internal/error, server/internal/error,
server/access.go:87-119 and server/ratelimit.go.
-/
namespace Gate.Respond
open Gate.Auth (str)

/-- event.FailRequest_Type (server/event/event.proto:65-91), in the order of its numbers. -/
inductive Fail where
  | unspecified | clientDenied | payloadError | principalKeyError | authMissing | authInvalid | authExpired | authReused | authDenied
  | scopeTooLarge | resourceDenied | resourceLimit | rateLimit | moduleNotFound | moduleHashMismatch | moduleError | functionNotFound
  | programError | instanceNotFound | instanceIdInvalid | instanceIdExists | instanceStatus | instanceNoConnect | instanceTransient | instanceDebugger
deriving DecidableEq, Repr

/-- The method set of a Go error value, as far as the type switch of respondServerError can see it.
`text` is what `Error()` returns. An interface assertion succeeds if and only if the methods exist;
wag's ModuleError and ResourceLimit are taken to be marker methods (their other method, `PublicError`,
exists in all types below which have the marker). -/
structure Methods where
  text : Bytes
  publicError : Option Bytes := none
  unauthorized : Bool := false
  resourceLimit : Bool := false
  forbidden : Bool := false
  /-- The time from the call until retry time, in nanoseconds, at each of the two calls. -/
  retryAfter : Option (Int × Int) := none
  notFound : Bool := false
  moduleNotFound : Bool := false
  functionNotFound : Bool := false
  instanceNotFound : Bool := false
  failRequest : Option Fail := none
  programError : Bool := false
  moduleError : Bool := false
  subsystem : Option Bytes := none
deriving DecidableEq

/-- The concrete error types of the codebase. -/
inductive Err where
  /-- server.AccessUnauthorized, access.go:94-102. -/
  | unauthorized (publicReason : Bytes)
  /-- server.AccessForbidden, access.go:111-119. -/
  | forbidden (internalDetails : Bytes)
  /-- resourcelimit.New and Errorf, resourcelimit.go:16-29. -/
  | resourceLimit (s : Bytes)
  /-- server.RetryAfter, ratelimit.go:19-36: times left at the first and the second call. -/
  | rateLimited (left1 left2 : Int)
  /-- notfound.ErrFunction etc., notfound.go:22-33. -/
  | functionNotFound (s : Bytes)
  /-- resourcenotfound.ErrModule, resourcenotfound.go:17-24. -/
  | moduleNotFound
  /-- resourcenotfound.ErrInstance, resourcenotfound.go:32-39. -/
  | instanceNotFound
  /-- failrequest.New and Errorf, failrequest.go:19-35. -/
  | failRequest (t : Fail) (s : Bytes)
  /-- failrequest.Wrap, failrequest.go:38-48. -/
  | wrapped (t : Fail) (cause : Bytes) (pub : Bytes)
  /-- badprogram.Err, badprogram.go:17-26. -/
  | badProgram (s : Bytes)
  /-- badmodule.Dual, badmodule.go:13-20. -/
  | badModule (priv pub : Bytes)
  /-- public.Err, publicerror.go:12-15. -/
  | publicErr (s : Bytes)
  /-- runtime.Error, internal/error/runtime/runtimeerror.go:11-18. -/
  | runtime (text subsys : Bytes)
  /-- Any error without special methods (errors.New, fmt.Errorf, *os.PathError, ...). -/
  | other (text : Bytes)
deriving DecidableEq

/-- The methods of each type: the files and lines above. `RetryAfter()` is at least 1 (ratelimit.go:30-36). -/
def methods : Err → Methods
  | .unauthorized s => { text := s, publicError := some s, unauthorized := true }
  | .forbidden s => { text := s, publicError := some (str "access denied"), forbidden := true }
  | .resourceLimit s => { text := s, publicError := some s, resourceLimit := true }
  | .rateLimited d1 d2 =>
    { text := str "request rate limit exceeded", publicError := some (str "request rate limit exceeded"),
      retryAfter := some (if d1 < 1 then 1 else d1, if d2 < 1 then 1 else d2) }
  | .functionNotFound s => { text := s, publicError := some s, notFound := true, functionNotFound := true }
  | .moduleNotFound => { text := str "module not found", publicError := some (str "module not found"), notFound := true, moduleNotFound := true }
  | .instanceNotFound => { text := str "instance not found", publicError := some (str "instance not found"), notFound := true, instanceNotFound := true }
  | .failRequest t s => { text := s, publicError := some s, failRequest := some t }
  | .wrapped t cause p => { text := cause, publicError := some p, failRequest := some t }
  | .badProgram s => { text := s, publicError := some s, programError := true }
  | .badModule priv p => { text := priv, publicError := some p, moduleError := true }
  | .publicErr s => { text := s, publicError := some s }
  | .runtime t sub => { text := t, subsystem := some sub }
  | .other t => { text := t }

/-- Decimal digits of a natural number, with fuel. -/
def digits : Nat → Nat → Bytes
  | 0, _ => []
  | f + 1, n => if n < 10 then [UInt8.ofNat (48 + n)] else digits f (n / 10) ++ [UInt8.ofNat (48 + n % 10)]

/-- `strconv.Itoa`. -/
def itoa (n : Int) : Bytes := if n < 0 then 45 :: digits (n.toNat.succ + (-n).toNat) (-n).toNat else digits (n.toNat + 1) n.toNat

/-- What the client and the monitor see of a failed call. -/
structure Out where
  status : Nat
  headers : List (String × Bytes)
  text : Bytes
  /-- `some type`: FailRequest event; `none`: FailInternal event. -/
  request : Option Fail
  /-- Subsystem field of the FailInternal event (report.go:15-30). -/
  subsystem : Bytes
  /-- The error value's text, which goes to the monitor with the event. -/
  logged : Bytes
deriving DecidableEq

/-- `time.Second`. -/
abbrev second : Int := 1000000000

/-- `Www-Authenticate` value (response.go:251). Identity is quoted by `%q`, here taken as already quoted. -/
def wwwAuthenticate (identity : Bytes) : Bytes := str "Bearer realm=" ++ identity

/-- The type switch of respondServerError, response.go:245-316: status, default text, internal, request type, headers. -/
def classify (identity : Bytes) (x : Methods) : Nat × Bytes × Bool × Fail × List (String × Bytes) :=
  if x.unauthorized then (401, str "unauthorized", false, .authDenied, [("Www-Authenticate", wwwAuthenticate identity)])
  else if x.resourceLimit then (403, str "resource limit reached", false, .resourceLimit, [])
  else if x.forbidden then (403, str "forbidden", false, .resourceDenied, [])
  else match x.retryAfter with
    | some (d1, d2) =>
      (429, str "too many requests", false, .rateLimit,
        if d1 ≠ 0 then [("Retry-After", itoa (if d2.tdiv second = 0 then 1 else d2.tdiv second))] else [])
    | none =>
      if x.notFound then
        if x.moduleNotFound then (404, str "module not found", false, .moduleNotFound, [])
        else if x.functionNotFound then (404, str "function not found", false, .functionNotFound, [])
        else if x.instanceNotFound then (404, str "instance not found", false, .instanceNotFound, [])
        else (404, str "not found", false, .unspecified, [])
      else match x.failRequest with
        | some t => (400, str "bad request", false, t, [])
        | none =>
          if x.programError then (400, str "bad program", false, .programError, [])
          else if x.moduleError then (400, str "bad module", false, .moduleError, [])
          else (500, str "internal server error", true, .unspecified, [])

/-- `public.Error`, publicerror.go:17-24. -/
def publicText (x : Methods) (alternative : Bytes) : Bytes := x.publicError.getD alternative

/-- respondServerError, response.go:237-325; reportInternalError and reportRequestError, report.go:15-61.
The event's source, module, function and instance fields are left out. -/
def respondMethods (identity : Bytes) (x : Methods) : Out :=
  let c := classify identity x
  { status := c.1, headers := c.2.2.2.2, text := publicText x c.2.1, request := if c.2.2.1 then none else some c.2.2.2.1,
    subsystem := if c.2.2.1 then x.subsystem.getD [] else [], logged := x.text }

def respond (identity : Bytes) (e : Err) : Out := respondMethods identity (methods e)

/-! ### Writers -/

/-- An HTTP response. -/
structure Http where
  status : Nat
  headers : List (String × Bytes)
  body : Bytes
deriving DecidableEq

/-- requestResponseWriter.SetHeader and WriteError (response.go:107-113) with `respond` (88-96).
`acceptsText` is request.go:17-36. -/
def http (acceptsText : Bool) (o : Out) : Http :=
  if acceptsText then ⟨o.status, o.headers ++ [("Content-Type", str "text/plain; charset=utf-8")], o.text ++ [10]⟩
  else ⟨o.status, o.headers, []⟩

/-- websocketResponseWriter.WriteError, websocket.go:57-63. `FormatCloseMessage` is two bytes of code and the text;
the websocket library's `WriteMessage` refuses a control frame with a payload of more than 125 bytes (RFC 6455 section 5.5),
and the error is ignored: then there's no close message. SetHeader does nothing (websocket.go:48). -/
def closeFrame (o : Out) : Option (Nat × Bytes) :=
  let code := if 400 ≤ o.status ∧ o.status < 500 then 1008 else 1011
  if 2 + o.text.length ≤ 125 then some (code, o.text) else none

end Gate.Respond
