import Verif.Auth

/-!
# Content negotiation of the web interface

Model of the header checks of server/web/request.go and server/web/content.go, byte by byte, and of the places where
server/web/handler.go calls for them and writes a body.

Simplifications: the white space of `strings.TrimSpace` and the letters of `strings.ToLower` are the ASCII ones.
-/

namespace Gate.Accept
open Gate.Auth (str)

/-- Whitespace which `strings.TrimSpace` removes (ASCII). -/
def isSpace (c : UInt8) : Bool := c == 9 || c == 10 || c == 11 || c == 12 || c == 13 || c == 32

/-- `strings.TrimSpace`. -/
def trim (b : Bytes) : Bytes := ((b.dropWhile isSpace).reverse.dropWhile isSpace).reverse

/-- `strings.Split(s, ",")` (request.go:24). -/
def split : Bytes → List Bytes
  | [] => [[]]
  | c :: cs =>
    if c = 44 then [] :: split cs else
      match split cs with
      | [] => [[c]]
      | t :: ts => (c :: t) :: ts

/-- `strings.SplitN(field, ";", 2)[0]` (request.go:25). -/
def beforeSemicolon (b : Bytes) : Bytes := b.takeWhile (· != 59)

/-- request.go:24-27: the media type of a field. -/
def mediaType (field : Bytes) : Bytes := trim (beforeSemicolon field)

/-- request.go:18-35: the headers' values (`nil` if there is no such header), and the types of the switch. -/
def accepts (types : List Bytes) (headers : List Bytes) : Bool :=
  headers.isEmpty || headers.any fun h => (split h).any fun f => types.contains (mediaType f)

/-- request.go:17-36 `acceptsText`. -/
def acceptsText : List Bytes → Bool := accepts [str "*/*", str "text/plain", str "text/*"]
/-- request.go:38-57 `acceptsJSON`. -/
def acceptsJSON : List Bytes → Bool := accepts [str "*/*", str "application/json", str "application/*"]
/-- request.go:94-114 `mustAcceptApplication`: `false` is the answer 406. -/
def acceptsApplication (required : Bytes) : List Bytes → Bool :=
  accepts [required, str "*/*", str "application/*"]

/-- `strings.ToLower` (ASCII). -/
def lower (b : Bytes) : Bytes := b.map fun c => if 65 ≤ c.toNat ∧ c.toNat ≤ 90 then c + 32 else c

/-- request.go:59-69 `acceptsTrailers`. -/
def acceptsTrailers (headers : List Bytes) : Bool :=
  headers.any fun h => (split (lower h)).any fun f => trim f == str "trailers"

/-- The answers of `mustHaveContentType`. -/
inductive TypeCheck where
  | ok
  /-- 415 -/
  | unsupported
  /-- 400 -/
  | duplicate
deriving DecidableEq

/-- request.go:226-243 `mustHaveContentType`. -/
def haveContentType (t : Bytes) : List Bytes → TypeCheck
  | [v] => if trim (beforeSemicolon v) ≠ t then .unsupported else .ok
  | [] => .unsupported
  | _ => .duplicate

/-- What `mustDecodeContent` makes of the content. -/
inductive Coding where
  | identity
  | gzip
  /-- 415 -/
  | unsupported
deriving DecidableEq

/-- content.go:14-46 `mustDecodeContent`. -/
def decodeContent : List Bytes → Coding
  | [] => .identity
  | [e] => if e = [] ∨ e = str "identity" then .identity else if e = str "gzip" then .gzip else .unsupported
  | _ => .unsupported

/-! ### Handlers which write a body of their own -/

inductive Body where
  | text | json | wasm
deriving DecidableEq

/-- The requests which get a body on success, other than a program's output. -/
inductive Request where
  /-- handler.go:432-436 `handleGetStatic` -/
  | static
  /-- handler.go:438-466 `handleGetFeatures` with the values of the feature parameter -/
  | features (params : List Bytes)
  /-- handler.go:493-496, 824-843 -/
  | download
  /-- handler.go:500-506, 787-804 -/
  | listModules
  /-- handler.go:553-558, 806-822 -/
  | moduleInfo
  /-- handler.go:681-687, 1191-1208 -/
  | listInstances
  /-- handler.go:694-698, 1223-1239 -/
  | instanceInfo
  /-- handler.go:719-722, 1407-1435 -/
  | update
  /-- handler.go:724-727, 1437-1460 -/
  | debug
deriving DecidableEq

/-- A response. `done`: the request's operation was performed. -/
structure Response where
  status : Nat
  body : Option Body
  done : Bool
deriving DecidableEq

/-- response.go:92-100 `respond`. -/
def respond (accept : List Bytes) (status : Nat) : Response :=
  ⟨status, if acceptsText accept then some .text else none, false⟩

/-- `mustAcceptApplication` (request.go:94-114) before the rest. -/
def must (accept : List Bytes) (required : Bytes) (rest : Response) : Response :=
  if acceptsApplication required accept then rest else respond accept 406

/-- The handlers. `performed` tells whether the server's method succeeds; otherwise the error is answered with `status`
(response.go `respondServerError`, C110). The known features are "scope" and "*" (handler.go:449-459). -/
def handle (accept : List Bytes) (performed : Bool) (status : Nat) : Request → Response
  | .static => must accept (str "application/json") ⟨200, some .json, true⟩
  | .features ps =>
    let rest : Response :=
      if ps.all fun p => p == str "scope" || p == str "*" then ⟨200, some .json, true⟩ else respond accept 501
    if ps.isEmpty then rest else must accept (str "application/json") rest
  | .download => must accept (str "application/wasm") (if performed then ⟨200, some .wasm, true⟩ else respond accept status)
  | .listModules | .moduleInfo | .listInstances | .instanceInfo =>
    must accept (str "application/json") (if performed then ⟨200, some .json, true⟩ else respond accept status)
  | .update =>
    if performed then (if acceptsJSON accept then ⟨200, some .json, true⟩ else ⟨204, none, true⟩) else respond accept status
  | .debug => if performed then ⟨200, some .json, true⟩ else respond accept status

/-- handler.go:951-975 (1307-1324 for a connection): the trailing status header is announced and sent. -/
def trailer (te : List Bytes) : Bool := acceptsTrailers te

end Gate.Accept
