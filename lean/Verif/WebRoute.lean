import Verif.WebActions
import Verif.Auth
/-
Model of the web API's request routing, origin checks and cross-origin (CORS) headers:
  server/web/handler.go 50-466 (handlers, routing), server/web/request.go 71-84 (mustBeAllowedOrigin),
  server/web/response.go 58-91 (access control headers), server/web/handlerconfig.go 20-31,
  server/web/api/webapi.go 24, 39-43.

Simplifications.  The handler's pattern may have a host part, which all of the mux's patterns then
have in common; the model has paths only (`pre`: the common path prefix without trailing slash).
net/http's mux redirects a request whose path isn't clean before anything of this is run: the model's
paths are clean.  White space is ASCII.  The method handlers are those of `WebActions`; what the
operations respond isn't part of this model.
-/
namespace Gate.WebRoute
open Gate.Auth (str)
open Gate.Web (Effect)

/-! ### Origins -/

/-- `unicode.IsSpace` of ASCII characters. -/
def isSpace (c : UInt8) : Bool := c == 9 || c == 10 || c == 11 || c == 12 || c == 13 || c == 32
/-- `strings.TrimSpace`. -/
def trim (b : Bytes) : Bytes := ((b.dropWhile isSpace).reverse.dropWhile isSpace).reverse

/-- `strings.Fields`: `cur` is the field being read. -/
def fieldsLoop : Bytes → Bytes → List Bytes
  | cur, [] => if cur = [] then [] else [cur]
  | cur, c :: cs =>
    if isSpace c then (if cur = [] then fieldsLoop [] cs else cur :: fieldsLoop [] cs)
    else fieldsLoop (cur ++ [c]) cs
def fields (b : Bytes) : List Bytes := fieldsLoop [] b

/-- The part of `webserver` (handler.go:43-50) which is about origins. -/
structure Conf where
  any : Bool
  origins : List Bytes

/-- handler.go:90-100. -/
def origins : List Bytes → Conf → Conf
  | [], c => c
  | o :: os, c =>
    let o := trim o
    origins os (if o = [] then c else if o = str "*" then { c with any := true } else { c with origins := c.origins ++ [o] })

/-- handler.go:71-100 `newHandler`: `none` is a panic.  The server and the authority are configured. -/
def newHandler (config : List Bytes) : Option Conf :=
  if config = [] then none else some (origins config ⟨false, []⟩)

/-- handler.go:57-69 `NewHandlerWithUnsecuredLocalAuthorization`, without nonce storage.
`strings.Contains(origin, "*")`. -/
def newLocalHandler (config : List Bytes) : Option Conf :=
  if config.any (fun o => o.contains 42) then none else newHandler config

/-- request.go:71-84 `mustBeAllowedOrigin`: true if the request goes on. -/
def allowed (c : Conf) (header : Bytes) : Bool := (fields header).all fun o => c.origins.any fun a => a == o

/-! ### Resources -/

/-- What a path stands for, as decided by the mux (handler.go:121-148) and the handlers' own checks of
the path (179, 206, 240, 266, 332, 376).  `source s k`: module `k` of source `s`. -/
inductive Resource where
  | features
  | redirect (location : Bytes)
  | sources
  | modules
  | module_ (key : Bytes)
  | sourceDir (s : Bytes)
  | source (s : Bytes) (uri : Bytes)
  | instances
  | instance_ (id : Bytes)
deriving DecidableEq, Repr

/-- The closures made by the new…Handler functions. -/
inductive Handler where
  | feature (path : Bytes)
  | redirect (path : Bytes)
  | static (path : Bytes)
  | knownModule (path : Bytes)
  | moduleSource (base path : Bytes) (s : Bytes)
  | instance_ (path : Bytes)
deriving DecidableEq, Repr

/-- webapi.go:39 -/
abbrev pathAPI : Bytes := str "/gate-0/"
/-- webapi.go:40 -/
abbrev pathModule : Bytes := pathAPI ++ str "module"
/-- webapi.go:41 -/
abbrev pathModuleSources : Bytes := pathAPI ++ str "module/"
/-- webapi.go:42 -/
abbrev pathKnownModules : Bytes := pathAPI ++ str "module/sha256/"
/-- webapi.go:43 -/
abbrev pathInstances : Bytes := pathAPI ++ str "instance/"
/-- webapi.go:24 -/
abbrev knownModuleSource : Bytes := str "sha256"

/-- handler.go:102-148: the patterns and their handlers.  `srcs`: the keys of `ModuleSources` (a map:
their order isn't significant, see `mux`). -/
def patterns (pre : Bytes) (srcs : List Bytes) : List (Bytes × Handler) :=
  [ (pre ++ pathAPI, .feature (pre ++ pathAPI)),
    (pre ++ pathModule, .redirect (pre ++ pathModule)),
    ((pre ++ pathInstances).take ((pre ++ pathInstances).length - 1),
      .redirect ((pre ++ pathInstances).take ((pre ++ pathInstances).length - 1))),
    (pre ++ pathInstances, .instance_ (pre ++ pathInstances)),
    (pre ++ pathModuleSources ++ knownModuleSource, .redirect (pre ++ pathModuleSources ++ knownModuleSource)),
    (pre ++ pathKnownModules, .knownModule (pre ++ pathKnownModules)) ] ++
  srcs.flatMap (fun s =>
    [ (pre ++ pathModule ++ s, .redirect (pre ++ pathModule ++ s)),
      (pre ++ pathModule ++ s ++ str "/", .moduleSource (pre ++ pathModule) (pre ++ pathModule ++ s ++ str "/") s) ]) ++
  [ (pre ++ pathModuleSources, .static (pre ++ pathModuleSources)) ]

/-- The longest of two optional matches. -/
def longer (x y : Option (Bytes × Handler)) : Option (Bytes × Handler) :=
  match x, y with
  | none, y => y
  | x, none => x
  | some a, some b => if a.1.length < b.1.length then some b else some a

/-- net/http `ServeMux.match` of Go 1.16: an exact match, otherwise the longest pattern which ends
with a slash and is a prefix of the path. -/
def mux (ps : List (Bytes × Handler)) (path : Bytes) : Option (Bytes × Handler) :=
  match ps.find? fun e => e.1 == path with
  | some e => some e
  | none => ((ps.filter fun e => e.1.getLast? == some 47 && e.1.isPrefixOf path).map some).foldl longer none

/-- The handlers' look at `r.URL.Path`: `none` is `respondPathNotFound`. -/
def locate (path : Bytes) : Handler → Option Resource
  | .feature p => if path ≠ p then none else some .features
  | .redirect p => if path ≠ p then none else some (.redirect (p ++ str "/"))
  | .static p => if path ≠ p then none else some .sources
  | .knownModule p => if path.length = p.length then some .modules else some (.module_ (path.drop p.length))
  | .moduleSource base p s => if path.length = p.length then some (.sourceDir s) else some (.source s (path.drop base.length))
  | .instance_ p => if path.length = p.length then some .instances else some (.instance_ (path.drop p.length))

/-- The resource of a path; `none` is not found. -/
def route (pre : Bytes) (srcs : List Bytes) (path : Bytes) : Option Resource :=
  match mux (patterns pre srcs) path with
  | none => none
  | some e => locate path e.2

/-! ### Methods -/

/-- What a resource's handler does. -/
inductive Act where
  | moved (location : Bytes)
  | noContent
  | options
  | notAllowed
  | static
  | features
  | handle (h : Web.Req → Web.M Unit)

/-- The methods which are in the variable `methods`: the value of the Allow header (handler.go:184, 211,
245, 269, 288, 337, 354, 388, 409). -/
def allowHeader : Resource → List String
  | .features | .redirect _ | .sources | .sourceDir _ | .instances => ["OPTIONS"]
  | .modules | .source _ _ | .instance_ _ => ["OPTIONS", "POST"]
  | .module_ _ => ["OPTIONS", "POST", "PUT"]

/-- The value of Access-Control-Allow-Methods: `"GET, HEAD, "+methods` in all handlers. -/
def corsMethods (r : Resource) : List String := ["GET", "HEAD"] ++ allowHeader r

/-- The switches on `r.Method`. -/
def act (r : Resource) (method : String) : Act :=
  match r with
  | .redirect l =>
    if method = "GET" ∨ method = "HEAD" then .moved l else if method = "OPTIONS" then .options else .notAllowed
  | .sources =>
    if method = "GET" ∨ method = "HEAD" then .static else if method = "OPTIONS" then .options else .notAllowed
  | .features =>
    if method = "GET" ∨ method = "HEAD" then .features else if method = "OPTIONS" then .options else .notAllowed
  | .modules =>
    if method = "GET" ∨ method = "HEAD" then .noContent else if method = "OPTIONS" then .options
    else if method = "POST" then .handle Web.postKnownModules else .notAllowed
  | .module_ _ =>
    if method = "GET" ∨ method = "HEAD" then .handle Web.getKnownModule
    else if method = "PUT" then .handle Web.putKnownModule
    else if method = "POST" then .handle Web.postKnownModule
    else if method = "OPTIONS" then .options else .notAllowed
  | .sourceDir _ =>
    if method = "GET" ∨ method = "HEAD" then .noContent else if method = "OPTIONS" then .options else .notAllowed
  | .source _ _ =>
    if method = "GET" ∨ method = "HEAD" then .handle Web.getModuleSource
    else if method = "POST" then .handle Web.postModuleSource
    else if method = "OPTIONS" then .options else .notAllowed
  | .instances =>
    if method = "GET" ∨ method = "HEAD" then .noContent
    else if method = "POST" then .handle Web.postInstances
    else if method = "OPTIONS" then .options else .notAllowed
  | .instance_ _ =>
    if method = "GET" ∨ method = "HEAD" then .handle Web.getInstance
    else if method = "POST" then .handle Web.postInstance
    else if method = "OPTIONS" then .options else .notAllowed

/-- Access-Control-Allow-Headers, if it's set (handler.go:256-257, 324, 366-367). -/
def corsHeaders : Resource → List String
  | .modules => ["Authorization"]
  | .module_ _ => ["Authorization", "Content-Type"]
  | .source _ _ => ["Authorization"]
  | .instances => ["Authorization"]
  | .instance_ _ => ["Authorization", "Content-Type"]
  | _ => []

/-! ### Feature query (handler.go:437-466) -/

/-- handler.go:448-463, the loop: the index of the answer, `none` if a feature isn't known. -/
def featureLevel : List String → Nat → Option Nat
  | [], level => some level
  | v :: vs, level =>
    if v = "scope" then featureLevel vs (if level = 0 then 1 else level)
    else if v = "*" then featureLevel vs 2
    else none

/-- The answer's index, or an error. -/
def getFeatures (r : Web.Req) : List Effect × Option Nat :=
  match Web.parseOptionalQuery r with
  | (e, none) => (e, none)
  | (_, some q) =>
    let fs := Web.values q "feature"
    let q := Web.del q "feature"
    match Web.noParams q with
    | (e, none) => (e, none)
    | (_, some _) =>
      if 0 < fs.length ∧ r.acceptJSON = false then ([.error "not acceptable"], none)
      else match featureLevel fs 0 with
        | none => ([.error "unsupported feature"], none)
        | some l => ([], some l)

/-! ### Requests -/

/-- `originHdrs`: values of the Origin headers.  `parts`: what the method handlers look at. -/
structure Request where
  method : String
  path : Bytes
  originHdrs : List Bytes
  parts : Web.Req

/-- The CORS response headers: Access-Control-Allow-Origin, -Methods, -Headers. -/
structure Cors where
  origin : Bytes
  methods : List String
  headers : List String
deriving DecidableEq

inductive Body where
  | forbidden
  | notFound
  | notAllowed (allow : List String)
  | options (allow : List String)
  | moved (location : Bytes)
  | noContent
  | static (level : Nat)
  | effects (es : List Effect)

/-- `cached`: Cache-Control is "public, max-age=3600".  No Vary header is ever set. -/
structure Reply where
  cors : Option Cors
  cached : Bool
  body : Body

/-- response.go:58-91.  `r.Header.Get` is the first value. -/
def accessControl (c : Conf) (r : Request) (res : Resource) : Option Cors :=
  match r.originHdrs with
  | [] => none
  | o :: _ => some ⟨if c.any then str "*" else o, corsMethods res, corsHeaders res⟩

/-- The method's handler.  `handleStatic` (778-784), `respondMethodNotAllowed` (response.go:113-118) and
`respondUnsupportedFeature` allow caching. -/
def respond (res : Resource) (r : Request) : Bool × Body :=
  match act res r.method with
  | .moved l => (false, .moved l)
  | .noContent => (false, .noContent)
  | .options => (false, .options (allowHeader res))
  | .notAllowed => (true, .notAllowed (allowHeader res))
  | .static =>
    if r.parts.raw then (false, .effects [.error "excess query params"])
    else if r.parts.acceptJSON = false then (false, .effects [.error "not acceptable"])
    else (true, .static 0)
  | .features =>
    match getFeatures r.parts with
    | (es, none) => (es == [.error "unsupported feature"], .effects es)
    | (_, some l) => (true, .static l)
  | .handle h => (false, .effects (h r.parts).1)

/-- handler.go:150-169: the handler function.  A refused request ends before the mux. -/
def serve (c : Conf) (pre : Bytes) (srcs : List Bytes) (r : Request) : Reply :=
  if c.any = false ∧ (∃ o ∈ r.originHdrs.head?, o ≠ [] ∧ allowed c o = false) then ⟨none, false, .forbidden⟩
  else
    match route pre srcs r.path with
    | none => ⟨none, false, .notFound⟩
    | some res => ⟨accessControl c r res, (respond res r).1, (respond res r).2⟩

end Gate.WebRoute
