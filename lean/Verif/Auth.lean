import Verif.Base
/-
Model of the authentication of web API requests:
  server/web/verify.go, server/web/jwt.go, internal/principal/principalid.go,
  internal/principal/principalkey.go, server/database/sql/sql.go CheckNonce,
  scope/scope.go.

Strings are byte lists. JSON parsing and Ed25519 are parameters (any functions).
Answering "401 Unauthorized" is `Res.err`; a Go panic with a non-nil value is `Res.panic`.
(The code ends a refused request by `panic(nil)`, which its top-level handler
swallows, handler.go 156-160; that counts as the error response here.)
-/
namespace Gate.Auth

/-- ASCII string literal as bytes. -/
def str (s : String) : Bytes := s.toList.map fun c => UInt8.ofNat c.toNat

/-! ### Base64 -/

/-- `encoding/base64` URL alphabet: value of a character (`decodeMap`). Standard library,
used at jwt.go:107 and principalkey.go:33. -/
def sextet (c : UInt8) : Option Nat :=
  let n := c.toNat
  if 65 ≤ n ∧ n ≤ 90 then some (n - 65)
  else if 97 ≤ n ∧ n ≤ 122 then some (n - 97 + 26)
  else if 48 ≤ n ∧ n ≤ 57 then some (n - 48 + 52)
  else if n = 45 then some 62
  else if n = 95 then some 63
  else none

/-- Values of all characters; fails at a character out of the alphabet. -/
def sextets : Bytes → Option (List Nat)
  | [] => some []
  | c :: cs =>
    match sextet c, sextets cs with
    | some v, some vs => some (v :: vs)
    | _, _ => none

/-- Four characters make three bytes; a trailing group of three or two makes two or one, and
excess bits are ignored (the encoding is not `Strict()`); a trailing group of one is an error. -/
def groups : List Nat → Option Bytes
  | a :: b :: c :: d :: rest =>
    match groups rest with
    | some bs => some (UInt8.ofNat (a * 4 + b / 16) :: UInt8.ofNat (b % 16 * 16 + c / 4) ::
        UInt8.ofNat (c % 4 * 64 + d) :: bs)
    | none => none
  | [a, b, c] => some [UInt8.ofNat (a * 4 + b / 16), UInt8.ofNat (b % 16 * 16 + c / 4)]
  | [a, b] => some [UInt8.ofNat (a * 4 + b / 16)]
  | [_] => none
  | [] => some []

/-- `base64.RawURLEncoding.Decode`: carriage returns and line feeds are skipped. -/
def decode64 (s : Bytes) : Option Bytes :=
  match sextets (s.filter fun c => c != 10 && c != 13) with
  | some vs => groups vs
  | none => none

/-! ### Principals (internal/principal) -/

/-- principalid.go:22-25 `ID`. -/
structure ID where
  key : Bytes
  s : Bytes
deriving DecidableEq, Repr

/-- principalid.go:27 `LocalID`: the key field of 32 bytes is left zero. -/
def localID : ID := ⟨List.replicate 32 0, str "local"⟩

/-- principalkey.go:27-45 `parseEd25519Key`. -/
def parseKey (x : Bytes) : Option Bytes :=
  if x.length ≠ 43 then none
  else
    match decode64 x with
    | none => none
    | some k => if k.length ≠ 32 then none else some k

/-- principalkey.go:21-25 `ParseEd25519Key`. -/
def parseEd25519Key (x : Bytes) : Option ID :=
  match parseKey x with
  | some k => some ⟨k, str "ed25519:" ++ x⟩
  | none => none

/-- principalid.go:29-45 `ParseID`; splitting at the first colon and comparing the first
part is checking for the prefix. -/
def parseID (s : Bytes) : Option ID :=
  if s.take 8 = str "ed25519:" ∧ (parseKey (s.drop 8)).isSome then
    match parseKey (s.drop 8) with
    | some k => some ⟨k, s⟩
    | none => none
  else if s = str "local" then some localID
  else none

/-- server.go:55, 521, ...: the key of a principal's account in `Server.accounts`
(principalid.go:74 `Raw`). -/
def accountKey (id : ID) : Bytes := id.key

/-! ### Scope strings (verify.go 91-99, scope/scope.go) -/

/-- `strings.SplitN(s, " ", n)` for n > 0; `cur` is the current token reversed. -/
def splitN (sep : UInt8) : Nat → Bytes → Bytes → List Bytes
  | _, cur, [] => [cur.reverse]
  | n, cur, c :: cs =>
    if c = sep ∧ 1 < n then cur.reverse :: splitN sep (n - 1) [] cs
    else splitN sep n (c :: cur) cs

/-- verify.go:91-99 `mustValidateScope`; none is the refusal. -/
def validateScope (s : Bytes) : Option (List Bytes) :=
  let array := splitN 32 10 [] s
  if array.length = 10 ∧ 32 ∈ (array.getD 9 []) then none else some array

/-- `\b` and `[a-z0-9-._]` of scope.go:14 (ASCII). -/
def isWord (c : UInt8) : Bool :=
  let n := c.toNat
  (97 ≤ n && n ≤ 122) || (65 ≤ n && n ≤ 90) || (48 ≤ n && n ≤ 57) || n == 95
def isAlias (c : UInt8) : Bool :=
  let n := c.toNat
  (97 ≤ n && n ≤ 122) || (48 ≤ n && n ≤ 57) || n == 45 || n == 46 || n == 95

/-- scope.go:14-21 `MatchAlias`: `.*` is greedy, so the submatch is the shortest nonempty
suffix which starts at a word boundary and consists of alias characters. `prev` tells if the
preceding character is a word character. -/
def lastAlias (prev : Bool) : Bytes → Bytes
  | [] => []
  | c :: cs =>
    match lastAlias (isWord c) cs with
    | [] => if (prev != isWord c) && (c :: cs).all isAlias then c :: cs else []
    | a => a
def matchAlias (s : Bytes) : Bytes := lastAlias false s

/-- A Go `map[string]string` as a function. -/
abbrev Map := Bytes → Option Bytes

/-- scope.go:27-35, first loop: (aliases, unalias). -/
def aliasLoop : List Bytes → Map × List Bytes → Map × List Bytes
  | [], m => m
  | s :: ss, (al, un) =>
    if matchAlias s ≠ [] then
      match al (matchAlias s) with
      | some _ => aliasLoop ss (al, matchAlias s :: un)
      | none => aliasLoop ss (fun a => if a = matchAlias s then some s else al a, un)
    else aliasLoop ss (al, un)

/-- scope.go:37-42, second loop. -/
def unaliasLoop (un : List Bytes) : List Bytes → Map → Map
  | [], al => al
  | s :: ss, al =>
    if matchAlias s ∈ un then unaliasLoop un ss (fun a => if a = matchAlias s then none else al a)
    else unaliasLoop un ss al

/-- scope.go:23-45 `ComputeAliases`. -/
def computeAliases (names : List Bytes) : Map :=
  let r := aliasLoop names (fun _ => none, [])
  unaliasLoop r.2 names r.1

/-- scope.go:67-72 `Resolve` and the loop of `Context` (83-87), with the aliases which
`Register` (52-61) has computed of the registered names. -/
def resolve (names : List Bytes) (s : Bytes) : Bytes := (computeAliases names s).getD s

/-- scope.go:52-61 `Register`: panics if the name is registered already. The names are kept
sorted; the order has no effect on the aliases. -/
def register (names : List Bytes) (n : Bytes) : Option (List Bytes) :=
  if n ∈ names then none else some (names ++ [n])

/-- scope.go:76-90 `Context` and 92-105 `ContextContains`: `none` is a context without scope. -/
def context (names : List Bytes) (ctx : Option (List Bytes)) (scope : List Bytes) : Option (List Bytes) :=
  if scope.length = 0 ∧ ctx = none then ctx else some (scope.map (resolve names))
def contextContains (ctx : Option (List Bytes)) (scope : Bytes) : Bool :=
  match ctx with
  | none => false
  | some l => l.any fun s => s == scope

/-! ### Tokens -/

/-- webapi.go:138-142 `PublicKey`. -/
structure Jwk where
  kty : Bytes
  crv : Bytes
  x : Bytes
deriving DecidableEq, Repr

/-- webapi.go:154-157 `TokenHeader`: the key is a pointer, nil if the member is missing. -/
structure Header where
  alg : Bytes
  jwk : Option Jwk
deriving DecidableEq, Repr

/-- webapi.go:180-185 `Claims`. -/
structure Claims where
  exp : Int
  aud : List Bytes
  nonce : Bytes
  scope : Bytes
deriving DecidableEq, Repr

/-- The server's configuration: handler.go:40-52 and config. -/
structure Server where
  loc : Bool
  identity : Bytes
  nonceStorage : Bool
  names : List Bytes
deriving DecidableEq, Repr

/-- What the request handling depends on besides the token: the parsers, the signature check
(key, data, signature), and the answer of the nonce storage for (key, nonce, expiry). -/
structure Env where
  header : Bytes → Option Header
  claims : Bytes → Option Claims
  verify : Bytes → Bytes → Bytes → Bool
  nonce : Bytes → Bytes → Int → Bool
  now : Int

/-- Go `int64` subtraction. -/
def sub64 (a b : Int) : Int := toSigned 64 (toUnsigned 64 (a - b))

/-- verify.go:21-35 `mustVerifyExpiration`. -/
def verifyExpiration (s : Server) (exp now : Int) : Res Unit :=
  if exp = 0 ∧ s.loc then .ok ()
  else
    if sub64 exp now < 0 then .err "token has expired"
    else if 900 < sub64 exp now then .err "token expiration is too far in the future"
    else .ok ()

/-- verify.go:37-50 `mustVerifyAudience`. -/
def verifyAudience (s : Server) (aud : List Bytes) : Res Unit :=
  if aud.length = 0 then .ok ()
  else if aud.any fun a => a == s.identity then .ok ()
  else .err "invalid_token"

/-- verify.go:52-73 `mustVerifySignature`; a nil key makes `pri.PublicKey()` panic. -/
def verifySignature (e : Env) (s : Server) (pri : Option ID) (alg data sig : Bytes) : Res Unit :=
  if alg = str "EdDSA" then
    match pri with
    | none => .panic
    | some id => if e.verify id.key data sig then .ok () else .err "invalid_token"
  else if alg = str "none" then
    if sig.length = 0 then
      match pri with
      | some _ => .panic
      | none => if s.loc then .ok () else .panic
    else .err "invalid_token"
  else .err "invalid_token"

/-- verify.go:75-89 `mustVerifyNonce`; a nil key makes `pri.PublicKey()` panic. -/
def verifyNonce (e : Env) (s : Server) (pri : Option ID) (nonce : Bytes) (exp : Int) : Res Unit :=
  if nonce = [] then .ok ()
  else if !s.nonceStorage then .err "nonce not supported"
  else
    match pri with
    | none => .panic
    | some id => if e.nonce id.key nonce exp then .ok () else .err "token has already been used"

/-- jwt.go:137-160 `mustParseJWTHeader`: `header.JWK` is dereferenced without checking for nil. -/
def parseHeader (s : Server) (h : Header) : Res (Option ID) :=
  if h.alg = str "EdDSA" then
    match h.jwk with
    | none => .panic
    | some k =>
      if k.kty = str "OKP" ∧ k.crv = str "Ed25519" then
        match parseEd25519Key k.x with
        | some id => .ok (some id)
        | none => .err "principal key error"
      else .err "invalid_token"
  else if h.alg = str "none" then
    if s.loc then .ok none else .err "invalid_token"
  else .err "invalid_token"

/-- jwt.go:106-114 `mustDecodeJWTComponent`: the destination has `DecodedLen` bytes (48-60). -/
def decodeComponent (src : Bytes) : Res Bytes :=
  match decode64 src with
  | some b => if b.length = src.length * 6 / 8 then .ok b else .err "invalid_token"
  | none => .err "invalid_token"

/-- The result of authentication: the principal and the scope in the request's context. -/
structure Auth where
  id : ID
  scope : Option (List Bytes)
deriving DecidableEq, Repr

/-- jwt.go:83-92, the switch which sets the context's principal. -/
def contextID (s : Server) (pri : Option ID) : Res ID :=
  match pri with
  | some id => .ok id
  | none => if s.loc then .ok localID else .panic

/-- jwt.go:44-95 `mustParseJWT` and 97-104 `mustSplitJWS`. -/
def parseJWT (e : Env) (s : Server) (token : Bytes) : Res Auth :=
  match splitN 46 3 [] token with
  | [p0, p1, p2] => do
    let data := token.take (p0.length + 1 + p1.length)
    let hb ← decodeComponent p0
    let pb ← decodeComponent p1
    let sig ← decodeComponent p2
    match e.header hb with
    | none => .err "invalid_token"
    | some header => do
      let pri ← parseHeader s header
      match e.claims pb with
      | none => .err "invalid_token"
      | some claims => do
        verifyExpiration s claims.exp e.now
        verifyAudience s claims.aud
        verifySignature e s pri header.alg data sig
        verifyNonce e s pri claims.nonce claims.exp
        let id ← contextID s pri
        match validateScope claims.scope with
        | none => .err "invalid_token"
        | some l => .ok ⟨id, context s.names none l⟩
  | _ => .err "invalid_token"

end Gate.Auth
