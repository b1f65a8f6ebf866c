import Verif.Auth
/-
Model of how Go clients make tokens:
  server/web/api/webapi.go 144-236 (tokens), cmd/gate/main/remote.go 650-706 (`makeAuthorization`), and
  server/web/jwt.go 30-42 (`mustParseBearerToken`), net/url of Go 1.16 for the audience.

JSON encoding, Ed25519, reading of the identity file and lookup of host names are parameters.
Addresses consist of letters, digits, hyphens, dots, colons and slashes (nothing in them is escaped).
-/
namespace Gate.Token
open Gate.Auth

/-- Character of a sextet in the URL alphabet of `encoding/base64`. -/
def char64 (n : Nat) : UInt8 :=
  UInt8.ofNat (if n < 26 then 65 + n else if n < 52 then 97 + (n - 26) else if n < 62 then 48 + (n - 52) else if n = 62 then 45 else 95)

/-- Sextets of bytes, without padding. -/
def sextetsOf : Bytes → List Nat
  | a :: b :: c :: rest =>
    a.toNat / 4 :: (a.toNat % 4 * 16 + b.toNat / 16) :: (b.toNat % 16 * 4 + c.toNat / 64) :: c.toNat % 64 :: sextetsOf rest
  | [a, b] => [a.toNat / 4, a.toNat % 4 * 16 + b.toNat / 16, b.toNat % 16 * 4]
  | [a] => [a.toNat / 4, a.toNat % 4 * 16]
  | [] => []

/-- `base64.RawURLEncoding.Encode`. -/
def encode64 (b : Bytes) : Bytes := (sextetsOf b).map char64

/-- What the client does besides this. -/
structure Lib where
  marshalHeader : Header → Bytes
  marshalClaims : Claims → Bytes
  /-- The public key (32 bytes) of a private key. -/
  pub : Bytes → Bytes
  sign : Bytes → Bytes → Bytes

/-- webapi.go:144-151 `PublicKeyEd25519` and 159-165 `TokenHeaderEdDSA`. -/
def headerEdDSA (publicKey : Bytes) : Header := ⟨str "EdDSA", some ⟨str "OKP", str "Ed25519", encode64 publicKey⟩⟩

/-- webapi.go:167-177 `MustEncode`. -/
def encodeHeader (l : Lib) (h : Header) : Bytes := encode64 (l.marshalHeader h)

/-- webapi.go:218-236 `unsignedBearer`. -/
def unsignedBearer (l : Lib) (header : Bytes) (c : Claims) : Bytes :=
  (str "Bearer " ++ header ++ [46]) ++ encode64 (l.marshalClaims c) ++ [46]

/-- webapi.go:189-201 `AuthorizationBearerEd25519`: the signed part is `b[len("Bearer")+1:len(b)-1]`; the
capacity of the buffer is what the encoded signature needs. -/
def bearerEd25519 (l : Lib) (key : Bytes) (header : Bytes) (c : Claims) : Bytes :=
  let b := unsignedBearer l header c
  b ++ encode64 (l.sign key ((b.take (b.length - 1)).drop 7))

/-- webapi.go:203-216 `AuthorizationBearerLocal`. -/
def bearerLocal (l : Lib) (c : Claims) : Bytes := unsignedBearer l (encodeHeader l ⟨str "none", none⟩) c

/-! ### Audience -/

def isLetter (c : UInt8) : Bool := (97 ≤ c && c ≤ 122) || (65 ≤ c && c ≤ 90)
def isDigit (c : UInt8) : Bool := 48 ≤ c && c ≤ 57

/-- url.go `getScheme`: (scheme, rest); `none` is an error.  `i`: index; `acc`: what has been read. -/
def getScheme (whole : Bytes) : Nat → Bytes → Bytes → Option (Bytes × Bytes)
  | _, _, [] => some ([], whole)
  | i, acc, c :: cs =>
    if isLetter c then getScheme whole (i + 1) (acc ++ [c]) cs
    else if isDigit c || c == 43 || c == 45 || c == 46 then
      if i = 0 then some ([], whole) else getScheme whole (i + 1) (acc ++ [c]) cs
    else if c = 58 then
      if i = 0 then none else some (acc, cs)
    else some ([], whole)

/-- `strings.ToLower` of ASCII. -/
def lower (b : Bytes) : Bytes := b.map fun c => if 65 ≤ c ∧ c ≤ 90 then c + 32 else c

/-- A parsed address. -/
structure Addr where
  scheme : Bytes
  opaque_ : Bytes
  host : Bytes
  path : Bytes
deriving DecidableEq

/-- Text until the first slash, and from there. -/
def untilSlash : Bytes → Bytes × Bytes
  | [] => ([], [])
  | c :: cs => if c = 47 then ([], c :: cs) else (c :: (untilSlash cs).1, (untilSlash cs).2)

/-- url.go `parse` of an address. -/
def parseAddr (b : Bytes) : Option Addr :=
  match getScheme b 0 [] b with
  | none => none
  | some (scheme, rest) =>
    let scheme := lower scheme
    if rest.head? ≠ some 47 then
      if scheme ≠ [] then some ⟨scheme, rest, [], []⟩
      else if (untilSlash rest).1.contains 58 then none
      else some ⟨scheme, [], [], rest⟩
    else if (scheme ≠ [] ∨ rest.take 3 ≠ [47, 47, 47]) ∧ rest.take 2 = [47, 47] then
      some ⟨scheme, [], (untilSlash (rest.drop 2)).1, (untilSlash (rest.drop 2)).2⟩
    else some ⟨scheme, [], [], rest⟩

/-- url.go `String` (of URLs which have a scheme). -/
def addrString (a : Addr) : Bytes :=
  (if a.scheme = [] then [] else a.scheme ++ [58]) ++
  (if a.opaque_ ≠ [] then a.opaque_
   else
    (if a.scheme ≠ [] ∨ a.host ≠ [] then
      (if a.host ≠ [] ∨ a.path ≠ [] then [47, 47] else []) ++ a.host
     else []) ++
    (if a.path ≠ [] ∧ a.path.head? ≠ some 47 ∧ a.host ≠ [] then [47] else []) ++ a.path)

/-- remote.go:655-660; `none` is fatal. -/
def audience (address : Bytes) : Option Bytes :=
  match parseAddr address with
  | none => none
  | some a =>
    let a := if a.scheme = [] then { a with scheme := str "https" } else a
    some (addrString { a with path := a.path ++ str "/gate-0/" })

/-! ### makeAuthorization -/

/-- `sort.Strings`: bytewise order. -/
def bytesLe : Bytes → Bytes → Bool
  | [], _ => true
  | _ :: _, [] => false
  | a :: as, b :: bs => if a < b then true else if b < a then false else bytesLe as bs
def join : List Bytes → Bytes
  | [] => []
  | [s] => s
  | s :: ss => s ++ 32 :: join ss

/-- remote.go:662-669. -/
def claims (scope : List Bytes) (aud : Bytes) (now : Int) : Claims :=
  ⟨now + 60, [aud], [], join (scope.mergeSort bytesLe)⟩

/-- remote.go:650-706 `makeAuthorization` with a nonempty identity file, which contains `key`. -/
def makeAuthorization (l : Lib) (address : Bytes) (scope : List Bytes) (key : Bytes) (now : Int) : Option Bytes :=
  match audience address with
  | none => none
  | some aud => some (bearerEd25519 l key (encodeHeader l (headerEdDSA (l.pub key))) (claims scope aud now))

/-- The same with an empty file (688-705): the scheme has to be "http", and the host's addresses loopback ones. -/
def makeLocalAuthorization (l : Lib) (address : Bytes) (loopback : Bytes → Bool) (scope : List Bytes) (now : Int) : Option Bytes :=
  match parseAddr address with
  | none => none
  | some a =>
    match audience address with
    | none => none
    | some aud =>
      if a.scheme ≠ str "http" then none
      else if loopback a.host = false then none
      else some (bearerLocal l (claims scope aud now))

/-! ### mustParseBearerToken -/

def trimLeft (b : Bytes) : Bytes := b.dropWhile (· == 32)
def trimSpaces (b : Bytes) : Bytes := (trimLeft (trimLeft b).reverse).reverse
def untilSpace : Bytes → Option (Bytes × Bytes)
  | [] => none
  | c :: cs => if c = 32 then some ([], cs) else (untilSpace cs).map fun p => (c :: p.1, p.2)

/-- jwt.go:30-42 `mustParseBearerToken`. -/
def parseBearer (b : Bytes) : Res Bytes :=
  match untilSpace (trimSpaces b) with
  | some (t, rest) => if t.length = 6 ∧ lower t = str "bearer" then .ok (trimLeft rest) else .err "invalid_request"
  | none => .err "invalid_request"

/-- jwt.go:18-28, the header's value. -/
def authorize (e : Env) (s : Server) (header : Bytes) : Res Auth := do
  let t ← parseBearer header
  parseJWT e s t

end Gate.Token
