import Verif.UploadProps
/-
C112: module sources. server/source.go:21-40 (contract), source/http/http.go:40-106, source/ipfs/ipfs.go:43-84, server/server.go:226-249.
-/
namespace Gate.Source
open Gate.Auth (str)
open Gate.Respond (Err)
open Gate.Upload (Upload Env Policy St)

/-- A response of the origin server, as the Go HTTP client gives it: `contentLength` is -1 when unknown; `body` is what can be read, `fails` whether reading ends in an error.
`range` is the result of parsing the Content-Range header with fmt.Sscanf (last byte and total length; `none` when fewer than two numbers were found),
`xLength` of parsing X-Content-Length with strconv.ParseInt. -/
structure Resp where
  status : Nat
  contentLength : Int := -1
  range : Option (Int × Int) := none
  xLength : Option Int := none
  body : Bytes := []
  fails : Bool := false

/-- The client's guarantee about a body whose length is known (net/http): reading it in full gives that many bytes, or ends in an error with fewer. -/
def Transport (r : Resp) : Prop := 0 ≤ r.contentLength → (r.body.length : Int) ≤ r.contentLength ∧ (r.fails = false → (r.body.length : Int) = r.contentLength)

/-- The result of OpenURI: an error, or content (`none` for nil) and its length. -/
inductive Opened where
  | error
  | nil (length : Int)
  | content (r : Resp) (length : Int)

/-- parseContentRange, http.go:96-106. -/
def parseContentRange (r : Resp) : Option (Int × Int) :=
  match r.range with
  | none => none
  | some (last, total) => if last < 0 ∨ total < 0 ∨ last ≥ total then none else some (last + 1, total)

/-- OpenURI of the HTTP source, http.go:40-94, after a response. -/
def httpOpen (maxSize : Nat) (r : Resp) : Opened :=
  if r.status = 200 then
    if r.contentLength < 0 then .error
    else if r.contentLength > maxSize then .nil r.contentLength
    else .content r r.contentLength
  else if r.status = 206 then
    match parseContentRange r with
    | none => .error
    | some (rangeLen, totalLen) =>
      if rangeLen ≠ totalLen ∨ totalLen > maxSize then .nil totalLen
      else if r.contentLength ≥ 0 ∧ r.contentLength ≠ totalLen then .error
      else .content r totalLen
  else if r.status = 404 then .nil 0
  else .error

/-- The last position of the Range header, http.go:47: `bytes=0-%d`. -/
def rangeEnd (maxSize : Nat) : Int := (maxSize : Int) - 1

/-- OpenURI of the IPFS source, ipfs.go:43-84, after a response. -/
def ipfsOpen (maxSize : Nat) (r : Resp) : Opened :=
  if r.status = 200 then
    match r.xLength with
    | none => .error
    | some length => if length > maxSize then .nil length else .content r length
  else if r.status = 404 then .nil 0
  else .error

/-- What SourceModule makes of it, server.go:233-248: an error or the upload to load. -/
def toUpload : Opened → Except Err Upload
  | .error => .error (.other (str "source"))
  | .nil length => if length > 0 then .error (.resourceLimit (str "program size limit exceeded")) else .error .moduleNotFound
  | .content r length => .ok { content := r.body, fails := r.fails, length := length }

end Gate.Source
