import Mathlib.Data.List.Basic
/-
C170: the server's log. Monitors which print, or pass on, the events (server/monitorutil.go), and the events' names and types (server/event/type.gen.go).

Simplified: an event's own text (its protobuf text format) is any text; strconv.Quote is modelled as the standard library has it, over runes and invalid bytes, with an arbitrary set of printable runes
which doesn't include control characters.
-/
namespace Gate.Log

/-- Event types, server/event/type.gen.go. -/
inductive Ev where
  | failInternal | failNetwork | failProtocol | failRequest | ifaceAccess | instanceConnect | instanceCreateKnown | instanceCreateStream | instanceDebug | instanceDelete | instanceDisconnect | instanceInfo | instanceKill | instanceList | instanceResume | instanceSnapshot | instanceStop | instanceSuspend | instanceUpdate | instanceWait | moduleDownload | moduleInfo | moduleList | modulePin | moduleSourceExist | moduleSourceNew | moduleUnpin | moduleUploadExist | moduleUploadNew
deriving DecidableEq, Repr

/-- EventName, server/event/type.gen.go:5-33. -/
def Ev.name : Ev → String
  | .failInternal => "FAIL_INTERNAL"
  | .failNetwork => "FAIL_NETWORK"
  | .failProtocol => "FAIL_PROTOCOL"
  | .failRequest => "FAIL_REQUEST"
  | .ifaceAccess => "IFACE_ACCESS"
  | .instanceConnect => "INSTANCE_CONNECT"
  | .instanceCreateKnown => "INSTANCE_CREATE_KNOWN"
  | .instanceCreateStream => "INSTANCE_CREATE_STREAM"
  | .instanceDebug => "INSTANCE_DEBUG"
  | .instanceDelete => "INSTANCE_DELETE"
  | .instanceDisconnect => "INSTANCE_DISCONNECT"
  | .instanceInfo => "INSTANCE_INFO"
  | .instanceKill => "INSTANCE_KILL"
  | .instanceList => "INSTANCE_LIST"
  | .instanceResume => "INSTANCE_RESUME"
  | .instanceSnapshot => "INSTANCE_SNAPSHOT"
  | .instanceStop => "INSTANCE_STOP"
  | .instanceSuspend => "INSTANCE_SUSPEND"
  | .instanceUpdate => "INSTANCE_UPDATE"
  | .instanceWait => "INSTANCE_WAIT"
  | .moduleDownload => "MODULE_DOWNLOAD"
  | .moduleInfo => "MODULE_INFO"
  | .moduleList => "MODULE_LIST"
  | .modulePin => "MODULE_PIN"
  | .moduleSourceExist => "MODULE_SOURCE_EXIST"
  | .moduleSourceNew => "MODULE_SOURCE_NEW"
  | .moduleUnpin => "MODULE_UNPIN"
  | .moduleUploadExist => "MODULE_UPLOAD_EXIST"
  | .moduleUploadNew => "MODULE_UPLOAD_NEW"

/-- EventType, server/event/type.gen.go:35-63, and the enumeration of server/event/event.pb.go:38-66. -/
def Ev.type : Ev → Nat
  | .failInternal => 0
  | .failNetwork => 1
  | .failProtocol => 2
  | .failRequest => 3
  | .ifaceAccess => 4
  | .instanceConnect => 20
  | .instanceCreateKnown => 16
  | .instanceCreateStream => 17
  | .instanceDebug => 28
  | .instanceDelete => 19
  | .instanceDisconnect => 21
  | .instanceInfo => 15
  | .instanceKill => 23
  | .instanceList => 14
  | .instanceResume => 25
  | .instanceSnapshot => 26
  | .instanceStop => 18
  | .instanceSuspend => 24
  | .instanceUpdate => 27
  | .instanceWait => 22
  | .moduleDownload => 11
  | .moduleInfo => 6
  | .moduleList => 5
  | .modulePin => 12
  | .moduleSourceExist => 10
  | .moduleSourceNew => 9
  | .moduleUnpin => 13
  | .moduleUploadExist => 8
  | .moduleUploadNew => 7

/-- Type_name, server/event/event.pb.go:71-101: in the order of the numbers. -/
def typeNames : List String := ["FAIL_INTERNAL", "FAIL_NETWORK", "FAIL_PROTOCOL", "FAIL_REQUEST", "IFACE_ACCESS", "MODULE_LIST", "MODULE_INFO", "MODULE_UPLOAD_NEW", "MODULE_UPLOAD_EXIST", "MODULE_SOURCE_NEW", "MODULE_SOURCE_EXIST", "MODULE_DOWNLOAD", "MODULE_PIN", "MODULE_UNPIN", "INSTANCE_LIST", "INSTANCE_INFO", "INSTANCE_CREATE_KNOWN", "INSTANCE_CREATE_STREAM", "INSTANCE_STOP", "INSTANCE_DELETE", "INSTANCE_CONNECT", "INSTANCE_DISCONNECT", "INSTANCE_WAIT", "INSTANCE_KILL", "INSTANCE_SUSPEND", "INSTANCE_RESUME", "INSTANCE_SNAPSHOT", "INSTANCE_UPDATE", "INSTANCE_DEBUG"]

/-- The Go type's name. -/
def Ev.goName : Ev → String
  | .failInternal => "FailInternal"
  | .failNetwork => "FailNetwork"
  | .failProtocol => "FailProtocol"
  | .failRequest => "FailRequest"
  | .ifaceAccess => "IfaceAccess"
  | .instanceConnect => "InstanceConnect"
  | .instanceCreateKnown => "InstanceCreateKnown"
  | .instanceCreateStream => "InstanceCreateStream"
  | .instanceDebug => "InstanceDebug"
  | .instanceDelete => "InstanceDelete"
  | .instanceDisconnect => "InstanceDisconnect"
  | .instanceInfo => "InstanceInfo"
  | .instanceKill => "InstanceKill"
  | .instanceList => "InstanceList"
  | .instanceResume => "InstanceResume"
  | .instanceSnapshot => "InstanceSnapshot"
  | .instanceStop => "InstanceStop"
  | .instanceSuspend => "InstanceSuspend"
  | .instanceUpdate => "InstanceUpdate"
  | .instanceWait => "InstanceWait"
  | .moduleDownload => "ModuleDownload"
  | .moduleInfo => "ModuleInfo"
  | .moduleList => "ModuleList"
  | .modulePin => "ModulePin"
  | .moduleSourceExist => "ModuleSourceExist"
  | .moduleSourceNew => "ModuleSourceNew"
  | .moduleUnpin => "ModuleUnpin"
  | .moduleUploadExist => "ModuleUploadExist"
  | .moduleUploadNew => "ModuleUploadNew"

/-! ### The generator, internal/cmd/event-types/generate.go:14-39 -/

/-- strings.ToLower of the name without underscores, with strings.Title: a letter is a capital if it's the first one, or after an underscore. -/
def title : Bool → List Char → List Char
  | _, [] => []
  | up, c :: s => if c = '_' then title true s else (if up then c else c.toLower) :: title false s

/-! ### Text -/

/-- An element of a Go string: a rune, or a byte which isn't part of one. -/
inductive Elem where
  | rune (c : Char)
  | bad (b : Fin 128)
deriving DecidableEq, Repr

def hexDigit (n : Nat) : Char := if n < 10 then Char.ofNat (48 + n) else Char.ofNat (87 + n)

/-- The last `k` hexadecimal digits. -/
def hex : Nat → Nat → List Char
  | 0, _ => []
  | k + 1, n => hex k (n / 16) ++ [hexDigit (n % 16)]

/-- strconv's appendEscapedRune, and the invalid bytes of appendQuotedWith. -/
def quoteElem (isPrint : Char → Bool) : Elem → List Char
  | .bad b => '\\' :: 'x' :: hex 2 (128 + b.val)
  | .rune c =>
    if c = '"' then ['\\', c]
    else if c = '\\' then ['\\', c]
    else if isPrint c then [c]
    else if c.toNat = 7 then ['\\', 'a']
    else if c.toNat = 8 then ['\\', 'b']
    else if c.toNat = 12 then ['\\', 'f']
    else if c.toNat = 10 then ['\\', 'n']
    else if c.toNat = 13 then ['\\', 'r']
    else if c.toNat = 9 then ['\\', 't']
    else if c.toNat = 11 then ['\\', 'v']
    else if c.toNat < 32 || c.toNat = 127 then '\\' :: 'x' :: hex 2 c.toNat
    else if c.toNat < 65536 then '\\' :: 'u' :: hex 4 c.toNat
    else '\\' :: 'U' :: hex 8 c.toNat

/-- strconv.Quote: fmt's %q. -/
def quote (isPrint : Char → Bool) (s : List Elem) : List Char := '"' :: (s.flatMap (quoteElem isPrint) ++ ['"'])

/-! ### Monitors -/

/-- An event, its text, and the error's text if there's an error. -/
structure Report where
  ev : Ev
  text : List Char
  err : Option (List Elem)
deriving DecidableEq, Repr

/-- printToLogger, server/monitorutil.go:55-61: the line. -/
def line (isPrint : Char → Bool) (r : Report) : List Char :=
  match r.err with
  | none => r.text ++ "  event:".toList ++ r.ev.name.toList
  | some e => r.text ++ "  event:".toList ++ r.ev.name.toList ++ "  error:".toList ++ quote isPrint e

/-- The loggers there are, and a monitor: what it prints to which logger; `log` is a package's default one. -/
inductive Logger where
  | std | error | event
deriving DecidableEq, Repr

abbrev Monitor := Report → List (Logger × List Char)

/-- server/monitorutil.go:14-22 `defaultMonitor`. -/
def defaultMonitor (isPrint : Char → Bool) : Monitor := fun r => if r.ev.type ≤ Ev.failInternal.type then [(.std, line isPrint r)] else []

/-- server/monitorutil.go:25-31 `MultiMonitor`. -/
def multiMonitor (l : List Monitor) : Monitor := fun r => l.flatMap (· r)

/-- server/monitorutil.go:35-43 `ErrorEventLogger`. -/
def errorEventLogger (isPrint : Char → Bool) : Monitor := fun r => if r.ev.type ≤ Ev.failInternal.type then [(.error, line isPrint r)] else [(.event, line isPrint r)]

/-- server/monitorutil.go:47-53 `ErrorLogger`. -/
def errorLogger (isPrint : Char → Bool) : Monitor := fun r => if r.ev.type ≤ Ev.failInternal.type then [(.error, line isPrint r)] else []

/-- The server's monitor, cmd/gate-server/main/servercmd.go:229-233 and 256; server/server.go:74-76. `verbose` is the configuration, if there's one of gate-server's. -/
def serverMonitor (isPrint : Char → Bool) (verbose : Option Bool) (web : Option Monitor) : Monitor :=
  match verbose, web with
  | none, _ => defaultMonitor isPrint
  | some v, none => if v then errorEventLogger isPrint else errorLogger isPrint
  | some v, some m => multiMonitor [if v then errorEventLogger isPrint else errorLogger isPrint, m]

/-- A history of events reported to a monitor: everything printed, in order. -/
def printed (m : Monitor) (h : List Report) : List (Logger × List Char) := h.flatMap m

end Gate.Log
