import Verif.Auth
/-
Model of the gate program's local commands and the daemon's bus methods which they call:
  cmd/gate/main/clientcmd.go 131-266 (`Main`: addresses, commands, numbers of arguments),
  cmd/gate/main/local.go 50-500 (commands), cmd/gate/main/debug.go 60-130, 281-330,
  cmd/gate-daemon/main/daemoncmd.go 278-500 (methods) and 505-800 (what they do with the server).

The bus library delivers a call to the method of the name, if the types of the arguments are those of the
method's parameters, and otherwise answers with an error.  Flags, configuration files, printing and exit codes
aren't modelled; `flag.Args()` are the arguments after the command's name and options.  Remote parts of `pull`
and `push` are C148's.
-/
namespace Gate.LocalCmd
open Gate.Auth (str)

/-- The files which the client passes. -/
inductive Fd where
  | suspend | stdin | stdout | debug
  /-- A file opened by name. -/
  | file (name : Bytes)
  /-- An end of a pipe made by the client. -/
  | pipeR | pipeW
deriving DecidableEq

/-- Bus values. -/
inductive Val where
  | s (b : Bytes)
  | as (l : List Bytes)
  | b (v : Bool)
  | h (f : Fd)
  | x (n : Int)
  | ay (b : Bytes)
deriving DecidableEq

/-- How a program gets started. -/
structure Launch where
  function : Bytes
  transient : Bool
  suspend : Bool
  tags : List Bytes
  scope : List Bytes
  debugLog : Option Fd
deriving DecidableEq

/-- What the daemon does with the server. -/
inductive Op where
  | newInstance (module_ : Bytes) (l : Launch)
  | uploadInstance (file : Fd) (pin : Bool) (tags : List Bytes) (l : Launch)
  /-- doCall: like the previous ones, with (suspend, r, w), until the instance stops. -/
  | call (module_ : Bytes) (l : Launch) (suspend r w : Fd)
  | callUpload (file : Fd) (pin : Bool) (tags : List Bytes) (l : Launch) (suspend r w : Fd)
  | connect (id : Bytes) (r w : Fd)
  | debug (id req : Bytes)
  | delete (id : Bytes)
  | download (to : Fd) (module_ : Bytes)
  | instanceInfo (id : Bytes)
  | moduleInfo (module_ : Bytes)
  | scope
  | instances
  | modules
  | pin (module_ : Bytes) (tags : List Bytes)
  | resume (id function : Bytes) (scope : List Bytes) (debugLog : Option Fd)
  | snapshot (id : Bytes) (pin : Bool) (tags : List Bytes)
  | unpin (module_ : Bytes)
  | update (id : Bytes) (persist : Bool) (tags : List Bytes)
  | upload (file : Fd) (length : Int) (hash : Bytes) (pin : Bool) (tags : List Bytes)
  | wait (id : Bytes)
  | kill (id : Bytes)
  | suspend (id : Bytes)
deriving DecidableEq

/-- daemoncmd.go:781-788 `invokeOptions`. -/
def debugLog (debugFD : Fd) (debugLogging : Bool) : Option Fd := if debugLogging then some debugFD else none

/-- daemoncmd.go:278-500 `methods`: `none` is an error of the bus. -/
def dispatch (method : String) (args : List Val) : Option Op :=
  if method = "Call" then
    match args with
    | [.s moduleID, .s function, .as instanceTags, .as scope, .h suspendFD, .h rFD, .h wFD, .h debugFD, .b debugLogging] =>
      some (.call moduleID ⟨function, true, false, instanceTags, scope, debugLog debugFD debugLogging⟩ suspendFD rFD wFD)
    | _ => none
  else if method = "CallFile" then
    match args with
    | [.h moduleFD, .b modulePin, .as moduleTags, .s function, .as instanceTags, .as scope, .h suspendFD, .h rFD, .h wFD, .h debugFD, .b debugLogging] =>
      some (.callUpload moduleFD modulePin moduleTags ⟨function, true, false, instanceTags, scope, debugLog debugFD debugLogging⟩ suspendFD rFD wFD)
    | _ => none
  else if method = "ConnectInstance" then
    match args with
    | [.s instanceID, .h rFD, .h wFD] => some (.connect instanceID rFD wFD)
    | _ => none
  else if method = "DebugInstance" then
    match args with
    | [.s instanceID, .ay req] => some (.debug instanceID req)
    | _ => none
  else if method = "DeleteInstance" then
    match args with
    | [.s instanceID] => some (.delete instanceID)
    | _ => none
  else if method = "DownloadModule" then
    match args with
    | [.h moduleFD, .s moduleID] => some (.download moduleFD moduleID)
    | _ => none
  else if method = "GetInstanceInfo" then
    match args with
    | [.s instanceID] => some (.instanceInfo instanceID)
    | _ => none
  else if method = "GetModuleInfo" then
    match args with
    | [.s moduleID] => some (.moduleInfo moduleID)
    | _ => none
  else if method = "GetScope" then
    match args with
    | [] => some .scope
    | _ => none
  else if method = "Launch" then
    match args with
    | [.s moduleID, .s function, .b suspend, .as instanceTags, .as scope, .h debugFD, .b debugLogging] =>
      some (.newInstance moduleID ⟨function, false, suspend, instanceTags, scope, debugLog debugFD debugLogging⟩)
    | _ => none
  else if method = "LaunchFile" then
    match args with
    | [.h moduleFD, .b modulePin, .as moduleTags, .s function, .b suspend, .as instanceTags, .as scope, .h debugFD, .b debugLogging] =>
      some (.uploadInstance moduleFD modulePin moduleTags ⟨function, false, suspend, instanceTags, scope, debugLog debugFD debugLogging⟩)
    | _ => none
  else if method = "ListInstances" then
    match args with
    | [] => some .instances
    | _ => none
  else if method = "ListModules" then
    match args with
    | [] => some .modules
    | _ => none
  else if method = "PinModule" then
    match args with
    | [.s moduleID, .as tags] => some (.pin moduleID tags)
    | _ => none
  else if method = "ResumeInstance" then
    match args with
    | [.s instanceID, .s function, .as scope, .h debugFD, .b debugLogging] => some (.resume instanceID function scope (debugLog debugFD debugLogging))
    | _ => none
  else if method = "Snapshot" then
    match args with
    | [.s instanceID, .as moduleTags] => some (.snapshot instanceID true moduleTags)
    | _ => none
  else if method = "UnpinModule" then
    match args with
    | [.s moduleID] => some (.unpin moduleID)
    | _ => none
  else if method = "UpdateInstance" then
    match args with
    | [.s instanceID, .b persist, .as tags] => some (.update instanceID persist tags)
    | _ => none
  else if method = "UploadModule" then
    match args with
    | [.h fd, .x length, .s hash, .as tags] => some (.upload fd length hash true tags)
    | _ => none
  else if method = "WaitInstance" then
    match args with
    | [.s instanceID] => some (.wait instanceID)
    | _ => none
  else if method = "Kill" then
    match args with
    | [.s instanceID] => some (.kill instanceID)
    | _ => none
  else if method = "Suspend" then
    match args with
    | [.s instanceID] => some (.suspend instanceID)
    | _ => none
  else none

/-! ### The client -/

/-- clientcmd.go:33-51 `Config`. -/
structure Conf where
  pin : Bool
  moduleTags : List Bytes
  wait : Bool
  function : Bytes
  instanceTags : List Bytes
  scope : List Bytes
  suspend : Bool
  debugLog : Bytes

/-- What the commands find out: of `import`, whether the file is a regular one, and its length (in either case);
of `pull`, the length announced by the server; of lists, the list's items. -/
structure Env where
  regular : Bool
  length : Int
  items : List Bytes

/-- `strings.Contains` of one character. -/
def has (c : UInt8) (b : Bytes) : Bool := b.contains c

/-- local.go:78, 247: a file or a name. -/
def isFile (module_ : Bytes) : Bool := has 47 module_ || has 46 module_

/-- Slicing of `flag.Args()`: out of range is a panic. -/
def tail (args : List Bytes) (n : Nat) : Option (List Bytes) := if n ≤ args.length then some (args.drop n) else none

/-- `flag.Arg(i)`: "" when there's no such argument. -/
def arg (args : List Bytes) (i : Nat) : Bytes := args.getD i []

/-- The client's calls, in order; or a panic, or an exit. -/
inductive Ran where
  | panic
  | fatal
  | calls (l : List (String × List Val))
deriving DecidableEq

def wants (c : Conf) : Bool := c.debugLog ≠ []
def moduleTags (c : Conf) (t : List Bytes) : List Bytes := if t = [] then c.moduleTags else t
def instanceTags (c : Conf) (t : List Bytes) : List Bytes := if t = [] then c.instanceTags else t

/-- local.go:60-113 call. -/
def call (c : Conf) (args : List Bytes) : Ran :=
  let module_ := arg args 0
  let function := if 1 < args.length then arg args 1 else c.function
  if !isFile module_ then
    .calls [("Call", [.s module_, .s function, .as c.instanceTags, .as c.scope, .h .suspend, .h .stdin, .h .stdout, .h .debug, .b (wants c)])]
  else
    .calls [("CallFile", [.h (.file module_), .b c.pin, .as c.moduleTags, .s function, .as c.instanceTags, .as c.scope, .h .suspend, .h .stdin, .h .stdout, .h .debug, .b (wants c)])]

/-- local.go:231-263 launch. -/
def launch (c : Conf) (args : List Bytes) : Ran :=
  let module_ := arg args 0
  let go (function : Bytes) (tags : List Bytes) : Ran :=
    if !isFile module_ then
      .calls [("Launch", [.s module_, .s function, .b c.suspend, .as tags, .as c.scope, .h .debug, .b (wants c)])]
    else
      .calls [("LaunchFile", [.h (.file module_), .b c.pin, .as c.moduleTags, .s function, .b c.suspend, .as tags, .as c.scope, .h .debug, .b (wants c)])]
  if 1 < args.length then
    match tail args 2 with
    | none => .panic
    | some t => go (arg args 1) (instanceTags c t)
  else go c.function c.instanceTags

/-- local.go:136-491, the other commands; 513-519 `daemonCallInstanceWaiter`. -/
def command (c : Conf) (e : Env) (name : String) (args : List Bytes) : Ran :=
  if name = "call" then call c args
  else if name = "delete" then .calls [("DeleteInstance", [.s (arg args 0)])]
  else if name = "export" then .calls [("DownloadModule", [.h .pipeW, .s (arg args 0)])]
  else if name = "import" then
    match tail args 1 with
    | none => .panic
    | some t => .calls [("UploadModule", [.h (if e.regular then .file (arg args 0) else .pipeR), .x e.length, .s [], .as (moduleTags c t)])]
  else if name = "instances" then .calls (("ListInstances", []) :: e.items.map fun i => ("GetInstanceInfo", [.s i]))
  else if name = "io" then .calls [("ConnectInstance", [.s (arg args 0), .h .stdin, .h .stdout])]
  else if name = "kill" then
    .calls (("Kill", [.s (arg args 0)]) :: if c.wait then [("WaitInstance", [.s (arg args 0)])] else [])
  else if name = "launch" then launch c args
  else if name = "modules" then .calls (("ListModules", []) :: e.items.map fun i => ("GetModuleInfo", [.s i]))
  else if name = "pin" then
    match tail args 1 with
    | none => .panic
    | some t => .calls [("PinModule", [.s (arg args 0), .as (moduleTags c t)])]
  else if name = "pull" then .calls [("UploadModule", [.h .pipeR, .x e.length, .s (arg args 1), .as c.moduleTags])]
  else if name = "push" then .calls [("DownloadModule", [.h .pipeW, .s (arg args 1)])]
  else if name = "repl" then .calls [("ConnectInstance", [.s (arg args 0), .h .pipeR, .h .pipeW])]
  else if name = "resume" then
    .calls [("ResumeInstance", [.s (arg args 0), .s (if 1 < args.length then arg args 1 else c.function), .as c.scope, .h .debug, .b (wants c)])]
  else if name = "show" then .calls [("GetModuleInfo", [.s (arg args 0)])]
  else if name = "snapshot" then
    match tail args 1 with
    | none => .panic
    | some t => .calls [("Snapshot", [.s (arg args 0), .as (moduleTags c t)])]
  else if name = "status" then .calls [("GetInstanceInfo", [.s (arg args 0)])]
  else if name = "suspend" then
    .calls (("Suspend", [.s (arg args 0)]) :: if c.wait then [("WaitInstance", [.s (arg args 0)])] else [])
  else if name = "unpin" then .calls [("UnpinModule", [.s (arg args 0)])]
  else if name = "update" then
    match tail args 1 with
    | none => .panic
    | some t =>
      if instanceTags c t = [] then .fatal
      else .calls [("UpdateInstance", [.s (arg args 0), .b true, .as (instanceTags c t)])]
  else if name = "wait" then .calls [("WaitInstance", [.s (arg args 0)])]
  else .fatal

/-! ### Debugger -/

/-- debug.go:281-300 `build`: the first call which it makes. -/
def buildCall (modkey : Bytes) : String × List Val := ("Download", [.h .pipeW, .s modkey])

/-- local.go:116-131 and debug.go:60-130: the calls; `req` is the encoded request, `key` the module's key in the response. -/
def debug (args : List Bytes) (req key : Bytes) : Ran :=
  let first : String × List Val := ("DebugInstance", [.s (arg args 0), .ay req])
  if arg args 1 = str "bt" ∨ arg args 1 = str "backtrace" ∨ arg args 1 = str "dumptext" then .calls [first, buildCall key]
  else .calls [first]

/-! ### Numbers of arguments -/

/-- The usage strings of local.go:50-470 (commands without one: ""). -/
def usage : List (String × String) :=
  [("call", "module [function]"), ("debug", "instance [command [offset...]]"), ("delete", "instance"), ("export", "module [filename]"),
   ("import", "filename [moduletag...]"), ("instances", ""), ("io", "instance"), ("kill", "instance"),
   ("launch", "module [function [instancetag...]]"), ("modules", ""), ("pin", "module [moduletag...]"), ("pull", "address module"),
   ("push", "address module"), ("repl", "instance"), ("resume", "instance [function]"), ("show", "module"),
   ("snapshot", "instance [moduletag...]"), ("status", "instance"), ("suspend", "instance"), ("unpin", "module"),
   ("update", "instance [instancetag...]"), ("wait", "instance")]

/-- `len(strings.Fields(s))`; `inField`: the previous character belongs to a field. -/
def fields (inField : Bool) : List Char → Nat
  | [] => 0
  | ' ' :: cs => fields false cs
  | _ :: cs => (if inField then 0 else 1) + fields true cs

/-- `req[:strings.Index(req, "[")]`. -/
def untilBracket (s : List Char) : List Char := s.takeWhile (· ≠ '[')

/-- `strings.Contains(s, "...")`. -/
def hasDots : List Char → Bool
  | [] => false
  | c :: cs => (c :: cs).take 3 == ['.', '.', '.'] || hasDots cs

/-- clientcmd.go:250-263: false: the usage is printed and the program ends. -/
def accepts (u : String) (n : Nat) : Bool :=
  if n < fields false (untilBracket u.toList) then false
  else if !hasDots u.toList then n ≤ fields false u.toList
  else true

/-- clientcmd.go:157-264 `Main`, without an address; `none`: the usage is printed. -/
def main (c : Conf) (e : Env) (name : String) (args : List Bytes) : Option Ran :=
  match usage.lookup name with
  | none => none
  | some u => if accepts u args.length then some (command c e name args) else none

end Gate.LocalCmd
