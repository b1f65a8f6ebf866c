import Verif.WebsocketProps
/-
C185: what the command tells about the end of a program.

 - cmd/gate/main/local.go:80-108 (call), 504-521 (daemonCallGetInstanceInfo, daemonCallWaitInstance), 621-632 (statusString)
 - cmd/gate/main/remote.go:54-85 (call), 494-504 (callPost), 506-539 (callWebsocket), 541-561 (commandInstance, commandInstanceWaiter), 606-609, 717-723 (unmarshalStatus)
 - server/web/api/webapi.go:272-304 (Status, String), server/api/server.pb.go:36-124 (State, Cause)
 - server/web/handler.go:970-974, 1109-1115, 1252, 1269 and server/web/websocket.go:36-39: what is sent.
 - cmd/gate-daemon/main/daemoncmd.go:569-592, 637-654: what is sent via the bus.

`log.Fatal` writes and exits with status 1; `os.Exit` with the lowest 8 bits of its argument.  Transport errors aren't modelled (`check` is fatal).
-/
namespace Gate.Outcome

/-- server/api: api.Status.  Enumerations are int32. -/
structure Api where
  state : Int
  cause : Int := 0
  result : Int := 0
  error : String := ""
  deriving DecidableEq

/-- server.pb.go:46-53 -/
def stateName? : Int → Option String
  | 0 => some "NONEXISTENT" | 1 => some "RUNNING" | 2 => some "SUSPENDED" | 3 => some "HALTED" | 4 => some "TERMINATED" | 5 => some "KILLED"
  | _ => none

/-- server.pb.go:110-123 -/
def causeName? : Int → Option String
  | 0 => some "NORMAL" | 3 => some "UNREACHABLE" | 4 => some "CALL_STACK_EXHAUSTED" | 5 => some "MEMORY_ACCESS_OUT_OF_BOUNDS"
  | 6 => some "INDIRECT_CALL_INDEX_OUT_OF_BOUNDS" | 7 => some "INDIRECT_CALL_SIGNATURE_MISMATCH" | 8 => some "INTEGER_DIVIDE_BY_ZERO"
  | 9 => some "INTEGER_OVERFLOW" | 10 => some "BREAKPOINT" | 27 => some "ABI_DEFICIENCY" | 28 => some "ABI_VIOLATION" | 29 => some "INTERNAL"
  | _ => none

/-- The String methods: unknown values are written as numbers. -/
def stateString (n : Int) : String := (stateName? n).getD n.repr
def causeString (n : Int) : String := (causeName? n).getD n.repr

/-- webapi.go:273-278 -/
structure Web where
  state : String := ""
  cause : String := ""
  result : Int := 0
  error : String := ""

/-- webapi.go:281-304 -/
def Web.text (s : Web) : String :=
  if s.state = "" then if s.error = "" then "error" else "error: " ++ s.error
  else
    let t :=
      if s.cause ≠ "" then s.state ++ " abnormally: " ++ s.cause
      else if s.state = "HALTED" ∨ s.state = "TERMINATED" then s.state ++ " with result " ++ s.result.repr
      else s.state
    if s.error ≠ "" then t ++ "; error: " ++ s.error else t

/-- local.go:621-632 -/
def statusString (a : Api) : String :=
  ({ state := stateString a.state, cause := if a.cause = 0 then "" else causeString a.cause, result := a.result, error := a.error } : Web).text

/-- What gets through the bus: three values. -/
def bus (a : Api) : Api := { a with error := "" }

/-- protojson: values which are zero are left out, known enumeration values are strings, others are numbers, which encoding/json doesn't store in a string (`none`: fatal). -/
def json (a : Api) : Option Web :=
  match stateName? a.state, causeName? a.cause with
  | some s, some c => some { state := if a.state = 0 then "" else s, cause := if a.cause = 0 then "" else c, result := a.result, error := a.error }
  | _, _ => none

/-- The exit status of the command, and what it says on the terminal or in its error output. -/
structure Said where
  code : Nat
  says : String
  deriving DecidableEq

def fatal (s : String) : Said := ⟨1, s⟩

/-- os.Exit -/
def exit (n : Int) : Nat := (n % 256).toNat

/-- local.go:92-108 -/
def finishLocal (id : String) (a : Api) : Said :=
  if a.state = 2 then ⟨0, id ++ " " ++ statusString a⟩
  else if a.state = 3 then ⟨exit a.result, id ++ " " ++ statusString a⟩
  else if a.state = 4 then ⟨exit a.result, ""⟩
  else if a.state = 5 then fatal (statusString a)
  else fatal (id ++ statusString a)

/-- local.go:80-108: the daemon's answer to a call which has ended in `a`. -/
def callLocal (id : String) (a : Api) : Said := finishLocal id (bus a)

/-- remote.go:81-84 -/
def finishRemote (s : Web) : Said := if s.state ≠ "TERMINATED" ∨ s.cause ≠ "" then fatal s.text else ⟨exit s.result, ""⟩

/-- remote.go:717-723, 503, 81-84; handler.go:972-974. -/
def callPost (a : Api) : Said :=
  match json a with
  | none => fatal "json"
  | some s => if s.error ≠ "" then fatal s.text else finishRemote s

/-- websocket.go:36-39 -/
def hint : Api := { state := 1 }

/-- remote.go:532-536, 81-84: a text message has come. -/
def final (a : Api) : Said := match json a with | none => fatal "json" | some s => finishRemote s

/-- remote.go:524-538: output until a text message comes; `none`: the messages don't end the command (it waits). -/
def wsLoop (a : Api) : List Ws.Msg → Option (List (List UInt8) × Said)
  | [] => none
  | .data b :: l => (wsLoop a l).map fun x => (b :: x.1, x.2)
  | .hint :: _ => some ([], final hint)
  | .status :: _ => some ([], final a)
  | .reply :: _ => some ([], fatal (Web.text {}))
  | .close :: _ => some ([], fatal "close")

/-- remote.go:506-539, 81-84: the server's messages, the status being `a`.  The first message is decoded whatever it is. -/
def callWebsocket (a : Api) : List Ws.Msg → Option (List (List UInt8) × Said)
  | [] => none
  | _ :: l => wsLoop a l

/-! ## Specification -/

/-- What a program's output messages contain. -/
def output (ms : List Ws.Msg) : List (List UInt8) := ms.filterMap fun | .data b => some b | _ => none

/-- The states and causes there are. -/
def Known (a : Api) : Prop := a.state ∈ [0, 1, 2, 3, 4, 5] ∧ a.cause ∈ [0, 3, 4, 5, 6, 7, 8, 9, 10, 27, 28, 29]

instance (a : Api) : Decidable (Known a) := by unfold Known; infer_instance

/-- The program has succeeded: it has halted or terminated by itself with result 0. -/
def Succeeded (a : Api) : Prop := (a.state = 3 ∨ a.state = 4) ∧ a.cause = 0 ∧ a.result = 0

end Gate.Outcome
