import Verif.LocalCmd
/-
C150: the local commands of the `gate` program make the daemon do what they say.
-/
namespace Gate.LocalCmd
open Gate.Auth (str)

/-- What a command line means. -/
inductive Meaning where
  /-- Not a command, or a wrong number of arguments. -/
  | usage
  | refuse
  | ops (l : List Op)
deriving DecidableEq

/-- A module argument with a slash or a dot is a file. -/
def callOp (c : Conf) (m function : Bytes) : Op :=
  let l : Launch := ⟨function, true, false, c.instanceTags, c.scope, if c.debugLog = [] then none else some .debug⟩
  if m.contains 47 ∨ m.contains 46 then .callUpload (.file m) c.pin c.moduleTags l .suspend .stdin .stdout
  else .call m l .suspend .stdin .stdout

def launchOp (c : Conf) (m function : Bytes) (tags : List Bytes) : Op :=
  let l : Launch := ⟨function, false, c.suspend, tags, c.scope, if c.debugLog = [] then none else some .debug⟩
  if m.contains 47 ∨ m.contains 46 then .uploadInstance (.file m) c.pin c.moduleTags l else .newInstance m l

/-- Tags given as arguments replace the configured ones. -/
def tagsOr (t conf : List Bytes) : List Bytes := if t = [] then conf else t

/-- The meanings, as the program's usage texts tell them (clientcmd.go:54-88). -/
def meaning (c : Conf) (e : Env) (name : String) (args : List Bytes) : Meaning :=
  match name, args with
  | "call", [m] => .ops [callOp c m c.function]
  | "call", [m, f] => .ops [callOp c m f]
  | "delete", [i] => .ops [.delete i]
  | "export", [m] => .ops [.download .pipeW m]
  | "export", [m, _] => .ops [.download .pipeW m]
  | "import", f :: tags => .ops [.upload (if e.regular then .file f else .pipeR) e.length [] true (tagsOr tags c.moduleTags)]
  | "instances", [] => .ops (.instances :: e.items.map .instanceInfo)
  | "io", [i] => .ops [.connect i .stdin .stdout]
  | "kill", [i] => .ops (if c.wait then [.kill i, .wait i] else [.kill i])
  | "launch", [m] => .ops [launchOp c m c.function c.instanceTags]
  | "launch", m :: f :: tags => .ops [launchOp c m f (tagsOr tags c.instanceTags)]
  | "modules", [] => .ops (.modules :: e.items.map .moduleInfo)
  | "pin", m :: tags => .ops [.pin m (tagsOr tags c.moduleTags)]
  | "pull", [_, m] => .ops [.upload .pipeR e.length m true c.moduleTags]
  | "push", [_, m] => .ops [.download .pipeW m]
  | "repl", [i] => .ops [.connect i .pipeR .pipeW]
  | "resume", [i] => .ops [.resume i c.function c.scope (if c.debugLog = [] then none else some .debug)]
  | "resume", [i, f] => .ops [.resume i f c.scope (if c.debugLog = [] then none else some .debug)]
  | "show", [m] => .ops [.moduleInfo m]
  | "snapshot", i :: tags => .ops [.snapshot i true (tagsOr tags c.moduleTags)]
  | "status", [i] => .ops [.instanceInfo i]
  | "suspend", [i] => .ops (if c.wait then [.suspend i, .wait i] else [.suspend i])
  | "unpin", [m] => .ops [.unpin m]
  | "update", i :: tags => if tagsOr tags c.instanceTags = [] then .refuse else .ops [.update i true (tagsOr tags c.instanceTags)]
  | "wait", [i] => .ops [.wait i]
  | _, _ => .usage

/-- The program does what is meant. -/
def Performs (r : Option Ran) : Meaning → Prop
  | .usage => r = none
  | .refuse => r = some .fatal
  | .ops l => ∃ cs, r = some (.calls cs) ∧ cs.map (fun p => dispatch p.1 p.2) = l.map some

theorem usage_known (name u : String) (h : usage.lookup name = some u) : (name, u) ∈ usage := by
  have key : ∀ l : List (String × String), l.lookup name = some u → (name, u) ∈ l := by
    intro l
    induction l with
    | nil => intro h; cases h
    | cons p ps ih =>
      obtain ⟨a, b⟩ := p
      intro h
      rw [List.lookup_cons] at h
      by_cases e : (name == a) = true
      · simp only [e] at h
        simp only [Option.some.injEq] at h
        simp only [beq_iff_eq] at e
        subst e h
        simp
      · simp only [Bool.not_eq_true] at e
        simp only [e] at h
        simp [ih h]
  exact key _ h

theorem unknown (name : String) (c : Conf) (e : Env) (args : List Bytes) (h : usage.lookup name = none) :
    Performs (main c e name args) (meaning c e name args) := by
  have hm : main c e name args = none := by simp [main, h]
  rw [hm]
  unfold meaning
  split
  all_goals first | rfl | (exfalso; revert h; decide)

/-- Minimum and maximum numbers of arguments. -/
def range : String → Nat × Option Nat
  | "call" => (1, some 2)
  | "debug" => (1, none)
  | "export" => (1, some 2)
  | "import" => (1, none)
  | "instances" => (0, some 0)
  | "launch" => (1, none)
  | "modules" => (0, some 0)
  | "pin" => (1, none)
  | "pull" => (2, some 2)
  | "push" => (2, some 2)
  | "resume" => (1, some 2)
  | "snapshot" => (1, none)
  | "update" => (1, none)
  | _ => (1, some 1)

theorem accepts_range : ∀ p ∈ usage, ∀ n, accepts p.2 n = true ↔ (range p.1).1 ≤ n ∧ ∀ m, (range p.1).2 = some m → n ≤ m := by
  intro p hp n
  have h : fields false (untilBracket p.2.toList) = (range p.1).1 ∧ (hasDots p.2.toList = true ↔ (range p.1).2 = none) ∧
      (∀ m, (range p.1).2 = some m → fields false p.2.toList = m) := by
    revert p
    decide +kernel
  unfold accepts
  rw [h.1]
  cases hr : (range p.1).2 with
  | none =>
    rw [hr] at h
    simp [h.2.1]
  | some m =>
    rw [hr] at h
    have hd : hasDots p.2.toList = false := by
      have := h.2.1
      simp at this
      exact this
    have hm := h.2.2 m rfl
    simp [hd, hm]

theorem main_of (c : Conf) (e : Env) (name u : String) (args : List Bytes) (h : usage.lookup name = some u) :
    main c e name args = if (range name).1 ≤ args.length ∧ ∀ m, (range name).2 = some m → args.length ≤ m then some (command c e name args) else none := by
  have ha := accepts_range (name, u) (usage_known name u h) args.length
  simp only at ha
  unfold main
  rw [h]
  simp only
  by_cases hx : accepts u args.length = true
  · rw [if_pos hx, if_pos (ha.1 hx)]
  · rw [if_neg hx, if_neg fun hy => hx (ha.2 hy)]

theorem ops_one {r : Option Ran} {p : String × List Val} {o : Op} (h1 : r = some (.calls [p])) (h2 : dispatch p.1 p.2 = some o) :
    Performs r (.ops [o]) := ⟨_, h1, by simp [h2]⟩

theorem dCall (a b : Bytes) (x y : List Bytes) (f g h i : Fd) (d : Bool) : dispatch "Call" [.s a, .s b, .as x, .as y, .h f, .h g, .h h, .h i, .b d] = some (.call a ⟨b, true, false, x, y, debugLog i d⟩ f g h) := by simp [dispatch]
theorem dCallFile (m : Fd) (p : Bool) (t : List Bytes) (b : Bytes) (x y : List Bytes) (f g h i : Fd) (d : Bool) : dispatch "CallFile" [.h m, .b p, .as t, .s b, .as x, .as y, .h f, .h g, .h h, .h i, .b d] = some (.callUpload m p t ⟨b, true, false, x, y, debugLog i d⟩ f g h) := by simp [dispatch]
theorem dConnectInstance (a : Bytes) (f g : Fd) : dispatch "ConnectInstance" [.s a, .h f, .h g] = some (.connect a f g) := by simp [dispatch]
theorem dDeleteInstance (a : Bytes) : dispatch "DeleteInstance" [.s a] = some (.delete a) := by simp [dispatch]
theorem dDownloadModule (f : Fd) (a : Bytes) : dispatch "DownloadModule" [.h f, .s a] = some (.download f a) := by simp [dispatch]
theorem dGetInstanceInfo (a : Bytes) : dispatch "GetInstanceInfo" [.s a] = some (.instanceInfo a) := by simp [dispatch]
theorem dGetModuleInfo (a : Bytes) : dispatch "GetModuleInfo" [.s a] = some (.moduleInfo a) := by simp [dispatch]
theorem dLaunch (a b : Bytes) (s : Bool) (x y : List Bytes) (i : Fd) (d : Bool) : dispatch "Launch" [.s a, .s b, .b s, .as x, .as y, .h i, .b d] = some (.newInstance a ⟨b, false, s, x, y, debugLog i d⟩) := by simp [dispatch]
theorem dLaunchFile (m : Fd) (p : Bool) (t : List Bytes) (b : Bytes) (s : Bool) (x y : List Bytes) (i : Fd) (d : Bool) : dispatch "LaunchFile" [.h m, .b p, .as t, .s b, .b s, .as x, .as y, .h i, .b d] = some (.uploadInstance m p t ⟨b, false, s, x, y, debugLog i d⟩) := by simp [dispatch]
theorem dListInstances  : dispatch "ListInstances" [] = some (.instances) := by simp [dispatch]
theorem dListModules  : dispatch "ListModules" [] = some (.modules) := by simp [dispatch]
theorem dPinModule (a : Bytes) (x : List Bytes) : dispatch "PinModule" [.s a, .as x] = some (.pin a x) := by simp [dispatch]
theorem dResumeInstance (a b : Bytes) (x : List Bytes) (i : Fd) (d : Bool) : dispatch "ResumeInstance" [.s a, .s b, .as x, .h i, .b d] = some (.resume a b x (debugLog i d)) := by simp [dispatch]
theorem dSnapshot (a : Bytes) (x : List Bytes) : dispatch "Snapshot" [.s a, .as x] = some (.snapshot a true x) := by simp [dispatch]
theorem dUnpinModule (a : Bytes) : dispatch "UnpinModule" [.s a] = some (.unpin a) := by simp [dispatch]
theorem dUpdateInstance (a : Bytes) (p : Bool) (x : List Bytes) : dispatch "UpdateInstance" [.s a, .b p, .as x] = some (.update a p x) := by simp [dispatch]
theorem dUploadModule (f : Fd) (n : Int) (a : Bytes) (x : List Bytes) : dispatch "UploadModule" [.h f, .x n, .s a, .as x] = some (.upload f n a true x) := by simp [dispatch]
theorem dWaitInstance (a : Bytes) : dispatch "WaitInstance" [.s a] = some (.wait a) := by simp [dispatch]
theorem dKill (a : Bytes) : dispatch "Kill" [.s a] = some (.kill a) := by simp [dispatch]
theorem dSuspend (a : Bytes) : dispatch "Suspend" [.s a] = some (.suspend a) := by simp [dispatch]

theorem log_eq (c : Conf) : debugLog .debug (wants c) = if c.debugLog = [] then none else some .debug := by
  unfold debugLog wants
  by_cases h : c.debugLog = [] <;> simp [h]

theorem p_usage (r : Option Ran) : Performs r .usage ↔ r = none := Iff.rfl
theorem p_refuse (r : Option Ran) : Performs r .refuse ↔ r = some .fatal := Iff.rfl
theorem p_ops (cs : List (String × List Val)) (l : List Op) :
    Performs (some (.calls cs)) (.ops l) ↔ cs.map (fun p => dispatch p.1 p.2) = l.map some := by
  constructor
  · rintro ⟨cs', h1, h2⟩
    simp only [Option.some.injEq, Ran.calls.injEq] at h1
    rw [h1]; exact h2
  · intro h; exact ⟨cs, rfl, h⟩

theorem call_performs (c : Conf) (m : Bytes) (rest : List Bytes) :
    ∃ cs, call c (m :: rest) = .calls cs ∧ cs.map (fun p => dispatch p.1 p.2) = [some (callOp c m (match rest with | [] => c.function | f :: _ => f))] := by
  have key : ∀ f, ∃ cs, (if (!(isFile m)) = true then
      Ran.calls [("Call", [.s m, .s f, .as c.instanceTags, .as c.scope, .h .suspend, .h .stdin, .h .stdout, .h .debug, .b (wants c)])]
      else .calls [("CallFile", [.h (.file m), .b c.pin, .as c.moduleTags, .s f, .as c.instanceTags, .as c.scope, .h .suspend, .h .stdin, .h .stdout, .h .debug, .b (wants c)])]) = .calls cs ∧
      cs.map (fun p => dispatch p.1 p.2) = [some (callOp c m f)] := by
    intro f
    unfold callOp isFile has
    by_cases h : (m.contains 47 || m.contains 46) = true
    · have h' : m.contains 47 = true ∨ m.contains 46 = true := by simpa using h
      refine ⟨_, by rw [if_neg (by rw [h]; decide)], ?_⟩
      simp only [List.map_cons, List.map_nil, dCallFile, log_eq, h', if_true]
    · have h' : ¬ (m.contains 47 = true ∨ m.contains 46 = true) := by simpa using h
      refine ⟨_, by rw [if_pos (by simpa using h)], ?_⟩
      simp only [List.map_cons, List.map_nil, dCall, log_eq, h', if_false]
  cases rest with
  | nil => exact key _
  | cons f tags => exact key f

theorem launch_performs (c : Conf) (m : Bytes) (rest : List Bytes) :
    ∃ cs, launch c (m :: rest) = .calls cs ∧ cs.map (fun p => dispatch p.1 p.2) =
      [some (match rest with | [] => launchOp c m c.function c.instanceTags | f :: tags => launchOp c m f (tagsOr tags c.instanceTags))] := by
  have key : ∀ f tags, ∃ cs, (if (!(isFile m)) = true then Ran.calls [("Launch", [.s m, .s f, .b c.suspend, .as tags, .as c.scope, .h .debug, .b (wants c)])]
      else .calls [("LaunchFile", [.h (.file m), .b c.pin, .as c.moduleTags, .s f, .b c.suspend, .as tags, .as c.scope, .h .debug, .b (wants c)])]) = .calls cs ∧
      cs.map (fun p => dispatch p.1 p.2) = [some (launchOp c m f tags)] := by
    intro f tags
    unfold launchOp isFile has
    by_cases h : (m.contains 47 || m.contains 46) = true
    · have h' : m.contains 47 = true ∨ m.contains 46 = true := by simpa using h
      refine ⟨_, by rw [if_neg (by rw [h]; decide)], ?_⟩
      simp only [List.map_cons, List.map_nil, dLaunchFile, log_eq, h', if_true]
    · have h' : ¬ (m.contains 47 = true ∨ m.contains 46 = true) := by simpa using h
      refine ⟨_, by rw [if_pos (by simpa using h)], ?_⟩
      simp only [List.map_cons, List.map_nil, dLaunch, log_eq, h', if_false]
  cases rest with
  | nil => exact key _ _
  | cons f tags =>
    have := key f (tagsOr tags c.instanceTags)
    unfold launch
    simp only [tail, arg, instanceTags, List.length_cons]
    rw [if_pos (by omega), if_pos (by omega)]
    exact this

/-- C150: every command line without an address makes the daemon do exactly what it means, or prints the usage. -/
theorem performs_partial (c : Conf) (e : Env) (name : String) (args : List Bytes) (hd : name ≠ "debug") :
    Performs (main c e name args) (meaning c e name args) := by
  cases hu : usage.lookup name with
  | none => exact unknown name c e args hu
  | some u =>
    have hmain := main_of c e name u args hu
    have hmem := usage_known name u hu
    rw [hmain]
    clear hmain hu
    simp only [usage, List.mem_cons, List.not_mem_nil, or_false, Prod.mk.injEq] at hmem
    rcases hmem with ⟨rfl, -⟩ | ⟨rfl, -⟩ | ⟨rfl, -⟩ | ⟨rfl, -⟩ | ⟨rfl, -⟩ | ⟨rfl, -⟩ | ⟨rfl, -⟩ | ⟨rfl, -⟩ | ⟨rfl, -⟩ | ⟨rfl, -⟩ |
      ⟨rfl, -⟩ | ⟨rfl, -⟩ | ⟨rfl, -⟩ | ⟨rfl, -⟩ | ⟨rfl, -⟩ | ⟨rfl, -⟩ | ⟨rfl, -⟩ | ⟨rfl, -⟩ | ⟨rfl, -⟩ | ⟨rfl, -⟩ | ⟨rfl, -⟩ | ⟨rfl, -⟩
    all_goals clear u
    · -- call
      rcases args with - | ⟨a, - | ⟨b, - | ⟨x, rest⟩⟩⟩
      · simp [range, meaning, p_usage]
      · obtain ⟨cs, h1, h2⟩ := call_performs c a []
        exact ⟨cs, by simp [range, command, h1], by simpa using h2⟩
      · obtain ⟨cs, h1, h2⟩ := call_performs c a [b]
        exact ⟨cs, by simp [range, command, h1], by simpa using h2⟩
      · simp [range, meaning, p_usage]
    · exact absurd rfl hd
    · rcases args with - | ⟨a, - | ⟨b, rest⟩⟩ <;> simp [range, meaning, p_usage, p_ops, command, arg, dDeleteInstance]
    · rcases args with - | ⟨a, - | ⟨b, - | ⟨x, rest⟩⟩⟩ <;> simp [range, meaning, p_usage, p_ops, command, arg, dDownloadModule]
    · rcases args with - | ⟨a, rest⟩ <;> simp [range, meaning, p_usage, p_ops, command, arg, dUploadModule, tail, tagsOr, moduleTags]
    · rcases args with - | ⟨a, rest⟩ <;> simp [range, meaning, p_usage, p_ops, command, dListInstances, dGetInstanceInfo]
    · rcases args with - | ⟨a, - | ⟨b, rest⟩⟩ <;> simp [range, meaning, p_usage, p_ops, command, arg, dConnectInstance]
    · rcases args with - | ⟨a, - | ⟨b, rest⟩⟩ <;> cases hw : c.wait <;> simp [range, meaning, p_usage, p_ops, command, arg, dKill, dWaitInstance, hw]
    · -- launch
      rcases args with - | ⟨a, - | ⟨b, rest⟩⟩
      · simp [range, meaning, p_usage]
      · obtain ⟨cs, h1, h2⟩ := launch_performs c a []
        exact ⟨cs, by simp [range, command, h1], by simpa using h2⟩
      · obtain ⟨cs, h1, h2⟩ := launch_performs c a (b :: rest)
        exact ⟨cs, by simp [range, command, h1], by simpa using h2⟩
    · rcases args with - | ⟨a, rest⟩ <;> simp [range, meaning, p_usage, p_ops, command, dListModules, dGetModuleInfo]
    · rcases args with - | ⟨a, rest⟩ <;> simp [range, meaning, p_usage, p_ops, command, arg, dPinModule, tail, tagsOr, moduleTags]
    · rcases args with - | ⟨a, - | ⟨b, - | ⟨x, rest⟩⟩⟩ <;> simp [range, meaning, p_usage, p_ops, command, arg, dUploadModule]
    · rcases args with - | ⟨a, - | ⟨b, - | ⟨x, rest⟩⟩⟩ <;> simp [range, meaning, p_usage, p_ops, command, arg, dDownloadModule]
    · rcases args with - | ⟨a, - | ⟨b, rest⟩⟩ <;> simp [range, meaning, p_usage, p_ops, command, arg, dConnectInstance]
    · rcases args with - | ⟨a, - | ⟨b, - | ⟨x, rest⟩⟩⟩ <;> simp [range, meaning, p_usage, p_ops, command, arg, dResumeInstance, log_eq]
    · rcases args with - | ⟨a, - | ⟨b, rest⟩⟩ <;> simp [range, meaning, p_usage, p_ops, command, arg, dGetModuleInfo]
    · rcases args with - | ⟨a, rest⟩ <;> simp [range, meaning, p_usage, p_ops, command, arg, dSnapshot, tail, tagsOr, moduleTags]
    · rcases args with - | ⟨a, - | ⟨b, rest⟩⟩ <;> simp [range, meaning, p_usage, p_ops, command, arg, dGetInstanceInfo]
    · rcases args with - | ⟨a, - | ⟨b, rest⟩⟩ <;> cases hw : c.wait <;> simp [range, meaning, p_usage, p_ops, command, arg, dSuspend, dWaitInstance, hw]
    · rcases args with - | ⟨a, - | ⟨b, rest⟩⟩ <;> simp [range, meaning, p_usage, p_ops, command, arg, dUnpinModule]
    · -- update
      rcases args with - | ⟨a, rest⟩
      · simp [range, meaning, p_usage]
      · by_cases ht : tagsOr rest c.instanceTags = []
        · have ht' : instanceTags c rest = [] := ht
          simp [range, meaning, p_refuse, command, tail, ht, ht']
        · have ht' : ¬ instanceTags c rest = [] := ht
          have he : instanceTags c rest = tagsOr rest c.instanceTags := rfl
          simp [range, meaning, p_ops, command, arg, tail, ht, ht', dUpdateInstance]
          exact he
    · rcases args with - | ⟨a, - | ⟨b, rest⟩⟩ <;> simp [range, meaning, p_usage, p_ops, command, arg, dWaitInstance]

/-- C150: no command line makes the program fail by indexing its arguments. -/
theorem no_panic (c : Conf) (e : Env) (name : String) (args : List Bytes) : main c e name args ≠ some .panic := by
  by_cases hd : name = "debug"
  · subst hd
    intro h
    rw [main_of c e "debug" "instance [command [offset...]]" args (by decide)] at h
    split at h
    · simp [command] at h
    · cases h
  · have := performs_partial c e name args hd
    intro h
    rw [h] at this
    cases hm : meaning c e name args <;> rw [hm] at this
    · cases this
    · cases this
    · obtain ⟨cs, h1, -⟩ := this
      cases h1

/-- The methods of the daemon. -/
def methodNames : List String :=
  ["Call", "CallFile", "ConnectInstance", "DebugInstance", "DeleteInstance", "DownloadModule", "GetInstanceInfo", "GetModuleInfo",
   "GetScope", "Launch", "LaunchFile", "ListInstances", "ListModules", "PinModule", "ResumeInstance", "Snapshot", "UnpinModule",
   "UpdateInstance", "UploadModule", "WaitInstance", "Kill", "Suspend"]

theorem dispatch_known (method : String) (args : List Val) (o : Op) (h : dispatch method args = some o) : method ∈ methodNames := by
  unfold dispatch at h
  simp only [methodNames, List.mem_cons, List.not_mem_nil, or_false]
  by_cases hm : method = "Call"; · exact .inl hm
  rw [if_neg hm] at h
  grind

/-- C150: the debugger's plain requests get to the instance. -/
theorem debug_performs (args : List Bytes) (req key : Bytes) (h : arg args 1 ≠ str "bt" ∧ arg args 1 ≠ str "backtrace" ∧ arg args 1 ≠ str "dumptext") :
    ∃ cs, debug args req key = .calls cs ∧ cs.map (fun p => dispatch p.1 p.2) = [some (.debug (arg args 0) req)] := by
  refine ⟨[("DebugInstance", [.s (arg args 0), .ay req])], ?_, by simp [dispatch]⟩
  unfold debug
  simp only
  rw [if_neg]
  rintro (h' | h' | h')
  · exact h.1 h'
  · exact h.2.1 h'
  · exact h.2.2 h'

/-- C150 (refutation): backtraces and text dumps need the module, which the debugger asks for by the method `Download`.
The daemon has no such method (it's called `DownloadModule`): these commands always end with the bus's error. -/
theorem debug_download_refuted (args : List Bytes) (req key : Bytes) (h : arg args 1 = str "bt" ∨ arg args 1 = str "backtrace" ∨ arg args 1 = str "dumptext") :
    ∃ cs, debug args req key = .calls cs ∧ ∃ p ∈ cs, dispatch p.1 p.2 = none := by
  refine ⟨[("DebugInstance", [.s (arg args 0), .ay req]), buildCall key], by simp [debug, h], buildCall key, by simp, ?_⟩
  simp [buildCall, dispatch]

/-! ## Examples -/

def exampleConf : Conf := ⟨true, [str "t"], true, str "main", [], [str "system"], false, str "/dev/stderr"⟩
example : meaning exampleConf ⟨true, 10, []⟩ "launch" [str "a.wasm", str "f", str "x"] =
    .ops [.uploadInstance (.file (str "a.wasm")) true [str "t"] ⟨str "f", false, false, [str "x"], [str "system"], some .debug⟩] := by decide
example : main exampleConf ⟨true, 10, []⟩ "kill" [str "i"] = some (.calls [("Kill", [.s (str "i")]), ("WaitInstance", [.s (str "i")])]) := by decide
example : main exampleConf ⟨true, 10, []⟩ "kill" [] = none := by decide
example : main exampleConf ⟨true, 10, []⟩ "update" [str "i"] = some .fatal := by decide

end Gate.LocalCmd
