/-
C162: what the monitoring dashboard shows: server/monitor/webmonitor/dashboard.js, dashboard.html, and the frames which
server/monitor/webmonitor/webmonitor.go:118-146 sends to it.

Of JavaScript: an object's property which doesn't exist is undefined, and as a property name undefined is the string "undefined", which is
different from the numbers.
-/
namespace Gate.Dash

/-! ### What the server sends -/

/-- server/event/event.pb.go:102-132 Type_value, sent as event_types. -/
def typeValues : List (String × Nat) := [
  ("FAIL_INTERNAL", 0), ("FAIL_NETWORK", 1), ("FAIL_PROTOCOL", 2), ("FAIL_REQUEST", 3), ("IFACE_ACCESS", 4), ("MODULE_LIST", 5),
  ("MODULE_INFO", 6), ("MODULE_UPLOAD_NEW", 7), ("MODULE_UPLOAD_EXIST", 8), ("MODULE_SOURCE_NEW", 9), ("MODULE_SOURCE_EXIST", 10),
  ("MODULE_DOWNLOAD", 11), ("MODULE_PIN", 12), ("MODULE_UNPIN", 13), ("INSTANCE_LIST", 14), ("INSTANCE_INFO", 15),
  ("INSTANCE_CREATE_KNOWN", 16), ("INSTANCE_CREATE_STREAM", 17), ("INSTANCE_STOP", 18), ("INSTANCE_DELETE", 19),
  ("INSTANCE_CONNECT", 20), ("INSTANCE_DISCONNECT", 21), ("INSTANCE_WAIT", 22), ("INSTANCE_KILL", 23), ("INSTANCE_SUSPEND", 24),
  ("INSTANCE_RESUME", 25), ("INSTANCE_SNAPSHOT", 26), ("INSTANCE_UPDATE", 27), ("INSTANCE_DEBUG", 28)]

/-- The JSON names of the fields of the event of a type: the tags in server/event/event.pb.go. -/
def fieldNames : Nat → List String
  | 0 => ["ctx", "source", "module", "function", "instance", "subsystem"]
  | 3 => ["ctx", "failure", "source", "module", "function", "instance"]
  | 6 | 7 | 13 => ["ctx", "module"]
  | 8 => ["ctx", "module", "compiled"]
  | 9 => ["ctx", "module", "uri"]
  | 10 => ["ctx", "module", "uri", "compiled"]
  | 11 => ["ctx", "module", "module_length", "length_read"]
  | 12 => ["ctx", "module", "tag_count"]
  | 15 | 19 | 20 | 21 | 22 | 23 | 24 => ["ctx", "instance"]
  | 16 | 17 => ["ctx", "create"]
  | 18 => ["ctx", "instance", "status"]
  | 25 => ["ctx", "instance", "function"]
  | 26 => ["ctx", "instance", "module"]
  | 27 => ["ctx", "instance", "persist", "tag_count"]
  | 28 => ["ctx", "instance", "compiled"]
  | _ => ["ctx"]

/-- An event's frame (webmonitor.go:140-146): the event's type, the event's fields (zero values are left out), and the error if
there's one. -/
structure EventFrame where
  type : Nat
  /-- The fields which are numbers, and their values, are all which matters here. -/
  fields : List (String × Nat)
  error : Option String
deriving DecidableEq, Repr

/-- The state in the first frame (webmonitor.go:118-123); zeros are left out of the JSON. -/
structure Counts where
  programsLoaded : Int
  programLinks : Int
  instances : Int
deriving DecidableEq, Repr

/-! ### dashboard.js -/

/-- A property name. -/
inductive Key where
  | num (n : Nat)
  | undefined
deriving DecidableEq, Repr

def prop (obj : List (String × Nat)) (name : String) : Key :=
  match obj.lookup name with
  | some n => .num n
  | none => .undefined

inductive Field where
  | programsLoaded | programLinks | instances
deriving DecidableEq, Repr

/-- An event's handler: it logs the event under a name; some also change a number of the state, and ignore the error. -/
inductive Handler where
  | log (name : String)
  | count (name : String) (f : Field) (d : Int)
deriving DecidableEq, Repr

/-- dashboard.js:86-121: assignments to properties of an object, in order. -/
def assignments (types : List (String × Nat)) : List (Key × Handler) :=
  types.map (fun t => (.num t.2, .log t.1)) ++
  [(prop types "ServerAccess", .log "ServerAccess"),
   (prop types "FailNetwork", .log "FailNetwork"),
   (prop types "FailProtocol", .log "FailProtocol"),
   (prop types "FailClient", .log "FailClient"),
   (prop types "ProgramLoad", .count "ProgramLoad" .programsLoaded 1),
   (prop types "ProgramCreate", .count "ProgramCreate" .programLinks 1),
   (prop types "InstanceCreate", .count "InstanceCreate" .instances 1),
   (prop types "InstanceDelete", .count "InstanceDelete" .instances (-1))]

/-- The last assignment to the property. -/
def handlerOf (types : List (String × Nat)) (k : Key) : Option Handler :=
  ((assignments types).reverse.find? (fun a => a.1 == k)).map Prod.snd

/-- A row of the log. -/
inductive Row where
  | restart
  /-- "Error: " with the position and the text, if they're defined: properties of a string aren't. -/
  | error (text : Option String)
  /-- The event's name, with the event and the error if they're defined. -/
  | event (name : String) (type : Option Nat) (error : Option String)
deriving DecidableEq, Repr

structure Page where
  /-- What the state table shows. -/
  shown : Counts
  log : List Row
deriving DecidableEq, Repr

def Counts.add (c : Counts) : Field → Int → Counts
  | .programsLoaded, d => { c with programsLoaded := c.programsLoaded + d }
  | .programLinks, d => { c with programLinks := c.programLinks + d }
  | .instances, d => { c with instances := c.instances + d }

/-- dashboard.js:50-64: the first frame of a connection is shown; a state without a number has zero. -/
def begin (p : Page) (restart : Bool) (state : Counts) : Page :=
  { shown := state, log := p.log ++ if restart then [.restart] else [] }

/-- dashboard.js:123-137. The frame's event is taken for an object which has the type, the event and the error. -/
def onFrame (types : List (String × Nat)) (p : Page) (f : EventFrame) : Page :=
  let p := if f.error.isSome then { p with log := p.log ++ [.error none] } else p
  match handlerOf types (prop f.fields "type") with
  | none => p
  | some (.log name) => { p with log := p.log ++ [.event name none none] }
  | some (.count name fd d) => { shown := p.shown.add fd d, log := p.log ++ [.event name none none] }

/-! ### The connections of a page -/

inductive Conn where
  /-- No frame has come. -/
  | fresh
  | open_
  /-- After an error. -/
  | failed
deriving DecidableEq, Repr

structure St where
  conn : Option Conn
  timer : Bool
  /-- The last server_init; 0: none. -/
  serverInit : Nat
  /-- The "Not connected" banner. -/
  banner : Bool
  page : Page
deriving DecidableEq, Repr

inductive Ev where
  | first (serverInit : Nat) (state : Counts)
  | frame (f : EventFrame)
  | error
  | close
  | timeout
deriving DecidableEq, Repr

/-- dashboard.js:18-38, 139; `none`: that can't happen then. -/
def step (s : St) : Ev → Option St
  | .first i state =>
    if s.conn = some .fresh then
      some { s with conn := some .open_, serverInit := i, banner := false,
                    page := begin s.page (s.serverInit != 0 && i != s.serverInit) state }
    else none
  | .frame f => if s.conn = some .open_ then some { s with page := onFrame typeValues s.page f } else none
  | .error => if s.conn.isSome then some { s with conn := some .failed, banner := true } else none
  | .close => if s.conn.isSome then some { s with conn := none, timer := true, banner := true } else none
  | .timeout => if s.timer then some { s with conn := some .fresh, timer := false } else none

/-- dashboard.html: the banner is there. -/
def new : St := ⟨some .fresh, false, 0, true, ⟨⟨0, 0, 0⟩, []⟩⟩

def run (s : St) : List Ev → Option St
  | [] => some s
  | e :: es => (step s e).bind fun s => run s es

/-! ### Specification -/

/-- A frame of the server's. -/
def Sent (f : EventFrame) : Prop := (∃ name, (name, f.type) ∈ typeValues) ∧ ∀ x ∈ f.fields, x.1 ∈ fieldNames f.type

/-- What the number of instances should be after an event. -/
def instancesAfter (n : Int) (type : Nat) : Int :=
  if type = 16 ∨ type = 17 then n + 1 else if type = 19 then n - 1 else n

/-! ### Properties -/

theorem no_type_field (t : Nat) : "type" ∉ fieldNames t := by
  unfold fieldNames
  split <;> decide

theorem handlers_undefined : handlerOf typeValues .undefined = some (.count "InstanceDelete" .instances (-1)) := by decide +kernel

theorem type_undefined (f : EventFrame) (h : Sent f) : prop f.fields "type" = .undefined := by
  unfold prop
  have : f.fields.lookup "type" = none := by
    have hf := h.2
    generalize f.fields = l at hf
    induction l with
    | nil => rfl
    | cons x l ih =>
      have hx : ("type" == x.1) = false := by
        rw [beq_eq_false_iff_ne]
        intro he
        exact no_type_field f.type (he ▸ hf x (by simp))
      obtain ⟨a, b⟩ := x
      simp only at hx
      rw [List.lookup, hx]
      exact ih fun y hy => hf y (by simp [hy])
  rw [this]

/-- C162 refuted: whatever the server reports, the dashboard takes it for the deletion of an instance. -/
theorem event_refuted (p : Page) (f : EventFrame) (h : Sent f) :
    (onFrame typeValues p f).shown = { p.shown with instances := p.shown.instances - 1 } ∧
    (onFrame typeValues p f).log = p.log ++ (if f.error.isSome then [.error none] else []) ++ [.event "InstanceDelete" none none] := by
  unfold onFrame
  rw [type_undefined f h, handlers_undefined]
  cases f.error <;> simp [Counts.add] <;> omega

/-- C162 refuted: so the shown number of instances is right after an event only if that's a deletion. -/
theorem instances_iff (p : Page) (f : EventFrame) (h : Sent f) :
    (onFrame typeValues p f).shown.instances = instancesAfter p.shown.instances f.type ↔ f.type = 19 := by
  rw [(event_refuted p f h).1]
  unfold instancesAfter
  simp only
  split
  · next ht => constructor
               · intro hx; omega
               · intro hx; omega
  · split
    · next ht => simp [ht]
    · next ht => constructor
                 · intro hx; omega
                 · intro hx; exact absurd hx ht

/-- C162: right after the first frame, the dashboard shows the server's numbers. -/
theorem first_shown (s s' : St) (i : Nat) (c : Counts) (h : step s (.first i c) = some s') : s'.page.shown = c ∧ s'.banner = false := by
  simp only [step] at h
  split at h
  · cases h; exact ⟨rfl, rfl⟩
  · cases h

/-- C162: a restart of the server is told just if there has been a frame before, from a server with another start time. -/
theorem restart_iff (s s' : St) (i : Nat) (c : Counts) (h : step s (.first i c) = some s') :
    (s'.page.log = s.page.log ++ [.restart] ↔ s.serverInit ≠ 0 ∧ s.serverInit ≠ i) ∧
    (s'.page.log = s.page.log ↔ s.serverInit = 0 ∨ s.serverInit = i) ∧ s'.serverInit = i := by
  simp only [step] at h
  split at h
  · cases h
    by_cases h0 : s.serverInit = 0
    · simp [begin, h0]
    · by_cases h1 : i = s.serverInit
      · simp [begin, h1]
      · have h1' : s.serverInit ≠ i := fun x => h1 x.symm
        simp [begin, h0, h1, h1']
  · cases h

/-- There's a connection or the next one will be made, but not both; the banner is hidden just while a connection shows frames. -/
structure Good (s : St) : Prop where
  one : s.conn.isSome = !s.timer
  banner : s.banner = false ↔ s.conn = some .open_

theorem good_new : Good new := ⟨rfl, by simp [new]⟩

theorem good_step (s s' : St) (e : Ev) (g : Good s) (h : step s e = some s') : Good s' := by
  obtain ⟨g1, g2⟩ := g
  cases e <;> simp only [step] at h <;> split at h <;> cases h
  · next hc => exact ⟨by simp [← g1, hc], by simp⟩
  · exact ⟨g1, g2⟩
  · next hc => exact ⟨by simp [← g1, hc], by simp⟩
  · exact ⟨by simp, by simp⟩
  · next hc =>
    refine ⟨by simp, ?_⟩
    have : s.conn = none := by cases hx : s.conn <;> simp_all
    simp only [this] at g2
    simp [g2]

/-- C162: the page always has a connection or is about to make one, and tells "Not connected" whenever it isn't getting frames. -/
theorem reconnects (es : List Ev) (s s' : St) (g : Good s) (h : run s es = some s') :
    Good s' ∧ ((∃ s'', step s' .timeout = some s'') ∨ s'.conn.isSome = true) := by
  induction es generalizing s with
  | nil =>
    cases h
    refine ⟨g, ?_⟩
    cases ht : s'.timer with
    | true => exact .inl ⟨_, by simp only [step, ht, if_true]; rfl⟩
    | false => exact .inr (by rw [g.one, ht]; rfl)
  | cons e es ih =>
    simp only [run] at h
    cases hs : step s e with
    | none => rw [hs] at h; cases h
    | some s1 => rw [hs] at h; exact ih s1 (good_step s s1 e g hs) h

/-- The server's restart within a second isn't told, and three events of a server without instances make the count negative. -/
example : (run new [.first 5 ⟨1, 1, 0⟩, .frame ⟨16, [], none⟩, .frame ⟨18, [], none⟩, .frame ⟨3, [("failure", 8)], some "no"⟩, .close, .timeout,
    .first 5 ⟨0, 0, 0⟩]).map (fun s => (s.page.shown, s.page.log)) =
    some (⟨0, 0, 0⟩, [.event "InstanceDelete" none none, .event "InstanceDelete" none none, .error none, .event "InstanceDelete" none none]) := by
  decide +kernel

example : Sent ⟨3, [("failure", 8)], some "no"⟩ := ⟨⟨"FAIL_REQUEST", by decide⟩, by decide⟩

/-- C162 refuted: the number of instances can become negative: each of `n` creations counts down. -/
theorem negative_refuted (n : Nat) :
    ((List.replicate n (⟨16, [], none⟩ : EventFrame)).foldl (onFrame typeValues) ⟨⟨0, 0, 0⟩, []⟩).shown.instances = -n := by
  have h : ∀ (p : Page) n, ((List.replicate n (⟨16, [], none⟩ : EventFrame)).foldl (onFrame typeValues) p).shown.instances = p.shown.instances - n := by
    intro p n
    induction n generalizing p with
    | zero => simp
    | succ n ih =>
      rw [List.replicate_succ, List.foldl_cons, ih, (event_refuted p _ ⟨⟨"INSTANCE_CREATE_KNOWN", by decide⟩, by simp⟩).1]
      simp only; omega
  rw [h]; simp

end Gate.Dash
