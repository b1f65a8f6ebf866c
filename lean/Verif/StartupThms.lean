import Verif.StartupProps

/-! # When the gate-server program starts, and with what (C154) -/

namespace Gate.Startup
open Gate.Auth (str)

/-! ### Specification -/

/-- The file of access keys. -/
def keyFile (c : Conf) (e : Env) : Option Bytes :=
  if c.authorizedKeys ≠ [] then some c.authorizedKeys else e.home.map (· ++ str "/.ssh/authorized_keys")

/-- The storage option is usable. -/
def StorageOk (c : Conf) (option : Bytes) : Prop :=
  option = str "memory" ∨ (option = str "filesystem" ∧ c.varDir ≠ [])

/-- The authority is configured or can be inferred. -/
def HasAuthority (c : Conf) : Prop := c.authority ≠ [] ∨ ∃ h, h ≠ [] ∧ splitHost c.addr = some h

/-- No source takes the place of something else. -/
def SourcesOk (c : Conf) : Prop :=
  ∀ x ∈ c.httpSources, x.1 ≠ [] → x.2 ≠ [] → joinRoot x.1 ≠ str "/" ∧ joinRoot x.1 ≠ str "/sha256"

/-- The configuration is complete and consistent. -/
structure Complete (c : Conf) : Prop where
  programs : StorageOk c c.programStorage
  instances : StorageOk c c.instanceStorage
  policy : c.policy = str "public" ∨ c.policy = str "ssh"
  authority : HasAuthority c
  origins : c.origins ≠ []
  sources : SourcesOk c
  net : c.net = str "snide" → c.tls = true
  tos : c.tls = true → c.acceptTOS = true

/-- What the configuration refers to is available. -/
structure Available (c : Conf) (e : Env) : Prop where
  monitor : c.monitorAddr ≠ [] → e.listen c.monitorNet c.monitorAddr = true
  executors : ∀ i < c.executorCount, e.executor i = true
  filesystem : c.varDir ≠ [] → e.filesystem c.varDir = true
  keys : c.policy = str "ssh" → ∃ f, keyFile c e = some f ∧ e.keys f = true
  db : c.accessDB ≠ str "none" → e.db c.accessDB = true
  load : e.load = true
  log : c.accessLog ≠ [] → e.log c.accessLog = true
  listen : if c.net = str "snide" then e.snide c.addr = true else e.listen c.net c.addr = true
  listenHTTP : c.tls = true → e.listen (str "tcp") (httpAddr c) = true
  clearCaps : e.clearCaps = true
  notify : e.notify = true

/-! ### Stages -/

/-- The last two effects. -/
def Last : Act → Bool
  | .ready => true
  | .serve _ _ => true
  | _ => false

/-- `x` has the result `v` and the effects `as` if `ok`; otherwise it stops without the last effects, and it panics only
if `pan`. -/
def Does {α : Type} (x : M α) (ok pan : Prop) (v : α) (as : List Act) : Prop :=
  (ok → ∀ l, x l = (.ok v, l ++ as)) ∧
  (¬ok → ∀ l, ∃ s as', x l = (.error s, l ++ as') ∧ (s = .panic → pan) ∧ ∀ a ∈ as', Last a = false)

theorem Does.bind {α β : Type} {x : M α} {f : α → M β} {ok ok' pan pan' : Prop} {v : α} {w : β} {as bs : List Act}
    (hx : Does x ok pan v as) (hf : Does (f v) ok' pan' w bs) (has : ∀ a ∈ as, Last a = false) :
    Does (x >>= f) (ok ∧ ok') (pan ∨ pan') w (as ++ bs) := by
  have hb : ∀ l, (x >>= f) l = match x l with | (.ok a, l') => f a l' | (.error e, l') => (.error e, l') := fun _ => rfl
  constructor
  · rintro ⟨h1, h2⟩ l
    rw [hb, hx.1 h1]
    show f v (l ++ as) = _
    rw [hf.1 h2, List.append_assoc]
  · intro h l
    rw [hb]
    by_cases h1 : ok
    · rw [hx.1 h1]
      have h2 : ¬ok' := fun h2 => h ⟨h1, h2⟩
      obtain ⟨s, as', e, hp, hl⟩ := hf.2 h2 (l ++ as)
      refine ⟨s, as ++ as', by show f v (l ++ as) = _; rw [e, List.append_assoc], fun h => .inr (hp h), ?_⟩
      intro a ha
      rcases List.mem_append.1 ha with ha | ha
      · exact has a ha
      · exact hl a ha
    · obtain ⟨s, as', e, hp, hl⟩ := hx.2 h1 l
      exact ⟨s, as', by rw [e], fun h => .inl (hp h), hl⟩

theorem Does.try (ok : Bool) (a : Act) (msg : String) : Does (try_ ok a msg) (ok = true) False () [a] := by
  constructor
  · intro h l; simp [try_, h, act]
  · intro h l; exact ⟨.err msg, [], by simp [try_, h, stop], by simp, by simp⟩

theorem Does.act (a : Act) : Does (act a) True False () [a] :=
  ⟨fun _ _ => rfl, fun h => absurd trivial h⟩

theorem Does.pure {α : Type} (v : α) : Does (Pure.pure v : M α) True False v [] :=
  ⟨fun _ l => by show (Except.ok v, l) = _; simp, fun h => absurd trivial h⟩

theorem Does.err {α : Type} (msg : String) (v : α) : Does (stop (.err msg) : M α) False False v [] :=
  ⟨False.elim, fun _ l => ⟨.err msg, [], by simp [stop], by simp, by simp⟩⟩

theorem Does.panic {α : Type} (v : α) : Does (stop .panic : M α) False True v [] :=
  ⟨False.elim, fun _ l => ⟨.panic, [], by simp [stop], by simp, by simp⟩⟩

theorem Does.mono {α : Type} {x : M α} {ok ok' pan pan' : Prop} {v : α} {as : List Act}
    (h : Does x ok pan v as) (he : ok ↔ ok') (hp : pan → pan') : Does x ok' pan' v as := by
  constructor
  · intro h'; exact h.1 (he.2 h')
  · intro h' l
    obtain ⟨s, as', e, q, hl⟩ := h.2 (fun k => h' (he.1 k)) l
    exact ⟨s, as', e, fun z => hp (q z), hl⟩

theorem Does.tryPure {α : Type} (ok : Bool) (a : Act) (msg : String) (v : α) (h : Last a = false) :
    Does (do try_ ok a msg; Pure.pure v) (ok = true) False v [a] :=
  Does.mono (ok := ok = true ∧ True) (pan := False ∨ False) (as := [a] ++ []) ((Does.try ok a msg).bind (f := fun _ => Pure.pure v) (w := v) (bs := []) (ok' := True) (pan' := False)
    ⟨fun _ l => by show (Except.ok v, l) = _; simp, fun h => absurd trivial h⟩
    (by simp [h])) (by simp) (by simp)

theorem Does.ite {α : Type} {p : Prop} [Decidable p] {x y : M α} {ok ok' pan pan' : Prop} {v w : α} {as bs : List Act}
    (hx : Does x ok pan v as) (hy : Does y ok' pan' w bs) :
    Does (if p then x else y) (if p then ok else ok') (if p then pan else pan') (if p then v else w) (if p then as else bs) := by
  split <;> assumption

def monitorActs (c : Conf) : List Act :=
  if c.monitorAddr ≠ [] then [.listenMonitor c.monitorNet c.monitorAddr, .serveMonitor (monitorOrigins c)] else []

theorem startMonitor_does (c : Conf) (e : Env) :
    Does (startMonitor c e) (c.monitorAddr ≠ [] → e.listen c.monitorNet c.monitorAddr = true) False () (monitorActs c) := by
  unfold startMonitor monitorActs
  split
  · rename_i h
    refine ((Does.try _ _ _).bind (Does.act _) (by simp [Last])).mono ?_ (by simp)
    simp [h]
  · rename_i h
    exact (Does.pure ()).mono (by simp [h]) id

theorem startExecutors_does (e : Env) (i n : Nat) :
    Does (startExecutors e i n) (∀ j, j < n → e.executor (i + j) = true) False () (List.replicate n .executor) := by
  induction n generalizing i with
  | zero => exact (Does.pure ()).mono (by simp) id
  | succ n ih =>
    unfold startExecutors
    refine ((Does.try _ _ _).bind (ih (i + 1)) (by simp [Last])).mono ?_ (by simp)
    constructor
    · rintro ⟨h0, h⟩ j hj
      cases j with
      | zero => exact h0
      | succ j => have := h j (by omega); rwa [Nat.add_assoc, Nat.add_comm 1 j] at this
    · intro h
      refine ⟨h 0 (by omega), fun j hj => ?_⟩
      have := h (j + 1) (by omega)
      rwa [Nat.add_assoc, Nat.add_comm 1 j]

def fsActs (c : Conf) : List Act := if c.varDir ≠ [] then [.openFilesystem c.varDir] else []
def fsOf (c : Conf) : Store := if c.varDir ≠ [] then .filesystem c.varDir else .nilFilesystem

theorem openFilesystem_does (c : Conf) (e : Env) :
    Does (openFilesystem c e) (c.varDir ≠ [] → e.filesystem c.varDir = true) False (fsOf c) (fsActs c) := by
  unfold openFilesystem fsActs fsOf
  split
  · rename_i h
    refine (Does.tryPure _ _ _ _ rfl).mono ?_ id
    simp [h]
  · rename_i h
    exact (Does.pure _).mono (by simp [h]) id

def storeOf (c : Conf) (option : Bytes) : Store := if option = str "memory" then .memory else fsOf c

theorem chooseStorage_does (c : Conf) (option : Bytes) :
    Does (chooseStorage option (fsOf c)) (option = str "memory" ∨ option = str "filesystem") False (storeOf c option) [] := by
  unfold chooseStorage storeOf
  split
  · rename_i h
    exact (Does.pure _).mono (by simp [h]) id
  · rename_i h
    split
    · rename_i h'
      exact (Does.pure _).mono (by simp [h']) id
    · rename_i h'
      exact (Does.err _ _).mono (by simp [h, h']) id

theorem prepare_does (enabled : Bool) (s : Store) :
    Does (prepare enabled s) (enabled = true → s ≠ .nilFilesystem) (s = .nilFilesystem) () [] := by
  unfold prepare
  split
  · rename_i h
    exact (Does.panic _).mono (by simp [h]) (fun _ => h.2)
  · rename_i h
    exact (Does.pure _).mono (by simp; intro a b; exact h ⟨a, b⟩) False.elim

def policyOf (c : Conf) (e : Env) : Policy :=
  if c.policy = str "public" then .public_ else .ssh ((keyFile c e).getD [])
def keyActs (c : Conf) (e : Env) : List Act :=
  if c.policy = str "public" then [] else [.parseKeys ((keyFile c e).getD [])]

theorem choosePolicy_does (c : Conf) (e : Env) :
    Does (choosePolicy c e)
      ((c.policy = str "public" ∨ c.policy = str "ssh") ∧
        (c.policy = str "ssh" → ∃ f, keyFile c e = some f ∧ e.keys f = true)) False (policyOf c e) (keyActs c e) := by
  unfold choosePolicy policyOf keyActs keyFile
  by_cases h1 : c.policy = str "public"
  · rw [if_pos h1, if_pos h1, if_pos h1]
    exact (Does.pure _).mono (by simp [h1, show str "public" ≠ str "ssh" by decide]) id
  · rw [if_neg h1, if_neg h1, if_neg h1]
    by_cases h2 : c.policy = str "ssh"
    · rw [if_pos h2]
      by_cases h3 : c.authorizedKeys ≠ []
      · simp only [if_pos h3, Option.getD_some]
        refine (Does.tryPure _ _ _ _ rfl).mono ?_ id
        simp [h2]
      · simp only [if_neg h3]
        cases hh : e.home with
        | none =>
          refine ⟨?_, fun _ l => ⟨_, [], by simp [stop]; rfl, by simp, by simp⟩⟩
          rintro ⟨_, h⟩
          obtain ⟨f, hf, _⟩ := h h2
          cases hf
        | some d =>
          simp only [Option.map_some, Option.getD_some]
          refine (Does.tryPure _ _ _ _ rfl).mono ?_ id
          simp [h2]
    · rw [if_neg h2]
      exact ⟨fun h => absurd h.1 (by simp [h1, h2]), fun _ l => ⟨_, [], by simp [stop]; rfl, by simp, by simp⟩⟩

def authorityOf (c : Conf) : Bytes := if c.authority = [] then (splitHost c.addr).getD [] else c.authority

theorem chooseAuthority_does (c : Conf) :
    Does (chooseAuthority c) (c.authority ≠ [] ∨ ∃ h, splitHost c.addr = some h) False (authorityOf c) [] := by
  unfold chooseAuthority authorityOf
  split
  · rename_i h
    cases hs : splitHost c.addr with
    | none => exact (Does.err _ _).mono (by simp [h]) id
    | some a => exact (Does.pure _).mono (by simp) id
  · rename_i h
    exact (Does.pure _).mono (by simp [h]) id

def nonceOf (c : Conf) : Option Bytes := if c.accessDB ≠ str "none" then some c.accessDB else none
def dbActs (c : Conf) : List Act := if c.accessDB ≠ str "none" then [.openDB c.accessDB] else []

theorem openDB_does (c : Conf) (e : Env) :
    Does (openDB c e) (c.accessDB ≠ str "none" → e.db c.accessDB = true) False (nonceOf c) (dbActs c) := by
  unfold openDB nonceOf dbActs
  split
  · rename_i h
    refine (Does.tryPure _ _ _ _ rfl).mono ?_ id
    simp [h]
  · rename_i h
    exact (Does.pure _).mono (by simp [h]) id

theorem newServer_does (p i : Store) (e : Env) :
    Does (newServer p i e) (p ≠ .nilFilesystem ∧ i ≠ .nilFilesystem ∧ e.load = true)
      (p = .nilFilesystem ∨ i = .nilFilesystem) () [.newServer] := by
  unfold newServer
  split
  · rename_i h
    refine ⟨?_, fun _ l => ⟨.panic, [], by simp [stop], fun _ => h, by simp⟩⟩
    rintro ⟨h1, h2, _⟩
    exact absurd h (by simp [h1, h2])
  · rename_i h
    simp only [not_or] at h
    exact (Does.try _ _ _).mono (by simp [h]) False.elim

def webOf (c : Conf) : WebRoute.Conf := WebRoute.origins c.origins ⟨false, []⟩

theorem newHandler_does (c : Conf) :
    Does (newHandler (authorityOf c) c.origins (sources c))
      (authorityOf c ≠ [] ∧ c.origins ≠ [] ∧ SourcesOk c)
      (authorityOf c = [] ∨ c.origins = [] ∨ ¬SourcesOk c) (webOf c) [] := by
  have hs : duplicates ((WebRoute.patterns [] (sources c)).map (·.1)) = false ↔ SourcesOk c := by
    rw [patterns_nodup (nodup_sources c) (sources_path c)]
    unfold SourcesOk
    constructor
    · rintro ⟨h1, h2⟩ x hx n1 n2
      have hm := (mem_sources c (joinRoot x.1)).2 (.inl ⟨x, hx, n1, n2, rfl⟩)
      exact ⟨fun h => h1 (h ▸ hm), fun h => h2 (h ▸ hm)⟩
    · intro h
      constructor
      · intro hm
        rcases (mem_sources c _).1 hm with ⟨x, hx, n1, n2, e⟩ | ⟨_, e⟩
        · exact (h x hx n1 n2).1 e.symm
        · revert e; decide
      · intro hm
        rcases (mem_sources c _).1 hm with ⟨x, hx, n1, n2, e⟩ | ⟨_, e⟩
        · exact (h x hx n1 n2).2 e.symm
        · revert e; decide
  unfold newHandler WebRoute.newHandler webOf
  by_cases h1 : authorityOf c = []
  · rw [if_pos h1]
    exact (Does.panic _).mono (by simp [h1]) (fun _ => .inl h1)
  · rw [if_neg h1]
    by_cases h2 : c.origins = []
    · rw [if_pos h2]
      exact (Does.panic _).mono (by simp [h2]) (fun _ => .inr (.inl h2))
    · rw [if_neg h2]
      simp only
      cases hd : duplicates ((WebRoute.patterns [] (sources c)).map (·.1)) with
      | true =>
        rw [if_pos rfl]
        have : ¬SourcesOk c := by rw [← hs, hd]; simp
        exact (Does.panic _).mono (by simp [this]) (fun _ => .inr (.inr this))
      | false =>
        rw [if_neg (by simp)]
        exact (Does.pure _).mono (by simp [h1, h2, hs.1 hd]) False.elim

def logActs (c : Conf) : List Act := if c.accessLog ≠ [] then [.openLog c.accessLog] else []

theorem openLog_does (c : Conf) (e : Env) :
    Does (openLog c e) (c.accessLog ≠ [] → e.log c.accessLog = true) False () (logActs c) := by
  unfold openLog logActs
  split
  · rename_i h
    exact (Does.try _ _ _).mono (by simp [h]) id
  · rename_i h
    exact (Does.pure _).mono (by simp [h]) id

theorem listen_does (c : Conf) (e : Env) :
    Does (listen c e) ((c.net = str "snide" → c.tls = true) ∧
      (if c.net = str "snide" then e.snide c.addr = true else e.listen c.net c.addr = true)) False () [.listen c.net c.addr] := by
  unfold listen
  by_cases h : c.net = str "snide"
  · simp only [if_pos h]
    by_cases h2 : c.tls = true
    · rw [if_pos h2]
      exact (Does.try _ _ _).mono (by simp [h2]) id
    · rw [if_neg h2]
      refine ⟨?_, fun _ l => ⟨_, [], by simp [stop]; rfl, by simp, by simp⟩⟩
      rintro ⟨h', _⟩
      exact absurd (h' h) h2
  · simp only [if_neg h]
    exact (Does.try _ _ _).mono (by simp [h]) id

def tlsActs (c : Conf) : List Act := if c.tls = true then [.listenHTTP (httpAddr c), .serveHTTP] else []

theorem startTLS_does (c : Conf) (e : Env) :
    Does (startTLS c e) (c.tls = true → c.acceptTOS = true ∧ e.listen (str "tcp") (httpAddr c) = true) False ()
      (tlsActs c) := by
  unfold startTLS tlsActs
  by_cases h : c.tls = true
  · rw [if_pos h, if_pos h]
    by_cases h2 : c.acceptTOS = true
    · rw [if_pos h2]
      refine ((Does.try _ _ _).bind (Does.act _) (by simp [Last])).mono ?_ (by simp)
      simp [h, h2]
    · rw [if_neg h2]
      refine ⟨?_, fun _ l => ⟨_, [], by simp [stop]; rfl, by simp, by simp⟩⟩
      intro h'
      exact absurd (h' h).1 h2
  · rw [if_neg h, if_neg h]
    exact (Does.pure _).mono (by simp [h]) id

/-- The server of a configuration. -/
def built (c : Conf) (e : Env) : Built :=
  ⟨c.executorCount, storeOf c c.programStorage, storeOf c c.instanceStorage, policyOf c e, authorityOf c, (webOf c).any,
    (webOf c).origins, nonceOf c, sources c⟩

/-- The effects before the last ones. -/
def before (c : Conf) (e : Env) : List Act :=
  monitorActs c ++ (List.replicate c.executorCount .executor ++ (fsActs c ++ (keyActs c e ++ (dbActs c ++ (.newServer ::
    (logActs c ++ (.listen c.net c.addr :: .watch :: tlsActs c)))))))

theorem before_last (c : Conf) (e : Env) : ∀ a ∈ before c e, Last a = false := by
  intro a ha
  simp only [before, monitorActs, fsActs, keyActs, dbActs, logActs, tlsActs, List.mem_append, List.mem_cons,
    List.mem_replicate] at ha
  rcases ha with ha | ha | ha | ha | ha | ha | ha | ha | ha | ha
  all_goals first
    | (subst ha; rfl)
    | (obtain ⟨_, rfl⟩ := ha; rfl)
    | (split at ha <;> simp at ha
       first
         | (subst ha; rfl)
         | (rcases ha with rfl | rfl <;> rfl))

theorem Does.cast {α : Type} {x : M α} {ok ok' pan pan' : Prop} {v : α} {as as' : List Act}
    (h : Does x ok pan v as) (he : ok ↔ ok') (hp : pan → pan') (ha : as = as') : Does x ok' pan' v as' :=
  ha ▸ h.mono he hp

theorem fsActs_last (c : Conf) : ∀ a ∈ fsActs c, Last a = false := by
  intro a ha; unfold fsActs at ha; split at ha <;> simp at ha; subst ha; rfl
theorem monitorActs_last (c : Conf) : ∀ a ∈ monitorActs c, Last a = false := by
  intro a ha; unfold monitorActs at ha; split at ha <;> simp at ha; rcases ha with rfl | rfl <;> rfl
theorem keyActs_last (c : Conf) (e : Env) : ∀ a ∈ keyActs c e, Last a = false := by
  intro a ha; unfold keyActs at ha; split at ha <;> simp at ha; subst ha; rfl
theorem dbActs_last (c : Conf) : ∀ a ∈ dbActs c, Last a = false := by
  intro a ha; unfold dbActs at ha; split at ha <;> simp at ha; subst ha; rfl
theorem logActs_last (c : Conf) : ∀ a ∈ logActs c, Last a = false := by
  intro a ha; unfold logActs at ha; split at ha <;> simp at ha; subst ha; rfl
theorem tlsActs_last (c : Conf) : ∀ a ∈ tlsActs c, Last a = false := by
  intro a ha; unfold tlsActs at ha; split at ha <;> simp at ha; rcases ha with rfl | rfl <;> rfl

theorem storeOf_nil {c : Conf} {o : Bytes} (ho : o = str "memory" ∨ o = str "filesystem") :
    storeOf c o ≠ .nilFilesystem ↔ StorageOk c o := by
  unfold storeOf fsOf StorageOk
  rcases ho with rfl | rfl
  · simp
  · rw [if_neg (by decide)]
    by_cases h : c.varDir = [] <;> simp [h, show str "filesystem" ≠ str "memory" by decide]

theorem authorityOf_iff (c : Conf) : authorityOf c ≠ [] ∧ (c.authority ≠ [] ∨ ∃ h, splitHost c.addr = some h) ↔ HasAuthority c := by
  unfold authorityOf HasAuthority
  by_cases h : c.authority = []
  · simp only [h, if_true, ne_eq, not_true_eq_false, false_or]
    cases splitHost c.addr <;> simp
  · simp [h]

theorem authorityOf_nil {c : Conf} (h : authorityOf c = []) : ¬HasAuthority c := by
  intro h'; exact ((authorityOf_iff c).2 h').1 h

/-- The last effects: the notification comes before serving. -/
theorem last_does (c : Conf) (e : Env) (b : Built) :
    (e.clearCaps = true → e.notify = true → ∀ l, (do
        try_ e.clearCaps .clearCaps "caps"
        try_ e.notify .ready "notify"
        act (.serve c.tls b) : M Unit) l = (.ok (), l ++ [.clearCaps, .ready, .serve c.tls b])) ∧
    (¬(e.clearCaps = true ∧ e.notify = true) → ∀ l, ∃ s as', (do
        try_ e.clearCaps .clearCaps "caps"
        try_ e.notify .ready "notify"
        act (.serve c.tls b) : M Unit) l = (.error s, l ++ as') ∧ (s = .panic → False) ∧ ∀ a ∈ as', Last a = false) := by
  constructor
  · intro h1 h2 l
    simp only [h1, h2, try_, if_true]
    show (Except.ok (), l ++ [.clearCaps] ++ [.ready] ++ [.serve c.tls b]) = _
    simp
  · intro h l
    by_cases h1 : e.clearCaps = true
    · have h2 : e.notify = false := by
        cases hn : e.notify with
        | false => rfl
        | true => exact absurd ⟨h1, hn⟩ h
      refine ⟨.err "notify", [.clearCaps], ?_, by simp, by simp [Last]⟩
      simp only [h1, h2, try_, if_true]
      rfl
    · refine ⟨.err "caps", [], ?_, by simp, by simp⟩
      simp only [try_, if_neg h1, List.append_nil]
      rfl

theorem main2_does (c : Conf) (e : Env) :
    Does (main2 c e) (Complete c ∧ Available c e)
      (¬StorageOk c c.programStorage ∨ ¬StorageOk c c.instanceStorage ∨ ¬HasAuthority c ∨ c.origins = [] ∨ ¬SourcesOk c) ()
      (before c e ++ [.clearCaps, .ready, .serve c.tls (built c e)]) := by
  have hl := last_does c e (built c e)
  have hlast : Does (do
        try_ e.clearCaps .clearCaps "caps"
        try_ e.notify .ready "notify"
        act (.serve c.tls (built c e)) : M Unit) (e.clearCaps = true ∧ e.notify = true) False ()
        [.clearCaps, .ready, .serve c.tls (built c e)] := ⟨fun h => hl.1 h.1 h.2, hl.2⟩
  have nil : ∀ a ∈ ([] : List Act), Last a = false := by simp
  refine Does.cast ((startMonitor_does c e).bind ((startExecutors_does e 0 c.executorCount).bind
    ((openFilesystem_does c e).bind ((chooseStorage_does c c.programStorage).bind ((chooseStorage_does c c.instanceStorage).bind
    ((prepare_does c.preparePrograms _).bind ((prepare_does c.prepareInstances _).bind ((choosePolicy_does c e).bind
    ((chooseAuthority_does c).bind ((openDB_does c e).bind ((newServer_does _ _ e).bind ((newHandler_does c).bind
    ((openLog_does c e).bind ((listen_does c e).bind ((Does.act .watch).bind ((startTLS_does c e).bind hlast
    (tlsActs_last c)) (by simp [Last])) (by simp [Last])) (logActs_last c)) nil) (by simp [Last])) (dbActs_last c)) nil)
    (keyActs_last c e)) nil) nil) nil) nil) (fsActs_last c)) (by simp [Last])) (monitorActs_last c)) ?_ ?_ ?_
  · constructor
    · rintro ⟨h1, h2, h3, h4, h5, h6, h7, ⟨h8, h8'⟩, h9, h10, ⟨h11, h12, h13⟩, ⟨h14, h15, h16⟩, h17, ⟨h18, h18'⟩, -, h19, h20, h21⟩
      exact ⟨⟨(storeOf_nil h4).1 h11, (storeOf_nil h5).1 h12, h8, (authorityOf_iff c).1 ⟨h14, h9⟩, h15, h16, h18,
        fun h => (h19 h).1⟩,
        ⟨h1, by simpa using h2, h3, h8', h10, h13, h17, h18', fun h => (h19 h).2, h20, h21⟩⟩
    · rintro ⟨⟨a1, a2, a3, a4, a5, a6, a7, a8⟩, ⟨b1, b2, b3, b4, b5, b6, b7, b8, b9, b10, b11⟩⟩
      have o : ∀ {x}, StorageOk c x → x = str "memory" ∨ x = str "filesystem" := fun h => h.imp id And.left
      have n1 := (storeOf_nil (o a1)).2 a1
      have n2 := (storeOf_nil (o a2)).2 a2
      have ha := (authorityOf_iff c).2 a4
      exact ⟨b1, by simpa using b2, b3, o a1, o a2, fun _ => n1, fun _ => n2, ⟨a3, b4⟩, ha.2, b5, ⟨n1, n2, b6⟩,
        ⟨ha.1, a5, a6⟩, b7, ⟨a7, b8⟩, trivial, fun h => ⟨a8 h, b9 h⟩, b10, b11⟩
  · have hp : ∀ {o}, storeOf c o = .nilFilesystem → ¬StorageOk c o := by
      intro o h hs
      exact (storeOf_nil (hs.imp id And.left)).2 hs h
    simp only [false_or, or_false]
    rintro (h | h | (h | h) | h | h | h)
    · exact .inl (hp h)
    · exact .inr (.inl (hp h))
    · exact .inl (hp h)
    · exact .inr (.inl (hp h))
    · exact .inr (.inr (.inl (authorityOf_nil h)))
    · exact .inr (.inr (.inr (.inl h)))
    · exact .inr (.inr (.inr (.inr h)))
  · simp [before]

/-! ### C154 -/

/-- C154: the server gets to serve exactly if its configuration is complete, and what it refers to is available. -/
theorem serves_iff (c : Conf) (e : Env) : outcome c e = none ↔ Complete c ∧ Available c e := by
  have h := main2_does c e
  unfold outcome
  constructor
  · intro ho
    by_cases hc : Complete c ∧ Available c e
    · exact hc
    · obtain ⟨s, as', h1, _⟩ := h.2 hc []
      rw [h1] at ho
      cases ho
  · intro hc
    rw [h.1 hc []]

/-- C154: a server which gets to serve has done everything it's configured for before telling that it's ready: it has its
listeners and executors, and has given up its privileges. It serves what is configured. -/
theorem serves_acts (c : Conf) (e : Env) (h : outcome c e = none) :
    acts c e = before c e ++ [.clearCaps, .ready, .serve c.tls (built c e)] ∧
    .ready ∉ before c e ∧ (∀ t b, .serve t b ∉ before c e) ∧
    .listen c.net c.addr ∈ before c e ∧ (before c e).count .executor = c.executorCount ∧
    (c.tls = true → .listenHTTP (httpAddr c) ∈ before c e) ∧
    (c.monitorAddr ≠ [] → .listenMonitor c.monitorNet c.monitorAddr ∈ before c e) ∧
    (c.accessDB ≠ str "none" → .openDB c.accessDB ∈ before c e) ∧
    (c.accessLog ≠ [] → .openLog c.accessLog ∈ before c e) := by
  have hm := (main2_does c e).1 ((serves_iff c e).1 h) []
  refine ⟨by unfold acts; rw [hm]; rfl, ?_, ?_, by simp [before], ?_, ?_, ?_, ?_, ?_⟩
  · intro hr; have := before_last c e _ hr; simp [Last] at this
  · intro t b hr; have := before_last c e _ hr; simp [Last] at this
  · have h1 : (monitorActs c).count .executor = 0 := by unfold monitorActs; split <;> simp
    have h2 : (fsActs c).count .executor = 0 := by unfold fsActs; split <;> simp
    have h3 : (keyActs c e).count .executor = 0 := by unfold keyActs; split <;> simp
    have h4 : (dbActs c).count .executor = 0 := by unfold dbActs; split <;> simp
    have h5 : (logActs c).count .executor = 0 := by unfold logActs; split <;> simp
    have h6 : (tlsActs c).count .executor = 0 := by unfold tlsActs; split <;> simp
    simp only [before, List.count_append, List.count_cons, h1, h2, h3, h4, h5, h6, List.count_replicate_self]
    simp
  · intro ht; simp [before, tlsActs, ht]
  · intro ht; simp [before, monitorActs, ht]
  · intro ht; simp [before, dbActs, ht]
  · intro ht; simp [before, logActs, ht]

/-- C154: what is served is what is configured. -/
theorem serves_built (c : Conf) (e : Env) (h : outcome c e = none) :
    let b := built c e
    (b.policy = .public_ ↔ c.policy = str "public") ∧
    (∀ f, b.policy = .ssh f ↔ c.policy = str "ssh" ∧ keyFile c e = some f) ∧
    (b.programs = .memory ↔ c.programStorage = str "memory") ∧
    (∀ d, b.programs = .filesystem d ↔ c.programStorage = str "filesystem" ∧ d = c.varDir) ∧
    (b.instances = .memory ↔ c.instanceStorage = str "memory") ∧
    (∀ d, b.instances = .filesystem d ↔ c.instanceStorage = str "filesystem" ∧ d = c.varDir) ∧
    (∀ a, c.authority = a → a ≠ [] → b.authority = a) ∧
    (c.authority = [] → splitHost c.addr = some b.authority ∧ b.authority ≠ []) ∧
    (∀ n, b.nonces = some n ↔ n = c.accessDB ∧ n ≠ str "none") ∧
    (b.executors = c.executorCount) := by
  obtain ⟨hc, hv⟩ := (serves_iff c e).1 h
  have hst : ∀ o, StorageOk c o → (storeOf c o = .memory ↔ o = str "memory") ∧
      ∀ d, storeOf c o = .filesystem d ↔ o = str "filesystem" ∧ d = c.varDir := by
    intro o ho
    unfold storeOf fsOf
    rcases ho with rfl | ⟨rfl, hd⟩
    · simp [show str "memory" ≠ str "filesystem" by decide]
    · rw [if_neg (by decide)]
      simp only [hd, ne_eq, not_false_eq_true, if_true, reduceCtorEq, Store.filesystem.injEq, true_and, false_iff]
      exact ⟨by decide, fun d => ⟨Eq.symm, Eq.symm⟩⟩
  refine ⟨?_, ?_, (hst _ hc.programs).1, (hst _ hc.programs).2, (hst _ hc.instances).1, (hst _ hc.instances).2, ?_, ?_, ?_, rfl⟩
  · show policyOf c e = _ ↔ _
    unfold policyOf; split <;> simp_all
  · intro f
    show policyOf c e = _ ↔ _
    unfold policyOf
    rcases hc.policy with hp | hp
    · rw [if_pos hp, hp]; simp [show str "public" ≠ str "ssh" by decide]
    · obtain ⟨g, hg, _⟩ := hv.keys hp
      rw [if_neg (by rw [hp]; decide), hp, hg]
      simp
  · intro a ha h0
    show authorityOf c = a
    unfold authorityOf
    rw [ha, if_neg h0]
  · intro ha
    show splitHost c.addr = some (authorityOf c) ∧ authorityOf c ≠ []
    have := hc.authority
    unfold authorityOf
    rcases this with h' | ⟨x, hx, hx'⟩
    · exact absurd ha h'
    · rw [if_pos ha, hx']; exact ⟨rfl, hx⟩
  · intro n
    show nonceOf c = _ ↔ _
    unfold nonceOf
    by_cases hn : c.accessDB = str "none"
    · simp only [hn, ne_eq, not_true_eq_false, if_false, reduceCtorEq, false_iff]
      rintro ⟨rfl, h'⟩; exact h' rfl
    · simp only [ne_eq, hn, not_false_eq_true, if_true, Option.some.injEq]
      constructor
      · rintro rfl; exact ⟨rfl, hn⟩
      · rintro ⟨rfl, _⟩; rfl

/-- C154: a server which doesn't get to serve doesn't tell that it's ready (and nothing is served). -/
theorem fails_quietly (c : Conf) (e : Env) (h : outcome c e ≠ none) :
    .ready ∉ acts c e ∧ ∀ t b, .serve t b ∉ acts c e := by
  have hn : ¬(Complete c ∧ Available c e) := fun hc => h ((serves_iff c e).2 hc)
  obtain ⟨s, as', h1, _, h2⟩ := (main2_does c e).2 hn []
  have ha : acts c e = as' := by unfold acts; rw [h1]; rfl
  rw [ha]
  refine ⟨fun hm => ?_, fun t b hm => ?_⟩
  · have := h2 _ hm; simp [Last] at this
  · have := h2 _ hm; simp [Last] at this

/-- C154: missing things and unknown options are errors. The causes of panics are these. -/
theorem no_panic_partial (c : Conf) (e : Env) (h1 : StorageOk c c.programStorage) (h2 : StorageOk c c.instanceStorage)
    (h3 : HasAuthority c) (h4 : c.origins ≠ []) (h5 : SourcesOk c) : outcome c e ≠ some .panic := by
  unfold outcome
  by_cases hc : Complete c ∧ Available c e
  · rw [(main2_does c e).1 hc []]; simp
  · obtain ⟨s, as', h', hp, _⟩ := (main2_does c e).2 hc []
    rw [h']
    intro hs
    simp only [Option.some.injEq] at hs
    rcases hp hs with h | h | h | h | h
    · exact h h1
    · exact h h2
    · exact h h3
    · exact h4 h
    · exact h h5

end Gate.Startup
