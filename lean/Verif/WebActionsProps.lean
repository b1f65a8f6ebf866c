import Verif.WebActions
/-
Properties C48, C49, C67, C68.
-/
namespace Gate.Web

theorem bind_eq {α β} (m : M α) (f : α → M β) : (m >>= f) = M.bind m f := rfl

/-- A parser: either it has a result and no effects, or one error response and the end. -/
def Parser {α} (m : M α) : Prop := (m.1 = [] ∧ m.2.isSome) ∨ (m.2 = none ∧ ∃ e, m.1 = [e] ∧ ∀ o, e ≠ .op o)

/-- A complete handling of a request: one effect. -/
def Single (m : M Unit) : Prop := ∃ e, m.1 = [e]

theorem Parser.bind {α β} {m : M α} {f : α → M β} (h : Parser m) (hf : ∀ a, m.2 = some a → Parser (f a)) : Parser (m >>= f) := by
  rw [bind_eq]; unfold M.bind
  rcases h with ⟨h1, h2⟩ | ⟨h1, h2⟩
  · obtain ⟨a, ha⟩ := Option.isSome_iff_exists.mp h2
    simp only [ha, h1, List.nil_append]
    exact hf a ha
  · simp only [h1]; exact .inr ⟨rfl, h2⟩

theorem Parser.single {α} {m : M α} {f : α → M Unit} (h : Parser m) (hf : ∀ a, m.2 = some a → Single (f a)) : Single (m >>= f) := by
  rw [bind_eq]; unfold M.bind
  rcases h with ⟨h1, h2⟩ | ⟨h1, h2⟩
  · obtain ⟨a, ha⟩ := Option.isSome_iff_exists.mp h2
    simp only [ha, h1, List.nil_append]
    exact hf a ha
  · obtain ⟨e, he, _⟩ := h2
    simp only [h1]; exact ⟨e, he⟩

/-- An operation is performed by a sequence exactly if the parser succeeds and the rest performs it. -/
theorem mem_bind {α} {m : M α} {f : α → M Unit} {o : Op} (h : Parser m) :
    Effect.op o ∈ (m >>= f).1 ↔ ∃ a, m = ([], some a) ∧ Effect.op o ∈ (f a).1 := by
  rw [bind_eq]; unfold M.bind
  rcases h with ⟨h1, h2⟩ | ⟨h1, e, he, hne⟩
  · obtain ⟨a, ha⟩ := Option.isSome_iff_exists.mp h2
    simp only [ha, h1, List.nil_append]
    constructor
    · intro hm; exact ⟨a, Prod.ext h1 ha, hm⟩
    · rintro ⟨b, hb, hm⟩
      rw [hb] at ha; simp only [Option.some.injEq] at ha; subst ha; exact hm
  · simp only [h1, he, List.mem_singleton]
    constructor
    · intro e'; exact absurd e'.symm (hne o)
    · rintro ⟨b, hb, _⟩; rw [hb] at h1; cases h1

theorem parser_pure {α} (a : α) : Parser (M.pure a) := .inl ⟨rfl, rfl⟩
theorem parser_fail {α} (m : String) : Parser (fail m : M α) := .inr ⟨rfl, _, rfl, by simp⟩
theorem single_fail (m : String) : Single (fail m) := ⟨_, rfl⟩
theorem single_perform (o : Op) : Single (perform o) := ⟨_, rfl⟩
theorem mem_fail (o : Op) (m : String) : Effect.op o ∈ (fail m : M Unit).1 ↔ False := by simp [fail]
theorem mem_perform (o p : Op) : Effect.op o ∈ (perform p).1 ↔ o = p := by simp [perform]
theorem pure_some {α} (a b : α) : (M.pure a = ([], some b)) ↔ a = b := by simp [M.pure]
theorem fail_some {α} (m : String) (b : α) : ((fail m : M α) = ([], some b)) ↔ False := by simp [fail]

theorem parser_ite {α} {c : Prop} [Decidable c] {a b : M α} (ha : Parser a) (hb : Parser b) : Parser (if c then a else b) := by
  split <;> assumption

theorem parser_parseQuery (r) : Parser (parseQuery r) := parser_ite (parser_pure _) (parser_fail _)
theorem parser_parseOptionalQuery (r) : Parser (parseOptionalQuery r) := parser_ite (parser_parseQuery _) (parser_pure _)
theorem parser_noQuery (r) : Parser (noQuery r) := parser_ite (parser_fail _) (parser_pure _)
theorem parser_popLast (r q k) : Parser (popLast r q k) := by
  unfold popLast; split
  · exact parser_pure _
  · split
    · exact .inr ⟨rfl, _, rfl, by simp⟩
    · exact parser_fail _
  · exact parser_fail _
theorem parser_popOptional (q k) : Parser (popOptional q k) := by
  unfold popOptional; split
  · exact parser_pure _
  · exact parser_pure _
  · exact parser_fail _
theorem parser_popLog (q) : Parser (popLog q) := by
  unfold popLog
  exact (parser_popOptional _ _).bind fun a _ => parser_ite (parser_pure _) (parser_fail _)
theorem parser_popFunction (q) : Parser (popFunction q) := by
  unfold popFunction
  exact (parser_popOptional _ _).bind fun a _ => parser_ite (parser_fail _) (parser_pure _)
theorem parser_noParams (q) : Parser (noParams q) := parser_ite (parser_fail _) (parser_pure _)
theorem parser_haveType (r t) : Parser (haveType r t) := by
  unfold haveType; split
  · exact parser_ite (parser_fail _) (parser_pure _)
  · exact parser_fail _
  · exact parser_fail _
theorem parser_haveLength (r) : Parser (haveLength r) := parser_ite (parser_fail _) (parser_pure _)
theorem parser_noType (r) : Parser (noType r) := parser_ite (parser_fail _) (parser_pure _)
theorem parser_noBody (r) : Parser (noBody r) := parser_ite (parser_fail _) (parser_pure _)
theorem parser_acceptsJSON (r) : Parser (acceptsJSON r) := parser_ite (parser_pure _) (parser_fail _)
theorem parser_acceptsWasm (r) : Parser (acceptsWasm r) := parser_ite (parser_pure _) (parser_fail _)

/-- Discharges `Parser` goals. -/
macro "parser" : tactic => `(tactic| first
  | apply parser_parseQuery | apply parser_parseOptionalQuery | apply parser_noQuery | apply parser_popLast
  | apply parser_popOptional | apply parser_popLog | apply parser_popFunction | apply parser_noParams
  | apply parser_haveType | apply parser_haveLength | apply parser_noType | apply parser_noBody
  | apply parser_acceptsJSON | apply parser_acceptsWasm)

macro "singles" : tactic => `(tactic| repeat' first
  | apply single_fail
  | apply single_perform
  | (refine Parser.single (by parser) ?_; rintro a -)
  | split)

theorem single_getKnownModule (r) : Single (getKnownModule r) := by unfold getKnownModule; singles
theorem single_postKnownModules (r) : Single (postKnownModules r) := by unfold postKnownModules; singles
theorem single_putKnownModule (r) : Single (putKnownModule r) := by unfold putKnownModule; singles
theorem single_postKnownModule (r) : Single (postKnownModule r) := by unfold postKnownModule; singles
theorem single_getModuleSource (r) : Single (getModuleSource r) := by unfold getModuleSource; singles
theorem single_getInstance (r) : Single (getInstance r) := by unfold getInstance; singles
theorem single_postInstances (r) : Single (postInstances r) := by unfold postInstances; singles
theorem single_postInstanceMulti (a q) : Single (postInstanceMulti a q) := by unfold postInstanceMulti; singles
theorem single_postInstance (r) : Single (postInstance r) := by
  unfold postInstance
  refine Parser.single (by parser) ?_
  intro q hq
  simp only
  split
  · singles
  · repeat' first
      | apply single_postInstanceMulti
      | apply single_fail
      | apply single_perform
      | (refine Parser.single (by parser) ?_; rintro a -)
      | split
  · apply single_postInstanceMulti

/-- C49 for every handler but one: a request has exactly one effect, so one which is answered with an
error performs no operation. -/
theorem one_effect_partial (h : Req → M Unit)
    (hh : h ∈ [getKnownModule, postKnownModules, putKnownModule, postKnownModule, getModuleSource, getInstance, postInstances, postInstance])
    (r : Req) : ∃ e, (h r).1 = [e] := by
  simp only [List.mem_cons, List.not_mem_nil, or_false] at hh
  rcases hh with rfl | rfl | rfl | rfl | rfl | rfl | rfl | rfl
  · exact single_getKnownModule r
  · exact single_postKnownModules r
  · exact single_putKnownModule r
  · exact single_postKnownModule r
  · exact single_getModuleSource r
  · exact single_getInstance r
  · exact single_postInstances r
  · exact single_postInstance r

/-- C49 for the remaining handler: a POST request to a module source has exactly one effect unless its
actions are call and suspend. -/
theorem one_effect_source_partial (r : Req) (hr : ¬ ("suspend" ∈ values r.query "action" ∧ "call" ∈ values r.query "action")) :
    Single (postModuleSource r) := by
  unfold postModuleSource
  refine Parser.single (by parser) ?_
  intro q hq
  have hq' : q = r.query := by
    unfold parseQuery at hq; split at hq
    · simp [M.pure] at hq; exact hq.symm
    · simp [fail] at hq
  subst hq'
  obtain ⟨pin, q1, hp⟩ : ∃ pin q1, popAction r.query "pin" = (pin, q1) := ⟨_, _, rfl⟩
  obtain ⟨tags, q2, ht⟩ : ∃ tags q2, (if pin = true then popAll q1 "module.tag" else ([], q1)) = (tags, q2) := ⟨_, _, rfl⟩
  simp only [hp, ht]
  have sub1 : ∀ a, ("action", a) ∈ q1 → ("action", a) ∈ r.query := by
    intro a ha
    unfold popAction at hp
    split at hp
    · simp only [Prod.mk.injEq] at hp; rw [← hp.2] at ha; exact List.mem_of_mem_erase ha
    · simp only [Prod.mk.injEq] at hp; rw [← hp.2] at ha; exact ha
  have sub2 : ∀ a, ("action", a) ∈ q2 → ("action", a) ∈ q1 := by
    intro a ha
    split at ht
    · simp only [popAll, del, Prod.mk.injEq] at ht; rw [← ht.2] at ha; exact (List.mem_filter.mp ha).1
    · simp only [Prod.mk.injEq] at ht; rw [ht.2]; exact ha
  have vals : ∀ a, ("action", a) ∈ r.query → a ∈ values r.query "action" := by
    intro a ha
    simp only [values, List.mem_map, List.mem_filter]
    exact ⟨("action", a), ⟨ha, by simp⟩, rfl⟩
  split
  · obtain ⟨sus, q3, hs⟩ : ∃ sus q3, popAction q2 "suspend" = (sus, q3) := ⟨_, _, rfl⟩
    simp only [hs]
    refine Parser.single (by parser) ?_
    intro a ha
    have sus' : sus = true → "suspend" ∈ values r.query "action" := by
      intro e
      unfold popAction at hs
      split at hs
      · rename_i hm; exact vals _ (sub1 _ (sub2 _ hm))
      · simp only [Prod.mk.injEq] at hs; rw [← hs.1] at e; cases e
    have sub3 : ∀ a, ("action", a) ∈ q3 → ("action", a) ∈ q2 := by
      intro a ha
      unfold popAction at hs
      split at hs
      · simp only [Prod.mk.injEq] at hs; rw [← hs.2] at ha; exact List.mem_of_mem_erase ha
      · simp only [Prod.mk.injEq] at hs; rw [← hs.2] at ha; exact ha
    have hcall : a.1 = "call" → "call" ∈ values r.query "action" := by
      intro e
      unfold popLast at ha
      split at ha
      · rename_i v hv
        simp only [M.pure, Option.some.injEq] at ha
        rw [← ha] at e
        simp only at e
        subst e
        have hm : "call" ∈ values q3 "action" := by rw [hv]; simp
        simp only [values, List.mem_map, List.mem_filter] at hm
        obtain ⟨⟨k, v⟩, ⟨h1, h2⟩, h3⟩ := hm
        simp only [beq_iff_eq] at h2 h3
        subst h2 h3
        exact vals _ (sub1 _ (sub2 _ (sub3 _ h1)))
      · split at ha <;> simp [fail] at ha
      · simp [fail] at ha
    split
    · rename_i hc
      have : sus = false := by
        cases sus with
        | false => rfl
        | true => exact absurd ⟨sus' rfl, hcall hc⟩ hr
      simp only [this, Bool.false_eq_true, if_false]
      refine Parser.single (parser_pure _) ?_
      intro _ _
      singles
    · singles
  · singles

/-- Refutes C49: this request is answered with an error and the call is made. -/
theorem suspended_call_performed :
    (postModuleSource ⟨false, true, true, [("action", "call"), ("action", "suspend")], [], 0, true, true⟩).1 =
      [.error "unsupported action", .op (.call false false "" [] [])] := by decide +kernel

/-! ### C48 -/

/-- The meaning of a list of instance actions. -/
def Means (acts : List String) : Op → Prop
  | .instanceInfo => acts = []
  | .instanceIO => acts = ["io"]
  | .resume _ => acts = ["resume"]
  | .snapshot _ => acts = ["snapshot"]
  | .delete => acts = ["delete"]
  | .update => acts = ["update"]
  | .debug => acts = ["debug"]
  -- kill, possibly with wait
  | .kill w => (∀ a ∈ acts, a = "kill" ∨ a = "wait") ∧ "kill" ∈ acts ∧ (w = true ↔ "wait" ∈ acts)
  -- suspend, possibly with wait
  | .suspend w => (∀ a ∈ acts, a = "suspend" ∨ a = "wait") ∧ "suspend" ∈ acts ∧ (w = true ↔ "wait" ∈ acts)
  | .wait => (∀ a ∈ acts, a = "wait") ∧ acts ≠ []
  | _ => False

theorem scanActions_spec : ∀ (acts : List String) (k s w : Bool),
    scanActions acts (k, s, w) = if ∀ a ∈ acts, a = "kill" ∨ a = "suspend" ∨ a = "wait" then
      some (k || decide ("kill" ∈ acts), s || decide ("suspend" ∈ acts), w || decide ("wait" ∈ acts)) else none := by
  intro acts
  induction acts with
  | nil => intro k s w; simp [scanActions]
  | cons a as ih =>
    intro k s w
    simp only [scanActions]
    split
    · rename_i h; subst h; rw [ih]; simp
    · rename_i h1
      split
      · rename_i h; subst h; rw [ih]; simp
      · rename_i h2
        split
        · rename_i h; subst h; rw [ih]; simp
        · rename_i h3
          rw [if_neg]
          intro h
          rcases h a (by simp) with h | h | h
          · exact h1 h
          · exact h2 h
          · exact h3 h

theorem multi_sound (acts : List String) (q : Query) (o : Op) (hn : acts ≠ []) (h : Effect.op o ∈ (postInstanceMulti acts q).1) : Means acts o := by
  unfold postInstanceMulti at h
  rw [scanActions_spec] at h
  by_cases hall : ∀ a ∈ acts, a = "kill" ∨ a = "suspend" ∨ a = "wait"
  · rw [if_pos hall] at h
    simp only [Bool.false_or] at h
    by_cases hk : "kill" ∈ acts <;> by_cases hs : "suspend" ∈ acts
    · simp [hk, hs, fail] at h
    · simp only [hk, hs, decide_true, decide_false, Bool.not_false, Bool.and_self, if_true] at h
      rw [mem_bind (by parser)] at h
      obtain ⟨_, _, h⟩ := h
      rw [mem_perform] at h
      subst h
      refine ⟨fun a ha => ?_, hk, by simp⟩
      rcases hall a ha with h | h | h
      · exact .inl h
      · subst h; exact absurd ha hs
      · exact .inr h
    · simp only [hk, hs, decide_true, decide_false, Bool.not_true, Bool.not_false, Bool.and_self, Bool.and_false, Bool.false_eq_true, if_false, if_true] at h
      rw [mem_bind (by parser)] at h
      obtain ⟨_, _, h⟩ := h
      rw [mem_perform] at h
      subst h
      refine ⟨fun a ha => ?_, hs, by simp⟩
      rcases hall a ha with h | h | h
      · subst h; exact absurd ha hk
      · exact .inl h
      · exact .inr h
    · have hw : ∀ a ∈ acts, a = "wait" := by
        intro a ha
        rcases hall a ha with h | h | h
        · subst h; exact absurd ha hk
        · subst h; exact absurd ha hs
        · exact h
      simp only [hk, hs, decide_false, Bool.not_false, Bool.and_true, Bool.false_eq_true, if_false, Bool.and_false] at h
      split at h
      · rw [mem_bind (by parser)] at h
        obtain ⟨_, _, h⟩ := h
        rw [mem_perform] at h
        subst h
        exact ⟨hw, hn⟩
      · simp [fail] at h
  · rw [if_neg hall] at h
    simp [fail] at h

/-- C48: the operation performed by a POST request on an instance is the one its actions mean. -/
theorem instance_action_sound (r : Req) (o : Op) (h : Effect.op o ∈ (postInstance r).1) : Means (values r.query "action") o := by
  unfold postInstance at h
  rw [mem_bind (by parser)] at h
  obtain ⟨q, hq, h⟩ := h
  have hq' : q = r.query := by
    unfold parseQuery at hq; split at hq
    · rw [pure_some] at hq; exact hq.symm
    · rw [fail_some] at hq; exact hq.elim
  subst hq'
  simp only [popAll] at h
  split at h
  · rename_i hv
    rw [hv]
    rw [mem_bind (by parser)] at h
    obtain ⟨_, _, h⟩ := h
    rw [mem_bind (by parser)] at h
    obtain ⟨_, _, h⟩ := h
    rw [mem_perform] at h
    subst h
    rfl
  · rename_i a hv
    rw [hv]
    by_cases h1 : a = "io"
    · subst h1
      simp only [if_true] at h
      rw [mem_bind (by parser)] at h
      obtain ⟨_, _, h⟩ := h
      rw [mem_perform] at h; subst h; rfl
    rw [if_neg h1] at h
    by_cases h2 : a = "resume"
    · subst h2
      simp only [if_true] at h
      rw [mem_bind (by parser)] at h
      obtain ⟨_, _, h⟩ := h
      rw [mem_bind (by parser)] at h
      obtain ⟨_, _, h⟩ := h
      rw [mem_bind (by parser)] at h
      obtain ⟨_, _, h⟩ := h
      rw [mem_perform] at h; subst h; rfl
    rw [if_neg h2] at h
    by_cases h3 : a = "snapshot"
    · subst h3
      simp only [if_true] at h
      rw [mem_bind (by parser)] at h
      obtain ⟨_, _, h⟩ := h
      rw [mem_perform] at h; subst h; rfl
    rw [if_neg h3] at h
    by_cases h4 : a = "delete"
    · subst h4
      simp only [if_true] at h
      rw [mem_bind (by parser)] at h
      obtain ⟨_, _, h⟩ := h
      rw [mem_perform] at h; subst h; rfl
    rw [if_neg h4] at h
    by_cases h5 : a = "update"
    · subst h5
      simp only [if_true] at h
      rw [mem_bind (by parser)] at h
      obtain ⟨_, _, h⟩ := h
      rw [mem_perform] at h; subst h; rfl
    rw [if_neg h5] at h
    by_cases h6 : a = "debug"
    · subst h6
      simp only [if_true] at h
      rw [mem_bind (by parser)] at h
      obtain ⟨_, _, h⟩ := h
      rw [mem_perform] at h; subst h; rfl
    rw [if_neg h6] at h
    exact multi_sound [a] _ o (by simp) h
  · rename_i h1 h2
    refine multi_sound _ _ o ?_ h
    intro e; exact h1 e

/-- C48: kill and suspend are mutually exclusive, and anything unknown makes the request fail. -/
theorem instance_action_refused (r : Req) (h : ∀ o, ¬ Means (values r.query "action") o) (o : Op) : Effect.op o ∉ (postInstance r).1 :=
  fun hm => h o (instance_action_sound r o hm)

example (r : Req) (h : values r.query "action" = ["kill", "suspend"]) (o : Op) : Effect.op o ∉ (postInstance r).1 := by
  apply instance_action_refused
  intro o
  rw [h]
  cases o <;> simp [Means]

/-- C48: every list of actions which means an operation has it performed, if the query has no other
parameters (and JSON is acceptable, which only matters for information). -/
theorem instance_action_complete (r : Req) (o : Op) (hp : r.parses = true) (hj : r.acceptJSON = true)
    (hd : del r.query "action" = []) (hm : Means (values r.query "action") o)
    (hf : ∀ f, o = .resume f → f = "") (ht : ∀ t, o = .snapshot t → t = []) : (postInstance r).1 = [.op o] := by
  have hno : noParams [] = M.pure () := rfl
  have pb : ∀ {α β} (a : α) (f : α → M β), (M.pure a >>= f) = f a := by
    intro α β a f; rw [bind_eq]; simp [M.bind, M.pure]
  have hopt : ∀ k, popOptional [] k = M.pure ("", []) := fun _ => rfl
  have hlog : popLog [] = M.pure [] := by unfold popLog; rw [hopt, pb]; rfl
  have hfun : popFunction [] = M.pure ("", []) := by unfold popFunction; rw [hopt, pb]; simp
  have hmulti : ∀ acts, values r.query "action" = acts → (acts ≠ []) →
      (∀ a, acts = [a] → a = "kill" ∨ a = "suspend" ∨ a = "wait") → (postInstanceMulti acts []).1 = [.op o] →
      (postInstance r).1 = [.op o] := by
    intro acts ha hne hs hr
    unfold postInstance parseQuery
    rw [hp, if_pos rfl, pb]
    simp only [popAll, hd, ha]
    match acts, hne, hs, hr with
    | [], hne, _, _ => exact absurd rfl hne
    | [a], _, hs, hr => rcases hs a rfl with h | h | h <;> (subst h; simpa using hr)
    | a :: b :: c, _, _, hr => exact hr
  have scan : ∀ acts, (∀ a ∈ acts, a = "kill" ∨ a = "suspend" ∨ a = "wait") → scanActions acts (false, false, false) =
      some (decide ("kill" ∈ acts), decide ("suspend" ∈ acts), decide ("wait" ∈ acts)) := by
    intro acts h; rw [scanActions_spec, if_pos h]; simp
  generalize hv : values r.query "action" = acts at hm
  have hbase : parseQuery r = M.pure r.query := by unfold parseQuery; rw [hp, if_pos rfl]
  cases o with
  | instanceInfo =>
    simp only [Means] at hm; subst hm
    unfold postInstance; rw [hbase, pb]
    simp [popAll, hd, hv, hno, pb, acceptsJSON, hj, perform]
  | instanceIO =>
    simp only [Means] at hm; subst hm
    unfold postInstance; rw [hbase, pb]
    simp [popAll, hd, hv, hno, pb, perform]
  | resume f =>
    simp only [Means] at hm; subst hm
    have := hf f rfl; subst this
    unfold postInstance; rw [hbase, pb]
    simp [popAll, hd, hv, hno, pb, perform, hfun, hlog]
  | snapshot t =>
    simp only [Means] at hm; subst hm
    have := ht t rfl; subst this
    unfold postInstance; rw [hbase, pb]
    simp only [popAll, hd, hv]
    simp [hno, pb, perform, values, del]
  | delete =>
    simp only [Means] at hm; subst hm
    unfold postInstance; rw [hbase, pb]
    simp [popAll, hd, hv, hno, pb, perform]
  | update =>
    simp only [Means] at hm; subst hm
    unfold postInstance; rw [hbase, pb]
    simp [popAll, hd, hv, hno, pb, perform]
  | debug =>
    simp only [Means] at hm; subst hm
    unfold postInstance; rw [hbase, pb]
    simp [popAll, hd, hv, hno, pb, perform]
  | kill w =>
    obtain ⟨h, h1, h2⟩ := hm
    have hs : "suspend" ∉ acts := by
      intro e; rcases h _ e with e | e <;> simp at e
    refine hmulti _ hv (by intro e; rw [e] at h1; cases h1) ?_ ?_
    · intro a e; rcases h a (by rw [e]; simp) with e | e <;> simp [e]
    · unfold postInstanceMulti
      rw [scan _ (by intro a ha; rcases h a ha with e | e <;> simp [e])]
      have hw : decide ("wait" ∈ acts) = w := by cases w <;> simp_all
      simp [h1, hs, hno, pb, perform, hw]
  | suspend w =>
    obtain ⟨h, h1, h2⟩ := hm
    have hs : "kill" ∉ acts := by
      intro e; rcases h _ e with e | e <;> simp at e
    refine hmulti _ hv (by intro e; rw [e] at h1; cases h1) ?_ ?_
    · intro a e; rcases h a (by rw [e]; simp) with e | e <;> simp [e]
    · unfold postInstanceMulti
      rw [scan _ (by intro a ha; rcases h a ha with e | e <;> simp [e])]
      have hw : decide ("wait" ∈ acts) = w := by cases w <;> simp_all
      simp [h1, hs, hno, pb, perform, hw]
  | wait =>
    obtain ⟨h, h1⟩ := hm
    have hk : "kill" ∉ acts := by intro e; have := h _ e; simp at this
    have hs : "suspend" ∉ acts := by intro e; have := h _ e; simp at this
    have hw : "wait" ∈ acts := by
      cases acts with
      | nil => exact absurd rfl h1
      | cons a as => rw [h a (by simp)]; simp
    refine hmulti _ hv h1 ?_ ?_
    · intro a e; simp [h a (by rw [e]; simp)]
    · unfold postInstanceMulti
      rw [scan _ (by intro a ha; simp [h a ha])]
      simp [hk, hs, hw, hno, pb, perform]
  | _ => simp [Means] at hm

/-- Refutes the part of C48 about repeated actions: they are accepted. -/
theorem repeated_kill : (postInstance ⟨false, true, true, [("action", "kill"), ("action", "wait"), ("action", "kill")], [], 0, true, true⟩).1 =
    [.op (.kill true)] := by decide +kernel

/-! ### C67, C68 -/

/-- The actions which a module operation stands for. -/
def names : Op → List String
  | .moduleUpload _ => ["pin"]
  | .moduleSource _ => ["pin"]
  | .modulePin _ => ["pin"]
  | .moduleUnpin => ["unpin"]
  | .call pin _ _ _ _ => "call" :: (if pin then ["pin"] else [])
  | .launch pin suspend _ _ _ _ => "launch" :: ((if pin then ["pin"] else []) ++ if suspend then ["suspend"] else [])
  | _ => []

def isLaunch : Op → Bool
  | .launch .. => true
  | _ => false

/-- The actions are the operation's, or there is also a suspend action which the operation does not know. -/
def Accounted (acts : List String) (o : Op) : Prop :=
  acts.Perm (names o) ∨ (acts.Perm ("suspend" :: names o) ∧ isLaunch o = false)

theorem mem_values (q : Query) (k v : String) : v ∈ values q k ↔ (k, v) ∈ q := by
  simp only [values, List.mem_map, List.mem_filter, beq_iff_eq]
  constructor
  · rintro ⟨⟨a, b⟩, ⟨h1, h2⟩, h3⟩; simp only at h2 h3; subst h2 h3; exact h1
  · intro h; exact ⟨(k, v), ⟨h, rfl⟩, rfl⟩

theorem values_erase (q : Query) (v : String) : values (q.erase ("action", v)) "action" = (values q "action").erase v := by
  induction q with
  | nil => rfl
  | cons p ps ih =>
    obtain ⟨a, b⟩ := p
    by_cases h : (a, b) = ("action", v)
    · simp only [Prod.mk.injEq] at h
      obtain ⟨rfl, rfl⟩ := h
      simp [values]
    · rw [List.erase_cons_tail (by simpa using h)]
      by_cases ha : a = "action"
      · subst ha
        have hb : b ≠ v := by intro e; exact h (by rw [e])
        simp only [values, List.filter_cons, beq_self_eq_true, if_true, List.map_cons] at ih ⊢
        rw [List.erase_cons_tail (by simpa using hb), ih]
      · have hb : (a == "action") = false := by simpa using ha
        simp only [values, List.filter_cons, hb] at ih ⊢
        exact ih

theorem values_del (q : Query) (k k' : String) (h : k ≠ k') : values (del q k') k = values q k := by
  induction q with
  | nil => rfl
  | cons p ps ih =>
    obtain ⟨a, b⟩ := p
    by_cases ha : a = k'
    · subst ha
      have : (a == k) = false := by simp only [beq_eq_false_iff_ne, ne_eq]; exact fun e => h e.symm
      simp only [values, del, List.filter_cons, bne_self_eq_false, this] at ih ⊢
      simpa using ih
    · have : (a != k') = true := by simpa using ha
      simp only [values, del, List.filter_cons, this, if_true] at ih ⊢
      by_cases hk : a = k
      · subst hk; simp only [beq_self_eq_true, if_true, List.map_cons, ih]
      · have : (a == k) = false := by simpa using hk
        simp only [this, Bool.false_eq_true, if_false, ih]

/-- What is left of the actions after an optional one is removed. -/
theorem popAction_spec {q : Query} {k : String} {b : Bool} {q' : Query} (h : popAction q k = (b, q')) :
    (values q "action").Perm ((if b then [k] else []) ++ values q' "action") := by
  unfold popAction at h
  split at h
  · rename_i hm
    simp only [Prod.mk.injEq] at h
    rw [← h.1, ← h.2, values_erase]
    simpa using List.perm_cons_erase ((mem_values ..).mpr hm)
  · simp only [Prod.mk.injEq] at h
    rw [← h.1, ← h.2]
    simp

theorem popTags_spec {pin : Bool} {q q' : Query} {t : List String}
    (h : (if pin = true then popAll q "module.tag" else ([], q)) = (t, q')) : values q' "action" = values q "action" := by
  split at h
  · simp only [popAll, Prod.mk.injEq] at h; rw [← h.2]; exact values_del _ _ _ (by decide)
  · simp only [Prod.mk.injEq] at h; rw [h.2]

theorem popLast_spec {r : Req} {q : Query} {k : String} {x : String × Query} (h : popLast r q k = ([], some x)) : values q k = [x.1] := by
  unfold popLast at h
  split at h
  · rename_i v hv; rw [pure_some] at h; rw [hv, ← h]
  · split at h
    · simp at h
    · rw [fail_some] at h; exact h.elim
  · rw [fail_some] at h; exact h.elim

theorem parse_eq {r : Req} {q : Query} (h : parseQuery r = ([], some q)) : q = r.query := by
  unfold parseQuery at h; split at h
  · rw [pure_some] at h; exact h.symm
  · rw [fail_some] at h; exact h.elim

theorem parseOptional_eq {r : Req} {q : Query} (hr : r.raw = false → r.query = []) (h : parseOptionalQuery r = ([], some q)) : q = r.query := by
  unfold parseOptionalQuery at h; split at h
  · exact parse_eq h
  · rename_i hraw
    rw [pure_some] at h
    rw [hr (by simpa using hraw)]; exact h.symm

theorem put_actions (r : Req) (hr : r.raw = false → r.query = []) (o : Op) (h : Effect.op o ∈ (putKnownModule r).1) :
    Accounted (values r.query "action") o := by
  unfold putKnownModule at h
  rw [mem_bind (by parser)] at h; obtain ⟨_, _, h⟩ := h
  rw [mem_bind (by parser)] at h; obtain ⟨_, _, h⟩ := h
  rw [mem_bind (by parser)] at h; obtain ⟨q, hq, h⟩ := h
  have := parseOptional_eq hr hq
  subst this
  obtain ⟨pin, q1, hp⟩ : ∃ pin q1, popAction r.query "pin" = (pin, q1) := ⟨_, _, rfl⟩
  obtain ⟨sus, q2, hs⟩ : ∃ sus q2, popAction q1 "suspend" = (sus, q2) := ⟨_, _, rfl⟩
  obtain ⟨tags, q3, ht⟩ : ∃ tags q3, (if pin = true then popAll q2 "module.tag" else ([], q2)) = (tags, q3) := ⟨_, _, rfl⟩
  simp only [hp, hs, ht] at h
  have e1 := popAction_spec hp
  have e2 := popAction_spec hs
  have e3 := popTags_spec ht
  have e : (values r.query "action").Perm ((if pin then ["pin"] else []) ++ ((if sus then ["suspend"] else []) ++ values q3 "action")) := by
    rw [e3]; exact e1.trans (List.Perm.append_left _ e2)
  split at h
  · rw [mem_bind (by parser)] at h; obtain ⟨a, ha, h⟩ := h
    rw [popLast_spec ha] at e
    split at h
    · rename_i hc
      rw [mem_bind (by parser)] at h; obtain ⟨_, _, h⟩ := h
      rw [mem_bind (by parser)] at h; obtain ⟨_, _, h⟩ := h
      rw [mem_bind (by parser)] at h; obtain ⟨_, _, h⟩ := h
      rw [mem_perform] at h; subst h
      rw [hc] at e
      unfold Accounted names isLaunch
      cases pin <;> cases sus <;> simp only [Bool.false_eq_true, if_true, if_false, List.nil_append, List.append_nil, List.singleton_append] at e ⊢
      · exact .inl e
      · exact .inr ⟨e, trivial⟩
      · exact .inl (e.trans (List.Perm.swap ..))
      · exact .inr ⟨(e.trans (List.Perm.swap ..)).trans (List.Perm.cons _ (List.Perm.swap ..)), trivial⟩
    · split at h
      · rename_i hc
        rw [mem_bind (by parser)] at h; obtain ⟨_, _, h⟩ := h
        rw [mem_bind (by parser)] at h; obtain ⟨_, _, h⟩ := h
        rw [mem_bind (by parser)] at h; obtain ⟨_, _, h⟩ := h
        rw [mem_bind (by parser)] at h; obtain ⟨_, _, h⟩ := h
        rw [mem_perform] at h; subst h
        rw [hc] at e
        left
        unfold names
        refine e.trans ?_
        rw [← List.append_assoc]
        exact List.perm_append_comm
      · rw [mem_fail] at h; exact h.elim
  · rename_i hv
    simp only [ne_eq, Decidable.not_not] at hv
    rw [hv] at e
    split at h
    · rename_i hpin
      rw [mem_bind (by parser)] at h; obtain ⟨_, _, h⟩ := h
      rw [mem_perform] at h; subst h
      unfold Accounted names isLaunch
      rw [hpin] at e
      cases sus <;> simp only [Bool.false_eq_true, if_true, if_false, List.nil_append, List.append_nil, List.singleton_append] at e ⊢
      · exact .inl e
      · exact .inr ⟨e.trans (List.Perm.swap ..), trivial⟩
    · rw [mem_fail] at h; exact h.elim

theorem post_known_actions (r : Req) (o : Op) (h : Effect.op o ∈ (postKnownModule r).1) :
    Accounted (values r.query "action") o := by
  unfold postKnownModule at h
  rw [mem_bind (by parser)] at h; obtain ⟨q, hq, h⟩ := h
  have := parse_eq hq
  subst this
  split at h
  · rename_i hl
    rw [mem_bind (by parser)] at h; obtain ⟨_, _, h⟩ := h
    rw [mem_bind (by parser)] at h; obtain ⟨_, _, h⟩ := h
    rw [mem_perform] at h; subst h
    rw [List.eq_nil_of_length_eq_zero hl]
    exact .inl (List.Perm.refl _)
  · obtain ⟨sus, q2, hs⟩ : ∃ sus q2, popAction r.query "suspend" = (sus, q2) := ⟨_, _, rfl⟩
    simp only [hs] at h
    have e := popAction_spec hs
    rw [mem_bind (by parser)] at h; obtain ⟨a, ha, h⟩ := h
    rw [popLast_spec ha] at e
    have other : ∀ o, isLaunch o = false → names o = [a.1] → Accounted (values r.query "action") o := by
      intro o h1 h2
      unfold Accounted
      rw [h2]
      cases sus <;> simp only [Bool.false_eq_true, if_true, if_false, List.nil_append, List.singleton_append] at e
      · exact .inl e
      · exact .inr ⟨e, h1⟩
    split at h
    · rename_i hc
      rw [mem_bind (by parser)] at h; obtain ⟨_, _, h⟩ := h
      rw [mem_bind (by parser)] at h; obtain ⟨_, _, h⟩ := h
      rw [mem_bind (by parser)] at h; obtain ⟨_, _, h⟩ := h
      rw [mem_perform] at h; subst h
      exact other _ rfl (by rw [hc]; rfl)
    · split at h
      · rename_i hc
        rw [mem_bind (by parser)] at h; obtain ⟨_, _, h⟩ := h
        rw [mem_bind (by parser)] at h; obtain ⟨_, _, h⟩ := h
        rw [mem_bind (by parser)] at h; obtain ⟨_, _, h⟩ := h
        rw [mem_bind (by parser)] at h; obtain ⟨_, _, h⟩ := h
        rw [mem_bind (by parser)] at h; obtain ⟨_, _, h⟩ := h
        rw [mem_bind (by parser)] at h; obtain ⟨_, _, h⟩ := h
        rw [mem_perform] at h; subst h
        rw [hc] at e
        exact .inl (e.trans List.perm_append_comm)
      · split at h
        · rename_i hc
          rw [mem_bind (by parser)] at h; obtain ⟨_, _, h⟩ := h
          rw [mem_bind (by parser)] at h; obtain ⟨_, _, h⟩ := h
          rw [mem_bind (by parser)] at h; obtain ⟨_, _, h⟩ := h
          rw [mem_perform] at h; subst h
          exact other _ rfl (by rw [hc]; rfl)
        · split at h
          · rename_i hc
            rw [mem_bind (by parser)] at h; obtain ⟨_, _, h⟩ := h
            rw [mem_bind (by parser)] at h; obtain ⟨_, _, h⟩ := h
            rw [mem_bind (by parser)] at h; obtain ⟨_, _, h⟩ := h
            rw [mem_perform] at h; subst h
            exact other _ rfl (by rw [hc]; rfl)
          · rw [mem_fail] at h; exact h.elim

/-- C67 for requests without a suspend action on a known module: the actions are those of the operation,
each exactly once. -/
theorem actions_known_partial (r : Req) (hr : r.raw = false → r.query = []) (o : Op)
    (h : Effect.op o ∈ (putKnownModule r).1 ∨ Effect.op o ∈ (postKnownModule r).1)
    (hs : "suspend" ∉ values r.query "action" ∨ isLaunch o = true) : (values r.query "action").Perm (names o) := by
  have ha : Accounted (values r.query "action") o := by
    rcases h with h | h
    · exact put_actions r hr o h
    · exact post_known_actions r o h
  rcases ha with ha | ⟨ha, hl⟩
  · exact ha
  · exfalso
    rcases hs with hs | hs
    · exact hs (ha.mem_iff.mpr (by simp))
    · rw [hl] at hs; cases hs

/-- Refutes C67: a call, a pin or an unpin which is requested with suspend is performed without. -/
theorem suspend_ignored :
    (putKnownModule ⟨false, true, true, [("action", "call"), ("action", "suspend")], ["application/wasm"], 100, true, true⟩).1 =
      [.op (.call false false "" [] [])] ∧
    (putKnownModule ⟨false, true, true, [("action", "suspend"), ("action", "pin")], ["application/wasm"], 100, true, true⟩).1 =
      [.op (.moduleUpload [])] ∧
    (postKnownModule ⟨false, true, true, [("action", "unpin"), ("action", "suspend")], [], 0, true, true⟩).1 = [.op .moduleUnpin] := by
  decide +kernel

example : (putKnownModule ⟨false, true, true, [("action", "suspend"), ("module.tag", "t"), ("action", "launch"), ("action", "pin"), ("function", "f")],
    ["application/wasm"], 100, true, true⟩).1 = [.op (.launch true true "f" "" ["t"] [])] := by decide +kernel

/-- Operations which do not require authorization. -/
def anonymous : Op → Bool
  | .call _ auth _ _ _ => !auth
  | _ => false

def pins : Op → Bool
  | .call pin _ _ _ _ => pin
  | .launch pin _ _ _ _ _ => pin
  | .moduleUpload _ | .moduleSource _ | .modulePin _ => true
  | _ => false

/-- Whatever a handler performs satisfies a property of operations. -/
def Always (P : Op → Prop) (m : M Unit) : Prop := ∀ o, Effect.op o ∈ m.1 → P o

theorem always_bind {α} {P} {m : M α} {f : α → M Unit} (h : Parser m) (hf : ∀ a, Always P (f a)) : Always P (m >>= f) := by
  intro o ho
  rw [mem_bind h] at ho
  obtain ⟨a, _, ho⟩ := ho
  exact hf a o ho
theorem always_fail (P msg) : Always P (fail msg) := by intro o ho; rw [mem_fail] at ho; exact ho.elim
theorem always_perform {P : Op → Prop} {p} (h : P p) : Always P (perform p) := by intro o ho; rw [mem_perform] at ho; subst ho; exact h
theorem always_respond {P} {msg} {f : Unit → M Unit} (hf : Always P (f ())) : Always P (respond msg >>= f) := by
  intro o ho
  rw [bind_eq] at ho
  simp only [M.bind, respond, List.singleton_append, List.mem_cons, reduceCtorEq, false_or] at ho
  exact hf o ho
theorem always_pure {P} {f : Unit → M Unit} (hf : Always P (f ())) : Always P (M.pure () >>= f) := by
  intro o ho
  rw [bind_eq] at ho
  simp only [M.bind, M.pure, List.nil_append] at ho
  exact hf o ho

macro "always" : tactic => `(tactic| repeat' first
  | apply always_fail
  | (refine always_perform ?_; simp [anonymous, pins]; done)
  | (refine always_bind (by parser) ?_; intro a)
  | apply always_respond
  | apply always_pure
  | split)

/-- C68: without authorization a request can get nothing but a call, which is transient, and which does
not pin the module. -/
theorem anonymous_call (h : Req → M Unit)
    (hh : h ∈ [getKnownModule, postKnownModules, putKnownModule, postKnownModule, getModuleSource, postModuleSource, getInstance, postInstances, postInstance])
    (r : Req) (o : Op) (ho : Effect.op o ∈ (h r).1) (ha : anonymous o = true) : ∃ f mt it, o = .call false false f mt it := by
  suffices hs : Always (fun o => anonymous o = true → pins o = false) (h r) by
    have := hs o ho ha
    cases o <;> simp_all [anonymous, pins]
  simp only [List.mem_cons, List.not_mem_nil, or_false] at hh
  rcases hh with rfl | rfl | rfl | rfl | rfl | rfl | rfl | rfl | rfl
  · unfold getKnownModule; always
  · unfold postKnownModules; always
  · unfold putKnownModule; always
  · unfold postKnownModule; always
  · unfold getModuleSource; always
  · unfold postModuleSource; always
  · unfold getInstance; always
  · unfold postInstances; always
  · unfold postInstance postInstanceMulti; always

example : (putKnownModule ⟨false, true, true, [("action", "call")], ["application/wasm"], 100, true, true⟩).1 =
      [.op (.call false false "" [] [])] := by decide +kernel

end Gate.Web
