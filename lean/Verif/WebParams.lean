import Verif.WebActionsProps
/-
C72: no query parameter is ignored; more of C68: what needs authorization.
-/
namespace Gate.Web

/-- The query parameters which an operation makes use of (server/web/api.go names). -/
def parameters : Op → List String
  | .call _ _ _ _ _ => ["action", "module.tag", "function", "instance.tag", "log"]
  | .launch _ _ _ _ _ _ => ["action", "module.tag", "function", "instance", "instance.tag", "log"]
  | .moduleUpload _ | .moduleSource _ | .modulePin _ => ["action", "module.tag"]
  | .moduleUnpin | .instanceIO | .delete | .update | .debug | .kill _ | .suspend _ | .wait => ["action"]
  | .resume _ => ["action", "function", "log"]
  | .snapshot _ => ["action", "module.tag"]
  | .moduleList | .moduleInfo | .moduleDownload | .instanceList | .instanceInfo => []

/-- `m`, which handles the rest `q` of the query after parameters `S`, performs only operations which make use
of all those parameters and of those in `q`. -/
def Cons (q : Query) (S : List String) (m : M Unit) : Prop :=
  ∀ o, Effect.op o ∈ m.1 → (∀ k ∈ S, k ∈ parameters o) ∧ ∀ p ∈ q, p.1 ∈ parameters o

/-- All but parameter `k` of `q` is in `q'`. -/
def Sub (q q' : Query) (k : String) : Prop := ∀ p ∈ q, p ∈ q' ∨ p.1 = k

theorem cons_step {q q' : Query} {k S m} (h : Sub q q' k) (hc : Cons q' (k :: S) m) : Cons q S m := by
  intro o ho
  obtain ⟨h1, h2⟩ := hc o ho
  refine ⟨fun k' hk => h1 k' (List.mem_cons_of_mem _ hk), fun p hp => ?_⟩
  rcases h p hp with h | h
  · exact h2 p h
  · rw [h]; exact h1 k (by simp)
theorem cons_optional {q q' : Query} {k S m} (h : Sub q q' k) (hc : Cons q' (k :: S) m) : Cons q S m := cons_step h hc
theorem cons_bind {α q S} {m : M α} {f : α → M Unit} (h : Parser m) (hf : ∀ a, m = ([], some a) → Cons q S (f a)) : Cons q S (m >>= f) := by
  intro o ho
  rw [mem_bind h] at ho
  obtain ⟨a, ha, ho⟩ := ho
  exact hf a ha o ho
theorem cons_none {q S} {f : Unit → M Unit} (hf : Cons [] S (f ())) : Cons q S (noParams q >>= f) := by
  intro o ho
  rw [mem_bind (by parser)] at ho
  obtain ⟨a, ha, ho⟩ := ho
  have hq : q = [] := by
    unfold noParams at ha
    split at ha
    · rw [fail_some] at ha; exact ha.elim
    · rename_i h; exact List.length_eq_zero_iff.mp (by omega)
  subst hq
  exact hf o ho
theorem cons_fail (q S msg) : Cons q S (fail msg) := by intro o ho; rw [mem_fail] at ho; exact ho.elim
theorem cons_perform {S p} (h : ∀ k ∈ S, k ∈ parameters p) : Cons [] S (perform p) := by
  intro o ho; rw [mem_perform] at ho; subst ho; exact ⟨h, by simp⟩
theorem cons_respond {q S msg} {f : Unit → M Unit} (hf : Cons q S (f ())) : Cons q S (respond msg >>= f) := by
  intro o ho
  rw [bind_eq] at ho
  simp only [M.bind, respond, List.singleton_append, List.mem_cons, reduceCtorEq, false_or] at ho
  exact hf o ho
theorem cons_pure {q S} {f : Unit → M Unit} (hf : Cons q S (f ())) : Cons q S (M.pure () >>= f) := by
  intro o ho
  rw [bind_eq] at ho
  simp only [M.bind, M.pure, List.nil_append] at ho
  exact hf o ho

theorem sub_del (q : Query) (k : String) : Sub q (del q k) k := by
  intro p hp
  by_cases h : p.1 = k
  · exact .inr h
  · exact .inl (List.mem_filter.mpr ⟨hp, by simp [h]⟩)
theorem sub_refl (q : Query) (k : String) : Sub q q k := fun _ hp => .inl hp
theorem sub_action {q q' : Query} {k b} (h : popAction q k = (b, q')) : Sub q q' "action" := by
  unfold popAction at h
  split at h
  · cases h
    intro p hp
    by_cases hk : p = ("action", k)
    · exact .inr (by rw [hk])
    · exact .inl ((List.mem_erase_of_ne hk).mpr hp)
  · cases h; exact sub_refl _ _
theorem sub_all {q q' : Query} {k v} (h : popAll q k = (v, q')) : Sub q q' k := by
  cases h; exact sub_del _ _
theorem sub_last {r} {q q' : Query} {k v} (h : popLast r q k = ([], some (v, q'))) : Sub q q' k := by
  unfold popLast at h
  split at h
  · rw [pure_some] at h; cases h; exact sub_del _ _
  · split at h
    · cases h
    · rw [fail_some] at h; exact h.elim
  · rw [fail_some] at h; exact h.elim
theorem sub_optional {q q' : Query} {k v} (h : popOptional q k = ([], some (v, q'))) : Sub q q' k := by
  unfold popOptional at h
  split at h
  · rw [pure_some] at h; cases h; exact sub_del _ _
  · rw [pure_some] at h; cases h; exact sub_refl _ _
  · rw [fail_some] at h; exact h.elim
theorem parser_some {α β} {m : M α} {f : α → M β} {b : β} (h : Parser m) (hb : (m >>= f) = ([], some b)) :
    ∃ a, m = ([], some a) ∧ f a = ([], some b) := by
  rw [bind_eq] at hb
  unfold M.bind at hb
  rcases h with ⟨h1, h2⟩ | ⟨h1, _⟩
  · obtain ⟨a, ha⟩ := Option.isSome_iff_exists.mp h2
    simp only [ha, h1, List.nil_append] at hb
    exact ⟨a, Prod.ext h1 ha, hb⟩
  · rw [h1] at hb; exact absurd (congrArg Prod.snd hb) (by simp)
theorem sub_log {q q' : Query} (h : popLog q = ([], some q')) : Sub q q' "log" := by
  unfold popLog at h
  obtain ⟨⟨v, q1⟩, h1, h2⟩ := parser_some (parser_popOptional _ _) h
  simp only at h2
  split at h2
  · rw [pure_some] at h2; subst h2; exact sub_optional h1
  · rw [fail_some] at h2; exact h2.elim
theorem sub_function {q q' : Query} {v} (h : popFunction q = ([], some (v, q'))) : Sub q q' "function" := by
  unfold popFunction at h
  obtain ⟨⟨v, q1⟩, h1, h2⟩ := parser_some (parser_popOptional _ _) h
  simp only at h2
  split at h2
  · rw [fail_some] at h2; exact h2.elim
  · rw [pure_some] at h2; cases h2; exact sub_optional h1

theorem cons_last {r q k S} {f : String × Query → M Unit} (hf : ∀ v q', Cons q' (k :: S) (f (v, q'))) : Cons q S (popLast r q k >>= f) :=
  cons_bind (by parser) fun a ha => cons_step (sub_last ha) (hf a.1 a.2)
theorem cons_opt {q k S} {f : String × Query → M Unit} (hf : ∀ v q', Cons q' (k :: S) (f (v, q'))) : Cons q S (popOptional q k >>= f) :=
  cons_bind (by parser) fun a ha => cons_step (sub_optional ha) (hf a.1 a.2)
theorem cons_function {q S} {f : String × Query → M Unit} (hf : ∀ v q', Cons q' ("function" :: S) (f (v, q'))) : Cons q S (popFunction q >>= f) :=
  cons_bind (by parser) fun a ha => cons_step (sub_function ha) (hf a.1 a.2)
theorem cons_log {q S} {f : Query → M Unit} (hf : ∀ q', Cons q' ("log" :: S) (f q')) : Cons q S (popLog q >>= f) :=
  cons_bind (by parser) fun a ha => cons_step (sub_log ha) (hf a)

theorem cons_logdel {q k S} {f : Query → M Unit} (hf : ∀ q', Cons q' ("log" :: k :: S) (f q')) : Cons q S (popLog (del q k) >>= f) :=
  cons_step (sub_del q k) (cons_log hf)
theorem cons_nonedel {q k S} {f : Unit → M Unit} (hf : Cons [] (k :: S) (f ())) : Cons q S (noParams (del q k) >>= f) :=
  cons_step (sub_del q k) (cons_none hf)

theorem sub_if {b : Bool} {q q' : Query} {k v} (h : (if b = true then popAll q k else ([], q)) = (v, q')) : Sub q q' k := by
  split at h
  · exact sub_all h
  · cases h; exact sub_refl _ _

macro "consume" : tactic => `(tactic| repeat' first
  | apply cons_fail
  | (refine cons_perform ?_; simp [parameters]; done)
  | (refine cons_nonedel ?_)
  | (refine cons_none ?_)
  | (refine cons_last ?_; intro v q; try dsimp only)
  | (refine cons_opt ?_; intro v q; try dsimp only)
  | (refine cons_function ?_; intro v q; try dsimp only)
  | (refine cons_logdel ?_; intro q)
  | (refine cons_log ?_; intro q)
  | (refine cons_bind (by parser) ?_; intro a ha; clear ha)
  | apply cons_respond
  | apply cons_pure
  | split)

theorem query_eq {r : Req} {q} (h : parseQuery r = ([], some q)) : q = r.query := by
  unfold parseQuery at h; split at h
  · rw [pure_some] at h; exact h.symm
  · rw [fail_some] at h; exact h.elim
theorem optional_eq {r : Req} {q} (hr : r.raw = false → r.query = []) (h : parseOptionalQuery r = ([], some q)) : q = r.query := by
  unfold parseOptionalQuery at h; split at h
  · exact query_eq h
  · rename_i hn; rw [pure_some] at h; rw [hr (by simpa using hn)]; exact h.symm

theorem cons_query {r : Req} {f : Query → M Unit} (h : Cons r.query [] (f r.query)) : Cons r.query [] (parseQuery r >>= f) :=
  cons_bind (by parser) fun a ha => by rw [query_eq ha]; exact h
theorem cons_optquery {r : Req} {f : Query → M Unit} (hr : r.raw = false → r.query = []) (h : Cons r.query [] (f r.query)) :
    Cons r.query [] (parseOptionalQuery r >>= f) :=
  cons_bind (by parser) fun a ha => by rw [optional_eq hr ha]; exact h
theorem cons_noQuery {r : Req} {f : Unit → M Unit} (hr : r.raw = false → r.query = []) (h : Cons [] [] (f ())) : Cons r.query [] (noQuery r >>= f) :=
  cons_bind (by parser) fun a ha => by
    unfold noQuery at ha; split at ha
    · rw [fail_some] at ha; exact ha.elim
    · rename_i hn; rw [hr (by simpa using hn)]; exact h
theorem action_true {q : Query} {k} (h : ("action", k) ∈ q) : popAction q k = (true, q.erase ("action", k)) := by simp [popAction, h]
theorem action_false {q : Query} {k} (h : ("action", k) ∉ q) : popAction q k = (false, q) := by simp [popAction, h]
theorem sub_erase (q : Query) (k) : Sub q (q.erase ("action", k)) "action" := by
  intro p hp
  by_cases hk : p = ("action", k)
  · exact .inr (by rw [hk])
  · exact .inl ((List.mem_erase_of_ne hk).mpr hp)

theorem cons_getKnownModule (r : Req) (hr : r.raw = false → r.query = []) : Cons r.query [] (getKnownModule r) := by
  unfold getKnownModule
  refine cons_optquery hr ?_
  by_cases hp : ("action", "pin") ∈ r.query
  · simp only [action_true hp, if_true, popAll]
    refine cons_step (sub_erase _ "pin") (cons_step (sub_del _ "module.tag") ?_)
    consume
  · simp only [action_false hp, Bool.false_eq_true, if_false]
    consume
theorem cons_putKnownModule (r : Req) (hr : r.raw = false → r.query = []) : Cons r.query [] (putKnownModule r) := by
  unfold putKnownModule
  refine cons_bind (by parser) fun _ _ => cons_bind (by parser) fun _ _ => ?_
  refine cons_optquery hr ?_
  by_cases hp : ("action", "pin") ∈ r.query
  · simp only [action_true hp]
    refine cons_step (sub_erase _ "pin") ?_
    obtain ⟨b, q', e⟩ : ∃ b q', popAction (r.query.erase ("action", "pin")) "suspend" = (b, q') := ⟨_, _, rfl⟩
    simp only [e, if_true, popAll]
    refine cons_step (sub_action e) (cons_step (sub_del _ "module.tag") ?_)
    consume
  · simp only [action_false hp]
    obtain ⟨b, q', e⟩ : ∃ b q', popAction r.query "suspend" = (b, q') := ⟨_, _, rfl⟩
    simp only [e, Bool.false_eq_true, if_false]
    refine cons_step (sub_action e) ?_
    consume
theorem cons_postKnownModule (r : Req) : Cons r.query [] (postKnownModule r) := by
  unfold postKnownModule
  refine cons_query ?_
  split
  · consume
  · obtain ⟨b, q', e⟩ : ∃ b q', popAction r.query "suspend" = (b, q') := ⟨_, _, rfl⟩
    simp only [e, popAll]
    refine cons_step (sub_action e) ?_
    consume
theorem cons_getModuleSource (r : Req) : Cons r.query [] (getModuleSource r) := by
  unfold getModuleSource
  refine cons_query ?_
  by_cases hp : ("action", "pin") ∈ r.query
  · simp only [action_true hp, if_true, popAll]
    refine cons_step (sub_erase _ "pin") (cons_step (sub_del _ "module.tag") ?_)
    consume
  · simp only [action_false hp, Bool.false_eq_true, if_false, popAll]
    consume
theorem cons_postModuleSource (r : Req) : Cons r.query [] (postModuleSource r) := by
  unfold postModuleSource
  refine cons_query ?_
  by_cases hp : ("action", "pin") ∈ r.query
  · simp only [action_true hp, if_true, popAll]
    refine cons_step (sub_erase _ "pin") (cons_step (sub_del _ "module.tag") ?_)
    obtain ⟨b, q', e⟩ : ∃ b q', popAction (del (r.query.erase ("action", "pin")) "module.tag") "suspend" = (b, q') := ⟨_, _, rfl⟩
    simp only [e]
    split
    · refine cons_step (sub_action e) ?_
      consume
    · consume
  · simp only [action_false hp, Bool.false_eq_true, if_false, popAll]
    obtain ⟨b, q', e⟩ : ∃ b q', popAction r.query "suspend" = (b, q') := ⟨_, _, rfl⟩
    simp only [e]
    split
    · refine cons_step (sub_action e) ?_
      consume
    · consume
theorem cons_getInstance (r : Req) : Cons r.query [] (getInstance r) := by
  unfold getInstance
  refine cons_query ?_
  consume
theorem cons_multi (as : List String) (q : Query) : Cons q ["action"] (postInstanceMulti as q) := by
  unfold postInstanceMulti; consume
theorem sub_empty {q : Query} {k} (h : values q k = []) : del q k = q := by
  unfold values at h; unfold del
  rw [List.map_eq_nil_iff, List.filter_eq_nil_iff] at h
  rw [List.filter_eq_self]; intro p hp; have := h p hp; simpa using this
theorem cons_postInstance (r : Req) : Cons r.query [] (postInstance r) := by
  unfold postInstance
  refine cons_query ?_
  simp only [popAll]
  split
  · rename_i h; rw [sub_empty h]; consume
  · refine cons_step (sub_del _ "action") ?_
    repeat' first
      | (with_reducible exact cons_multi _ _)
      | apply cons_fail
      | (refine cons_perform ?_; simp [parameters]; done)
      | (with_reducible refine cons_nonedel (k := "module.tag") ?_)
      | (refine cons_none ?_)
      | (refine cons_function ?_; intro v q; try dsimp only)
      | (refine cons_log ?_; intro q)
      | split
  · exact cons_step (sub_del _ "action") (cons_multi _ _)

/-- C72: every parameter of the query of a request which gets an operation performed is one that the
operation makes use of. -/
theorem no_excess_parameters (h : Req → M Unit)
    (hh : h ∈ [getKnownModule, postKnownModules, putKnownModule, postKnownModule, getModuleSource, postModuleSource, getInstance, postInstances, postInstance])
    (r : Req) (hr : r.raw = false → r.query = []) (o : Op) (ho : Effect.op o ∈ (h r).1) : ∀ p ∈ r.query, p.1 ∈ parameters o := by
  suffices hs : Cons r.query [] (h r) from (hs o ho).2
  simp only [List.mem_cons, List.not_mem_nil, or_false] at hh
  rcases hh with rfl | rfl | rfl | rfl | rfl | rfl | rfl | rfl | rfl
  · exact cons_getKnownModule r hr
  · unfold postKnownModules; refine cons_noQuery hr ?_; consume
  · exact cons_putKnownModule r hr
  · exact cons_postKnownModule r
  · exact cons_getModuleSource r
  · exact cons_postModuleSource r
  · exact cons_getInstance r
  · unfold postInstances; refine cons_noQuery hr ?_; consume
  · exact cons_postInstance r

/-- A request with parameters, of which all are used; and one with another parameter, which is refused. -/
example : (postInstance ⟨false, true, true, [("function", "main"), ("action", "resume")], [], 0, true, true⟩).1 = [.op (.resume "main")] := by decide +kernel
example : (postInstance ⟨false, true, true, [("function", "main"), ("action", "resume"), ("x", "")], [], 0, true, true⟩).1 = [.error "excess query params"] := by
  decide +kernel

/-- C68: a module known to the server, and an instance, is accessible only with authorization, unless the
module is called with a websocket or with its content. -/
theorem known_module_authorized (h : Req → M Unit)
    (hh : h ∈ [postKnownModules, postKnownModule, getInstance, postInstances, postInstance])
    (r : Req) (o : Op) (ho : Effect.op o ∈ (h r).1) : anonymous o = false := by
  suffices hs : Always (fun o => anonymous o = false) (h r) from hs o ho
  simp only [List.mem_cons, List.not_mem_nil, or_false] at hh
  rcases hh with rfl | rfl | rfl | rfl | rfl
  · unfold postKnownModules; always
  · unfold postKnownModule; always
  · unfold getInstance; always
  · unfold postInstances; always
  · unfold postInstance postInstanceMulti; always

example : Effect.op (.call false true "main" [] []) ∈ (postKnownModule ⟨false, true, true, [("function", "main"), ("action", "call")], [], 0, true, true⟩).1 := by
  decide +kernel
/-! ### Function names -/

/-- The function name among an operation's arguments. -/
def functionOf : Op → Option String
  | .call _ _ f _ _ => some f
  | .launch _ _ f _ _ _ => some f
  | .resume f => some f
  | _ => none

/-- What may be a function name: 1 to 31 letters, digits, hyphens, dots and underscores. -/
def FunctionName (s : String) : Prop :=
  (∀ c ∈ s.toList, c ∈ "ABCDEFGHIJKLMNOPQRSTUVWXYZabcdefghijklmnopqrstuvwxyz0123456789-._".toList) ∧ 1 ≤ s.toList.length ∧ s.toList.length ≤ 31

theorem nameChar_iff (c : Char) : (c.isAlphanum || c == '-' || c == '.' || c == '_') = true ↔
    c ∈ "ABCDEFGHIJKLMNOPQRSTUVWXYZabcdefghijklmnopqrstuvwxyz0123456789-._".toList := by
  constructor
  · intro h
    have hn : c.toNat < 128 := by
      simp only [Char.isAlphanum, Char.isAlpha, Char.isUpper, Char.isLower, Char.isDigit, Bool.or_eq_true, Bool.and_eq_true, decide_eq_true_eq, beq_iff_eq] at h
      rcases h with (((((h | h) | h) | h) | h) | h)
      · have := h.2; simp only [Char.toNat]; have h2 : c.val.toNat ≤ 90 := this; omega
      · have := h.2; simp only [Char.toNat]; have h2 : c.val.toNat ≤ 122 := this; omega
      · have := h.2; simp only [Char.toNat]; have h2 : c.val.toNat ≤ 57 := this; omega
      · subst h; decide
      · subst h; decide
      · subst h; decide
    have key : ∀ n : Fin 128, ((Char.ofNat n.val).isAlphanum || Char.ofNat n.val == '-' || Char.ofNat n.val == '.' || Char.ofNat n.val == '_') = true →
        Char.ofNat n.val ∈ "ABCDEFGHIJKLMNOPQRSTUVWXYZabcdefghijklmnopqrstuvwxyz0123456789-._".toList := by decide +kernel
    have := key ⟨c.toNat, hn⟩
    simp only [Char.ofNat_toNat] at this
    exact this h
  · revert c
    have : ∀ c ∈ "ABCDEFGHIJKLMNOPQRSTUVWXYZabcdefghijklmnopqrstuvwxyz0123456789-._".toList, (c.isAlphanum || c == '-' || c == '.' || c == '_') = true := by decide +kernel
    exact this

theorem validFunction_iff (s : String) : validFunction s = true ↔ FunctionName s := by
  unfold validFunction FunctionName
  simp only [Bool.and_eq_true, List.all_eq_true, nameChar_iff, decide_eq_true_eq, and_assoc]

theorem always_function {P : Op → Prop} {q} {f : String × Query → M Unit}
    (hf : ∀ v q', v = "" ∨ FunctionName v → Always P (f (v, q'))) : Always P (popFunction q >>= f) := by
  intro o ho
  rw [mem_bind (parser_popFunction q)] at ho
  obtain ⟨⟨v, q'⟩, ha, ho⟩ := ho
  refine hf v q' ?_ o ho
  unfold popFunction at ha
  obtain ⟨⟨v1, q1⟩, -, hb⟩ := parser_some (parser_popOptional q "function") ha
  simp only at hb
  split at hb
  · rw [fail_some] at hb; exact hb.elim
  · next hc =>
    rw [pure_some] at hb
    cases hb
    by_cases hv : v = ""
    · exact .inl hv
    · right
      rw [← validFunction_iff]
      cases hx : validFunction v with
      | true => rfl
      | false => exact absurd ⟨hv, by simp [hx]⟩ hc

macro "functions" : tactic => `(tactic| repeat' first
  | apply always_fail
  | (refine always_perform ?_; intro f hf; simp only [functionOf, Option.some.injEq, reduceCtorEq] at hf; done)
  | (refine always_perform ?_; intro f hf; simp only [functionOf, Option.some.injEq] at hf; subst hf; assumption)
  | (refine always_function ?_; intro v q' hv)
  | (refine always_bind (by parser) ?_; intro a)
  | apply always_respond
  | apply always_pure
  | split)

set_option maxHeartbeats 2000000 in
/-- C72: no operation gets a function name which isn't valid: it's empty (no function), or matches the pattern. -/
theorem function_names (h : Req → M Unit)
    (hh : h ∈ [getKnownModule, postKnownModules, putKnownModule, postKnownModule, getModuleSource, postModuleSource, getInstance, postInstances, postInstance])
    (r : Req) (o : Op) (ho : Effect.op o ∈ (h r).1) (f : String) (hf : functionOf o = some f) : f = "" ∨ FunctionName f := by
  suffices hs : Always (fun o => ∀ f, functionOf o = some f → f = "" ∨ FunctionName f) (h r) from hs o ho f hf
  simp only [List.mem_cons, List.not_mem_nil, or_false] at hh
  rcases hh with rfl | rfl | rfl | rfl | rfl | rfl | rfl | rfl | rfl
  · unfold getKnownModule; functions
  · unfold postKnownModules; functions
  · unfold putKnownModule; functions
  · unfold postKnownModule; functions
  · unfold getModuleSource; functions
  · unfold postModuleSource; functions
  · unfold getInstance; functions
  · unfold postInstances; functions
  · unfold postInstance postInstanceMulti; functions

example : (postInstance ⟨false, true, true, [("function", "a b"), ("action", "resume")], [], 0, true, true⟩).1 = [.error "invalid function"] ∧
    (postInstance ⟨false, true, true, [("function", "a-Z0._"), ("action", "resume")], [], 0, true, true⟩).1 = [.op (.resume "a-Z0._")] := by
  decide +kernel

end Gate.Web
