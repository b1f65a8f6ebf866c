import Verif.ServicesProps
/-
C16, C17 (service discovery packets), C22 (discovery), C23 (service state over
suspension), C55 (catalog), C56 (restoring service lists).
-/
namespace Gate.Services
open Gate Gate.Packet

/-! ### C55: the catalog -/

/-- Association lookup. -/
def mget (name : Name) : List (Name × Bytes) → Option Bytes
  | [] => none
  | (n, v) :: rest => if n = name then some v else mget name rest

theorem mget_mem (m : List (Name × Bytes)) (hn : (m.map (·.1)).Nodup) (name : Name) (v : Bytes) :
    (name, v) ∈ m ↔ mget name m = some v := by
  induction m with
  | nil => simp [mget]
  | cons e m ih =>
    obtain ⟨n, w⟩ := e
    simp only [List.map_cons, List.nodup_cons] at hn
    simp only [mget, List.mem_cons, Prod.mk.injEq]
    by_cases h : n = name
    · subst h
      simp only [if_true, Option.some.injEq, true_and]
      constructor
      · rintro (h | h)
        · exact h.symm
        · exact absurd (List.mem_map_of_mem (f := (·.1)) h) hn.1
      · intro h; exact Or.inl h.symm
    · rw [if_neg h, ← ih hn.2]
      constructor
      · rintro (⟨h1, _⟩ | h1)
        · exact absurd h1.symm h
        · exact h1
      · exact Or.inr

theorem mget_filter_ne (m : List (Name × Bytes)) (name n : Name) (h : n ≠ name) :
    mget n (m.filter (fun e => e.1 ≠ name)) = mget n m := by
  induction m with
  | nil => rfl
  | cons e m ih =>
    obtain ⟨k, v⟩ := e
    by_cases hk : k = name
    · subst hk
      simp only [List.filter_cons, ne_eq, not_true_eq_false, decide_false, Bool.false_eq_true, if_false]
      rw [mget, if_neg (fun hc => h hc.symm)]
      exact ih
    · rw [List.filter_cons, if_pos (by simpa using hk)]
      simp only [mget]
      rw [ih]

theorem mget_put (m : List (Name × Bytes)) (name n : Name) (rev : Bytes) :
    mget n (put m name rev) = if name = n then some rev else mget n m := by
  unfold put
  simp only [mget]
  split
  · rfl
  · rename_i h; exact mget_filter_ne m name n (fun hc => h hc.symm)

theorem put_nodup (m : List (Name × Bytes)) (hn : (m.map (·.1)).Nodup) (name : Name) (rev : Bytes) :
    ((put m name rev).map (·.1)).Nodup := by
  unfold put
  simp only [List.map_cons, List.nodup_cons]
  constructor
  · intro h
    obtain ⟨e, he, h2⟩ := List.mem_map.mp h
    rw [List.mem_filter] at he
    simp [h2] at he
  · have : ((m.filter (fun e => e.1 ≠ name)).map (·.1)).Sublist (m.map (·.1)) :=
      List.Sublist.map _ List.filter_sublist
    exact this.nodup hn

theorem catalogMap_spec (h : Heap) (disc : Factory → Bool) : ∀ (fuel r : Nat),
    ((catalogMap h disc fuel r).map (·.1)).Nodup ∧
    ∀ name, mget name (catalogMap h disc fuel r) =
      (lookupLoop h name fuel r).map (fun f => if disc f then f.revision else []) := by
  intro fuel
  induction fuel with
  | zero => intro r; simp [catalogMap, lookupLoop, mget]
  | succ fuel ih =>
    intro r
    simp only [catalogMap, lookupLoop]
    cases hx : h[r]? with
    | none => simp [mget]
    | some node =>
      simp only
      have fold : ∀ (base : List (Name × Bytes)) (res : Name → Option Factory),
          (base.map (·.1)).Nodup →
          (∀ name, mget name base = (res name).map (fun f => if disc f then f.revision else [])) →
          ∀ l : List (Name × Factory),
          ((l.foldr (fun e m => put m e.1 (if disc e.2 then e.2.revision else [])) base).map (·.1)).Nodup ∧
          ∀ name, mget name (l.foldr (fun e m => put m e.1 (if disc e.2 then e.2.revision else [])) base) =
            (match find name l with
              | some f => some f
              | none => res name).map (fun f => if disc f then f.revision else []) := by
        intro base res h1 h2 l
        induction l with
        | nil => exact ⟨h1, h2⟩
        | cons e l ihl =>
          obtain ⟨n, f⟩ := e
          simp only [List.foldr_cons]
          refine ⟨put_nodup _ ihl.1 _ _, fun name => ?_⟩
          rw [mget_put, find]
          by_cases hc : n = name
          · rw [if_pos hc, if_pos hc]; rfl
          · rw [if_neg hc, if_neg hc]; exact ihl.2 name
      cases hp : node.parent with
      | none => exact fold [] (fun _ => none) (by simp) (by intro n; rfl) node.factories
      | some p => exact fold _ (fun n => lookupLoop h n fuel p) (ih p).1 (ih p).2 node.factories

/-- C55: the catalog of a registry lists exactly the services which a lookup finds and
which are discoverable in the context, each name once and with its revision. -/
theorem catalog_spec (cat : Categories) (ops : List Op) (disc : Factory → Bool) (r : Nat)
    (hr : r < created ops.reverse) :
    ((catalog (run cat ops) disc r).map (·.1)).Nodup ∧
    ∀ name rev, (name, rev) ∈ catalog (run cat ops) disc r ↔
      ∃ f, lookup (run cat ops) r name = some f ∧ disc f = true ∧ f.revision = rev := by
  obtain ⟨h1, h2⟩ := catalogMap_spec (run cat ops) disc ((run cat ops).length + 1) r
  constructor
  · exact (List.Sublist.map (·.1) (List.filter_sublist (l := catalogMap (run cat ops) disc _ r))).nodup h1
  · intro name rev
    unfold catalog
    rw [List.mem_filter, mget_mem _ h1, h2]
    change Option.map _ (lookup (run cat ops) r name) = some rev ∧ _ ↔ _
    constructor
    · rintro ⟨h3, h4⟩
      obtain ⟨f, h5, h6⟩ := Option.map_eq_some_iff.mp h3
      refine ⟨f, h5, ?_⟩
      by_cases hd : disc f = true
      · rw [if_pos hd] at h6; exact ⟨hd, h6⟩
      · rw [if_neg hd] at h6; subst h6; simp at h4
    · rintro ⟨f, h5, h6, h7⟩
      have hv := lookup_valid cat ops r name f hr h5
      rw [h5, Option.map_some, if_pos h6, h7]
      refine ⟨rfl, ?_⟩
      have := hv.2.2.1
      rw [h7] at this
      simp only [ne_eq, decide_not, Bool.not_eq_true', decide_eq_false_iff_not]
      intro hc; rw [hc] at this; simp at this

example : catalog (run catAny exOps) (fun f => f.id ≠ 3) 1 = [([65], [50])] := by decide

/-! ### C22: discovery -/

/-- The implementation a discovery assigns to a name. -/
def avail (look : Name → Option Factory) (disc : Factory → Bool) (n : Name) : Option Factory :=
  (look n).filter disc

/-- A newly discovered service: no state. -/
def newSvc (look : Name → Option Factory) (disc : Factory → Bool) (n : Name) : Svc :=
  ⟨n, [], avail look disc n⟩

theorem discoverLoop_spec (look : Name → Option Factory) (disc : Factory → Bool) :
    ∀ (names : List Name) (news : List Svc) (seen : List Factory),
    (((names.filterMap (avail look disc)).Nodup ∧ (∀ f ∈ names.filterMap (avail look disc), f ∉ seen)) →
      discoverLoop look disc names news seen =
        (.ok (news ++ names.map (newSvc look disc)), (names.filterMap (avail look disc)).reverse ++ seen)) ∧
    (¬ ((names.filterMap (avail look disc)).Nodup ∧ (∀ f ∈ names.filterMap (avail look disc), f ∉ seen)) →
      ∃ m seen', discoverLoop look disc names news seen = (.err m, seen')) := by
  intro names
  induction names with
  | nil => intro news seen; simp [discoverLoop]
  | cons n names ih =>
    intro news seen
    have key : ∀ (h : avail look disc n = none),
        discoverLoop look disc (n :: names) news seen = discoverLoop look disc names (news ++ [newSvc look disc n]) seen := by
      intro h
      simp only [discoverLoop, newSvc, h]
      unfold avail at h
      cases hl : look n with
      | none => rfl
      | some f =>
        rw [hl] at h
        simp only [Option.filter_eq_none_iff, Option.some.injEq, forall_eq'] at h
        simp only
        rw [if_neg h]
    cases ha : avail look disc n with
    | none =>
      rw [key ha]
      simp only [List.filterMap_cons, ha, List.map_cons]
      have := ih (news ++ [newSvc look disc n]) seen
      simpa only [List.append_assoc, List.singleton_append] using this
    | some f =>
      have hl : look n = some f ∧ disc f = true := by
        unfold avail at ha
        exact Option.filter_eq_some_iff.mp ha
      simp only [List.filterMap_cons, ha, List.map_cons, discoverLoop, hl.1, hl.2, if_true]
      by_cases hs : f ∈ seen
      · rw [if_pos hs]
        refine ⟨fun h => absurd hs (h.2 f (by simp)), fun _ => ⟨_, _, rfl⟩⟩
      · rw [if_neg hs]
        have hi := ih (news ++ [newSvc look disc n]) (f :: seen)
        have e : (⟨n, [], some f⟩ : Svc) = newSvc look disc n := by simp [newSvc, ha]
        rw [e]
        have iff : ((f :: names.filterMap (avail look disc)).Nodup ∧
              (∀ g ∈ f :: names.filterMap (avail look disc), g ∉ seen)) ↔
            ((names.filterMap (avail look disc)).Nodup ∧
              (∀ g ∈ names.filterMap (avail look disc), g ∉ f :: seen)) := by
          simp only [List.nodup_cons, List.mem_cons, not_or]
          constructor
          · rintro ⟨⟨a, b⟩, c⟩
            exact ⟨b, fun g hg => ⟨fun hc => a (hc ▸ hg), c g (Or.inr hg)⟩⟩
          · rintro ⟨b, c⟩
            refine ⟨⟨fun hf => (c f hf).1 rfl, b⟩, ?_⟩
            rintro g (rfl | hg)
            · exact hs
            · exact (c g hg).2
        constructor
        · intro h
          rw [hi.1 (iff.mp h)]
          simp
        · intro h
          exact hi.2 (fun hc => h (iff.mpr hc))

/-- One discovery request: the registry and what is discoverable at that moment, and
the names. -/
structure Req where
  look : Name → Option Factory
  disc : Factory → Bool
  names : List Name

/-- A sequence of successful discoveries. -/
def discoverAll : Disc → List Req → Option Disc
  | d, [] => some d
  | d, q :: qs =>
    match discover q.look q.disc d q.names with
    | (.ok _, d') => discoverAll d' qs
    | _ => none

/-- The implementations in use. -/
def inUse (d : Disc) : List Factory := d.services.filterMap (·.factory)

/-- States the discoverer can be in before an error: the recorded set is the set of
implementations in use, each used once. -/
structure Good (d : Disc) : Prop where
  nodup : (inUse d).Nodup
  same : ∀ f, f ∈ d.discovered ↔ f ∈ inUse d

theorem filterMap_newSvc (look : Name → Option Factory) (disc : Factory → Bool) (names : List Name) :
    (names.map (newSvc look disc)).filterMap (·.factory) = names.filterMap (avail look disc) := by
  induction names with
  | nil => rfl
  | cons n names ih => simp only [List.map_cons, List.filterMap_cons, newSvc, ih]

/-- C22: a discovery succeeds exactly if no available implementation among the names is
repeated or already in use; it then appends the names in order, and the reply has
one entry per service, true exactly if the service is usable.  Otherwise it is an
error and the services stay as they were. -/
theorem discover_spec (look : Name → Option Factory) (disc : Factory → Bool) (d : Disc) (hd : Good d)
    (names : List Name) :
    (((names.filterMap (avail look disc)).Nodup ∧ ∀ f ∈ names.filterMap (avail look disc), f ∉ inUse d) →
      ∃ d', discover look disc d names = (.ok (d'.services.map (·.factory.isSome)), d') ∧ Good d' ∧
        d'.services = d.services ++ names.map (newSvc look disc)) ∧
    (¬ ((names.filterMap (avail look disc)).Nodup ∧ ∀ f ∈ names.filterMap (avail look disc), f ∉ inUse d) →
      ∃ m d', discover look disc d names = (.err m, d') ∧ d'.services = d.services) := by
  have h := discoverLoop_spec look disc names d.services d.discovered
  have hs : (∀ f ∈ names.filterMap (avail look disc), f ∉ d.discovered) ↔
      (∀ f ∈ names.filterMap (avail look disc), f ∉ inUse d) := by
    constructor
    · intro h1 f hf hc; exact h1 f hf ((hd.same f).mpr hc)
    · intro h1 f hf hc; exact h1 f hf ((hd.same f).mp hc)
  rw [hs] at h
  constructor
  · intro hc
    unfold discover
    rw [h.1 hc]
    refine ⟨⟨d.services ++ names.map (newSvc look disc),
        (names.filterMap (avail look disc)).reverse ++ d.discovered⟩, rfl, ?_, rfl⟩
    have hin : inUse ⟨d.services ++ names.map (newSvc look disc),
        (names.filterMap (avail look disc)).reverse ++ d.discovered⟩ = inUse d ++ names.filterMap (avail look disc) := by
      simp only [inUse, List.filterMap_append, filterMap_newSvc]
    refine ⟨?_, ?_⟩
    · rw [hin, List.nodup_append]
      exact ⟨hd.nodup, hc.1, fun a ha b hb hab => hc.2 b hb (hab ▸ ha)⟩
    · intro f
      rw [hin]
      simp only [List.mem_append, List.mem_reverse, hd.same f]
      exact Or.comm
  · intro hc
    unfold discover
    obtain ⟨m, seen', h2⟩ := h.2 hc
    rw [h2]
    exact ⟨m, ⟨d.services, seen'⟩, rfl, rfl⟩

theorem restoreLoop_spec (look : Name → Option Factory) :
    ∀ (init : List (Name × Bytes)) (ss : List Svc) (seen : List Factory),
    (((init.filterMap (fun e => look e.1)).Nodup ∧ ∀ f ∈ init.filterMap (fun e => look e.1), f ∉ seen) →
      restoreLoop look init ss seen = .ok (ss ++ init.map (fun e => ⟨e.1, e.2, look e.1⟩),
        (init.filterMap (fun e => look e.1)).reverse ++ seen)) ∧
    (¬ ((init.filterMap (fun e => look e.1)).Nodup ∧ ∀ f ∈ init.filterMap (fun e => look e.1), f ∉ seen) →
      restoreLoop look init ss seen = .err "duplicate service") := by
  intro init
  induction init with
  | nil => intro ss seen; simp [restoreLoop]
  | cons e init ih =>
    intro ss seen
    obtain ⟨n, b⟩ := e
    simp only [restoreLoop, List.filterMap_cons, List.map_cons]
    cases hl : look n with
    | none =>
      simp only
      have := ih (ss ++ [⟨n, b, none⟩]) seen
      simpa only [List.append_assoc, List.singleton_append] using this
    | some f =>
      simp only
      by_cases hs : f ∈ seen
      · rw [if_pos hs]
        exact ⟨fun h => absurd hs (h.2 f (by simp)), fun _ => rfl⟩
      · rw [if_neg hs]
        have hi := ih (ss ++ [⟨n, b, some f⟩]) (f :: seen)
        have iff : ((f :: init.filterMap (fun e => look e.1)).Nodup ∧
              (∀ g ∈ f :: init.filterMap (fun e => look e.1), g ∉ seen)) ↔
            ((init.filterMap (fun e => look e.1)).Nodup ∧
              (∀ g ∈ init.filterMap (fun e => look e.1), g ∉ f :: seen)) := by
          simp only [List.nodup_cons, List.mem_cons, not_or]
          constructor
          · rintro ⟨⟨a, b⟩, c⟩
            exact ⟨b, fun g hg => ⟨fun hc => a (hc ▸ hg), c g (Or.inr hg)⟩⟩
          · rintro ⟨b, c⟩
            refine ⟨⟨fun hf => (c f hf).1 rfl, b⟩, ?_⟩
            rintro g (rfl | hg)
            · exact hs
            · exact (c g hg).2
        constructor
        · intro h
          rw [hi.1 (iff.mp h)]
          simp
        · intro h
          exact hi.2 (fun hc => h (iff.mpr hc))

theorem good_empty : Good ⟨[], []⟩ := ⟨by simp [inUse], by simp [inUse]⟩

/-- C22, C56: restoring a list of services succeeds exactly if no two of the names have
the same implementation, and gives each index its name, state and implementation;
an entry is available exactly if the registry has the service. -/
theorem restore_spec (look : Name → Option Factory) (init : List (Name × Bytes)) :
    ((init.filterMap (fun e => look e.1)).Nodup →
      ∃ d, startServing look init = .ok (d, init.map (fun e => (look e.1).isSome),
          init.mapIdx (fun i e => (i, (look e.1).map (fun _ => e.2)))) ∧ Good d ∧
        d.services = init.map (fun e => ⟨e.1, e.2, look e.1⟩)) ∧
    (¬ (init.filterMap (fun e => look e.1)).Nodup → startServing look init = .err "duplicate service") := by
  have h := restoreLoop_spec look init [] []
  simp only [List.not_mem_nil, not_false_eq_true, implies_true, and_true, List.nil_append] at h
  unfold startServing
  constructor
  · intro hn
    rw [h.1 hn]
    refine ⟨⟨init.map (fun e => ⟨e.1, e.2, look e.1⟩), (init.filterMap (fun e => look e.1)).reverse ++ []⟩, ?_, ⟨?_, ?_⟩, rfl⟩
    · have e1 : restoredInstances (init.map (fun e => ⟨e.1, e.2, look e.1⟩)) =
          init.mapIdx (fun i e => (i, (look e.1).map (fun _ => e.2))) := by
        apply List.ext_getElem?
        intro i
        simp only [restoredInstances, List.getElem?_mapIdx, List.getElem?_map]
        cases init[i]? <;> rfl
      simp [e1]
    · simpa [inUse, List.filterMap_map, Function.comp_def] using hn
    · simp [inUse, List.filterMap_map, Function.comp_def]
  · intro hn
    rw [h.2 hn]; rfl

/-- C22: over any sequence of successful discoveries, from a fresh or a restored list,
the services already assigned keep their index, name and implementation, new names
are appended in order, and no implementation is assigned to two indices. -/
theorem discover_history (qs : List Req) : ∀ (d d' : Disc), Good d → discoverAll d qs = some d' →
    Good d' ∧ d'.services = d.services ++ (qs.map (fun q => q.names.map (newSvc q.look q.disc))).flatten := by
  induction qs with
  | nil => intro d d' hg h; simp only [discoverAll, Option.some.injEq] at h; subst h; simp [hg]
  | cons q qs ih =>
    intro d d' hg h
    have hs := discover_spec q.look q.disc d hg q.names
    by_cases hc : (q.names.filterMap (avail q.look q.disc)).Nodup ∧ ∀ f ∈ q.names.filterMap (avail q.look q.disc), f ∉ inUse d
    · obtain ⟨d1, h1, h2, h3⟩ := hs.1 hc
      rw [discoverAll, h1] at h
      obtain ⟨h4, h5⟩ := ih d1 d' h2 h
      exact ⟨h4, by rw [h5, h3]; simp⟩
    · obtain ⟨m, d1, h1, _⟩ := hs.2 hc
      rw [discoverAll, h1] at h
      cases h

section Examples
def exLook : Name → Option Factory := fun n => if n = [65] then some fA else if n = [66] then some fB else none
def exReq : Req := ⟨exLook, fun _ => true, [[66], [67]]⟩
def exReq2 : Req := ⟨exLook, fun _ => true, [[67], [65]]⟩
example : ∃ d, discoverAll ⟨[], []⟩ [exReq, exReq2] = some d ∧
    d.services.map (·.name) = [[66], [67], [67], [65]] ∧
    d.services.map (·.factory.isSome) = [true, false, false, true] :=
  exists_of_run (by decide +kernel)
/-- A name with no available implementation may be discovered any number of times. -/
example : discoverAll ⟨[], []⟩ [exReq, exReq] = none := by decide +kernel
end Examples

/-! ### C56 -/

/-- C56 holds for lists with distinct names if the registry maps distinct names to
distinct implementations (which `lookup_valid` guarantees). -/
theorem restorable_partial (look : Name → Option Factory) (hlook : ∀ n f, look n = some f → f.name = n)
    (init : List (Name × Bytes)) (hn : (init.map (·.1)).Nodup) :
    ∃ r, startServing look init = .ok r := by
  have : (init.filterMap (fun e => look e.1)).Nodup := by
    induction init with
    | nil => simp
    | cons e init ih =>
      simp only [List.map_cons, List.nodup_cons] at hn
      simp only [List.filterMap_cons]
      cases hl : look e.1 with
      | none => exact ih hn.2
      | some f =>
        simp only [List.nodup_cons]
        refine ⟨?_, ih hn.2⟩
        intro hf
        obtain ⟨e', he', hl'⟩ := List.mem_filterMap.mp hf
        have h1 := hlook _ _ hl
        have h2 := hlook _ _ hl'
        exact hn.1 (by rw [← h1, h2]; exact List.mem_map_of_mem (f := (·.1)) he')
  obtain ⟨d, h, _⟩ := (restore_spec look init).1 this
  exact ⟨_, h⟩

/-- C56 refuted: a program may discover a name twice while no service has it.  The list
saved when the program is suspended is then refused once the service exists: the
instance cannot be resumed. -/
theorem not_restorable :
    ∃ d, discoverAll ⟨[], []⟩ [⟨fun _ => none, fun _ => true, [[65], [65]]⟩] = some d ∧
      startServing exLook (suspend d (fun _ => none)) = .err "duplicate service" := by
  refine ⟨⟨[⟨[65], [], none⟩, ⟨[65], [], none⟩], []⟩, rfl, ?_⟩
  exact (restore_spec exLook _).2 (by decide +kernel)

/-! ### C23 -/

/-- C23, the part that holds: the state a service reports when suspended (if it is not
empty) is exactly what its next instance is created with. -/
theorem state_restored_partial (look : Name → Option Factory) (d : Disc) (inst : Nat → Option Bytes) (i : Nat)
    (s : Svc) (hs : d.services[i]? = some s) (b : Bytes) (hi : inst i = some b) (hb : b ≠ [])
    (f : Factory) (hf : look s.name = some f)
    (d' : Disc) (st : List Bool) (insts : List (Nat × Option Bytes))
    (h : startServing look (suspend d inst) = .ok (d', st, insts)) :
    insts[i]? = some (i, some b) := by
  have hr := restore_spec look (suspend d inst)
  by_cases hn : ((suspend d inst).filterMap (fun e => look e.1)).Nodup
  · obtain ⟨d1, h1, _⟩ := hr.1 hn
    rw [h] at h1
    simp only [Res.ok.injEq, Prod.mk.injEq] at h1
    have hlen : b.length > 0 := List.length_pos_iff.mpr hb
    rw [h1.2.2]
    simp [suspend, hs, hi, hf, hlen]
  · rw [hr.2 hn] at h; cases h

/-- C23 refuted: a service instance restored with a pending call, which completes it and
has no state left when the program is suspended again, is restored with the same
pending call a second time. -/
theorem stale_state_replayed :
    ∃ r1, (match startServing exLook [([65], [1, 2, 3])] with
        | .ok (d, _, insts) =>
          -- the instance consumed its state and now reports none
          match startServing exLook (suspend d (fun _ => some [])) with
          | .ok (_, _, insts') => some (insts, insts')
          | _ => none
        | _ => none) = some r1 ∧ r1 = ([(0, some [1, 2, 3])], [(0, some [1, 2, 3])]) :=
  exists_of_run (by decide +kernel)

/-- The replay happens for every restored service and every state: as long as the
instance reports no state, each suspension saves the state it was restored with. -/
theorem stale_state_always (look : Name → Option Factory) (init : List (Name × Bytes))
    (hn : (init.filterMap (fun e => look e.1)).Nodup) :
    ∃ d st insts, startServing look init = .ok (d, st, insts) ∧ suspend d (fun _ => some []) = init := by
  obtain ⟨d, h1, _, h3⟩ := (restore_spec look init).1 hn
  refine ⟨d, _, _, h1, ?_⟩
  unfold suspend
  rw [h3]
  apply List.ext_getElem?
  intro i
  simp only [List.getElem?_mapIdx, List.getElem?_map]
  cases init[i]? <;> simp

/-! ### C16 -/

/-- A name as it must be in a discovery packet. -/
def GoodName (n : Name) : Prop := 1 ≤ n.length ∧ n.length ≤ 127

/-- The wire format of names: a length byte and the bytes. -/
def encodeNames (ns : List Name) : Bytes := (ns.map fun n => UInt8.ofNat n.length :: n).flatten

theorem parseNames_iff : ∀ (k : Nat) (buf : Bytes) (ns : List Name),
    parseNames k buf = .ok ns ↔ ns.length = k ∧ (∀ n ∈ ns, GoodName n) ∧ ∃ rest, buf = encodeNames ns ++ rest := by
  intro k
  induction k with
  | zero =>
    intro buf ns
    simp only [parseNames, Res.ok.injEq]
    constructor
    · intro h; subst h; exact ⟨rfl, by simp, buf, by simp [encodeNames]⟩
    · rintro ⟨h, _⟩; exact (List.length_eq_zero_iff.mp h).symm
  | succ k ih =>
    intro buf ns
    cases buf with
    | nil =>
      simp only [parseNames]
      constructor
      · intro h; cases h
      · rintro ⟨h1, h2, rest, h3⟩
        cases ns with
        | nil => simp at h1
        | cons n ns => simp [encodeNames] at h3
    | cons c buf =>
      simp only [parseNames]
      have hc := c.toNat_lt
      constructor
      · intro h
        split at h
        · cases h
        · rename_i h1
          split at h
          · cases h
          · rename_i h2
            cases hp : parseNames k (buf.drop c.toNat) with
            | err m => rw [hp] at h; cases h
            | panic => rw [hp] at h; cases h
            | ok names =>
              rw [hp] at h
              simp only [Res.bind_ok, Res.pure_eq, Res.ok.injEq] at h
              obtain ⟨a, b, rest, e⟩ := (ih _ _).mp hp
              subst h
              have hl : (buf.take c.toNat).length = c.toNat := by simp; omega
              refine ⟨by simp [a], ?_, rest, ?_⟩
              · intro n hn
                rcases List.mem_cons.mp hn with rfl | hn
                · unfold GoodName; rw [hl]; omega
                · exact b n hn
              · simp only [encodeNames, List.map_cons, List.flatten_cons, hl, List.cons_append, UInt8.ofNat_toNat,
                  List.append_assoc]
                have e' : buf.drop c.toNat = (List.map (fun n => UInt8.ofNat n.length :: n) names).flatten ++ rest := e
                rw [← e', List.take_append_drop]
      · rintro ⟨h1, h2, rest, h3⟩
        cases ns with
        | nil => simp at h1
        | cons n ns =>
          simp only [encodeNames, List.map_cons, List.flatten_cons, List.cons_append, List.append_assoc,
            List.cons.injEq] at h3
          have hg := h2 n (by simp)
          unfold GoodName at hg
          have hcn : c.toNat = n.length := by
            rw [h3.1, UInt8.toNat_ofNat']; omega
          rw [if_neg (by omega), if_neg (by rw [h3.2, hcn]; simp)]
          have hd : buf.drop c.toNat = encodeNames ns ++ rest := by
            rw [h3.2, hcn, List.drop_left]; rfl
          have ht : buf.take c.toNat = n := by rw [h3.2, hcn, List.take_left]
          rw [(ih _ ns).mpr ⟨by simpa using h1, fun m hm => h2 m (by simp [hm]), rest, hd⟩]
          simp [ht]

theorem parseNames_total (k : Nat) (buf : Bytes) : parseNames k buf ≠ .panic := by
  induction k generalizing buf with
  | zero => simp [parseNames]
  | succ k ih =>
    cases buf with
    | nil => simp [parseNames]
    | cons c buf =>
      simp only [parseNames]
      split
      · simp
      · split
        · simp
        · cases hp : parseNames k (buf.drop c.toNat) with
          | ok a => simp
          | err m => simp
          | panic => exact absurd hp (ih _)

/-- The discovery reply, byte by byte: size, code -1, domain, index 0, count, and one
byte per service, 1 if it is available and 0 if not. -/
def replyBytes (dom : Nat) (states : List Bool) : Bytes :=
  le 4 (10 + states.length) ++ [255, 255] ++ [UInt8.ofNat dom, 0] ++ le 2 states.length ++
    states.map (fun a => if a then 1 else 0)

theorem putFlags_spec : ∀ (states : List Bool) (i : Nat) (b : Bytes), b.length = 10 + i + states.length →
    putFlags states i b = .ok (b.take (10 + i) ++ states.map (fun a => if a then 1 else 0)) := by
  intro states
  induction states with
  | nil =>
    intro i b h
    simp only [List.length_nil, Nat.add_zero] at h
    simp only [putFlags, List.map_nil, List.append_nil]
    rw [List.take_of_length_le (by omega)]
  | cons a states ih =>
    intro i b h
    simp only [List.length_cons] at h
    simp only [putFlags, servicesHeaderSize]
    rw [putLE_ok (by omega)]
    simp only [Res.bind_ok]
    rw [ih (i + 1) _ (by rw [length_putAt (by simp; omega)]; omega)]
    congr 1
    unfold putAt
    have hl : (le 1 (flag a).toNat) = [if a then 1 else 0] := by cases a <;> decide
    rw [hl, List.append_assoc, List.take_append]
    have h1 : (b.take (10 + i)).length = 10 + i := by simp; omega
    rw [List.take_of_length_le (by omega), h1]
    rw [show 10 + (i + 1) - (10 + i) = 1 by omega]
    simp

/-- C16: the reply announces the count of all services and one state byte each; its
size field is its length. -/
theorem reply_spec (dom : Nat) (states : List Bool) (hn : states.length < 2 ^ 32 - 10) :
    makeServicesPacket dom states = .ok (replyBytes dom states) := by
  unfold makeServicesPacket make setCode setSize codeServices servicesHeaderSize
  have hr : List.replicate (10 + states.length) (0 : UInt8) =
      0 :: 0 :: 0 :: 0 :: 0 :: 0 :: 0 :: 0 :: 0 :: 0 :: List.replicate states.length 0 := by
    rw [Nat.add_comm]; rfl
  have h16 : toUnsigned 16 (-1) = 65535 := by decide
  have hle : le 2 65535 = [255, 255] := by decide
  rw [hr, putLE_ok (by simp), h16, hle]
  simp only [Res.bind_ok, putAt, List.take_succ_cons, List.take_zero, List.length_cons, List.length_nil,
    List.cons_append, List.nil_append, List.drop_succ_cons, List.drop_zero, Nat.zero_add, Nat.reduceAdd]
  rw [putLE_ok (by simp)]
  simp only [Res.bind_ok, putAt, List.take_succ_cons, List.take_zero, List.length_cons, List.length_nil,
    List.cons_append, List.nil_append, List.drop_succ_cons, List.drop_zero, Nat.zero_add, Nat.reduceAdd, le]
  rw [if_neg (by simp; omega), putLE_ok (by simp)]
  simp only [Res.bind_ok, putAt, List.take_succ_cons, List.take_zero, List.length_cons, List.length_nil,
    List.cons_append, List.nil_append, List.drop_succ_cons, List.drop_zero, Nat.zero_add, Nat.reduceAdd, le,
    List.length_replicate]
  rw [putLE_ok (by simp)]
  simp only [Res.bind_ok, putAt, List.take_succ_cons, List.take_zero, List.length_cons, List.length_nil,
    List.cons_append, List.nil_append, List.drop_succ_cons, List.drop_zero, Nat.zero_add, Nat.reduceAdd, le]
  rw [putFlags_spec _ _ _ (by simp; omega)]
  simp only [replyBytes, le, List.take_succ_cons, List.take_zero, List.cons_append, List.nil_append, Nat.add_zero]
  rw [Nat.add_comm 10 states.length]

/-- C16: a discovery packet is answered exactly if it is a call, it holds the requested
number of names (as many as there is room for below 256 services), each of 1 to 127
bytes, and the names can be discovered; exactly those names are then registered in
order and the reply describes all services.  Bytes after the names are ignored. -/
theorem discovery_request (look : Name → Option Factory) (disc : Factory → Bool) (d : Disc)
    (hcur : d.services.length ≤ 256) (req resp : Bytes) (d' : Disc) (h8 : 8 ≤ req.length) :
    handleServicesPacket look disc d req = (.ok resp, d') ↔
      domain req = .ok 0 ∧ 10 ≤ req.length ∧
      ∃ names rest states, req.drop 10 = encodeNames names ++ rest ∧ (∀ n ∈ names, GoodName n) ∧
        names.length = min (unle (slice req 8 2)) (256 - d.services.length) ∧
        discover look disc d names = (.ok states, d') ∧ makeServicesPacket domainCall states = .ok resp := by
  obtain ⟨dom, hd⟩ := Framing.domain_ok h8
  unfold handleServicesPacket
  rw [hd]
  simp only [domainCall]
  by_cases h0 : dom = 0
  · subst h0
    rw [show servicesHeaderSize = 10 from rfl]
    simp only [ne_eq, not_true_eq_false, if_false, true_and]
    by_cases h10 : req.length < 10
    · rw [if_pos h10]
      constructor
      · intro h; cases h
      · rintro ⟨h, _⟩; omega
    · rw [if_neg h10]
      generalize hq : unle (slice req 8 2) = q
      have hrc : ¬ reqCount d.services.length q < 0 ∧ (reqCount d.services.length q).toNat = min q (256 - d.services.length) := by
        unfold reqCount maxServices; split <;> omega
      rw [if_neg hrc.1, hrc.2]
      constructor
      · intro h
        refine ⟨by omega, ?_⟩
        cases hp : parseNames (min q (256 - d.services.length)) (req.drop 10) with
        | err m => rw [hp] at h; cases h
        | panic => rw [hp] at h; cases h
        | ok names =>
          rw [hp] at h
          obtain ⟨a, b, rest, e⟩ := (parseNames_iff _ _ _).mp hp
          refine ⟨names, rest, ?_⟩
          cases hx : discover look disc d names with
          | mk r d1 =>
            simp only [hx] at h
            cases r with
            | ok states =>
              simp only [Prod.mk.injEq] at h
              exact ⟨states, e, b, a, by rw [h.2], h.1⟩
            | err m => cases h
            | panic => cases h
      · rintro ⟨_, names, rest, states, e, b, a, hx, hm⟩
        rw [(parseNames_iff _ _ _).mpr ⟨a, b, rest, e⟩]
        simp only [hx]
        rw [hm]
  · simp only [ne_eq, h0, not_false_eq_true, if_true]
    constructor
    · intro h; cases h
    · rintro ⟨h, _⟩; cases h; exact absurd rfl h0

section Examples
def exPacket : Bytes := [16, 0, 0, 0, 255, 255, 0, 0, 2, 0, 1, 66, 2, 67, 68, 9]
example : (handleServicesPacket exLook (fun _ => true) ⟨[], []⟩ exPacket).1 = .ok (replyBytes 0 [true, false]) := by
  decide +kernel
end Examples

/-! ### C17 -/

theorem discover_total (look : Name → Option Factory) (disc : Factory → Bool) (d : Disc) (names : List Name) :
    (∃ states d', discover look disc d names = (.ok states, d') ∧ states.length = d.services.length + names.length ∧
      d'.services.length = d.services.length + names.length) ∨
    (∃ m d', discover look disc d names = (.err m, d') ∧ d'.services = d.services) := by
  have h := discoverLoop_spec look disc names d.services d.discovered
  unfold discover
  by_cases hc : (names.filterMap (avail look disc)).Nodup ∧ ∀ f ∈ names.filterMap (avail look disc), f ∉ d.discovered
  · rw [h.1 hc]; left; exact ⟨_, _, rfl, by simp, by simp⟩
  · obtain ⟨m, s, hm⟩ := h.2 hc
    rw [hm]; right; exact ⟨m, _, rfl, rfl⟩

/-- C17, the part that holds: with at most 256 services, handling any discovery packet
returns a reply or a program error, and there are still at most 256 services. -/
theorem handle_total_partial (look : Name → Option Factory) (disc : Factory → Bool) (d : Disc)
    (hcur : d.services.length ≤ 256) (req : Bytes) (h8 : 8 ≤ req.length) :
    (handleServicesPacket look disc d req).1 ≠ .panic ∧
    (handleServicesPacket look disc d req).2.services.length ≤ 256 := by
  obtain ⟨dom, hd⟩ := Framing.domain_ok h8
  unfold handleServicesPacket
  rw [hd]
  simp only
  split
  · simp [hcur]
  split
  · simp [hcur]
  generalize hq : unle (slice req 8 2) = q
  have hrc : ¬ reqCount d.services.length q < 0 ∧
      d.services.length + (reqCount d.services.length q).toNat ≤ 256 := by
    unfold reqCount maxServices; split <;> omega
  rw [if_neg hrc.1]
  cases hp : parseNames (reqCount d.services.length q).toNat (req.drop servicesHeaderSize) with
  | err m => simp [hcur]
  | panic => exact absurd hp (parseNames_total _ _)
  | ok names =>
    obtain ⟨a, _, _⟩ := (parseNames_iff _ _ _).mp hp
    simp only
    rcases discover_total look disc d names with ⟨states, d', h1, h2, h3⟩ | ⟨m, d', h1, h2⟩
    · rw [h1]
      simp only
      rw [reply_spec domainCall states (by omega)]
      exact ⟨by simp, by omega⟩
    · rw [h1]
      simp only
      exact ⟨by simp, by rw [h2]; exact hcur⟩

/-- A sequence of discovery packets (the registry may change in between); the discoverer
after each is the input of the next. -/
def packetsPanic (d : Disc) : List ((Name → Option Factory) × (Factory → Bool) × Bytes) → Bool
  | [] => false
  | (look, disc, req) :: rest =>
    match handleServicesPacket look disc d req with
    | (.panic, _) => true
    | (_, d') => packetsPanic d' rest

/-- C17 for programs which start without restored services: no sequence of packets
crashes the host. -/
theorem fresh_never_panics_partial (pkts : List ((Name → Option Factory) × (Factory → Bool) × Bytes))
    (h8 : ∀ p ∈ pkts, 8 ≤ p.2.2.length) : packetsPanic ⟨[], []⟩ pkts = false := by
  have key : ∀ (pkts : List ((Name → Option Factory) × (Factory → Bool) × Bytes)) (d : Disc),
      (∀ p ∈ pkts, 8 ≤ p.2.2.length) → d.services.length ≤ 256 → packetsPanic d pkts = false := by
    intro pkts
    induction pkts with
    | nil => intro d _ _; rfl
    | cons p pkts ih =>
      intro d h8 hd
      obtain ⟨look, disc, req⟩ := p
      obtain ⟨h1, h2⟩ := handle_total_partial look disc d hd req (h8 (look, disc, req) (by simp))
      simp only [packetsPanic]
      cases hx : handleServicesPacket look disc d req with
      | mk r d' =>
        rw [hx] at h1 h2
        cases r with
        | panic => exact absurd rfl h1
        | ok b => exact ih d' (fun q hq => h8 q (by simp [hq])) h2
        | err m => exact ih d' (fun q hq => h8 q (by simp [hq])) h2
  exact key pkts _ h8 (by simp)

/-- C17 refuted: restoring any list of more than 256 (unknown) services succeeds, and
then every well-formed discovery packet crashes the host. -/
theorem restored_many_panics (init : List (Name × Bytes)) (hlen : 256 < init.length)
    (disc : Factory → Bool) (req : Bytes) (hdom : domain req = .ok 0) (h10 : 10 ≤ req.length) :
    ∃ d st insts, startServing (fun _ => none) init = .ok (d, st, insts) ∧
      (handleServicesPacket (fun _ => none) disc d req).1 = .panic := by
  obtain ⟨d, h1, _, h3⟩ := (restore_spec (fun _ => none) init).1 (by
    have : init.filterMap (fun _ => (none : Option Factory)) = [] := by
      induction init <;> simp_all
    rw [this]; exact List.nodup_nil)
  refine ⟨d, _, _, h1, ?_⟩
  have hl : d.services.length = init.length := by rw [h3]; simp
  unfold handleServicesPacket
  rw [hdom]
  rw [show servicesHeaderSize = 10 from rfl]
  simp only [domainCall, ne_eq, not_true_eq_false, if_false]
  rw [if_neg (by omega)]
  generalize unle (slice req 8 2) = q
  have : reqCount d.services.length q < 0 := by
    unfold reqCount maxServices; rw [if_pos (by omega)]; omega
  rw [if_pos this]

example : ∃ init : List (Name × Bytes), 256 < init.length := ⟨List.replicate 300 ([65], []), by rw [List.length_replicate]; decide⟩
example : domain exPacket = .ok 0 ∧ 10 ≤ exPacket.length := by decide

end Gate.Services
