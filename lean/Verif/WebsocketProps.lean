import Verif.Websocket

set_option linter.unusedSimpArgs false

namespace Gate.Ws

/-- The reading goroutine holds the mutex. -/
def rHolds : RPc → Bool
  | .check | .writing | .store | .unlock | .cstore | .cunlock => true
  | _ => false

/-- The writing goroutine holds the mutex. -/
def wHolds : WPc → Bool
  | .check _ l | .writing _ l | .unlock _ _ _ l => l
  | _ => false

/-- The writing goroutine is past the load and didn't take the mutex. -/
def wBare : WPc → Bool
  | .check _ l | .writing _ l | .unlock _ _ _ l => !l
  | _ => false

/-- The reading goroutine knows that the hint flag is unset. -/
def rUnset : RPc → Bool
  | .lock | .check | .writing | .store | .clock | .cstore | .wait => true
  | _ => false

/-- The reading goroutine knows that the hint flag is set. -/
def rSet : RPc → Bool
  | .frames | .unlock | .cunlock => true
  | _ => false

/-- The writing goroutine is in `WriteMessage`. -/
def wIn : WPc → Bool
  | .writing _ _ => true
  | _ => false

/-- The payload which has been written but not reported yet. -/
def wPend : WPc → List Bytes
  | .unlock b _ true _ => [b]
  | _ => []

/-- The message being written. -/
def cur (s : St) : Option Msg :=
  match s.m with
  | .replying => some .reply
  | .statusing => some .status
  | .closing => some .close
  | _ => if s.r = .writing then some .hint else
    match s.w with
    | .writing b _ => some (.data b)
    | _ => none

/-- Who is writing. -/
def who (s : St) : Busy :=
  match s.m with
  | .replying | .statusing | .closing => .by .main
  | _ => if s.r = .writing then .by .reader else if wIn s.w then .by .writer else .free

/-- How far the conversation is, seen from the handler. -/
def Shape (m : MPc) (l : Talk) : Prop :=
  match m with
  | .reply => l = .nothing
  | .replying | .transfer | .status => l = .replied
  | .statusing | .close => l = .ended
  | .closing => l = .closed
  | .done => l = .replied ∨ l = .ended ∨ l = .closed

/-- The phases of the goroutines. -/
structure Phase (s : St) : Prop where
  p0 : s.m = .reply ∨ s.m = .replying → s.r = .wait ∧ s.w = .wait ∧ s.err = false ∧ s.hint = false
  p1 : s.m = .transfer → s.r ≠ .wait ∧ s.w ≠ .wait
  p2 : s.m ≠ .reply → s.m ≠ .replying → s.m ≠ .transfer →
    (s.r = .gone ∨ s.r = .wait) ∧ (s.w = .gone ∨ s.w = .wait)

/-- The mutex and the flag. -/
structure Locks (s : St) : Prop where
  rmu : s.mu = some .reader ↔ rHolds s.r = true
  wmu : s.mu = some .writer ↔ wHolds s.w = true
  mmu : s.mu ≠ some .main
  bare : wBare s.w = true → s.hint = true
  unset : rUnset s.r = true → s.hint = false
  isSet : rSet s.r = true → s.hint = true
  rerr : s.r = .writing → s.err = false
  werr : wIn s.w = true → s.err = false

/-- The observations. -/
structure Logs (s : St) : Prop where
  busyIs : busy s.log = who s
  failIs : s.m = .reply ∨ s.m = .replying ∨ s.m = .transfer ∨ s.m = .status →
    failed s.log = s.err
  shape : Shape s.m (talk (begun s.log))
  hints : (begun s.log).count .hint ≤ 1
  nohint : s.hint = false → s.r ≠ .writing → s.r ≠ .store → (begun s.log).count .hint = 0
  began : s.r = .writing → .hint ∈ begun s.log
  wrote : s.r = .store ∨ s.r = .unlock ∨ s.r = .frames →
    .hint ∈ begun s.log ∨ failed s.log = true
  wrote' : s.r = .idle ∨ s.r = .load → s.hint = true →
    .hint ∈ begun s.log ∨ failed s.log = true
  outs : s.log.foldl outStep (none, []) = (cur s, reported s.log ++ wPend s.w)

theorem busy_snoc (es : List Ev) (e : Ev) : busy (es ++ [e]) = (busy es).next e := by
  simp [busy, List.foldl_append]

theorem begun_snoc (es : List Ev) (e : Ev) :
    begun (es ++ [e]) = begun es ++ (match e with | .beg _ m => [m] | _ => []) := by
  cases e <;> simp [begun, List.filterMap_append]

theorem talk_snoc (l : List Msg) (m : Msg) : talk (l ++ [m]) = (talk l).next m := by
  simp [talk, List.foldl_append]

theorem failed_snoc (es : List Ev) (e : Ev) :
    failed (es ++ [e]) = (failed es || (match e with | .fin _ ok => !ok | _ => false)) := by
  cases e <;> simp [failed]

theorem reported_snoc (es : List Ev) (e : Ev) :
    reported (es ++ [e]) = reported es ++ (match e with | .ret b _ true => [b] | _ => []) := by
  cases e with
  | ret b n ok => cases ok <;> simp [reported, List.filterMap_append]
  | _ => simp [reported, List.filterMap_append]

theorem phase_step {s t : St} (h : Phase s) (e : Step s t) : Phase t := by
  obtain ⟨hint, mu, err, r, w, m, log⟩ := s
  obtain ⟨p0, p1, p2⟩ := h
  simp only at *
  cases e with
  | mReplied ok => cases ok <;> simp only at * <;> subst_vars <;> constructor <;> simp_all
  | mStatused ok => cases ok <;> simp only at * <;> subst_vars <;> constructor <;> simp_all
  | mJoin ok => cases ok <;> simp only at * <;> subst_vars <;> constructor <;> simp_all
  | rLoad | cLoad | wLoad =>
    simp only at *; subst_vars
    cases m <;> simp_all <;> cases hint <;> constructor <;> simp_all
  | mReply | mStatus | mClose | mClosed =>
    simp only at *; subst_vars; constructor <;> simp_all
  | _ => simp only at *; subst_vars; cases m <;> simp_all <;> constructor <;> simp_all

theorem transfer_r {s : St} (h : Phase s) (a : s.r ≠ .wait) (b : s.r ≠ .gone) :
    s.m = .transfer := by
  rcases h with ⟨p0, p1, p2⟩
  cases e : s.m <;> simp_all

theorem transfer_w {s : St} (h : Phase s) (a : s.w ≠ .wait) (b : s.w ≠ .gone) :
    s.m = .transfer := by
  rcases h with ⟨p0, p1, p2⟩
  cases e : s.m <;> simp_all

set_option maxHeartbeats 1000000 in
theorem locks_step {s t : St} (p : Phase s) (h : Locks s) (e : Step s t) : Locks t := by
  obtain ⟨hint, mu, err, r, w, m, log⟩ := s
  obtain ⟨p0, p1, p2⟩ := p
  obtain ⟨rmu, wmu, mmu, bare, unset, set, rerr, werr⟩ := h
  simp only at *
  cases e with
  | mReplied ok =>
    simp only at *; subst_vars
    obtain ⟨rfl, rfl, rfl, rfl⟩ := p0 (.inr rfl)
    cases ok <;> constructor <;> simp_all [rHolds, wHolds, wBare, rUnset, rSet, wIn]
  | mReply | mJoin | mStatus | mStatused | mClose | mClosed =>
    exact ⟨rmu, wmu, mmu, bare, unset, set, rerr, werr⟩
  | rLoad | cLoad | wLoad =>
    clear p0 p1 p2
    simp only at *; subst_vars
    cases hint <;> constructor <;> simp_all [rHolds, wHolds, wBare, rUnset, rSet, wIn]
  | wUnlock b n ok l =>
    clear p0 p1 p2
    simp only at *; subst_vars
    cases l <;> constructor <;> simp_all [rHolds, wHolds, wBare, rUnset, rSet, wIn]
  | rStore | cStore =>
    clear p0 p1 p2
    simp only at *; subst_vars
    constructor <;> simp_all [rHolds, wHolds, wBare, rUnset, rSet, wIn]
  | rWritten ok =>
    clear p0 p1 p2
    simp only at *; subst_vars
    constructor <;> simp_all [rHolds, wHolds, wBare, rUnset, rSet]
    cases w <;> simp_all [wIn]
  | wWritten b l ok =>
    clear p0 p1 p2
    simp only at *; subst_vars
    have hr : r ≠ .writing := by
      rintro rfl
      cases l
      · exact absurd (unset rfl) (by simp [bare rfl])
      · simp [rHolds, wHolds] at rmu wmu; simp [rmu] at wmu
    refine ⟨rmu, wmu, mmu, bare, unset, set, fun e => absurd e hr, fun e => by simp [wIn] at e⟩
  | _ =>
    clear p0 p1 p2
    simp only at *; subst_vars
    constructor <;> simp_all [rHolds, wHolds, wBare, rUnset, rSet, wIn]

/-- The reading goroutine uses the connection or `writeErr`. -/
def rUses : RPc → Bool
  | .check | .writing => true
  | _ => false

/-- The writing goroutine uses the connection or `writeErr`. -/
def wUses : WPc → Bool
  | .check _ _ | .writing _ _ => true
  | _ => false

theorem excl {s : St} (k : Locks s) (hr : rUses s.r = true) (hw : wUses s.w = true) : False := by
  obtain ⟨hint, mu, err, r, w, m, log⟩ := s
  obtain ⟨rmu, wmu, mmu, bare, unset, set, rerr, werr⟩ := k
  simp only at *
  cases r <;> simp [rUses] at hr <;> cases w <;> simp [wUses] at hw <;>
    rename_i l <;> cases l <;> simp_all [rHolds, wHolds, wBare, rUnset]

theorem next_read (b : Busy) : b.next .read = b := by cases b <;> rfl
theorem next_closed (b : Busy) : b.next .closed = b := by cases b <;> rfl
theorem next_ret (b : Busy) (x : Bytes) (n : Nat) (ok : Bool) : b.next (.ret x n ok) = b := by
  cases b <;> rfl
theorem out_ret (y : Option Msg × List Bytes) (x : Bytes) (n : Nat) (ok : Bool) :
    outStep y (.ret x n ok) = y := by
  obtain ⟨o, a⟩ := y
  rcases o with _ | m
  · rfl
  · cases m <;> rfl

theorem cur_transfer {s : St} (h : s.m = .transfer) :
    cur s = if s.r = .writing then some .hint else
      match s.w with
      | .writing b _ => some (.data b)
      | _ => none := by
  simp [cur, h]

theorem who_transfer {s : St} (h : s.m = .transfer) :
    who s = if s.r = .writing then .by .reader else if wIn s.w then .by .writer else .free := by
  simp [who, h]

set_option maxHeartbeats 2000000 in
theorem logs_step {s t : St} (p : Phase s) (k : Locks s) (h : Logs s) (e : Step s t) : Logs t := by
  have tr := transfer_r p
  have tw := transfer_w p
  obtain ⟨hint, mu, err, r, w, m, log⟩ := s
  obtain ⟨bz, fl, sh, hi, nh, bg, hd, hd', ou⟩ := h
  simp only at *
  cases e with
  | mReplied ok =>
    simp only at *; subst_vars
    obtain ⟨rfl, rfl, rfl, rfl⟩ := p.p0 (.inr rfl)
    clear p k tr tw
    cases ok <;> constructor <;> simp_all [busy_snoc, begun_snoc, failed_snoc, reported_snoc, who,
      wIn, Shape, wPend, cur, Busy.next, outStep, List.foldl_append, talk_snoc, Talk.next]
  | mReply =>
    simp only at *; subst_vars
    obtain ⟨rfl, rfl, rfl, rfl⟩ := p.p0 (.inl rfl)
    clear p k tr tw
    constructor <;> simp_all [busy_snoc, begun_snoc, failed_snoc, reported_snoc, who,
      wIn, Shape, wPend, cur, Busy.next, outStep, List.foldl_append, talk_snoc, Talk.next]
  | mJoin ok =>
    simp only at *; subst_vars
    clear p k tr tw
    cases ok <;> constructor <;> simp_all [busy_snoc, begun_snoc, failed_snoc, reported_snoc, who,
      wIn, Shape, wPend, cur, Busy.next, outStep, List.foldl_append, talk_snoc, Talk.next]
  | mStatus | mStatused ok | mClose | mClosed ok =>
    simp only at *; subst_vars
    obtain ⟨h1, h2⟩ := p.p2 (by simp) (by simp) (by simp)
    simp only at h1 h2
    clear p k tr tw
    try cases ok
    all_goals
      rcases h1 with rfl | rfl <;> rcases h2 with rfl | rfl <;> constructor <;>
        simp_all [busy_snoc, begun_snoc, failed_snoc, reported_snoc, who,
        wIn, Shape, wPend, cur, Busy.next, outStep, List.foldl_append, talk_snoc, Talk.next]
  | rCall | rLock | rUnlock | rReturn | rGone | cLock | cUnlock | rStore | cStore
  | rCheckErr =>
    simp only at *; subst_vars
    obtain rfl := tr (by simp) (by simp)
    have h1 := k.unset
    have h2 := k.isSet
    clear p k tr tw
    constructor <;> simp_all [who_transfer, cur_transfer, Shape, rUnset, rSet]
  | rLoad | cLoad =>
    simp only at *; subst_vars
    obtain rfl := tr (by simp) (by simp)
    clear p k tr tw
    cases hint <;> constructor <;> simp_all [who_transfer, cur_transfer, Shape, rUnset, rSet]
  | rNext | cCall =>
    simp only at *; subst_vars
    obtain rfl := tr (by simp) (by simp)
    clear p k tr tw
    constructor <;> simp_all [who_transfer, cur_transfer, Shape, busy_snoc, begun_snoc, failed_snoc,
      reported_snoc, List.foldl_append, outStep, next_read, next_closed]
  | rCheckOk =>
    simp only at *; subst_vars
    obtain rfl := tr (by simp) (by simp)
    have ex : ∀ b l, w ≠ .writing b l := fun b l e => excl k rfl (by simp [e, wUses])
    have ei : wIn w = false := by cases w <;> simp_all [wIn]
    have h1 := k.unset
    clear p k tr tw
    constructor <;> simp_all [who_transfer, cur_transfer, Shape, busy_snoc, begun_snoc, failed_snoc,
      reported_snoc, List.foldl_append, outStep, Busy.next, talk_snoc, Talk.next, rUnset]
  | rWritten ok =>
    simp only at *; subst_vars
    obtain rfl := tr (by simp) (by simp)
    have ex : ∀ b l, w ≠ .writing b l := fun b l e => excl k rfl (by simp [e, wUses])
    have ei : wIn w = false := by cases w <;> simp_all [wIn]
    have h1 := k.unset
    have h2 := k.rerr
    clear p k tr tw
    constructor <;> simp_all [who_transfer, cur_transfer, Shape, busy_snoc, begun_snoc, failed_snoc,
      reported_snoc, List.foldl_append, outStep, Busy.next, talk_snoc, Talk.next, rUnset]
  | wCall b | wLock b | wGone | wCheckErr b l =>
    simp only at *; subst_vars
    obtain rfl := tw (by simp) (by simp)
    clear p k tr tw
    constructor <;> simp_all [who_transfer, cur_transfer, Shape, wPend, wIn]
  | wLoad b =>
    simp only at *; subst_vars
    obtain rfl := tw (by simp) (by simp)
    clear p k tr tw
    cases hint <;> constructor <;> simp_all [who_transfer, cur_transfer, Shape, wPend, wIn]
  | wCheckOk b l =>
    simp only at *; subst_vars
    obtain rfl := tw (by simp) (by simp)
    have ex : r ≠ .writing := fun e => excl k (by simp [e, rUses]) rfl
    clear p k tr tw
    constructor <;> simp_all [who_transfer, cur_transfer, Shape, wPend, wIn, busy_snoc, begun_snoc,
      failed_snoc, reported_snoc, List.foldl_append, outStep, Busy.next, talk_snoc, Talk.next]
  | wWritten b l ok =>
    simp only at *; subst_vars
    obtain rfl := tw (by simp) (by simp)
    have ex : r ≠ .writing := fun e => excl k (by simp [e, rUses]) rfl
    have h2 := k.werr
    clear p k tr tw
    cases ok <;> constructor <;> simp_all [who_transfer, cur_transfer, Shape, wPend, wIn, busy_snoc,
      begun_snoc, failed_snoc, reported_snoc, List.foldl_append, outStep, Busy.next, talk_snoc,
      Talk.next]
  | wUnlock b n ok l =>
    simp only at *; subst_vars
    obtain rfl := tw (by simp) (by simp)
    clear p k tr tw
    cases ok <;> constructor <;> simp_all [who_transfer, cur_transfer, Shape, wPend, wIn, busy_snoc,
      begun_snoc, failed_snoc, reported_snoc, List.foldl_append, next_ret, out_ret]

theorem inv {s : St} (h : Reach s) : Phase s ∧ Locks s ∧ Logs s := by
  induction h with
  | init =>
    refine ⟨?_, ?_, ?_⟩ <;> constructor <;> simp [rHolds, wHolds, wBare, rUnset, rSet, busy, who,
      wIn, failed, begun, Shape, talk, reported, wPend, cur]
  | step _ e ih => exact ⟨phase_step ih.1 e, locks_step ih.1 ih.2.1 e,
      logs_step ih.1 ih.2.1 ih.2.2 e⟩

/-! ## C124: using of the websocket connection -/

/-- The connection is never written to by two goroutines at the same time, whatever the
interleaving of the handler, the reading goroutine and the writing goroutine. -/
theorem one_writer {s : St} (h : Reach s) : busy s.log ≠ .bad := by
  rw [(inv h).2.2.busyIs, who]
  split
  · simp
  · simp
  · simp
  · repeat' split
    all_goals simp

/-- The error variable is never accessed by one goroutine while the other one may write it: the
points between the check and the end of the write exclude each other. -/
theorem no_race {s : St} (h : Reach s) (b : Bytes) (l : Bool) :
    ¬ ((s.r = .check ∨ s.r = .writing) ∧ (s.w = .check b l ∨ s.w = .writing b l)) := by
  rintro ⟨hr, hw⟩
  exact excl (inv h).2.1 (by rcases hr with e | e <;> simp [e, rUses])
    (by rcases hw with e | e <;> simp [e, wUses])

/-- The messages on the connection follow the protocol: reply, output and hints, status, close. -/
theorem protocol {s : St} (h : Reach s) : talk (begun s.log) ≠ .bad := by
  have e := (inv h).2.2.shape
  revert e
  cases s.m <;> simp only [Shape] <;> intro e
  all_goals first | (rw [e]; simp) | (rcases e with e | e | e <;> rw [e] <;> simp)

/-- At most one input hint is sent on a connection. -/
theorem one_hint {s : St} (h : Reach s) : (begun s.log).count .hint ≤ 1 := (inv h).2.2.hints

/-- How a list with an element appended can be cut at an element. -/
theorem cut_snoc {α : Type} {l a b : List α} {x y : α} (h : l ++ [y] = a ++ x :: b) :
    (b = [] ∧ a = l ∧ x = y) ∨ ∃ c, b = c ++ [y] ∧ l = a ++ x :: c := by
  rcases List.eq_nil_or_concat b with rfl | ⟨c, z, rfl⟩
  · left
    have := List.append_inj' h rfl
    simp at this
    exact ⟨rfl, this.1.symm, this.2.symm⟩
  · right
    rw [List.concat_eq_append] at *
    rw [← List.cons_append, ← List.append_assoc] at h
    have := List.append_inj' h rfl
    simp at this
    exact ⟨c, by simp [this.2], this.1⟩

/-- The event which a step adds to the observations, if any. -/
theorem step_log {s t : St} (e : Step s t) : t.log = s.log ∨ ∃ x, t.log = s.log ++ [x] ∧
    (x = .read → s.r = .frames) ∧
    (∀ m, x = .beg .main m → m = .reply ∧ s.m = .reply ∨ m = .status ∨ m = .close) ∧
    (∀ th m, x = .beg th m → th ≠ .main → s.err = false ∧ (s.r = .check ∨ ∃ b l, s.w = .check b l)) ∧
    (∀ b n ok, x = .ret b n ok → ∃ l, s.w = .unlock b n ok l) := by
  cases e
  all_goals first
    | exact .inl rfl
    | (refine .inr ⟨_, rfl, ?_⟩; simp_all)

/-- Before the first frame of input is awaited the client has been sent the input hint, unless the
connection is broken. -/
theorem read_after_hint {s : St} (h : Reach s) {a b : List Ev} (e : s.log = a ++ .read :: b) :
    .hint ∈ begun a ∨ failed a = true := by
  induction h generalizing b with
  | init => simp at e
  | @step s t h' st ih =>
    rcases step_log st with hl | ⟨x, hl, h1, _⟩
    · exact ih (hl ▸ e)
    · rw [hl] at e
      rcases cut_snoc e with ⟨_, rfl, hx⟩ | ⟨c, _, hc⟩
      · exact (inv h').2.2.wrote (.inr (.inr (h1 hx.symm)))
      · exact ih hc

/-- After a write has failed no output and no hint is written: the handler's final messages are the
only attempts. -/
theorem broken_is_final {s : St} (h : Reach s) {a b : List Ev} {t : Tid} {m : Msg}
    (e : s.log = a ++ .beg t m :: b) (hf : failed a = true) : m = .status ∨ m = .close := by
  induction h generalizing b with
  | init => simp at e
  | @step s t' h' st ih =>
    rcases step_log st with hl | ⟨x, hl, _, h2, h3, _⟩
    · exact ih (hl ▸ e)
    · rw [hl] at e
      rcases cut_snoc e with ⟨_, rfl, hx⟩ | ⟨c, _, hc⟩
      · obtain ⟨p, k, g⟩ := inv h'
        by_cases ht : t = .main
        · subst ht
          rcases h2 m hx.symm with ⟨_, hm⟩ | hm
          · have := g.failIs (.inl hm)
            have e0 := (p.p0 (.inl hm)).2.2.1
            simp [this, e0] at hf
          · exact hm
        · obtain ⟨he, hu⟩ := h3 t m hx.symm ht
          have hm : s.m = .transfer := by
            rcases hu with hu | ⟨b, l, hu⟩
            · exact transfer_r p (by simp [hu]) (by simp [hu])
            · exact transfer_w p (by simp [hu]) (by simp [hu])
          have := g.failIs (.inr (.inr (.inl hm)))
          simp [this, he] at hf
      · exact ih hc

/-- What `Write` reports is what has been sent: the payloads of output messages are the buffers of
the successful `Write` calls in order, plus at most the one of a call which is about to return. -/
theorem output_exact {s : St} (h : Reach s) :
    ∃ p, outputs s.log = reported s.log ++ p ∧ p.length ≤ 1 ∧ (s.w = .idle ∨ s.w = .gone → p = []) := by
  refine ⟨wPend s.w, ?_, ?_, ?_⟩
  · rw [outputs, (inv h).2.2.outs]
  · cases s.w <;> simp [wPend]
    split <;> simp
  · rintro (e | e) <;> simp [e, wPend]

theorem unlock_count {s : St} (h : Reach s) {b : Bytes} {n : Nat} {ok l : Bool}
    (e : s.w = .unlock b n ok l) : n = if ok then b.length else 0 := by
  induction h with
  | init => simp at e
  | @step s t h' st ih =>
    cases st
    all_goals try exact ih e
    all_goals simp only at e
    case mReplied o _ => cases o <;> simp at e; exact ih e
    case wLoad => split at e <;> simp at e
    case wWritten => simp only [WPc.unlock.injEq] at e; obtain ⟨rfl, rfl, rfl, rfl⟩ := e; rfl
    all_goals simp at e
    obtain ⟨rfl, rfl, rfl, rfl⟩ := e; rfl

/-- The count which `Write` returns is the length of its buffer if it succeeded, and zero if not. -/
theorem write_count {s : St} (h : Reach s) {b : Bytes} {n : Nat} {ok : Bool}
    (e : .ret b n ok ∈ s.log) : n = if ok then b.length else 0 := by
  induction h with
  | init => simp at e
  | @step s t h' st ih =>
    rcases step_log st with hl | ⟨x, hl, _, _, _, h4⟩
    · exact ih (hl ▸ e)
    · rw [hl, List.mem_append] at e
      rcases e with e | e
      · exact ih e
      · simp at e
        obtain ⟨l, hw⟩ := h4 b n ok e.symm
        exact unlock_count h' hw

/-- A goroutine which isn't waiting for the network or for a new call can go on, or the other one
holds the mutex and can go on. -/
theorem no_deadlock {s : St} (h : Reach s) (b : Bytes)
    (hp : s.r = .lock ∨ s.r = .clock ∨ s.w = .lock b) : ∃ t, Step s t ∧
      (t.mu ≠ s.mu ∨ (rHolds s.r = true ∧ t.r ≠ s.r) ∨ (wHolds s.w = true ∧ t.w ≠ s.w)) := by
  obtain ⟨p, k, g⟩ := inv h
  cases hm : s.mu with
  | none =>
    rcases hp with e | e | e
    · exact ⟨_, .rLock s e hm, .inl (by simp [hm])⟩
    · exact ⟨_, .cLock s e hm, .inl (by simp [hm])⟩
    · exact ⟨_, .wLock s b e hm, .inl (by simp [hm])⟩
  | some x =>
    cases x with
    | main => exact absurd hm k.mmu
    | reader =>
      have hh := k.rmu.1 hm
      cases hr : s.r <;> simp [hr, rHolds] at hh
      · cases he : s.err
        · exact ⟨_, .rCheckOk s hr he, .inr (.inl (by simp [rHolds, hr]))⟩
        · exact ⟨_, .rCheckErr s hr he, .inr (.inl (by simp [rHolds, hr]))⟩
      · exact ⟨_, .rWritten s true hr, .inr (.inl (by simp [rHolds, hr]))⟩
      · exact ⟨_, .rStore s hr, .inr (.inl (by simp [rHolds, hr]))⟩
      · exact ⟨_, .rUnlock s hr, .inr (.inl (by simp [rHolds, hr]))⟩
      · exact ⟨_, .cStore s hr, .inr (.inl (by simp [rHolds, hr]))⟩
      · exact ⟨_, .cUnlock s hr, .inr (.inl (by simp [rHolds, hr]))⟩
    | writer =>
      have hh := k.wmu.1 hm
      cases hr : s.w <;> simp [hr, wHolds] at hh <;> subst hh
      · cases he : s.err
        · exact ⟨_, .wCheckOk s _ _ hr he, .inr (.inr (by simp [wHolds, hr]))⟩
        · exact ⟨_, .wCheckErr s _ _ hr he, .inr (.inr (by simp [wHolds, hr]))⟩
      · exact ⟨_, .wWritten s _ _ true hr, .inr (.inr (by simp [wHolds, hr]))⟩
      · exact ⟨_, .wUnlock s _ _ _ _ hr, .inr (.inr (by simp [wHolds, hr]))⟩

/-- `Read` into a non-empty buffer never returns without bytes and without an error. -/
theorem read_progress (n : Nat) (hn : n ≠ 0) (c : Bool) (es : List Act) {c' : Bool} {b : Bytes}
    {err : Bool} {es' : List Act} (h : readCall n c es = some (c', b, err, es')) :
    b ≠ [] ∨ err = true := by
  rw [readCall, if_neg hn] at h
  induction es generalizing c with
  | nil => cases c <;> simp [readLoop] at h
  | cons e es ih =>
    cases c <;> cases e <;> simp only [readLoop] at h
    all_goals try exact ih _ h
    all_goals try (simp at h; done)
    all_goals try (split at h)
    all_goals first
      | exact ih _ h
      | (simp at h; obtain ⟨_, rfl, rfl, _⟩ := h; simp_all)

theorem readLoop_payload (c : Bool) (es : List Act) {c' : Bool} {b : Bytes}
    {err : Bool} {es' : List Act} (h : readLoop c es = some (c', b, err, es')) :
    payload es = b ++ payload es' := by
  induction es generalizing c with
  | nil => cases c <;> simp [readLoop] at h
  | cons e es ih =>
    cases c <;> cases e <;> simp only [readLoop] at h
    all_goals try (simp at h; done)
    all_goals try (split at h)
    all_goals first
      | (have := ih _ h; simp_all [payload]; done)
      | (simp at h; obtain ⟨_, rfl, rfl, rfl⟩ := h; simp [payload])

/-- Nothing which the client has sent is lost, repeated or reordered by any sequence of `Read` calls
with buffers of any sizes, across frame boundaries and errors. -/
theorem input_exact (ns : List Nat) (c : Bool) (es : List Act) :
    payload es = (readCalls ns c es).1 ++ payload (readCalls ns c es).2.2.2 := by
  induction ns generalizing c es with
  | nil => simp [readCalls]
  | cons n ns ih =>
    rw [readCalls]
    cases hr : readCall n c es with
    | none => simp
    | some x =>
      obtain ⟨c', b, err, es'⟩ := x
      simp only
      have hp : payload es = b ++ payload es' := by
        rw [readCall] at hr
        split at hr
        · simp at hr; obtain ⟨_, rfl, _, rfl⟩ := hr; rfl
        · exact readLoop_payload _ _ hr
      rw [hp, ih c' es', List.append_assoc]

/-- A whole call: the reply, output written while the hint is waiting for the mutex, the hint,
input, the end, the status and the close message. -/
theorem uses_input : ∃ s, Reach s ∧ begun s.log = [.reply, .data [1], .hint, .data [2], .status, .close] ∧
    .read ∈ s.log ∧ failed s.log = false ∧ reported s.log = [[1], [2]] := by
  have h := Reach.init
  replace h := h.step (.mReply _ rfl)
  replace h := h.step (.mReplied _ true rfl)
  replace h := h.step (.rCall _ rfl)
  replace h := h.step (.rLoad _ rfl)
  replace h := h.step (.wCall _ [1] rfl)
  replace h := h.step (.wLoad _ [1] rfl)
  replace h := h.step (.wLock _ [1] rfl rfl)
  replace h := h.step (.wCheckOk _ [1] true rfl rfl)
  replace h := h.step (.wWritten _ [1] true true rfl)
  replace h := h.step (.wUnlock _ [1] 1 true true rfl)
  replace h := h.step (.rLock _ rfl rfl)
  replace h := h.step (.rCheckOk _ rfl rfl)
  replace h := h.step (.rWritten _ true rfl)
  replace h := h.step (.rStore _ rfl)
  replace h := h.step (.wCall _ [2] rfl)
  replace h := h.step (.wLoad _ [2] rfl)
  replace h := h.step (.wCheckOk _ [2] false rfl rfl)
  replace h := h.step (.rUnlock _ rfl)
  replace h := h.step (.rNext _ rfl)
  replace h := h.step (.wWritten _ [2] false true rfl)
  replace h := h.step (.wUnlock _ [2] 1 true false rfl)
  replace h := h.step (.rReturn _ rfl)
  replace h := h.step (.cCall _ rfl)
  replace h := h.step (.cLoad _ rfl)
  replace h := h.step (.wGone _ rfl)
  replace h := h.step (.mJoin _ true rfl rfl rfl)
  replace h := h.step (.mStatus _ rfl)
  replace h := h.step (.mStatused _ true rfl)
  replace h := h.step (.mClose _ rfl)
  replace h := h.step (.mClosed _ true rfl)
  exact ⟨_, h, by decide⟩

/-- A client's frames with an empty one and one read in two pieces. -/
example : readCalls [4, 4, 4] false
    [.frame, .chunk [1, 2], .chunkEof [3], .frame, .chunkEof [], .frame, .chunk [4], .frameErr]
    = ([1, 2, 3, 4], 0, true, [.frameErr]) := by decide

/-- An error of the connection. -/
def isError : Act → Bool
  | .frameErr | .chunkErr _ => true
  | _ => false

theorem readLoop_errors (c : Bool) (es : List Act) {c' : Bool} {b : Bytes} {err : Bool} {es' : List Act}
    (h : readLoop c es = some (c', b, err, es')) :
    es.countP isError = (if err then 1 else 0) + es'.countP isError := by
  induction es generalizing c with
  | nil => cases c <;> simp [readLoop] at h
  | cons e es ih =>
    cases c <;> cases e <;> simp only [readLoop] at h
    all_goals try (simp at h; done)
    all_goals try (split at h)
    all_goals first
      | (have := ih _ h; rw [List.countP_cons_of_neg (by simp [isError])]; exact this)
      | (simp at h; obtain ⟨_, rfl, rfl, rfl⟩ := h
         first
         | (rw [List.countP_cons_of_neg (by simp [isError])]; simp; done)
         | (rw [List.countP_cons_of_pos (by simp [isError])]; simp [Nat.add_comm]; done))

/-- The request is canceled once for each of the connection's errors which has been met, and for nothing else. -/
theorem cancel_exact (ns : List Nat) (c : Bool) (es : List Act) :
    es.countP isError = (readCalls ns c es).2.1 + (readCalls ns c es).2.2.2.countP isError := by
  induction ns generalizing c es with
  | nil => simp [readCalls]
  | cons n ns ih =>
    rw [readCalls]
    cases hr : readCall n c es with
    | none => simp
    | some x =>
      obtain ⟨c', b, err, es'⟩ := x
      simp only
      have hp : es.countP isError = (if err then 1 else 0) + es'.countP isError := by
        rw [readCall] at hr
        split at hr
        · simp at hr; obtain ⟨_, rfl, rfl, rfl⟩ := hr; simp
        · exact readLoop_errors _ _ hr
      rw [hp, ih c' es', Nat.add_assoc]

example : readCalls [4, 4, 4] false [.frame, .chunkErr [1], .chunkErr [], .frameErr] = ([1], 2, true, [.frameErr]) := by decide

end Gate.Ws
