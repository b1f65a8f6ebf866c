import Verif.Requests

namespace Gate.Requests

theorem run_mem (o : Nat → Bool) (p : P) : ∀ ds s, run o p ds s ∈ outcomes p ds s := by
  induction p with
  | ret => intro ds s; simp [run, outcomes]
  | err => intro ds s; simp [run, outcomes]
  | crash => intro ds s; simp [run, outcomes]
  | seq c k ih => intro ds s; cases c <;> simp only [run, outcomes] <;> exact ih _ _
  | check c f k ihf ihk =>
    intro ds s
    simp only [run, outcomes, List.mem_append]
    split
    · exact .inl (ihf _ _)
    · exact .inr (ihk _ _)
  | call f k ihf ihk =>
    intro ds s
    simp only [outcomes, List.mem_flatMap]
    refine ⟨run o f [] s, ihf _ _, ?_⟩
    simp only [run]
    rcases h : run o f [] s with ⟨s', out⟩
    cases out <;> simp [ihk]
  | attempt f k ihf ihk =>
    intro ds s
    simp only [outcomes, List.mem_flatMap]
    exact ⟨run o f [] s, ihf _ _, by simp only [run]; exact ihk _ _ _⟩

/-- Everything which is used up: see `Balanced`. -/
def used (s : St) : List Nat :=
  s.log.filterMap (fun | .closed h => some h | .given h => some h | _ => none) ++ (s.env.filter fun e => e.1.field).map (·.2)

def openedL (s : St) : List Nat := s.log.filterMap (fun | .opened h => some h | _ => none)

theorem count_used (s : St) (h : Nat) : (used s).count h = uses s h := by
  unfold used uses
  rw [List.count_append]
  congr 1
  · generalize s.log = l
    induction l with
    | nil => rfl
    | cons x l ih =>
      cases x <;> simp_all [List.count_cons] <;> omega
  · generalize s.env = l
    induction l with
    | nil => rfl
    | cons x l ih =>
      simp only [List.filter_cons, List.countP_cons]
      by_cases hf : x.1.field = true
      · simp [hf, List.count_cons, ih]
      · simp [hf, ih]

theorem mem_openedL (s : St) (h : Nat) : h ∈ openedL s ↔ .opened h ∈ s.log := by
  unfold openedL
  simp only [List.mem_filterMap]
  constructor
  · rintro ⟨x, hx, hh⟩
    cases x <;> simp_all
  · intro hm; exact ⟨_, hm, rfl⟩

/-- Removes each of the second list's members once, from the first. -/
def removeAll : List Nat → List Nat → Option (List Nat)
  | l, [] => some l
  | l, x :: xs => if l.contains x then removeAll (l.erase x) xs else none

theorem removeAll_count : ∀ (xs l r : List Nat), removeAll l xs = some r → ∀ h, l.count h = r.count h + xs.count h
  | [], l, r, e, h => by simp only [removeAll, Option.some.injEq] at e; subst e; simp
  | x :: xs, l, r, e, h => by
    simp only [removeAll] at e
    split at e
    · rename_i hc
      have := removeAll_count xs _ r e h
      rw [List.count_erase] at this
      rw [List.count_cons]
      have hx : x ∈ l := by simpa using hc
      have hp : 0 < l.count x := List.count_pos_iff.mpr hx
      by_cases hxh : x = h
      · subst hxh; simp at this ⊢; omega
      · have : (x == h) = false := by simpa using hxh
        have h2 : (h == x) = false := by simpa using fun e => hxh e.symm
        simp [this, h2] at *
        omega
    · cases e

/-- A test of balance: no resource has been acquired twice, and the used ones are the acquired ones. -/
def balanced (s : St) : Bool := nodup (openedL s) && (removeAll (used s) (openedL s) == some [])
where
  nodup : List Nat → Bool
  | [] => true
  | x :: xs => !xs.contains x && nodup xs

theorem nodup_count : ∀ (l : List Nat), balanced.nodup l = true → ∀ h, l.count h = if h ∈ l then 1 else 0
  | [], _, h => by simp
  | x :: xs, e, h => by
    simp only [balanced.nodup, Bool.and_eq_true, Bool.not_eq_true', List.contains_eq_mem, decide_eq_false_iff_not] at e
    rw [List.count_cons, nodup_count xs e.2 h]
    by_cases hx : x = h
    · subst hx; simp [e.1]
    · have h2 : (x == h) = false := by simpa using hx
      have h3 : ¬ h = x := fun e => hx e.symm
      simp [h2, h3]

theorem balanced_sound (s : St) (h : balanced s = true) : Balanced s := by
  simp only [balanced, Bool.and_eq_true, beq_iff_eq] at h
  intro x
  rw [← count_used, removeAll_count _ _ _ h.2 x, nodup_count _ h.1 x]
  simp [mem_openedL]

/-- A witness of imbalance. -/
def unbalanced (s : St) : Bool := (openedL s).any fun h => (used s).count h != 1

theorem unbalanced_sound (s : St) (h : unbalanced s = true) : ¬ Balanced s := by
  simp only [unbalanced, List.any_eq_true, bne_iff_ne] at h
  obtain ⟨x, hx, hc⟩ := h
  intro hb
  have := hb x
  rw [← count_used, if_pos ((mem_openedL s x).mp hx)] at this
  exact hc this

/-! ### Tests of a result -/

def isBad : Log → Bool
  | .failed .start | .failed .storeInstance => true
  | _ => false
def isNew : Log → Bool
  | .eff .newInstance => true
  | _ => false
def isResume : Log → Bool
  | .eff .resume => true
  | _ => false
def isDelete : Log → Bool
  | .eff .delete => true
  | _ => false
def isCrash : Out → Bool
  | .crash => true
  | _ => false
def isRet : Out → Bool
  | .ret => true
  | _ => false
def passedPolicy : Log → Bool
  | .passed .policy => true
  | _ => false
def failedPolicy : Log → Bool
  | .failed .policy => true
  | _ => false
def isPin : Log → Bool
  | .eff .pin => true
  | _ => false
def isPinEv : Log → Bool
  | .ev .modulePin => true
  | _ => false
def isPinMod : Log → Bool
  | .passed .pinModified => true
  | _ => false

/-- What makes a request lose a resource, or release it twice. -/
def leaky (a : Api) (c : Cfg) (r : St × Out) : Bool :=
  r.1.log.any isBad || (isCrash r.2 && r.1.log.any isNew) ||
  (match a with
    | .resumeInstance => c.oldLog && r.1.log.any isResume
    | .deleteInstance => (c.alt || c.oldLog) && r.1.log.any isDelete
    | .drive => c.alt && r.1.log.any isDelete
    | _ => false)

def testBalance (a : Api) (c : Cfg) (r : St × Out) : Bool := if leaky a c r then unbalanced r.1 else balanced r.1

/-- Nothing is done before the policy has been asked. -/
def authFirst (n : Nat) : List Log → Bool
  | [] => true
  | x :: l => (if act n x then l.any passedPolicy else true) && authFirst n l

def testAuth (a : Api) (c : Cfg) (r : St × Out) : Bool :=
  match a with
  | .snapshot | .drive => true
  | _ => authFirst (callers a c ++ fields a c).length r.1.log && !(r.1.log.any failedPolicy && (r.1.log.any passedPolicy || isRet r.2 || isCrash r.2))

def Ev.code : Ev → Nat
  | .uploadNew => 0 | .uploadExist => 1 | .sourceNew => 2 | .sourceExist => 3 | .modulePin => 4 | .moduleUnpin => 5 | .moduleInfo => 6 | .moduleList => 7
  | .moduleDownload => 8 | .createKnown => 9 | .createStream => 10 | .connectFail => 11 | .instanceInfo => 12 | .instanceWait => 13 | .instanceKill => 14
  | .instanceSuspend => 15 | .instanceResume => 16 | .instanceDelete => 17 | .instanceSnapshot => 18 | .instanceUpdate => 19 | .instanceDebug => 20
  | .instanceList => 21 | .instanceStop => 22

/-- `l` is a part of `m` from its beginning: `some true` if it's all of it. -/
def initialPart : List Ev → List Ev → Option Bool
  | [], [] => some true
  | [], _ :: _ => some false
  | _ :: _, [] => none
  | x :: l, y :: m => if x.code.beq y.code then initialPart l m else none

/-- The report of a request which failed may lack something even if nothing was to be reported. -/
def testEvents (a : Api) (c : Cfg) (r : St × Out) : Bool :=
  (match a, isRet r.2 with
    | .snapshot, false => true
    | _, true => initialPart (events r.1) (report a c) == some true
    | _, false => match report a c with
      | [] => initialPart (events r.1) [] == some true
      | _ :: _ => initialPart (events r.1) (report a c) == some false) &&
  (r.1.log.countP isPinEv).beq (r.1.log.countP isPinMod) && (r.1.log.countP isPinEv).ble (r.1.log.countP isPin)

def testCrash (a : Api) (c : Cfg) (r : St × Out) : Bool :=
  !isCrash r.2 || (match a with
    | .pinModule | .snapshot => !c.pin
    | .uploadModuleInstance | .sourceModuleInstance => c.anonymous && c.transient && !c.pin && (c.suspend || c.final)
    | _ => false)

def Eff.code : Eff → Nat
  | .account => 0 | .storeProgram => 1 | .register => 2 | .pin => 3 | .unpin => 4 | .newInstance => 5 | .storeInstance => 6 | .start => 7 | .kill => 8
  | .suspend => 9 | .resume => 10 | .delete => 11 | .update => 12 | .reconfigure => 13 | .serve => 14

def sameEff : List Eff → List Eff → Bool
  | [], [] => true
  | x :: l, y :: m => x.code.beq y.code && sameEff l m
  | _, _ => false

/-- `l` is an initial part of `m`, or of `m`, but for deletion of an instance in the end. -/
def partEff : List Eff → List Eff → Bool
  | [], _ => true
  | [.delete], _ => true
  | x :: l, y :: m => x.code.beq y.code && partEff l m
  | _ :: _, [] => false

def isUpdate : Log → Bool
  | .eff .update => true
  | _ => false
def isModified : Log → Bool
  | .passed .modified => true
  | _ => false

def isGiven : Log → Bool
  | .given _ => true
  | _ => false

def partTest (a : Api) (c : Cfg) (s : St) : Bool :=
  match a with
  | .snapshot => true
  | _ => partEff (effects s) (changes a c)

def oldInstance (a : Api) (s : St) : Bool :=
  match a with
  | .resumeInstance | .snapshot => true
  | _ => !s.log.any isDelete

/-- The changes of a successful request and of one which isn't. A new instance is deleted if the request fails. -/
def outTest (a : Api) (c : Cfg) (s : St) : Out → Bool
  | .ret => sameEff (effects s) (changes a c) && (s.log.countP isGiven).beq (handed a c)
  | .err => partTest a c s && (if s.log.any isNew then s.log.any isDelete else oldInstance a s)
  | .crash => partTest a c s

def testEffects (a : Api) (c : Cfg) (r : St × Out) : Bool := outTest a c r.1 r.2 && (r.1.log.countP isUpdate).beq (r.1.log.countP isModified)

def test (a : Api) (c : Cfg) (r : St × Out) : Bool := testBalance a c r && testAuth a c r && testEvents a c r && testCrash a c r && testEffects a c r

def allOk (a : Api) (c : Cfg) : Bool := (outcomes (.call (body a c) .ret) (callers a c) (initial a c)).all (test a c)

end Gate.Requests
