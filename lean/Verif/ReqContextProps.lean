import Verif.ReqContext
/-
C115: request details in contexts and events. Model: ReqContext.lean.
-/
namespace Gate.ReqContext
open Gate.Auth (str)

/-! ### Specification -/

/-- What an event made in this context reports. -/
def report (h : Heap) (c : Ctx) : Detail := get (detail h c).1 (detail h c).2

/-- References are to allocated objects. -/
def Valid (h : Heap) (c : Ctx) : Prop := ∀ r, c.ref = some r → r < h.length

theorem get_append (h l : Heap) (r : Nat) (hr : r < h.length) : get (h ++ l) r = get h r := by
  unfold get; rw [List.getElem?_append_left hr]

theorem get_new (h : Heap) (d : Detail) : get (h ++ [d]) h.length = d := by
  unfold get; rw [List.getElem?_append_right (Nat.le_refl _)]; simp

theorem get_modify (h : Heap) (f : Detail → Detail) (r r' : Nat) (hr : r' < h.length) : get (h.modify r f) r' = if r = r' then f (get h r') else get h r' := by
  unfold get
  rw [List.getElem?_modify, List.getElem?_eq_getElem hr]
  split <;> rfl

/-- ContextDetail gives a reference to an object, and doesn't change the other objects. -/
theorem detail_valid (h : Heap) (c : Ctx) (hv : Valid h c) : (detail h c).2 < (detail h c).1.length ∧ h.length ≤ (detail h c).1.length := by
  unfold detail
  cases hr : c.ref with
  | none => cases c.pri <;> simp
  | some r =>
    have := hv r hr
    cases c.pri with
    | none => simp [this]
    | some p => simp only; split <;> simp [this]

theorem detail_same (h : Heap) (c : Ctx) (r : Nat) (hr : r < h.length) : get (detail h c).1 r = get h r := by
  unfold detail
  cases c.ref with
  | none => cases c.pri <;> exact get_append _ _ _ hr
  | some r' =>
    cases c.pri with
    | none => rfl
    | some p =>
      simp only; split
      · exact get_append _ _ _ hr
      · rfl

/-- C115: an event tells the principal of the context in which it was made. -/
theorem report_principal (h : Heap) (c : Ctx) (p : Bytes) (hp : c.pri = some p) : (report h c).principal = p := by
  unfold report detail
  rw [hp]
  cases hr : c.ref with
  | none => simp only; rw [get_new]
  | some r =>
    simp only; split
    · simp only; rw [get_new]
    · rename_i hn; simp only; exact Classical.not_not.mp hn

/-- Reporting again gives the same. -/
theorem report_detail (h : Heap) (c : Ctx) : ∀ c' : Ctx, c'.pri = c.pri → c'.ref = some (detail h c).2 → ∀ h' : Heap, (detail h c).2 < h'.length →
    (report h' c' = { get h' (detail h c).2 with principal := (c.pri.getD (get h' (detail h c).2).principal) }) := by
  intro c' hp hr h' hl
  unfold report
  generalize (detail h c).2 = r at *
  unfold detail
  rw [hr, hp]
  cases c.pri with
  | none => rfl
  | some p =>
    simp only; split
    · simp only [Option.getD]; rw [get_new]
    · rename_i hn
      have := Classical.not_not.mp hn
      simp only [Option.getD]; rw [← this]

theorem derive_report (f : Detail → Detail) (hfp : ∀ d, (f d).principal = d.principal) (h : Heap) (c : Ctx) (hv : Valid h c) :
    report (derive f h c).1 (derive f h c).2 = f (report h c) ∧ Valid (derive f h c).1 (derive f h c).2 := by
  have hd := detail_valid h c hv
  have hl : (detail h c).2 < ((detail h c).1.modify (detail h c).2 f).length := by rw [List.length_modify]; exact hd.1
  constructor
  · have := report_detail h c { c with ref := some (detail h c).2 } rfl rfl ((detail h c).1.modify (detail h c).2 f) hl
    show report ((detail h c).1.modify (detail h c).2 f) { c with ref := some (detail h c).2 } = _
    rw [this, get_modify _ _ _ _ hd.1, if_pos rfl]
    have e : c.pri.getD (f (get (detail h c).1 (detail h c).2)).principal = (f (get (detail h c).1 (detail h c).2)).principal := by
      rw [hfp]
      cases hp : c.pri with
      | none => rfl
      | some p => simp only [Option.getD]; exact (report_principal h c p hp).symm
    rw [e]; rfl
  · intro r hr
    have : r = (detail h c).2 := by injection hr with hr; exact hr.symm
    subst this; exact hl

/-- C115: a derived context has what it was derived with, and otherwise what the original had at that time. -/
theorem op_report (n : Nat) (h : Heap) (c : Ctx) (hv : Valid h c) : report (withOp n h c).1 (withOp n h c).2 = { report h c with op := n } :=
  (derive_report (fun d => { d with op := n }) (fun _ => rfl) h c hv).1

theorem iface_report (n : Nat) (h : Heap) (c : Ctx) (hv : Valid h c) : report (withIface n h c).1 (withIface n h c).2 = { report h c with iface := n } :=
  (derive_report (fun d => { d with iface := n }) (fun _ => rfl) h c hv).1

theorem addr_report (n : Nat) (a : Bytes) (h : Heap) (c : Ctx) (hv : Valid h c) : report (withRequestAddr n a h c).1 (withRequestAddr n a h c).2 = { report h c with req := n, addr := a } :=
  (derive_report (fun d => { d with req := n, addr := a }) (fun _ => rfl) h c hv).1

/-- C115: events of a detached instance don't tell the address of the request which started it. -/
theorem detached_report (h : Heap) (c : Ctx) (hv : Valid h c) : report (detached h c).1 (detached h c).2 = { report h c with addr := [] } :=
  (derive_report (fun d => { d with addr := [] }) (fun _ => rfl) h c hv).1

/-- C115: the access policies' operation (ContextOp) is the one which the handler has set. -/
theorem op_context (n : Nat) (h : Heap) (c : Ctx) (hv : Valid h c) : op (withOp n h c).1 (withOp n h c).2 = n := by
  have hd := detail_valid h c hv
  show (get ((detail h c).1.modify (detail h c).2 _) (detail h c).2).op = n
  rw [get_modify _ _ _ _ hd.1, if_pos rfl]

/-- C115: what has been reported stays as it was, and the original context is unaffected, when a context is derived from one with a principal which its details don't have yet
(as after the authentication of a request). -/
theorem derive_keeps_partial (f : Detail → Detail) (h : Heap) (c : Ctx) (hv : Valid h c) (p : Bytes) (hp : c.pri = some p) (hn : ∀ r, c.ref = some r → (get h r).principal ≠ p) :
    ∀ r, r < h.length → get (derive f h c).1 r = get h r := by
  intro r hr
  have hd := detail_valid h c hv
  show get ((detail h c).1.modify (detail h c).2 f) r = get h r
  have hne : (detail h c).2 ≠ r := by
    unfold detail
    rw [hp]
    cases hc : c.ref with
    | none => simp only; omega
    | some r' =>
      simp only
      rw [if_pos (hn r' hc)]
      simp only; omega
  rw [get_modify _ _ _ _ (by omega), if_neg hne]
  exact detail_same h c r hr

/-- C115, refuted: without a principal (anonymous requests), starting an instance erases the address from the request's own context, and from every event which has been reported in it and hasn't been handled yet. -/
theorem detach_erases_refuted (h : Heap) (c : Ctx) (r : Nat) (hr : c.ref = some r) (hv : r < h.length) (hp : c.pri = none) :
    report h c = get h r ∧ report (detached h c).1 c = { report h c with addr := [] } := by
  have e : ∀ h', detail h' c = (h', r) := by intro h'; unfold detail; rw [hr, hp]
  unfold report
  rw [e, e]
  refine ⟨rfl, ?_⟩
  show get (detached h c).1 r = { get h r with addr := [] }
  unfold detached derive
  rw [e]
  simp only
  rw [get_modify _ _ _ _ hv, if_pos rfl]

/-- C115, refuted: the event which tells about an access (handler.go:152-154) is changed when the handler of the request sets the operation. -/
theorem access_changes_refuted (h : Heap) (n : Nat) (a : Bytes) (o : Nat) :
    let (h1, c1) := withRequestAddr n a h {}
    let (h2, ev) := detail h1 c1
    let (h3, _) := withOp o h2 c1
    get h2 ev = { req := n, addr := a } ∧ get h3 ev = { req := n, addr := a, op := o } := by
  have e1 : withRequestAddr n a h {} = ((h ++ [({} : Detail)]).modify h.length (fun d => { d with req := n, addr := a }), { pri := none, ref := some h.length }) := rfl
  rw [e1]
  simp only [detail, withOp, derive]
  have hl : h.length < (h ++ [({} : Detail)]).length := by simp
  constructor
  · rw [get_modify _ _ _ _ hl, if_pos rfl, get_new]
  · rw [get_modify _ _ _ _ (by rw [List.length_modify]; exact hl), if_pos rfl, get_modify _ _ _ _ hl, if_pos rfl, get_new]

/-- The hypotheses are met by what a handler does: the context of a request, then with an operation, then with a principal. -/
example :
    let (h1, c1) := withRequestAddr 7 (str "[::1]:1") [] {}
    let (h2, c2) := withOp 3 h1 c1
    let c3 := withID (str "ed25519:x") c2
    Valid h2 c3 ∧ (∀ r, c3.ref = some r → (get h2 r).principal ≠ str "ed25519:x") ∧ report h2 c3 = { req := 7, addr := str "[::1]:1", op := 3, principal := str "ed25519:x" } := by
  refine ⟨?_, ?_, by decide +kernel⟩
  · intro r hr; injection hr with hr; subst hr; decide
  · intro r hr; injection hr with hr; subst hr; decide +kernel

end Gate.ReqContext
