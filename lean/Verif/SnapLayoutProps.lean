import Verif.SnapLayout
import Verif.SectionsProps
/-
C61: the module of a snapshot. The layout is proved for modules in the plain order of
sections; the ways in which taking a snapshot fails are proved beside it.
-/
namespace Gate.SnapLayout
open Gate

/-- A module in plain order: header, standard sections in order, the snapshot's custom
sections in their places, and any other custom sections at the end. Absent ones are empty. -/
structure Parts where
  hdr : Bytes
  typ : Bytes
  imp : Bytes
  fn : Bytes
  tab : Bytes
  mem : Bytes
  glob : Bytes
  snap : Bytes
  frm : Bytes     -- frame around the export section
  exp : Bytes
  start : Bytes
  elem : Bytes
  code : Bytes
  buf : Bytes
  stk : Bytes
  dat : Bytes
  rest : Bytes

def Parts.bytes (p : Parts) : Bytes :=
  p.hdr ++ p.typ ++ p.imp ++ p.fn ++ p.tab ++ p.mem ++ p.glob ++ p.snap ++ p.frm ++ p.exp ++ p.start ++ p.elem
    ++ p.code ++ p.buf ++ p.stk ++ p.dat ++ p.rest

/-- A manifest has the lengths of a module's parts. -/
structure Describes (m : Man) (p : Parts) : Prop where
  hdr : p.hdr.length = 8
  typ : lenOf m.secs 1 = .ok p.typ.length
  imp : lenOf m.secs 2 = .ok p.imp.length
  fn : lenOf m.secs 3 = .ok p.fn.length
  tab : lenOf m.secs 4 = .ok p.tab.length
  mem : lenOf m.secs 5 = .ok p.mem.length
  glob : lenOf m.secs 6 = .ok p.glob.length
  exp : lenOf m.secs 7 = .ok p.exp.length
  start : lenOf m.secs 8 = .ok p.start.length
  elem : lenOf m.secs 9 = .ok p.elem.length
  code : lenOf m.secs 10 = .ok p.code.length
  dat : lenOf m.secs 11 = .ok p.dat.length
  snap : m.snap.2 = p.snap.length
  wrap : getLength m.wrap = if p.frm = [] then 0 else p.frm.length + p.exp.length
  buf : m.buffer.2 = p.buf.length
  stk : m.stack.2 = p.stk.length
  size : m.moduleSize = p.bytes.length

/-- What the snapshot's module should be: the program's own parts unchanged, the state
replaced, no start section, and the exports hidden if it cannot be called anew. -/
def expected (p : Parts) (new : New) (hide : Bool) : Parts :=
  { p with
    mem := new.mem, glob := new.glob, snap := new.snap
    frm := if hide then (if p.frm = [] then frame p.exp.length else p.frm) else []
    start := [], buf := new.buffer, stk := new.stack, dat := new.data }

theorem getLength_some (r : Nat × Nat) : getLength (some r) = r.2 := rfl

theorem getLength_none : getLength none = 0 := rfl

theorem mapOld_eq (off len : Nat) : mapOld off len = (if len ≠ 0 then some (off, len) else none, off + len) := by
  unfold mapOld
  split
  · rfl
  · rename_i h
    have : len = 0 := by omega
    simp [this]

theorem slice_mid (a b c l : Bytes) (n k : Nat) (h : l = a ++ (b ++ c)) (hn : n = a.length) (hk : k = b.length) :
    slice l n k = b := by
  subst h hn hk
  unfold slice
  rw [List.drop_left, List.take_left]

theorem frame_pos (n : Nat) : 0 < (frame n).length := by
  simp [frame, Sections.makeExportSectionWrapFrame]

/-- A range in a manifest is right for a part of the module: absent, or the place of it. -/
def RangeOf (l : Bytes) (r : Range) (part : Bytes) : Prop :=
  match r with
  | none => part = []
  | some (off, len) => slice l off len = part ∧ len = part.length

theorem rangeOf_map (a b c l : Bytes) (off : Nat) (h : l = a ++ (b ++ c)) (ho : off = a.length) :
    RangeOf l (if b.length ≠ 0 then some (off, b.length) else none) b := by
  by_cases hb : b.length = 0
  · rw [if_neg (by omega)]
    exact List.length_eq_zero_iff.mp hb
  · rw [if_pos hb]
    exact ⟨slice_mid a b c l _ _ h ho rfl, rfl⟩

/-- The new manifest describes the new module: the size, and the place of every part. -/
structure Places (m : Man) (p : Parts) : Prop where
  size : m.moduleSize = p.bytes.length
  secs : ∃ r1 r2 r3 r4 r5 r6 r7 r9 r10 r11, m.secs = [none, r1, r2, r3, r4, r5, r6, r7, none, r9, r10, r11] ∧
    RangeOf p.bytes r1 p.typ ∧ RangeOf p.bytes r2 p.imp ∧ RangeOf p.bytes r3 p.fn ∧ RangeOf p.bytes r4 p.tab ∧
    RangeOf p.bytes r5 p.mem ∧ RangeOf p.bytes r6 p.glob ∧ RangeOf p.bytes r7 p.exp ∧
    RangeOf p.bytes r9 p.elem ∧ RangeOf p.bytes r10 p.code ∧ RangeOf p.bytes r11 p.dat
  snap : slice p.bytes m.snap.1 m.snap.2 = p.snap ∧ m.snap.2 = p.snap.length
  wrap : if p.frm = [] then m.wrap = none else ∃ off, m.wrap = some (off, p.frm.length + p.exp.length) ∧
    slice p.bytes off (p.frm.length + p.exp.length) = p.frm ++ p.exp
  buf : slice p.bytes m.buffer.1 m.buffer.2 = p.buf ∧ m.buffer.2 = p.buf.length
  stk : m.stack.2 = p.stk.length ∧ (p.stk ≠ [] → slice p.bytes m.stack.1 m.stack.2 = p.stk)

/-- The manifest of a module: all places, counted from the beginning. -/
def manOf (q : Parts) : Man :=
  let e := 8 + q.typ.length + q.imp.length + q.fn.length + q.tab.length
  let f := e + q.mem.length + q.glob.length
  let g := f + q.snap.length
  let h := g + (q.frm.length + q.exp.length)
  { moduleSize := q.bytes.length
    secs := [none, if q.typ.length ≠ 0 then some (8, q.typ.length) else none,
      if q.imp.length ≠ 0 then some (8 + q.typ.length, q.imp.length) else none,
      if q.fn.length ≠ 0 then some (8 + q.typ.length + q.imp.length, q.fn.length) else none,
      if q.tab.length ≠ 0 then some (8 + q.typ.length + q.imp.length + q.fn.length, q.tab.length) else none,
      if q.mem.length ≠ 0 then some (e, q.mem.length) else none,
      if q.glob.length ≠ 0 then some (e + q.mem.length, q.glob.length) else none,
      if q.exp.length ≠ 0 then some (g + q.frm.length, q.exp.length) else none,
      none,
      if q.elem.length ≠ 0 then some (h, q.elem.length) else none,
      if q.code.length ≠ 0 then some (h + q.elem.length, q.code.length) else none,
      if q.dat.length ≠ 0 then some (h + q.elem.length + q.code.length + q.buf.length + q.stk.length, q.dat.length) else none]
    snap := (f, q.snap.length)
    wrap := if q.frm = [] then none else some (g, q.frm.length + q.exp.length)
    buffer := (h + q.elem.length + q.code.length, q.buf.length)
    stack := (if q.stk.length ≠ 0 then h + q.elem.length + q.code.length + q.buf.length else 0, q.stk.length) }

theorem manOf_places (q : Parts) (h0 : q.hdr.length = 8) (hs : q.start = []) : Places (manOf q) q := by
  refine ⟨rfl, ⟨_, _, _, _, _, _, _, _, _, _, rfl, ?_, ?_, ?_, ?_, ?_, ?_, ?_, ?_, ?_, ?_⟩, ⟨?_, rfl⟩, ?_, ⟨?_, rfl⟩, rfl, ?_⟩
  · refine rangeOf_map q.hdr _ (q.imp ++ q.fn ++ q.tab ++ q.mem ++ q.glob ++ q.snap ++ q.frm ++ q.exp ++ q.start ++ q.elem
      ++ q.code ++ q.buf ++ q.stk ++ q.dat ++ q.rest) _ _ ?_ ?_
    · simp [Parts.bytes]
    · omega
  · refine rangeOf_map (q.hdr ++ q.typ) _ (q.fn ++ q.tab ++ q.mem ++ q.glob ++ q.snap ++ q.frm ++ q.exp ++ q.start ++ q.elem
      ++ q.code ++ q.buf ++ q.stk ++ q.dat ++ q.rest) _ _ ?_ ?_
    · simp [Parts.bytes]
    · simp only [List.length_append]; omega
  · refine rangeOf_map (q.hdr ++ q.typ ++ q.imp) _ (q.tab ++ q.mem ++ q.glob ++ q.snap ++ q.frm ++ q.exp ++ q.start ++ q.elem
      ++ q.code ++ q.buf ++ q.stk ++ q.dat ++ q.rest) _ _ ?_ ?_
    · simp [Parts.bytes]
    · simp only [List.length_append]; omega
  · refine rangeOf_map (q.hdr ++ q.typ ++ q.imp ++ q.fn) _ (q.mem ++ q.glob ++ q.snap ++ q.frm ++ q.exp ++ q.start ++ q.elem
      ++ q.code ++ q.buf ++ q.stk ++ q.dat ++ q.rest) _ _ ?_ ?_
    · simp [Parts.bytes]
    · simp only [List.length_append]; omega
  · refine rangeOf_map (q.hdr ++ q.typ ++ q.imp ++ q.fn ++ q.tab) _ (q.glob ++ q.snap ++ q.frm ++ q.exp ++ q.start ++ q.elem
      ++ q.code ++ q.buf ++ q.stk ++ q.dat ++ q.rest) _ _ ?_ ?_
    · simp [Parts.bytes]
    · simp only [List.length_append]; omega
  · refine rangeOf_map (q.hdr ++ q.typ ++ q.imp ++ q.fn ++ q.tab ++ q.mem) _ (q.snap ++ q.frm ++ q.exp ++ q.start ++ q.elem
      ++ q.code ++ q.buf ++ q.stk ++ q.dat ++ q.rest) _ _ ?_ ?_
    · simp [Parts.bytes]
    · simp only [List.length_append]; omega
  · refine rangeOf_map (q.hdr ++ q.typ ++ q.imp ++ q.fn ++ q.tab ++ q.mem ++ q.glob ++ q.snap ++ q.frm) _ (q.start ++ q.elem
      ++ q.code ++ q.buf ++ q.stk ++ q.dat ++ q.rest) _ _ ?_ ?_
    · simp [Parts.bytes]
    · simp only [List.length_append]; omega
  · refine rangeOf_map (q.hdr ++ q.typ ++ q.imp ++ q.fn ++ q.tab ++ q.mem ++ q.glob ++ q.snap ++ q.frm ++ q.exp) _ (q.code ++ q.buf ++ q.stk ++ q.dat ++ q.rest) _ _ ?_ ?_
    · simp [Parts.bytes, hs]
    · simp only [List.length_append]; omega
  · refine rangeOf_map (q.hdr ++ q.typ ++ q.imp ++ q.fn ++ q.tab ++ q.mem ++ q.glob ++ q.snap ++ q.frm ++ q.exp ++ q.elem) _ (q.buf ++ q.stk ++ q.dat ++ q.rest) _ _ ?_ ?_
    · simp [Parts.bytes, hs]
    · simp only [List.length_append]; omega
  · refine rangeOf_map (q.hdr ++ q.typ ++ q.imp ++ q.fn ++ q.tab ++ q.mem ++ q.glob ++ q.snap ++ q.frm ++ q.exp ++ q.elem
      ++ q.code ++ q.buf ++ q.stk) _ q.rest _ _ ?_ ?_
    · simp [Parts.bytes, hs]
    · simp only [List.length_append]; omega
  · refine slice_mid (q.hdr ++ q.typ ++ q.imp ++ q.fn ++ q.tab ++ q.mem ++ q.glob) _ (q.frm ++ q.exp ++ q.start ++ q.elem
      ++ q.code ++ q.buf ++ q.stk ++ q.dat ++ q.rest) _ _ _ ?_ ?_ rfl
    · simp [Parts.bytes]
    · simp only [manOf, List.length_append]; omega
  · by_cases hf : q.frm = []
    · simp only [if_pos hf, manOf]
    · simp only [if_neg hf, manOf]
      refine ⟨_, rfl, ?_⟩
      refine slice_mid (q.hdr ++ q.typ ++ q.imp ++ q.fn ++ q.tab ++ q.mem ++ q.glob ++ q.snap) _ (q.start ++ q.elem
        ++ q.code ++ q.buf ++ q.stk ++ q.dat ++ q.rest) _ _ _ ?_ ?_ ?_
      · simp [Parts.bytes]
      · simp only [List.length_append]; omega
      · simp only [List.length_append]
  · refine slice_mid (q.hdr ++ q.typ ++ q.imp ++ q.fn ++ q.tab ++ q.mem ++ q.glob ++ q.snap ++ q.frm ++ q.exp ++ q.elem
      ++ q.code) _ (q.stk ++ q.dat ++ q.rest) _ _ _ ?_ ?_ rfl
    · simp [Parts.bytes, hs]
    · simp only [manOf, List.length_append]; omega
  · intro hne
    have := List.length_pos_iff.mpr hne
    refine slice_mid (q.hdr ++ q.typ ++ q.imp ++ q.fn ++ q.tab ++ q.mem ++ q.glob ++ q.snap ++ q.frm ++ q.exp ++ q.elem
      ++ q.code ++ q.buf) _ (q.dat ++ q.rest) _ _ _ ?_ ?_ rfl
    · simp [Parts.bytes, hs]
    · simp only [manOf, List.length_append]
      rw [if_pos (by omega)]
      omega

/-- C61, the part which holds: for a module in plain order which has a table section and an
export section, a snapshot's module is the old one with its state replaced (the types,
imports, functions, tables, exports, elements, code and other custom sections are the same
bytes), and the new manifest describes it. -/
theorem snapshot_layout_partial (m : Man) (p : Parts) (new : New) (hide : Bool) (hd : Describes m p)
    (htab : p.tab ≠ []) (hexp : p.exp ≠ []) :
    ∃ m', snapshot p.bytes m new hide = .ok ((expected p new hide).bytes, m') ∧ Places m' (expected p new hide) := by
  refine ⟨manOf (expected p new hide), ?_, manOf_places _ hd.hdr rfl⟩
  obtain ⟨h0, h1, h2, h3, h4, h5, h6, h7, h8, h9, h10, h11, hs, hw, hb, hk, hz⟩ := hd
  have lt := List.length_pos_iff.mpr htab
  have le := List.length_pos_iff.mpr hexp
  have hel : ¬ p.exp.length = 0 := by omega
  have lf := frame_pos p.exp.length
  have hsz : p.bytes.length = 8 + p.typ.length + p.imp.length + p.fn.length + p.tab.length + p.mem.length +
      p.glob.length + p.snap.length + p.frm.length + p.exp.length + p.start.length + p.elem.length + p.code.length
      + p.buf.length + p.stk.length + p.dat.length + p.rest.length := by
    simp only [Parts.bytes, List.length_append, h0]
  unfold snapshot
  simp only [h1, h2, h3, h4, h5, h6, h7, h8, h9, h10, h11, Res.bind_ok, mapOld_eq, mapNew, hs, hb, hk]
  have hE : copyEnd [if p.tab.length ≠ 0 then some (8 + p.typ.length + p.imp.length + p.fn.length, p.tab.length) else none,
      if p.fn.length ≠ 0 then some (8 + p.typ.length + p.imp.length, p.fn.length) else none,
      if p.imp.length ≠ 0 then some (8 + p.typ.length, p.imp.length) else none,
      if p.typ.length ≠ 0 then some (8, p.typ.length) else none] =
      .ok (8 + p.typ.length + p.imp.length + p.fn.length + p.tab.length) := by
    rw [if_pos (by omega)]
    simp only [copyEnd, deref, Res.bind_ok]
    rw [if_pos (by omega)]
  have hp1 : slice p.bytes 0 (8 + p.typ.length + p.imp.length + p.fn.length + p.tab.length) =
      p.hdr ++ p.typ ++ p.imp ++ p.fn ++ p.tab := by
    refine slice_mid [] _ (p.mem ++ p.glob ++ p.snap ++ p.frm ++ p.exp ++ p.start ++ p.elem
      ++ p.code ++ p.buf ++ p.stk ++ p.dat ++ p.rest) _ _ _ ?_ rfl ?_
    · simp [Parts.bytes]
    · simp only [List.length_append, h0]
  have hex : ∀ n, n = 8 + p.typ.length + p.imp.length + p.fn.length + p.tab.length + p.mem.length + p.glob.length
      + p.snap.length + p.frm.length → slice p.bytes n p.exp.length = p.exp := by
    intro n hn
    refine slice_mid (p.hdr ++ p.typ ++ p.imp ++ p.fn ++ p.tab ++ p.mem ++ p.glob ++ p.snap ++ p.frm) _ (p.start ++ p.elem
      ++ p.code ++ p.buf ++ p.stk ++ p.dat ++ p.rest) _ _ _ ?_ ?_ rfl
    · simp [Parts.bytes]
    · simp only [List.length_append]; omega
  have hfx : ∀ n, n = 8 + p.typ.length + p.imp.length + p.fn.length + p.tab.length + p.mem.length + p.glob.length
      + p.snap.length → slice p.bytes n (p.frm.length + p.exp.length) = p.frm ++ p.exp := by
    intro n hn
    refine slice_mid (p.hdr ++ p.typ ++ p.imp ++ p.fn ++ p.tab ++ p.mem ++ p.glob ++ p.snap) _ (p.start ++ p.elem
      ++ p.code ++ p.buf ++ p.stk ++ p.dat ++ p.rest) _ _ _ ?_ ?_ ?_
    · simp [Parts.bytes]
    · simp only [List.length_append]; omega
    · simp only [List.length_append]
  have hec : ∀ n, n = 8 + p.typ.length + p.imp.length + p.fn.length + p.tab.length + p.mem.length + p.glob.length
      + p.snap.length + p.frm.length + p.exp.length + p.start.length →
      slice p.bytes n (p.elem.length + p.code.length) = p.elem ++ p.code := by
    intro n hn
    refine slice_mid (p.hdr ++ p.typ ++ p.imp ++ p.fn ++ p.tab ++ p.mem ++ p.glob ++ p.snap ++ p.frm ++ p.exp ++ p.start) _
      (p.buf ++ p.stk ++ p.dat ++ p.rest) _ _ _ ?_ ?_ ?_
    · simp [Parts.bytes]
    · simp only [List.length_append]; omega
    · simp only [List.length_append]
  have hre : ∀ n k, n = 8 + p.typ.length + p.imp.length + p.fn.length + p.tab.length + p.mem.length + p.glob.length
      + p.snap.length + p.frm.length + p.exp.length + p.start.length + p.elem.length + p.code.length + p.buf.length
      + p.stk.length + p.dat.length → k = p.rest.length → slice p.bytes n k = p.rest := by
    intro n k hn hk
    refine slice_mid (p.hdr ++ p.typ ++ p.imp ++ p.fn ++ p.tab ++ p.mem ++ p.glob ++ p.snap ++ p.frm ++ p.exp ++ p.start
      ++ p.elem ++ p.code ++ p.buf ++ p.stk ++ p.dat) _ [] _ _ _ ?_ ?_ hk
    · simp [Parts.bytes]
    · simp only [List.length_append]; omega
  cases hide with
  | true =>
    simp only [if_true, if_pos (show p.exp.length ≠ 0 from by omega)]
    by_cases hf : p.frm = []
    · rw [if_pos hf] at hw
      have hfl : p.frm.length = 0 := by rw [hf]; rfl
      simp only [hw, ne_eq, not_true, if_false, if_true, getLength_some]
      rw [if_neg (by omega)]
      simp only [Res.bind_ok]
      rw [hE]
      simp only [Res.bind_ok, not_false_iff, if_pos (show ¬ ((frame p.exp.length).length + p.exp.length = 0) from by omega)]
      refine congrArg Res.ok (Prod.ext ?_ ?_)
      · simp only
        rw [hp1, hex _ (by omega), hec _ (by omega), hre _ _ (by omega) (by omega)]
        simp [expected, Parts.bytes, hf]
      · have hfne : frame p.exp.length ≠ [] := List.length_pos_iff.mp lf
        simp only [manOf, expected, hf, if_true, if_neg hfne]
        refine Man.ext ?_ ?_ ?_ ?_ ?_ ?_
        · simp only [Parts.bytes, List.length_append, hz, hsz, h0, List.length_nil]
          omega
        · simp only [ne_eq, List.cons.injEq, and_true, true_and]
          rw [if_pos (by omega)]
          refine congrArg some (Prod.ext ?_ rfl)
          simp only
          omega
        all_goals rfl
    · rw [if_neg hf] at hw
      have hfl := List.length_pos_iff.mpr hf
      have hne : ¬ (p.frm.length + p.exp.length = 0) := by omega
      simp only [hw, ne_eq, not_true, if_false, if_true, getLength_some, hne, not_false_iff]
      simp only [Res.bind_ok]
      rw [hE]
      simp only [Res.bind_ok]
      refine congrArg Res.ok (Prod.ext ?_ ?_)
      · simp only
        rw [hp1, hfx _ (by omega), hec _ (by omega), hre _ _ (by omega) (by omega)]
        simp [expected, Parts.bytes, hf]
      · simp only [manOf, expected, hf, if_true, if_false]
        refine Man.ext ?_ ?_ ?_ ?_ ?_ ?_
        · simp only [Parts.bytes, List.length_append, hz, hsz, h0, List.length_nil]
          omega
        · simp only [ne_eq, List.cons.injEq, and_true, true_and]
          rw [if_pos (by omega)]
          refine congrArg some (Prod.ext ?_ rfl)
          simp only
          omega
        all_goals rfl
  | false =>
    simp only [if_pos (show p.exp.length ≠ 0 from by omega), getLength_some, getLength_none, deref, Res.bind_ok,
      if_true, Bool.false_eq_true, if_false, ne_eq, not_true]
    rw [hE]
    simp only [Res.bind_ok]
    by_cases hf : p.frm = []
    · rw [if_pos hf] at hw
      have hfl : p.frm.length = 0 := by rw [hf]; rfl
      simp only [hw, not_true, if_false, if_true]
      refine congrArg Res.ok (Prod.ext ?_ ?_)
      · simp only
        rw [hp1, hex _ (by omega), hec _ (by omega), hre _ _ (by omega) (by omega)]
        simp [expected, Parts.bytes]
      · simp only [manOf, expected]
        refine Man.ext ?_ ?_ ?_ ?_ ?_ ?_
        · simp only [Parts.bytes, List.length_append, hz, hsz, h0, List.length_nil]
          simp only [Bool.false_eq_true, if_false, List.length_nil]
          omega
        · simp only [ne_eq, hel, not_false_iff, if_true, Bool.false_eq_true, if_false, List.length_nil, Nat.add_zero, Nat.zero_add]
          simp
        all_goals simp
    · rw [if_neg hf] at hw
      have hfl := List.length_pos_iff.mpr hf
      have hne : ¬ (p.frm.length + p.exp.length = 0) := by omega
      simp only [hw, hne, not_false_iff, if_false, if_true]
      refine congrArg Res.ok (Prod.ext ?_ ?_)
      · simp only
        rw [hp1, hex _ (by omega), hec _ (by omega), hre _ _ (by omega) (by omega)]
        simp [expected, Parts.bytes]
      · simp only [manOf, expected]
        refine Man.ext ?_ ?_ ?_ ?_ ?_ ?_
        · simp only [Parts.bytes, List.length_append, hz, hsz, h0, List.length_nil]
          simp only [Bool.false_eq_true, if_false, List.length_nil]
          omega
        · simp only [ne_eq, hel, not_false_iff, if_true, Bool.false_eq_true, if_false, List.length_nil, Nat.add_zero, Nat.zero_add]
          simp
        all_goals simp

/-! ### The cases in which no snapshot can be taken -/

theorem ite_bind_panic {α β} (c : Prop) [Decidable c] (a b : α) :
    ((if c then Res.ok a else Res.ok b) >>= fun _ => (Res.panic : Res β)) = .panic := by
  split <;> rfl

/-- A module without a table section (or without an earlier section, if there is no table
either) cannot be snapshotted: the loop which looks for the last section dereferences a range
which is nil because the section is not there. -/
theorem no_table_panics (m : Man) (p : Parts) (new : New) (hide : Bool) (hd : Describes m p) (htab : p.tab = []) :
    snapshot p.bytes m new hide = .panic := by
  obtain ⟨h0, h1, h2, h3, h4, h5, h6, h7, h8, h9, h10, h11, hs, hw, hb, hk, hz⟩ := hd
  have lt : p.tab.length = 0 := by rw [htab]; rfl
  unfold snapshot
  simp only [h1, h2, h3, h4, h5, h6, h7, h8, h9, h10, h11, Res.bind_ok, mapOld_eq, mapNew, lt]
  simp only [ne_eq, not_true, if_false, copyEnd, deref, Res.bind_panic]
  cases hide <;> by_cases he : p.exp.length = 0 <;> simp only [he, if_true, if_false, not_true, not_false_iff, getLength_none,
    getLength_some, Res.bind_panic, Bool.false_eq_true, Res.bind_ok, ite_self]
  exact ite_bind_panic _ _ _

/-- A module without an export section cannot be snapshotted. -/
theorem no_exports_panic (m : Man) (p : Parts) (new : New) (hide : Bool) (hd : Describes m p) (hexp : p.exp = []) :
    snapshot p.bytes m new hide = .panic := by
  obtain ⟨h0, h1, h2, h3, h4, h5, h6, h7, h8, h9, h10, h11, hs, hw, hb, hk, hz⟩ := hd
  have lt : p.exp.length = 0 := by rw [hexp]; rfl
  unfold snapshot
  simp only [h1, h2, h3, h4, h5, h6, h7, h8, h9, h10, h11, Res.bind_ok, mapOld_eq, mapNew, lt]
  cases hide <;> simp only [deref, ne_eq, not_true, if_true, if_false, getLength_none, Res.bind_panic, Bool.false_eq_true]

theorem bind_inv {α β} {x : Res α} {f : α → Res β} {b : β} (h : (x >>= f) = .ok b) : ∃ a, x = .ok a ∧ f a = .ok b := by
  cases x with
  | ok a => exact ⟨a, rfl, h⟩
  | err m => cases h
  | panic => cases h

theorem lenOf_bind_panic {β} (secs : List Range) (i : Nat) (f : Nat → Res β) (h : ∀ a, f a = .panic) :
    (lenOf secs i >>= f) = .panic := by
  unfold lenOf
  cases secs[i]? with
  | none => rfl
  | some r =>
    cases r with
    | none => rfl
    | some x => exact h _

/-- No snapshot can be taken from an instance of a program which was itself made by taking a
snapshot (for as long as it has not been loaded anew from storage, which makes empty ranges of
nil ones): the new program's range of the start section is nil. -/
theorem second_generation_panics (old : Bytes) (m : Man) (new : New) (hide : Bool) (bytes : Bytes) (m' : Man)
    (h : snapshot old m new hide = .ok (bytes, m')) (new' : New) (hide' : Bool) :
    snapshot bytes m' new' hide' = .panic := by
  have hm : m'.secs[8]? = some none := by
    unfold snapshot at h
    obtain ⟨_, _, h⟩ := bind_inv h
    obtain ⟨_, _, h⟩ := bind_inv h
    obtain ⟨_, _, h⟩ := bind_inv h
    obtain ⟨_, _, h⟩ := bind_inv h
    obtain ⟨_, _, h⟩ := bind_inv h
    obtain ⟨_, _, h⟩ := bind_inv h
    obtain ⟨_, _, h⟩ := bind_inv h
    obtain ⟨_, _, h⟩ := bind_inv h
    obtain ⟨_, _, h⟩ := bind_inv h
    obtain ⟨_, _, h⟩ := bind_inv h
    obtain ⟨_, _, h⟩ := bind_inv h
    obtain ⟨_, _, h⟩ := bind_inv h
    obtain ⟨_, _, h⟩ := bind_inv h
    have := congrArg (fun r : Res (Bytes × Man) => match r with | .ok x => x.2.secs[8]? | _ => none) h
    exact this.symm
  have h8 : lenOf m'.secs 8 = .panic := by unfold lenOf; rw [hm]; rfl
  unfold snapshot
  refine lenOf_bind_panic _ _ _ fun _ => lenOf_bind_panic _ _ _ fun _ => lenOf_bind_panic _ _ _ fun _ =>
    lenOf_bind_panic _ _ _ fun _ => lenOf_bind_panic _ _ _ fun _ => lenOf_bind_panic _ _ _ fun _ =>
    lenOf_bind_panic _ _ _ fun _ => lenOf_bind_panic _ _ _ fun _ => lenOf_bind_panic _ _ _ fun _ => ?_
  rw [h8]
  rfl

/-! ### Examples and counterexamples -/

/-- A small module: type, function, table, export, start and code sections, and a custom one
at the end. -/
def exParts : Parts :=
  { hdr := [0, 0x61, 0x73, 0x6d, 1, 0, 0, 0], typ := [1, 4, 1, 0x60, 0, 0], imp := [], fn := [3, 2, 1, 0]
    tab := [4, 4, 1, 0x70, 0, 0], mem := [5, 3, 1, 0, 1], glob := [], snap := [], frm := []
    exp := [7, 5, 1, 1, 0x78, 0, 0], start := [8, 1, 0], elem := [], code := [10, 4, 1, 2, 0, 11]
    buf := [], stk := [], dat := [], rest := [0, 2, 1, 0x79] }

/-- Its manifest as made when it was built: every range there, some of length 0. -/
def exMan : Man :=
  { moduleSize := 49
    secs := [some (0, 0), some (8, 6), some (0, 0), some (14, 4), some (18, 6), some (24, 5), some (0, 0), some (29, 7),
      some (36, 3), some (0, 0), some (39, 6), some (0, 0)]
    snap := (0, 0), wrap := none, buffer := (0, 0), stack := (0, 0) }

def exNew : New :=
  { mem := [5, 4, 1, 1, 1, 1], glob := [], snap := [0, 3, 1, 0x73, 0], buffer := [0, 2, 1, 0x62], stack := [0, 3, 1, 0x6b, 9]
    data := [11, 1, 0] }

theorem exDescribes : Describes exMan exParts := by
  constructor <;> decide

/-- The hypotheses of `snapshot_layout_partial` are met by a concrete module. -/
example : ∃ m', snapshot exParts.bytes exMan exNew true = .ok ((expected exParts exNew true).bytes, m') ∧
    Places m' (expected exParts exNew true) :=
  snapshot_layout_partial exMan exParts exNew true exDescribes (by decide) (by decide)

example : ∃ b m', snapshot exParts.bytes exMan exNew true = .ok (b, m') ∧ snapshot b m' exNew false = .panic := by
  obtain ⟨m', h, _⟩ := snapshot_layout_partial exMan exParts exNew true exDescribes (by decide) (by decide)
  exact ⟨_, m', h, second_generation_panics _ _ _ _ _ _ h _ _⟩

/-- What `Snapshot` makes of a module is what WebAssembly's section order requires only if the
custom sections come last. Here one (four bytes) is between the function and table sections:
the manifest is right in every length. -/
def exBetween : Bytes :=
  exParts.hdr ++ exParts.typ ++ exParts.fn ++ [0, 2, 1, 0x79] ++ exParts.tab ++ exParts.mem ++ exParts.exp ++ exParts.start
    ++ exParts.code

def exBetweenMan : Man :=
  { moduleSize := 49
    secs := [some (0, 0), some (8, 6), some (0, 0), some (14, 4), some (22, 6), some (28, 5), some (0, 0), some (33, 7),
      some (40, 3), some (0, 0), some (43, 6), some (0, 0)]
    snap := (0, 0), wrap := none, buffer := (0, 0), stack := (0, 0) }

/-- The result of a snapshot, if there is one. -/
def result (r : Res (Bytes × Man)) : Bytes := match r with | .ok x => x.1 | _ => []

/-- C61 is false for a module with a custom section between its standard sections: the new
module's table section is cut short, the start section is left in, and the code section is
not there as a whole. -/
theorem custom_between_corrupts :
    slice exBetween 22 6 = exParts.tab ∧ slice exBetween 43 6 = exParts.code ∧
    result (snapshot exBetween exBetweenMan exNew false) =
      exParts.hdr ++ exParts.typ ++ exParts.fn ++ [0, 2, 1, 0x79] ++ [4, 4] ++ exNew.mem ++ exNew.snap
        ++ [3, 1, 0, 1, 7, 5, 1] ++ [0, 8, 1, 0, 10, 4] ++ exNew.buffer ++ exNew.stack ++ exNew.data ++ [1, 2, 0, 11] := by
  decide +kernel

/-- C61 is false for an uploaded snapshot of a suspended program: building it from its module
does not set the range of the frame around the export section, and so a further snapshot
leaves the frame where it does not belong. Here the frame is that of a custom
section with a two-letter name instead of `gate.export`. -/
theorem uploaded_frame_corrupts :
    let p := { exParts with start := [], frm := [0, 10, 2, 0x67, 0x78] }
    let m : Man := { exMan with
      moduleSize := 51
      secs := [some (0, 0), some (8, 6), some (0, 0), some (14, 4), some (18, 6), some (24, 5), some (0, 0), some (34, 7),
        some (0, 0), some (0, 0), some (41, 6), some (0, 0)] }
    slice p.bytes 34 7 = p.exp ∧ (p.bytes.length : Int) = m.moduleSize ∧
    result (snapshot p.bytes m exNew false) =
      p.hdr ++ p.typ ++ p.fn ++ p.tab ++ exNew.mem ++ exNew.snap ++ [0, 10, 2, 0x67, 0x78, 7, 5] ++ [1, 1, 0x78, 0, 0, 10]
        ++ exNew.buffer ++ exNew.stack ++ exNew.data ++ [4, 1, 2, 0, 11, 0, 2, 1, 0x79] := by
  decide +kernel

end Gate.SnapLayout
