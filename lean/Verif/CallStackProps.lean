import Verif.CallStack

/-! # Properties of portable and native call stacks (C35, C36, C37) -/

namespace Gate.CallStack

/-! ## Specification

A suspended call stack, independently of its two representations: the frames of the calls in progress, the
innermost first, each with its call site and its values; the call site in the enter routine; and, if the
entry function has not been called yet, what it is (if there is one). -/

structure Frame where
  site : Nat
  vars : List Nat
deriving DecidableEq, Repr

structure Stack where
  frames : List Frame
  init : Nat
  entry : Option (Option Nat)
deriving DecidableEq, Repr

/-- What a compiler's map is like. -/
structure GoodMap (m : Map) : Prop where
  sitesDistinct : (m.sites.map (·.retAddr)).Nodup
  retAddr32 : ∀ s ∈ m.sites, s.retAddr ≤ max32
  sites32 : m.sites.length ≤ two32
  offset32 : ∀ s ∈ m.sites, -2147483648 ≤ s.stackOffset ∧ s.stackOffset < 2147483648
  funcsDistinct : m.funcAddrs.Nodup
  func32 : ∀ a ∈ m.funcAddrs, 0 < a ∧ a ≤ max32
  funcs32 : m.funcAddrs.length ≤ max32

def retAddr (m : Map) (i : Nat) : Nat := ((m.sites[i]?).map (·.retAddr)).getD 0
def offset (m : Map) (i : Nat) : Int := ((m.sites[i]?).map (·.stackOffset)).getD 0

/-- A frame is that of a call in a function, and has the size the map tells. -/
def FrameOk (m : Map) (f : Frame) : Prop :=
  f.site < m.sites.length ∧ m.isInit (retAddr m f.site) = false ∧ offset m f.site = 8 * (f.vars.length + 1)

structure Ok (m : Map) (s : Stack) : Prop where
  frames : ∀ f ∈ s.frames, FrameOk m f
  init : s.init < m.sites.length ∧ m.isInit (retAddr m s.init) = true ∧ offset m s.init = if s.entry.isSome then 8 else 0
  entry : ∀ i, s.entry = some (some i) → i < m.funcAddrs.length

/-- The native representation at a text address: absolute return addresses. -/
def nativeFrame (m : Map) (textAddr : Nat) (f : Frame) : List Nat := (textAddr + retAddr m f.site) % two64 :: f.vars
def nativeEntry (m : Map) : Option Nat → Nat
  | none => 0
  | some i => (m.funcAddrs[i]?).getD 0
def nativeCalls (m : Map) (textAddr : Nat) (s : Stack) : List Nat :=
  s.frames.flatMap (nativeFrame m textAddr) ++ [(textAddr + retAddr m s.init) % two64]
def native (m : Map) (textAddr : Nat) (s : Stack) : List Nat :=
  nativeCalls m textAddr s ++ (s.entry.map (nativeEntry m)).toList

/-- The portable representation: call site indexes with stack offsets. -/
def portableFrame (m : Map) (f : Frame) : List Nat := link (offset m f.site) f.site :: f.vars
def portableEntry : Option Nat → Nat
  | none => max32
  | some i => i
def portableCalls (m : Map) (s : Stack) : List Nat :=
  s.frames.flatMap (portableFrame m) ++ [link (offset m s.init) s.init]
def portable (m : Map) (s : Stack) : List Nat := portableCalls m s ++ (s.entry.map portableEntry).toList

/-- Every frame has room for the parameters of the function which is called in it; the innermost call's
function is not known and needs none. -/
def Room (m : Map) (g : Sigs) : Nat → List Frame → Prop
  | n, [] => n = 0
  | n, f :: fs => n ≤ f.vars.length ∧ ∃ k, g.params (m.funcOf (retAddr m f.site)) = some k ∧ Room m g k fs

/-- The stack fits the types of the program. -/
def Typed (m : Map) (g : Sigs) (s : Stack) : Prop :=
  Room m g 0 s.frames ∧ ∀ i, s.entry = some (some i) → g.entry i = some true

/-! ## Lemmas -/

theorem link_mod (o : Int) (i : Nat) (h : i < two32) : link o i % two32 = i := by
  unfold link two32 at *; omega

theorem linkOffset_link (o : Int) (i : Nat) (h : i < two32) (h1 : -2147483648 ≤ o) (h2 : o < 2147483648) : linkOffset (link o i) = o := by
  unfold link linkOffset two32 at *
  split <;> omega

theorem link_linkOffset (w : Nat) (h : w < two64) : link (linkOffset w) (w % two32) = w := by
  unfold link linkOffset two32 two64 at *
  split <;> omega

theorem site_get {m : Map} {i : Nat} {s : Site} (h : m.sites[i]? = some s) : retAddr m i = s.retAddr ∧ offset m i = s.stackOffset ∧ i < m.sites.length := by
  refine ⟨by simp [retAddr, h], by simp [offset, h], ?_⟩
  exact (List.getElem?_eq_some_iff.mp h).1

theorem site_some {m : Map} {i : Nat} (h : i < m.sites.length) : ∃ s, m.sites[i]? = some s ∧ retAddr m i = s.retAddr ∧ offset m i = s.stackOffset ∧ s ∈ m.sites := by
  have hs := List.getElem?_eq_getElem h
  refine ⟨m.sites[i], hs, by simp [retAddr, hs], by simp [offset, hs], List.getElem_mem h⟩

theorem findIdx_nodup {α β} [BEq β] [LawfulBEq β] (f : α → β) (l : List α) (h : (l.map f).Nodup) (i : Nat) (x : α) (hx : l[i]? = some x) :
    l.findIdx? (fun y => f y == f x) = some i := by
  induction l generalizing i with
  | nil => simp at hx
  | cons y l ih =>
    simp only [List.map_cons, List.nodup_cons] at h
    rw [List.findIdx?_cons]
    cases i with
    | zero => simp at hx; subst hx; simp
    | succ i =>
      simp at hx
      have hne : (f y == f x) = false := by
        rw [beq_eq_false_iff_ne]
        intro he
        exact h.1 (he ▸ List.mem_map_of_mem (List.mem_of_getElem? hx))
      rw [if_neg (by simp [hne]), ih h.2 i hx]
      rfl

theorem findCall_site {m : Map} (gm : GoodMap m) {i : Nat} (h : i < m.sites.length) :
    m.findCall (retAddr m i) = some ⟨m.isInit (retAddr m i), m.funcOf (retAddr m i), i, offset m i⟩ := by
  obtain ⟨s, h1, h2, h3, _⟩ := site_some h
  unfold Map.findCall
  rw [h2, findIdx_nodup (·.retAddr) m.sites gm.sitesDistinct i s h1]
  simp [h1, h3]

theorem findCall_inv {m : Map} {r : Nat} {c : Call} (h : m.findCall r = some c) :
    c.callIndex < m.sites.length ∧ retAddr m c.callIndex = r ∧ offset m c.callIndex = c.stackOffset ∧ c.init = m.isInit r ∧
      c.funcIndex = m.funcOf r := by
  unfold Map.findCall at h
  split at h
  · cases h
  · rename_i i hi
    rw [Option.map_eq_some_iff] at h
    obtain ⟨s, h1, rfl⟩ := h
    obtain ⟨h2, h3, h4⟩ := site_get h1
    have hp := (List.findIdx?_eq_some_iff_getElem.mp hi)
    obtain ⟨hlt, hp, _⟩ := hp
    rw [List.getElem?_eq_getElem hlt, Option.some.injEq] at h1
    rw [h1] at hp
    exact ⟨h4, by rw [h2]; simpa using hp, h3, rfl, rfl⟩

theorem findFunc_addr {m : Map} (gm : GoodMap m) {i : Nat} {a : Nat} (h : m.funcAddrs[i]? = some a) : m.findFunc a = some i := by
  have := findIdx_nodup (fun x => x) m.funcAddrs (by simpa using gm.funcsDistinct) i a h
  exact this

theorem findFunc_inv {m : Map} {a i : Nat} (h : m.findFunc a = some i) : m.funcAddrs[i]? = some a := by
  unfold Map.findFunc at h
  obtain ⟨hlt, hp, _⟩ := List.findIdx?_eq_some_iff_getElem.mp h
  rw [List.getElem?_eq_getElem hlt]
  simpa using hp

theorem unreloc (T r : Nat) (hT : T < two64) (hr : r ≤ max32) : ((T + r) % two64 + two64 - T) % two64 = r := by
  unfold two64 max32 at *; omega

theorem reloc (T w : Nat) (hT : T < two64) (hw : w < two64) : (T + (w + two64 - T) % two64) % two64 = w := by
  unfold two64 at *; omega

theorem frame_words {m : Map} {f : Frame} (h : FrameOk m f) : ((offset m f.site - 8) / 8).toNat = f.vars.length ∧ offset m f.site ≠ 0 ∧
    offset m f.site % 8 = 0 ∧ ¬ offset m f.site - 8 < 0 := by
  have := h.2.2; omega

/-! ## Export -/

theorem exportFrames_native (m : Map) (gm : GoodMap m) (T : Nat) (hT : T < two64) (fs : List Frame) (hf : ∀ f ∈ fs, FrameOk m f)
    (i : Nat) (hi : i < m.sites.length) (hini : m.isInit (retAddr m i) = true) (rest : List Nat) :
    exportFrames m T (fs.flatMap (nativeFrame m T) ++ [(T + retAddr m i) % two64] ++ rest) =
      .ok (fs.flatMap (portableFrame m) ++ [link (offset m i) i], rest, offset m i) := by
  have hr : ∀ j, j < m.sites.length → retAddr m j ≤ max32 := by
    intro j hj
    obtain ⟨s, _, h2, _, h4⟩ := site_some hj
    rw [h2]; exact gm.retAddr32 s h4
  induction fs with
  | nil =>
    simp only [List.flatMap_nil, List.nil_append, List.singleton_append]
    rw [exportFrames]
    rw [unreloc T _ hT (hr i hi), if_neg (by have := hr i hi; omega), findCall_site gm hi]
    simp [hini]
  | cons f fs ih =>
    have hfo := hf f (by simp)
    obtain ⟨w1, w2, w3, w4⟩ := frame_words hfo
    have ih := ih (fun x hx => hf x (by simp [hx]))
    simp only [List.flatMap_cons, nativeFrame, List.cons_append, List.append_assoc] at ih ⊢
    rw [exportFrames]
    rw [unreloc T _ hT (hr _ hfo.1), if_neg (by have := hr _ hfo.1; omega), findCall_site gm hfo.1]
    simp only [hfo.2.1, Bool.false_eq_true, if_false]
    rw [if_neg (by omega), w1, if_neg]
    · rw [List.drop_left, List.take_left]
      simp only [ih]
      simp [portableFrame]
    · simp only [List.length_append]; omega

/-- C35, completeness of export: the native representation of every stack is exported to its portable
one. -/
theorem export_native (m : Map) (gm : GoodMap m) (T : Nat) (hT : T < two64) (s : Stack) (hs : Ok m s) :
    exportStack m T (native m T s) = .ok (portable m s) := by
  obtain ⟨h1, ⟨h2, h3, h4⟩, h5⟩ := hs
  have hx := exportFrames_native m gm T hT s.frames h1 s.init h2 h3 (s.entry.map (nativeEntry m)).toList
  unfold exportStack native nativeCalls
  rw [if_neg (by simp only [List.length_append, List.length_singleton]; omega), hx]
  simp only
  rw [h4]
  rcases he : s.entry with _ | e
  · simp [portable, portableCalls, he]
    rw [h4, he]; simp
  · simp only [Option.isSome_some, if_true, Option.map_some, Option.toList_some, List.length_nil, ne_eq, not_true, if_false]
    simp only [portable, portableCalls, he, Option.map_some, Option.toList_some]
    rw [h4, he]
    simp only [Option.isSome_some, if_true]
    congr 3
    rcases e with _ | i
    · simp [exportEntry, nativeEntry, portableEntry]
    · have hi := h5 i he
      have hg := List.getElem?_eq_getElem hi
      have hm := gm.func32 _ (List.getElem_mem hi)
      simp only [nativeEntry, portableEntry, exportEntry, hg, Option.getD_some]
      rw [if_pos (by omega), Nat.mod_eq_of_lt (by unfold two32 max32 at *; omega), findFunc_addr gm hg]
      rfl

theorem exportFrames_sound (m : Map) (T : Nat) (hT : T < two64) (n : Nat) : ∀ (N : List Nat), N.length = n → (∀ w ∈ N, w < two64) →
    ∀ P R o, exportFrames m T N = .ok (P, R, o) →
      ∃ (fs : List Frame) (i : Nat), (∀ f ∈ fs, FrameOk m f) ∧ i < m.sites.length ∧ m.isInit (retAddr m i) = true ∧ offset m i = o ∧
        N = fs.flatMap (nativeFrame m T) ++ [(T + retAddr m i) % two64] ++ R ∧
        P = fs.flatMap (portableFrame m) ++ [link (offset m i) i] := by
  induction n using Nat.strongRecOn with
  | ind n ih =>
    intro N hn hw P R o h
    rw [exportFrames.eq_def] at h
    rcases N with _ | ⟨w, N⟩
    · cases h
    · simp only at h
      split at h
      · cases h
      · split at h
        · cases h
        · rename_i c hc
          obtain ⟨c1, c2, c3, c4, c5⟩ := findCall_inv hc
          have hword : (T + retAddr m c.callIndex) % two64 = w := by
            rw [c2]; exact reloc T w hT (hw w (by simp))
          split at h
          · rename_i hinit
            simp only [Res.ok.injEq, Prod.mk.injEq] at h
            obtain ⟨rfl, rfl, rfl⟩ := h
            refine ⟨[], c.callIndex, by simp, c1, by rw [c2, ← c4]; exact hinit, c3, by simp [hword], by simp [c3]⟩
          · rename_i hinit
            split at h
            · cases h
            · rename_i h8
              split at h
              · cases h
              · rename_i hk
                obtain ⟨k, hkd⟩ : ∃ k, k = ((c.stackOffset - 8) / 8).toNat := ⟨_, rfl⟩
                rw [← hkd] at h hk
                split at h
                · rename_i p rest o' hrec
                  simp only [Res.ok.injEq, Prod.mk.injEq] at h
                  obtain ⟨rfl, rfl, rfl⟩ := h
                  obtain ⟨fs, i, g1, g2, g3, g4, g5, g6⟩ := ih (N.drop k).length (by simp only [List.length_cons] at hn; rw [List.length_drop]; omega)
                    (N.drop k) rfl (fun x hx => hw x (by simp [List.mem_of_mem_drop hx])) p rest o' hrec
                  have hlen : (N.take k).length = k := by rw [List.length_take]; omega
                  refine ⟨⟨c.callIndex, N.take k⟩ :: fs, i, ?_, g2, g3, g4, ?_, ?_⟩
                  · intro f hf
                    rcases List.mem_cons.mp hf with rfl | hf
                    · refine ⟨c1, ?_, ?_⟩
                      · simp only [c2]; cases hb : m.isInit ((w + two64 - T) % two64)
                        · rfl
                        · rw [hb] at c4; exact absurd c4 hinit
                      · simp only [c3, hlen]; omega
                    · exact g1 f hf
                  · rw [List.flatMap_cons, List.append_assoc, List.append_assoc, ← List.append_assoc (fs.flatMap _), ← g5]
                    simp [nativeFrame, hword]
                  · rw [List.flatMap_cons, List.append_assoc, ← g6]
                    simp [portableFrame, c3]
                · cases h
                · cases h

/-- What export makes of an entry address: the function with the address, or none. -/
def entryOf (m : Map) (a : Nat) : Option Nat := if a ≠ 0 then m.findFunc (a % two32) else none

theorem exportEntry_eq (m : Map) (a : Nat) : exportEntry m a = portableEntry (entryOf m a) := by
  unfold exportEntry entryOf
  split
  · rcases m.findFunc (a % two32) with _ | i <;> rfl
  · rfl

/-- C35, soundness of export: a successful export is of a stack's native representation, and gives its
portable one; only an entry address at which there is no function is not kept. -/
theorem export_sound (m : Map) (T : Nat) (hT : T < two64) (N P : List Nat) (hw : ∀ w ∈ N, w < two64) (h : exportStack m T N = .ok P) :
    ∃ s, Ok m s ∧ P = portable m s ∧
      ((s.entry = none ∧ N = nativeCalls m T s) ∨ ∃ a, s.entry = some (entryOf m a) ∧ N = nativeCalls m T s ++ [a]) := by
  unfold exportStack at h
  split at h
  · cases h
  · split at h
    · cases h
    · cases h
    · rename_i p rest o hx
      obtain ⟨fs, i, g1, g2, g3, g4, g5, g6⟩ := exportFrames_sound m T hT N.length N rfl hw p rest o hx
      split at h
      · rename_i ho
        split at h
        · cases h
        · rename_i a rest
          split at h
          · cases h
          · rename_i hr
            simp only [ne_eq, Decidable.not_not, List.length_eq_zero_iff] at hr
            subst hr
            simp only [Res.ok.injEq] at h
            refine ⟨⟨fs, i, some (entryOf m a)⟩, ⟨g1, ⟨g2, g3, by rw [g4]; simp [ho]⟩, ?_⟩, ?_, .inr ⟨a, rfl, ?_⟩⟩
            · intro j hj
              simp only [Option.some.injEq] at hj
              unfold entryOf at hj
              split at hj
              · exact (List.getElem?_eq_some_iff.mp (findFunc_inv hj)).1
              · cases hj
            · rw [← h, g6, exportEntry_eq]
              simp [portable, portableCalls]
            · rw [g5]; simp [nativeCalls]
      · split at h
        · rename_i ho
          split at h
          · cases h
          · rename_i hr
            simp only [ne_eq, Decidable.not_not, List.length_eq_zero_iff] at hr
            subst hr
            simp only [Res.ok.injEq] at h
            refine ⟨⟨fs, i, none⟩, ⟨g1, ⟨g2, g3, by rw [g4]; simp [ho]⟩, by simp⟩, ?_, .inl ⟨rfl, ?_⟩⟩
            · rw [← h, g6]; simp [portable, portableCalls]
            · rw [g5]; simp [nativeCalls]
        · cases h

/-! ## Import -/

theorem importFrames_portable (m : Map) (g : Sigs) (gm : GoodMap m) (T : Nat) (fs : List Frame) (hf : ∀ f ∈ fs, FrameOk m f)
    (i : Nat) (hi : i < m.sites.length) (hini : m.isInit (retAddr m i) = true) (rest : List Nat) (mv : Nat) (hroom : Room m g mv fs) :
    importFrames m g T mv (fs.flatMap (portableFrame m) ++ [link (offset m i) i] ++ rest) =
      .ok (fs.flatMap (nativeFrame m T) ++ [(T + retAddr m i) % two64], rest, offset m i, 0) := by
  induction fs generalizing mv with
  | nil =>
    simp only [Room] at hroom
    subst hroom
    simp only [List.flatMap_nil, List.nil_append, List.singleton_append]
    obtain ⟨s, h1, h2, h3, h4⟩ := site_some hi
    have hlt : i < two32 := Nat.lt_of_lt_of_le hi gm.sites32
    have ho := gm.offset32 s h4
    rw [importFrames]
    rw [link_mod _ _ hlt, h1]
    simp only
    rw [h3, linkOffset_link _ _ hlt ho.1 ho.2, if_neg (by simp), ← h2, if_pos hini]
  | cons f fs ih =>
    have hfo := hf f (by simp)
    obtain ⟨w1, w2, w3, w4⟩ := frame_words hfo
    obtain ⟨hmv, k, hk, hrest⟩ := hroom
    have ih := ih (fun x hx => hf x (by simp [hx])) k hrest
    obtain ⟨s, h1, h2, h3, h4⟩ := site_some hfo.1
    have hlt : f.site < two32 := Nat.lt_of_lt_of_le hfo.1 gm.sites32
    have ho := gm.offset32 s h4
    simp only [List.flatMap_cons, portableFrame, List.cons_append, List.append_assoc] at ih ⊢
    rw [importFrames]
    rw [link_mod _ _ hlt, h1]
    simp only
    rw [h3] at w1 w2 w3 w4 ⊢
    have hoff := hfo.2.2
    rw [h3] at hoff
    rw [linkOffset_link _ _ hlt ho.1 ho.2, if_neg (by simp), ← h2, if_neg (by simp [hfo.2.1]), if_neg (by omega), if_neg (by omega), w1, if_neg,
      findCall_site gm hfo.1]
    · simp only [hfo.2.1, h3, hk]
      rw [if_neg (by simp), List.drop_left, List.take_left]
      simp only [ih]
      simp [nativeFrame]
    · simp only [List.length_append]; omega

/-- C35, completeness of import: the portable representation of every stack which fits the types of the
program is imported to its native one, at any text address. -/
theorem import_portable (m : Map) (g : Sigs) (gm : GoodMap m) (T : Nat) (s : Stack) (hs : Ok m s) (ht : Typed m g s) :
    importStack m g T (portable m s) = .ok (native m T s) := by
  obtain ⟨h1, ⟨h2, h3, h4⟩, h5⟩ := hs
  have hx := importFrames_portable m g gm T s.frames h1 s.init h2 h3 (s.entry.map portableEntry).toList 0 ht.1
  unfold importStack portable portableCalls
  rw [if_neg (by simp only [List.length_append, List.length_singleton]; omega), hx]
  simp only
  rw [if_neg (by omega), h4]
  rcases he : s.entry with _ | e
  · simp [native, nativeCalls, he]
  · simp only [Option.isSome_some, if_true, Option.map_some, Option.toList_some]
    have hent : importEntry m g (portableEntry e) = .ok (nativeEntry m e) := by
      rcases e with _ | i
      · simp [importEntry, portableEntry, nativeEntry]
      · have hi := h5 i he
        have hlt := gm.funcs32
        have hmod : i % two32 = i := Nat.mod_eq_of_lt (by unfold two32 max32 at *; omega)
        simp only [importEntry, portableEntry, nativeEntry, hmod]
        rw [if_pos (by omega), List.getElem?_eq_getElem hi, ht.2 i he]
        rfl
    simp only [hent, List.length_nil, ne_eq, not_true, if_false]
    simp [native, nativeCalls, he]

/-- C35: exporting a suspended stack and importing it with the same program restores the same native stack
exactly (and relocates it when the text address is another): all return addresses and values. -/
theorem export_import (m : Map) (g : Sigs) (gm : GoodMap m) (T T' : Nat) (hT : T < two64) (s : Stack) (hs : Ok m s) (ht : Typed m g s) :
    ∃ P, exportStack m T (native m T s) = .ok P ∧ importStack m g T P = .ok (native m T s) ∧ importStack m g T' P = .ok (native m T' s) :=
  ⟨_, export_native m gm T hT s hs, import_portable m g gm T s hs ht, import_portable m g gm T' s hs ht⟩

theorem importFrames_sound (m : Map) (g : Sigs) (T : Nat) (n : Nat) : ∀ (P : List Nat), P.length = n → (∀ w ∈ P, w < two64) →
    ∀ mv N R o v, importFrames m g T mv P = .ok (N, R, o, v) →
      ∃ (fs : List Frame) (i : Nat), (∀ f ∈ fs, FrameOk m f) ∧ i < m.sites.length ∧ m.isInit (retAddr m i) = true ∧ offset m i = o ∧ (v = 0 → Room m g mv fs) ∧
        P = fs.flatMap (portableFrame m) ++ [link (offset m i) i] ++ R ∧
        N = fs.flatMap (nativeFrame m T) ++ [(T + retAddr m i) % two64] := by
  induction n using Nat.strongRecOn with
  | ind n ih =>
    intro P hn hw mv N R o v h
    rw [importFrames.eq_def] at h
    rcases P with _ | ⟨pair, P⟩
    · cases h
    · simp only at h
      split at h
      · cases h
      · rename_i call hcall
        obtain ⟨s1, s2, s3⟩ := site_get hcall
        split at h
        · cases h
        · rename_i hoff
          simp only [ne_eq, Decidable.not_not] at hoff
          have hlink : link (offset m (pair % two32)) (pair % two32) = pair := by
            rw [s2, ← hoff]; exact link_linkOffset pair (hw pair (by simp))
          split at h
          · rename_i hinit
            simp only [Res.ok.injEq, Prod.mk.injEq] at h
            obtain ⟨rfl, rfl, rfl, rfl⟩ := h
            refine ⟨[], pair % two32, by simp, s3, by rw [s1]; exact hinit, s2, fun hv => hv, by simp [hlink], by simp [s1]⟩
          · rename_i hinit
            split at h
            · cases h
            · rename_i h8
              split at h
              · cases h
              · rename_i hmv
                split at h
                · cases h
                · rename_i hk
                  obtain ⟨k, hkd⟩ : ∃ k, k = ((call.stackOffset - 8) / 8).toNat := ⟨_, rfl⟩
                  rw [← hkd] at h hk
                  split at h
                  · cases h
                  · rename_i c hc
                    obtain ⟨c1, c2, c3, c4, c5⟩ := findCall_inv hc
                    split at h
                    · cases h
                    · split at h
                      · cases h
                      · rename_i kp hkp
                        split at h
                        · rename_i p rest o' v' hrec
                          simp only [Res.ok.injEq, Prod.mk.injEq] at h
                          obtain ⟨rfl, rfl, rfl, rfl⟩ := h
                          obtain ⟨fs, i, g1, g2, g3, g4, g5, g6, g7⟩ := ih (P.drop k).length
                            (by simp only [List.length_cons] at hn; rw [List.length_drop]; omega)
                            (P.drop k) rfl (fun x hx => hw x (by simp [List.mem_of_mem_drop hx])) kp p rest o' v' hrec
                          have hlen : (P.take k).length = k := by rw [List.length_take]; omega
                          have hlen0 : call.stackOffset = 8 * (k + 1) := by omega
                          refine ⟨⟨pair % two32, P.take k⟩ :: fs, i, ?_, g2, g3, g4, ?_, ?_, ?_⟩
                          · intro f hf
                            rcases List.mem_cons.mp hf with rfl | hf
                            · refine ⟨s3, ?_, ?_⟩
                              · simp only [s1]; simpa using hinit
                              · simp only [s2, hlen]; exact hlen0
                            · exact g1 f hf
                          · intro hv
                            refine ⟨by simp only [hlen]; omega, kp, ?_, g5 hv⟩
                            simp only [s1, ← c5]; exact hkp
                          · rw [List.flatMap_cons, List.append_assoc, List.append_assoc, ← List.append_assoc (fs.flatMap _), ← g6]
                            simp [portableFrame, hlink]
                          · rw [List.flatMap_cons, List.append_assoc, ← g7]
                            simp [nativeFrame, s1]
                        · cases h
                        · cases h

/-- C35, soundness of import: what is imported is the portable representation of a stack which fits the
program and its types (the upper half of the entry function's word is disregarded), and the result is its
native representation. -/
theorem import_sound (m : Map) (g : Sigs) (T : Nat) (P N : List Nat) (hw : ∀ w ∈ P, w < two64) (h : importStack m g T P = .ok N) :
    ∃ s, Ok m s ∧ Typed m g s ∧ N = native m T s ∧
      ((s.entry = none ∧ P = portableCalls m s) ∨ ∃ e w, s.entry = some e ∧ w % two32 = portableEntry e ∧ P = portableCalls m s ++ [w]) := by
  unfold importStack at h
  split at h
  · cases h
  · split at h
    · cases h
    · cases h
    · rename_i p rest o v hx
      obtain ⟨fs, i, g1, g2, g3, g4, g5, g6, g7⟩ := importFrames_sound m g T P.length P rfl hw 0 p rest o v hx
      split at h
      · cases h
      · rename_i hv
        have hv : v = 0 := by omega
        split at h
        · rename_i ho
          split at h
          · cases h
          · rename_i w rest
            split at h
            · cases h
            · cases h
            · rename_i a ha
              split at h
              · cases h
              · rename_i hr
                simp only [ne_eq, Decidable.not_not, List.length_eq_zero_iff] at hr
                subst hr
                simp only [Res.ok.injEq] at h
                have key : ∃ e, w % two32 = portableEntry e ∧ nativeEntry m e = a ∧ (∀ j, e = some j → j < m.funcAddrs.length ∧ g.entry j = some true) := by
                  unfold importEntry at ha
                  split at ha
                  · rename_i hne
                    split at ha
                    · cases ha
                    · rename_i a' ha'
                      split at ha
                      · cases ha
                      · cases ha
                      · rename_i hg
                        simp only [Res.ok.injEq] at ha
                        refine ⟨some (w % two32), rfl, by simp [nativeEntry, ha', ha], ?_⟩
                        intro j hj; simp only [Option.some.injEq] at hj; subst hj
                        exact ⟨(List.getElem?_eq_some_iff.mp ha').1, hg⟩
                  · rename_i hne
                    simp only [ne_eq, Decidable.not_not] at hne
                    simp only [Res.ok.injEq] at ha
                    exact ⟨none, hne, ha, by simp⟩
                obtain ⟨e, e1, e2, e3⟩ := key
                refine ⟨⟨fs, i, some e⟩, ⟨g1, ⟨g2, g3, by rw [g4]; simp [ho]⟩, ?_⟩, ⟨g5 hv, ?_⟩, ?_, .inr ⟨e, w, rfl, e1, ?_⟩⟩
                · intro j hj; exact (e3 j (Option.some.inj hj)).1
                · intro j hj; exact (e3 j (Option.some.inj hj)).2
                · rw [← h, g7]; simp [native, nativeCalls, e2]
                · rw [g6]; simp [portableCalls]
        · split at h
          · rename_i ho
            split at h
            · cases h
            · rename_i hr
              simp only [ne_eq, Decidable.not_not, List.length_eq_zero_iff] at hr
              subst hr
              simp only [Res.ok.injEq] at h
              refine ⟨⟨fs, i, none⟩, ⟨g1, ⟨g2, g3, by rw [g4]; simp [ho]⟩, by simp⟩, ⟨g5 hv, by simp⟩, ?_, .inl ⟨rfl, ?_⟩⟩
              · rw [← h, g7]; simp [native, nativeCalls]
              · rw [g6]; simp [portableCalls]
          · cases h

theorem importFrames_result (m : Map) (g : Sigs) (gm : GoodMap m) (T : Nat) (fs : List Frame) (hf : ∀ f ∈ fs, FrameOk m f)
    (i : Nat) (hi : i < m.sites.length) (hini : m.isInit (retAddr m i) = true) (rest : List Nat) (mv : Nat) (N R : List Nat) (o : Int) (v : Nat)
    (h : importFrames m g T mv (fs.flatMap (portableFrame m) ++ [link (offset m i) i] ++ rest) = .ok (N, R, o, v)) :
      N = fs.flatMap (nativeFrame m T) ++ [(T + retAddr m i) % two64] ∧ R = rest ∧ o = offset m i := by
  induction fs generalizing mv N with
  | nil =>
    simp only [List.flatMap_nil, List.nil_append, List.singleton_append] at h ⊢
    obtain ⟨s, h1, h2, h3, h4⟩ := site_some hi
    have hlt : i < two32 := Nat.lt_of_lt_of_le hi gm.sites32
    have ho := gm.offset32 s h4
    rw [importFrames] at h
    rw [link_mod _ _ hlt, h1] at h
    simp only at h
    rw [h3, linkOffset_link _ _ hlt ho.1 ho.2, if_neg (by simp), ← h2, if_pos hini] at h
    simp only [Res.ok.injEq, Prod.mk.injEq] at h
    obtain ⟨rfl, rfl, rfl, _⟩ := h
    exact ⟨rfl, rfl, h3.symm⟩
  | cons f fs ih =>
    have hfo := hf f (by simp)
    obtain ⟨w1, w2, w3, w4⟩ := frame_words hfo
    have ih := ih (fun x hx => hf x (by simp [hx]))
    obtain ⟨s, h1, h2, h3, h4⟩ := site_some hfo.1
    have hlt : f.site < two32 := Nat.lt_of_lt_of_le hfo.1 gm.sites32
    have ho := gm.offset32 s h4
    simp only [List.flatMap_cons, portableFrame, List.cons_append, List.append_assoc] at ih h ⊢
    rw [importFrames] at h
    rw [link_mod _ _ hlt, h1] at h
    simp only at h
    rw [h3] at w1 w2 w3 w4 h
    have hoff := hfo.2.2
    rw [h3] at hoff
    rw [linkOffset_link _ _ hlt ho.1 ho.2, if_neg (by simp), ← h2, if_neg (by simp [hfo.2.1]), if_neg (by omega), w1] at h
    split at h
    · cases h
    · rw [if_neg (by simp only [List.length_append]; omega), findCall_site gm hfo.1] at h
      simp only [hfo.2.1, h3] at h
      rw [if_neg (by simp), List.drop_left, List.take_left] at h
      split at h
      · cases h
      · rename_i k hk
        split at h
        · rename_i p r o' v' hrec
          simp only [Res.ok.injEq, Prod.mk.injEq] at h
          obtain ⟨rfl, rfl, rfl, rfl⟩ := h
          obtain ⟨g1, g2, g3⟩ := ih k p hrec
          refine ⟨?_, g2, g3⟩
          rw [g1]; simp [nativeFrame]
        · cases h
        · cases h

/-- C35 for arbitrary data: whatever is exported with success, and imported with success at the same address,
is the same data again.  The one exception: an entry function address at which there is no function (which
a running program does not have) is not kept. -/
theorem export_import_data (m : Map) (g : Sigs) (gm : GoodMap m) (T : Nat) (hT : T < two64) (N P N' : List Nat) (hw : ∀ w ∈ N, w < two64)
    (h : exportStack m T N = .ok P) (h' : importStack m g T P = .ok N') :
    N' = N ∨ ∃ calls a b, N = calls ++ [a] ∧ N' = calls ++ [b] ∧ a ≠ 0 ∧ a ∉ m.funcAddrs := by
  obtain ⟨s, hs, hP, hN⟩ := export_sound m T hT N P hw h
  have hi := hs.init
  unfold importStack at h'
  split at h'
  · cases h'
  · split at h'
    · cases h'
    · cases h'
    · rename_i p rest o v hx
      rw [hP] at hx
      unfold portable portableCalls at hx
      obtain ⟨r1, r2, r3⟩ := importFrames_result m g gm T s.frames hs.frames s.init hi.1 hi.2.1 _ 0 p rest o v hx
      rw [r3, hi.2.2] at h'
      split at h'
      · cases h'
      · rcases hN with ⟨he, hN⟩ | ⟨a, he, hN⟩
        · left
          rw [he] at r2 h'
          subst r2
          simp at h'
          rw [hN, ← h', r1]; rfl
        · rw [he] at r2 h'
          subst r2
          simp only [Option.isSome_some, if_true, Option.map_some, Option.toList_some, List.length_nil, ne_eq, not_true, if_false] at h'
          split at h'
          · cases h'
          · cases h'
          · rename_i b hb
            simp only [Res.ok.injEq] at h'
            have hN' : N' = nativeCalls m T s ++ [b] := by rw [← h', r1]; rfl
            by_cases hab : b = a
            · left; rw [hN', hN, hab]
            · right
              refine ⟨nativeCalls m T s, a, b, hN, hN', ?_, ?_⟩
              · intro h0; subst h0
                simp [entryOf, portableEntry, importEntry] at hb
                exact hab hb.symm
              · intro hmem
                obtain ⟨j, hj, hja⟩ := List.getElem_of_mem hmem
                have hg : m.funcAddrs[j]? = some a := by rw [List.getElem?_eq_getElem hj, hja]
                have hr := gm.func32 a hmem
                have hmod : a % two32 = a := Nat.mod_eq_of_lt (by unfold two32 max32 at *; omega)
                have hjm : j % two32 = j := Nat.mod_eq_of_lt (by have := gm.funcs32; unfold two32 max32 at *; omega)
                have he : entryOf m a = some j := by
                  unfold entryOf; rw [if_pos (by omega), hmod, findFunc_addr gm hg]
                rw [he] at hb
                simp only [portableEntry, importEntry, hjm, hg] at hb
                rw [if_pos (by have := gm.funcs32; omega)] at hb
                split at hb
                · cases hb
                · cases hb
                · simp only [Res.ok.injEq] at hb; exact hab hb.symm

/-- C35, the other way round: what has been imported is exported to the same portable data, the upper half of
the entry function's word excepted. -/
theorem import_export (m : Map) (g : Sigs) (gm : GoodMap m) (T : Nat) (hT : T < two64) (P N : List Nat) (hw : ∀ w ∈ P, w < two64)
    (h : importStack m g T P = .ok N) : ∃ P', exportStack m T N = .ok P' ∧
      (P' = P ∨ ∃ calls w, P = calls ++ [w] ∧ P' = calls ++ [w % two32]) := by
  obtain ⟨s, h1, h2, h3, h4⟩ := import_sound m g T P N hw h
  refine ⟨portable m s, ?_, ?_⟩
  · rw [h3]; exact export_native m gm T hT s h1
  · rcases h4 with ⟨he, hp⟩ | ⟨e, w, he, hwe, hp⟩
    · left; rw [hp]; simp [portable, he]
    · right; exact ⟨_, w, hp, by simp [portable, he, hwe]⟩

/-! A program with two functions at 32 and 64, a call site in the first, one in the second, and the two call
sites of the enter routine. -/

def exMap : Map := ⟨[⟨8, 8⟩, ⟨12, 0⟩, ⟨40, 24⟩, ⟨80, 8⟩], [32, 64], fun r => if r < 64 then 0 else 1⟩
def exSigs : Sigs := ⟨fun i => if i = 0 then some 0 else if i = 1 then some 2 else none, fun i => if i = 0 then some true else some false⟩
def exStack : Stack := ⟨[⟨3, []⟩, ⟨2, [7, 9]⟩], 0, some (some 0)⟩

theorem exMap_good : GoodMap exMap := by
  constructor <;> decide

theorem exStack_ok : Ok exMap exStack ∧ Typed exMap exSigs exStack := by
  refine ⟨⟨?_, by decide, ?_⟩, ⟨⟨by decide, 2, rfl, by decide, 0, rfl, rfl⟩, ?_⟩⟩
  · intro f hf
    simp [exStack] at hf
    rcases hf with rfl | rfl <;> exact ⟨by decide, by decide, by decide⟩
  · intro i hi; simp [exStack] at hi; subst hi; decide
  · intro i hi; simp [exStack] at hi; subst hi; rfl

example : ∃ P, exportStack exMap 4096 [4176, 4136, 7, 9, 4104, 32] = .ok P ∧ importStack exMap exSigs 4096 P = .ok [4176, 4136, 7, 9, 4104, 32] := by
  obtain ⟨P, h1, h2, _⟩ := export_import exMap exSigs exMap_good 4096 0 (by decide) exStack exStack_ok.1 exStack_ok.2
  exact ⟨P, h1, h2⟩

/-! ## Hostile stacks -/

/-- The data ends in the middle of a frame: a call site's frame, or the entry function's word, is missing. -/
inductive Truncated (m : Map) : List Nat → Prop
  | frame (pair : Nat) (buf : List Nat) (s : Site) (h : m.sites[pair % two32]? = some s)
      (ho : 8 * (buf.length + 1) < s.stackOffset) : Truncated m (pair :: buf)
  | entry (pair : Nat) (s : Site) (h : m.sites[pair % two32]? = some s) (ho : s.stackOffset = 8) : Truncated m [pair]
  | next (pair : Nat) (vars buf : List Nat) (h : Truncated m buf) : Truncated m (pair :: vars ++ buf)

theorem importFrames_panic (m : Map) (g : Sigs) (hg : ∀ r, g.params (m.funcOf r) ≠ none) (T : Nat) (n : Nat) : ∀ (P : List Nat), P.length = n → ∀ mv,
    importFrames m g T mv P = .panic → Truncated m P := by
  induction n using Nat.strongRecOn with
  | ind n ih =>
    intro P hn mv h
    rw [importFrames.eq_def] at h
    rcases P with _ | ⟨pair, P⟩
    · cases h
    · simp only at h
      split at h
      · cases h
      · rename_i call hcall
        split at h
        · cases h
        · split at h
          · cases h
          · split at h
            · cases h
            · split at h
              · cases h
              · rename_i h8 hmv
                split at h
                · rename_i hk
                  exact .frame pair P call hcall (by omega)
                · rename_i hk
                  obtain ⟨k, hkd⟩ : ∃ k, k = ((call.stackOffset - 8) / 8).toNat := ⟨_, rfl⟩
                  rw [← hkd] at h hk
                  split at h
                  · cases h
                  · rename_i c hc
                    split at h
                    · cases h
                    · split at h
                      · rename_i hp
                        rw [(findCall_inv hc).2.2.2.2] at hp
                        exact absurd hp (hg _)
                      · split at h
                        · cases h
                        · cases h
                        · rename_i hrec
                          have := ih (P.drop k).length (by simp only [List.length_cons] at hn; rw [List.length_drop]; omega) (P.drop k) rfl _ hrec
                          have h2 := Truncated.next pair (P.take k) (P.drop k) this
                          simpa using h2

theorem importFrames_last (m : Map) (g : Sigs) (T : Nat) (n : Nat) : ∀ (P : List Nat), P.length = n → ∀ mv N v,
    importFrames m g T mv P = .ok (N, [], 8, v) → Truncated m P := by
  induction n using Nat.strongRecOn with
  | ind n ih =>
    intro P hn mv N v h
    rw [importFrames.eq_def] at h
    rcases P with _ | ⟨pair, P⟩
    · cases h
    · simp only at h
      split at h
      · cases h
      · rename_i call hcall
        split at h
        · cases h
        · split at h
          · simp only [Res.ok.injEq, Prod.mk.injEq] at h
            obtain ⟨_, rfl, h8, _⟩ := h
            exact .entry pair call hcall h8
          · split at h
            · cases h
            · split at h
              · cases h
              · split at h
                · cases h
                · split at h
                  · cases h
                  · split at h
                    · cases h
                    · split at h
                      · cases h
                      · obtain ⟨k, hkd⟩ : ∃ k, k = ((call.stackOffset - 8) / 8).toNat := ⟨_, rfl⟩
                        rw [← hkd] at h
                        split at h
                        · rename_i p rest o' v' hrec
                          simp only [Res.ok.injEq, Prod.mk.injEq] at h
                          obtain ⟨_, rfl, rfl, _⟩ := h
                          have := ih (P.drop k).length (by simp only [List.length_cons] at hn; rw [List.length_drop]; omega) (P.drop k) rfl _ _ _ hrec
                          have h2 := Truncated.next pair (P.take k) (P.drop k) this
                          simpa using h2
                        · cases h
                        · cases h

/-- C36 for all data which does not end in the middle of a frame: import returns success or an error.  (The
function types cover all functions, as in any module.) -/
theorem import_no_crash_partial (m : Map) (g : Sigs) (hg : ∀ r, g.params (m.funcOf r) ≠ none) (he : ∀ i, i < m.funcAddrs.length → g.entry i ≠ none)
    (T : Nat) (P : List Nat) (hp : ¬ Truncated m P) : importStack m g T P ≠ .panic := by
  intro h
  apply hp
  unfold importStack at h
  split at h
  · cases h
  · split at h
    · cases h
    · rename_i hx; exact importFrames_panic m g hg T P.length P rfl 0 hx
    · rename_i p rest o v hx
      split at h
      · cases h
      · split at h
        · rename_i ho
          split at h
          · rw [ho] at hx; exact importFrames_last m g T P.length P rfl 0 p v hx
          · split at h
            · cases h
            · rename_i hi
              exfalso
              unfold importEntry at hi
              split at hi
              · split at hi
                · cases hi
                · rename_i a ha
                  split at hi
                  · rename_i hn; exact he _ (List.getElem?_eq_some_iff.mp ha).1 hn
                  · cases hi
                  · cases hi
              · cases hi
            · split at h <;> cases h
        · split at h
          · split at h <;> cases h
          · cases h

/-- Refutes C36: stack data of 8 bytes crashes the import, by naming a call site with a larger frame, or the
call site which precedes the entry function's word. -/
theorem import_crashes (T : Nat) :
    importStack exMap exSigs T [link 24 2] = .panic ∧ importStack exMap exSigs T [link 8 0] = .panic := by
  constructor
  · rw [importStack, importFrames]; rfl
  · rw [importStack, importFrames]; rfl

/-- The same on the way out: exporting a native stack which ends in the middle of a frame crashes. -/
theorem export_crashes : exportStack exMap 4096 [4136] = .panic ∧ exportStack exMap 4096 [4104] = .panic := by
  constructor
  · rw [exportStack, exportFrames]; rfl
  · rw [exportStack, exportFrames]; rfl

/-! ## The stack of an instance which has not started -/

/-- A call stack with no initial call is never accepted. -/
theorem importFrames_noInit (m : Map) (g : Sigs) (T : Nat) (hn : ∀ (i : Nat) (s : Site), m.sites[i]? = some s → m.isInit s.retAddr = false) :
    ∀ (k : Nat) (buf : List Nat), buf.length = k → ∀ v x, importFrames m g T v buf ≠ .ok x := by
  intro k
  induction k using Nat.strongRecOn with
  | ind k ih =>
    intro buf hb v x h
    rw [importFrames.eq_def] at h
    split at h
    · cases h
    · rename_i pair buf
      split at h
      · cases h
      · rename_i call hc
        split at h
        · cases h
        · simp only at h
          rw [if_neg (by rw [hn _ _ hc]; simp)] at h
          split at h
          · cases h
          · split at h
            · cases h
            · split at h
              · cases h
              · split at h
                · cases h
                · split at h
                  · cases h
                  · split at h
                    · cases h
                    · split at h
                      · rename_i hx
                        refine ih _ ?_ _ rfl _ _ hx
                        simp only [List.length_cons, List.length_drop] at hb ⊢
                        omega
                      · cases h
                      · cases h

/-- Refutes C37: the initial stack is not accepted by import, whatever the program, its start function and
its entry function.  (Call sites are in the order of their addresses, so that the enter routine's are
first.) -/
theorem initial_stack_never_imported (m : Map) (g : Sigs) (T : Nat) (start entry : Option Nat)
    (hs : m.sites.Pairwise (fun a b => a.retAddr < b.retAddr)) (N : List Nat) : importStack m g T (putInitStack start entry) ≠ .ok N := by
  intro h
  unfold importStack putInitStack at h
  rw [if_neg (by simp)] at h
  have h0 := h
  rw [importFrames.eq_def] at h
  have hl : link 16 0 % two32 = 0 := by decide
  have ho : linkOffset (link 16 0) = 16 := by decide
  simp only [hl, ho] at h
  rcases hc : m.sites[0]? with _ | call
  · rw [hc] at h; cases h
  · rw [hc] at h
    simp only at h
    by_cases h16 : (16 : Int) ≠ call.stackOffset
    · rw [if_pos h16] at h; cases h
    · rw [if_neg h16] at h
      simp only [ne_eq, Decidable.not_not] at h16
      by_cases hin : m.isInit call.retAddr = true
      · rw [if_pos hin] at h
        simp [← h16] at h
      · have notInit : ∀ (i : Nat) (s : Site), m.sites[i]? = some s → m.isInit s.retAddr = false := by
          intro i s hi
          have hle : call.retAddr ≤ s.retAddr := by
            rcases i with _ | i
            · rw [hc] at hi; cases hi; omega
            · obtain ⟨h0, e0⟩ := List.getElem?_eq_some_iff.mp hc
              obtain ⟨h1, e1⟩ := List.getElem?_eq_some_iff.mp hi
              have := List.pairwise_iff_getElem.mp hs 0 (i + 1) h0 h1 (by omega)
              rw [e0, e1] at this; omega
          unfold Map.isInit at hin ⊢
          split at hin
          · simp at hin
          · rename_i a l hl
            simp only [decide_eq_true_eq] at hin
            simp only [decide_eq_false_iff_not]; omega
        split at h0
        · cases h0
        · cases h0
        · rename_i hx; exact importFrames_noInit m g T notInit _ _ rfl _ _ hx

end Gate.CallStack
