import Verif.ProgFileProps
/-
Theorems about program files (C156): what has been put into a program comes back from its file, also over snapshots, storing and
loading.
-/
namespace Gate.ProgFile
open Gate Gate.ImageFile

attribute [local irreducible] moduleOffset globalsOffset manifestOffset sitesOffset

/-- A program with an object map, a text and a module: built by any sequence of calls, or a snapshot of such. -/
inductive Made (ps : Nat) : Program → CallMap → (text module : Bytes) → Prop
  | built (c : Cfg) (ls : List Label) (s : B) (p : Program) (hc : c.ps = ps) (hps : 0 < ps) (hmt : c.maxText ≤ globalsOffset)
      (hg : ∀ l ∈ ls, Good c l) (hu : ∀ l ∈ ls, Unfailing l) (hr : run c new ls = some s) (hf : finishProgram c s = some p)
      /- Sizes are below 4 GiB, and all of the module has been written. -/
      (ht : (puts ls).text.length < two32) (hs : sitesSize c.map < two32) (hfu : funcsSize c.map < two32)
      (hm : (puts ls).module.length = c.moduleSize) :
      Made ps p c.map (puts ls).text (puts ls).module
  | snapped {p : Program} {m : CallMap} {text module : Bytes} (h : Made ps p m text module) (x : Snapped)
      (h1 : alignPage ps text.length + x.stackMap ≤ globalsOffset) (h2 : x.dataLen ≤ moduleOffset - globalsOffset)
      (h3 : align8 x.module.length + (sitesSize m + funcsSize m) ≤ manifestOffset - moduleOffset) :
      Made ps (snapshot ps p x) m text x.module

/-- What a program's file has. -/
structure Has (ps : Nat) (p : Program) (m : CallMap) (text module : Bytes) : Prop where
  ps : 0 < ps
  map : p.map = m
  sites : p.sitesSize = sitesSize m
  funcs : p.funcsSize = funcsSize m
  textSize : p.textSize = text.length
  moduleSize : p.moduleSize = module.length
  textAt : ∀ i, i < text.length → p.file i = text.getD i 0
  textMax : text.length ≤ globalsOffset
  moduleAt : ∀ i, i < module.length → p.file (moduleOffset + i) = module.getD i 0
  bytes : ∀ i, i < (mapBytes m).length → p.file (sitesOffset module.length + i) = (mapBytes m).getD i 0
  fits : align8 module.length + (sitesSize m + funcsSize m) ≤ manifestOffset - moduleOffset

theorem finished {c : Cfg} {s : B} {p : Program} (hf : finishProgram c s = some p) : ∃ n, s.fin = some n ∧
    p = {
      file := if c.inst then
          copyRange s.inst (mapOffset c n) s.prog (globalsOffset - stackMap c n) (stackMap c n + alignPage c.ps n.dataLen)
        else s.prog
      textSize := s.textLen % two32
      moduleSize := c.moduleSize
      sitesSize := sitesSize c.map % two32
      funcsSize := funcsSize c.map % two32
      map := c.map } := by
  unfold finishProgram at hf
  cases hn : s.fin with
  | none => rw [hn] at hf; cases hf
  | some n => rw [hn] at hf; exact ⟨n, rfl, (Option.some.inj hf).symm⟩

/-- The data buffer's pages are within the pages of the globals and the memory. -/
theorem dataLen_pages (c : Cfg) (hps : 0 < c.ps) (n : Fin) (h : n.dataLen ≤ dataCap c n) : alignPage c.ps n.dataLen ≤ dataCap c n := by
  have h1 := alignPage_mono c.ps h
  have h2 : alignPage c.ps (dataCap c n) = dataCap c n := by
    unfold dataCap alignPage
    rw [← Nat.add_mul]
    generalize (n.globals + (c.ps - 1)) / c.ps + (n.memory + (c.ps - 1)) / c.ps = k
    rw [Nat.mul_comm k, Nat.mul_add_div hps, Nat.div_eq_of_lt (a := c.ps - 1) (by omega), Nat.add_zero, Nat.mul_comm]
  omega

/-- What's outside of the state is as it was built. -/
theorem finish_outside {c : Cfg} {g : Put} {s : B} {p : Program} (hps : 0 < c.ps) (o : Ok c g s) (hf : finishProgram c s = some p)
    (i : Nat) (h : i < c.maxText ∨ moduleOffset ≤ i) : p.file i = s.prog i := by
  have e1 := e_mod; have e2 := e_glob
  obtain ⟨n, hn, rfl⟩ := finished hf
  obtain ⟨q1, q2, q3⟩ := o.fits n hn
  have q4 := q1.text
  have q5 := q1.state
  have q6 := dataLen_pages c hps n q2
  simp only [dataCap] at q6
  have hsm : stackMap c n = alignPage c.ps n.usage := rfl
  simp only
  split
  · simp only [copyRange]
    rw [if_neg (by omega)]
  · rfl

theorem has (ps : Nat) (p : Program) (m : CallMap) (text module : Bytes) (h : Made ps p m text module) : Has ps p m text module := by
  have e1 := e_mod; have e2 := e_glob; have e3 := e_man
  induction h with
  | built c ls s p hc hps hmt hg hu hr hf ht hs hfu hm =>
    subst hc
    have o := ok_run c hps hmt ls (ok_new c) hg hr
    have hmap := hasMap_run c hps hmt ls (ok_new c) (fun hx => by cases hx) hg hu hr
    obtain ⟨n, hn, hp⟩ := finished hf
    obtain ⟨q1, q2, q3⟩ := o.fits n hn
    have out := finish_outside hps o hf
    have e4 := e_sites c.moduleSize
    have o1 : s.textLen = (puts ls).text.length := o.textLen
    have o2 := o.textMax
    refine ⟨hps, by rw [hp], ?_, ?_, ?_, by rw [hp]; exact hm.symm, ?_, by omega, ?_, ?_, by rw [hm]; exact q1.map⟩
    · rw [hp]; exact Nat.mod_eq_of_lt hs
    · rw [hp]; exact Nat.mod_eq_of_lt hfu
    · rw [hp]; show s.textLen % two32 = _
      rw [o1]; exact Nat.mod_eq_of_lt ht
    · intro i hi
      rw [out i (Or.inl (by omega))]; exact o.text i (by omega)
    · intro i hi
      rw [out _ (Or.inr (by omega))]; exact o.module i (by omega)
    · intro i hi
      rw [hm, out _ (Or.inr (by omega))]; exact hmap (by simp [hn]) i hi
  | @snapped p m text module h x h1 h2 h3 ih =>
    have a1 := alignPage_ge ps text.length ih.ps
    have a2 := align8_ge x.module.length
    have a3 := align8_ge module.length
    have s1 := e_sites x.module.length
    have s2 := e_sites module.length
    have b1 : align8 (moduleOffset + module.length) = sitesOffset module.length := by
      rw [s2, e1]; unfold align8; omega
    have b2 : align8 (moduleOffset + x.module.length) = sitesOffset x.module.length := by
      rw [s1, e1]; unfold align8; omega
    have ml := mapBytes_length m
    have ts := ih.textSize
    have ms := ih.moduleSize
    have ss := ih.sites
    have fs := ih.funcs
    have t0 : textOffset = 0 := rfl
    refine ⟨ih.ps, ih.map, ih.sites, ih.funcs, ih.textSize, rfl, ?_, ih.textMax, ?_, ?_, h3⟩
    · intro i hi
      simp only [snapshot, copyRange, ts]
      rw [if_neg (by omega), if_neg (by omega), if_pos (by omega)]
      have : textOffset + (i - textOffset) = i := by simp
      rw [this]; exact ih.textAt i hi
    · intro i hi
      simp only [snapshot, copyRange, ts, ms, b1, b2, ss, fs, write]
      rw [if_neg (by omega), if_neg (by omega), if_neg (by omega), if_neg (by omega), if_pos (by omega)]
      congr 1; omega
    · intro i hi
      simp only [snapshot, copyRange, ts, ms, b1, b2, ss, fs, write]
      rw [if_neg (by omega), if_neg (by omega), if_neg (by omega), if_pos (by omega)]
      have : sitesOffset x.module.length + i - sitesOffset x.module.length = i := by omega
      rw [this]; exact ih.bytes i hi

/-- C156: whatever calls a program is built by, in whatever order its text and module are written and pieces of them, and
however many times it is snapshotted with whatever module and state: after it's stored and loaded, its object map, its text and its
module are the original ones. -/
theorem survives (ps : Nat) (p : Program) (m : CallMap) (text module : Bytes) (h : Made ps p m text module)
    (hs : ∀ s ∈ m.sites, s.1 < 2 ^ 32 ∧ s.2 < 2 ^ 32) (hf : ∀ a ∈ m.funcs, a < 2 ^ 32) (man : Bytes) :
    load (store p man) p.textSize p.moduleSize p.sitesSize p.funcsSize =
        { file := store p man, textSize := text.length, moduleSize := module.length, sitesSize := sitesSize m
          funcsSize := funcsSize m, map := m } ∧
      textOf (load (store p man) p.textSize p.moduleSize p.sitesSize p.funcsSize) = text ∧
      moduleOf (load (store p man) p.textSize p.moduleSize p.sitesSize p.funcsSize) = module ∧
      p.map = m ∧ textOf p = text ∧ moduleOf p = module := by
  have e1 := e_mod; have e2 := e_glob; have e3 := e_man
  have H := has ps p m text module h
  have s2 := e_sites module.length
  have a3 := align8_ge module.length
  have ml := mapBytes_length m
  have l1 := sitesBytes_length m
  have l2 := funcsBytes_length m
  have hst : ∀ i, i < manifestOffset → store p man i = p.file i := by
    intro i hi; simp only [store, write]; rw [if_neg (by omega)]
  have hfit := H.fits
  have htm := H.textMax
  have r1 : read (store p man) (sitesOffset module.length) (sitesSize m / 8 * 8) = sitesBytes m := by
    have : sitesSize m / 8 * 8 = (sitesBytes m).length := by rw [l1]; unfold sitesSize; omega
    rw [this]
    apply read_eq
    intro i hi
    rw [hst _ (by omega), H.bytes i (by omega), mapBytes, getD_append, if_pos hi]
  have r2 : read (store p man) (sitesOffset module.length + sitesSize m) (funcsSize m / 4 * 4) = funcsBytes m := by
    have : funcsSize m / 4 * 4 = (funcsBytes m).length := by rw [l2]; unfold funcsSize; omega
    rw [this]
    apply read_eq
    intro i hi
    rw [hst _ (by omega), Nat.add_assoc, H.bytes _ (by omega), mapBytes, getD_append, if_neg (by omega)]
    congr 1; omega
  have hmap : (⟨pairs (words (sitesBytes m)), words (funcsBytes m)⟩ : CallMap) = m := by
    unfold sitesBytes funcsBytes
    rw [pairs_sites _ hs, words_funcs _ hf]
  have hload : load (store p man) p.textSize p.moduleSize p.sitesSize p.funcsSize =
        { file := store p man, textSize := text.length, moduleSize := module.length, sitesSize := sitesSize m
          funcsSize := funcsSize m, map := m } := by
    unfold load
    rw [H.moduleSize, H.sites, H.funcs, H.textSize]
    simp only
    rw [r1, r2, hmap]
  refine ⟨hload, ?_, ?_, H.map, ?_, ?_⟩
  · rw [hload]
    refine read_eq _ _ _ fun i hi => ?_
    rw [Nat.zero_add]; show store p man i = _
    rw [hst _ (by omega)]; exact H.textAt i hi
  · rw [hload]
    refine read_eq _ _ _ fun i hi => ?_
    show store p man _ = _
    rw [hst _ (by omega)]; exact H.moduleAt i hi
  · unfold textOf; rw [H.textSize]
    refine read_eq _ _ _ fun i hi => ?_
    rw [Nat.zero_add]; exact H.textAt i hi
  · unfold moduleOf; rw [H.moduleSize]
    exact read_eq _ _ _ fun i hi => H.moduleAt i hi

/-- C156: the stack, globals and memory of a built program are those which were written to the build, whether or not an instance is
built with it and whatever is written to the text, the module and the object map (even if writing the object map fails). -/
theorem state_survives (c : Cfg) (ls : List Label) (s : B) (p : Program) (hps : 0 < c.ps) (hmt : c.maxText ≤ globalsOffset)
    (hg : ∀ l ∈ ls, Good c l) (hr : run c new ls = some s) (hf : finishProgram c s = some p) (man : Bytes) :
    ∃ n, s.fin = some n ∧ ∀ i, i < alignPage c.ps n.usage + n.dataLen →
      store p man (globalsOffset - alignPage c.ps n.usage + i) = (puts ls).state i := by
  have e1 := e_mod; have e2 := e_glob; have e3 := e_man
  have o := ok_run c hps hmt ls (ok_new c) hg hr
  obtain ⟨n, hn, hp⟩ := finished hf
  obtain ⟨q1, q2, q3⟩ := o.fits n hn
  have q4 := q1.text
  have q5 := q1.state
  have q7 := alignPage_ge c.ps n.dataLen hps
  have hsm : stackMap c n = alignPage c.ps n.usage := rfl
  refine ⟨n, hn, fun i hi => ?_⟩
  have q8 := o.state n hn i (by simp only [stackMap]; omega)
  simp only [dataCap] at q2
  simp only [store, write]
  rw [if_neg (by omega), hp]
  simp only
  by_cases hci : c.inst
  · simp only [hci, if_true, copyRange, ← hsm] at q8 ⊢
    rw [if_pos (by omega)]
    have : mapOffset c n + (globalsOffset - stackMap c n + i - (globalsOffset - stackMap c n)) = mapOffset c n + i := by
      omega
    rw [this]; exact q8
  · simp only [hci, if_false, Bool.false_eq_true] at q8 ⊢
    simp only [mapOffset, hci, if_false, Bool.false_eq_true, stackMap] at q8
    exact q8

/-- C156: a stored snapshot has the instance's stack, globals and memory. -/
theorem snapshot_state (ps : Nat) (p : Program) (x : Snapped) (man : Bytes) (h1 : x.stackMap ≤ globalsOffset) (h2 : x.stackMap ≤ x.instGlobals)
    (h3 : x.dataLen ≤ moduleOffset - globalsOffset) (i : Nat) (hi : i < x.stackMap + x.dataLen) :
    store (snapshot ps p x) man (globalsOffset - x.stackMap + i) = x.inst (x.instGlobals - x.stackMap + i) := by
  have e1 := e_mod; have e2 := e_glob; have e3 := e_man
  simp only [store, ImageFile.write]
  rw [if_neg (by omega)]
  simp only [snapshot, ImageFile.copyRange]
  by_cases hs : i < x.stackMap
  · rw [if_neg (by omega), if_pos (by omega)]
    congr 1; omega
  · rw [if_pos (by omega)]
    congr 1; omega

/-- C156: FinishText never panics, and it doesn't wait forever unless the kernel stops answering: the object map is
written by copying into the module's last page if it fits there. -/
theorem finish_no_panic (c : Cfg) (hps : 0 < c.ps) (f : File) (rs : List Files.Resp) (h : putMap c f rs = none) :
    ∃ log, Files.writeVecAt (sitesBytes c.map) (funcsBytes c.map) (sitesOffset c.moduleSize) 0 rs = .waiting log := by
  unfold putMap putMapAt at h
  split at h
  · next hf => rw [copyObjectMapTo_eq _ _ _ _ (room_ok c hps hf)] at h; cases h
  · unfold writeObjectMapAt at h
    have hp := (Files.vector_write_prefix (sitesBytes c.map) (funcsBytes c.map) (sitesOffset c.moduleSize) 0 rs).1
    generalize Files.writeVecAt (sitesBytes c.map) (funcsBytes c.map) (sitesOffset c.moduleSize) 0 rs = r at *
    cases r with
    | waiting log => exact ⟨log, rfl⟩
    | panic => exact absurd rfl hp
    | _ => cases h

end Gate.ProgFile

namespace Gate.ProgFile
open Gate Gate.ImageFile

/-! ### Examples and refutations -/

def exMap : CallMap := ⟨[(16, 8), (0x12345, 24)], [0, 16, 4000000000]⟩

def exCfg : Cfg := ⟨4096, 9, 100, exMap, true⟩

def exLabels : List Label :=
  [.mod [1, 2, 3, 4, 5], .text [0x90, 0xc3], .finish 65536 24 8 65536 [.again, .wrote 3, .wrote 1000], .resize 4110,
   .poke 4072 [9, 9], .mod [6, 7, 8, 9], .poke 4096 [5]]

def exProg : Option Program := (run exCfg new exLabels).bind (finishProgram exCfg)

/-- The example program is made, its map is copied to the module's page, and it can be stored and loaded. -/
example : (exProg.map fun p => (load (store p [1]) p.textSize p.moduleSize p.sitesSize p.funcsSize).map) = some exMap := by decide +kernel

example : (exProg.map moduleOf) = some [1, 2, 3, 4, 5, 6, 7, 8, 9] := by decide +kernel

/-- The example, also when it's snapshotted twice, meets the hypotheses of `survives`. -/
example : ∃ p, Made 4096 p exMap [0x90, 0xc3] [4, 4] := by
  obtain ⟨s, hs⟩ := Option.isSome_iff_exists.1 (by decide +kernel : (run exCfg new exLabels).isSome)
  obtain ⟨p, hp⟩ := Option.isSome_iff_exists.1 (by decide +kernel : exProg.isSome)
  have hp' : finishProgram exCfg s = some p := by simpa [exProg, hs] using hp
  have h : Made 4096 p exMap [0x90, 0xc3] [1, 2, 3, 4, 5, 6, 7, 8, 9] :=
    Made.built exCfg exLabels s p rfl (by decide) (by decide)
      (by
        intro l hl
        simp only [exLabels, List.mem_cons, List.not_mem_nil, or_false] at hl
        rcases hl with rfl | rfl | rfl | rfl | rfl | rfl | rfl <;> first | exact True.intro | (constructor <;> decide))
      (by
        intro l hl
        simp only [exLabels, List.mem_cons, List.not_mem_nil, or_false] at hl
        rcases hl with rfl | rfl | rfl | rfl | rfl | rfl | rfl <;> first | exact True.intro | skip
        intro r hr
        simp only [List.mem_cons, List.not_mem_nil, or_false] at hr
        rcases hr with rfl | rfl | rfl <;> refine ⟨by decide, fun e => by simp⟩)
      hs hp' (by decide) (by decide) (by decide) (by decide)
  exact ⟨_, (h.snapped ⟨List.replicate 20000 3, 4096, 70000, blank, 65536⟩ (by decide) (by decide)
    (by rw [List.length_replicate]; decide)).snapped ⟨[4, 4], 0, 4096, blank, 65536⟩ (by decide) (by decide) (by decide)⟩

/-- A module of a whole page: the map is written with system calls. -/
def exCfg2 : Cfg := ⟨4096, 4096, 100, ⟨[], [16]⟩, false⟩

def labels2 (rs : List Files.Resp) : List Label := [.mod (List.replicate 4096 1), .finish 65536 0 0 0 rs]

def prog2 (rs : List Files.Resp) : Option Program := (run exCfg2 new (labels2 rs)).bind (finishProgram exCfg2)

example : ((prog2 [.wrote 4]).map fun p => (load (store p [1]) p.textSize p.moduleSize p.sitesSize p.funcsSize).map) = some ⟨[], [16]⟩ := by
  decide +kernel

/-- C156 isn't unconditional: if writing of the object map fails (for instance for lack of space), building succeeds all the same.
The program is stored, and when it's loaded its functions and call sites are at wrong addresses. -/
theorem map_lost_refuted :
    ((prog2 [.fail 28]).map fun p => (p.map, (load (store p [1]) p.textSize p.moduleSize p.sitesSize p.funcsSize).map)) =
      some (⟨[], [16]⟩, ⟨[], [0]⟩) := by
  decide +kernel

/-- A program with globals and 4 GiB of memory. -/
def exCfg3 : Cfg := ⟨4096, 1, 100, ⟨[], [16]⟩, false⟩

def prog3 : Option Program :=
  (run exCfg3 new [.mod [1], .finish 65536 0 8 4294967296 [], .resize (4096 + 4294967296), .poke 4294967296 [7]]).bind
    (finishProgram exCfg3)

/-- C156's limits are needed: initial data in the last page of a memory of 4 GiB overwrites the beginning of the module. (The
server's and the account's memory limits are lower by default.) -/
theorem module_overwritten_refuted : prog3.map moduleOf = some [7] := by decide +kernel

end Gate.ProgFile
