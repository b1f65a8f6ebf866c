import Verif.Loader
import Verif.ProcessProps
import Verif.ImageFileProps
import Verif.Auth

namespace Gate.Loader
open Gate ImageFile Process Auth

/-! ### C144: the information arrives -/

/-- The fields are in the ranges of their types. -/
structure Info.Wf (i : Info) : Prop where
  pageSize : i.pageSize < 2 ^ 32
  textAddr : i.textAddr < 2 ^ 64
  stackAddr : i.stackAddr < 2 ^ 64
  heapAddr : i.heapAddr < 2 ^ 64
  random : i.random.length = 16
  textSize : i.textSize < 2 ^ 32
  stackSize : i.stackSize < 2 ^ 32
  stackUnused : i.stackUnused < 2 ^ 32
  globalsSize : i.globalsSize < 2 ^ 32
  initMemorySize : i.initMemorySize < 2 ^ 32
  growMemorySize : i.growMemorySize < 2 ^ 32
  initRoutine : i.initRoutine < 2 ^ 32
  startAddr : i.startAddr < 2 ^ 32
  entryAddr : i.entryAddr < 2 ^ 32
  timeMask : i.timeMask < 2 ^ 32
  monotonicTime : i.monotonicTime < 2 ^ 64

theorem unle4 (n : Nat) (h : n < 2 ^ 32) : unle (le 4 n) = n := unle_le_of_lt (by omega)
theorem unle8 (n : Nat) (h : n < 2 ^ 64) : unle (le 8 n) = n := unle_le_of_lt (by omega)

/-- A part of a concatenation. -/
theorem part_of_flatten : ∀ (parts : List Bytes) (k : Nat),
    (parts.flatten.drop (((parts.map List.length).take k).foldr (fun a b => a + b) 0)).take ((parts.map List.length).getD k 0) = parts.getD k []
  | [], k => by simp
  | p :: rest, 0 => by simp
  | p :: rest, k + 1 => by
    have ih := part_of_flatten rest k
    simp only [List.map_cons, List.take_succ_cons, List.foldr_cons, List.flatten_cons, List.getD_cons_succ]
    rw [← List.drop_drop, List.drop_left]
    exact ih

/-- The fields as they are sent. -/
def parts (i : Info) : List Bytes :=
  [le 4 magic1, le 4 i.pageSize, le 8 i.textAddr, le 8 i.stackAddr, le 8 i.heapAddr, i.random, le 4 i.textSize, le 4 i.stackSize, le 4 i.stackUnused,
   le 4 i.globalsSize, le 4 i.initMemorySize, le 4 i.growMemorySize, le 4 i.initRoutine, le 4 i.startAddr, le 4 i.entryAddr, le 4 i.timeMask,
   le 8 i.monotonicTime, le 8 magic2]

theorem encode_parts (i : Info) : encode i = (parts i).flatten := by
  simp only [encode, parts, List.flatten_cons, List.flatten_nil, List.append_nil, List.append_assoc]

theorem parts_length (i : Info) (h : i.random.length = 16) : (parts i).map List.length = members := by
  simp only [parts, List.map_cons, List.map_nil, length_le, h, members]

theorem encode_length (i : Info) (h : i.random.length = 16) : (encode i).length = infoSize := by
  simp only [encode, List.length_append, length_le, h]; rfl

theorem member_encode (i : Info) (h : i.random.length = 16) (k : Nat) : member (encode i) k = (parts i).getD k [] := by
  rw [encode_parts, ← part_of_flatten (parts i) k, parts_length i h]; rfl

/-- The loader sees exactly what the runtime meant. -/
theorem decode_encode (i : Info) (h : i.Wf) : decode (encode i) = i ∧ (encode i).length = infoSize ∧ unle (member (encode i) 0) = magic1 ∧ unle (member (encode i) 17) = magic2 := by
  refine ⟨?_, encode_length i h.random, ?_, ?_⟩
  · unfold decode
    simp only [member_encode i h.random, parts, List.getD_cons_succ, List.getD_cons_zero,
      unle4 _ h.pageSize, unle8 _ h.textAddr, unle8 _ h.stackAddr, unle8 _ h.heapAddr, unle4 _ h.textSize, unle4 _ h.stackSize, unle4 _ h.stackUnused,
      unle4 _ h.globalsSize, unle4 _ h.initMemorySize, unle4 _ h.growMemorySize, unle4 _ h.initRoutine, unle4 _ h.startAddr, unle4 _ h.entryAddr,
      unle4 _ h.timeMask, unle8 _ h.monotonicTime]
  · rw [member_encode i h.random]; exact unle4 magic1 (by decide)
  · rw [member_encode i h.random]; exact unle8 magic2 (by decide)

/-- What the runtime sends is received; the debug descriptor is told apart. -/
theorem receive_sent (i : Info) (h : i.Wf) (debug : Bool) :
    receive (sent i debug) = some ⟨encode i, debug, if debug then 3 else 2, if debug then 4 else 3⟩ := by
  have hl := (decode_encode i h).2.1
  unfold receive sent
  simp only [hl]
  cases debug <;> simp

/-- Only messages of the right form are accepted: exactly the size of the information, and one control message with two or three descriptors. -/
theorem receive_strict (m : Msg) (r : Received) (h : receive m = some r) :
    m.data.length = 104 ∧ r.info = m.data ∧ m.ctrunc = false ∧ ∃ c, m.ctl = [c] ∧ c.level = true ∧ c.rights = true ∧
    c.fds = (if r.debug then [2, r.textFd, r.stateFd] else [r.textFd, r.stateFd]) := by
  unfold receive at h
  split at h
  · cases h
  · rename_i hl
    split at h
    · cases h
    · rename_i hc
      cases hctl : m.ctl with
      | nil => rw [hctl] at h; cases h
      | cons c rest =>
        rw [hctl] at h
        simp only at h
        split at h
        · cases h
        · split at h
          · cases h
          · rename_i h1 h2
            have hl : m.data.length = 104 := Classical.not_not.mp hl
            split at h
            · rename_i t s hf
              split at h
              · rename_i hr; subst hr
                cases h
                exact ⟨hl, rfl, by simpa using hc, c, rfl, by simpa using h1, by simpa using h2, by simp [hf]⟩
              · cases h
            · rename_i d t s hf
              split at h
              · cases h
              · rename_i hd
                split at h
                · rename_i hr; subst hr
                  cases h
                  exact ⟨hl, rfl, by simpa using hc, c, rfl, by simpa using h1, by simpa using h2, by simp [hf]; omega⟩
                · cases h
            · cases h

/-! ### The clock function -/

/-- The names of the kernel's functions. -/
def clockName : Arch → Bytes
  | .x86 => str "__vdso_clock_gettime"
  | .arm => str "__kernel_clock_gettime"

theorem eq_le (b : Bytes) (n : Nat) (h : unle b = n) : b = le b.length n := by rw [← h, le_unle]

/-- The comparison is exact, although it is made in words. -/
theorem isClockGettime_iff (a : Arch) (name : Bytes) : isClockGettime a name = true ↔ name = clockName a := by
  constructor
  · cases a with
    | x86 =>
      intro h
      simp only [isClockGettime, Bool.and_eq_true, beq_iff_eq] at h
      obtain ⟨⟨⟨hl, h1⟩, h2⟩, h3⟩ := h
      have e : name = name.take 8 ++ ((name.drop 8).take 8 ++ (name.drop 16).take 4) := by
        have : (name.drop 16).take 4 = name.drop 16 := List.take_of_length_le (by simp [hl])
        rw [this]
        have : name.drop 16 = (name.drop 8).drop 8 := by simp
        rw [this, List.take_append_drop, List.take_append_drop]
      rw [e, eq_le _ _ h1, eq_le _ _ h2, eq_le _ _ h3]
      simp only [List.length_take, List.length_drop, hl]
      decide
    | arm =>
      intro h
      simp only [isClockGettime, Bool.and_eq_true, beq_iff_eq] at h
      obtain ⟨⟨⟨⟨hl, h1⟩, h2⟩, h3⟩, h4⟩ := h
      have e : name = name.take 8 ++ ((name.drop 8).take 8 ++ ((name.drop 16).take 4 ++ (name.drop 20).take 2)) := by
        have : (name.drop 20).take 2 = name.drop 20 := List.take_of_length_le (by simp [hl])
        rw [this]
        have e1 : name.drop 16 = (name.drop 8).drop 8 := by simp
        have e2 : name.drop 20 = (name.drop 16).drop 4 := by simp
        rw [e2, List.take_append_drop, e1, List.take_append_drop, List.take_append_drop]
      rw [e, eq_le _ _ h1, eq_le _ _ h2, eq_le _ _ h3, eq_le _ _ h4]
      simp only [List.length_take, List.length_drop, hl]
      decide
  · rintro rfl
    cases a <;> decide

/-- The address which is found is that of a dynamic symbol of the name; if there's one, then it's found. -/
theorem findClock_spec (a : Arch) (base : Nat) : ∀ l : List Section,
    (∀ x, findClock a base l = some x → ∃ syms v, (true, syms) ∈ l ∧ (clockName a, v) ∈ syms ∧ x = base + v) ∧
    (∀ syms v, (true, syms) ∈ l → (clockName a, v) ∈ syms → ∃ x, findClock a base l = some x)
  | [] => ⟨fun x h => (by cases h), fun _ _ h => (by cases h)⟩
  | (false, l0) :: rest => by
    have ih := findClock_spec a base rest
    constructor
    · intro x h
      obtain ⟨syms, v, h1, h2, h3⟩ := ih.1 x h
      exact ⟨syms, v, List.mem_cons_of_mem _ h1, h2, h3⟩
    · intro syms v h1 h2
      rcases List.mem_cons.mp h1 with h | h
      · cases h
      · exact ih.2 syms v h h2
  | (true, l0) :: rest => by
    have ih := findClock_spec a base rest
    simp only [findClock]
    cases hf : l0.find? (fun s => isClockGettime a s.1) with
    | some s =>
      have hs := List.find?_some hf
      have hm := List.mem_of_find?_eq_some hf
      have := (isClockGettime_iff a s.1).mp hs
      exact ⟨fun x h => ⟨l0, s.2, List.mem_cons_self, by rw [← this]; exact hm, by cases h; rfl⟩, fun _ _ _ _ => ⟨_, rfl⟩⟩
    | none =>
      simp only
      constructor
      · intro x h
        obtain ⟨syms, v, h1, h2, h3⟩ := ih.1 x h
        exact ⟨syms, v, List.mem_cons_of_mem _ h1, h2, h3⟩
      · intro syms v h1 h2
        rcases List.mem_cons.mp h1 with h | h
        · cases h
          have := List.find?_eq_none.mp hf _ h2
          exact absurd ((isClockGettime_iff a _).mpr rfl) this
        · exact ih.2 syms v h h2

/-! ### C143: the address space -/

/-- What the loader can rely on: the kernel's page size, the addresses' alignment and ranges (C30), the sizes' alignment (image/instance.go:206-211,
image/program.go:29), and that nothing is mapped where the program goes. -/
structure Fits (e : Env) (i : Info) : Prop where
  ps : PageSize e.ps
  pageSize : i.pageSize = e.ps
  textAligned : i.textAddr % e.ps = 0
  stackAligned : i.stackAddr % e.ps = 0
  heapAligned : i.heapAddr % e.ps = 0
  textMin : minText ≤ i.textAddr
  textMax : i.textAddr < maxText
  heapMin : minHeap ≤ i.heapAddr
  heapMax : i.heapAddr < maxHeap
  stackMin : minStack ≤ i.stackAddr
  stackMax : i.stackAddr < maxStack
  textSize : i.textSize % e.ps = 0 ∧ 0 < i.textSize ∧ i.textSize < 2 ^ 32
  stackSize : i.stackSize % e.ps = 0 ∧ 0 < i.stackSize ∧ i.stackSize < 2 ^ 32
  globalsSize : i.globalsSize % e.ps = 0 ∧ i.globalsSize < 2 ^ 31
  initMemorySize : i.initMemorySize % 65536 = 0 ∧ i.initMemorySize ≤ i.growMemorySize
  growMemorySize : i.growMemorySize < 2 ^ 32
  free : ∀ x, minText - e.ps ≤ x → x < maxStack + 2 ^ 32 → e.space0 x = none
  envp : maxStack + 2 ^ 32 + 65536 + 65536 ≤ e.envp ∧ e.envp < 2 ^ 47

/-- The loader's own stack and its image, which are unmapped in the end. -/
def loaders (e : Env) (x : Nat) : Prop :=
  (alignPage e.ps e.envp - alignPage e.ps loaderStackSize ≤ x ∧ x < alignPage e.ps e.envp) ∨ (loaderAddr ≤ x ∧ x < loaderAddr + 65536)

instance (e : Env) (x : Nat) : Decidable (loaders e x) := inferInstanceAs (Decidable (_ ∨ _))

/-- The intended address space. -/
def layout (e : Env) (i : Info) : Space := fun x =>
  if i.textAddr - e.ps ≤ x ∧ x < i.textAddr then some (rx, .anon)
  else if i.textAddr ≤ x ∧ x < i.textAddr + i.textSize then some (rx, .text (x - i.textAddr))
  else if i.stackAddr ≤ x ∧ x < i.stackAddr + i.stackSize then some (rw, .state (x - i.stackAddr))
  else if i.heapAddr ≤ x ∧ x < i.heapAddr + (i.globalsSize + i.initMemorySize) then some (rw, .state (i.stackSize + (x - i.heapAddr)))
  else if i.heapAddr ≤ x ∧ x < i.heapAddr + alignPage e.ps (i.globalsSize + i.growMemorySize) then some (noAccess, .state (i.stackSize + (x - i.heapAddr)))
  else if loaders e x then none
  else e.space0 x

theorem alignPage_of_mod (ps n : Nat) (hp : 0 < ps) (h : n % ps = 0) : alignPage ps n = n := by
  obtain ⟨k, rfl⟩ := Nat.dvd_of_mod_eq_zero h
  unfold alignPage
  have : (ps * k + (ps - 1)) / ps = k := by
    rw [Nat.mul_comm ps k, Nat.add_comm, Nat.add_mul_div_right _ _ hp, Nat.div_eq_of_lt (by omega)]; omega
  rw [this, Nat.mul_comm]

theorem alignPage_bounds (ps n : Nat) (hp : 0 < ps) : n ≤ alignPage ps n ∧ alignPage ps n < n + ps ∧ alignPage ps n % ps = 0 := by
  unfold alignPage
  have h := Nat.div_add_mod (n + (ps - 1)) ps
  have h2 := Nat.mod_lt (n + (ps - 1)) hp
  refine ⟨?_, ?_, Nat.mul_mod_left _ _⟩ <;> (rw [Nat.mul_comm]; omega)

theorem exec_sys (fail : Sys → Bool) (c : Sys) (code : Nat) (f : St → Option St) (k : List Step) (s s' : St)
    (h : exec fail (.sys c code f :: k) s = (s', none)) : fail c = false ∧ ∃ s1, f s = some s1 ∧ exec fail k s1 = (s', none) := by
  simp only [exec] at h
  split at h
  · cases h
  · rename_i hf
    refine ⟨by simpa using hf, ?_⟩
    cases hs : f s with
    | none => rw [hs] at h; cases h
    | some s1 => rw [hs] at h; exact ⟨s1, rfl, h⟩

theorem exec_append (fail : Sys → Bool) : ∀ (l k : List Step) (s s' : St), exec fail (l ++ k) s = (s', none) →
    ∃ s1, exec fail l s = (s1, none) ∧ exec fail k s1 = (s', none)
  | [], k, s, s', h => ⟨s, rfl, h⟩
  | .do_ f :: l, k, s, s', h => exec_append fail l k (f s) s' h
  | .sys c code f :: l, k, s, s', h => by
    obtain ⟨hf, s1, hs, h⟩ := exec_sys _ _ _ _ _ _ _ h
    obtain ⟨s2, h1, h2⟩ := exec_append fail l k s1 s' h
    exact ⟨s2, by simp only [exec, hf, hs]; exact h1, h2⟩

end Gate.Loader
