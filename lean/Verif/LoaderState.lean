import Verif.LoaderFail
import Verif.ResolverProps

namespace Gate.Loader
open Gate ImageFile Process Auth

/-! ### C144: the state with which the program's code starts -/

def varParts (i : Info) : List Bytes :=
  [le 4 0, le 4 (i.initMemorySize / 65536), le 8 i.monotonicTime, le 4 16, le 4 0, le 8 i.textAddr, le 8 stackMagic, le 8 stackMagic, le 8 stackMagic, le 8 stackMagic]

theorem vars_parts (i : Info) : vars i = (varParts i).flatten := by
  simp only [vars, varParts, List.flatten_cons, List.flatten_nil, List.append_nil, List.append_assoc]

theorem read_bytes (f : File) (b : Bytes) (off n : Nat) (hn : off + n ≤ b.length) (h : ∀ x, off ≤ x → x < off + n → f x = b.getD x 0) :
    ImageFile.read f off n = (b.drop off).take n := by
  apply List.ext_getElem
  · simp [ImageFile.read]; omega
  · intro k h1 h2
    simp only [ImageFile.read, List.length_map, List.length_range] at h1
    simp only [ImageFile.read, List.getElem_map, List.getElem_range, List.getElem_take, List.getElem_drop]
    rw [h _ (by omega) (by omega), List.getD_eq_getElem?_getD, List.getElem?_eq_getElem (by omega)]
    rfl

theorem read_var (i : Info) (f : File) (h : ∀ x, 4 ≤ x → x < 64 → f x = (vars i).getD x 0) (k off n : Nat)
    (ho : (((varParts i).map List.length).take k).foldr (fun a b => a + b) 0 = off) (hn : ((varParts i).map List.length).getD k 0 = n)
    (h4 : 4 ≤ off) (h64 : off + n ≤ 64) : ImageFile.read f off n = (varParts i).getD k [] := by
  rw [read_bytes f (vars i) off n (by rw [vars_length]; omega) (fun x h1 h2 => h x (by omega) (by omega)), vars_parts, ← part_of_flatten (varParts i) k, ho, hn]

/-- The variables of the runtime, the stack pointer and the first stack frame, when the program's code starts. -/
theorem entered_state (e : Env) (s : St) (a : Nat) (h : load e = (s, .enter a)) (r : Received) (hr : receive e.msg = some r) (hp : 0 < e.ps)
    (hs : (decode r.info).StackOk) (hw : (decode r.info).Wf) :
    let i := decode r.info
    readVars s.file = ⟨4294967295, i.initMemorySize / 65536, i.monotonicTime, 16, i.textAddr, [stackMagic, stackMagic, stackMagic, stackMagic]⟩ ∧
    (i.stackUnused = i.stackSize → s.sp = i.stackSize - 16 ∧ ImageFile.read s.file s.sp 16 = le 8 i.startAddr ++ le 8 i.entryAddr) ∧
    (i.stackUnused ≠ i.stackSize → s.sp = i.stackUnused) := by
  obtain ⟨_, _, _, base, clock, r', s1, _, _, hr', _, _, hx, rfl, rfl⟩ := load_enter e s a h
  rw [hr] at hr'; cases hr'
  have hd := map_done e _ hp clock r.debug _ s1 hx
  have hsp := hd.sp
  have hfile := hd.file
  have hscr : 64 ≤ scratchAt e.arch s1 ∧ scratchAt e.arch s1 + (e.scratch.take 32).length ≤ s1.sp := by
    have hl : (e.scratch.take 32).length ≤ 32 := by simp; omega
    have h1 := hs.min
    have h2 := hs.max
    simp only [stackUsageOffset] at h1
    have h3 : 9952 ≤ s1.sp := by
      rw [hsp]; unfold frame; split <;> (simp only; omega)
    unfold scratchAt
    cases e.arch with
    | x86 => simp only; omega
    | arm => simp only [stackLimitOffset]; omega
  clear hx hr h
  generalize decode r.info = i at *
  have h1 := hs.min
  have h2 := hs.max
  simp only [stackUsageOffset] at h1
  have hv : ∀ x, 4 ≤ x → x < 64 → write s1.file 0 (le 4 4294967295) x = (vars i).getD x 0 := by
    intro x h4 h64
    rw [write_other _ _ _ _ (Or.inr (by rw [length_le]; omega)), hfile, write_other _ _ _ _ (Or.inl (by omega))]
    have : (frame i { initial e with file := write (initial e).file 0 (vars i) }).file x = write (initial e).file 0 (vars i) x := by
      unfold frame
      split
      · simp only
        rw [write_other _ _ _ _ (Or.inl (by omega)), write_other _ _ _ _ (Or.inl (by omega))]
      · rfl
    rw [this, write_in _ _ _ _ (by rw [vars_length]; omega), Nat.sub_zero]
  refine ⟨?_, ?_, ?_⟩
  · simp only [readVars]
    rw [show ImageFile.read (write s1.file 0 (le 4 4294967295)) 0 4 = le 4 4294967295 from read_write s1.file 0 (le 4 4294967295),
      read_var i _ hv 1 4 4 rfl rfl (by omega) (by omega), read_var i _ hv 2 8 8 rfl rfl (by omega) (by omega), read_var i _ hv 3 16 4 rfl rfl (by omega) (by omega),
      read_var i _ hv 5 24 8 rfl rfl (by omega) (by omega), read_var i _ hv 6 32 8 rfl rfl (by omega) (by omega), read_var i _ hv 7 40 8 rfl rfl (by omega) (by omega),
      read_var i _ hv 8 48 8 rfl rfl (by omega) (by omega), read_var i _ hv 9 56 8 rfl rfl (by omega) (by omega)]
    simp only [varParts, List.getD_cons_succ, List.getD_cons_zero]
    have hm := hw.initMemorySize
    rw [unle4 4294967295 (by decide), unle4 (i.initMemorySize / 65536) (by omega), unle8 _ hw.monotonicTime, unle4 16 (by decide), unle8 _ hw.textAddr,
      unle8 stackMagic (by decide)]
    rfl
  · intro hu
    have hsp' : s1.sp = i.stackSize - 16 := by rw [hsp]; unfold frame; rw [if_pos hu]
    refine ⟨hsp', ?_⟩
    simp only
    rw [hsp'] at hscr ⊢
    have hf : ∀ x, i.stackSize - 16 ≤ x → x < i.stackSize → write s1.file 0 (le 4 4294967295) x =
        write (write (write (initial e).file 0 (vars i)) (i.stackSize - 8) (le 8 i.entryAddr)) (i.stackSize - 16) (le 8 i.startAddr) x := by
      intro x h3 h4
      rw [write_other _ _ _ _ (Or.inr (by rw [length_le]; omega)), hfile, write_other _ _ _ _ (Or.inr (by omega))]
      unfold frame
      rw [if_pos hu]
    have e1 := read_ext _ _ (i.stackSize - 16) (i.stackSize - 16) 8 (fun k hk => hf (i.stackSize - 16 + k) (by omega) (by omega))
    have e2 := read_ext _ _ (i.stackSize - 8) (i.stackSize - 8) 8 (fun k hk => hf (i.stackSize - 8 + k) (by omega) (by omega))
    have e3 := read_write (write (write (initial e).file 0 (vars i)) (i.stackSize - 8) (le 8 i.entryAddr)) (i.stackSize - 16) (le 8 i.startAddr)
    have e4 := read_write (write (initial e).file 0 (vars i)) (i.stackSize - 8) (le 8 i.entryAddr)
    rw [length_le] at e3 e4
    have e5 : ImageFile.read (write (write (write (initial e).file 0 (vars i)) (i.stackSize - 8) (le 8 i.entryAddr)) (i.stackSize - 16) (le 8 i.startAddr)) (i.stackSize - 8) 8 =
        le 8 i.entryAddr := by
      rw [← e4]
      refine read_ext _ _ _ _ 8 (fun k hk => ?_)
      rw [write_other _ _ _ _ (Or.inr (by rw [length_le]; omega)), e4]
    rw [e3] at e1
    rw [e5] at e2
    have hsplit : ∀ f : File, ImageFile.read f (i.stackSize - 16) 16 = ImageFile.read f (i.stackSize - 16) 8 ++ ImageFile.read f (i.stackSize - 8) 8 := by
      intro f
      have : i.stackSize - 8 = i.stackSize - 16 + 8 := by omega
      rw [this]
      apply List.ext_getElem
      · simp [ImageFile.read]
      · intro k k1 k2
        simp only [ImageFile.read, List.length_map, List.length_range] at k1
        rw [List.getElem_append]
        split <;> simp [ImageFile.read]
        rename_i hk
        simp only [ImageFile.read, List.length_map, List.length_range] at hk
        congr 1; omega
    rw [hsplit, e1, e2]
  · intro hu
    rw [hsp]; unfold frame; rw [if_neg hu]

/-- Names of the runtime's functions, as they are imported by the library. -/
def Func.name : Func → Option Bytes
  | .stop => some (str "stop")
  | .debug => some (str "debug")
  | .write => some (str "write")
  | .read => some (str "read")
  | .poll => some (str "poll")
  | .time => some (str "time")
  | .random => some (str "random")
  | _ => none

/-- The library's calls end up in the right functions of the runtime: for each of its imports (other than the reserved one) the vector's slot, at the index which
runtime/abi/abi.go gives to it, has the address of that function (or of the one which does nothing, if there's no debug output). -/
theorem library_calls (e : Env) (i : Info) (clock : Nat) (debug : Bool) (f : Func) (n : Bytes) (hn : f.name = some n) :
    ∃ k : Nat, (n, -(k : Int)) ∈ Resolver.rtFunctions ∧
      vector e i clock debug k = some (i.textAddr - i.pageSize + e.func (if f = .debug ∧ debug = false then .nop else f)) := by
  cases f <;> simp only [Func.name, Option.some.injEq, reduceCtorEq] at hn <;> subst hn
  · exact ⟨17, by decide +kernel, by simp [vector]⟩
  · exact ⟨16, by decide +kernel, by cases debug <;> simp [vector]⟩
  · exact ⟨15, by decide +kernel, by simp [vector]⟩
  · exact ⟨14, by decide +kernel, by simp [vector]⟩
  · exact ⟨13, by decide +kernel, by simp [vector]⟩
  · exact ⟨12, by decide +kernel, by simp [vector]⟩
  · exact ⟨6, by decide +kernel, by simp [vector]⟩

end Gate.Loader
