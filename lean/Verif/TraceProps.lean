import Verif.Trace

namespace Gate.Trace
open Gate CallStack

/-! ### C147: specification

The values of a frame are in the order in which they were pushed, the last one first; the arguments of a function are the last values which its caller pushed.
What a trace shows: for every call in progress, the function, the place of the call, and its values, the parameters first, each in the order in which they were pushed. -/

def callerVars : List Frame → List Nat
  | [] => []
  | f :: _ => f.vars

def traceOf (m : Map) (retOff : Nat → Nat) (np : Nat → Nat) : List Frame → List TFrame
  | [] => []
  | f :: fs =>
    ⟨m.funcOf (retAddr m f.site), retOff (retAddr m f.site), ((callerVars fs).take (np (m.funcOf (retAddr m f.site)))).reverse ++ f.vars.reverse⟩ :: traceOf m retOff np fs

/-! ### Lemmas -/

theorem others_eq (buf : List Nat) (n : Nat) : ∀ k i, i + k = n → n < buf.length → others buf n i k = some (((buf.drop 1).take k).reverse)
  | 0, i, _, _ => by simp [others]
  | k + 1, i, h, hl => by
    unfold others
    have hi : n - i = k + 1 := by omega
    rw [hi, List.getElem?_eq_getElem (by omega), others_eq buf n k (i + 1) (by omega) hl]
    have : (buf.drop 1).take (k + 1) = (buf.drop 1).take k ++ [buf[k + 1]] := by
      rw [List.take_succ_eq_append_getElem (by simp; omega)]
      simp [Nat.add_comm]
    rw [this]
    simp

theorem params_eq (buf : List Nat) (n o : Nat) : ∀ k i, i + k + o = n → n + 1 < buf.length → params buf n i k = some (((buf.drop (o + 2)).take k).reverse)
  | 0, i, _, _ => by simp [params]
  | k + 1, i, h, hl => by
    unfold params
    have hi : n - i + 1 = o + 2 + k := by omega
    rw [hi, List.getElem?_eq_getElem (by omega), params_eq buf n o k (i + 1) (by omega) hl]
    have : (buf.drop (o + 2)).take (k + 1) = (buf.drop (o + 2)).take k ++ [buf[o + 2 + k]] := by
      rw [List.take_succ_eq_append_getElem (by simp; omega)]
      simp
    rw [this]
    simp

theorem params_len (buf : List Nat) (n : Nat) : ∀ k i l, params buf n i k = some l → l.length = k
  | 0, i, l, h => by simp [params] at h; simp [h]
  | k + 1, i, l, h => by
    unfold params at h
    simp only [Option.bind_eq_some_iff, Option.map_eq_some_iff] at h
    obtain ⟨w, _, l', h2, rfl⟩ := h
    simp [params_len buf n k (i + 1) l' h2]

/-- The values of a frame, raw: the words after the link, and those after the caller's link. -/
theorem locals_eq (buf : List Nat) (np k : Nat) (h : np + k + 1 < buf.length ∨ np = 0 ∧ k < buf.length) :
    locals buf np (8 * (k + 1)) = some (((buf.drop (k + 2)).take np).reverse ++ ((buf.drop 1).take k).reverse) := by
  unfold locals
  rw [if_neg (by omega)]
  have : ((8 * ((k : Int) + 1)) / 8 - 1).toNat = k := by omega
  simp only [this]
  rcases h with h | ⟨rfl, h⟩
  · rw [params_eq buf (np + k) k np 0 (by omega) h, others_eq buf k k 0 (by omega) (by omega)]; rfl
  · rw [others_eq buf k k 0 (by omega) h]
    simp [params]

/-! ### Theorems -/

theorem traceLoop_portable (m : Map) (g : Sigs) (gm : GoodMap m) (retOff : Nat → Nat) (np : Nat → Nat) (hnp : ∀ i k, g.params i = some k → np i = k) (fs : List Frame) (hf : ∀ f ∈ fs, FrameOk m f)
    (i : Nat) (hi : i < m.sites.length) (hini : m.isInit (retAddr m i) = true) (rest : List Nat) (mv : Nat) (hroom : Room m g mv fs) :
    traceLoop m g retOff (fs.flatMap (portableFrame m) ++ [link (offset m i) i] ++ rest) = .ok (traceOf m retOff np fs) := by
  induction fs generalizing mv with
  | nil =>
    simp only [List.flatMap_nil, List.nil_append, List.singleton_append]
    obtain ⟨s, h1, h2, h3, h4⟩ := site_some hi
    have hlt : i < two32 := Nat.lt_of_lt_of_le hi gm.sites32
    have ho := gm.offset32 s h4
    rw [traceLoop]
    rw [link_mod _ _ hlt, h1]
    simp only
    rw [h3, linkOffset_link _ _ hlt ho.1 ho.2, if_neg (by simp), ← h2, if_pos hini]
    rfl
  | cons f fs ih =>
    have hfo := hf f (by simp)
    obtain ⟨w1, w2, w3, w4⟩ := frame_words hfo
    obtain ⟨hmv, k, hk, hrest⟩ := hroom
    have ih := ih (fun x hx => hf x (by simp [hx])) k hrest
    obtain ⟨s, h1, h2, h3, h4⟩ := site_some hfo.1
    have hlt : f.site < two32 := Nat.lt_of_lt_of_le hfo.1 gm.sites32
    have ho := gm.offset32 s h4
    have hoff := hfo.2.2
    have hloc : locals (link (offset m f.site) f.site :: (f.vars ++ (fs.flatMap (portableFrame m) ++ ([link (offset m i) i] ++ rest)))) k (offset m f.site) =
        some (((callerVars fs).take k).reverse ++ f.vars.reverse) := by
      rw [hoff, locals_eq]
      · congr 2
        · congr 1
          have hd : ∀ x : Nat, (x :: (f.vars ++ (fs.flatMap (portableFrame m) ++ ([link (offset m i) i] ++ rest)))).drop (f.vars.length + 2) =
              (fs.flatMap (portableFrame m) ++ ([link (offset m i) i] ++ rest)).drop 1 := by
            intro x
            rw [List.drop_succ_cons, List.drop_append]
            simp
          rw [hd]
          rcases fs with _ | ⟨f2, fs⟩
          · simp only [Room] at hrest; simp [hrest]
          · simp only [Room] at hrest
            simp only [List.flatMap_cons, portableFrame, List.cons_append, List.append_assoc, List.drop_succ_cons, List.drop_zero, callerVars]
            rw [List.take_append_of_le_length hrest.1]
        · simp
      · rcases fs with _ | ⟨f2, fs⟩
        · simp only [Room] at hrest
          right; refine ⟨hrest, ?_⟩
          simp only [List.length_cons, List.length_append]; omega
        · simp only [Room] at hrest
          left
          have := hrest.1
          simp only [List.flatMap_cons, portableFrame, List.length_cons, List.length_append]; omega
    simp only [List.flatMap_cons, portableFrame, List.cons_append, List.append_assoc] at ih ⊢
    rw [traceLoop]
    rw [link_mod _ _ hlt, h1]
    simp only
    rw [← h3, linkOffset_link _ _ hlt (by rw [h3]; exact ho.1) (by rw [h3]; exact ho.2), if_neg (by simp), ← h2, if_neg (by simp [hfo.2.1]), if_neg (by omega), if_neg w2, findCall_site gm hfo.1]
    simp only [hfo.2.1, hk]
    rw [if_neg (by simp)]
    simp only [List.singleton_append] at hloc
    simp only [List.nil_append] at ih ⊢
    rw [hloc]
    have hq : (offset m f.site / 8).toNat = f.vars.length + 1 := by omega
    simp only [hq]
    rw [if_neg (by simp only [List.length_append]; omega)]
    have hd : (f.vars ++ (fs.flatMap (portableFrame m) ++ link (offset m i) i :: rest)).drop (f.vars.length + 1 - 1) = fs.flatMap (portableFrame m) ++ link (offset m i) i :: rest := by
      rw [Nat.add_sub_cancel, List.drop_left]
    rw [hd, ih]
    simp only [traceOf, hnp _ _ hk]

/-- The trace of a suspended program's stack: every call in progress, the innermost first, with its function, place and values. It does not panic. -/
theorem trace_stack (m : Map) (g : Sigs) (gm : GoodMap m) (retOff : Nat → Nat) (np : Nat → Nat) (hnp : ∀ i k, g.params i = some k → np i = k) (s : Stack) (hs : Ok m s) (ht : Typed m g s) :
    traceStack m g retOff (portable m s) = .ok (traceOf m retOff np s.frames) := by
  unfold traceStack portable portableCalls
  rw [if_neg (by simp only [List.length_append, List.length_singleton]; omega)]
  exact traceLoop_portable m g gm retOff np hnp s.frames hs.frames s.init hs.init.1 hs.init.2.1 _ 0 ht.1

/-- A trace is not that of another stack: the data of every successful trace begins with the stack's portable representation, and the values which are shown for a
call are those of its frame (after as many others as the function has parameters). -/
def Shows (m : Map) (g : Sigs) (retOff : Nat → Nat) : List Frame → List TFrame → Prop
  | [], [] => True
  | f :: fs, t :: ts => t.funcIndex = m.funcOf (retAddr m f.site) ∧ t.retOff = retOff (retAddr m f.site) ∧
      (∃ a, t.locals = a ++ f.vars.reverse ∧ g.params t.funcIndex = some a.length) ∧ Shows m g retOff fs ts
  | _, _ => False

theorem traceLoop_sound (m : Map) (g : Sigs) (retOff : Nat → Nat) (n : Nat) : ∀ (P : List Nat), P.length = n → (∀ w ∈ P, w < two64) → ∀ ts, traceLoop m g retOff P = .ok ts →
    ∃ (fs : List Frame) (i : Nat) (R : List Nat), (∀ f ∈ fs, FrameOk m f) ∧ i < m.sites.length ∧ m.isInit (retAddr m i) = true ∧
      P = fs.flatMap (portableFrame m) ++ [link (offset m i) i] ++ R ∧ Shows m g retOff fs ts := by
  induction n using Nat.strongRecOn with
  | ind n ih =>
    intro P hn hw ts h
    rw [traceLoop.eq_def] at h
    rcases P with _ | ⟨pair, P⟩
    · cases h
    · simp only at h
      split at h
      · cases h
      · rename_i call hcall
        obtain ⟨g1, g2, g3⟩ := site_get hcall
        split at h
        · cases h
        · rename_i hl
          have hlink : pair = link (offset m (pair % two32)) (pair % two32) := by
            rw [g2, ← Decidable.not_not.1 hl, link_linkOffset _ (hw pair (by simp))]
          split at h
          · rename_i hini
            cases h
            exact ⟨[], pair % two32, P, by simp, g3, by rw [g1]; exact hini, by simp only [List.flatMap_nil, List.nil_append, List.singleton_append, List.cons.injEq, and_true]; exact hlink, trivial⟩
          · rename_i hini
            split at h
            · cases h
            · rename_i h8
              split at h
              · cases h
              · split at h
                · cases h
                · rename_i c hc
                  obtain ⟨c1, c2, c3, c4, c5⟩ := findCall_inv hc
                  split at h
                  · cases h
                  · rename_i hcc
                    simp only [not_or, Decidable.not_not] at hcc
                    split at h
                    · cases h
                    · rename_i np hnp
                      split at h
                      · cases h
                      · rename_i l hloc
                        split at h
                        · cases h
                        · rename_i hlen
                          split at h
                          · rename_i ts' hrec
                            cases h
                            rw [hcc.2.2] at hloc hlen hrec
                            have hge : ¬ call.stackOffset < 8 := by
                              intro hx; unfold locals at hloc; rw [if_pos hx] at hloc; cases hloc
                            obtain ⟨k, hk⟩ : ∃ k : Nat, call.stackOffset = 8 * ((k : Int) + 1) := ⟨(call.stackOffset / 8 - 1).toNat, by omega⟩
                            have hq : (call.stackOffset / 8).toNat = k + 1 := by omega
                            rw [hq] at hlen hrec
                            simp only [Nat.add_sub_cancel] at hrec
                            have hkl : k ≤ P.length := by omega
                            obtain ⟨fs, i, R, r1, r2, r3, r4, r5⟩ := ih (P.drop k).length (by simp only [List.length_cons] at hn; rw [List.length_drop]; omega) (P.drop k) rfl
                              (fun w hx => hw w (by exact List.mem_cons_of_mem _ (List.mem_of_mem_drop hx))) ts' hrec
                            have hvl : (P.take k).length = k := by rw [List.length_take]; omega
                            refine ⟨⟨pair % two32, P.take k⟩ :: fs, i, R, ?_, r2, r3, ?_, ?_⟩
                            · intro f hf
                              simp only [List.mem_cons] at hf
                              rcases hf with rfl | hf
                              · refine ⟨g3, ?_, ?_⟩
                                · simp only [g1]; simpa using hini
                                · simp only [g2]; rw [hvl, hk]
                              · exact r1 f hf
                            · simp only [List.flatMap_cons, portableFrame, List.cons_append, List.append_assoc] at r4 ⊢
                              rw [← hlink, ← r4, List.take_append_drop]
                            · refine ⟨?_, ?_, ?_, r5⟩
                              · simp only [g1]; exact c5
                              · simp only [g1]
                              · unfold locals at hloc
                                rw [if_neg hge] at hloc
                                have : (call.stackOffset / 8 - 1).toNat = k := by omega
                                simp only [this, Option.bind_eq_some_iff, Option.map_eq_some_iff] at hloc
                                obtain ⟨a, ha, b, hb, rfl⟩ := hloc
                                rw [others_eq _ k k 0 (by omega) (by simp only [List.length_cons]; omega)] at hb
                                simp only [Option.some.injEq] at hb
                                refine ⟨a, by rw [← hb]; rfl, ?_⟩
                                rw [params_len _ _ _ _ _ ha]
                                exact hnp
                          · cases h
                          · cases h

theorem trace_sound (m : Map) (g : Sigs) (retOff : Nat → Nat) (P : List Nat) (hw : ∀ w ∈ P, w < two64) (ts : List TFrame) (h : traceStack m g retOff P = .ok ts) :
    ∃ (fs : List Frame) (i : Nat) (R : List Nat), (∀ f ∈ fs, FrameOk m f) ∧ i < m.sites.length ∧ m.isInit (retAddr m i) = true ∧
      P = fs.flatMap (portableFrame m) ++ [link (offset m i) i] ++ R ∧ Shows m g retOff fs ts := by
  unfold traceStack at h
  split at h
  · cases h
  · exact traceLoop_sound m g retOff P.length P rfl hw ts h

/-- A native stack which has been exported is traced: by the same calls, without an error, if the stack fits the program's types. -/
theorem trace_exported (m : Map) (g : Sigs) (gm : GoodMap m) (retOff : Nat → Nat) (np : Nat → Nat) (hnp : ∀ i k, g.params i = some k → np i = k) (T : Nat) (hT : T < two64)
    (s : Stack) (hs : Ok m s) (ht : Typed m g s) :
    ∃ P, exportStack m T (native m T s) = .ok P ∧ traceStack m g retOff P = .ok (traceOf m retOff np s.frames) :=
  ⟨_, export_native m gm T hT s hs, trace_stack m g gm retOff np hnp s hs ht⟩

/-- Whatever has been imported (a snapshot from a user) and is exported again: the trace does not fail. -/
theorem trace_imported (m : Map) (g : Sigs) (gm : GoodMap m) (retOff : Nat → Nat) (T : Nat) (hT : T < two64) (P N : List Nat) (hw : ∀ w ∈ P, w < two64)
    (h : importStack m g T P = .ok N) : ∃ P' ts, exportStack m T N = .ok P' ∧ traceStack m g retOff P' = .ok ts := by
  obtain ⟨s, h1, h2, h3, _⟩ := import_sound m g T P N hw h
  refine ⟨_, _, by rw [h3]; exact export_native m gm T hT s h1, trace_stack m g gm retOff (fun i => (g.params i).getD 0) ?_ s h1 h2⟩
  intro i k hk; simp [hk]

/-! ### A concrete case: a call with two parameters, and one without. -/

def exStack2 : Stack := ⟨[⟨3, []⟩, ⟨2, [7, 9]⟩], 0, some (some 0)⟩

example : traceStack exMap exSigs (fun r => r + 1000) (portable exMap exStack2) = .ok [⟨1, 1080, [9, 7]⟩, ⟨0, 1040, [9, 7]⟩] :=
  trace_stack exMap exSigs exMap_good (fun r => r + 1000) (fun i => if i = 0 then 0 else if i = 1 then 2 else 0)
    (by intro i k h; simp only [exSigs] at h; split at h <;> simp_all) exStack2 exStack_ok.1 exStack_ok.2

end Gate.Trace
