import Verif.BufAlias
/-
C175: the buffers which instances share with their programs.
-/
namespace Gate.BufAlias
open Gate Gate.Varint Gate.StreamState Gate.OriginState

/-! ## Specification -/

/-- A state of the origin service with nothing buffered for any connection. -/
def Unbuffered (maxSend bufSize : Nat) (b : Bytes) : Prop := ∀ x ∈ spans maxSend bufSize b, x.2 = 0

/-- What a program's, or a stopped instance's, buffers say. -/
def says (h : Heap) (b : Buffers) : List (String × Bytes) × Bytes × Bytes := (b.services.map fun e => (e.1, bytes h e.2), bytes h b.input, bytes h b.output)

/-! ## Arrays -/

theorem bytes_congr {h h' : Heap} {s : Slice} (e : h' s.arr = h s.arr) : bytes h' s = bytes h s := by simp [bytes, e]

/-- The arrays below `n` are as they were. -/
def Frame (n : Nat) (h h' : Heap) : Prop := ∀ a, a < n → h' a = h a

theorem Frame.trans {n : Nat} {h h' h'' : Heap} (a : Frame n h h') (b : Frame n h' h'') : Frame n h h'' := fun x hx => (b x hx).trans (a x hx)
theorem Frame.mono {n m : Nat} {h h' : Heap} (a : Frame n h h') (hm : m ≤ n) : Frame m h h' := fun x hx => a x (by omega)
theorem Frame.bytes {n : Nat} {h h' : Heap} (a : Frame n h h') {s : Slice} (hs : s.arr < n) : bytes h' s = bytes h s := bytes_congr (a _ hs)

theorem store_frame {n : Nat} (h : Heap) {s : Slice} (i : Nat) (d : Bytes) (hs : n ≤ s.arr) : Frame n h (store h s i d) := by
  intro a ha; simp [store]; omega

theorem store_nothing (h : Heap) (s : Slice) (i : Nat) : store h s i [] = h := by
  funext a
  simp only [store, overwrite, List.append_nil, List.length_nil, Nat.add_zero, List.take_append_drop]
  split
  · rename_i e; rw [e]
  · rfl

theorem alloc_frame (m : Mem) (b : Bytes) (k : Nat) : Frame m.next m.heap (alloc m b k).1.heap := by
  intro a ha; simp [alloc]; omega

theorem alloc_next (m : Mem) (b : Bytes) (k : Nat) : (alloc m b k).1.next = m.next + 1 := rfl
theorem alloc_arr (m : Mem) (b : Bytes) (k : Nat) : (alloc m b k).2.arr = m.next := rfl
theorem alloc_bytes (m : Mem) (b : Bytes) (k : Nat) : bytes (alloc m b k).1.heap (alloc m b k).2 = b := by simp [alloc, bytes]

/-- A slice within its array. -/
def Fits (h : Heap) (s : Slice) : Prop := s.off + s.cap ≤ (h s.arr).length ∧ s.len ≤ s.cap

/-- New since the arrays below `n`, or nil. -/
def Fresh (n : Nat) (m : Mem) (s : Slice) : Prop := (n ≤ s.arr ∧ s.arr < m.next ∨ s = nil) ∧ Fits m.heap s

theorem alloc_fresh {n : Nat} {m : Mem} (hn : n ≤ m.next) (b : Bytes) (k : Nat) : Fresh n (alloc m b k).1 (alloc m b k).2 := by
  refine ⟨.inl ⟨hn, Nat.lt_succ_self _⟩, ?_⟩
  simp [Fits, alloc]

theorem append_all {n : Nat} {m : Mem} {s : Slice} (hn : n ≤ m.next) (hs : Fresh n m s) (d : Bytes) (k : Nat) :
    Frame n m.heap (append m s d k).1.heap ∧ m.next ≤ (append m s d k).1.next ∧ Fresh n (append m s d k).1 (append m s d k).2 ∧
    bytes (append m s d k).1.heap (append m s d k).2 = bytes m.heap s ++ d := by
  unfold append
  split
  · rename_i hc
    rcases hs with ⟨hs, hf⟩
    have hl := hf.1
    refine ⟨?_, Nat.le_refl _, ⟨?_, ?_⟩, ?_⟩
    · rcases hs with hs | hs
      · exact store_frame _ _ _ hs.1
      · subst hs
        have : d = [] := List.length_eq_zero_iff.1 (by simp [nil] at hc; simpa using hc)
        subst this
        rw [store_nothing]; exact fun _ _ => rfl
    · rcases hs with hs | hs
      · exact .inl hs
      · subst hs
        have : d = [] := List.length_eq_zero_iff.1 (by simp [nil] at hc; simpa using hc)
        subst this; right; rfl
    · refine ⟨?_, hc⟩
      simp only [store, if_pos, overwrite, List.length_append, List.length_take, List.length_drop]
      omega
    · simp only [bytes, store, if_pos, overwrite]
      apply List.ext_getElem?
      intro j
      simp only [List.getElem?_take, List.getElem?_drop, List.getElem?_append, List.length_take, List.length_drop, List.length_append]
      grind
  · refine ⟨(alloc_frame _ _ _).mono hn, by rw [alloc_next]; omega, alloc_fresh hn _ _, alloc_bytes _ _ _⟩

theorem appendAll_all {n : Nat} {h : Heap} (k : Nat) : ∀ (ds : List Slice) (m : Mem) (s : Slice), n ≤ m.next → Frame n h m.heap → Fresh n m s → (∀ d ∈ ds, d.arr < n) →
    Frame n m.heap (appendAll m s ds k).1.heap ∧ m.next ≤ (appendAll m s ds k).1.next ∧ Fresh n (appendAll m s ds k).1 (appendAll m s ds k).2 ∧
    bytes (appendAll m s ds k).1.heap (appendAll m s ds k).2 = bytes m.heap s ++ (ds.map (bytes h)).flatten
  | [], m, s, _, _, hs, _ => ⟨fun _ _ => rfl, Nat.le_refl _, hs, by simp [appendAll]⟩
  | d :: ds, m, s, hn, hf, hs, hd => by
    obtain ⟨a1, a2, a3, a4⟩ := append_all hn hs (bytes m.heap d) k
    obtain ⟨b1, b2, b3, b4⟩ := appendAll_all (h := h) k ds _ _ (by omega) (hf.trans a1) a3 (fun x hx => hd x (by simp [hx]))
    refine ⟨a1.trans b1, Nat.le_trans a2 b2, b3, ?_⟩
    simp only [appendAll]
    rw [b4, a4, hf.bytes (hd d (by simp))]
    simp

theorem saveServices_all : ∀ (l : List Saved) (m : Mem),
    Frame m.next m.heap (saveServices m l).1.heap ∧ m.next ≤ (saveServices m l).1.next ∧
    ∀ e ∈ (saveServices m l).2, (∃ s, .same e.1 s ∈ l ∧ e.2 = s) ∨ (e.2.arr < (saveServices m l).1.next ∧ ∃ b, .new e.1 b ∈ l ∧ bytes (saveServices m l).1.heap e.2 = b)
  | [], m => ⟨fun _ _ => rfl, Nat.le_refl _, by simp [saveServices]⟩
  | .same name s :: rest, m => by
    obtain ⟨h1, h2, h3⟩ := saveServices_all rest m
    refine ⟨h1, h2, ?_⟩
    intro e he
    simp only [saveServices, List.mem_cons] at he
    rcases he with he | he
    · subst he; exact .inl ⟨s, by simp, rfl⟩
    · rcases h3 e he with ⟨s, h, h'⟩ | ⟨hx, b, h, h'⟩
      · exact .inl ⟨s, by simp [h], h'⟩
      · exact .inr ⟨hx, b, by simp [h], h'⟩
  | .new name b :: rest, m => by
    obtain ⟨h1, h2, h3⟩ := saveServices_all rest (alloc m b 0).1
    rw [alloc_next] at h1 h2
    refine ⟨(alloc_frame m b 0).trans (h1.mono (by omega)), by simp only [saveServices]; omega, ?_⟩
    intro e he
    simp only [saveServices, List.mem_cons] at he
    rcases he with he | he
    · subst he
      right
      refine ⟨?_, b, by simp, ?_⟩
      · show (alloc m b 0).2.arr < _
        rw [alloc_arr]; simp only [saveServices]; omega
      · show bytes _ (alloc m b 0).2 = b
        simp only [saveServices]
        rw [h1.bytes (by rw [alloc_arr]; omega), alloc_bytes]
    · rcases h3 e he with ⟨s, h, h'⟩ | ⟨hx, b, h, h'⟩
      · exact .inl ⟨s, by simp [h], h'⟩
      · exact .inr ⟨hx, b, by simp [h], h'⟩

/-! ## Packets -/

theorem sizeField_take {b : Bytes} {n k : Nat} (h : sizeField b = some n) (hk : 4 ≤ k) : sizeField (b.take k) = some n := by
  match b, k with
  | a :: b :: c :: d :: t, k + 4 => simpa [sizeField] using h
  | [], _ | [_], _ | [_, _], _ | [_, _, _], _ => simp [sizeField] at h
  | _ :: _ :: _ :: _ :: _, 0 | _ :: _ :: _ :: _ :: _, 1 | _ :: _ :: _ :: _ :: _, 2 | _ :: _ :: _ :: _ :: _, 3 => omega

/-- Complete packets, with correct headers. -/
def Sized (h : Heap) (s : Slice) : Prop := sizeField (bytes h s) = some s.len

theorem split_all {h : Heap} : ∀ (fuel : Nat) (s : Slice) (ms : List Slice) (rest : Slice), split h fuel s = some (ms, rest) →
    (∀ p ∈ ms, p.arr = s.arr ∧ Sized h p) ∧ rest.arr = s.arr ∧ (ms.map (bytes h)).flatten ++ bytes h rest = bytes h s
  | 0, s, ms, rest, e => by simp [split] at e; obtain ⟨rfl, rfl⟩ := e; simp
  | fuel + 1, s, ms, rest, e => by
    unfold split at e
    split at e
    · simp at e; obtain ⟨rfl, rfl⟩ := e; simp
    · split at e
      · cases e
      · rename_i n hn
        split at e
        · cases e
        · split at e
          · simp at e; obtain ⟨rfl, rfl⟩ := e; simp
          · rename_i h1 h2 h3
            split at e
            · cases e
            · rename_i ms' rest' he
              simp only [Option.some.injEq, Prod.mk.injEq] at e
              obtain ⟨rfl, rfl⟩ := e
              obtain ⟨a, b, c⟩ := split_all fuel _ _ _ he
              have hp : bytes h ⟨s.arr, s.off, n, s.cap⟩ = (bytes h s).take n := by simp [bytes, List.take_take]; omega
              refine ⟨?_, b, ?_⟩
              · intro p hp'
                rcases List.mem_cons.1 hp' with rfl | hp'
                · refine ⟨rfl, ?_⟩
                  show sizeField (bytes h _) = some n
                  rw [hp]; exact sizeField_take hn (by omega)
                · exact a p hp'
              · simp only [List.map_cons, List.flatten_cons, List.append_assoc]
                rw [c, hp]
                have : bytes h ⟨s.arr, s.off + n, s.len - n, s.cap - n⟩ = (bytes h s).drop n := by
                  simp [bytes, List.drop_take, List.drop_drop]
                rw [this, List.take_append_drop]

/-- What remains isn't a complete packet. -/
theorem split_rest {h : Heap} : ∀ (fuel : Nat) (s : Slice) (ms : List Slice) (rest : Slice), split h fuel s = some (ms, rest) → s.len ≤ fuel →
    rest.len < 8 ∨ ∃ n, sizeField (bytes h rest) = some n ∧ rest.len < n
  | 0, s, ms, rest, e, hf => by simp [split] at e; obtain ⟨_, rfl⟩ := e; left; omega
  | fuel + 1, s, ms, rest, e, hf => by
    unfold split at e
    split at e
    · simp at e; obtain ⟨_, rfl⟩ := e; left; omega
    · split at e
      · cases e
      · rename_i n hn
        split at e
        · cases e
        · split at e
          · rename_i hlt
            simp at e; obtain ⟨_, rfl⟩ := e; exact .inr ⟨n, hn, hlt⟩
          · split at e
            · cases e
            · rename_i ms' rest' he
              simp at e
              obtain ⟨_, rfl⟩ := e
              exact split_rest fuel _ _ _ he (by simp only; omega)

/-- A packet which a service sends says its size. -/
theorem initPacket_says {h : Heap} {s : Slice} (hl : 4 ≤ s.len) (hu : s.len < 4294967296) (hin : s.off + s.len ≤ (h s.arr).length) : sizeField (bytes (initPacket h s) s) = some s.len := by
  unfold initPacket
  split
  · assumption
  · have e : bytes (store h s 0 (sizeBytes s.len)) s = sizeBytes s.len ++ ((h s.arr).drop (s.off + 4)).take (s.len - 4) := by
      have h4 : s.off ≤ (h s.arr).length := by omega
      have hd : ((h s.arr).take s.off).length = s.off := by simp; omega
      simp only [bytes, store, if_true, overwrite, Nat.add_zero, List.append_assoc]
      rw [List.drop_append_of_le_length (by omega), List.drop_of_length_le (by omega), List.nil_append]
      have hs4 : (sizeBytes s.len).length = 4 := rfl
      rw [List.take_append, hs4, List.take_of_length_le (by omega)]
    rw [e]
    simp only [sizeBytes, List.cons_append, List.nil_append, sizeField, UInt8.toNat_ofNat']
    congr 1
    omega

theorem initPacket_sized {h : Heap} {s : Slice} (hs : Sized h s) : initPacket h s = h := by simp [initPacket, show sizeField _ = _ from hs]

theorem initPacket_frame {n : Nat} {h : Heap} {s : Slice} (hs : n ≤ s.arr) : Frame n h (initPacket h s) := by
  unfold initPacket
  split
  · exact fun _ _ => rfl
  · exact store_frame _ _ _ hs

theorem writeStream_full {h : Heap} {s : Slice} (hs : s.cap = 0) (used i : Nat) (d : Bytes) : writeStream h s used i d = h := by simp [writeStream, hs]

/-! ## Invariant -/

structure GoodRun (maxSend bufSize : Nat) (m : Mem) (r : Run) : Prop where
  frozen : r.frozen = ⟨[], nil, nil⟩
  restored : ∀ e ∈ r.restored, e.2.arr < m.next ∧ (e.1 = "origin" → Unbuffered maxSend bufSize (bytes m.heap e.2))
  msgs : ∀ p ∈ r.msgs, p.arr < m.next ∧ Sized m.heap p
  got : ∀ p ∈ r.got, p.arr < m.next ∧ Sized m.heap p
  evs : ∀ p ∈ r.evs, p.arr < m.next
  part : r.part.arr < m.next
  streams : ∀ s ∈ r.streams, s.cap = 0

structure GoodBufs (maxSend bufSize : Nat) (m : Mem) (b : Buffers) : Prop where
  arrs : ∀ s ∈ b.slices, s.arr < m.next
  origin : ∀ e ∈ b.services, e.1 = "origin" → Unbuffered maxSend bufSize (bytes m.heap e.2)

structure Good (maxSend bufSize : Nat) (σ : World) : Prop where
  pos : 0 < σ.mem.next
  pool : ∀ b ∈ σ.pool, GoodBufs maxSend bufSize σ.mem b
  run : ∀ i r, σ.run i = some r → GoodRun maxSend bufSize σ.mem r

theorem GoodRun.frame {maxSend bufSize : Nat} {m m' : Mem} {r : Run} (h : GoodRun maxSend bufSize m r) (hf : Frame m.next m.heap m'.heap) (hn : m.next ≤ m'.next) :
    GoodRun maxSend bufSize m' r := by
  obtain ⟨h1, h2, h3, h4, h5, h6, h7⟩ := h
  refine ⟨h1, fun e he => ?_, fun p hp => ?_, fun p hp => ?_, fun p hp => ?_, by omega, h7⟩
  · have := h2 e he; rw [hf.bytes this.1]; exact ⟨by omega, this.2⟩
  · have := h3 p hp; refine ⟨by omega, ?_⟩; rw [Sized, hf.bytes this.1]; exact this.2
  · have := h4 p hp; refine ⟨by omega, ?_⟩; rw [Sized, hf.bytes this.1]; exact this.2
  · have := h5 p hp; omega

theorem GoodBufs.frame {maxSend bufSize : Nat} {m m' : Mem} {b : Buffers} (h : GoodBufs maxSend bufSize m b) (hf : Frame m.next m.heap m'.heap) (hn : m.next ≤ m'.next) :
    GoodBufs maxSend bufSize m' b := by
  refine ⟨fun s hs => by have := h.arrs s hs; omega, fun e he ho => ?_⟩
  have ha : e.2.arr < m.next := h.arrs e.2 (by simp only [Buffers.slices, List.mem_cons, List.mem_map]; exact .inr (.inr ⟨e, he, rfl⟩))
  rw [hf.bytes ha]; exact h.origin e he ho

/-- A step of one run which leaves the arrays which existed before as they were. -/
theorem good_next {maxSend bufSize : Nat} {σ : World} {m : Mem} {pool : List Buffers} {i : Nat} {r : Option Run} (h : Good maxSend bufSize σ)
    (hf : Frame σ.mem.next σ.mem.heap m.heap) (hn : σ.mem.next ≤ m.next) (hp : ∀ b ∈ pool, b ∈ σ.pool ∨ GoodBufs maxSend bufSize m b)
    (hr : ∀ r', r = some r' → GoodRun maxSend bufSize m r') : Good maxSend bufSize ⟨m, pool, setRun σ.run i r⟩ := by
  refine ⟨by have := h.pos; show 0 < m.next; omega, fun b hb => ?_, fun j r' hj => ?_⟩
  · rcases hp b hb with hb | hb
    · exact (h.pool b hb).frame hf hn
    · exact hb
  · simp only [setRun] at hj
    split at hj
    · exact hr r' hj
    · exact (h.run j r' hj).frame hf hn

theorem finish_all {σ : World} {r : Run} (hr : ∃ maxSend bufSize, GoodRun maxSend bufSize σ.mem r) (hpos : 0 < σ.mem.next) (b piped : Bytes) (room : Nat) :
    let part := alloc σ.mem (bytes σ.mem.heap r.part ++ b) 0
    let out := appendAll part.1 r.frozen.output (r.msgs ++ [part.2]) room
    let inp := alloc out.1 piped room
    let inp' := appendAll inp.1 inp.2 r.evs room
    Frame σ.mem.next σ.mem.heap inp'.1.heap ∧ σ.mem.next ≤ inp'.1.next ∧ out.2.arr < inp'.1.next ∧ inp'.2.arr < inp'.1.next ∧
    bytes inp'.1.heap out.2 = (r.msgs.map (bytes σ.mem.heap)).flatten ++ bytes σ.mem.heap r.part ++ b ∧
    bytes inp'.1.heap inp'.2 = piped ++ (r.evs.map (bytes σ.mem.heap)).flatten := by
  obtain ⟨maxSend, bufSize, hr⟩ := hr
  simp only
  generalize hp : alloc σ.mem (bytes σ.mem.heap r.part ++ b) 0 = part
  have p1 : Frame σ.mem.next σ.mem.heap part.1.heap := hp ▸ alloc_frame _ _ _
  have p2 : part.1.next = σ.mem.next + 1 := by rw [← hp]; rfl
  have p3 : part.2.arr = σ.mem.next := by rw [← hp]; rfl
  have p4 : bytes part.1.heap part.2 = bytes σ.mem.heap r.part ++ b := hp ▸ alloc_bytes _ _ _
  generalize ho : appendAll part.1 r.frozen.output (r.msgs ++ [part.2]) room = out
  have hout := appendAll_all (n := part.1.next) (h := part.1.heap) room (r.msgs ++ [part.2]) part.1 r.frozen.output (Nat.le_refl _) (fun _ _ => rfl)
    (by rw [hr.frozen]; exact ⟨.inr rfl, by simp [Fits, nil]⟩) (by
      intro d hd
      rcases List.mem_append.1 hd with hd | hd
      · have := (hr.msgs d hd).1; omega
      · simp at hd; subst hd; omega)
  rw [ho] at hout
  obtain ⟨o1, o2, o3, o4⟩ := hout
  generalize hi : alloc out.1 piped room = inp
  have i1 : Frame out.1.next out.1.heap inp.1.heap := hi ▸ alloc_frame _ _ _
  have i2 : inp.1.next = out.1.next + 1 := by rw [← hi]; rfl
  have i3 : inp.2.arr = out.1.next := by rw [← hi]; rfl
  have i4 : bytes inp.1.heap inp.2 = piped := hi ▸ alloc_bytes _ _ _
  have hz : out.2.arr < out.1.next := by
    rcases o3.1 with h | h
    · exact h.2
    · rw [h]; show 0 < _; omega
  have hfi : Fresh out.1.next inp.1 inp.2 := hi ▸ alloc_fresh (Nat.le_refl _) _ _
  have hinp := appendAll_all (n := out.1.next) (h := inp.1.heap) room r.evs inp.1 inp.2 (by omega) (fun _ _ => rfl) hfi (by
    intro d hd; have := hr.evs d hd; omega)
  generalize hj : appendAll inp.1 inp.2 r.evs room = inp' at hinp ⊢
  obtain ⟨j1, j2, j3, j4⟩ := hinp
  have f1 : Frame σ.mem.next σ.mem.heap inp.1.heap := (p1.trans (o1.mono (by omega))).trans (i1.mono (by omega))
  refine ⟨f1.trans (j1.mono (by omega)), by omega, by omega, ?_, ?_, ?_⟩
  · rcases j3.1 with h | h
    · exact h.2
    · rw [h]; show 0 < _; omega
  · rw [j1.bytes hz, i1.bytes hz, o4, hr.frozen]
    have e1 : bytes part.1.heap nil = [] := by simp [bytes, nil]
    have e2 : r.msgs.map (bytes part.1.heap) = r.msgs.map (bytes σ.mem.heap) := List.map_congr_left fun d hd => p1.bytes (hr.msgs d hd).1
    simp [e1, e2, p4]
  · have e3 : r.evs.map (bytes inp.1.heap) = r.evs.map (bytes σ.mem.heap) := List.map_congr_left fun d hd => f1.bytes (hr.evs d hd)
    rw [j4, i4, e3]

theorem step_all {ok : Bytes → Prop} {maxSend bufSize : Nat} (hok : ∀ b, ok b → Unbuffered maxSend bufSize b) {σ σ' : World} (h : Good maxSend bufSize σ)
    (hs : Step ok maxSend bufSize σ σ') : Good maxSend bufSize σ' ∧ Frame σ.mem.next σ.mem.heap σ'.mem.heap ∧ σ.mem.next ≤ σ'.mem.next := by
  cases hs with
  | upload data services input output ha ho =>
    have hf := alloc_frame σ.mem data 0
    have hn := alloc_next σ.mem data 0
    refine ⟨⟨by show 0 < (alloc _ _ _).1.next; omega, fun b hb => ?_, fun i r hr => (h.run i r hr).frame hf (by rw [hn]; omega)⟩, hf, by show _ ≤ (alloc _ _ _).1.next; omega⟩
    rcases List.mem_cons.1 hb with rfl | hb
    · exact ⟨fun s hs => by rw [ha s hs]; show _ < (alloc _ _ _).1.next; omega, fun e he hx => hok _ (ho e he hx)⟩
    · exact (h.pool b hb).frame hf (by rw [hn]; omega)
  | launch i b ms rest hi hb hsp =>
    have hg := h.pool b hb
    obtain ⟨s1, s2, _⟩ := split_all _ _ _ _ hsp
    have ho : b.output.arr < σ.mem.next := hg.arrs _ (by simp [Buffers.slices])
    refine ⟨good_next h (fun _ _ => rfl) (Nat.le_refl _) (fun b hb => .inl hb) fun r' hr' => ?_, fun _ _ => rfl, Nat.le_refl _⟩
    cases hr'
    refine ⟨rfl, fun e he => ⟨hg.arrs _ (by simp only [Buffers.slices, List.mem_cons, List.mem_map]; exact .inr (.inr ⟨e, he, rfl⟩)), hg.origin e he⟩,
      fun p hp => ⟨by rw [(s1 p hp).1]; exact ho, (s1 p hp).2⟩, by simp, fun p hp => ?_, by show rest.arr < _; rw [s2]; exact ho, fun s hs => ?_⟩
    · simp only at hp
      split at hp
      · simp at hp
      · simp at hp; subst hp; exact hg.arrs _ (by simp [Buffers.slices])
    · simp only [streamBuffers, List.mem_flatMap] at hs
      obtain ⟨e, he, hs⟩ := hs
      split at hs
      · rename_i hx
        obtain ⟨x, hx', rfl⟩ := List.mem_map.1 hs
        exact hg.origin e he hx x hx'
      · simp at hs
  | event i r b hr =>
    have hf := alloc_frame σ.mem b 0
    have hn := alloc_next σ.mem b 0
    refine ⟨good_next h hf (by omega) (fun b hb => .inl hb) fun r' hr' => ?_, hf, by show _ ≤ (alloc _ _ _).1.next; omega⟩
    cases hr'
    have hg := (h.run i r hr).frame hf (by rw [hn]; omega)
    refine ⟨hg.frozen, hg.restored, hg.msgs, hg.got, fun p hp => ?_, hg.part, hg.streams⟩
    rcases List.mem_append.1 hp with hp | hp
    · exact hg.evs p hp
    · simp at hp; subst hp; rw [hn, alloc_arr]; omega
  | fromService i r b hr hl =>
    have hn := alloc_next σ.mem b 0
    have hf : Frame σ.mem.next σ.mem.heap (initPacket (alloc σ.mem b 0).1.heap (alloc σ.mem b 0).2) :=
      (alloc_frame σ.mem b 0).trans (initPacket_frame (by rw [alloc_arr]; omega))
    refine ⟨good_next h hf (by show _ ≤ (alloc σ.mem b 0).1.next; omega) (fun b hb => .inl hb) fun r' hr' => ?_, hf, by show _ ≤ (alloc σ.mem b 0).1.next; omega⟩
    cases hr'
    have hg := (h.run i r hr).frame (m' := { (alloc σ.mem b 0).1 with heap := initPacket (alloc σ.mem b 0).1.heap (alloc σ.mem b 0).2 }) hf (by show _ ≤ (alloc σ.mem b 0).1.next; omega)
    refine ⟨hg.frozen, hg.restored, hg.msgs, hg.got, fun p hp => ?_, hg.part, hg.streams⟩
    rcases List.mem_append.1 hp with hp | hp
    · exact hg.evs p hp
    · simp at hp; subst hp; show (alloc σ.mem b 0).2.arr < (alloc σ.mem b 0).1.next; rw [hn, alloc_arr]; omega
  | echo i r p hr hp =>
    have hg := h.run i r hr
    have e := initPacket_sized (hg.got p hp).2
    refine ⟨good_next h ?_ (Nat.le_refl _) (fun b hb => .inl hb) fun r' hr' => ?_, ?_, Nat.le_refl _⟩
    · rw [e]; exact fun _ _ => rfl
    · cases hr'
      rw [e]
      refine ⟨hg.frozen, hg.restored, hg.msgs, hg.got, fun q hq => ?_, hg.part, hg.streams⟩
      rcases List.mem_append.1 hq with hq | hq
      · exact hg.evs q hq
      · simp at hq; subst hq; exact (hg.got _ hp).1
    · show Frame _ _ (initPacket _ _)
      rw [e]; exact fun _ _ => rfl
  | fromProgram i r b hr hb =>
    have hf := alloc_frame σ.mem (bytes σ.mem.heap r.part ++ b) 3
    have hn := alloc_next σ.mem (bytes σ.mem.heap r.part ++ b) 3
    refine ⟨good_next h hf (by omega) (fun b hb => .inl hb) fun r' hr' => ?_, hf, by show _ ≤ (alloc _ _ _).1.next; omega⟩
    cases hr'
    have hg := (h.run i r hr).frame hf (by rw [hn]; omega)
    refine ⟨hg.frozen, hg.restored, fun p hp => ?_, hg.got, hg.evs, by show 0 < _; rw [hn]; omega, hg.streams⟩
    rcases List.mem_append.1 hp with hp | hp
    · exact hg.msgs p hp
    · simp at hp; subst hp
      refine ⟨by rw [hn, alloc_arr]; omega, ?_⟩
      rw [Sized, alloc_bytes]
      exact hb
  | deliver i r p ms hr hm =>
    have hg := h.run i r hr
    refine ⟨good_next h (fun _ _ => rfl) (Nat.le_refl _) (fun b hb => .inl hb) fun r' hr' => ?_, fun _ _ => rfl, Nat.le_refl _⟩
    cases hr'
    refine ⟨hg.frozen, hg.restored, fun q hq => hg.msgs q (by rw [hm]; simp [hq]), fun q hq => ?_, hg.evs, hg.part, hg.streams⟩
    rcases List.mem_cons.1 hq with rfl | hq
    · exact hg.msgs _ (by rw [hm]; simp)
    · exact hg.got q hq
  | written i r p es hr hm =>
    have hg := h.run i r hr
    refine ⟨good_next h (fun _ _ => rfl) (Nat.le_refl _) (fun b hb => .inl hb) fun r' hr' => ?_, fun _ _ => rfl, Nat.le_refl _⟩
    cases hr'
    exact ⟨hg.frozen, hg.restored, hg.msgs, hg.got, fun q hq => hg.evs q (by rw [hm]; simp [hq]), hg.part, hg.streams⟩
  | originWrite i r s used pos data hr hs hp =>
    have hg := h.run i r hr
    have e := writeStream_full (h := σ.mem.heap) (hg.streams s hs) used pos data
    refine ⟨⟨h.pos, fun b hb => ?_, fun j r' hj => ?_⟩, ?_, Nat.le_refl _⟩
    · rw [e]; exact h.pool b hb
    · rw [e]; exact h.run j r' hj
    · show Frame _ _ (writeStream _ _ _ _ _)
      rw [e]; exact fun _ _ => rfl
  | finish i r b piped saved room hr hsv =>
    have hg := h.run i r hr
    obtain ⟨f1, f2, f3, f4, _, _⟩ := finish_all ⟨_, _, hg⟩ h.pos b piped room
    simp only at f1 f2 f3 f4 ⊢
    generalize hmo : appendAll (alloc σ.mem (bytes σ.mem.heap r.part ++ b) 0).1 r.frozen.output (r.msgs ++ [(alloc σ.mem (bytes σ.mem.heap r.part ++ b) 0).2]) room = out at f1 f2 f3 f4 ⊢
    generalize hmi : appendAll (alloc out.1 piped room).1 (alloc out.1 piped room).2 r.evs room = inp at f1 f2 f3 f4 ⊢
    obtain ⟨v1, v2, v3⟩ := saveServices_all saved inp.1
    have hf := f1.trans (v1.mono f2)
    refine ⟨good_next h hf (by omega) (fun bs hb => ?_) (fun r' hr' => by cases hr'), hf, by show _ ≤ (saveServices _ _).1.next; omega⟩
    rcases List.mem_cons.1 hb with rfl | hb
    · right
      refine ⟨fun s hs => ?_, fun e he hx => ?_⟩
      · simp only [Buffers.slices, List.mem_cons, List.mem_map] at hs
        rcases hs with rfl | rfl | ⟨e, he, rfl⟩
        · omega
        · omega
        · rcases v3 e he with ⟨s, h1, h2⟩ | ⟨h1, _⟩
          · have := (hg.restored _ (hsv _ h1)).1; rw [h2]; simp only at this; omega
          · exact h1
      · rcases v3 e he with ⟨s, h1, h2⟩ | ⟨_, b, h1, h2⟩
        · have := hg.restored _ (hsv _ h1)
          simp only at this
          rw [h2, hf.bytes this.1]; exact this.2 hx
        · rw [h2]; exact hsv _ h1 hx
    · exact .inl hb
  | fail i => exact ⟨good_next h (fun _ _ => rfl) (Nat.le_refl _) (fun b hb => .inl hb) (fun r' hr' => by cases hr'), fun _ _ => rfl, Nat.le_refl _⟩

/-! ## Properties -/

theorem good_initial (maxSend bufSize : Nat) : Good maxSend bufSize initial := ⟨Nat.one_pos, by simp [initial], by simp [initial]⟩

theorem steps_good {ok : Bytes → Prop} {maxSend bufSize : Nat} (hok : ∀ b, ok b → Unbuffered maxSend bufSize b) {σ σ' : World} (h : Good maxSend bufSize σ)
    (hs : Steps ok maxSend bufSize σ σ') : Good maxSend bufSize σ' ∧ Frame σ.mem.next σ.mem.heap σ'.mem.heap ∧ σ.mem.next ≤ σ'.mem.next := by
  induction hs with
  | refl => exact ⟨h, fun _ _ => rfl, Nat.le_refl _⟩
  | tail _ hs ih =>
    obtain ⟨a, b, c⟩ := ih
    obtain ⟨a', b', c'⟩ := step_all hok a hs
    exact ⟨a', b.trans (b'.mono c), Nat.le_trans c c'⟩

theorem pool_step {ok : Bytes → Prop} {maxSend bufSize : Nat} {σ σ' : World} (hs : Step ok maxSend bufSize σ σ') {b : Buffers} (hb : b ∈ σ.pool) : b ∈ σ'.pool := by
  cases hs <;> first | exact hb | exact List.mem_cons_of_mem _ hb

/-- Whatever is done to the instances which have been launched from a program, or resumed, and however many there are of them at the same time: the program's buffers say what
they said when it was uploaded, or when the snapshot was made — if no uploaded snapshot has data buffered for a connection. -/
theorem buffers_unchanged_partial {ok : Bytes → Prop} {maxSend bufSize : Nat} (hok : ∀ b, ok b → Unbuffered maxSend bufSize b) {σ σ' : World}
    (hr : Steps ok maxSend bufSize initial σ) (hs : Steps ok maxSend bufSize σ σ') {b : Buffers} (hb : b ∈ σ.pool) :
    b ∈ σ'.pool ∧ says σ'.mem.heap b = says σ.mem.heap b := by
  have hg := (steps_good hok (good_initial _ _) hr).1
  have hf := (steps_good hok hg hs).2.1
  refine ⟨?_, ?_⟩
  · clear hf hg hr
    induction hs with
    | refl => exact hb
    | tail _ hs ih => exact pool_step hs ih
  · have ha := (hg.pool b hb).arrs
    have h1 := hf.bytes (ha b.input (by simp [Buffers.slices]))
    have h2 := hf.bytes (ha b.output (by simp [Buffers.slices]))
    simp only [says, h1, h2, Prod.mk.injEq, and_true]
    refine List.map_congr_left fun e he => ?_
    rw [hf.bytes (ha e.2 (by simp only [Buffers.slices, List.mem_cons, List.mem_map]; exact .inr (.inr ⟨e, he, rfl⟩)))]

/-- What the program has sent and what it was about to receive when it was stopped are in the instance's new buffers, in order. -/
theorem buffers_conserved {ok : Bytes → Prop} {maxSend bufSize : Nat} (hok : ∀ b, ok b → Unbuffered maxSend bufSize b) {σ : World}
    (hr : Steps ok maxSend bufSize initial σ) {i : Nat} {r : Run} (hi : σ.run i = some r) (b piped : Bytes) (saved : List Saved) (room : Nat)
    (hsv : ∀ x ∈ saved, match x with
        | .same name s => (name, s) ∈ r.restored
        | .new name b => name = "origin" → Unbuffered maxSend bufSize b) :
    ∃ σ' bs, Step ok maxSend bufSize σ σ' ∧ σ'.pool = bs :: σ.pool ∧ σ'.run i = none ∧
      bytes σ'.mem.heap bs.output = (r.msgs.map (bytes σ.mem.heap)).flatten ++ bytes σ.mem.heap r.part ++ b ∧
      bytes σ'.mem.heap bs.input = piped ++ (r.evs.map (bytes σ.mem.heap)).flatten ∧
      bs.services.map (fun e => (e.1, bytes σ'.mem.heap e.2)) = saved.map fun
        | .same name s => (name, bytes σ.mem.heap s)
        | .new name b => (name, b) := by
  have hg := (steps_good hok (good_initial _ _) hr).1
  have hgr := hg.run i r hi
  have hst := Step.finish (ok := ok) (maxSend := maxSend) (bufSize := bufSize) σ i r b piped saved room hi hsv
  obtain ⟨f1, f2, f3, f4, f5, f6⟩ := finish_all ⟨_, _, hgr⟩ hg.pos b piped room
  simp only at hst f1 f2 f3 f4 f5 f6
  refine ⟨_, _, hst, rfl, by simp [setRun], ?_, ?_, ?_⟩
  all_goals
    generalize appendAll (alloc σ.mem (bytes σ.mem.heap r.part ++ b) 0).1 r.frozen.output (r.msgs ++ [(alloc σ.mem (bytes σ.mem.heap r.part ++ b) 0).2]) room = out at f1 f2 f3 f4 f5 f6 ⊢
    generalize appendAll (alloc out.1 piped room).1 (alloc out.1 piped room).2 r.evs room = inp at f1 f2 f3 f4 f5 f6 ⊢
  · rw [(saveServices_all saved inp.1).1.bytes f3]; exact f5
  · rw [(saveServices_all saved inp.1).1.bytes f4]; exact f6
  · have key : ∀ (l : List Saved) (m : Mem), Frame σ.mem.next σ.mem.heap m.heap → σ.mem.next ≤ m.next → (∀ x ∈ l, ∀ name s, x = .same name s → s.arr < σ.mem.next) →
        (saveServices m l).2.map (fun e => (e.1, bytes (saveServices m l).1.heap e.2)) = l.map fun
          | .same name s => (name, bytes σ.mem.heap s)
          | .new name b => (name, b) := by
      intro l
      induction l with
      | nil => intros; rfl
      | cons x l ih =>
        intro m hf hn hx
        cases x with
        | same name s =>
          have hm := saveServices_all l m
          simp only [saveServices, List.map_cons, List.cons.injEq, Prod.mk.injEq, true_and]
          exact ⟨(hf.trans (hm.1.mono hn)).bytes (hx _ (by simp) name s rfl), ih m hf hn fun y hy => hx y (by simp [hy])⟩
        | new name b =>
          have hm := saveServices_all l (alloc m b 0).1
          simp only [saveServices, List.map_cons, List.cons.injEq, Prod.mk.injEq, true_and]
          refine ⟨?_, ih _ (hf.trans ((alloc_frame m b 0).mono hn)) (by rw [alloc_next]; omega) fun y hy => hx y (by simp [hy])⟩
          rw [hm.1.bytes (by rw [alloc_arr, alloc_next]; omega), alloc_bytes]
    refine key saved inp.1 f1 f2 fun x hx name s e => ?_
    subst e
    exact (hgr.restored _ (hsv _ hx)).1

/-- What the program has sent and the services haven't received. -/
def outgoing (h : Heap) (r : Run) : Bytes := (r.msgs.map (bytes h)).flatten ++ bytes h r.part

/-- What the program is going to receive. -/
def incoming (h : Heap) (r : Run) : Bytes := (r.evs.map (bytes h)).flatten

/-- An instance begins with what the buffers say. -/
theorem launched {ok : Bytes → Prop} {maxSend bufSize : Nat} {σ σ' : World} (hs : Step ok maxSend bufSize σ σ') {i : Nat} {r : Run} (h : σ.run i = none) (h' : σ'.run i = some r) :
    ∃ b ∈ σ.pool, outgoing σ'.mem.heap r = bytes σ.mem.heap b.output ∧ incoming σ'.mem.heap r = bytes σ.mem.heap b.input ∧ r.restored = b.services ∧ r.got = [] := by
  cases hs with
  | launch j b ms rest hi hb hsp =>
    simp only [setRun] at h'
    split at h'
    · cases h'
      refine ⟨b, hb, (split_all _ _ _ _ hsp).2.2, ?_, rfl, rfl⟩
      show (List.map _ (if _ then _ else _)).flatten = _
      split
      · rename_i e; simp [bytes, e]
      · simp
    · rw [h] at h'; cases h'
  | upload data services input output ha ho => rw [h] at h'; cases h'
  | originWrite j r' s used pos data hr hm hp => rw [h] at h'; cases h'
  | fail j =>
    simp only [setRun] at h'
    split at h'
    · cases h'
    · rw [h] at h'; cases h'
  | finish j r' b piped saved room hr hm =>
    simp only [setRun] at h'
    split at h'
    · cases h'
    · rw [h] at h'; cases h'
  | event j r' b hr =>
    simp only [setRun] at h'
    split at h'
    · subst j; rw [h] at hr; cases hr
    · rw [h] at h'; cases h'
  | fromService j r' b hr hb =>
    simp only [setRun] at h'
    split at h'
    · subst j; rw [h] at hr; cases hr
    · rw [h] at h'; cases h'
  | echo j r' b hr hb =>
    simp only [setRun] at h'
    split at h'
    · subst j; rw [h] at hr; cases hr
    · rw [h] at h'; cases h'
  | fromProgram j r' b hr hb =>
    simp only [setRun] at h'
    split at h'
    · subst j; rw [h] at hr; cases hr
    · rw [h] at h'; cases h'
  | deliver j r' p ms hr hb =>
    simp only [setRun] at h'
    split at h'
    · subst j; rw [h] at hr; cases hr
    · rw [h] at h'; cases h'
  | written j r' p ms hr hb =>
    simp only [setRun] at h'
    split at h'
    · subst j; rw [h] at hr; cases hr
    · rw [h] at h'; cases h'

/-- Nothing that goes between a program and the services is lost, repeated, reordered or changed while the instance runs. -/
theorem flows {ok : Bytes → Prop} {maxSend bufSize : Nat} (hok : ∀ b, ok b → Unbuffered maxSend bufSize b) {σ σ' : World}
    (hr : Steps ok maxSend bufSize initial σ) (hs : Step ok maxSend bufSize σ σ') {i : Nat} {r r' : Run} (h : σ.run i = some r) (h' : σ'.run i = some r') :
    ((∃ sent, outgoing σ'.mem.heap r' = outgoing σ.mem.heap r ++ sent ∧ r'.got = r.got) ∨
      ∃ p, outgoing σ.mem.heap r = bytes σ.mem.heap p ++ outgoing σ'.mem.heap r' ∧ r'.got = p :: r.got) ∧
    ((∃ new, incoming σ'.mem.heap r' = incoming σ.mem.heap r ++ new) ∨ ∃ p, incoming σ.mem.heap r = p ++ incoming σ'.mem.heap r') := by
  have hg := (steps_good hok (good_initial _ _) hr).1
  have hgr := hg.run i r h
  obtain ⟨_, hf, _⟩ := step_all hok hg hs
  have hm : r.msgs.map (bytes σ'.mem.heap) = r.msgs.map (bytes σ.mem.heap) := List.map_congr_left fun d hd => hf.bytes (hgr.msgs d hd).1
  have he : r.evs.map (bytes σ'.mem.heap) = r.evs.map (bytes σ.mem.heap) := List.map_congr_left fun d hd => hf.bytes (hgr.evs d hd)
  have hp := hf.bytes hgr.part
  have same : r' = r → ((∃ sent, outgoing σ'.mem.heap r' = outgoing σ.mem.heap r ++ sent ∧ r'.got = r.got) ∨
      ∃ p, outgoing σ.mem.heap r = bytes σ.mem.heap p ++ outgoing σ'.mem.heap r' ∧ r'.got = p :: r.got) ∧
    ((∃ new, incoming σ'.mem.heap r' = incoming σ.mem.heap r ++ new) ∨ ∃ p, incoming σ.mem.heap r = p ++ incoming σ'.mem.heap r') := by
    rintro rfl
    exact ⟨.inl ⟨[], by simp [outgoing, hm, hp], rfl⟩, .inl ⟨[], by simp [incoming, he]⟩⟩
  cases hs with
  | upload data services input output ha ho => rw [h] at h'; cases h'; exact same rfl
  | originWrite j r' s used pos data hr hm hp => rw [h] at h'; cases h'; exact same rfl
  | launch j b ms rest hi hb hsp =>
    simp only [setRun] at h'
    split at h'
    · subst j; rw [h] at hi; cases hi
    · rw [h] at h'; cases h'; exact same rfl
  | fail j =>
    simp only [setRun] at h'
    split at h'
    · cases h'
    · rw [h] at h'; cases h'; exact same rfl
  | finish j r2 b piped saved room hr2 hm2 =>
    simp only [setRun] at h'
    split at h'
    · cases h'
    · rw [h] at h'; cases h'; exact same rfl
  | event j r2 b hr2 =>
    simp only [setRun] at h'
    split at h'
    · subst j; rw [h] at hr2; cases hr2; cases h'
      exact ⟨.inl ⟨[], by simp [outgoing, hm, hp], rfl⟩, .inl ⟨_, (by simp only [incoming, List.map_append, List.flatten_append, he]; rfl)⟩⟩
    · rw [h] at h'; cases h'; exact same rfl
  | fromService j r2 b hr2 hb =>
    simp only [setRun] at h'
    split at h'
    · subst j; rw [h] at hr2; cases hr2; cases h'
      exact ⟨.inl ⟨[], by simp [outgoing, hm, hp], rfl⟩, .inl ⟨_, (by simp only [incoming, List.map_append, List.flatten_append, he]; rfl)⟩⟩
    · rw [h] at h'; cases h'; exact same rfl
  | echo j r2 b hr2 hb =>
    simp only [setRun] at h'
    split at h'
    · subst j; rw [h] at hr2; cases hr2; cases h'
      exact ⟨.inl ⟨[], by simp [outgoing, hm, hp], rfl⟩, .inl ⟨_, (by simp only [incoming, List.map_append, List.flatten_append, he]; rfl)⟩⟩
    · rw [h] at h'; cases h'; exact same rfl
  | fromProgram j r2 b hr2 hb =>
    simp only [setRun] at h'
    split at h'
    · subst j; rw [h] at hr2; cases hr2; cases h'
      refine ⟨.inl ⟨b, ?_, rfl⟩, .inl ⟨[], by simp [incoming, he]⟩⟩
      have e := alloc_bytes σ.mem (bytes σ.mem.heap r.part ++ b) 3
      have z : bytes (alloc σ.mem (bytes σ.mem.heap r.part ++ b) 3).1.heap nil = [] := by simp [bytes, nil]
      simp only [outgoing, List.map_append, List.flatten_append, hm, List.map_cons, List.map_nil, List.flatten_cons, List.flatten_nil, List.append_nil, e, z, List.append_assoc]
    · rw [h] at h'; cases h'; exact same rfl
  | deliver j r2 p ms hr2 hb =>
    simp only [setRun] at h'
    split at h'
    · subst j; rw [h] at hr2; cases hr2; cases h'
      exact ⟨.inr ⟨p, by simp [outgoing, hb], rfl⟩, .inl ⟨[], by simp [incoming]⟩⟩
    · rw [h] at h'; cases h'; exact same rfl
  | written j r2 p ms hr2 hb =>
    simp only [setRun] at h'
    split at h'
    · subst j; rw [h] at hr2; cases hr2; cases h'
      exact ⟨.inl ⟨[], by simp [outgoing], rfl⟩, .inr ⟨bytes σ.mem.heap p, by simp [incoming, hb]⟩⟩
    · rw [h] at h'; cases h'; exact same rfl

/-! ## What the origin service reads from its state -/

theorem spanLoop_data (maxSend bufSize : Nat) : ∀ (n : Nat) (pre input : Bytes) (acc ss : Streams), restoreLoop maxSend bufSize n input acc = .ok ss →
    acc.map (·.2.write.data) ++ (spanLoop maxSend bufSize (pre ++ input).length n input).map (fun x => ((pre ++ input).drop x.1).take x.2) = ss.map (·.2.write.data)
  | 0, pre, input, acc, ss, h => by simp [restoreLoop] at h; simp [spanLoop, h]
  | n + 1, pre, input, acc, ss, h => by
    unfold restoreLoop at h
    rcases scan_total input with ⟨m, h1⟩ | ⟨id, t1, p1, h1, _, e1, _⟩
    · simp [h1] at h
    simp only [h1] at h
    split at h
    · rcases unmarshal_total t1 maxSend with ⟨m, h2⟩ | ⟨r, t2, p2, h2, e2, _⟩
      · simp [streamUnmarshal, h2] at h
      rcases unmarshal_total t2 bufSize with ⟨m, h3⟩ | ⟨w, t3, p3, h3, e3, _, _, _, _, p4, e4⟩
      · simp [streamUnmarshal, h2, h3] at h
      have hu : streamUnmarshal t1 maxSend bufSize = .ok (⟨r, w⟩, t3) := by simp [streamUnmarshal, h2, h3]
      simp only [hu] at h
      split at h
      · cases h
      · have e : pre ++ input = (pre ++ p1 ++ p2 ++ p3) ++ t3 := by rw [e1, e2, e3]; simp
        have ih := spanLoop_data maxSend bufSize n (pre ++ p1 ++ p2 ++ p3) t3 _ ss h
        rw [← ih, ← e]
        simp only [spanLoop, h1, hu, List.map_cons, List.map_append, List.map_nil, List.append_assoc, List.cons_append, List.nil_append]
        congr 2
        have hl : (pre ++ input).length - t3.length - w.data.length = (pre ++ p1 ++ p2 ++ p4).length := by
          rw [e, e4]; simp only [List.length_append]; omega
        rw [hl, e, e4]
        have : pre ++ p1 ++ p2 ++ (p4 ++ w.data) ++ t3 = (pre ++ p1 ++ p2 ++ p4) ++ (w.data ++ t3) := by simp
        rw [this, List.drop_left, List.take_left]
    · cases h

/-- The places are those of the data which the streams get. -/
theorem spans_data {maxSend bufSize : Nat} {input : Bytes} {accepting : Nat} {ss : Streams} (h : restore maxSend bufSize input = .ok (accepting, ss)) :
    (spans maxSend bufSize input).map (fun x => (input.drop x.1).take x.2) = ss.map (·.2.write.data) := by
  unfold restore at h
  split at h
  · rename_i e; subst e; simp at h; obtain ⟨_, rfl⟩ := h; rfl
  · rcases scan_total input with ⟨m, h1⟩ | ⟨a, t1, p1, h1, _, e1, _⟩
    · simp [h1] at h
    simp only [h1] at h
    split at h
    · rename_i e; subst e
      simp at h; obtain ⟨_, rfl⟩ := h
      simp only [spans, h1]
      have : scan [] = .err "EOF" ∨ ∃ m, scan ([] : Bytes) = .err m := .inr ⟨_, rfl⟩
      rcases this with h | ⟨m, h⟩ <;> simp [h]
    · rcases scan_total t1 with ⟨m, h2⟩ | ⟨n, t2, p2, h2, _, e2, _⟩
      · simp [h2] at h
      simp only [h2] at h
      split at h
      · cases h
      · cases h
      · rename_i ss' hl
        simp only [Res.ok.injEq, Prod.mk.injEq] at h
        obtain ⟨_, rfl⟩ := h
        have := spanLoop_data maxSend bufSize n (p1 ++ p2) t2 [] _ hl
        have e : p1 ++ p2 ++ t2 = input := by rw [e1, e2]; simp
        rw [e] at this
        simpa [spans, h1, h2] using this

/-- `streamUnmarshal` takes at least as many bytes as it finds data. -/
theorem spanLoop_in (maxSend bufSize : Nat) : ∀ (n : Nat) (pre input : Bytes), ∀ x ∈ spanLoop maxSend bufSize (pre ++ input).length n input, x.1 + x.2 ≤ (pre ++ input).length
  | 0, _, _ => by simp [spanLoop]
  | n + 1, pre, input => by
    rcases scan_total input with ⟨m, h1⟩ | ⟨id, t1, p1, h1, _, e1, _⟩
    · simp [spanLoop, h1]
    rcases unmarshal_total t1 maxSend with ⟨m, h2⟩ | ⟨r, t2, p2, h2, e2, _⟩
    · simp [spanLoop, h1, streamUnmarshal, h2]
    rcases unmarshal_total t2 bufSize with ⟨m, h3⟩ | ⟨w, t3, p3, h3, e3, _, _, _, _, p4, e4⟩
    · simp [spanLoop, h1, streamUnmarshal, h2, h3]
    have hu : streamUnmarshal t1 maxSend bufSize = .ok (⟨r, w⟩, t3) := by simp [streamUnmarshal, h2, h3]
    have e : pre ++ input = (pre ++ p1 ++ p2 ++ p3) ++ t3 := by rw [e1, e2, e3]; simp
    intro x hx
    simp only [spanLoop, h1, hu, List.mem_cons] at hx
    rcases hx with rfl | hx
    · have : w.data.length + t3.length ≤ (pre ++ input).length := by rw [e, e4]; simp only [List.length_append]; omega
      simp only; omega
    · rw [e] at hx ⊢; exact spanLoop_in maxSend bufSize n _ t3 x hx

theorem spans_in (maxSend bufSize : Nat) (input : Bytes) : ∀ x ∈ spans maxSend bufSize input, x.1 + x.2 ≤ input.length := by
  intro x hx
  rcases scan_total input with ⟨m, h1⟩ | ⟨a, t1, p1, h1, _, e1, _⟩
  · simp [spans, h1] at hx
  rcases scan_total t1 with ⟨m, h2⟩ | ⟨n, t2, p2, h2, _, e2, _⟩
  · simp [spans, h1, h2] at hx
  have e : p1 ++ p2 ++ t2 = input := by rw [e1, e2]; simp
  simp only [spans, h1, h2] at hx
  rw [← e] at hx ⊢
  exact spanLoop_in maxSend bufSize n _ t2 x hx

/-- The states which the origin service itself makes have nothing buffered, as it doesn't keep the data of its streams (service/origin/stream.go:30). -/
theorem suspend_unbuffered (maxSend bufSize : Nat) (hb : goodBuf bufSize = true) (accepting : Nat) (ss : Streams) (ha : accepting ≤ 2 ^ 31 - 1) (hl : ss.length ≤ 2 ^ 31 - 1)
    (hs : ∀ e ∈ ss, Saveable maxSend bufSize e) (hn : (ss.map (·.1)).Nodup) (hdrop : ∀ e ∈ ss, e.2.write.data = []) :
    ∃ state, suspend accepting ss = .ok state ∧ Unbuffered maxSend bufSize state := by
  obtain ⟨state, ss', h1, h2, h3⟩ := suspend_restore maxSend bufSize hb accepting ss ha hl hs hn
  refine ⟨state, h1, ?_⟩
  intro x hx
  have hd := spans_data h2
  have hm : (state.drop x.1).take x.2 ∈ ss'.map (·.2.write.data) := by rw [← hd]; exact List.mem_map_of_mem hx
  obtain ⟨e, he, hee⟩ := List.mem_map.1 hm
  have hv : view e ∈ ss.map view := h3 ▸ List.mem_map_of_mem he
  obtain ⟨y, hy, hye⟩ := List.mem_map.1 hv
  have h4 : y.2.write.data = e.2.write.data := congrArg (fun v : Nat × (Nat × Nat × Bytes) × (Nat × Nat × Bytes) => v.2.2.2.2) hye
  have h5 : ((state.drop x.1).take x.2).length = 0 := by rw [← hee, ← h4, hdrop y hy]; rfl
  have h6 := spans_in maxSend bufSize state x hx
  simp only [List.length_take, List.length_drop] at h5
  omega

/-! ## Executions -/

/-- A module with a packet in its output buffer, and an origin state of one stream without data. -/
def exData : Bytes := [0, 1, 5, 7, 0, 0, 7, 0, 0] ++ [9, 0, 0, 0, 0, 0, 0, 0, 42] ++ [9, 0]

def exBuffers (data : Nat) : Buffers := ⟨[("origin", ⟨1, 0, data, 20⟩)], ⟨1, data, 3, 11⟩, ⟨1, data, 11, 11⟩⟩

/-- A crafted state: the stream has four bytes buffered. -/
def exCrafted : Bytes := [0, 1, 5, 7, 0, 0, 7, 0, 4, 1, 2, 3, 4]

theorem exCrafted_spans : spans 65536 4096 exCrafted = [(9, 4)] := by decide +kernel

theorem exData_unbuffered : Unbuffered 65536 4096 (exData.take 9) := by
  have : spans 65536 4096 (exData.take 9) = [(9, 0)] := by decide +kernel
  intro x hx; rw [this] at hx; simp at hx; rw [hx]

/-- Two instances run with the same buffers; one of them echoes the packet and stops. -/
theorem shared : ∃ σ, Steps (Unbuffered 65536 4096) 65536 4096 initial σ ∧ σ.pool.length = 2 ∧ (σ.run 1).isSome = true ∧ σ.run 0 = none ∧
    σ.pool.map (says σ.mem.heap) =
      [([("origin", [0, 1, 5, 7, 0, 0, 7, 0, 0])], [7, 7, 9, 0, 0] ++ [9, 0, 0, 0, 0, 0, 0, 0, 42], [9, 0, 1]),
       ([("origin", [0, 1, 5, 7, 0, 0, 7, 0, 0])], [9, 0, 0], [9, 0, 0, 0, 0, 0, 0, 0, 42, 9, 0])] := by
  have s1 := Steps.tail (.refl initial) (.upload (ok := Unbuffered 65536 4096) (maxSend := 65536) (bufSize := 4096) initial exData
    (exBuffers 9).services (exBuffers 9).input (exBuffers 9).output (by decide) (by
      intro e he _; simp [exBuffers] at he; subst he; exact exData_unbuffered))
  have s2 := Steps.tail s1 (.launch _ 0 (exBuffers 9) [⟨1, 9, 9, 11⟩] ⟨1, 18, 2, 2⟩ rfl (by simp [exBuffers, initial]) (by decide +kernel))
  have s3 := Steps.tail s2 (.launch _ 1 (exBuffers 9) [⟨1, 9, 9, 11⟩] ⟨1, 18, 2, 2⟩ rfl (by simp [exBuffers, initial]) (by decide +kernel))
  have s4 := Steps.tail s3 (.deliver _ 0 _ ⟨1, 9, 9, 11⟩ [] rfl rfl)
  have s5 := Steps.tail s4 (.echo _ 0 _ ⟨1, 9, 9, 11⟩ rfl (by simp))
  have s6 := Steps.tail s5 (.finish _ 0 _ [1] [7, 7] [.same "origin" ⟨1, 0, 9, 20⟩] 3 rfl (by simp [exBuffers]))
  exact ⟨_, s6, rfl, rfl, rfl, by decide +kernel⟩

/-- The module has been uploaded. -/
def exUploaded : World :=
  ⟨(alloc initial.mem exCrafted 0).1, [⟨[("origin", ⟨1, 0, 13, 13⟩)], ⟨1, 0, 0, 0⟩, ⟨1, 0, 0, 0⟩⟩], fun _ => none⟩

/-- Refuted: a program's buffers are changed by an instance, if the module has been made so that a connection has data buffered in its snapshot. -/
theorem buffers_unchanged_refuted : ∃ (σ σ' : World) (b : Buffers), Steps (fun _ => True) 65536 4096 initial σ ∧ Steps (fun _ => True) 65536 4096 σ σ' ∧ b ∈ σ.pool ∧
    (says σ.mem.heap b).1 = [("origin", [0, 1, 5, 7, 0, 0, 7, 0, 4, 1, 2, 3, 4])] ∧ (says σ'.mem.heap b).1 = [("origin", [0, 1, 5, 7, 0, 0, 7, 0, 4, 66, 67, 3, 4])] := by
  have s1 := Steps.tail (.refl initial) (.upload (ok := fun _ => True) (maxSend := 65536) (bufSize := 4096) initial exCrafted
    [("origin", ⟨1, 0, 13, 13⟩)] ⟨1, 0, 0, 0⟩ ⟨1, 0, 0, 0⟩ (by decide) (by intros; trivial))
  have s2 := Steps.tail (.refl exUploaded) (.launch (ok := fun _ => True) (maxSend := 65536) (bufSize := 4096) _ 0 ⟨[("origin", ⟨1, 0, 13, 13⟩)], ⟨1, 0, 0, 0⟩, ⟨1, 0, 0, 0⟩⟩ [] ⟨1, 0, 0, 0⟩ rfl
    (List.mem_cons_self ..) rfl)
  have s3 := Steps.tail s2 (.originWrite _ 0 _ ⟨1, 9, 4, 4⟩ 0 0 [66, 67] rfl (by decide +kernel) (.inr (by decide)))
  exact ⟨exUploaded, _, _, s1, s3, List.mem_cons_self .., by decide +kernel, by decide +kernel⟩

end Gate.BufAlias
