import Verif.Log
namespace Gate.Log

/-! ### Types -/

/-- Every event has a number and a name of its own, which belong together in the API's enumeration, and the Go type which the generator has given it. -/
theorem types (a b : Ev) : typeNames[a.type]? = some a.name ∧ (a.type = b.type → a = b) ∧ (a.name = b.name → a = b) ∧ title true a.name.toList = a.goName.toList := by
  refine ⟨by cases a <;> rfl, ?_, ?_, by cases a <;> decide +kernel⟩
  · cases a <;> cases b <;> simp [Ev.type]
  · cases a <;> cases b <;> simp [Ev.name]

/-- There's nothing in the enumeration but the events. -/
theorem types_all (s : String) (h : s ∈ typeNames) : ∃ a : Ev, a.name = s := by
  rw [show typeNames = [Ev.failInternal, Ev.failNetwork, Ev.failProtocol, Ev.failRequest, Ev.ifaceAccess, Ev.moduleList, Ev.moduleInfo, Ev.moduleUploadNew, Ev.moduleUploadExist, Ev.moduleSourceNew, Ev.moduleSourceExist, Ev.moduleDownload, Ev.modulePin, Ev.moduleUnpin, Ev.instanceList, Ev.instanceInfo, Ev.instanceCreateKnown, Ev.instanceCreateStream, Ev.instanceStop, Ev.instanceDelete, Ev.instanceConnect, Ev.instanceDisconnect, Ev.instanceWait, Ev.instanceKill, Ev.instanceSuspend, Ev.instanceResume, Ev.instanceSnapshot, Ev.instanceUpdate, Ev.instanceDebug].map Ev.name from rfl, List.mem_map] at h
  exact ⟨h.choose, h.choose_spec.2⟩

theorem internal (a : Ev) : a.type ≤ Ev.failInternal.type ↔ a = .failInternal := by cases a <;> simp [Ev.type]

/-! ### Which log -/

/-- What a logger got. -/
def got (t : Logger) (l : List (Logger × List Char)) : List (List Char) := (l.filter fun p => p.1 = t).map Prod.snd

theorem got_append (t : Logger) (a b : List (Logger × List Char)) : got t (a ++ b) = got t a ++ got t b := by simp [got]

theorem got_printed (t : Logger) (m : Monitor) (h : List Report) : got t (printed m h) = h.flatMap fun r => got t (m r) := by
  induction h with
  | nil => rfl
  | cons r h ih => rw [show printed m (r :: h) = m r ++ printed m h from rfl, got_append, ih]; rfl

theorem flatMap_filter (f : Report → List Char) (p : Report → Bool) (h : List Report) : (h.flatMap fun r => if p r then [f r] else []) = (h.filter p).map f := by
  induction h with
  | nil => rfl
  | cons r h ih => cases hp : p r <;> simp [hp, ih]

/-- The error log has the internal failures, all of them, in order, and nothing else; the event log has all other events if the server is verbose, and nothing otherwise. Each is one line with the event and its error. -/
theorem logs (q : Char → Bool) (v : Bool) (h : List Report) :
    got .error (printed (serverMonitor q (some v) none) h) = (h.filter fun r => r.ev = .failInternal).map (line q) ∧
    got .event (printed (serverMonitor q (some v) none) h) = (if v then (h.filter fun r => r.ev ≠ .failInternal).map (line q) else []) ∧
    got .std (printed (serverMonitor q (some v) none) h) = [] := by
  simp only [got_printed, ← flatMap_filter]
  cases v <;> simp only [serverMonitor, errorEventLogger, errorLogger, internal, if_true, if_false, Bool.false_eq_true] <;> refine ⟨?_, ?_, ?_⟩
  all_goals first
    | (rw [List.flatMap_eq_nil_iff]; intro r _; by_cases h1 : r.ev = .failInternal <;> simp [h1, got])
    | (congr 1; funext r; by_cases h1 : r.ev = .failInternal <;> simp [h1, got])

/-- Without a configuration of its own, the server's monitor prints the internal failures. -/
theorem logs_default (q : Char → Bool) (w : Option Monitor) (h : List Report) : printed (serverMonitor q none w) h = (h.filter fun r => r.ev = .failInternal).map fun r => (.std, line q r) := by
  have h2 : ∀ h : List Report, (h.flatMap fun r => if r.ev = .failInternal then [((Logger.std, line q r) : Logger × List Char)] else []) = (h.filter fun r => r.ev = .failInternal).map fun r => (.std, line q r) := by
    intro h
    induction h with
    | nil => rfl
    | cons r h ih => by_cases hp : r.ev = .failInternal <;> simp [hp, ih]
  rw [← h2]
  simp only [printed, serverMonitor]
  congr 1
  funext r
  simp only [defaultMonitor, internal]

/-- Combined monitors don't hide events from each other: each gets every event, in order, whatever the others do. -/
theorem multi (t : Logger) (l1 l2 : List Monitor) (m : Monitor) (ho : ∀ n ∈ l1 ++ l2, ∀ r, got t (n r) = []) (h : List Report) :
    got t (printed (multiMonitor (l1 ++ m :: l2)) h) = got t (printed m h) := by
  simp only [got_printed]
  congr 1
  funext r
  have h0 : ∀ l : List Monitor, (∀ n ∈ l, ∀ r, got t (n r) = []) → got t (multiMonitor l r) = [] := by
    intro l hl
    induction l with
    | nil => rfl
    | cons n l ih =>
      rw [show multiMonitor (n :: l) r = n r ++ multiMonitor l r from rfl, got_append, hl n (by simp), ih (fun n hn => hl n (by simp [hn]))]; rfl
  rw [show multiMonitor (l1 ++ m :: l2) r = multiMonitor l1 r ++ (m r ++ multiMonitor l2 r) by simp [multiMonitor], got_append, got_append, h0 l1 (fun n hn => ho n (by simp [hn])), h0 l2 (fun n hn => ho n (by simp [hn]))]
  simp

/-- The web monitor doesn't change what is logged. -/
theorem logs_web (q : Char → Bool) (v : Bool) (w : Monitor) (t : Logger) (hw : ∀ r, got t (w r) = []) (h : List Report) :
    got t (printed (serverMonitor q (some v) (some w)) h) = got t (printed (serverMonitor q (some v) none) h) := by
  have := multi t [] [w] (if v then errorEventLogger q else errorLogger q) (by simpa using hw) h
  cases v <;> simpa [serverMonitor] using this

/-! ### Lines -/

/-- Reading a quoted text. -/
def unhexDigit (c : Char) : Option Nat :=
  if 48 ≤ c.toNat ∧ c.toNat < 58 then some (c.toNat - 48) else if 97 ≤ c.toNat ∧ c.toNat < 103 then some (c.toNat - 87) else none

def unhex : Nat → Nat → List Char → Option (Nat × List Char)
  | 0, acc, s => some (acc, s)
  | _ + 1, _, [] => none
  | k + 1, acc, c :: s => (unhexDigit c).bind fun d => unhex k (acc * 16 + d) s

/-- The element which the text begins with, and the rest of the text. -/
def unquoteElem : List Char → Option (Elem × List Char)
  | [] => none
  | '\\' :: [] => none
  | '\\' :: c :: s =>
    if c = '"' ∨ c = '\\' then some (.rune c, s)
    else if c = 'a' then some (.rune (Char.ofNat 7), s)
    else if c = 'b' then some (.rune (Char.ofNat 8), s)
    else if c = 'f' then some (.rune (Char.ofNat 12), s)
    else if c = 'n' then some (.rune (Char.ofNat 10), s)
    else if c = 'r' then some (.rune (Char.ofNat 13), s)
    else if c = 't' then some (.rune (Char.ofNat 9), s)
    else if c = 'v' then some (.rune (Char.ofNat 11), s)
    else if c = 'x' then (unhex 2 0 s).bind fun p => if h : 128 ≤ p.1 ∧ p.1 < 256 then some (.bad ⟨p.1 - 128, by omega⟩, p.2) else some (.rune (Char.ofNat p.1), p.2)
    else if c = 'u' then (unhex 4 0 s).map fun p => (.rune (Char.ofNat p.1), p.2)
    else if c = 'U' then (unhex 8 0 s).map fun p => (.rune (Char.ofNat p.1), p.2)
    else none
  | c :: s => some (.rune c, s)

/-- The elements up to the quotation mark. -/
def unquote : Nat → List Char → Option (List Elem × List Char)
  | 0, _ => none
  | _ + 1, [] => none
  | n + 1, c :: s => if c = '"' then some ([], s) else (unquoteElem (c :: s)).bind fun p => (unquote n p.2).map fun q => (p.1 :: q.1, q.2)

theorem unhexDigit_hexDigit (d : Nat) (h : d < 16) : unhexDigit (hexDigit d) = some d := by
  have : ∀ d : Fin 16, unhexDigit (hexDigit d.val) = some d.val := by decide +kernel
  exact this ⟨d, h⟩

theorem unhex_hex (k : Nat) : ∀ (j acc n : Nat) (t : List Char), n < 16 ^ k → unhex (k + j) acc (hex k n ++ t) = unhex j (acc * 16 ^ k + n) t := by
  induction k with
  | zero => intro j acc n t h; simp at h; subst h; simp [hex]
  | succ k ih =>
    intro j acc n t h
    rw [show k + 1 + j = k + (j + 1) by omega, hex, List.append_assoc, ih (j + 1) acc (n / 16) _ (by rw [Nat.pow_succ] at h; omega)]
    rw [List.singleton_append, unhex, unhexDigit_hexDigit _ (Nat.mod_lt _ (by omega))]
    simp only [Option.bind_some]
    congr 1
    rw [Nat.pow_succ, ← Nat.mul_assoc]
    omega

theorem unhex_all (k n : Nat) (t : List Char) (h : n < 16 ^ k) : unhex k 0 (hex k n ++ t) = some (n, t) := by
  have := unhex_hex k 0 0 n t h
  simpa [unhex] using this

theorem char_lt (c : Char) : c.toNat < 16 ^ 8 := by
  have := c.val.toNat_lt
  exact this

theorem of_toNat {c : Char} {n : Nat} (h : c.toNat = n) : Char.ofNat n = c := by rw [← h, Char.ofNat_toNat]

/-- A quoted element can be read back. -/
theorem unquote_elem (q : Char → Bool) (e : Elem) (s : List Char) : unquoteElem (quoteElem q e ++ s) = some (e, s) := by
  cases e with
  | bad b =>
    have hb := b.isLt
    have h1 := unhex_all 2 (128 + b.val) s (by omega)
    simp only [quoteElem, List.cons_append, unquoteElem]
    simp [h1]
    omega
  | rune c =>
    simp only [quoteElem]
    by_cases h1 : c = '"'
    · subst h1; rfl
    by_cases h2 : c = '\\'
    · subst h2; rfl
    rw [if_neg h1, if_neg h2]
    by_cases h3 : q c = true
    · rw [if_pos h3, List.singleton_append, unquoteElem.eq_4]
      · intro h; exact absurd h h2
      · intro c' s' h; exact absurd h h2
    rw [if_neg h3]
    split
    · next h => (simp [unquoteElem]; exact of_toNat h)
    split
    · next h => (simp [unquoteElem]; exact of_toNat h)
    split
    · next h => (simp [unquoteElem]; exact of_toNat h)
    split
    · next h => (simp [unquoteElem]; exact of_toNat h)
    split
    · next h => (simp [unquoteElem]; exact of_toNat h)
    split
    · next h => (simp [unquoteElem]; exact of_toNat h)
    split
    · next h => (simp [unquoteElem]; exact of_toNat h)
    split
    · next h =>
      have h' : c.toNat < 128 := by simp at h; omega
      have h4 := unhex_all 2 c.toNat s (by omega)
      simp only [List.cons_append, unquoteElem]
      simp [h4, show ¬ 128 ≤ c.toNat by omega, Char.ofNat_toNat]
    split
    · next h =>
      have h4 := unhex_all 4 c.toNat s (by omega)
      simp only [List.cons_append, unquoteElem]
      simp [h4, Char.ofNat_toNat]
    · have h4 := unhex_all 8 c.toNat s (char_lt c)
      simp only [List.cons_append, unquoteElem]
      simp [h4, Char.ofNat_toNat]

/-- A quoted element begins with something else than a quotation mark. -/
theorem quote_head (q : Char → Bool) (e : Elem) : ∃ c t, quoteElem q e = c :: t ∧ c ≠ '"' := by
  cases e with
  | bad b => exact ⟨_, _, rfl, by decide⟩
  | rune c =>
    simp only [quoteElem]
    by_cases h1 : c = '"'
    · exact ⟨_, _, if_pos h1, by decide⟩
    rw [if_neg h1]
    by_cases h2 : c = '\\'
    · exact ⟨_, _, if_pos h2, by decide⟩
    rw [if_neg h2]
    by_cases h3 : q c = true
    · exact ⟨_, _, if_pos h3, h1⟩
    rw [if_neg h3]
    iterate 9 (split; (exact ⟨_, _, rfl, by decide⟩))
    exact ⟨_, _, rfl, by decide⟩

/-- A quoted text can be read back, and its end be found, whatever it is and whatever follows. -/
theorem unquote_quote (q : Char → Bool) (e : List Elem) (s : List Char) : ∀ n, e.length < n → unquote n ((quote q e).tail ++ s) = some (e, s) := by
  simp only [quote, List.tail_cons]
  induction e with
  | nil => intro n h; cases n with
    | zero => cases h
    | succ n => simp [unquote]
  | cons x e ih =>
    intro n h
    cases n with
    | zero => cases h
    | succ n =>
      obtain ⟨c, t, h1, h2⟩ := quote_head q x
      have h3 := unquote_elem q x (e.flatMap (quoteElem q) ++ ['"'] ++ s)
      simp only [List.flatMap_cons, List.append_assoc] at h3 ⊢
      rw [h1, List.cons_append] at h3 ⊢
      rw [unquote, if_neg h2, h3]
      have := ih n (by simpa using h)
      simp only [List.append_assoc] at this
      rw [Option.bind_some, this]
      rfl

theorem hexDigit_ne (d : Nat) (h : d < 16) : hexDigit d ≠ '\n' := by
  have : ∀ d : Fin 16, hexDigit d.val ≠ '\n' := by decide +kernel
  exact this ⟨d, h⟩

theorem hex_ne (k : Nat) : ∀ n, '\n' ∉ hex k n := by
  induction k with
  | zero => intro n; simp [hex]
  | succ k ih =>
    intro n
    simp only [hex, List.mem_append, List.mem_singleton, not_or]
    exact ⟨ih _, fun h => hexDigit_ne _ (Nat.mod_lt n (by omega)) h.symm⟩

theorem quoteElem_ne (q : Char → Bool) (hq : q '\n' = false) (e : Elem) : '\n' ∉ quoteElem q e := by
  cases e with
  | bad b => simp only [quoteElem, List.mem_cons, not_or]; exact ⟨by decide, by decide, hex_ne _ _⟩
  | rune c =>
    simp only [quoteElem]
    by_cases h1 : c = '"'
    · rw [if_pos h1, h1]; decide
    by_cases h2 : c = '\\'
    · rw [if_neg h1, if_pos h2, h2]; decide
    rw [if_neg h1, if_neg h2]
    split
    · next h => simp only [List.mem_singleton]; rintro rfl; rw [hq] at h; cases h
    repeat' split
    all_goals simp only [List.mem_cons, not_or, List.not_mem_nil, not_false_eq_true, and_true]
    all_goals first | exact ⟨by decide, by decide, hex_ne _ _⟩ | exact ⟨by decide, by decide⟩

theorem name_ne (a : Ev) : '\n' ∉ a.name.toList := by cases a <;> decide +kernel

/-- An error can't break a line, and so can't make up another event. -/
theorem one_line (q : Char → Bool) (hq : q '\n' = false) (r : Report) (ht : '\n' ∉ r.text) : '\n' ∉ line q r := by
  unfold line
  have h0 : '\n' ∉ "  event:".toList := by decide
  have h00 : '\n' ∉ "  error:".toList := by decide
  cases r.err with
  | none => simp only [List.mem_append, not_or]; exact ⟨⟨ht, h0⟩, name_ne _⟩
  | some e =>
    simp only [List.mem_append, not_or, quote, List.mem_cons, List.mem_flatMap, List.mem_singleton, List.not_mem_nil, or_false, not_exists, not_and]
    exact ⟨⟨⟨⟨ht, h0⟩, name_ne _⟩, h00⟩, by decide, fun x _ => quoteElem_ne q hq x, by decide⟩

/-- The error can be read from the line: reports of the same event with the same line have the same error, or none. -/
theorem error_kept (q : Char → Bool) (r r' : Report) (ht : r.text = r'.text) (he : r.ev = r'.ev) (h : line q r = line q r') : r.err = r'.err := by
  unfold line at h
  rw [ht, he] at h
  cases h1 : r.err with
  | none =>
    cases h2 : r'.err with
    | none => rfl
    | some e => rw [h1, h2] at h; have := congrArg List.length h; simp at this
  | some e =>
    cases h2 : r'.err with
    | none => rw [h1, h2] at h; have := congrArg List.length h; simp at this
    | some e' =>
      rw [h1, h2] at h
      simp only at h
      have h3 := List.append_cancel_left h
      have a1 := unquote_quote q e [] (e.length + e'.length + 1) (by omega)
      have a2 := unquote_quote q e' [] (e.length + e'.length + 1) (by omega)
      rw [h3, a2] at a1
      simp at a1
      rw [a1]

/-! ### Non-vacuity -/

def plain (c : Char) : Bool := 32 ≤ c.toNat && c.toNat < 127

example : plain '\n' = false := by decide

/-- An error which tries to make up an event. -/
def forged : Report := { ev := .failInternal, text := "ctx:{}".toList, err := some ([.rune 'x', .rune '"', .rune '\n', .bad ⟨0, by decide⟩] ++ ("  event:MODULE_PIN".toList.map .rune)) }

example : line plain forged = "ctx:{}  event:FAIL_INTERNAL  error:\"x\\\"\\n\\x80  event:MODULE_PIN\"".toList := by decide +kernel

example : printed (serverMonitor plain (some true) none) [{ ev := .modulePin, text := "a".toList, err := none }, forged, { ev := .failNetwork, text := "b".toList, err := some [.rune 'e'] }] =
    [(.event, "a  event:MODULE_PIN".toList), (.error, line plain forged), (.event, "b  event:FAIL_NETWORK  error:\"e\"".toList)] := by decide +kernel

end Gate.Log
