import Verif.Services
import Verif.PacketProps
import Verif.FramingProps
/-
C16, C17 (service discovery packets), C21 (registry lookup), C22 (discovery),
C23 (service state over suspension), C55 (catalog), C56 (restorability).
-/
namespace Gate.Services
open Gate Gate.Packet

/-! ### C21: specification from the history of operations alone

Histories are written newest first in the specification. -/

/-- How many registries a history has created. -/
def created : List Op → Nat
  | [] => 0
  | .new :: older => created older + 1
  | .clone r :: older => if r < created older then created older + 1 else created older
  | .register .. :: older => created older
  | .mustRegister .. :: older => created older

/-- A valid string: 1 to 127 bytes, all characters allowed. -/
def ValidString (ok : Bytes → Bool) (s : Bytes) : Prop := 1 ≤ s.length ∧ s.length ≤ 127 ∧ ok s = true

instance (ok s) : Decidable (ValidString ok s) := inferInstanceAs (Decidable (_ ∧ _ ∧ _))

def ValidFactory (cat : Categories) (f : Factory) : Prop :=
  ValidString cat.nameOk f.name ∧ ValidString cat.revOk f.revision

instance (cat f) : Decidable (ValidFactory cat f) := inferInstanceAs (Decidable (_ ∧ _))

/-- The factory registered last in registry `r` itself under `name`: `Register` counts
if nothing is registered there yet, `MustRegister` always does. -/
def own (cat : Categories) : List Op → Nat → Name → Option Factory
  | [], _, _ => none
  | op :: older, r, name =>
    match op with
    | .new => own cat older r name
    | .clone _ => own cat older r name
    | .register x f =>
      if x = r ∧ x < created older ∧ f.name = name ∧ ValidFactory cat f ∧ own cat older r name = none then some f
      else own cat older r name
    | .mustRegister x f =>
      if x = r ∧ x < created older ∧ f.name = name ∧ ValidFactory cat f then some f
      else own cat older r name

/-- The registry `r` was cloned from. -/
def parentIn : List Op → Nat → Option Nat
  | [], _ => none
  | op :: older, r =>
    match op with
    | .clone p => if p < created older ∧ r = created older then some p else parentIn older r
    | _ => parentIn older r

/-- The nearest registry of the clone chain that has the name decides. -/
inductive Nearest (cat : Categories) (hist : List Op) (name : Name) : Nat → Option Factory → Prop
  | own {r f} : own cat hist r name = some f → Nearest cat hist name r (some f)
  | up {r p res} : own cat hist r name = none → parentIn hist r = some p →
      Nearest cat hist name p res → Nearest cat hist name r res
  | top {r} : own cat hist r name = none → parentIn hist r = none → Nearest cat hist name r none

theorem checkString_spec (ok : Bytes → Bool) (s : Bytes) :
    (ValidString ok s → checkString ok s = .ok ()) ∧ (¬ ValidString ok s → ∃ m, checkString ok s = .err m) := by
  unfold checkString ValidString maxServiceStringLen
  by_cases h0 : s.length = 0
  · simp [h0]
  by_cases h1 : s.length > 127
  · simp [h0, h1]; omega
  simp only [h0, h1, if_false]
  cases ok s <;> simp <;> omega

theorem register_spec (cat : Categories) (node : Node) (f : Factory) (rep : Bool) :
    (ValidFactory cat f ∧ (rep = true ∨ find f.name node.factories = none) →
      register cat node f rep = .ok { node with factories := (f.name, f) :: node.factories }) ∧
    (¬ (ValidFactory cat f ∧ (rep = true ∨ find f.name node.factories = none)) →
      ∃ m, register cat node f rep = .err m) := by
  unfold register
  have h1 := checkString_spec cat.nameOk f.name
  have h2 := checkString_spec cat.revOk f.revision
  constructor
  · rintro ⟨⟨v1, v2⟩, hr⟩
    rw [h1.1 v1, h2.1 v2]
    simp only [Res.bind_ok]
    rcases hr with hr | hr <;> simp [hr]
  · intro hn
    by_cases v1 : ValidString cat.nameOk f.name
    · rw [h1.1 v1]
      by_cases v2 : ValidString cat.revOk f.revision
      · rw [h2.1 v2]
        have : rep = false ∧ find f.name node.factories ≠ none := by
          by_cases hr : rep = true
          · exact absurd ⟨⟨v1, v2⟩, Or.inl hr⟩ hn
          · refine ⟨by simpa using hr, fun hf => hn ⟨⟨v1, v2⟩, Or.inr hf⟩⟩
        simp only [Res.bind_ok]
        obtain ⟨g, hg⟩ := Option.ne_none_iff_exists'.mp this.2
        exact ⟨"service already registered", by simp [this.1, hg]⟩
      · obtain ⟨m, hm⟩ := h2.2 v2
        exact ⟨m, by rw [hm]; rfl⟩
    · obtain ⟨m, hm⟩ := h1.2 v1
      exact ⟨m, by rw [hm]; rfl⟩

/-- The heap agrees with the specification of its history. -/
structure Agrees (cat : Categories) (hist : List Op) (h : Heap) : Prop where
  len : h.length = created hist
  nodes : ∀ i node, h[i]? = some node →
    (∀ name, find name node.factories = own cat hist i name) ∧ node.parent = parentIn hist i ∧
    (∀ p, node.parent = some p → p < i)

theorem own_none_of_ge (cat : Categories) (hist : List Op) (r : Nat) (name : Name) (hr : created hist ≤ r) :
    own cat hist r name = none := by
  induction hist with
  | nil => rfl
  | cons op older ih =>
    cases op with
    | new => exact ih (by simp [created] at hr; omega)
    | clone x => exact ih (by simp only [created] at hr; split at hr <;> omega)
    | register x f =>
      simp only [created] at hr
      simp only [own]
      rw [if_neg (by rintro ⟨h1, h2, _⟩; omega)]
      exact ih hr
    | mustRegister x f =>
      simp only [created] at hr
      simp only [own]
      rw [if_neg (by rintro ⟨h1, h2, _⟩; omega)]
      exact ih hr

theorem parent_none_of_ge (hist : List Op) (r : Nat) (hr : created hist ≤ r) :
    parentIn hist r = none := by
  induction hist with
  | nil => rfl
  | cons op older ih =>
    cases op with
    | new => exact ih (by simp [created] at hr; omega)
    | clone x =>
      simp only [created] at hr
      simp only [parentIn]
      split at hr
      · rw [if_neg (by omega)]; exact ih (by omega)
      · rw [if_neg (by omega)]; exact ih (by omega)
    | register x f => exact ih hr
    | mustRegister x f => exact ih hr

theorem getElem?_snoc {α} (l : List α) (a b : α) (i : Nat) (h : (l ++ [a])[i]? = some b) :
    (i < l.length ∧ l[i]? = some b) ∨ (i = l.length ∧ b = a) := by
  by_cases hi : i < l.length
  · rw [List.getElem?_append_left hi] at h; exact Or.inl ⟨hi, h⟩
  · rw [List.getElem?_append_right (by omega)] at h
    right
    have : i - l.length = 0 := by
      by_cases h0 : i - l.length = 0
      · exact h0
      · rw [List.getElem?_eq_none (by simp; omega)] at h; cases h
    rw [this] at h
    simp at h
    exact ⟨by omega, h.symm⟩

theorem agrees_apply (cat : Categories) (hist : List Op) (h : Heap) (ha : Agrees cat hist h) (op : Op) :
    Agrees cat (op :: hist) (apply cat h op) := by
  obtain ⟨hl, hn⟩ := ha
  cases op with
  | new =>
    refine ⟨by simp [apply, created, hl], ?_⟩
    intro i node hi
    rcases getElem?_snoc _ _ _ _ hi with ⟨_, h2⟩ | ⟨h1, h2⟩
    · exact hn i node h2
    · subst h2
      refine ⟨fun name => ?_, ?_, by simp⟩
      · exact (own_none_of_ge cat hist i name (by omega)).symm
      · exact (parent_none_of_ge hist i (by omega)).symm
  | clone r =>
    simp only [apply]
    by_cases hr : r < h.length
    · rw [if_pos hr]
      refine ⟨by simp [created, hl.symm, hr], ?_⟩
      intro i node hi
      rcases getElem?_snoc _ _ _ _ hi with ⟨h1, h2⟩ | ⟨h1, h2⟩
      · obtain ⟨a, b, c⟩ := hn i node h2
        refine ⟨a, ?_, c⟩
        simp only [parentIn]
        rw [if_neg (by omega)]; exact b
      · subst h2
        refine ⟨fun name => ?_, ?_, ?_⟩
        · exact (own_none_of_ge cat hist i name (by omega)).symm
        · simp only [parentIn]; rw [if_pos (by omega)]
        · intro p hp; cases hp; omega
    · rw [if_neg hr]
      refine ⟨by simp only [created]; rw [if_neg (by omega)]; exact hl, ?_⟩
      intro i node hi
      obtain ⟨a, b, c⟩ := hn i node hi
      refine ⟨a, ?_, c⟩
      simp only [parentIn]
      rw [if_neg (by omega)]; exact b
  | register r f =>
    simp only [apply]
    cases hx : h[r]? with
    | none =>
      refine ⟨by simpa [created] using hl, ?_⟩
      intro i node hi
      obtain ⟨a, b, c⟩ := hn i node hi
      refine ⟨fun name => ?_, b, c⟩
      have : h.length ≤ r := by simpa using hx
      simp only [own]; rw [if_neg (by omega)]; exact a name
    | some nd =>
      have hrl : r < h.length := by
        rcases Nat.lt_or_ge r h.length with hh | hh
        · exact hh
        · rw [List.getElem?_eq_none hh] at hx; cases hx
      obtain ⟨a0, b0, c0⟩ := hn r nd hx
      simp only
      by_cases hv : ValidFactory cat f ∧ ((false : Bool) = true ∨ find f.name nd.factories = none)
      · rw [(register_spec cat nd f false).1 hv]
        refine ⟨by simpa [created] using hl, ?_⟩
        intro i node hi
        rw [List.getElem?_set] at hi
        split at hi
        · rename_i hri
          subst hri
          simp only [Option.some.injEq] at hi
          subst hi
          refine ⟨fun name => ?_, b0, c0⟩
          simp only [find, own]
          by_cases hname : f.name = name
          · rw [if_pos hname, if_pos]
            refine ⟨trivial, by omega, hname, hv.1, ?_⟩
            rw [← a0, ← hname]
            simpa using hv.2
          · rw [if_neg hname, if_neg (fun hc => hname hc.2.2.1)]; exact a0 name
        · rename_i hri
          obtain ⟨a, b, c⟩ := hn i node hi
          refine ⟨fun name => ?_, b, c⟩
          simp only [own]; rw [if_neg (fun hc => hri hc.1)]; exact a name
      · obtain ⟨m, hm⟩ := (register_spec cat nd f false).2 hv
        rw [hm]
        refine ⟨by simpa [created] using hl, ?_⟩
        intro i node hi
        obtain ⟨a, b, c⟩ := hn i node hi
        refine ⟨fun name => ?_, b, c⟩
        simp only [own]
        rw [if_neg]
        · exact a name
        · rintro ⟨h1, h2, h3, h4, h5⟩
          subst h1; subst h3
          exact hv ⟨h4, Or.inr (by rw [a0]; exact h5)⟩
  | mustRegister r f =>
    simp only [apply]
    cases hx : h[r]? with
    | none =>
      refine ⟨by simpa [created] using hl, ?_⟩
      intro i node hi
      obtain ⟨a, b, c⟩ := hn i node hi
      refine ⟨fun name => ?_, b, c⟩
      have : h.length ≤ r := by simpa using hx
      simp only [own]; rw [if_neg (by omega)]; exact a name
    | some nd =>
      have hrl : r < h.length := by
        rcases Nat.lt_or_ge r h.length with hh | hh
        · exact hh
        · rw [List.getElem?_eq_none hh] at hx; cases hx
      obtain ⟨a0, b0, c0⟩ := hn r nd hx
      simp only
      by_cases hv : ValidFactory cat f ∧ ((true : Bool) = true ∨ find f.name nd.factories = none)
      · rw [(register_spec cat nd f true).1 hv]
        refine ⟨by simpa [created] using hl, ?_⟩
        intro i node hi
        rw [List.getElem?_set] at hi
        split at hi
        · rename_i hri
          subst hri
          simp only [Option.some.injEq] at hi
          subst hi
          refine ⟨fun name => ?_, b0, c0⟩
          simp only [find, own]
          by_cases hname : f.name = name
          · rw [if_pos hname, if_pos ⟨trivial, by omega, hname, hv.1⟩]
          · rw [if_neg hname, if_neg (fun hc => hname hc.2.2.1)]; exact a0 name
        · rename_i hri
          obtain ⟨a, b, c⟩ := hn i node hi
          refine ⟨fun name => ?_, b, c⟩
          simp only [own]; rw [if_neg (fun hc => hri hc.1)]; exact a name
      · obtain ⟨m, hm⟩ := (register_spec cat nd f true).2 hv
        rw [hm]
        refine ⟨by simpa [created] using hl, ?_⟩
        intro i node hi
        obtain ⟨a, b, c⟩ := hn i node hi
        refine ⟨fun name => ?_, b, c⟩
        simp only [own]
        rw [if_neg]
        · exact a name
        · rintro ⟨h1, h2, h3, h4⟩
          exact hv ⟨h4, Or.inl rfl⟩

theorem agrees_run (cat : Categories) (ops : List Op) : Agrees cat ops.reverse (run cat ops) := by
  have key : ∀ (l hist : List Op) (h : Heap), Agrees cat hist h →
      Agrees cat (l.reverse ++ hist) (l.foldl (apply cat) h) := by
    intro l
    induction l with
    | nil => intro hist h ha; exact ha
    | cons op l ih =>
      intro hist h ha
      have := ih (op :: hist) _ (agrees_apply cat hist h ha op)
      simpa using this
  have := key ops [] [] ⟨rfl, by simp⟩
  rw [List.append_nil] at this
  exact this

theorem lookupLoop_nearest (cat : Categories) (hist : List Op) (h : Heap) (ha : Agrees cat hist h) (name : Name) :
    ∀ (fuel r : Nat), r < h.length → r < fuel → Nearest cat hist name r (lookupLoop h name fuel r) := by
  intro fuel
  induction fuel with
  | zero => intro r _ hf; omega
  | succ fuel ih =>
    intro r hr hf
    have hx : h[r]? = some h[r] := List.getElem?_eq_getElem hr
    obtain ⟨a, b, c⟩ := ha.nodes r _ hx
    rw [lookupLoop, hx]
    simp only
    cases hfind : find name h[r].factories with
    | some f => exact .own (by rw [← a]; exact hfind)
    | none =>
      simp only
      cases hp : h[r].parent with
      | none => exact .top (by rw [← a]; exact hfind) (by rw [← b]; exact hp)
      | some p =>
        have := c p hp
        exact .up (by rw [← a]; exact hfind) (by rw [← b]; exact hp) (ih p (by omega) (by omega))

/-- C21: after any history of registry operations, a lookup returns what the nearest
registry of the clone chain that has the name registered last. -/
theorem lookup_spec (cat : Categories) (ops : List Op) (r : Nat) (name : Name)
    (hr : r < created ops.reverse) : Nearest cat ops.reverse name r (lookup (run cat ops) r name) := by
  have ha := agrees_run cat ops
  exact lookupLoop_nearest cat _ _ ha name _ r (by rw [ha.len]; exact hr) (by rw [ha.len]; omega)

/-- The specification determines the result. -/
theorem nearest_unique (cat : Categories) (hist : List Op) (name : Name) (r : Nat) (a b : Option Factory)
    (ha : Nearest cat hist name r a) (hb : Nearest cat hist name r b) : a = b := by
  induction ha generalizing b with
  | own h => cases hb with
    | own h' => rw [h] at h'; exact h'
    | up h' => rw [h] at h'; cases h'
    | top h' => rw [h] at h'; cases h'
  | up h hp _ ih => cases hb with
    | own h' => rw [h] at h'; cases h'
    | up h' hp' hn => rw [hp] at hp'; cases hp'; exact ih b hn
    | top h' hp' => rw [hp] at hp'; cases hp'
  | top h hp => cases hb with
    | own h' => rw [h] at h'; cases h'
    | up h' hp' => rw [hp] at hp'; cases hp'
    | top => rfl

theorem own_valid (cat : Categories) (hist : List Op) (r : Nat) (name : Name) (f : Factory)
    (h : own cat hist r name = some f) : f.name = name ∧ ValidFactory cat f := by
  induction hist with
  | nil => cases h
  | cons op older ih =>
    cases op with
    | new => exact ih h
    | clone x => exact ih h
    | register x g =>
      simp only [own] at h
      split at h
      · rename_i hc; cases h; exact ⟨hc.2.2.1, hc.2.2.2.1⟩
      · exact ih h
    | mustRegister x g =>
      simp only [own] at h
      split at h
      · rename_i hc; cases h; exact ⟨hc.2.2.1, hc.2.2.2⟩
      · exact ih h

/-- C21: whatever a lookup finds has the name asked for, and valid strings. -/
theorem lookup_valid (cat : Categories) (ops : List Op) (r : Nat) (name : Name) (f : Factory)
    (hr : r < created ops.reverse) (h : lookup (run cat ops) r name = some f) :
    f.name = name ∧ ValidFactory cat f := by
  have key : ∀ r res, Nearest cat ops.reverse name r res → ∀ f, res = some f → f.name = name ∧ ValidFactory cat f := by
    intro r res hn
    induction hn with
    | own h => intro f hf; cases hf; exact own_valid cat _ _ _ _ h
    | up _ _ _ ih => exact ih
    | top => intro f hf; cases hf
  exact key r _ (lookup_spec cat ops r name hr) f h

/-- Operations that only touch registries numbered `n` or more (those created later). -/
def TouchesFrom (n : Nat) : Op → Prop
  | .new => True
  | .clone _ => True
  | .register r _ => n ≤ r
  | .mustRegister r _ => n ≤ r

theorem own_later (cat : Categories) (n : Nat) (name : Name) (r : Nat) (hr : r < n) (hist : List Op) :
    ∀ more : List Op, (∀ op ∈ more, TouchesFrom n op) → own cat (more ++ hist) r name = own cat hist r name := by
  intro more
  induction more with
  | nil => intro _; rfl
  | cons op more ih =>
    intro hm
    have hop := hm op (by simp)
    have := ih (fun o ho => hm o (by simp [ho]))
    cases op with
    | new => exact this
    | clone x => exact this
    | register x f =>
      simp only [TouchesFrom] at hop
      simp only [List.cons_append, own]; rw [if_neg (by omega)]; exact this
    | mustRegister x f =>
      simp only [TouchesFrom] at hop
      simp only [List.cons_append, own]; rw [if_neg (by omega)]; exact this

theorem created_mono (hist : List Op) : ∀ more : List Op, created hist ≤ created (more ++ hist) := by
  intro more
  induction more with
  | nil => exact Nat.le_refl _
  | cons op more ih =>
    cases op <;> simp only [List.cons_append, created]
    · omega
    · split <;> omega
    · exact ih
    · exact ih

theorem parent_later (hist : List Op) (r : Nat) (hr : r < created hist) :
    ∀ more : List Op, parentIn (more ++ hist) r = parentIn hist r := by
  intro more
  induction more with
  | nil => rfl
  | cons op more ih =>
    have := created_mono hist more
    cases op with
    | clone p => simp only [List.cons_append, parentIn]; rw [if_neg (by omega)]; exact ih
    | _ => exact ih

theorem nearest_later (cat : Categories) (name : Name) (hist more : List Op)
    (hm : ∀ op ∈ more, TouchesFrom (created hist) op) (r : Nat) (hr : r < created hist) (res : Option Factory)
    (hn : Nearest cat hist name r res) : Nearest cat (more ++ hist) name r res := by
  induction hn with
  | own h => exact .own (by rw [own_later cat _ name _ hr hist more hm]; exact h)
  | @up r p res h hp hn ih =>
    have hp' : p < created hist := by
      have : ∀ (l : List Op) r p, parentIn l r = some p → p < created l := by
        intro l
        induction l with
        | nil => intro r p h; cases h
        | cons op l ih =>
          intro r p h
          have hmono := created_mono l [op]
          simp only [List.cons_append, List.nil_append] at hmono
          cases op with
          | clone x =>
            simp only [parentIn] at h
            split at h
            · cases h; omega
            · have := ih r p h; omega
          | _ => have := ih r p h; omega
      exact this hist r p hp
    exact .up (by rw [own_later cat _ name _ hr hist more hm]; exact h)
      (by rw [parent_later hist _ hr]; exact hp) (ih hp')
  | top h hp =>
    exact .top (by rw [own_later cat _ name _ hr hist more hm]; exact h)
      (by rw [parent_later hist _ hr]; exact hp)

/-- C21: cloning, and registering anything in registries created later (clones of
`r`, clones of those, and so on), never changes what `r` finds. -/
theorem clone_isolated (cat : Categories) (ops more : List Op) (r : Nat) (name : Name)
    (hr : r < created ops.reverse) (hm : ∀ op ∈ more, TouchesFrom (created ops.reverse) op) :
    lookup (run cat (ops ++ more)) r name = lookup (run cat ops) r name := by
  have h1 := lookup_spec cat ops r name hr
  have h2 := nearest_later cat name ops.reverse more.reverse (by simpa using hm) r hr _ h1
  have h3 := lookup_spec cat (ops ++ more) r name
    (by simp only [List.reverse_append]; have := created_mono ops.reverse more.reverse; omega)
  rw [List.reverse_append] at h3
  exact nearest_unique cat _ name r _ _ h3 h2

section Examples
def catAny : Categories := ⟨fun _ => true, fun s => s ≠ [0]⟩
def fA : Factory := ⟨1, [65], [49]⟩
def fA' : Factory := ⟨2, [65], [50]⟩
def fB : Factory := ⟨3, [66], [49]⟩
def exOps : List Op := [.new, .mustRegister 0 fA, .clone 0, .register 1 fB, .mustRegister 1 fA', .register 0 fA']
example : lookup (run catAny exOps) 0 [65] = some fA := by decide
example : lookup (run catAny exOps) 1 [65] = some fA' := by decide
example : lookup (run catAny exOps) 0 [66] = none := by decide
example : created exOps.reverse = 2 := by decide
end Examples

end Gate.Services
