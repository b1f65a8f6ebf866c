import Verif.Source
/-
C112: module sources. Model: Source.lean.
-/
namespace Gate.Source
open Gate.Auth (str)
open Gate.Respond (Err)
open Gate.Upload (Upload Env Policy St)

/-! ### Specification -/

/-- The contract of a source (source.go:23-30): opened content isn't longer than the limit, and gives exactly the announced number of bytes when it can be read in full. -/
def Contract (maxSize : Nat) : Opened → Prop
  | .content r length => 0 ≤ length ∧ length ≤ maxSize ∧ (r.fails = false → (r.body.length : Int) = length)
  | _ => True

/-- An origin server which has this object (or doesn't) responds according to RFC 7233 to a request for the first `maxSize` bytes:
the whole object; or the requested part of it; or not found. (Servers may also refuse the range of an empty object, see below.) -/
inductive Honest (maxSize : Nat) : Option Bytes → Resp → Prop where
  | whole (o : Bytes) : Honest maxSize (some o) { status := 200, contentLength := o.length, body := o }
  | part (o : Bytes) (ho : o ≠ []) (hm : 0 < maxSize) :
    Honest maxSize (some o) { status := 206, contentLength := (o.take maxSize).length, range := some ((min maxSize o.length : Nat) - 1, o.length), body := o.take maxSize }
  | missing : Honest maxSize none { status := 404 }

/-! ### HTTP -/

/-- C112: content which is opened from an HTTP source is within the size limit, and has the announced length, if the response has a Content-Length. -/
theorem http_contract_partial (maxSize : Nat) (r : Resp) (ht : Transport r) (hl : 0 ≤ r.contentLength) : Contract maxSize (httpOpen maxSize r) := by
  unfold httpOpen
  split
  · split
    · trivial
    · split
      · trivial
      · exact ⟨by omega, by omega, (ht (by omega)).2⟩
  · split
    · unfold parseContentRange
      cases hr : r.range with
      | none => trivial
      | some p =>
        obtain ⟨last, total⟩ := p
        simp only
        split
        · trivial
        · rename_i r' t' he
          split at he
          · cases he
          · cases he
            split
            · trivial
            · split
              · trivial
              · refine ⟨by omega, by omega, fun hf => ?_⟩
                have := (ht hl).2 hf
                omega
    · split <;> trivial

/-- C112: the limit holds also without Content-Length. -/
theorem http_limit (maxSize : Nat) (r b : Resp) (n : Int) (h : httpOpen maxSize r = .content b n) : 0 ≤ n ∧ n ≤ maxSize := by
  unfold httpOpen at h
  split at h
  · split at h
    · cases h
    · split at h
      · cases h
      · cases h; omega
  · split at h
    · unfold parseContentRange at h
      cases hr : r.range with
      | none => rw [hr] at h; cases h
      | some p =>
        obtain ⟨last, total⟩ := p
        rw [hr] at h
        simp only at h
        split at h
        · cases h
        · rename_i he
          split at he
          · cases he
          · cases he
            split at h
            · cases h
            · split at h
              · cases h
              · cases h; omega
    · split at h <;> cases h

/-- C112: what is opened from a partial response is announced as a whole object: the part which it says it has ends where the object ends, and that's the length which is used. -/
theorem http_part_whole (maxSize : Nat) (r b : Resp) (n last total : Int) (hs : r.status = 206) (hr : r.range = some (last, total))
    (h : httpOpen maxSize r = .content b n) : b = r ∧ n = total ∧ last + 1 = total ∧ 0 ≤ last := by
  unfold httpOpen parseContentRange at h
  rw [if_neg (by omega), if_pos hs, hr] at h
  simp only at h
  split at h
  · cases h
  · rename_i he
    split at he
    · cases he
    · cases he
      split at h
      · cases h
      · split at h
        · cases h
        · cases h; exact ⟨rfl, rfl, by omega, by omega⟩

example : httpOpen 4 { status := 206, range := some (2, 3), body := [1, 2, 3] } = .content { status := 206, range := some (2, 3), body := [1, 2, 3] } 3 := rfl

/-- C112, refuted: a partial response without Content-Length may have a body of any length, and it's opened with the length of the Content-Range header. -/
theorem http_chunked_refuted (maxSize total : Nat) (h1 : 0 < total) (h2 : total ≤ maxSize) (body : Bytes) (h3 : body.length ≠ total) :
    ∃ r : Resp, Transport r ∧ r.body = body ∧ ¬ Contract maxSize (httpOpen maxSize r) := by
  refine ⟨{ status := 206, range := some ((total : Int) - 1, total), body := body }, ?_, rfl, ?_⟩
  · intro h; simp at h
  · have : httpOpen maxSize { status := 206, range := some ((total : Int) - 1, total), body := body } = .content { status := 206, range := some ((total : Int) - 1, total), body := body } total := by
      unfold httpOpen parseContentRange
      simp only [show ¬ ((206 : Nat) = 200) by omega, if_false, if_true]
      rw [if_neg (by omega)]
      simp only
      rw [if_neg (by omega), if_neg (by simp)]
    rw [this]
    intro ⟨_, _, h⟩
    have := h rfl
    simp only at this; omega

/-- C112: for an honest server: an object within the limit is opened as it is, an object which is too large is reported as such, and a missing one as missing. -/
theorem http_exact (maxSize : Nat) (o : Option Bytes) (r : Resp) (h : Honest maxSize o r) :
    match o with
    | none => httpOpen maxSize r = .nil 0
    | some b => if b.length ≤ maxSize then httpOpen maxSize r = .content r b.length ∧ r.body = b ∧ r.fails = false else httpOpen maxSize r = .nil b.length := by
  cases h with
  | missing => rfl
  | whole b =>
    simp only
    split
    · refine ⟨?_, trivial, trivial⟩
      unfold httpOpen
      rw [if_pos rfl, if_neg (by simp), if_neg (by simp only; omega)]
    · unfold httpOpen
      rw [if_pos rfl, if_neg (by simp), if_pos (by simp only; omega)]
  | part b hb hm =>
    have hpos : 0 < b.length := List.length_pos_iff.mpr hb
    simp only
    have hp : parseContentRange { status := 206, contentLength := ((b.take maxSize).length : Int), range := some (((min maxSize b.length : Nat) : Int) - 1, (b.length : Int)), body := b.take maxSize } = some (((min maxSize b.length : Nat) : Int), (b.length : Int)) := by
      unfold parseContentRange
      simp only
      rw [if_neg (by omega)]
      congr 2; omega
    split
    · rename_i hle
      have ht : b.take maxSize = b := List.take_of_length_le hle
      refine ⟨?_, ht, trivial⟩
      unfold httpOpen
      rw [if_neg (by simp), if_pos rfl, hp]
      simp only
      rw [if_neg (by omega), if_neg (by rw [ht]; simp)]
    · unfold httpOpen
      rw [if_neg (by simp), if_pos rfl, hp]
      simp only
      rw [if_pos (by omega)]

example : Honest 2 (some [1, 2, 3]) { status := 206, contentLength := 2, range := some (1, 3), body := [1, 2] } := Honest.part [1, 2, 3] (by simp) (by omega)

/-- C112: SourceModule with an honest HTTP source: objects which are too large are refused for their size, missing ones are not found, and others are loaded with their exact length
(so they don't do what `Upload.poisoned_refuted` describes). -/
theorem http_upload (maxSize : Nat) (o : Option Bytes) (r : Resp) (h : Honest maxSize o r) :
    match o with
    | none => toUpload (httpOpen maxSize r) = .error .moduleNotFound
    | some b => if b.length ≤ maxSize then ∃ up, toUpload (httpOpen maxSize r) = .ok up ∧ up.content = b ∧ up.fails = false ∧ Upload.Exact up else toUpload (httpOpen maxSize r) = .error (.resourceLimit (str "program size limit exceeded")) := by
  have := http_exact maxSize o r h
  cases o with
  | none => simp only at this ⊢; rw [this]; rfl
  | some b =>
    simp only at this ⊢
    split
    · rename_i hl
      rw [if_pos hl] at this
      rw [this.1]
      exact ⟨_, rfl, this.2.1, this.2.2, by unfold Upload.Exact; simp only [this.2.1]⟩
    · rename_i hl
      rw [if_neg hl] at this
      rw [this]
      exact if_pos (by omega)

/-- C112, refuted: a server which streams an object without announcing its length (any object, empty or not) can't be used: the error has no type, so it's reported as a failure of the Gate server;
so is the refusal of the range (status 416), which is what an empty object gets. -/
theorem http_unavailable_refuted (maxSize : Nat) (identity body : Bytes) (r : Resp) (h : r = { status := 200, body := body } ∨ r = { status := 416, contentLength := 0 }) :
    ∃ e, toUpload (httpOpen maxSize r) = .error e ∧ (Respond.respond identity e).status = 500 := by
  rcases h with rfl | rfl
  · exact ⟨_, rfl, rfl⟩
  · exact ⟨_, rfl, rfl⟩

/-! ### IPFS -/

/-- C112: opened IPFS content is within the limit. -/
theorem ipfs_limit (maxSize : Nat) (r b : Resp) (n : Int) (h : ipfsOpen maxSize r = .content b n) : n ≤ maxSize ∧ r.xLength = some n ∧ b = r := by
  unfold ipfsOpen at h
  split at h
  · split at h
    · cases h
    · rename_i l hl
      split at h
      · cases h
      · cases h; exact ⟨by omega, hl, rfl⟩
  · split at h <;> cases h

/-- C112: an IPFS node which tells the object's size gets the object opened or refused, as with HTTP. -/
theorem ipfs_exact (maxSize : Nat) (o : Bytes) :
    ipfsOpen maxSize { status := 200, xLength := some o.length, body := o.take (maxSize + 1) } =
      if o.length ≤ maxSize then .content { status := 200, xLength := some o.length, body := o } o.length else .nil o.length := by
  unfold ipfsOpen
  simp only [if_true]
  split
  · rename_i h; rw [if_neg (by omega)]
  · rename_i h
    rw [if_pos (by omega)]
    have : o.take (maxSize + 1) = o := List.take_of_length_le (by omega)
    rw [this]

/-- C112, refuted: the announced length isn't compared with the body, and may be negative. -/
theorem ipfs_negative_refuted (maxSize : Nat) (n : Int) (h : n < 0) (body : Bytes) : ¬ Contract maxSize (ipfsOpen maxSize { status := 200, xLength := some n, body := body }) := by
  unfold ipfsOpen
  simp only [if_true]
  rw [if_neg (by omega)]
  intro ⟨h0, _⟩
  omega

/-- C112: a negative length does no harm to the server: such a module isn't accepted (unless it's empty). -/
theorem ipfs_negative_refused (E : Env) (pol : Policy) (s : St) (maxSize : Nat) (n : Int) (h : n < 0) (body : Bytes) (hb : body ≠ []) (up : Upload)
    (hu : toUpload (ipfsOpen maxSize { status := 200, xLength := some n, body := body }) = .ok up) : ∃ e, Upload.check E pol s true up = .error e := by
  have : up = { content := body, length := n } := by
    unfold ipfsOpen at hu
    simp only [if_true] at hu
    rw [if_neg (by omega)] at hu
    simp only [toUpload, Except.ok.injEq] at hu
    exact hu.symm
  subst this
  obtain ⟨e, he⟩ := Upload.too_short E pol { content := body, length := n, hash := [] } (by simp only; omega) hb
  refine ⟨e, ?_⟩
  unfold Upload.check
  rw [if_neg (by simp), if_neg (by simp)]
  simp only at he ⊢
  rw [he]; rfl

/-- C112, refuted: an IPFS node (or anything between it and the server) which announces a length greater than the content's makes the server register the module with zeros after it: nobody can
upload that module with its hash any more. -/
theorem ipfs_poison_refuted (E : Env) (maxSize : Nat) (c : Bytes) (k : Nat) (hk : c.length + k ≤ maxSize) :
    toUpload (ipfsOpen maxSize { status := 200, xLength := some ((c.length + k : Nat) : Int), body := c }) = .ok { content := c, length := (c.length + k : Nat) } ∧
    (∀ pol, E.valid c = true → E.textSize c ≤ pol.maxText → ∃ p, Upload.check E pol {} true { content := c, length := (c.length + k : Nat) } = .ok (p, p.id) ∧ p.size = c.length + k) := by
  refine ⟨?_, ?_⟩
  · unfold ipfsOpen
    simp only [if_true]
    rw [if_neg (by omega)]; rfl
  · intro pol hv ht
    have hb : Upload.build E pol { content := c, length := (c.length + k : Nat), hash := [] } = .ok ⟨Upload.hexEncode (E.H c), c.length + k, c ++ List.replicate (c.length + k - c.length) 0, E.textSize c⟩ := by
      unfold Upload.build
      rw [if_pos ⟨rfl, by simp only [Int.toNat_natCast]; omega, hv, ht⟩]
      simp only [if_true, Int.toNat_natCast]
    refine ⟨⟨Upload.hexEncode (E.H c), c.length + k, c ++ List.replicate (c.length + k - c.length) 0, E.textSize c⟩, ?_, rfl⟩
    unfold Upload.check
    rw [if_neg (by simp), if_neg (by simp)]
    simp only at hb ⊢
    rw [hb]; rfl

/-- C112: the range header asks for as many bytes as the limit; it's malformed if and only if the limit is zero. -/
theorem range_header (maxSize : Nat) : rangeEnd maxSize + 1 = maxSize ∧ (rangeEnd maxSize < 0 ↔ maxSize = 0) := by unfold rangeEnd; omega

end Gate.Source
