import Verif.AuthProps
/-
Properties C39, C42, C66: which tokens authenticate whom, which accounts principals have.
-/
namespace Gate.Auth

theorem bind_inv {α β} {x : Res α} {f : α → Res β} {b : β} : (x >>= f) = .ok b ↔ ∃ a, x = .ok a ∧ f a = .ok b := by
  cases x with
  | ok a => simp
  | err m => simp
  | panic => simp

theorem bind_panic_inv {α β} {x : Res α} {f : α → Res β} : (x >>= f) = .panic ↔ x = .panic ∨ ∃ a, x = .ok a ∧ f a = .panic := by
  cases x with
  | ok a => simp
  | err m => simp
  | panic => simp

theorem split3 (token p0 p1 p2 : Bytes) : splitN 46 3 [] token = [p0, p1, p2] ↔
    token = p0 ++ 46 :: (p1 ++ 46 :: p2) ∧ 46 ∉ p0 ∧ 46 ∉ p1 := by
  constructor
  · intro h
    rcases splitAt_first 46 token with hs | ⟨q0, rest, hs, hq0⟩
    · rw [splitN_last 46 3 token (.inl hs)] at h; simp at h
    · subst hs
      rw [splitN_cons 46 3 (by omega) q0 rest hq0] at h
      rcases splitAt_first 46 rest with hr | ⟨q1, q2, hr, hq1⟩
      · rw [splitN_last 46 _ rest (.inl hr)] at h; simp at h
      · subst hr
        rw [splitN_cons 46 _ (by omega) q1 q2 hq1, splitN_last 46 _ q2 (.inr (by omega))] at h
        simp only [List.reverse_nil, List.nil_append, List.cons.injEq, and_true] at h
        obtain ⟨rfl, rfl, rfl⟩ := h
        exact ⟨rfl, hq0, hq1⟩
  · rintro ⟨rfl, h0, h1⟩
    rw [splitN_cons 46 3 (by omega) p0 _ h0, splitN_cons 46 _ (by omega) p1 _ h1, splitN_last 46 _ p2 (.inr (by omega))]
    simp

/-- The parts of a token: header, claims and signature, base64url-encoded and separated by dots.
`data` is what the signature covers. -/
def Parts (e : Env) (token : Bytes) (header : Header) (claims : Claims) (data sig : Bytes) : Prop :=
  ∃ p0 p1 p2 hb pb, token = p0 ++ 46 :: (p1 ++ 46 :: p2) ∧ 46 ∉ p0 ∧ 46 ∉ p1 ∧ data = p0 ++ 46 :: p1 ∧
    decodeComponent p0 = .ok hb ∧ decodeComponent p1 = .ok pb ∧ decodeComponent p2 = .ok sig ∧
    e.header hb = some header ∧ e.claims pb = some claims

/-- The token is signed with the key which it carries, and the principal is that key. -/
def SignedBy (e : Env) (header : Header) (data sig : Bytes) (id : ID) : Prop :=
  header.alg = str "EdDSA" ∧ ∃ k, header.jwk = some k ∧ k.kty = str "OKP" ∧ k.crv = str "Ed25519" ∧
    k.x.length = 43 ∧ decode64 k.x = some id.key ∧ id.key.length = 32 ∧ id.s = str "ed25519:" ++ k.x ∧
    e.verify id.key data sig = true

/-- The token is unsigned, the server is configured to trust those, and the principal is the local one. -/
def Unsecured (s : Server) (header : Header) (sig : Bytes) (id : ID) : Prop :=
  header.alg = str "none" ∧ sig = [] ∧ s.loc = true ∧ id = localID

theorem parseKey_iff (x k : Bytes) : parseKey x = some k ↔ x.length = 43 ∧ decode64 x = some k ∧ k.length = 32 := by
  unfold parseKey
  split
  · rename_i h; simp [h]
  · rename_i h
    simp only [ne_eq, Decidable.not_not] at h
    cases hd : decode64 x with
    | none => simp
    | some b =>
      simp only [Option.some.injEq]
      split
      · rename_i hb
        constructor
        · intro e; cases e
        · rintro ⟨_, rfl, e⟩; exact absurd e hb
      · rename_i hb
        simp only [ne_eq, Decidable.not_not] at hb
        simp only [Option.some.injEq, h, true_and]
        constructor
        · rintro rfl; exact ⟨rfl, hb⟩
        · exact fun e => e.1

theorem parseEd_iff (x : Bytes) (id : ID) : parseEd25519Key x = some id ↔
    x.length = 43 ∧ decode64 x = some id.key ∧ id.key.length = 32 ∧ id.s = str "ed25519:" ++ x := by
  unfold parseEd25519Key
  cases h : parseKey x with
  | none =>
    simp only [reduceCtorEq, false_iff]
    rintro ⟨h1, h2, h3, _⟩
    rw [(parseKey_iff x id.key).mpr ⟨h1, h2, h3⟩] at h
    cases h
  | some k =>
    obtain ⟨h1, h2, h3⟩ := (parseKey_iff x k).mp h
    simp only [Option.some.injEq, h1, h2, true_and]
    constructor
    · rintro rfl; exact ⟨rfl, h3, rfl⟩
    · rintro ⟨rfl, _, h4⟩; cases id; simp at h4 ⊢; exact h4.symm

theorem verifyAudience_iff (s : Server) (aud : List Bytes) : verifyAudience s aud = .ok () ↔ aud = [] ∨ s.identity ∈ aud := by
  unfold verifyAudience
  split
  · rename_i h
    have := List.eq_nil_of_length_eq_zero h
    simp [this]
  · rename_i h
    have : aud ≠ [] := fun e => h (by simp [e])
    split
    · rename_i h'; simp only [List.any_eq_true, beq_iff_eq, exists_eq_right] at h'; simp [h']
    · rename_i h'
      simp only [List.any_eq_true, beq_iff_eq, exists_eq_right] at h'
      simp [this, h']

/-- The conditions other than the signature. -/
def Fresh (e : Env) (s : Server) (claims : Claims) (id : ID) (signed : Prop) : Prop :=
  verifyExpiration s claims.exp e.now = .ok () ∧ (claims.aud = [] ∨ s.identity ∈ claims.aud) ∧
    (claims.nonce = [] ∨ (signed ∧ s.nonceStorage = true ∧ e.nonce id.key claims.nonce claims.exp = true))

theorem edDSA_ne : str "none" ≠ str "EdDSA" := by decide

theorem parseJWT_parts (e : Env) (s : Server) (token : Bytes) (r : Res Auth) (hr : r = .panic ∨ ∃ a, r = .ok a) :
    parseJWT e s token = r ↔ ∃ header hb pb data sig p0 p1 p2, splitN 46 3 [] token = [p0, p1, p2] ∧
      data = token.take (p0.length + 1 + p1.length) ∧ decodeComponent p0 = .ok hb ∧ decodeComponent p1 = .ok pb ∧
      decodeComponent p2 = .ok sig ∧ e.header hb = some header ∧
      (do
        let pri ← parseHeader s header
        match e.claims pb with
        | none => .err "invalid_token"
        | some claims => do
          verifyExpiration s claims.exp e.now
          verifyAudience s claims.aud
          verifySignature e s pri header.alg data sig
          verifyNonce e s pri claims.nonce claims.exp
          let id ← contextID s pri
          match validateScope claims.scope with
          | none => .err "invalid_token"
          | some l => .ok ⟨id, context s.names none l⟩) = r := by
  have dc : ∀ p, decodeComponent p ≠ .panic := by
    intro p; unfold decodeComponent; split
    · split <;> simp
    · simp
  have hne : ∀ m, Res.err m ≠ r := by rintro m rfl; rcases hr with h | ⟨_, h⟩ <;> cases h
  unfold parseJWT
  split
  · rename_i p0 p1 p2 hsplit
    constructor
    · intro h
      cases h0 : decodeComponent p0 with
      | panic => exact absurd h0 (dc _)
      | err m => rw [h0] at h; exact absurd h (hne _)
      | ok hb =>
        cases h1 : decodeComponent p1 with
        | panic => exact absurd h1 (dc _)
        | err m => rw [h0, h1] at h; exact absurd h (hne _)
        | ok pb =>
          cases h2 : decodeComponent p2 with
          | panic => exact absurd h2 (dc _)
          | err m => rw [h0, h1, h2] at h; exact absurd h (hne _)
          | ok sig =>
            rw [h0, h1, h2] at h
            simp only [Res.bind_ok] at h
            cases hh : e.header hb with
            | none => rw [hh] at h; exact absurd h (hne _)
            | some header =>
              rw [hh] at h
              exact ⟨header, hb, pb, _, sig, p0, p1, p2, hsplit, rfl, h0, h1, h2, hh, h⟩
    · rintro ⟨header, hb, pb, data, sig, q0, q1, q2, hq, hd, h0, h1, h2, hh, h⟩
      rw [hsplit] at hq
      simp only [List.cons.injEq, and_true] at hq
      obtain ⟨rfl, rfl, rfl⟩ := hq
      rw [h0, h1, h2]
      simp only [Res.bind_ok, hh]
      rw [← hd]
      exact h
  · rename_i hne'
    constructor
    · intro h; exact absurd h (hne _)
    · rintro ⟨_, _, _, _, _, q0, q1, q2, hq, _⟩
      exact absurd hq (hne' q0 q1 q2)

theorem take_data (p0 p1 p2 : Bytes) : (p0 ++ 46 :: (p1 ++ 46 :: p2)).take (p0.length + 1 + p1.length) = p0 ++ 46 :: p1 := by
  have h : p0 ++ 46 :: (p1 ++ 46 :: p2) = (p0 ++ 46 :: p1) ++ (46 :: p2) := by simp
  rw [h, List.take_append_of_le_length (by simp; omega), List.take_of_length_le (by simp; omega)]

theorem parseHeader_some (s : Server) (h : Header) (id : ID) : parseHeader s h = .ok (some id) ↔
    h.alg = str "EdDSA" ∧ ∃ k, h.jwk = some k ∧ k.kty = str "OKP" ∧ k.crv = str "Ed25519" ∧ parseEd25519Key k.x = some id := by
  unfold parseHeader
  split
  · rename_i ha
    simp only [ha, true_and]
    cases hj : h.jwk with
    | none => simp
    | some k =>
      simp only [Option.some.injEq, exists_eq_left']
      split
      · rename_i hk
        simp only [hk.1, hk.2, true_and]
        cases parseEd25519Key k.x <;> simp
      · rename_i hk
        constructor
        · intro e; cases e
        · rintro ⟨h1, h2, _⟩; exact absurd ⟨h1, h2⟩ hk
  · rename_i ha
    simp only [ha, false_and, iff_false]
    split
    · split <;> simp
    · simp

theorem parseHeader_none (s : Server) (h : Header) : parseHeader s h = .ok none ↔ h.alg = str "none" ∧ s.loc = true := by
  unfold parseHeader
  split
  · rename_i ha
    have : h.alg ≠ str "none" := by rw [ha]; exact fun e => edDSA_ne e.symm
    simp only [this, false_and, iff_false]
    cases h.jwk with
    | none => simp
    | some k =>
      simp only
      split
      · cases parseEd25519Key k.x <;> simp
      · simp
  · split
    · rename_i ha
      split
      · rename_i hl; simp [ha, hl]
      · rename_i hl; simp [hl]
    · rename_i ha; simp [ha]

/-- C39: a request is attributed to a principal exactly if the token consists of a header, claims
and a signature such that: the header names a key, the signature of the other two parts verifies
with that key, and the principal is that key (its identifier and its 32 bytes), or the token
is unsigned, the server trusts local requests and the principal is the local one; it has not
expired (see C38); its audience, if it has any, includes this server; its nonce, if it has one, is
new; and its scope has at most ten tokens. -/
theorem token_accepted (e : Env) (s : Server) (token : Bytes) (a : Auth) :
    parseJWT e s token = .ok a ↔ ∃ header claims data sig l, Parts e token header claims data sig ∧
      (SignedBy e header data sig a.id ∨ Unsecured s header sig a.id) ∧
      Fresh e s claims a.id (SignedBy e header data sig a.id) ∧
      validateScope claims.scope = some l ∧ a.scope = context s.names none l := by
  rw [parseJWT_parts e s token _ (.inr ⟨a, rfl⟩)]
  constructor
  · rintro ⟨header, hb, pb, data, sig, p0, p1, p2, hsp, hd, h0, h1, h2, hh, h⟩
    obtain ⟨ht, n0, n1⟩ := (split3 ..).mp hsp
    rw [bind_inv] at h
    obtain ⟨pri, hp, h⟩ := h
    cases hc : e.claims pb with
    | none => rw [hc] at h; cases h
    | some claims =>
      rw [hc] at h
      simp only [bind_inv] at h
      obtain ⟨_, hexp, _, haud, _, hsig, _, hnon, id, hid, hsc⟩ := h
      cases hv : validateScope claims.scope with
      | none => rw [hv] at hsc; cases hsc
      | some l =>
        rw [hv] at hsc
        simp only [Res.ok.injEq] at hsc
        subst hsc
        have hparts : Parts e token header claims data sig :=
          ⟨p0, p1, p2, hb, pb, ht, n0, n1, by rw [hd, ht, take_data], h0, h1, h2, hh, hc⟩
        refine ⟨header, claims, data, sig, l, hparts, ?_⟩
        have haud := (verifyAudience_iff ..).mp haud
        cases pri with
        | some id' =>
          simp only [contextID, Res.ok.injEq] at hid
          subst hid
          obtain ⟨ha, k, hk, hk1, hk2, hk3⟩ := (parseHeader_some ..).mp hp
          obtain ⟨x1, x2, x3, x4⟩ := (parseEd_iff ..).mp hk3
          have hsb : SignedBy e header data sig id' := by
            refine ⟨ha, k, hk, hk1, hk2, x1, x2, x3, x4, ?_⟩
            unfold verifySignature at hsig
            rw [if_pos ha] at hsig
            simp only at hsig
            by_cases hvv : e.verify id'.key data sig = true
            · exact hvv
            · rw [if_neg hvv] at hsig; cases hsig
          refine ⟨.inl hsb, ⟨hexp, haud, ?_⟩, hv, rfl⟩
          unfold verifyNonce at hnon
          split at hnon
          · rename_i hn; exact .inl hn
          · split at hnon
            · cases hnon
            · rename_i hns
              simp only [Bool.not_eq_true', Bool.not_eq_false] at hns
              simp only at hnon
              right
              refine ⟨hsb, by simpa using hns, ?_⟩
              by_cases hvv : e.nonce id'.key claims.nonce claims.exp = true
              · exact hvv
              · rw [if_neg hvv] at hnon; cases hnon
        | none =>
          obtain ⟨ha, hl⟩ := (parseHeader_none ..).mp hp
          simp only [contextID, hl, if_true, Res.ok.injEq] at hid
          subst hid
          have hsg : sig = [] := by
            unfold verifySignature at hsig
            rw [if_neg (by rw [ha]; exact edDSA_ne), if_pos ha] at hsig
            split at hsig
            · rename_i h'; exact List.eq_nil_of_length_eq_zero h'
            · cases hsig
          refine ⟨.inr ⟨ha, hsg, hl, rfl⟩, ⟨hexp, haud, ?_⟩, hv, rfl⟩
          unfold verifyNonce at hnon
          split at hnon
          · rename_i hn; exact .inl hn
          · split at hnon <;> cases hnon
  · rintro ⟨header, claims, data, sig, l, ⟨p0, p1, p2, hb, pb, ht, n0, n1, hd, h0, h1, h2, hh, hc⟩, hs, ⟨hexp, haud, hnon⟩, hv, hsc⟩
    refine ⟨header, hb, pb, data, sig, p0, p1, p2, (split3 ..).mpr ⟨ht, n0, n1⟩, by rw [hd, ht, take_data], h0, h1, h2, hh, ?_⟩
    have haud := (verifyAudience_iff ..).mpr haud
    rcases hs with hs | hs
    · obtain ⟨ha, k, hk, hk1, hk2, x1, x2, x3, x4, x5⟩ := hs
      rw [(parseHeader_some s header a.id).mpr ⟨ha, k, hk, hk1, hk2, (parseEd_iff ..).mpr ⟨x1, x2, x3, x4⟩⟩]
      simp only [Res.bind_ok, hc, hexp, haud]
      rw [show verifySignature e s (some a.id) header.alg data sig = .ok () by
        unfold verifySignature; rw [if_pos ha]; simp [x5]]
      rw [show verifyNonce e s (some a.id) claims.nonce claims.exp = .ok () by
        unfold verifyNonce
        rcases hnon with h | ⟨_, h1, h2⟩
        · simp [h]
        · simp [h1, h2]]
      simp only [contextID, Res.bind_ok, hv]
      cases a; simp at hsc ⊢; exact hsc.symm
    · obtain ⟨ha, hsg, hl, hid⟩ := hs
      rw [(parseHeader_none s header).mpr ⟨ha, hl⟩]
      simp only [Res.bind_ok, hc, hexp, haud]
      rw [show verifySignature e s none header.alg data sig = .ok () by
        unfold verifySignature; rw [if_neg (by rw [ha]; exact edDSA_ne), if_pos ha]; simp [hsg, hl]]
      rw [show verifyNonce e s none claims.nonce claims.exp = .ok () by
        unfold verifyNonce
        rcases hnon with h | ⟨h, _⟩
        · simp [h]
        · exact absurd (ha.symm.trans h.1) edDSA_ne]
      simp only [contextID, Res.bind_ok, hv, hl, if_true]
      cases a; simp at hsc hid ⊢; exact ⟨hid.symm, hsc.symm⟩

/-- C66: handling a token crashes exactly in two cases: it declares a signature but carries no
key (whoever sent it), or it is an otherwise acceptable unsigned token with a nonce. -/
theorem token_crash (e : Env) (s : Server) (token : Bytes) :
    parseJWT e s token = .panic ↔ ∃ p0 p1 p2 hb pb sig header, token = p0 ++ 46 :: (p1 ++ 46 :: p2) ∧ 46 ∉ p0 ∧ 46 ∉ p1 ∧
      decodeComponent p0 = .ok hb ∧ decodeComponent p1 = .ok pb ∧ decodeComponent p2 = .ok sig ∧ e.header hb = some header ∧
      ((header.alg = str "EdDSA" ∧ header.jwk = none) ∨
       (header.alg = str "none" ∧ s.loc = true ∧ sig = [] ∧ s.nonceStorage = true ∧ ∃ claims, e.claims pb = some claims ∧
        verifyExpiration s claims.exp e.now = .ok () ∧ (claims.aud = [] ∨ s.identity ∈ claims.aud) ∧ claims.nonce ≠ [])) := by
  rw [parseJWT_parts e s token _ (.inl rfl)]
  have hexpp : ∀ x y, verifyExpiration s x y ≠ .panic := by
    intro x y; unfold verifyExpiration; split
    · simp
    · split
      · simp
      · split <;> simp
  have haudp : ∀ x, verifyAudience s x ≠ .panic := by
    intro x; unfold verifyAudience; split
    · simp
    · split <;> simp
  constructor
  · rintro ⟨header, hb, pb, data, sig, p0, p1, p2, hsp, hd, h0, h1, h2, hh, h⟩
    obtain ⟨ht, n0, n1⟩ := (split3 ..).mp hsp
    refine ⟨p0, p1, p2, hb, pb, sig, header, ht, n0, n1, h0, h1, h2, hh, ?_⟩
    rw [bind_panic_inv] at h
    rcases h with h | ⟨pri, hp, h⟩
    · left
      unfold parseHeader at h
      split at h
      · rename_i ha
        cases hj : header.jwk with
        | none => exact ⟨ha, rfl⟩
        | some k =>
          rw [hj] at h; simp only at h
          split at h
          · cases hpk : parseEd25519Key k.x <;> rw [hpk] at h <;> cases h
          · cases h
      · split at h
        · split at h <;> cases h
        · cases h
    · cases hc : e.claims pb with
      | none => rw [hc] at h; cases h
      | some claims =>
        rw [hc] at h
        simp only [bind_panic_inv, hexpp, haudp, false_or] at h
        obtain ⟨_, hexp, _, haud, h⟩ := h
        have haud := (verifyAudience_iff ..).mp haud
        cases pri with
        | some id =>
          exfalso
          obtain ⟨ha, _⟩ := (parseHeader_some ..).mp hp
          rcases h with h | ⟨_, _, h⟩
          · unfold verifySignature at h
            rw [if_pos ha] at h
            simp only at h
            split at h <;> cases h
          · rcases h with h | ⟨_, _, h⟩
            · unfold verifyNonce at h
              split at h
              · cases h
              · split at h
                · cases h
                · simp only at h; split at h <;> cases h
            · simp only [contextID, reduceCtorEq, false_or, Res.ok.injEq, exists_eq_left'] at h
              cases hv : validateScope claims.scope <;> rw [hv] at h <;> cases h
        | none =>
          obtain ⟨ha, hl⟩ := (parseHeader_none ..).mp hp
          right
          rcases h with h | ⟨_, hs, h⟩
          · exfalso
            unfold verifySignature at h
            rw [if_neg (by rw [ha]; exact edDSA_ne), if_pos ha] at h
            split at h
            · simp only [hl, if_true] at h; cases h
            · cases h
          · have hsg : sig = [] := by
              unfold verifySignature at hs
              rw [if_neg (by rw [ha]; exact edDSA_ne), if_pos ha] at hs
              split at hs
              · rename_i h'; exact List.eq_nil_of_length_eq_zero h'
              · cases hs
            rcases h with h | ⟨_, _, h⟩
            · unfold verifyNonce at h
              split at h
              · cases h
              · rename_i hne
                split at h
                · cases h
                · rename_i hns
                  exact ⟨ha, hl, hsg, by simpa using hns, claims, rfl, hexp, haud, hne⟩
            · exfalso
              simp only [contextID, hl, if_true, reduceCtorEq, false_or, Res.ok.injEq, exists_eq_left'] at h
              cases hv : validateScope claims.scope <;> rw [hv] at h <;> cases h
  · rintro ⟨p0, p1, p2, hb, pb, sig, header, ht, n0, n1, h0, h1, h2, hh, h⟩
    refine ⟨header, hb, pb, _, sig, p0, p1, p2, (split3 ..).mpr ⟨ht, n0, n1⟩, rfl, h0, h1, h2, hh, ?_⟩
    rcases h with ⟨ha, hj⟩ | ⟨ha, hl, hsg, hns, claims, hc, hexp, haud, hne⟩
    · rw [show parseHeader s header = .panic by unfold parseHeader; rw [if_pos ha, hj]]
      rfl
    · rw [(parseHeader_none s header).mpr ⟨ha, hl⟩]
      simp only [Res.bind_ok, hc, hexp, (verifyAudience_iff ..).mpr haud]
      rw [show verifySignature e s none header.alg (List.take (p0.length + 1 + p1.length) token) sig = .ok () by
        unfold verifySignature; rw [if_neg (by rw [ha]; exact edDSA_ne), if_pos ha]; simp [hsg, hl]]
      rw [show verifyNonce e s none claims.nonce claims.exp = .panic by
        unfold verifyNonce; simp [hne, hns]]
      rfl

/-- A server and an environment: the header member is in the first byte, no signature verifies. -/
def exampleEnv : Env :=
  { header := fun b => if b.length = 3 then some ⟨str "EdDSA", none⟩ else if b.length = 6 then some ⟨str "none", none⟩ else
      some ⟨str "EdDSA", some ⟨str "OKP", str "Ed25519", str "AAAAAAAAAAAAAAAAAAAAAAAAAAAAAAAAAAAAAAAAAAB"⟩⟩
    claims := fun b => if b.length = 3 then some ⟨100, [], [], str "system"⟩ else some ⟨0, [], str "n", []⟩
    verify := fun k _ sig => k.getLast? == some 0 && sig.length == 3
    nonce := fun _ _ _ => true
    now := 50 }

/-- Refutes C66: a token without key, which anybody can send, crashes the handler. -/
theorem token_crash_example : parseJWT exampleEnv ⟨false, [], false, []⟩ (str "AAAA.AAAA.AAAA") = .panic := by decide +kernel

theorem token_crash_local_example : parseJWT exampleEnv ⟨true, [], true, []⟩ (str "AAAAAAAA.AAAAAAAA.") = .panic := by decide +kernel

example : ∃ a, parseJWT exampleEnv ⟨false, [], false, [str "program:system"]⟩ (str "AAAAAAAAAAAA.AAAA.AAAA") = .ok a ∧
    a.id.key.length = 32 ∧ a.scope = some [str "program:system"] := ⟨_, rfl, by decide +kernel, by decide +kernel⟩
example : ∃ a, parseJWT exampleEnv ⟨true, [], false, []⟩ (str "AAAAAAAA.AAAA.") = .ok a ∧ a.id = localID := ⟨_, rfl, by decide +kernel⟩

/-! ### C42 -/

theorem sextet_lt {c : UInt8} {v : Nat} (h : sextet c = some v) : v < 64 := by
  unfold sextet at h
  simp only at h
  repeat' split at h
  all_goals first
    | (cases h; done)
    | (simp only [Option.some.injEq] at h; omega)

theorem sextet_inj {c d : UInt8} {v : Nat} (h : sextet c = some v) (h' : sextet d = some v) : c = d := by
  unfold sextet at h h'
  simp only at h h'
  apply UInt8.toNat_inj.mp
  repeat' split at h
  all_goals first
    | (cases h; done)
    | (simp only [Option.some.injEq] at h
       repeat' split at h'
       all_goals first
         | (cases h'; done)
         | (simp only [Option.some.injEq] at h'; omega))

theorem sextets_spec : ∀ {s : Bytes} {vs : List Nat}, sextets s = some vs → vs.length = s.length ∧ (∀ v ∈ vs, v < 64) ∧
    s.map sextet = vs.map some := by
  intro s
  induction s with
  | nil => intro vs h; simp [sextets] at h; subst h; simp
  | cons c cs ih =>
    intro vs h
    simp only [sextets] at h
    cases hc : sextet c with
    | none => rw [hc] at h; cases h
    | some v =>
      cases hs : sextets cs with
      | none => rw [hc, hs] at h; cases h
      | some us =>
        rw [hc, hs] at h
        simp only [Option.some.injEq] at h
        subst h
        obtain ⟨h1, h2, h3⟩ := ih hs
        refine ⟨by simp [h1], ?_, by simp [hc, h3]⟩
        intro x hx
        rcases List.mem_cons.mp hx with rfl | hx
        · exact sextet_lt hc
        · exact h2 x hx

theorem ofNat_inj {a b : Nat} (ha : a < 256) (hb : b < 256) (h : UInt8.ofNat a = UInt8.ofNat b) : a = b := by
  have := congrArg UInt8.toNat h
  simp only [UInt8.toNat_ofNat'] at this
  omega

theorem groups_inj : ∀ (n : Nat) (xs ys : List Nat) (bs : Bytes), xs.length = 4 * n + 3 → ys.length = 4 * n + 3 →
    (∀ v ∈ xs, v < 64) → (∀ v ∈ ys, v < 64) → groups xs = some bs → groups ys = some bs →
    xs.take (4 * n + 2) = ys.take (4 * n + 2) ∧ (xs.drop (4 * n + 2)).map (· / 4) = (ys.drop (4 * n + 2)).map (· / 4) := by
  intro n
  induction n with
  | zero =>
    intro xs ys bs hx hy bx by' gx gy
    match xs, hx with
    | [a, b, c], _ =>
      match ys, hy with
      | [a', b', c'], _ =>
        simp only [groups, Option.some.injEq] at gx gy
        rw [← gy] at gx
        simp only [List.cons.injEq, and_true] at gx
        simp only [List.mem_cons, List.not_mem_nil, or_false, forall_eq_or_imp, forall_eq] at bx by'
        have e1 := ofNat_inj (by omega) (by omega) gx.1
        have e2 := ofNat_inj (by omega) (by omega) gx.2
        simp
        omega
  | succ n ih =>
    intro xs ys bs hx hy bx by' gx gy
    match xs, hx with
    | a :: b :: c :: d :: xs', hx =>
      match ys, hy with
      | a' :: b' :: c' :: d' :: ys', hy =>
        simp only [List.length_cons] at hx hy
        simp only [groups] at gx gy
        cases g1 : groups xs' with
        | none => rw [g1] at gx; cases gx
        | some b1 =>
          cases g2 : groups ys' with
          | none => rw [g2] at gy; cases gy
          | some b2 =>
            rw [g1] at gx; rw [g2] at gy
            simp only [Option.some.injEq] at gx gy
            rw [← gy] at gx
            simp only [List.cons.injEq] at gx
            obtain ⟨e1, e2, e3, e4⟩ := gx
            subst e4
            have hx4 := bx a (by simp); have hx5 := bx b (by simp); have hx6 := bx c (by simp); have hx7 := bx d (by simp)
            have hy4 := by' a' (by simp); have hy5 := by' b' (by simp); have hy6 := by' c' (by simp); have hy7 := by' d' (by simp)
            have e1 := ofNat_inj (by omega) (by omega) e1
            have e2 := ofNat_inj (by omega) (by omega) e2
            have e3 := ofNat_inj (by omega) (by omega) e3
            obtain ⟨i1, i2⟩ := ih xs' ys' b1 (by omega) (by omega) (fun v hv => bx v (by simp [hv])) (fun v hv => by' v (by simp [hv])) g1 g2
            have e : 4 * (n + 1) + 2 = (4 * n + 2) + 4 := by omega
            rw [e]
            simp only [List.take_succ_cons, List.drop_succ_cons, i1, i2, and_true]
            have : a = a' ∧ b = b' ∧ c = c' ∧ d = d' := by omega
            obtain ⟨rfl, rfl, rfl, rfl⟩ := this
            rfl

theorem groups_eq : ∀ (n : Nat) (xs ys : List Nat), xs.length = 4 * n + 3 → ys.length = 4 * n + 3 →
    xs.take (4 * n + 2) = ys.take (4 * n + 2) → (xs.drop (4 * n + 2)).map (· / 4) = (ys.drop (4 * n + 2)).map (· / 4) →
    groups xs = groups ys := by
  intro n
  induction n with
  | zero =>
    intro xs ys hx hy ht hd
    match xs, hx with
    | [a, b, c], _ =>
      match ys, hy with
      | [a', b', c'], _ =>
        simp at ht hd
        simp [groups, ht, hd]
  | succ n ih =>
    intro xs ys hx hy ht hd
    match xs, hx with
    | a :: b :: c :: d :: xs', hx =>
      match ys, hy with
      | a' :: b' :: c' :: d' :: ys', hy =>
        simp only [List.length_cons] at hx hy
        have e : 4 * (n + 1) + 2 = (4 * n + 2) + 4 := by omega
        rw [e] at ht hd
        simp only [List.take_succ_cons, List.drop_succ_cons, List.cons.injEq] at ht hd
        obtain ⟨rfl, rfl, rfl, rfl, ht⟩ := ht
        simp only [groups, ih xs' ys' (by omega) (by omega) ht hd]

theorem groups_length : ∀ (n : Nat) (xs : List Nat) (bs : Bytes), xs.length ≤ n → groups xs = some bs → bs.length = xs.length * 6 / 8 := by
  intro n
  induction n using Nat.strongRecOn with
  | ind n ih =>
    intro xs bs hn h
    match xs with
    | [] => simp [groups] at h; subst h; rfl
    | [a] => simp [groups] at h
    | [a, b] => simp only [groups, Option.some.injEq] at h; subst h; simp
    | [a, b, c] => simp only [groups, Option.some.injEq] at h; subst h; simp
    | a :: b :: c :: d :: rest =>
      simp only [groups] at h
      cases hg : groups rest with
      | none => rw [hg] at h; cases h
      | some r =>
        rw [hg] at h
        simp only [Option.some.injEq] at h
        subst h
        simp only [List.length_cons] at hn
        have := ih rest.length (by omega) rest r (Nat.le_refl _) hg
        simp only [List.length_cons, this]
        omega

/-- An accepted key has no line breaks, and all its 43 characters are in the alphabet. -/
theorem parseKey_sextets (x k : Bytes) (h : parseKey x = some k) :
    ∃ vs, sextets x = some vs ∧ vs.length = 43 ∧ groups vs = some k ∧ (∀ v ∈ vs, v < 64) := by
  obtain ⟨h1, h2, h3⟩ := (parseKey_iff x k).mp h
  unfold decode64 at h2
  cases hs : sextets (x.filter fun c => c != 10 && c != 13) with
  | none => rw [hs] at h2; cases h2
  | some vs =>
    rw [hs] at h2
    obtain ⟨s1, s2, _⟩ := sextets_spec hs
    have hg := groups_length _ vs k (Nat.le_refl _) h2
    have hle : (x.filter fun c => c != 10 && c != 13).length ≤ x.length := List.length_filter_le ..
    have heq : (x.filter fun c => c != 10 && c != 13).length = x.length := by omega
    have hx : (x.filter fun c => c != 10 && c != 13) = x := List.filter_eq_self.mpr (by
      intro c hc
      exact List.length_filter_eq_length_iff.mp heq c hc)
    rw [hx] at hs
    exact ⟨vs, hs, by omega, h2, s2⟩

/-- Two keys which a principal may present are stored as the same key. -/
def SameKey (x y : Bytes) : Prop :=
  x.take 42 = y.take 42 ∧ ∃ v w, (x.drop 42).map sextet = [some v] ∧ (y.drop 42).map sextet = [some w] ∧ v / 4 = w / 4

/-- C42, what holds: two keys in text form have a common account exactly if they differ at most in
the lowest two bits of the last character, which the decoder ignores. -/
theorem shared_account_iff (x y : Bytes) (a b : ID) (ha : parseEd25519Key x = some a) (hb : parseEd25519Key y = some b) :
    accountKey a = accountKey b ↔ SameKey x y := by
  obtain ⟨a1, a2, a3, _⟩ := (parseEd_iff x a).mp ha
  obtain ⟨b1, b2, b3, _⟩ := (parseEd_iff y b).mp hb
  obtain ⟨vs, v1, v2, v3, v4⟩ := parseKey_sextets x a.key ((parseKey_iff ..).mpr ⟨a1, a2, a3⟩)
  obtain ⟨ws, w1, w2, w3, w4⟩ := parseKey_sextets y b.key ((parseKey_iff ..).mpr ⟨b1, b2, b3⟩)
  obtain ⟨_, _, v5⟩ := sextets_spec v1
  obtain ⟨_, _, w5⟩ := sextets_spec w1
  have last : ∀ (l : List Nat), l.length = 43 → ∃ v, l.drop 42 = [v] := by
    intro l hl
    match h : l.drop 42, (by simp [hl] : (l.drop 42).length = 1) with
    | [v], _ => exact ⟨v, rfl⟩
  obtain ⟨v, hv⟩ := last vs v2
  obtain ⟨w, hw⟩ := last ws w2
  have takes : x.take 42 = y.take 42 ↔ vs.take 42 = ws.take 42 := by
    constructor
    · intro h
      have h1 : (x.map sextet).take 42 = (y.map sextet).take 42 := by rw [← List.map_take, ← List.map_take, h]
      rw [v5, w5, ← List.map_take, ← List.map_take] at h1
      exact (List.map_inj_right (by intro a b h; simpa using h)).mp h1
    · intro h
      have h1 : (x.map sextet).take 42 = (y.map sextet).take 42 := by
        rw [v5, w5, ← List.map_take, ← List.map_take, h]
      rw [← List.map_take, ← List.map_take] at h1
      have all : ∀ c ∈ x.take 42, ∃ u, sextet c = some u := by
        intro c hc
        have : sextet c ∈ x.map sextet := List.mem_map_of_mem (List.mem_of_mem_take hc)
        rw [v5] at this
        obtain ⟨u, _, hu⟩ := List.mem_map.mp this
        exact ⟨u, hu.symm⟩
      revert h1 all
      generalize x.take 42 = p
      generalize y.take 42 = q
      induction p generalizing q with
      | nil => intro h _; simp at h; exact h.symm
      | cons c cs ih =>
        intro h hall
        cases q with
        | nil => simp at h
        | cons d ds =>
          simp only [List.map_cons, List.cons.injEq] at h
          obtain ⟨u, hu⟩ := hall c (by simp)
          rw [sextet_inj hu (h.1 ▸ hu), ih ds h.2 (fun c hc => hall c (List.mem_cons_of_mem _ hc))]
  have hxv : (x.drop 42).map sextet = [some v] := by
    rw [List.map_drop, v5, ← List.map_drop, hv]; rfl
  have hyw : (y.drop 42).map sextet = [some w] := by
    rw [List.map_drop, w5, ← List.map_drop, hw]; rfl
  constructor
  · intro h
    unfold accountKey at h
    rw [h] at v3
    obtain ⟨g1, g2⟩ := groups_inj 10 vs ws b.key v2 w2 v4 w4 v3 w3
    refine ⟨takes.mpr g1, v, w, hxv, hyw, ?_⟩
    rw [show 4 * 10 + 2 = 42 from rfl, hv, hw] at g2
    simpa using g2
  · rintro ⟨h1, v', w', hv', hw', h2⟩
    rw [hxv] at hv'; rw [hyw] at hw'
    simp only [List.cons.injEq, Option.some.injEq, and_true] at hv' hw'
    subst hv' hw'
    have := groups_eq 10 vs ws v2 w2 (takes.mp h1) (by rw [show 4 * 10 + 2 = 42 from rfl, hv, hw]; simpa using h2)
    rw [v3, w3] at this
    unfold accountKey
    simpa using this

/-- C42 for identifiers in the form an encoder produces (unused bits zero). -/
theorem separate_accounts_partial (x y : Bytes) (a b : ID) (ha : parseEd25519Key x = some a) (hb : parseEd25519Key y = some b)
    (hx : ∀ c ∈ x.drop 42, ∀ v, sextet c = some v → v % 4 = 0) (hy : ∀ c ∈ y.drop 42, ∀ v, sextet c = some v → v % 4 = 0)
    (h : accountKey a = accountKey b) : a = b := by
  obtain ⟨h1, v, w, h2, h3, h4⟩ := (shared_account_iff x y a b ha hb).mp h
  obtain ⟨_, a2, _, a4⟩ := (parseEd_iff x a).mp ha
  obtain ⟨_, b2, _, b4⟩ := (parseEd_iff y b).mp hb
  obtain ⟨c, hdx⟩ : ∃ c, x.drop 42 = [c] := List.length_eq_one_iff.mp (by simpa using congrArg List.length h2)
  obtain ⟨d, hdy⟩ : ∃ d, y.drop 42 = [d] := List.length_eq_one_iff.mp (by simpa using congrArg List.length h3)
  · · rw [hdx] at h2
      rw [hdy] at h3
      simp only [List.map_cons, List.map_nil, List.cons.injEq, and_true] at h2 h3
      have e1 := hx c (by rw [hdx]; simp) v h2
      have e2 := hy d (by rw [hdy]; simp) w h3
      have e : v = w := by omega
      subst e
      have hcd : c = d := sextet_inj h2 h3
      have hxy : x = y := by
        rw [← List.take_append_drop 42 x, ← List.take_append_drop 42 y, h1, hdx, hdy, hcd]
      subst hxy
      rw [ha] at hb
      exact Option.some.inj hb

/-- Refutes C42: these are different principals with one account. -/
theorem shared_account_example : ∃ a b,
    parseID (str "ed25519:AAAAAAAAAAAAAAAAAAAAAAAAAAAAAAAAAAAAAAAAAAE") = some a ∧
    parseID (str "ed25519:AAAAAAAAAAAAAAAAAAAAAAAAAAAAAAAAAAAAAAAAAAF") = some b ∧ a ≠ b ∧ accountKey a = accountKey b :=
  ⟨_, _, rfl, rfl, by decide +kernel, by decide +kernel⟩

/-- Refutes C42: the local principal has the account of the key whose bytes are all zero. (The zero
bytes encode a point of order four, for which signatures can be made without a private key.) -/
theorem local_account_example : ∃ a,
    parseID (str "ed25519:AAAAAAAAAAAAAAAAAAAAAAAAAAAAAAAAAAAAAAAAAAA") = some a ∧ a ≠ localID ∧ accountKey a = accountKey localID :=
  ⟨_, rfl, by decide +kernel, by decide +kernel⟩

/-- That is the only key which shares an account with the local principal (four text forms). -/
theorem local_account_iff (x : Bytes) (a : ID) (ha : parseEd25519Key x = some a) :
    accountKey a = accountKey localID ↔ SameKey x (str "AAAAAAAAAAAAAAAAAAAAAAAAAAAAAAAAAAAAAAAAAAA") :=
  shared_account_iff x _ a ⟨List.replicate 32 0, str "ed25519:AAAAAAAAAAAAAAAAAAAAAAAAAAAAAAAAAAAAAAAAAAA"⟩ ha (by decide +kernel)

example : ∃ a b, parseEd25519Key (str "AAAAAAAAAAAAAAAAAAAAAAAAAAAAAAAAAAAAAAAAAAE") = some a ∧
    parseEd25519Key (str "AAAAAAAAAAAAAAAAAAAAAAAAAAAAAAAAAAAAAAAAAAI") = some b ∧ accountKey a ≠ accountKey b :=
  ⟨_, _, rfl, rfl, by decide +kernel⟩

end Gate.Auth
