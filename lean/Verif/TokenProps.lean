import Verif.Token
import Verif.AuthDecision
import Verif.AuthProps
/-
C149: the tokens which the Go client makes are accepted by the server that they're made for.
-/
namespace Gate.Token
open Gate.Auth

/-! ## Base64 -/

theorem sextet_char64 : ∀ n : Fin 64, sextet (char64 n.val) = some n.val := by decide
theorem char64_plain : ∀ n : Fin 64, char64 n.val ≠ 46 ∧ char64 n.val ≠ 32 ∧ char64 n.val ≠ 10 ∧ char64 n.val ≠ 13 := by decide

theorem sextetsOf_spec : ∀ (n : Nat) (b : Bytes), b.length ≤ n →
    (∀ v ∈ sextetsOf b, v < 64) ∧ groups (sextetsOf b) = some b := by
  intro n
  induction n using Nat.strongRecOn with
  | ind n ih =>
    intro b hb
    match b with
    | [] => simp [sextetsOf, groups]
    | [a] =>
      have := a.toNat_lt
      refine ⟨by intro v hv; simp only [sextetsOf, List.mem_cons, List.not_mem_nil, or_false] at hv; omega, ?_⟩
      simp only [sextetsOf, groups]
      rw [show a.toNat / 4 * 4 + a.toNat % 4 * 16 / 16 = a.toNat by omega, UInt8.ofNat_toNat]
    | [a, b] =>
      have := a.toNat_lt
      have := b.toNat_lt
      refine ⟨by intro v hv; simp only [sextetsOf, List.mem_cons, List.not_mem_nil, or_false] at hv; omega, ?_⟩
      simp only [sextetsOf, groups]
      rw [show a.toNat / 4 * 4 + (a.toNat % 4 * 16 + b.toNat / 16) / 16 = a.toNat by omega,
        show (a.toNat % 4 * 16 + b.toNat / 16) % 16 * 16 + b.toNat % 16 * 4 / 4 = b.toNat by omega, UInt8.ofNat_toNat, UInt8.ofNat_toNat]
    | a :: b :: c :: rest =>
      have := a.toNat_lt
      have := b.toNat_lt
      have := c.toNat_lt
      simp only [List.length_cons] at hb
      obtain ⟨h1, h2⟩ := ih rest.length (by omega) rest (Nat.le_refl _)
      constructor
      · intro v hv
        simp only [sextetsOf, List.mem_cons] at hv
        rcases hv with rfl | rfl | rfl | rfl | hv
        · omega
        · omega
        · omega
        · omega
        · exact h1 v hv
      · simp only [sextetsOf, groups, h2]
        rw [show a.toNat / 4 * 4 + (a.toNat % 4 * 16 + b.toNat / 16) / 16 = a.toNat by omega,
          show (a.toNat % 4 * 16 + b.toNat / 16) % 16 * 16 + (b.toNat % 16 * 4 + c.toNat / 64) / 4 = b.toNat by omega,
          show (b.toNat % 16 * 4 + c.toNat / 64) % 4 * 64 + c.toNat % 64 = c.toNat by omega,
          UInt8.ofNat_toNat, UInt8.ofNat_toNat, UInt8.ofNat_toNat]

theorem encode64_plain (b : Bytes) : ∀ c ∈ encode64 b, c ≠ 46 ∧ c ≠ 32 ∧ c ≠ 10 ∧ c ≠ 13 := by
  intro c hc
  unfold encode64 at hc
  rw [List.mem_map] at hc
  obtain ⟨v, hv, rfl⟩ := hc
  exact char64_plain ⟨v, (sextetsOf_spec _ b (Nat.le_refl _)).1 v hv⟩

theorem sextets_map (l : List Nat) (h : ∀ v ∈ l, v < 64) : sextets (l.map char64) = some l := by
  induction l with
  | nil => rfl
  | cons v vs ih =>
    simp only [List.map_cons, sextets]
    rw [sextet_char64 ⟨v, h v (by simp)⟩, ih fun x hx => h x (by simp [hx])]

/-- C149: base64 loses nothing, for all bytes. -/
theorem decode64_encode64 (b : Bytes) : decode64 (encode64 b) = some b := by
  unfold decode64
  rw [List.filter_eq_self.2 (by intro c hc; have := encode64_plain b c hc; simp [this.2.2.1, this.2.2.2])]
  obtain ⟨h1, h2⟩ := sextetsOf_spec _ b (Nat.le_refl _)
  unfold encode64
  rw [sextets_map _ h1]
  exact h2

theorem decodeComponent_encode (b : Bytes) : decodeComponent (encode64 b) = .ok b := by
  unfold decodeComponent
  rw [decode64_encode64]
  obtain ⟨h1, h2⟩ := sextetsOf_spec _ b (Nat.le_refl _)
  have := groups_length _ _ _ (Nat.le_refl _) h2
  simp only [encode64, List.length_map]
  rw [if_pos this]

/-! ## Bearer -/

theorem trimLeft_of (c : UInt8) (b : Bytes) (h : c ≠ 32) : trimLeft (c :: b) = c :: b := by
  unfold trimLeft
  rw [List.dropWhile_cons, if_neg (by simpa using h)]

theorem parseBearer_ok (t : Bytes) (ht : t ≠ []) (h : ∀ c ∈ t, c ≠ 32) : parseBearer (str "Bearer " ++ t) = .ok t := by
  have e : str "Bearer " = [66, 101, 97, 114, 101, 114, 32] := by decide
  have h1 : trimSpaces (str "Bearer " ++ t) = str "Bearer " ++ t := by
    unfold trimSpaces
    have a1 : trimLeft (str "Bearer " ++ t) = str "Bearer " ++ t := by rw [e]; exact trimLeft_of _ _ (by decide)
    rw [a1]
    have a2 : trimLeft (str "Bearer " ++ t).reverse = (str "Bearer " ++ t).reverse := by
      rw [List.reverse_append]
      cases hr : t.reverse with
      | nil => simp at hr; exact absurd hr ht
      | cons c cs => rw [List.cons_append]; exact trimLeft_of _ _ (h c (by rw [← List.mem_reverse, hr]; simp))
    rw [a2, List.reverse_reverse]
  unfold parseBearer
  rw [h1, e]
  have h2 : untilSpace ([66, 101, 97, 114, 101, 114, 32] ++ t) = some ([66, 101, 97, 114, 101, 114], t) := by simp [untilSpace]
  rw [h2]
  simp only
  rw [if_pos (by decide)]
  congr 1
  cases t with
  | nil => exact absurd rfl ht
  | cons c cs => exact trimLeft_of _ _ (h c (by simp))

/-! ## Tokens -/

/-- The token of a bearer header. -/
theorem bearer_eq (l : Lib) (key header : Bytes) (c : Claims) :
    bearerEd25519 l key header c = str "Bearer " ++ (header ++ 46 :: (encode64 (l.marshalClaims c) ++
      46 :: encode64 (l.sign key (header ++ 46 :: encode64 (l.marshalClaims c))))) := by
  have h : ((unsignedBearer l header c).take ((unsignedBearer l header c).length - 1)).drop 7 = header ++ 46 :: encode64 (l.marshalClaims c) := by
    unfold unsignedBearer
    rw [List.take_append_of_le_length (by simp only [List.length_append, List.length_cons, List.length_nil]; omega), List.take_of_length_le (by simp only [List.length_append, List.length_cons, List.length_nil]; omega)]
    rw [show (7 : Nat) = (str "Bearer ").length by decide, List.append_assoc, List.append_assoc, List.drop_left]
    rfl
  simp only [bearerEd25519]
  rw [h]
  unfold unsignedBearer
  simp only [List.append_assoc, List.cons_append, List.nil_append]

theorem parts_of (l : Lib) (e : Env) (h : Header) (c : Claims) (h1 : e.header (l.marshalHeader h) = some h)
    (h2 : e.claims (l.marshalClaims c) = some c) (sig : Bytes) :
    Parts e (encodeHeader l h ++ 46 :: (encode64 (l.marshalClaims c) ++ 46 :: encode64 sig)) h c
      (encodeHeader l h ++ 46 :: encode64 (l.marshalClaims c)) sig :=
  ⟨_, _, _, _, _, rfl, fun hm => (encode64_plain _ _ hm).1 rfl, fun hm => (encode64_plain _ _ hm).1 rfl, rfl,
    decodeComponent_encode _, decodeComponent_encode _, decodeComponent_encode _, h1, h2⟩

theorem parts_unique {e : Env} {t : Bytes} {h h' c c' d d' s s'} (p : Parts e t h c d s) (p' : Parts e t h' c' d' s') :
    h = h' ∧ c = c' ∧ d = d' ∧ s = s' := by
  obtain ⟨p0, p1, p2, hb, pb, rfl, n0, n1, rfl, d0, d1, d2, j0, j1⟩ := p
  obtain ⟨q0, q1, q2, hb', pb', ht, m0, m1, rfl, f0, f1, f2, k0, k1⟩ := p'
  have s1 := (split3 _ p0 p1 p2).2 ⟨rfl, n0, n1⟩
  have s2 := (split3 _ q0 q1 q2).2 ⟨ht, m0, m1⟩
  rw [s1] at s2
  simp only [List.cons.injEq, and_true] at s2
  obtain ⟨rfl, rfl, rfl⟩ := s2
  rw [d0] at f0; rw [d1] at f1; rw [d2] at f2
  cases f0; cases f1; cases f2
  rw [j0] at k0; rw [j1] at k1
  cases k0; cases k1
  exact ⟨rfl, rfl, rfl, rfl⟩

/-! ## Scope -/

theorem join_eq (l : List Bytes) : join l = List.intercalate [32] l := by
  induction l with
  | nil => rfl
  | cons s ss ih =>
    cases ss with
    | nil => simp [join, List.intercalate]
    | cons t ts =>
      simp only [join]
      rw [ih]
      simp [List.intercalate]

/-- The scopes which a request has: those configured, in order (an empty configuration is the scope ""). -/
def scopesOf (scope : List Bytes) : List Bytes := if scope = [] then [[]] else scope.mergeSort bytesLe

theorem count_join (l : List Bytes) (h : ∀ t ∈ l, (32 : UInt8) ∉ t) : (join l).count 32 = l.length - 1 := by
  induction l with
  | nil => rfl
  | cons s ss ih =>
    have hs : s.count 32 = 0 := List.count_eq_zero.2 (h s (by simp))
    have := ih fun t ht => h t (by simp [ht])
    cases ss with
    | nil => simp [join, hs]
    | cons t ts =>
      simp only [join, List.count_append, List.count_cons_self, hs, this]
      simp

theorem scope_claim (scope : List Bytes) (h : ∀ t ∈ scope, (32 : UInt8) ∉ t) (l : List Bytes) :
    validateScope (join (scope.mergeSort bytesLe)) = some l ↔ scope.length ≤ 10 ∧ l = scopesOf scope := by
  rw [scope_accepted]
  by_cases he : scope = []
  · subst he
    simp only [List.mergeSort_nil, join, scopesOf, if_true, List.count_nil, List.length_nil]
    have ht : Tokens 32 [] [[]] := ⟨by simp, by simp, by simp [List.intercalate]⟩
    constructor
    · rintro ⟨h1, -⟩; exact ⟨by omega, tokens_unique _ h1 ht⟩
    · rintro ⟨-, rfl⟩; exact ⟨ht, by omega⟩
  · have hm : ∀ t ∈ scope.mergeSort bytesLe, (32 : UInt8) ∉ t := fun t ht => h t (List.mem_mergeSort.1 ht)
    have hl : (scope.mergeSort bytesLe).length = scope.length := List.length_mergeSort _
    have hpos : 0 < scope.length := List.length_pos_iff.2 he
    have hne : scope.mergeSort bytesLe ≠ [] := fun e => by rw [e] at hl; simp at hl; omega
    have ht : Tokens 32 (join (scope.mergeSort bytesLe)) (scope.mergeSort bytesLe) := ⟨hne, hm, (join_eq _).symm⟩
    rw [count_join _ hm, hl]
    simp only [scopesOf, he, if_false]
    constructor
    · rintro ⟨h1, h2⟩; exact ⟨by omega, tokens_unique _ h1 ht⟩
    · rintro ⟨h1, rfl⟩; exact ⟨ht, by omega⟩

/-! ## C149 -/

/-- The principal of a private key. -/
def principal (l : Lib) (key : Bytes) : ID := ⟨l.pub key, str "ed25519:" ++ encode64 (l.pub key)⟩

/-- JSON and signatures work: what has been encoded is decoded, what has been signed verifies. -/
structure Sound (l : Lib) (e : Env) (key : Bytes) (c : Claims) : Prop where
  header : e.header (l.marshalHeader (headerEdDSA (l.pub key))) = some (headerEdDSA (l.pub key))
  claims : e.claims (l.marshalClaims c) = some c
  verify : ∀ data, e.verify (l.pub key) data (l.sign key data) = true
  size : (l.pub key).length = 32

/-- The size of a 32 byte key's encoding. -/
theorem encode64_key (b : Bytes) (h : b.length = 32) : (encode64 b).length = 43 := by
  have key : ∀ (n : Nat) (b : Bytes), b.length ≤ n → (sextetsOf b).length = (b.length * 8 + 5) / 6 := by
    intro n
    induction n using Nat.strongRecOn with
    | ind n ih =>
      intro b hb
      match b with
      | [] => rfl
      | [a] => simp [sextetsOf]
      | [a, b] => simp [sextetsOf]
      | a :: b :: c :: rest =>
        simp only [List.length_cons] at hb
        have := ih rest.length (by omega) rest (Nat.le_refl _)
        simp only [sextetsOf, List.length_cons, this]
        omega
  simp only [encode64, List.length_map]
  rw [key _ b (Nat.le_refl _), h]

/-- C149: with an identity and an address of the server, the request is accepted exactly if the client's
clock is at most 60 seconds behind and 14 minutes ahead of the server's, and there are at most ten scopes;
it's then attributed to the identity's key, with the configured scopes. -/
theorem client_accepted (l : Lib) (e : Env) (s : Server) (address key : Bytes) (scope : List Bytes) (clientNow : Int)
    (ha : audience address = some s.identity) (hl : Sound l e key (claims scope s.identity clientNow))
    (hs : ∀ t ∈ scope, (32 : UInt8) ∉ t)
    (h1 : 0 ≤ clientNow) (h2 : clientNow < 4611686018427387904) (h3 : 0 ≤ e.now) (h4 : e.now < 4611686018427387904) (a : Auth) :
    ∃ header, makeAuthorization l address scope key clientNow = some header ∧
      (authorize e s header = .ok a ↔
        a = ⟨principal l key, context s.names none (scopesOf scope)⟩ ∧ scope.length ≤ 10 ∧ e.now ≤ clientNow + 60 ∧ clientNow ≤ e.now + 14 * 60) := by
  refine ⟨bearerEd25519 l key (encodeHeader l (headerEdDSA (l.pub key))) (claims scope s.identity clientNow), by simp only [makeAuthorization, ha], ?_⟩
  rw [bearer_eq]
  unfold authorize
  rw [parseBearer_ok]
  rotate_left
  · simp
  · intro c hc
    simp only [List.mem_append, List.mem_cons] at hc
    rcases hc with hc | rfl | hc | rfl | hc
    · exact (encode64_plain _ _ hc).2.1
    · decide
    · exact (encode64_plain _ _ hc).2.1
    · decide
    · exact (encode64_plain _ _ hc).2.1
  simp only [show ∀ (t : Bytes) (f : Bytes → Res Auth), (Res.ok t >>= f) = f t from fun _ _ => rfl]
  rw [token_accepted]
  have hp := parts_of l e (headerEdDSA (l.pub key)) (claims scope s.identity clientNow) hl.header hl.claims
    (l.sign key (encodeHeader l (headerEdDSA (l.pub key)) ++ 46 :: encode64 (l.marshalClaims (claims scope s.identity clientNow))))
  have hexp := expiration_window s (clientNow + 60) e.now (by omega) (by omega) h3 h4
  constructor
  · rintro ⟨header, c, data, sig, sl, p, hsig, hfr, hsc, hctx⟩
    obtain ⟨rfl, rfl, rfl, rfl⟩ := parts_unique hp p
    have hid : a.id = principal l key := by
      rcases hsig with ⟨-, k, hk, -, -, -, h5, -, h7, -⟩ | hu
      · simp only [headerEdDSA, Option.some.injEq] at hk
        subst hk
        simp only [decode64_encode64, Option.some.injEq] at h5
        have : a.id = ⟨a.id.key, a.id.s⟩ := rfl
        rw [this, ← h5, h7]
        rfl
      · exact absurd hu.1 (by simp only [headerEdDSA]; decide)
    have hx := hexp.1 hfr.1
    obtain ⟨hn, rfl⟩ := (scope_claim scope hs sl).1 hsc
    refine ⟨?_, hn, ?_, ?_⟩
    · have : a = ⟨a.id, a.scope⟩ := rfl
      rw [this, hid, hctx]
    · rcases hx with hx | hx <;> omega
    · rcases hx with hx | hx <;> omega
  · rintro ⟨rfl, hn, ht1, ht2⟩
    have hsb : SignedBy e (headerEdDSA (l.pub key)) (encodeHeader l (headerEdDSA (l.pub key)) ++ 46 :: encode64 (l.marshalClaims (claims scope s.identity clientNow)))
        (l.sign key (encodeHeader l (headerEdDSA (l.pub key)) ++ 46 :: encode64 (l.marshalClaims (claims scope s.identity clientNow)))) (principal l key) :=
      ⟨rfl, _, rfl, rfl, rfl, encode64_key _ hl.size, decode64_encode64 _, hl.size, rfl, hl.verify _⟩
    refine ⟨_, _, _, _, _, hp, .inl hsb, ⟨hexp.2 (.inr ⟨by omega, by omega⟩), .inr (by simp [claims]), .inl rfl⟩, (scope_claim scope hs _).2 ⟨hn, rfl⟩, rfl⟩

/-! ## The audience -/

/-- The identity of a server (server/web/handler.go:120): "scheme://authority/path/gate-0/". -/
def identity (scheme authority path : Bytes) : Bytes := scheme ++ str "://" ++ authority ++ path ++ str "/gate-0/"

theorem getScheme_letters (whole : Bytes) (cs : Bytes) (h : ∀ c ∈ cs, isLetter c = true) (rest : Bytes) :
    ∀ i acc, 0 < i + cs.length → getScheme whole i acc (cs ++ 58 :: rest) = some (acc ++ cs, rest) := by
  induction cs with
  | nil =>
    intro i acc hi
    simp only [List.length_nil, Nat.add_zero] at hi
    simp only [List.nil_append, getScheme, List.append_nil]
    rw [if_neg (by decide), if_neg (by decide), if_pos trivial, if_neg (by omega)]
  | cons c cs ih =>
    intro i acc hi
    rw [List.cons_append]
    simp only [getScheme, h c (by simp), if_true]
    rw [ih (fun x hx => h x (by simp [hx])) _ _ (by omega), List.append_assoc]
    rfl

theorem lower_of (b : Bytes) (h : ∀ c ∈ b, ¬ (65 ≤ c ∧ c ≤ 90)) : lower b = b := by
  unfold lower
  rw [List.map_congr_left (g := id)]
  · simp
  · intro c hc
    rw [if_neg (h c hc)]
    rfl

theorem untilSlash_of (a b : Bytes) (h : (47 : UInt8) ∉ a) (hb : b = [] ∨ b.head? = some 47) : untilSlash (a ++ b) = (a, b) := by
  induction a with
  | nil =>
    rcases hb with rfl | hb
    · rfl
    · cases b with
      | nil => rfl
      | cons c cs =>
        simp only [List.head?_cons, Option.some.injEq] at hb
        simp [untilSlash, hb]
  | cons c cs ih =>
    have hc : c ≠ 47 := fun e => h (by simp [e])
    have := ih fun hm => h (by simp [hm])
    simp [untilSlash, hc, this]

theorem colon_slashes : str "://" = [58, 47, 47] := by decide

/-- C149: an address with a scheme is that of the server with the same scheme, authority and path prefix. -/
theorem audience_url (scheme host path : Bytes) (hs0 : scheme ≠ []) (hs : ∀ c ∈ scheme, 97 ≤ c ∧ c ≤ 122) (h0 : host ≠ [])
    (hh : (47 : UInt8) ∉ host) (hp : path = [] ∨ path.head? = some 47) :
    audience (scheme ++ str "://" ++ host ++ path) = some (identity scheme host path) := by
  have hl : ∀ c ∈ scheme, isLetter c = true := by
    intro c hc
    have := hs c hc
    simp [isLetter, this]
  have hlow : lower scheme = scheme := lower_of _ fun c hc hcc => by
    have h1 := UInt8.le_iff_toNat_le.1 (hs c hc).1
    have h2 := UInt8.le_iff_toNat_le.1 hcc.2
    have e1 : (97 : UInt8).toNat = 97 := rfl
    have e2 : (90 : UInt8).toNat = 90 := rfl
    omega
  have hpos : 0 < 0 + scheme.length := by have := List.length_pos_iff.2 hs0; omega
  have hg := getScheme_letters (scheme ++ str "://" ++ host ++ path) scheme hl ([47, 47] ++ (host ++ path)) 0 [] hpos
  have hw : scheme ++ str "://" ++ host ++ path = scheme ++ 58 :: ([47, 47] ++ (host ++ path)) := by
    rw [colon_slashes]; simp
  have hpa : parseAddr (scheme ++ str "://" ++ host ++ path) = some ⟨scheme, [], host, path⟩ := by
    unfold parseAddr
    conv in getScheme _ _ _ _ => rw [hw, ← hw]
    have hg' : getScheme (scheme ++ str "://" ++ host ++ path) 0 [] (scheme ++ str "://" ++ host ++ path) = some (scheme, [47, 47] ++ (host ++ path)) := by
      conv => lhs; arg 4; rw [hw]
      simpa using hg
    rw [hg']
    simp only [hlow]
    rw [if_neg (by simp), if_pos ⟨.inl hs0, by simp⟩]
    have : ([47, 47] ++ (host ++ path)).drop 2 = host ++ path := rfl
    rw [this, untilSlash_of _ _ hh hp]
  unfold audience
  rw [hpa]
  simp only [hs0, if_false]
  simp only [addrString, hs0, if_false, ne_eq, not_true, h0, not_false_eq_true, true_or, if_true]
  have hne : ¬ (path ++ str "/gate-0/" ≠ [] ∧ (path ++ str "/gate-0/").head? ≠ some 47 ∧ host ≠ []) := by
    rintro ⟨-, h, -⟩
    rcases hp with rfl | hp
    · exact h (by decide)
    · cases path with
      | nil => simp at hp
      | cons c cs => exact h (by simpa using hp)
  rw [if_neg fun h => hne ⟨h.1, h.2.1, h0⟩]
  simp only [identity, colon_slashes, List.append_assoc, List.cons_append, List.nil_append]

theorem getScheme_plain (whole : Bytes) (cs : Bytes) (h : (58 : UInt8) ∉ cs) : ∀ i acc, getScheme whole i acc cs = some ([], whole) := by
  induction cs with
  | nil => intro i acc; rfl
  | cons c cs ih =>
    intro i acc
    have hc : c ≠ 58 := fun e => h (by simp [e])
    have ih := ih fun hm => h (by simp [hm])
    simp only [getScheme, ih]
    split
    · rfl
    · split
      · split <;> rfl
      · first | rfl | rw [if_neg hc]

/-- C149: an address without scheme and port is that of the HTTPS server. -/
theorem audience_host (host path : Bytes) (h0 : host ≠ []) (hh : (47 : UInt8) ∉ host) (hc : (58 : UInt8) ∉ host ++ path)
    (hp : path = [] ∨ path.head? = some 47) :
    audience (host ++ path) = some (identity (str "https") host path) := by
  have hhead : (host ++ path).head? ≠ some 47 := by
    cases host with
    | nil => exact absurd rfl h0
    | cons c cs => simp only [List.cons_append, List.head?_cons, ne_eq, Option.some.injEq]; exact fun e => hh (by simp [e])
  have hpa : parseAddr (host ++ path) = some ⟨[], [], [], host ++ path⟩ := by
    unfold parseAddr
    rw [getScheme_plain _ _ hc]
    simp only [show lower [] = [] from rfl]
    rw [if_pos hhead, if_neg (by simp), if_neg]
    rw [untilSlash_of _ _ hh hp]
    simp only [List.contains_eq_mem, decide_eq_true_eq]
    exact fun hm => hc (by simp [hm])
  unfold audience
  rw [hpa]
  have hs : str "https" ≠ [] := by decide
  have hne : host ++ path ++ str "/gate-0/" ≠ [] := by simp [h0]
  simp only [addrString, hs, hne, if_true, if_false, ne_eq, not_true, not_false_eq_true, true_or, or_true, and_false, List.append_nil]
  simp only [identity, colon_slashes, List.append_assoc, List.cons_append, List.nil_append]

/-- What `url.Parse` accepts as a scheme. -/
def SchemeLike (b : Bytes) : Prop :=
  (∃ c cs, b = c :: cs ∧ isLetter c = true) ∧ ∀ c ∈ b, isLetter c = true ∨ isDigit c = true ∨ c = 43 ∨ c = 45 ∨ c = 46

theorem getScheme_like (whole : Bytes) (cs rest : Bytes) (h : ∀ c ∈ cs, isLetter c = true ∨ isDigit c = true ∨ c = 43 ∨ c = 45 ∨ c = 46) :
    ∀ i acc, 0 < i → getScheme whole i acc (cs ++ 58 :: rest) = some (acc ++ cs, rest) := by
  induction cs with
  | nil =>
    intro i acc hi
    simp only [List.nil_append, getScheme, List.append_nil]
    rw [if_neg (by decide), if_neg (by decide), if_pos trivial, if_neg (by omega)]
  | cons c cs ih =>
    intro i acc hi
    rw [List.cons_append]
    simp only [getScheme]
    have ih' := ih (fun x hx => h x (by simp [hx])) (i + 1) (acc ++ [c]) (by omega)
    rw [ih', if_neg (by omega : ¬ i = 0)]
    have hc := h c (by simp)
    by_cases hl : isLetter c = true
    · simp [hl]
    · have : (isDigit c || c == 43 || c == 45 || c == 46) = true := by
        rcases hc with hc | hc | hc | hc | hc
        · exact absurd hc hl
        · simp [hc]
        · simp [hc]
        · simp [hc]
        · simp [hc]
      simp [hl, this]

/-- C149 (refutation): with an address of the form "host:port" the token is for "host:port" itself, although the
request is made to "https://host:port" (remote.go:607-609). -/
theorem host_port_audience (host port : Bytes) (h : SchemeLike host) (hp : port ≠ [] ∧ port.head? ≠ some 47) :
    audience (host ++ 58 :: port) = some (lower host ++ 58 :: port) := by
  obtain ⟨⟨c, cs, rfl, hc⟩, hall⟩ := h
  have hpa : parseAddr (c :: cs ++ 58 :: port) = some ⟨lower (c :: cs), port, [], []⟩ := by
    unfold parseAddr
    have : getScheme (c :: cs ++ 58 :: port) 0 [] (c :: cs ++ 58 :: port) = some (c :: cs, port) := by
      have := getScheme_like (c :: cs ++ 58 :: port) cs port (fun x hx => hall x (by simp [hx])) 1 [c] (by omega)
      rw [List.cons_append] at this ⊢
      simp only [getScheme, hc, if_true, List.nil_append]
      simpa using this
    rw [this]
    simp only
    rw [if_pos hp.2, if_pos (by simp [lower])]
  unfold audience
  rw [hpa]
  have hl : lower (c :: cs) ≠ [] := by simp [lower]
  simp only [addrString, hl, hp.1, if_false, if_true, ne_eq, not_false_eq_true, List.append_assoc, List.cons_append, List.nil_append]

theorem colon_split : ∀ (a b x y : Bytes), (58 : UInt8) ∉ a → (58 : UInt8) ∉ b → a ++ 58 :: x = b ++ 58 :: y → x = y
  | [], [], x, y, _, _, h => by simpa using h
  | [], c :: cs, x, y, _, hb, h => by
    simp only [List.nil_append, List.cons_append, List.cons.injEq] at h
    exact absurd h.1 fun e => hb (by simp [← e])
  | c :: cs, [], x, y, ha, _, h => by
    simp only [List.nil_append, List.cons_append, List.cons.injEq] at h
    exact absurd h.1 fun e => ha (by simp [e])
  | c :: cs, d :: ds, x, y, ha, hb, h => by
    simp only [List.cons_append, List.cons.injEq] at h
    exact colon_split cs ds x y (fun hm => ha (by simp [hm])) (fun hm => hb (by simp [hm])) h.2

theorem uint8_all (p : UInt8 → Prop) (h : ∀ n : Fin 256, p (UInt8.ofNat n.val)) (c : UInt8) : p c := by
  have := h ⟨c.toNat, c.toNat_lt⟩
  simpa using this

/-- The identity of no server. -/
theorem host_port_foreign (host port scheme authority path : Bytes) (h : SchemeLike host) (hp : port ≠ [] ∧ port.head? ≠ some 47)
    (hs : (58 : UInt8) ∉ scheme) : audience (host ++ 58 :: port) ≠ some (identity scheme authority path) := by
  rw [host_port_audience host port h hp]
  intro e
  simp only [Option.some.injEq, identity, colon_slashes, List.append_assoc, List.cons_append, List.nil_append] at e
  have hl : (58 : UInt8) ∉ lower host := by
    intro hm
    unfold lower at hm
    rw [List.mem_map] at hm
    obtain ⟨c, hc, he⟩ := hm
    have hk := h.2 c hc
    revert hk he
    clear hc e h
    revert c
    exact uint8_all _ (by decide +kernel)
  have := colon_split _ _ _ _ hl hs e
  exact hp.2 (by rw [this]; rfl)

/-- C149: a token with another audience isn't accepted. -/
theorem wrong_audience (l : Lib) (e : Env) (s : Server) (address key aud : Bytes) (scope : List Bytes) (clientNow : Int)
    (ha : audience address = some aud) (hne : aud ≠ s.identity) (hl : Sound l e key (claims scope aud clientNow)) (a : Auth) :
    ∃ header, makeAuthorization l address scope key clientNow = some header ∧ authorize e s header ≠ .ok a := by
  refine ⟨bearerEd25519 l key (encodeHeader l (headerEdDSA (l.pub key))) (claims scope aud clientNow), by simp only [makeAuthorization, ha], ?_⟩
  rw [bearer_eq]
  unfold authorize
  rw [parseBearer_ok]
  rotate_left
  · simp
  · intro c hc
    simp only [List.mem_append, List.mem_cons] at hc
    rcases hc with hc | rfl | hc | rfl | hc
    · exact (encode64_plain _ _ hc).2.1
    · decide
    · exact (encode64_plain _ _ hc).2.1
    · decide
    · exact (encode64_plain _ _ hc).2.1
  simp only [show ∀ (t : Bytes) (f : Bytes → Res Auth), (Res.ok t >>= f) = f t from fun _ _ => rfl]
  intro h
  rw [token_accepted] at h
  obtain ⟨header, c, data, sig, sl, p, -, hfr, -⟩ := h
  have hp := parts_of l e (headerEdDSA (l.pub key)) (claims scope aud clientNow) hl.header hl.claims
    (l.sign key (encodeHeader l (headerEdDSA (l.pub key)) ++ 46 :: encode64 (l.marshalClaims (claims scope aud clientNow))))
  obtain ⟨rfl, rfl, rfl, rfl⟩ := parts_unique hp p
  rcases hfr.2.1 with h | h
  · simp [claims] at h
  · simp only [claims, List.mem_singleton] at h
    exact hne h.symm

/-- C149 (refutation): a client which is given a server's address as "host:port" (host's first character being a
letter) is refused by the server, whatever it is called. -/
theorem host_port_refuted (l : Lib) (e : Env) (s : Server) (host port key scheme authority path : Bytes) (scope : List Bytes) (clientNow : Int)
    (h : SchemeLike host) (hp : port ≠ [] ∧ port.head? ≠ some 47) (hs : (58 : UInt8) ∉ scheme) (hi : s.identity = identity scheme authority path)
    (hl : ∀ c, Sound l e key c) (a : Auth) :
    ∃ header, makeAuthorization l (host ++ 58 :: port) scope key clientNow = some header ∧ authorize e s header ≠ .ok a :=
  wrong_audience l e s _ key _ scope clientNow (host_port_audience host port h hp)
    (fun he => host_port_foreign host port scheme authority path h hp hs (by rw [host_port_audience host port h hp, he, hi])) (hl _) a

/-- C149 (refutation): with an IPv4 address and a port no request is made. -/
theorem digit_port_refuted (l : Lib) (key : Bytes) (scope : List Bytes) (now : Int) (d : UInt8) (host rest : Bytes) (hd : isDigit d = true)
    (hh : (47 : UInt8) ∉ host) :
    makeAuthorization l (d :: host ++ 58 :: rest) scope key now = none := by
  have hd47 : d ≠ 47 := by intro e; subst e; revert hd; decide
  have hnl : isLetter d = false := by clear hd47; revert hd; revert d; exact uint8_all _ (by decide +kernel)
  have hu : ∀ (b : Bytes), (47 : UInt8) ∉ b → (58 : UInt8) ∈ (untilSlash (b ++ 58 :: rest)).1 := by
    intro b hb
    induction b with
    | nil => simp [untilSlash]
    | cons c cs ih =>
      have hc : c ≠ 47 := fun e => hb (by simp [e])
      have := ih fun hm => hb (by simp [hm])
      simp [untilSlash, hc, this]
  have : parseAddr (d :: host ++ 58 :: rest) = none := by
    unfold parseAddr
    have hg : getScheme (d :: host ++ 58 :: rest) 0 [] (d :: host ++ 58 :: rest) = some ([], d :: host ++ 58 :: rest) := by
      conv => lhs; arg 4; rw [List.cons_append]
      simp only [getScheme, hnl, hd]
      simp
    rw [hg]
    simp only [show lower [] = [] from rfl]
    rw [if_pos (by simpa using hd47), if_neg (by simp), if_pos]
    simp only [List.contains_eq_mem, decide_eq_true_eq]
    exact hu (d :: host) (by simp [hh]; exact fun e => hd47 e.symm)
  unfold makeAuthorization audience
  rw [this]

/-- C149: unsigned tokens are made only for hosts with loopback addresses, and for plain HTTP (which isn't used for
others). -/
theorem local_only (l : Lib) (address header : Bytes) (loopback : Bytes → Bool) (scope : List Bytes) (clientNow : Int)
    (hm : makeLocalAuthorization l address loopback scope clientNow = some header) :
    ∃ a, parseAddr address = some a ∧ a.scheme = str "http" ∧ loopback a.host = true := by
  unfold makeLocalAuthorization at hm
  split at hm
  · cases hm
  · rename_i a h
    split at hm
    · cases hm
    · split at hm
      · cases hm
      · rename_i h1
        split at hm
        · cases hm
        · rename_i h2
          exact ⟨a, h, by simpa using h1, by simpa using h2⟩

/-- C149: with an empty identity file, for a server which trusts local requests (and with an address for which
the client makes the token at all), it's the local principal's, under the same conditions. -/
theorem local_accepted (l : Lib) (e : Env) (s : Server) (address header : Bytes) (loopback : Bytes → Bool) (scope : List Bytes) (clientNow : Int)
    (ha : audience address = some s.identity) (hloc : s.loc = true)
    (hm : makeLocalAuthorization l address loopback scope clientNow = some header)
    (hj1 : e.header (l.marshalHeader ⟨str "none", none⟩) = some ⟨str "none", none⟩)
    (hj2 : e.claims (l.marshalClaims (claims scope s.identity clientNow)) = some (claims scope s.identity clientNow))
    (hs : ∀ t ∈ scope, (32 : UInt8) ∉ t)
    (h1 : 0 ≤ clientNow) (h2 : clientNow < 4611686018427387904) (h3 : 0 ≤ e.now) (h4 : e.now < 4611686018427387904) (a : Auth) :
    authorize e s header = .ok a ↔
      a = ⟨localID, context s.names none (scopesOf scope)⟩ ∧ scope.length ≤ 10 ∧ e.now ≤ clientNow + 60 ∧ clientNow ≤ e.now + 14 * 60 := by
  have hh : header = bearerLocal l (claims scope s.identity clientNow) := by
    unfold makeLocalAuthorization at hm
    split at hm
    · cases hm
    · rw [ha] at hm
      simp only at hm
      split at hm
      · cases hm
      · split at hm
        · cases hm
        · simpa using hm.symm
  have hb : header = str "Bearer " ++ (encodeHeader l ⟨str "none", none⟩ ++ 46 :: (encode64 (l.marshalClaims (claims scope s.identity clientNow)) ++ 46 :: encode64 [])) := by
    rw [hh]
    unfold bearerLocal unsignedBearer
    simp only [List.append_assoc, List.cons_append, List.nil_append]
    rfl
  rw [hb]
  unfold authorize
  rw [parseBearer_ok]
  rotate_left
  · simp
  · intro c hc
    simp only [List.mem_append, List.mem_cons] at hc
    rcases hc with hc | rfl | hc | rfl | hc
    · exact (encode64_plain _ _ hc).2.1
    · decide
    · exact (encode64_plain _ _ hc).2.1
    · decide
    · exact (encode64_plain _ _ hc).2.1
  simp only [show ∀ (t : Bytes) (f : Bytes → Res Auth), (Res.ok t >>= f) = f t from fun _ _ => rfl]
  rw [token_accepted]
  have hp := parts_of l e ⟨str "none", none⟩ (claims scope s.identity clientNow) hj1 hj2 []
  have hexp := expiration_window s (clientNow + 60) e.now (by omega) (by omega) h3 h4
  constructor
  · rintro ⟨header, c, data, sig, sl, p, hsig, hfr, hsc, hctx⟩
    obtain ⟨rfl, rfl, rfl, rfl⟩ := parts_unique hp p
    have hid : a.id = localID := by
      rcases hsig with hu | hu
      · exact absurd hu.1 edDSA_ne
      · exact hu.2.2.2
    have hx := hexp.1 hfr.1
    obtain ⟨hn, rfl⟩ := (scope_claim scope hs sl).1 hsc
    refine ⟨?_, hn, ?_, ?_⟩
    · have : a = ⟨a.id, a.scope⟩ := rfl
      rw [this, hid, hctx]
    · rcases hx with hx | hx <;> omega
    · rcases hx with hx | hx <;> omega
  · rintro ⟨rfl, hn, ht1, ht2⟩
    refine ⟨_, _, _, _, _, hp, .inr ⟨rfl, rfl, hloc, rfl⟩, ⟨hexp.2 (.inr ⟨by omega, by omega⟩), .inr (by simp [claims]), .inl rfl⟩, (scope_claim scope hs _).2 ⟨hn, rfl⟩, rfl⟩

/-! ## Examples -/

/-- Instances of the hypotheses. -/
example : audience (str "https://example.net/api") = some (identity (str "https") (str "example.net") (str "/api")) := by decide +kernel
example : audience (str "example.net") = some (str "https://example.net/gate-0/") := by decide +kernel
example : audience (str "example.net:8080") = some (str "example.net:8080") := by decide +kernel
example : audience (str "127.0.0.1:8080") = none := by decide +kernel
/-- A slash at the end makes another audience: the server's own path never ends with a slash (handler.go:103). -/
example : audience (str "https://example.net/") = some (str "https://example.net//gate-0/") := by decide +kernel
example : SchemeLike (str "example.net") :=
  ⟨⟨101, _, rfl, by decide⟩, by decide⟩

/-- JSON and signatures which are sound for one claim. -/
def exampleClaims : Claims := claims [str "program.cached", str "a"] (str "https://example.net/gate-0/") 1000
def exampleLib : Lib := ⟨fun _ => str "h", fun _ => str "c", fun _ => List.replicate 32 7, fun k d => k ++ d⟩
def exampleEnv : Env :=
  ⟨fun b => if b = str "h" then some (headerEdDSA (List.replicate 32 7)) else none, fun b => if b = str "c" then some exampleClaims else none,
    fun _ d s => s == str "k" ++ d, fun _ _ _ => false, 1030⟩
theorem example_sound : Sound exampleLib exampleEnv (str "k") exampleClaims :=
  ⟨by simp [exampleLib, exampleEnv], by simp [exampleLib, exampleEnv], by simp [exampleLib, exampleEnv], by simp [exampleLib]⟩

end Gate.Token
