import Verif.Model.OAuth
import Verif.Proofs.Cache
import Verif.Spec.Form

/-! # C43–C46, C67, C69: OAuth2 -/

namespace Gofre.Props
open Gofre.Cache Gofre.OAuth
open Gofre.Spec (given)
variable {σ ρ : Type}

theorem formValue_given (r : Req) (k : Str) : r.formValue k = given r k := by
  unfold Req.formValue getFirst given Map.get?
  cases List.lookup k r.form with
  | none => rfl
  | some l => cases l <;> rfl

theorem byName_some {ps : List (Provider σ)} {n : Str} {p : Provider σ} (h : byName ps n = some p) :
    p ∈ ps ∧ p.name = n := by
  induction ps with
  | nil => simp [byName] at h
  | cons q ps ih =>
    simp only [byName] at h
    split at h
    · simp only [Option.some.injEq] at h; subst h; simp_all
    · have := ih h; simp_all

/-- A provider can be selected for an initiate request: the only configured one, or the one the
request names. -/
def Selectable (cfg : Config σ) (req : Req) : Prop :=
  cfg.providers.length = 1 ∨ ∃ p ∈ cfg.providers, p.name = given req b!"provider" ∧ p.name ≠ []

/-- `state` was issued by an initiate request of the history and is unexpired at `now`. -/
def Issued (cfg : Config σ) (evs : List Ev) (state : Str) (now : Int) : Prop :=
  ∃ t req, Ev.initiate t state req ∈ evs ∧ Selectable cfg req ∧ now < t + cfg.keyExpiration

theorem selectProvider_ok {cfg : Config σ} {req : Req} {p : Provider σ}
    (h : selectProvider cfg req = .ok p) : p ∈ cfg.providers ∧ Selectable cfg req := by
  unfold selectProvider at h
  simp only [formValue_given] at h
  split at h
  · rename_i q hq
    simp only [Except.ok.injEq] at h
    subst h
    exact ⟨by simp [hq], .inl (by simp [hq])⟩
  · split at h
    · cases h
    · rename_i hne
      split at h
      · rename_i q hq
        simp only [Except.ok.injEq] at h
        subst h
        obtain ⟨h1, h2⟩ := byName_some hq
        exact ⟨h1, .inr ⟨_, h1, h2, by rw [h2]; exact hne⟩⟩
      · cases h

theorem byName_find (ps : List (Provider σ)) (n : Str) : byName ps n = ps.find? (fun p => p.name = n) := by
  induction ps with
  | nil => rfl
  | cons q ps ih =>
    rw [byName, List.find?_cons]
    by_cases h : n = q.name
    · rw [if_pos h]; simp [h]
    · rw [if_neg h, ih]
      have : decide (q.name = n) = false := by simpa using fun e => h e.symm
      rw [this]

theorem selectable_selects {cfg : Config σ} {req : Req} (h : Selectable cfg req) : ∃ p, selectProvider cfg req = .ok p := by
  unfold selectProvider
  simp only [formValue_given]
  split
  · exact ⟨_, rfl⟩
  · rename_i hne
    rcases h with h | ⟨p, hp, h1, h2⟩
    · match hc : cfg.providers, h with
      | [q], _ => exact absurd hc (hne q)
    · rw [if_neg (by rw [← h1]; exact h2), byName_find]
      cases hf : cfg.providers.find? (fun p => p.name = given req b!"provider") with
      | some q => exact ⟨q, rfl⟩
      | none => exact absurd h1 (by simpa using List.find?_eq_none.1 hf p hp)

theorem run_cache (cfg : Config σ) (base : Str) (h : OHandler σ ρ) (evs : List Ev) (c : Cache) (s : σ) :
    ∃ c', (OAuth.run cfg base h evs (some c, s)).1 = some c' ∧
      ∀ k e, Map.get? c' k = some e → Map.get? c k = some e ∨
        ∃ t req, Ev.initiate t k req ∈ evs ∧ Selectable cfg req ∧ e = t + cfg.keyExpiration := by
  induction evs generalizing c s with
  | nil => exact ⟨c, rfl, fun k e h => .inl h⟩
  | cons ev evs ih =>
    cases ev with
    | callback now n req =>
      simp only [OAuth.run]
      obtain ⟨c', h1, h2⟩ := ih c (callback cfg base now n h {} req (some c) s).2
      refine ⟨c', h1, fun k e hk => ?_⟩
      rcases h2 k e hk with h | ⟨t, r, h3, h4⟩
      · exact .inl h
      · exact .inr ⟨t, r, by simp [h3], h4⟩
    | initiate now st req =>
      simp only [OAuth.run, initiate]
      cases hsel : selectProvider cfg req with
      | error e =>
        obtain ⟨c', h1, h2⟩ := ih c s
        refine ⟨c', h1, fun k e hk => ?_⟩
        rcases h2 k e hk with h | ⟨t, r, h3, h4⟩
        · exact .inl h
        · exact .inr ⟨t, r, by simp [h3], h4⟩
      | ok p =>
        obtain ⟨c', h1, h2⟩ := ih (add c now st cfg.keyExpiration) s
        refine ⟨c', h1, fun k e hk => ?_⟩
        rcases h2 k e hk with h | ⟨t, r, h3, h4⟩
        · by_cases hks : k = st
          · subst hks
            simp only [add, Map.get?_set_same, Option.some.injEq] at h
            exact .inr ⟨now, req, by simp, (selectProvider_ok hsel).2, h.symm⟩
          · rw [add, Map.get?_set_other _ _ _ _ hks] at h
            exact .inl h
        · exact .inr ⟨t, r, by simp [h3], h4⟩

/-- Everything a callback must satisfy for the user's handler to run, and what it then gets. -/
structure Admitted (cfg : Config σ) (base : Str) (evs : List Ev) (now : Int) (name : Str) (req : Req)
    (s : σ) (octx : OCtx) (s' : σ) : Prop where
  noError : given req b!"error" = []
  issued : Issued cfg evs (given req b!"state") now
  provider : ∃ p ∈ cfg.providers, p.name = name ∧
    ∃ tok s₁, p.fetchToken (cfg.websiteUrl ++ base ++ b!"/" ++ p.name) (given req b!"code") s = (.ok tok, s₁) ∧
      ((cfg.fetchUserDetails = true ∧ ∃ u, p.fetchUser tok s₁ = (.ok u, s') ∧ octx = ⟨some tok, some u⟩) ∨
       (cfg.fetchUserDetails = false ∧ s' = s₁ ∧ octx = ⟨some tok, none⟩))

/-- C43.  With a cache configured and after any history of initiate and callback requests, a
callback either runs the user's handler exactly once, in which case all the conditions hold
and the handler sees that provider's token (and user when requested), or the outcome — an
error or a provider panic — does not depend on the handler at all. -/
theorem c43_only_issued_states (cfg : Config σ) (base : Str) (h₀ : OHandler σ ρ) (evs : List Ev) (s₀ s : σ)
    (now : Int) (name : Str) (req : Req) :
    (∃ octx s', Admitted cfg base evs now name req s octx s' ∧
      ∀ h : OHandler σ ρ, callback cfg base now name h {} req (OAuth.run cfg base h₀ evs (some empty, s₀)).1 s =
        h octx req s') ∨
    (∃ out s', ((∃ e, out = HRes.ret none (some e)) ∨ ∃ v, out = HRes.panic v) ∧
      ∀ h : OHandler σ ρ, callback cfg base now name h {} req (OAuth.run cfg base h₀ evs (some empty, s₀)).1 s =
        (out, s')) := by
  obtain ⟨c, hc, hcs⟩ := run_cache cfg base h₀ evs empty s₀
  rw [hc]
  unfold callback
  simp only [formValue_given]
  cases hp : byName cfg.providers name with
  | none => right; exact ⟨_, _, .inl ⟨_, rfl⟩, fun h => rfl⟩
  | some p =>
    obtain ⟨hmem, hname⟩ := byName_some hp
    dsimp only
    by_cases herr : given req b!"error" ≠ []
    · simp only [if_pos herr]; right; exact ⟨_, _, .inl ⟨_, rfl⟩, fun h => rfl⟩
    simp only [if_neg herr]
    by_cases hst : (!contains c now (given req b!"state")) = true
    · simp only [if_pos hst]; right; exact ⟨_, _, .inl ⟨_, rfl⟩, fun h => rfl⟩
    simp only [if_neg hst]
    have hiss : Issued cfg evs (given req b!"state") now := by
      have hct : contains c now (given req b!"state") = true := by simpa using hst
      unfold contains at hct
      split at hct
      · rename_i e he
        rcases hcs _ _ he with h | ⟨t, r, h1, h2, h3⟩
        · simp [empty, Map.get?] at h
        · exact ⟨t, r, h1, h2, by simpa [h3] using hct⟩
      · cases hct
    have hred : redirectUrl cfg base p = cfg.websiteUrl ++ base ++ b!"/" ++ p.name := by
      simp [redirectUrl, slash]
    cases hft : p.fetchToken (redirectUrl cfg base p) (given req b!"code") s with
    | mk out s₁ =>
      cases out with
      | err e => right; exact ⟨_, _, .inl ⟨_, rfl⟩, fun h => rfl⟩
      | panic => right; exact ⟨_, _, .inr ⟨_, rfl⟩, fun h => rfl⟩
      | ok tok =>
        dsimp only
        rw [hred] at hft
        cases hfu : cfg.fetchUserDetails with
        | false =>
          left
          exact ⟨_, _, ⟨by simpa using herr, hiss, p, hmem, hname, tok, s₁, hft, .inr ⟨hfu, rfl, rfl⟩⟩,
            fun h => by simp⟩
        | true =>
          cases hu : p.fetchUser tok s₁ with
          | mk out s₂ =>
            cases out with
            | err e => right; exact ⟨_, _, .inl ⟨_, rfl⟩, fun h => rfl⟩
            | panic => right; exact ⟨_, _, .inr ⟨_, rfl⟩, fun h => rfl⟩
            | ok u =>
              left
              exact ⟨_, _, ⟨by simpa using herr, hiss, p, hmem, hname, tok, s₁, hft, .inl ⟨hfu, u, hu, rfl⟩⟩,
                fun h => by simp⟩

/-- A configuration used in examples: one provider that accepts every code. -/
def demoCfg : Config Nat :=
  { websiteUrl := b!"https://w", fetchUserDetails := true, keyExpiration := 100
    providers := [{ name := b!"github", initiateUrl := fun _ st _ => st
                    fetchToken := fun _ code s => (.ok { accessToken := code, tokenType := b!"Bearer" }, s)
                    fetchUser := fun t s => (.ok ⟨t.accessToken, [], b!"github"⟩, s) }] }

/-- A callback request with code `c` and state `st`. -/
def demoReq : Req := { method := b!"GET", form := [(b!"state", [b!"st"]), (b!"code", [b!"c"])] }

/-- The user's handler counts its runs. -/
def counter : OHandler Nat Unit := fun _ _ n => (.ret (some ()) none, n + 1)

example : (OAuth.run demoCfg b!"/oauth/authorize" counter
    [.callback 0 b!"github" demoReq, .initiate 1 b!"st" { method := b!"GET" },
      .callback 100 b!"github" demoReq, .callback 101 b!"github" demoReq] (some empty, 0)).2 = 1 := by decide

/-- C44 fails: the state is not removed, the same callback is accepted again. -/
theorem c44_violated :
    (OAuth.run demoCfg b!"/oauth/authorize" counter
      [.initiate 1 b!"st" { method := b!"GET" }, .callback 2 b!"github" demoReq, .callback 3 b!"github" demoReq]
      (some empty, 0)).2 = 2 := by decide

/-- C44, what holds: a state is accepted only while some initiate request that issued it is
less than the configured expiration old, so re-use is limited to that window.  Missing: the
refusal of the second use inside the window. -/
theorem c44_window_partial (cfg : Config σ) (base : Str) (h₀ h : OHandler σ ρ) (evs : List Ev) (s₀ s : σ)
    (now : Int) (name : Str) (req : Req)
    (hold : ∀ t r, Ev.initiate t (given req b!"state") r ∈ evs → t + cfg.keyExpiration ≤ now) :
    ∃ e s', callback cfg base now name h {} req (OAuth.run cfg base h₀ evs (some empty, s₀)).1 s =
      (.ret none (some e), s') ∧ s' = s := by
  obtain ⟨c, hc, hcs⟩ := run_cache cfg base h₀ evs empty s₀
  rw [hc]
  unfold callback
  simp only [formValue_given]
  cases hp : byName cfg.providers name with
  | none => exact ⟨_, _, rfl, rfl⟩
  | some p =>
    dsimp only
    by_cases herr : given req b!"error" ≠ []
    · simp only [if_pos herr]; exact ⟨_, _, rfl, rfl⟩
    · simp only [if_neg herr]
      have : (!contains c now (given req b!"state")) = true := by
        simp only [Bool.not_eq_true', contains]
        split
        · rename_i e he
          rcases hcs _ _ he with h | ⟨t, r, h1, h2, h3⟩
          · simp [empty, Map.get?] at h
          · have := hold t r h1
            simp only [decide_eq_false_iff_not]; omega
        · rfl
      simp only [if_pos this]; exact ⟨_, _, rfl, rfl⟩

/-- Reusable consequence: a state that was never issued is refused (any time). -/
theorem c43_unissued_refused (cfg : Config σ) (base : Str) (h₀ h : OHandler σ ρ) (evs : List Ev) (s₀ s : σ)
    (now : Int) (name : Str) (req : Req)
    (hno : ∀ t r, Ev.initiate t (given req b!"state") r ∉ evs) :
    ∃ e, callback cfg base now name h {} req (OAuth.run cfg base h₀ evs (some empty, s₀)).1 s =
      (.ret none (some e), s) := by
  obtain ⟨e, s', h1, h2⟩ := c44_window_partial cfg base h₀ h evs s₀ s now name req
    (fun t r hm => absurd hm (hno t r))
  exact ⟨e, by rw [h1, h2]⟩

/-! ### C45 -/

/-- C45 fails: a 200 answer without `access_token` makes both providers panic. -/
theorem c45_violated (k : Kind) :
    ∃ body, fetchAccessToken k (.reply 200 body) = .panic ∧ fetchAuthenticatedUser k (.reply 200 body) = .panic :=
  ⟨[(b!"error", .str b!"bad_verification_code")], by cases k <;> decide, by cases k <;> decide⟩

/-- The 2xx answers whose field `name` is not a text. -/
def LacksText (r : Reply) (name : Str) : Prop :=
  ∃ st body, r = .reply st body ∧ 200 ≤ st ∧ st < 300 ∧ ∀ t, Map.get? body name ≠ some (.str t)

theorem asString_none {o : Option Json} : asString o = none ↔ ∀ t, o ≠ some (.str t) := by
  unfold asString
  split
  · simp
  · rename_i h; simpa using h

/-- C45 exactly: fetching a token panics for those 2xx answers whose `access_token` or `token_type` is missing or
not a text, and for no other. -/
theorem c45_token_exact (k : Kind) (r : Reply) :
    fetchAccessToken k r = .panic ↔ LacksText r b!"access_token" ∨ LacksText r b!"token_type" := by
  constructor
  · intro h
    cases r with
    | failed => simp [fetchAccessToken] at h
    | undecodable => simp [fetchAccessToken] at h
    | reply st body =>
      simp only [fetchAccessToken] at h
      split at h
      · rename_i h2
        cases ha : asString (Map.get? body b!"access_token") with
        | none => exact .inl ⟨st, body, rfl, by omega, by omega, asString_none.1 ha⟩
        | some a =>
          cases ht : asString (Map.get? body b!"token_type") with
          | none => exact .inr ⟨st, body, rfl, by omega, by omega, asString_none.1 ht⟩
          | some t => simp only [ha, ht] at h; cases k <;> cases h
      · cases h
  · rintro (⟨st, body, rfl, h1, h2, h3⟩ | ⟨st, body, rfl, h1, h2, h3⟩)
    · simp only [fetchAccessToken, if_pos (show st / 100 = 2 by omega), asString_none.2 h3]
    · simp only [fetchAccessToken, if_pos (show st / 100 = 2 by omega), asString_none.2 h3]
      split <;> rfl

/-- C45 exactly, for users: those 2xx answers in which neither `email` nor `login` (GitHub) or `id` (Google) is a
text. -/
theorem c45_user_exact (k : Kind) (r : Reply) :
    fetchAuthenticatedUser k r = .panic ↔
      LacksText r b!"email" ∧ ((k = .github ∧ LacksText r b!"login") ∨ (k = .google ∧ LacksText r b!"id")) := by
  constructor
  · intro h
    cases r with
    | failed => simp [fetchAuthenticatedUser] at h
    | undecodable => simp [fetchAuthenticatedUser] at h
    | reply st body =>
      simp only [fetchAuthenticatedUser] at h
      split at h
      · rename_i h2
        split at h
        · cases h
        · rename_i he
          split at h
          · cases h
          · rename_i hi
            refine ⟨⟨st, body, rfl, by omega, by omega, asString_none.1 he⟩, ?_⟩
            cases k
            · exact .inl ⟨rfl, st, body, rfl, by omega, by omega, asString_none.1 hi⟩
            · exact .inr ⟨rfl, st, body, rfl, by omega, by omega, asString_none.1 hi⟩
      · cases h
  · rintro ⟨⟨st, body, rfl, h1, h2, h3⟩, ⟨rfl, st', body', he, _, _, h4⟩ | ⟨rfl, st', body', he, _, _, h4⟩⟩ <;> cases he <;>
      simp only [fetchAuthenticatedUser, if_pos (show st / 100 = 2 by omega), asString_none.2 h3, asString_none.2 h4]

example : LacksText (.reply 200 [(b!"access_token", .num 7)]) b!"access_token" ∧ ¬ LacksText (.reply 404 []) b!"access_token" :=
  ⟨⟨_, _, rfl, by decide, by decide, asString_none.1 (by decide)⟩, fun ⟨_, _, h, _, h2, _⟩ => by cases h; omega⟩

/-- The scopes in an answer: joined with the provider's separator they are the text under `scope`; without such a text there are none. -/
def ScopesOf (k : Kind) (body : Map Json) (scopes : List Str) : Prop :=
  let sep : UInt8 := match k with | .github => 44 | .google => 32
  (∀ t, Map.get? body b!"scope" = some (.str t) → joinWith sep scopes = t ∧ (∀ s ∈ scopes, sep ∉ s) ∧ scopes ≠ []) ∧
  ((∀ t, Map.get? body b!"scope" ≠ some (.str t)) → scopes = [])

/-- C45, second half, without exceptions: a token is returned only for a decoded 2xx answer and
carries that answer's `access_token`, `token_type` and scopes (the text between commas for GitHub,
between spaces for Google; none when the answer does not say), and for Google the refresh token and the lifetime. -/
theorem c45_token_from_reply (k : Kind) (r : Reply) (tok : AccessToken) (h : fetchAccessToken k r = .ok tok) :
    ∃ st body, r = .reply st body ∧ 200 ≤ st ∧ st < 300 ∧
      Map.get? body b!"access_token" = some (.str tok.accessToken) ∧
      Map.get? body b!"token_type" = some (.str tok.tokenType) ∧
      ScopesOf k body tok.scopes ∧
      (k = .google → ∀ t, Map.get? body b!"refresh_token" = some (.str t) → tok.refreshToken = t) ∧
      (k = .google → ∀ n, Map.get? body b!"expires_in" = some (.num n) → tok.expiresInSeconds = n) := by
  have asS : ∀ o t, asString o = some t → o = some (Json.str t) := by
    intro o t ho
    unfold asString at ho
    split at ho
    · simp only [Option.some.injEq] at ho; rw [ho]
    · cases ho
  have hsc : ∀ body : Map Json, ScopesOf k body (match asString (Map.get? body b!"scope") with
      | some sc => splitOn k.sep sc
      | none => []) := by
    intro body
    refine ⟨fun t ht => ?_, fun hn => ?_⟩
    · rw [ht]
      cases k
      · exact ⟨joinWith_splitOn 44 t, splitOn_no_sep 44 t, splitOn_ne_nil 44 t⟩
      · exact ⟨joinWith_splitOn 32 t, splitOn_no_sep 32 t, splitOn_ne_nil 32 t⟩
    · cases hs : asString (Map.get? body b!"scope") with
      | none => rfl
      | some t => exact absurd (asS _ _ hs) (hn t)
  cases r with
  | failed => simp [fetchAccessToken] at h
  | undecodable => simp [fetchAccessToken] at h
  | reply st body =>
    simp only [fetchAccessToken] at h
    split at h
    · rename_i h2
      refine ⟨st, body, rfl, by omega, by omega, ?_⟩
      split at h
      · cases h
      · rename_i t ht
        split at h
        · cases h
        · rename_i u hu
          cases k <;> simp only [POut.ok.injEq] at h <;> rw [← h]
          · exact ⟨asS _ _ ht, asS _ _ hu, hsc body, nofun, nofun⟩
          · refine ⟨asS _ _ ht, asS _ _ hu, hsc body, fun _ t ht => ?_, fun _ n hn => ?_⟩
            · simp [ht, asString]
            · simp [hn]
    · cases h

example : fetchAccessToken .github (.reply 200 [(b!"access_token", .str b!"t"), (b!"token_type", .str b!"bearer"),
    (b!"scope", .str b!"a,b")]) = .ok { accessToken := b!"t", tokenType := b!"bearer", scopes := [b!"a", b!"b"] } := by
  decide


/-! ### C69: building the URL leaves the application's slices alone -/

/-- C69 fails: when the configured scopes are a window of a larger array, appending the profile
scopes overwrites the array's next element. -/
theorem c69_violated :
    ∃ (s : Slice), s.len ≤ s.arr.length ∧ (s.append [b!"user"]).2 ≠ s.arr :=
  ⟨⟨[b!"repo", b!"admin"], 1⟩, by decide, by decide⟩

/-- C69 when the configured slice has no spare capacity (for example a literal): the array is
unchanged.  In every case the configured scopes themselves are unchanged and the new slice
holds the configured scopes followed by the added ones. -/
theorem c69_no_spare_capacity_partial (s : Slice) (xs : List Str) (hl : s.len ≤ s.arr.length) :
    ((s.arr.length = s.len ∨ xs = []) → (s.append xs).2 = s.arr) ∧
    (s.append xs).2.take s.len = s.elems ∧ (s.append xs).1.elems = s.elems ++ xs := by
  have hm : min s.len s.arr.length = s.len := by omega
  refine ⟨?_, ?_, ?_⟩
  · intro h
    unfold Slice.append
    split
    · rcases h with h | h
      · have : xs = [] := List.eq_nil_of_length_eq_zero (by omega)
        simp [this]
      · simp [h]
    · rfl
  · unfold Slice.append
    split
    · simp [Slice.elems, hm]
    · rfl
  · unfold Slice.append
    split
    · simp only [Slice.elems]
      rw [List.take_append_of_le_length (by simp [hm]), List.take_of_length_le (by simp [hm])]
    · simp only [Slice.elems]
      rw [List.take_of_length_le (by simp [hm])]

/-! ### C67 -/

/-- C67.  Whatever the random source returns, the state has one character per value drawn and
consists of lower-case letters and digits; no index is out of range. -/
theorem c67_state_alphabet (rs : List Nat) :
    ∃ s, generateUniqueId rs = some s ∧ s.length = rs.length ∧
      ∀ b ∈ s, (97 ≤ b ∧ b ≤ 122) ∨ (48 ≤ b ∧ b ≤ 57) := by
  induction rs with
  | nil => exact ⟨[], rfl, rfl, by simp⟩
  | cons r rs ih =>
    obtain ⟨s, h1, h2, h3⟩ := ih
    have hlt : r % randLetters.length < randLetters.length := Nat.mod_lt _ (by decide)
    refine ⟨randLetters[r % randLetters.length] :: s, ?_, by simp [h2], ?_⟩
    · simp [generateUniqueId, h1, List.getElem?_eq_getElem hlt]
    · intro b hb
      rcases List.mem_cons.1 hb with rfl | hb
      · have : ∀ x ∈ randLetters, (97 ≤ x ∧ x ≤ 122) ∨ (48 ≤ x ∧ x ≤ 57) := by decide
        exact this _ (List.getElem_mem hlt)
      · exact h3 b hb

example : generateUniqueId [0, 35, 36, 62] = some b!"a0a1" := by decide

/-- C67, the whole alphabet: every text of small letters and digits is the state for exactly one list of numbers below 36, and a number counts
by its remainder only; so of the numbers below a multiple of 36 equally many stand for each text. -/
theorem c67_all_states (s : Str) (hs : ∀ b ∈ s, (97 ≤ b ∧ b ≤ 122) ∨ (48 ≤ b ∧ b ≤ 57)) :
    ∃ rs, (∀ r ∈ rs, r < 36) ∧ ∀ qs : List Nat, generateUniqueId qs = some s ↔ qs.map (· % 36) = rs := by
  have key : ∀ b : UInt8, (97 ≤ b ∧ b ≤ 122) ∨ (48 ≤ b ∧ b ≤ 57) → ∃ r, r < 36 ∧ ∀ q, q < 36 → (randLetters[q]? = some b ↔ q = r) := by
    intro b hb
    have hn : b.toNat < 256 := b.toNat_lt
    have e : b = UInt8.ofNat b.toNat := by rw [UInt8.ofNat_toNat]
    have hb' : (97 ≤ b.toNat ∧ b.toNat ≤ 122) ∨ (48 ≤ b.toNat ∧ b.toNat ≤ 57) := by
      simp only [UInt8.le_iff_toNat_le] at hb
      exact hb
    have all : ∀ n, n < 256 → (97 ≤ n ∧ n ≤ 122) ∨ (48 ≤ n ∧ n ≤ 57) →
        ∃ r, r < 36 ∧ ∀ q, q < 36 → (randLetters[q]? = some (UInt8.ofNat n) ↔ q = r) := by decide +kernel
    rw [e]
    exact all _ hn hb'
  have len : randLetters.length = 36 := by decide
  induction s with
  | nil =>
    refine ⟨[], by simp, fun qs => ?_⟩
    cases qs with
    | nil => simp [generateUniqueId]
    | cons q qs =>
      simp only [generateUniqueId, List.map_cons, reduceCtorEq, iff_false]
      split <;> simp
  | cons b s ih =>
    obtain ⟨rs, h1, h2⟩ := ih fun x hx => hs x (List.mem_cons_of_mem _ hx)
    obtain ⟨r, h3, h4⟩ := key b (hs b List.mem_cons_self)
    refine ⟨r :: rs, fun x hx => ?_, fun qs => ?_⟩
    · rcases List.mem_cons.1 hx with rfl | hx
      · exact h3
      · exact h1 x hx
    · cases qs with
      | nil => simp [generateUniqueId]
      | cons q qs =>
        simp only [List.map_cons, List.cons.injEq]
        rw [← h2 qs, ← h4 (q % 36) (Nat.mod_lt _ (by decide))]
        simp only [generateUniqueId, len]
        split
        · rename_i h5 h6
          rw [h5, h6]
          simp
        · rename_i hno
          constructor
          · simp
          · rintro ⟨h5, h6⟩
            exact absurd h6 (hno _ _ h5)

example : ∃ rs, (∀ r ∈ rs, r < 36) ∧ ∀ qs : List Nat, generateUniqueId qs = some b!"z9" ↔ qs.map (· % 36) = rs := c67_all_states _ (by decide)

end Gofre.Props
