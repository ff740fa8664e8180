import Verif.Proofs.Query

/-! # C46, C92, C93: what OAuth2 providers are told -/

namespace Gofre.Props
open Gofre.OAuth Gofre.Spec

/-- What a server reads under a key. -/
def under (k : Str) (ps : List (Str × Str)) : List Str := (ps.filter (·.1 = k)).map (·.2)

theorem under_perm {k : Str} {ps qs : List (Str × Str)} {v : Str} (h : ps.Perm qs) (hq : under k qs = [v]) : under k ps = [v] := by
  have := (h.filter (fun e => decide (e.1 = k))).map (·.2)
  unfold under at hq ⊢
  rw [hq] at this
  exact List.perm_singleton.1 this

/-! ### C92: the authorisation address -/

theorem formatBool_word (b : Bool) : formatBool b = word b := by cases b <;> rfl

theorem scopes_profile (k : Kind) (ss : List Str) (b : Bool) :
    (if b = true then ss ++ profileScopes k else ss) = ss ++ (if b = true then profileOf k else []) := by
  cases b
  · simp
  · cases k <;> rfl

theorem githubParams (p : GitHub) (redirect state : Str) (b : Bool) : (p.params redirect state b).Perm (toldGitHub p redirect state b) := by
  unfold GitHub.params toldGitHub
  simp only [formatBool_word, scopes_profile, List.length_pos_iff]
  rw [List.perm_iff_count]
  intro a
  by_cases h1 : p.login = [] <;> by_cases h2 : p.scopes = [] <;> simp [h1, h2, onlyIf, List.count_cons] <;> omega

theorem googleParams (p : Google) (redirect state : Str) (b : Bool) : (p.params redirect state b).Perm (toldGoogle p redirect state b) := by
  unfold Google.params toldGoogle
  simp only [formatBool_word, scopes_profile, List.length_pos_iff]
  rw [List.perm_iff_count]
  intro a
  cases h0 : p.accessTypeOffline <;> by_cases h1 : p.loginHint = [] <;> by_cases h2 : p.prompts = [] <;>
    simp [h1, h2, onlyIf, List.count_cons] <;> omega

/-- C92: reading the address GitHub users are sent to, as the URL standard says, gives the
authorisation endpoint and exactly the intended parameters, whatever bytes they consist of. -/
theorem c92_github (p : GitHub) (redirect state : Str) (b : Bool) :
    beforeQuery (p.initiateUrl redirect state b) = b!"https://github.com/login/oauth/authorize" ∧
    (formPairs (queryOf (p.initiateUrl redirect state b))).Perm (toldGitHub p redirect state b) ∧
    under b!"client_id" (formPairs (queryOf (p.initiateUrl redirect state b))) = [p.clientId] ∧
    under b!"state" (formPairs (queryOf (p.initiateUrl redirect state b))) = [state] ∧
    under b!"redirect_uri" (formPairs (queryOf (p.initiateUrl redirect state b))) = [redirect] := by
  obtain ⟨h1, h2⟩ := queryOf_encode (e := authorizeEndpoint .github) (by decide) (p.params redirect state b)
  have h3 := formPairs_encode (p.params redirect state b)
  refine ⟨h2, ?_, ?_, ?_, ?_⟩
  · rw [GitHub.initiateUrl, h1]; exact h3.trans (githubParams p redirect state b)
  all_goals
    rw [GitHub.initiateUrl, h1]
    apply under_perm h3
    simp only [GitHub.params]
    split <;> split <;> simp [under, List.filter]

/-- C92 for Google. -/
theorem c92_google (p : Google) (redirect state : Str) (b : Bool) :
    beforeQuery (p.initiateUrl redirect state b) = b!"https://accounts.google.com/o/oauth2/v2/auth" ∧
    (formPairs (queryOf (p.initiateUrl redirect state b))).Perm (toldGoogle p redirect state b) ∧
    under b!"client_id" (formPairs (queryOf (p.initiateUrl redirect state b))) = [p.clientId] ∧
    under b!"state" (formPairs (queryOf (p.initiateUrl redirect state b))) = [state] ∧
    under b!"redirect_uri" (formPairs (queryOf (p.initiateUrl redirect state b))) = [redirect] ∧
    under b!"response_type" (formPairs (queryOf (p.initiateUrl redirect state b))) = [b!"code"] := by
  obtain ⟨h1, h2⟩ := queryOf_encode (e := authorizeEndpoint .google) (by decide) (p.params redirect state b)
  have h3 := formPairs_encode (p.params redirect state b)
  refine ⟨h2, ?_, ?_, ?_, ?_, ?_⟩
  · rw [Google.initiateUrl, h1]; exact h3.trans (googleParams p redirect state b)
  all_goals
    rw [Google.initiateUrl, h1]
    apply under_perm h3
    simp only [Google.params]
    split <;> split <;> split <;> simp [under, List.filter]

/-! ### C46: the scopes asked for -/

/-- The scopes an address asks for. -/
def askedScopes (url : Str) : List Str := (under b!"scope" (formPairs (queryOf url))).flatMap (splitOn 32)

theorem under_told {k : Str} {ps qs : List (Str × Str)} (h : ps.Perm qs) (hq : under k qs = []) : under k ps = [] := by
  have := (h.filter (fun e => decide (e.1 = k))).map (·.2)
  unfold under at hq ⊢
  rw [hq] at this
  exact List.perm_nil.1 this

theorem profile_no_space (k : Kind) : ∀ s ∈ profileOf k, (32 : UInt8) ∉ s := by
  cases k <;> decide

/-- C46 fails for GitHub without configured scopes: no scope parameter is sent at all. -/
theorem c46_violated :
    ∃ (p : GitHub) (redirect state : Str), b!"user" ∉ askedScopes (p.initiateUrl redirect state true) :=
  ⟨⟨b!"id", [], false, []⟩, [], [], by decide +kernel⟩

/-- C46 for GitHub with at least one configured scope (scopes contain no spaces): exactly the
configured scopes and the profile scopes are asked for. -/
theorem c46_github_partial (p : GitHub) (redirect state : Str) (hs : p.scopes ≠ [])
    (hsp : ∀ s ∈ p.scopes, (32 : UInt8) ∉ s) :
    askedScopes (p.initiateUrl redirect state true) = p.scopes ++ profileOf .github := by
  have h := under_perm (k := b!"scope") (c92_github p redirect state true).2.1 (v := joinWith 32 (p.scopes ++ profileOf .github)) (by
    unfold toldGitHub
    cases h1 : decide (p.login ≠ []) <;> simp [hs, onlyIf, under, List.filter])
  rw [askedScopes, h, List.flatMap_singleton]
  apply splitOn_joinWith
  · simp [hs]
  · intro s hm
    rcases List.mem_append.1 hm with h | h
    · exact hsp s h
    · exact profile_no_space .github s h

/-- C46 for GitHub, exactly (scopes without spaces): the profile scopes are asked for if and
only if the application configured some scope of its own. -/
theorem c46_github_exact (p : GitHub) (redirect state : Str) (hsp : ∀ s ∈ p.scopes, (32 : UInt8) ∉ s) :
    (∀ s ∈ profileOf .github, s ∈ askedScopes (p.initiateUrl redirect state true)) ↔ p.scopes ≠ [] := by
  constructor
  · intro h hs
    have h1 := h b!"user" (by decide)
    have h2 := under_told (k := b!"scope") (c92_github p redirect state true).2.1 (by
      unfold toldGitHub
      cases h1 : decide (p.login ≠ []) <;> simp [hs, onlyIf, under, List.filter])
    rw [askedScopes, h2] at h1
    cases h1
  · intro hs
    rw [c46_github_partial p redirect state hs hsp]
    exact fun s hm => List.mem_append.2 (.inr hm)

/-- C46 for Google, every configuration (scopes contain no spaces). -/
theorem c46_google (p : Google) (redirect state : Str) (hsp : ∀ s ∈ p.scopes, (32 : UInt8) ∉ s) :
    askedScopes (p.initiateUrl redirect state true) = p.scopes ++ profileOf .google := by
  have h := under_perm (k := b!"scope") (c92_google p redirect state true).2.1 (v := joinWith 32 (p.scopes ++ profileOf .google)) (by
    unfold toldGoogle
    cases h1 : decide (p.loginHint ≠ []) <;> cases h2 : decide (p.prompts ≠ []) <;> cases p.accessTypeOffline <;>
      simp [onlyIf, under, List.filter])
  rw [askedScopes, h, List.flatMap_singleton]
  apply splitOn_joinWith
  · simp [profileOf]
  · intro s hm
    rcases List.mem_append.1 hm with h | h
    · exact hsp s h
    · exact profile_no_space .google s h

/-- C46: the state and the redirect address handed to the provider are the ones given. -/
theorem c46_state_in_url (g : GitHub) (o : Google) (redirect state : Str) (b : Bool) :
    under b!"state" (formPairs (queryOf (g.initiateUrl redirect state b))) = [state] ∧
    under b!"redirect_uri" (formPairs (queryOf (g.initiateUrl redirect state b))) = [redirect] ∧
    under b!"state" (formPairs (queryOf (o.initiateUrl redirect state b))) = [state] ∧
    under b!"redirect_uri" (formPairs (queryOf (o.initiateUrl redirect state b))) = [redirect] := by
  obtain ⟨_, _, _, h1, h2⟩ := c92_github g redirect state b
  obtain ⟨_, _, _, h3, h4, _⟩ := c92_google o redirect state b
  exact ⟨h1, h2, h3, h4⟩

example : askedScopes ((⟨b!"id", [], false, [b!"repo"]⟩ : GitHub).initiateUrl b!"r" b!"s" true) = [b!"repo", b!"user"] := by
  decide +kernel

/-- C92: no space, control byte, quote or non-ASCII byte gets into the address, so it cannot
break out of the `Location` header. -/
theorem c92_printable (g : GitHub) (o : Google) (redirect state : Str) (b : Bool) :
    (∀ c ∈ g.initiateUrl redirect state b, 32 < c ∧ c < 127 ∧ c ≠ 34 ∧ c ≠ 60 ∧ c ≠ 62) ∧
    (∀ c ∈ o.initiateUrl redirect state b, 32 < c ∧ c < 127 ∧ c ≠ 34 ∧ c ≠ 60 ∧ c ≠ 62) := by
  have hu : ∀ c : UInt8, unreserved c = true → 32 < c ∧ c < 127 ∧ c ≠ 34 ∧ c ≠ 60 ∧ c ≠ 62 := by
    apply byteCases; decide +kernel
  have key : ∀ (k : Kind) (m : Map Str), ∀ c ∈ authorizeEndpoint k ++ 63 :: encodeValues m, 32 < c ∧ c < 127 ∧ c ≠ 34 ∧ c ≠ 60 ∧ c ≠ 62 := by
    intro k m c hc
    rcases List.mem_append.1 hc with h | h
    · have e : ∀ k, ∀ c ∈ authorizeEndpoint k, 32 < c ∧ c < 127 ∧ c ≠ 34 ∧ c ≠ 60 ∧ c ≠ 62 := by
        intro k; cases k <;> decide
      exact e k c h
    · rcases List.mem_cons.1 h with rfl | h
      · decide
      · rcases encode_bytes m c h with h | h | h | h | h
        · exact hu c h
        all_goals subst h; decide
  exact ⟨key .github _, key .google _⟩

example : (⟨b!"a&b", b!"x y", false, []⟩ : GitHub).initiateUrl b!"http://h/o#1" b!"s=é" true =
    b!"https://github.com/login/oauth/authorize?allow_signup=false&client_id=a%26b&login=x+y&redirect_uri=http%3A%2F%2Fh%2Fo%231&state=s%3D%C3%A9" := by
  decide +kernel

/-! ### C93: the token request -/

/-- What a server reads from the body of a request that declares a form (RFC 6749, 4.1.3). -/
def declaredForm (r : OutReq) : Option (List (Str × Str)) :=
  match r.body with
  | .bytes s => if r.headers.lookup b!"Content-Type" = some b!"application/x-www-form-urlencoded" then some (formPairs s) else none
  | _ => none

/-- C93 fails, for every client, code and redirect address: GitHub's token request does not
declare its body to be a form, and the body names neither the grant type nor the redirect address the
authorisation was asked with. -/
theorem c93_violated_never (p : GitHub) (secret redirect code : Str) :
    declaredForm (p.tokenRequest secret redirect code) = none ∧
    ∀ s, (p.tokenRequest secret redirect code).body = .bytes s →
      under b!"redirect_uri" (formPairs s) = [] ∧ under b!"grant_type" (formPairs s) = [] := by
  refine ⟨rfl, ?_⟩
  intro s hs
  cases hs
  have h := formPairs_encode [(b!"client_id", p.clientId), (b!"client_secret", secret), (b!"code", code)]
  have nil : ∀ k, under k [(b!"client_id", p.clientId), (b!"client_secret", secret), (b!"code", code)] = [] →
      under k (formPairs (encodeValues [(b!"client_id", p.clientId), (b!"client_secret", secret), (b!"code", code)])) = [] := by
    intro k hk
    have := (h.filter (fun e => decide (e.1 = k))).map (·.2)
    unfold under at hk ⊢
    rw [hk] at this
    exact List.perm_nil.1 this
  exact ⟨nil _ (by simp [under, List.filter]), nil _ (by simp [under, List.filter])⟩

/-- C93, the part that holds for GitHub: a server reading the body as a form nonetheless finds the client,
its secret and the code, once each and unaltered, and nothing else. -/
theorem c93_github_partial (p : GitHub) (secret redirect code : Str) :
    (p.tokenRequest secret redirect code).method = b!"POST" ∧
    (p.tokenRequest secret redirect code).url = b!"https://github.com/login/oauth/access_token" ∧
    (p.tokenRequest secret redirect code).headers.lookup b!"Accept" = some b!"application/json" ∧
    ∃ s, (p.tokenRequest secret redirect code).body = .bytes s ∧ (formPairs s).length = 3 ∧
      under b!"client_id" (formPairs s) = [p.clientId] ∧ under b!"client_secret" (formPairs s) = [secret] ∧ under b!"code" (formPairs s) = [code] := by
  have h := formPairs_encode [(b!"client_id", p.clientId), (b!"client_secret", secret), (b!"code", code)]
  refine ⟨rfl, rfl, rfl, _, rfl, h.length_eq, under_perm h ?_, under_perm h ?_, under_perm h ?_⟩ <;> simp [under, List.filter]

/-- C93, the part that holds for Google: every parameter of RFC 6749 is there with the right value, but as JSON. -/
theorem c93_google_partial (p : Google) (secret redirect code : Str) :
    (p.tokenRequest secret redirect code).method = b!"POST" ∧
    (p.tokenRequest secret redirect code).url = b!"https://oauth2.googleapis.com/token" ∧
    (p.tokenRequest secret redirect code).headers.lookup b!"Content-Type" = some b!"application/json" ∧
    (p.tokenRequest secret redirect code).headers.lookup b!"Accept" = some b!"application/json" ∧
    ∃ m, (p.tokenRequest secret redirect code).body = .json m ∧ m.length = 5 ∧ under b!"grant_type" m = [b!"authorization_code"] ∧
      under b!"client_id" m = [p.clientId] ∧ under b!"client_secret" m = [secret] ∧ under b!"code" m = [code] ∧
      under b!"redirect_uri" m = under b!"redirect_uri" (formPairs (queryOf (p.initiateUrl redirect code true))) := by
  refine ⟨rfl, rfl, rfl, rfl, _, rfl, rfl, ?_, ?_, ?_, ?_, ?_⟩
  · simp [under, List.filter]
  · simp [under, List.filter]
  · simp [under, List.filter]
  · simp [under, List.filter]
  · rw [(c92_google p redirect code true).2.2.2.2.1]; simp [under, List.filter]

example : ((⟨b!"id", [], false, []⟩ : GitHub).tokenRequest b!"s&t" b!"http://h" b!"c 1").body =
    .bytes b!"client_id=id&client_secret=s%26t&code=c+1" := by decide +kernel

end Gofre.Props
