import Verif.Spec.Fields
import Verif.Props.Account
import Verif.Props.OAuth

/-! # C130: the token of the context is the token of the reply -/

namespace Gofre.Props
open Gofre.OAuth Gofre.Spec

theorem spelled_eq (sep : UInt8) : ∀ ws, spelled sep ws = joinWith sep ws
  | [] => rfl
  | [_] => rfl
  | w :: v :: ws => by simp only [spelled, joinWith, spelled_eq sep (v :: ws)]

theorem asString_some {o : Option Json} {t : Str} : asString o = some t ↔ o = some (.str t) := by
  unfold asString
  split
  · simp
  · rename_i h
    constructor
    · intro h'; cases h'
    · rintro rfl; exact absurd rfl (h t)

/-- What a successful call gives. -/
theorem fetched {k : Kind} {st : Nat} {body : Map Json} {t : AccessToken} (h : fetchAccessToken k (.reply st body) = .ok t) :
    st / 100 = 2 ∧ Holds body b!"access_token" (some t.accessToken) ∧ Holds body b!"token_type" (some t.tokenType) ∧
    ((Holds body b!"scope" none ∧ t.scopes = []) ∨ ∃ text, Holds body b!"scope" (some text) ∧ t.scopes = splitOn (between k) text) ∧
    (k = .github → t.refreshToken = [] ∧ t.expiresInSeconds = 0) ∧
    (k = .google → ((Holds body b!"refresh_token" none ∧ t.refreshToken = []) ∨ Holds body b!"refresh_token" (some t.refreshToken)) ∧
      (((∀ n, Map.get? body b!"expires_in" ≠ some (.num n)) ∧ t.expiresInSeconds = 0) ∨ Map.get? body b!"expires_in" = some (.num t.expiresInSeconds))) := by
  simp only [fetchAccessToken] at h
  split at h
  case isFalse => cases h
  rename_i hst
  cases ha : asString (Map.get? body b!"access_token") with
  | none => simp [ha] at h
  | some tok =>
    cases ht : asString (Map.get? body b!"token_type") with
    | none => simp [ha, ht] at h
    | some tt =>
      simp only [ha, ht] at h
      have hsc : ∀ sc, sc = (match asString (Map.get? body b!"scope") with
            | some sc => splitOn k.sep sc
            | none => []) → ((Holds body b!"scope" none ∧ sc = []) ∨ ∃ text, Holds body b!"scope" (some text) ∧ sc = splitOn (between k) text) := by
        intro sc hsc
        cases hs : asString (Map.get? body b!"scope") with
        | none => rw [hs] at hsc; exact .inl ⟨asString_none.1 hs, hsc⟩
        | some text =>
          rw [hs] at hsc
          refine .inr ⟨text, asString_some.1 hs, ?_⟩
          rw [hsc]
          cases k <;> rfl
      cases k with
      | github =>
        simp only [POut.ok.injEq] at h
        subst h
        exact ⟨hst, asString_some.1 ha, asString_some.1 ht, hsc _ rfl, fun _ => ⟨rfl, rfl⟩, fun hk => nomatch hk⟩
      | google =>
        simp only [POut.ok.injEq] at h
        subst h
        refine ⟨hst, asString_some.1 ha, asString_some.1 ht, hsc _ rfl, (fun hk => nomatch hk), fun _ => ⟨?_, ?_⟩⟩
        · dsimp only
          cases hr : asString (Map.get? body b!"refresh_token") with
          | none => exact .inl ⟨asString_none.1 hr, rfl⟩
          | some r => exact .inr (asString_some.1 hr)
        · dsimp only
          split
          · rename_i n hn
            exact .inr hn
          · rename_i hn
            exact .inl ⟨hn, rfl⟩

theorem holds_unique {body : Map Json} {f a b : Str} (ha : Holds body f (some a)) (hb : Holds body f (some b)) : a = b := by
  simp only [Holds] at ha hb
  rw [ha] at hb
  simpa using hb

/-- C130, exactly: a token has what the reply says if and only if the scopes are not an empty text or one with an empty scope in it, and, at
GitHub, the reply has neither a refresh token nor a lifetime. -/
theorem c130_exact {k : Kind} {st : Nat} {body : Map Json} {t : AccessToken} (h : fetchAccessToken k (.reply st body) = .ok t) :
    Reports k body t ↔
      (∀ text, Holds body b!"scope" (some text) → text ≠ [] ∧ ∃ ws, text = spelled (between k) ws ∧ ScopeNames (between k) ws) ∧
      (k = .github → (∀ r, r ≠ [] → ¬ Holds body b!"refresh_token" (some r)) ∧ ∀ n, n ≠ 0 → Map.get? body b!"expires_in" ≠ some (.num n)) := by
  obtain ⟨_, h1, h2, h3, h4, h5⟩ := fetched h
  constructor
  · intro hr
    refine ⟨fun text ht => ?_, fun hk => ?_⟩
    · rcases hr.scopes with ⟨hn, _⟩ | ⟨hs, hw⟩
      · exact absurd ht (hn text)
      · have := holds_unique ht hs
        refine ⟨?_, t.scopes, this, hw⟩
        rintro rfl
        rcases h3 with ⟨hn, _⟩ | ⟨text, h6, h7⟩
        · exact hn _ ht
        · rw [← holds_unique ht h6] at h7
          exact (hw [] (by rw [h7]; simp [splitOn])).1 rfl
    · obtain ⟨h6, h7⟩ := h4 hk
      refine ⟨fun r hne hh => ?_, fun n hne hh => ?_⟩
      · rcases hr.refresh with ⟨hn, _⟩ | hs
        · exact hn r hh
        · exact hne ((holds_unique hh hs).trans h6)
      · rcases hr.expires with ⟨hn, _⟩ | hs
        · exact hn n hh
        · rw [hh] at hs
          simp only [Option.some.injEq, Json.num.injEq] at hs
          exact hne (hs.trans h7)
  · rintro ⟨hs, hg⟩
    refine ⟨h1, h2, ?_, ?_, ?_⟩
    · rcases h3 with h3 | ⟨text, h6, h7⟩
      · exact .inl h3
      · right
        obtain ⟨hne, ws, hw, hn⟩ := hs text h6
        have hws : ws ≠ [] := by rintro rfl; exact hne hw
        have : t.scopes = ws := by
          rw [h7, hw, spelled_eq, splitOn_joinWith hws fun p hp => (hn p hp).2]
        rw [this, ← hw]
        exact ⟨h6, hn⟩
    · cases k with
      | google => exact (h5 rfl).1
      | github =>
        cases hr : asString (Map.get? body b!"refresh_token") with
        | none => exact .inl ⟨asString_none.1 hr, (h4 rfl).1⟩
        | some r =>
          right
          rw [(h4 rfl).1]
          have hh := asString_some.1 hr
          by_cases hne : r = []
          · subst hne; exact hh
          · exact absurd hh ((hg rfl).1 r hne)
    · cases k with
      | google => exact (h5 rfl).2
      | github =>
        rw [(h4 rfl).2]
        cases hr : Map.get? body b!"expires_in" with
        | none => exact .inl ⟨(fun _ h => nomatch h), rfl⟩
        | some j =>
          cases j with
          | num n =>
            by_cases hne : n = 0
            · rw [hne]; exact .inr rfl
            · exact absurd hr ((hg rfl).2 n hne)
          | str _ => exact .inl ⟨(fun _ h => nomatch h), rfl⟩
          | bool _ => exact .inl ⟨(fun _ h => nomatch h), rfl⟩
          | other => exact .inl ⟨(fun _ h => nomatch h), rfl⟩

/-- C130 for Google and a list of scopes as in RFC 6749. -/
theorem c130_google_partial {st : Nat} {body : Map Json} {t : AccessToken} (h : fetchAccessToken .google (.reply st body) = .ok t)
    {ws : List Str} (hne : ws ≠ []) (hn : ScopeNames 32 ws) (hs : Holds body b!"scope" (some (spelled 32 ws))) :
    Reports .google body t ∧ t.scopes = ws := by
  have hr := (c130_exact h).2 ⟨fun text ht => by
    rw [holds_unique ht hs]
    refine ⟨?_, ws, rfl, hn⟩
    intro h0
    cases ws with
    | nil => exact hne rfl
    | cons w ws =>
      have := (hn w (by simp)).1
      cases ws <;> simp [spelled, this] at h0, (fun h => nomatch h)⟩
  refine ⟨hr, ?_⟩
  obtain ⟨_, _, _, h3, _⟩ := fetched h
  rcases h3 with ⟨hno, _⟩ | ⟨text, h6, h7⟩
  · exact absurd hs (hno _)
  · rw [h7, holds_unique h6 hs, spelled_eq]
    exact splitOn_joinWith hne fun p hp => (hn p hp).2

example : fetchAccessToken .google (.reply 200 [(b!"access_token", .str b!"ya29"), (b!"token_type", .str b!"Bearer"), (b!"scope", .str b!"openid email"),
      (b!"refresh_token", .str b!"1//x"), (b!"expires_in", .num 3599)]) =
    .ok { accessToken := b!"ya29", tokenType := b!"Bearer", scopes := [b!"openid", b!"email"], refreshToken := b!"1//x", expiresInSeconds := 3599 } := by decide

/-- C130 fails at GitHub for every token that expires: the token the handler gets has neither the refresh token nor the lifetime. -/
theorem c130_violated_never {st : Nat} {body : Map Json} {t : AccessToken} (h : fetchAccessToken .github (.reply st body) = .ok t)
    (he : (∃ r, r ≠ [] ∧ Holds body b!"refresh_token" (some r)) ∨ ∃ n, n ≠ 0 ∧ Map.get? body b!"expires_in" = some (.num n)) :
    ¬ Reports .github body t ∧ t.refreshToken = [] ∧ t.expiresInSeconds = 0 := by
  refine ⟨fun hr => ?_, (fetched h).2.2.2.2.1 rfl⟩
  obtain ⟨h1, h2⟩ := ((c130_exact h).1 hr).2 rfl
  rcases he with ⟨r, hr, hh⟩ | ⟨n, hn, hh⟩
  · exact h1 r hr hh
  · exact h2 n hn hh

/-- C130 fails at both: a token without any scope has the empty text as its scope; and at GitHub a token that expires lasts for ever. -/
theorem c130_violated : (∀ k, ∃ body t, fetchAccessToken k (.reply 200 body) = .ok t ∧ Holds body b!"scope" (some []) ∧ t.scopes = [[]] ∧ ¬ Reports k body t) ∧
    ∃ body t, fetchAccessToken .github (.reply 200 body) = .ok t ∧ Map.get? body b!"expires_in" = some (.num 28800) ∧ t.expiresInSeconds = 0 ∧ ¬ Reports .github body t := by
  refine ⟨fun k => ?_, ?_⟩
  · have h : fetchAccessToken k (.reply 200 [(b!"access_token", .str b!"gho"), (b!"token_type", .str b!"bearer"), (b!"scope", .str [])]) =
        .ok { accessToken := b!"gho", tokenType := b!"bearer", scopes := [[]] } := by cases k <;> decide
    refine ⟨_, _, h, by simp only [Holds]; decide, rfl, fun hr => ?_⟩
    exact (((c130_exact h).1 hr).1 [] (by simp only [Holds]; decide)).1 rfl
  · have h : fetchAccessToken .github (.reply 200 [(b!"access_token", .str b!"ghu"), (b!"token_type", .str b!"bearer"), (b!"scope", .str b!"user"),
        (b!"refresh_token", .str b!"ghr"), (b!"expires_in", .num 28800)]) =
        .ok { accessToken := b!"ghu", tokenType := b!"bearer", scopes := [b!"user"] } := by decide
    exact ⟨_, _, h, by decide, rfl, (c130_violated_never h (.inr ⟨28800, by decide, by decide⟩)).1⟩

end Gofre.Props
