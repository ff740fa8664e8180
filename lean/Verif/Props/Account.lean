import Verif.Spec.Account

/-! # C123, C124: who has signed in -/

namespace Gofre.Props
open Gofre.OAuth Gofre.Spec

theorem asString_holds {body : Map Json} {field : Str} {v : Option Str} (h : Holds body field v) : asString (Map.get? body field) = v := by
  cases v with
  | some v => rw [show Map.get? body field = some (.str v) from h]; rfl
  | none =>
    have h : ∀ v, Map.get? body field ≠ some (.str v) := h
    cases hg : Map.get? body field with
    | none => rfl
    | some j =>
      cases j with
      | str s => exact absurd hg (h s)
      | num n => rfl
      | bool b => rfl
      | other => rfl

/-- What a 2xx answer showing the account becomes. -/
theorem fetch_shows {k : Kind} {status : Nat} {body : Map Json} {a : Account} (h2 : status / 100 = 2) (h : Shows k body a) :
    fetchAuthenticatedUser k (.reply status body) = .ok ⟨a.email.getD a.key, a.name.getD [], platformOf k⟩ := by
  have hk := asString_holds h.key
  have hn := asString_holds h.name
  have he := asString_holds h.email
  cases k <;> dsimp only at hk <;> simp only [fetchAuthenticatedUser, h2, if_true, he, hn, hk] <;> cases a.email <;> rfl

/-- C123, exactly: two sign-ins at a provider are those of one user when the addresses are the same, an account without one counting with its key. -/
theorem c123_exact {k : Kind} {a b : Account} {u v : User} (ha : SignsIn k a u) (hb : SignsIn k b v) : u.id = v.id ↔ a.email.getD a.key = b.email.getD b.key := by
  obtain ⟨_, _, h1, h2, h3⟩ := ha
  obtain ⟨_, _, h4, h5, h6⟩ := hb
  rw [fetch_shows h1 h2, POut.ok.injEq] at h3
  rw [fetch_shows h4 h5, POut.ok.injEq] at h6
  rw [← h3, ← h6]

/-- C123 (for accounts whose address stays the same): signing in again is signing in as the same user of the same platform, whatever else has changed. -/
theorem c123_kept_partial {k : Kind} {a b : Account} {u v : User} (he : a.email = b.email) (hk : a.email = none → a.key = b.key) (ha : SignsIn k a u) (hb : SignsIn k b v) :
    u.id = v.id ∧ u.platform = v.platform := by
  refine ⟨(c123_exact ha hb).2 ?_, ?_⟩
  · cases h : a.email with
    | none => rw [← he, h, hk h]
    | some e => rw [← he, h]; rfl
  · obtain ⟨_, _, h1, h2, h3⟩ := ha
    obtain ⟨_, _, h4, h5, h6⟩ := hb
    rw [fetch_shows h1 h2, POut.ok.injEq] at h3
    rw [fetch_shows h4 h5, POut.ok.injEq] at h6
    rw [← h3, ← h6]

/-- Every account can sign in. -/
theorem signsIn_any (k : Kind) (a : Account) : ∃ u, SignsIn k a u := by
  have h : Shows k ((match a.email with | some e => [(b!"email", .str e)] | none => []) ++ (match a.name with | some e => [(b!"name", .str e)] | none => []) ++
      [(b!"login", .str a.key), (b!"id", .str a.key), (b!"verified_email", .bool a.verified)]) a := by
    constructor
    · cases k <;> cases a.email <;> cases a.name <;> first | rfl | (intro v h; cases h)
    · cases k <;> cases a.email <;> cases a.name <;> first | rfl | (intro v h; cases h)
    · intro _ _
      cases a.email <;> cases a.name <;> rfl
    · cases k <;> cases a.email <;> cases a.name <;> first | rfl | (intro v h; cases h)
  exact ⟨_, 200, _, by decide, h, fetch_shows (by decide) h⟩

example : ∃ u v, SignsIn .github ⟨b!"jo", some b!"jo@x.org", true, none⟩ u ∧ SignsIn .github ⟨b!"joanna", some b!"jo@x.org", true, some b!"Jo"⟩ v ∧ u.id = v.id := by
  obtain ⟨u, hu⟩ := signsIn_any .github ⟨b!"jo", some b!"jo@x.org", true, none⟩
  obtain ⟨v, hv⟩ := signsIn_any .github ⟨b!"joanna", some b!"jo@x.org", true, some b!"Jo"⟩
  exact ⟨u, v, hu, hv, (c123_kept_partial (by rfl) (by simp) hu hv).1⟩

/-- C123 fails: whoever shows, changes or hides their address at the provider is another user from then on. -/
theorem c123_violated_never {k : Kind} {a b : Account} {u v : User} (hk : a.key = b.key) (he : a.email ≠ b.email) (h1 : a.email ≠ some a.key) (h2 : b.email ≠ some b.key)
    (ha : SignsIn k a u) (hb : SignsIn k b v) : u.id ≠ v.id := by
  rw [ne_eq, c123_exact ha hb]
  cases hx : a.email with
  | none =>
    cases hy : b.email with
    | none => rw [hx, hy] at he; exact absurd rfl he
    | some y =>
      intro h
      simp only [Option.getD_none, Option.getD_some] at h
      rw [hy, ← h, hk] at h2
      exact h2 rfl
  | some x =>
    cases hy : b.email with
    | none =>
      intro h
      simp only [Option.getD_none, Option.getD_some] at h
      rw [hx, h, ← hk] at h1
      exact h1 rfl
    | some y =>
      intro h
      simp only [Option.getD_some] at h
      rw [hx, hy, h] at he
      exact he rfl

/-- Jo makes their address visible. -/
example : ∃ u v, SignsIn .github ⟨b!"jo", none, true, none⟩ u ∧ SignsIn .github ⟨b!"jo", some b!"jo@x.org", true, none⟩ v ∧ u.id ≠ v.id := by
  obtain ⟨u, hu⟩ := signsIn_any .github ⟨b!"jo", none, true, none⟩
  obtain ⟨v, hv⟩ := signsIn_any .github ⟨b!"jo", some b!"jo@x.org", true, none⟩
  exact ⟨u, v, hu, hv, c123_violated_never (by rfl) (by simp) (by simp) (by decide) hu hv⟩

/-- C123 fails: an account that shows an address another account showed before is taken for that account's user. -/
theorem c123_violated : ∃ (a b : Account) (u v : User), a.key ≠ b.key ∧ SignsIn .google a u ∧ SignsIn .google b v ∧ u.id = v.id ∧ u.platform = v.platform := by
  obtain ⟨u, hu⟩ := signsIn_any .google ⟨b!"117", some b!"info@shop.org", true, none⟩
  obtain ⟨v, hv⟩ := signsIn_any .google ⟨b!"254", some b!"info@shop.org", true, none⟩
  have := c123_kept_partial (by rfl) (by simp) hu hv
  exact ⟨_, _, u, v, by decide, hu, hv, this.1, this.2⟩

/-- C123: users of different platforms are different users. -/
theorem c123_platforms {k k' : Kind} {a b : Account} {u v : User} (hk : k ≠ k') (ha : SignsIn k a u) (hb : SignsIn k' b v) : u.platform ≠ v.platform := by
  obtain ⟨_, _, h1, h2, h3⟩ := ha
  obtain ⟨_, _, h4, h5, h6⟩ := hb
  rw [fetch_shows h1 h2, POut.ok.injEq] at h3
  rw [fetch_shows h4 h5, POut.ok.injEq] at h6
  rw [← h3, ← h6]
  cases k <;> cases k' <;> simp [platformOf] at hk ⊢

example : ∃ u v, SignsIn .github ⟨b!"jo", some b!"jo@x.org", true, none⟩ u ∧ SignsIn .google ⟨b!"117", some b!"jo@x.org", true, none⟩ v ∧ u.id = v.id ∧ u.platform ≠ v.platform := by
  obtain ⟨u, hu⟩ := signsIn_any .github ⟨b!"jo", some b!"jo@x.org", true, none⟩
  obtain ⟨v, hv⟩ := signsIn_any .google ⟨b!"117", some b!"jo@x.org", true, none⟩
  refine ⟨u, v, hu, hv, ?_, c123_platforms (by decide) hu hv⟩
  obtain ⟨_, _, h1, h2, h3⟩ := hu
  obtain ⟨_, _, h4, h5, h6⟩ := hv
  rw [fetch_shows h1 h2, POut.ok.injEq] at h3
  rw [fetch_shows h4 h5, POut.ok.injEq] at h6
  rw [← h3, ← h6]
  rfl

/-- C124 fails: an account that gives any address as its own is the user with that address, whatever the provider says about having
verified it. -/
theorem c124_violated_never {a b : Account} {e : Str} {u v : User} (ha : a.email = some e) (hb : b.email = some e)
    (hu : SignsIn .google a u) (hv : SignsIn .google b v) : u.id = e ∧ u.id = v.id ∧ u.platform = v.platform := by
  have := c123_kept_partial (ha.trans hb.symm) (by rw [ha]; simp) hu hv
  refine ⟨?_, this.1, this.2⟩
  obtain ⟨_, _, h1, h2, h3⟩ := hu
  rw [fetch_shows h1 h2, POut.ok.injEq] at h3
  rw [← h3, ha]
  rfl

/-- Somebody claims the owner's address. -/
theorem c124_violated : ∃ (a b : Account) (u v : User), a.verified = false ∧ b.verified = true ∧ a.key ≠ b.key ∧ SignsIn .google a u ∧ SignsIn .google b v ∧ u.id = v.id ∧ u.platform = v.platform := by
  obtain ⟨u, hu⟩ := signsIn_any .google ⟨b!"666", some b!"owner@shop.org", false, none⟩
  obtain ⟨v, hv⟩ := signsIn_any .google ⟨b!"117", some b!"owner@shop.org", true, none⟩
  have := c124_violated_never (by rfl) (by rfl) hu hv
  exact ⟨_, _, u, v, rfl, rfl, by decide, hu, hv, this.2.1, this.2.2⟩

end Gofre.Props
