import Verif.Spec.Context
import Verif.Model.Middleware
import Verif.Model.Csrf

/-!
# Handlers read from the context what was put there

Property C118.
-/

namespace Gofre.Props
open Gofre.Context Gofre.Spec

theorem lastOf_snoc {α β : Type} (f : α → Option β) (l : List α) (a : α) : lastOf f (l ++ [a]) = (f a).or (lastOf f l) := by
  unfold lastOf
  rw [List.reverse_append, List.reverse_singleton, List.singleton_append, List.findSome?_cons]
  cases f a <;> rfl

theorem puts_snoc (c : Chain) (l : List Put) (a : Put) : puts c (l ++ [a]) = put (puts c l) a := by
  simp [puts, List.foldl_append]

theorem snocInduction {α : Type} {P : List α → Prop} (h0 : P []) (h1 : ∀ l a, P l → P (l ++ [a])) (l : List α) : P l := by
  rw [← List.reverse_reverse l]
  induction l.reverse with
  | nil => exact h0
  | cons a l ih => rw [List.reverse_cons]; exact h1 _ _ ih

/-- What `Value` finds under the keys of the framework and the application's. -/
theorem value_puts (l : List Put) :
    value (puts [] l) principalKey = (lastOf putsPrincipal l).map .principal ∧
    value (puts [] l) tokenKey = (lastOf putsToken l).map .token ∧
    value (puts [] l) nonceKey = (lastOf putsNonce l).map .text ∧
    ∀ type n, value (puts [] l) ⟨.app type, n⟩ = lastOf (putsOwn type n) l := by
  induction l using snocInduction with
  | h0 => exact ⟨rfl, rfl, rfl, fun _ _ => rfl⟩
  | h1 l a ih =>
    obtain ⟨i1, i2, i3, i4⟩ := ih
    rw [puts_snoc, lastOf_snoc, lastOf_snoc, lastOf_snoc]
    simp only [lastOf_snoc]
    cases a with
    | supplied p =>
      cases p with
      | none => simp [put, putsPrincipal, putsToken, putsNonce, putsOwn, i1, i2, i3, i4]
      | some p =>
        simp [put, putsPrincipal, putsToken, putsNonce, putsOwn, withValue, value, principalKey, tokenKey, nonceKey] at i1 i2 i3 i4 ⊢
        exact ⟨i2, i3, i4⟩
    | issued s =>
      simp [put, putsPrincipal, putsToken, putsNonce, putsOwn, withValue, value, principalKey, tokenKey, nonceKey] at i1 i2 i3 i4 ⊢
      exact ⟨i1, i2, i4⟩
    | exchanged t =>
      simp [put, putsPrincipal, putsToken, putsNonce, putsOwn, withValue, value, principalKey, tokenKey, nonceKey] at i1 i2 i3 i4 ⊢
      exact ⟨i1, i3, i4⟩
    | fetched u =>
      simp [put, putsPrincipal, putsToken, putsNonce, putsOwn, withValue, value, principalKey, tokenKey, nonceKey] at i1 i2 i3 i4 ⊢
      exact ⟨i2, i3, i4⟩
    | own type n v =>
      simp [put, putsPrincipal, putsToken, putsNonce, putsOwn, withValue, value, principalKey, tokenKey, nonceKey] at i1 i2 i3 i4 ⊢
      refine ⟨i1, i2, i3, fun type' n' => ?_⟩
      split
      · rfl
      · rw [i4]; rfl

/-- C118: whatever middlewares did to the context, in whatever order, the handler reads the
principal, the token and the nonce put there last, nothing of its kind if there is none, and the
application's own values are its own. -/
theorem c118_read (l : List Put) :
    getPrincipal (puts [] l) = lastOf putsPrincipal l ∧
    (∀ t, lastOf putsToken l = some t → getToken (puts [] l) = t) ∧
    (lastOf putsToken l = none → tokenEmpty (getToken (puts [] l)) = true) ∧
    getNonce (puts [] l) = (lastOf putsNonce l).getD [] ∧
    ∀ type n, value (puts [] l) ⟨.app type, n⟩ = lastOf (putsOwn type n) l := by
  obtain ⟨h1, h2, h3, h4⟩ := value_puts l
  unfold getPrincipal getToken getNonce
  rw [h1, h2, h3]
  refine ⟨?_, ?_, ?_, ?_, h4⟩
  · cases lastOf putsPrincipal l <;> rfl
  · intro t ht; rw [ht]; rfl
  · intro ht; rw [ht]; rfl
  · cases lastOf putsNonce l <;> rfl

/-- The record the middlewares are modelled with reads the same: a middleware of the framework sets
one of its fields and leaves the others. -/
def view (c : Chain) : Ctx :=
  { principal := getPrincipal c
    nonce := match value c nonceKey with | some (.text s) => some s | _ => none
    token := match value c tokenKey with | some (.token t) => some t.accessToken | _ => none }

/-- C118, for the middlewares: what `SecurityPrincipalSupplier` and `CSRFPrevention` hand on is
what a handler reads from the context extended as in the code, everything else unchanged. -/
theorem c118_middlewares (c : Chain) (p : Principal) (s : Str) (t : OAuth.AccessToken) (u : OAuth.User) (type n : Nat) (v : Val) :
    view (put c (.supplied (some p))) = { view c with principal := some p } ∧ view (put c (.supplied none)) = view c ∧
    view (put c (.issued s)) = { view c with nonce := some s } ∧
    view (put c (.exchanged t)) = { view c with token := some t.accessToken } ∧
    view (put c (.fetched u)) = { view c with principal := some (userPrincipal u) } ∧
    view (put c (.own type n v)) = view c := by
  simp [view, put, withValue, value, principalKey, tokenKey, nonceKey, getPrincipal]

/-- C118, wired: what `SecurityPrincipalSupplier` and the CSRF middleware hand to the next handler is what is read from the context they extend,
whatever is already in it; when they hand on nothing, they return an error and the handler has not run. -/
theorem c118_wired {σ ρ : Type} (c : Chain) (h : Handler σ ρ) (req : Req) (s : σ) :
    (∀ sps, (∃ e s', sps (view c) req s = (.error e, s') ∧ MW.principalSupplier sps h (view c) req s = (.ret none (some e), s')) ∨
      ∃ p s', sps (view c) req s = (.ok p, s') ∧ MW.principalSupplier sps h (view c) req s = h (view (put c (.supplied p))) req s') ∧
    (∀ param header env cache, (∃ e cache', Csrf.csrf param header env h (view c) req cache s = (.ret none (some e), cache', s)) ∨
      ∃ bytes cache', env.rnd = some bytes ∧ Csrf.csrf param header env h (view c) req cache s =
        ((h (view (put c (.issued (Csrf.hex bytes)))) req s).1, cache', (h (view (put c (.issued (Csrf.hex bytes)))) req s).2)) := by
  have hm := c118_middlewares c
  constructor
  · intro sps
    unfold MW.principalSupplier
    cases hs : sps (view c) req s with
    | mk r s' =>
      cases r with
      | error e => exact .inl ⟨e, s', rfl, rfl⟩
      | ok p =>
        cases p with
        | none => exact .inr ⟨none, s', rfl, rfl⟩
        | some p => exact .inr ⟨some p, s', rfl, by simp only; rw [(hm p [] ⟨[], [], [], [], 0⟩ ⟨[], [], []⟩ 0 0 (.other 0)).1]⟩
  · intro param header env cache
    have key : ∀ cache, (∃ e cache', Csrf.issue env h (view c) req cache s = (.ret none (some e), cache', s)) ∨
        ∃ bytes cache', env.rnd = some bytes ∧ Csrf.issue env h (view c) req cache s =
          ((h (view (put c (.issued (Csrf.hex bytes)))) req s).1, cache', (h (view (put c (.issued (Csrf.hex bytes)))) req s).2) := by
      intro cache
      unfold Csrf.issue
      cases hr : env.rnd with
      | none => exact .inl ⟨_, _, rfl⟩
      | some bytes =>
        refine .inr ⟨bytes, Cache.add cache env.tAdd (Csrf.hex bytes) Csrf.expiration, rfl, ?_⟩
        rw [(hm ⟨fun _ => false⟩ (Csrf.hex bytes) ⟨[], [], [], [], 0⟩ ⟨[], [], []⟩ 0 0 (.other 0)).2.2.1]
    unfold Csrf.csrf
    split
    · exact key cache
    · simp only
      split
      · exact .inl ⟨_, _, rfl⟩
      · exact key _

/-- C118, the user of the login flow: it is the principal the handler reads, and has no permission
at all, so that `AuthorizeAll` with at least one permission refuses it. -/
theorem c118_user {σ ρ : Type} (l : List Put) (u : OAuth.User) (after : List Put) (h : lastOf putsPrincipal after = none)
    (perms : List Auth.Permission) (hp : perms ≠ []) (hd : Handler σ ρ) (req : Req) (s : σ) :
    getPrincipal (puts [] (l ++ .fetched u :: after)) = some (userPrincipal u) ∧ (∀ q, (userPrincipal u).hasPermission q = false) ∧
    MW.authorizeAll perms hd (view (puts [] (l ++ .fetched u :: after))) req s = (.ret none (some .unauthorized), s) ∧
    MW.authorizeAny perms hd (view (puts [] (l ++ .fetched u :: after))) req s = (.ret none (some .unauthorized), s) := by
  have h1 : getPrincipal (puts [] (l ++ .fetched u :: after)) = some (userPrincipal u) := by
    rw [(c118_read _).1]
    have : ∀ (k : List Put), lastOf putsPrincipal k = none → lastOf putsPrincipal (l ++ .fetched u :: k) = some (userPrincipal u) := by
      intro k hk
      unfold lastOf at hk ⊢
      rw [List.reverse_append, List.reverse_cons, List.findSome?_append, List.findSome?_append, hk]
      rfl
    exact this _ h
  have hn : ∀ q, (userPrincipal u).hasPermission q = false := fun q => rfl
  have hv : (view (puts [] (l ++ .fetched u :: after))).principal = some (userPrincipal u) := h1
  refine ⟨h1, hn, ?_, ?_⟩
  · simp only [MW.authorizeAll, MW.authorize, hv]
    cases perms with
    | nil => exact absurd rfl hp
    | cons q qs => simp [MW.hasAll, hn]
  · simp only [MW.authorizeAny, MW.authorize, hv]
    have : MW.hasAny (userPrincipal u) perms = false := by
      induction perms with
      | nil => rfl
      | cons q qs ih =>
        rw [MW.hasAny, hn]
        cases qs with
        | nil => rfl
        | cons => exact ih (by simp)
    simp [this]

/-- A nonce, a token, a user, a value of the application and a second nonce. -/
example : let l : List Put := [.issued b!"A", .exchanged { accessToken := b!"t", tokenType := b!"Bearer" }, .fetched ⟨b!"ann", b!"Ann", b!"github"⟩,
      .own 0 1 (.text b!"x"), .supplied none, .issued b!"B"]
    getNonce (puts [] l) = b!"B" ∧ (getToken (puts [] l)).accessToken = b!"t" ∧ lastOf putsPrincipal [.own 0 1 (.text b!"x"), .supplied none, .issued b!"B"] = none ∧
    (getPrincipal (puts [] l)).isSome = true := by
  refine ⟨rfl, rfl, rfl, rfl⟩

/-- A second supplier replaces what a first one put in, and the handler sees the replacement. -/
example : let c : Chain := put [] (.supplied (some ⟨fun _ => false⟩))
    (MW.principalSupplier (σ := Unit) (ρ := Bool) (fun _ _ s => (.ok (some ⟨fun _ => true⟩), s))
      (fun ctx _ s => (.ret (ctx.principal.map fun p => p.hasPermission ⟨b!"posts", 1⟩) none, s)) (view c) { method := b!"GET" } ()).1 =
      .ret (some true) none := by
  rfl

end Gofre.Props
