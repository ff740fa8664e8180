import Verif.Model.Purpose
import Verif.Props.Csrf
import Verif.Props.OAuth

/-! # C141: a token for one purpose is not accepted for another -/

namespace Gofre.Props
open Gofre.Cache Gofre.Purpose
open Gofre.Spec (given)
variable {σ ρ : Type}

/-- The request issues `k` as a nonce that runs out at `t`. -/
def IssuesNonce (a : App σ ρ) (k : Str) (t : Int) : Purpose.Ev → Prop
  | .page req env => (∃ bytes, env.rnd = some bytes ∧ k = Csrf.hex bytes) ∧ t = env.tAdd + anHour ∧
      (SafeMethod req.method ∨ ∃ n, Carries a.param a.header req n)
  | .login _ => False

/-- The request issues `k` as a login state that runs out at `t`. -/
def IssuesState (a : App σ ρ) (k : Str) (t : Int) : Purpose.Ev → Prop
  | .login (.initiate now st req) => st = k ∧ t = now + a.cfg.keyExpiration ∧ Selectable a.cfg req
  | _ => False

/-- The request neither issues `k` again nor spends it. -/
def Spares (a : App σ ρ) (k : Str) : Purpose.Ev → Prop
  | .page req env => (∀ bytes, env.rnd = some bytes → Csrf.hex bytes ≠ k) ∧ (SafeMethod req.method ∨ ¬ Carries a.param a.header req k)
  | .login (.initiate _ st _) => st ≠ k
  | .login (.callback _ _ _) => True

/-- What a page does to the nonces: nothing, or it issues one, having removed the one it carried if its method is not safe. -/
theorem page_nonces (param header : Str) (env : Csrf.Env) (h : Handler σ ρ) (req : Req) (c : Cache) (s : σ) :
    (Csrf.csrf param header env h {} req c s).2.1 = c ∨
    (∃ bytes, env.rnd = some bytes ∧ SafeMethod req.method ∧
      (Csrf.csrf param header env h {} req c s).2.1 = add c env.tAdd (Csrf.hex bytes) anHour) ∨
    ∃ n, Carries param header req n ∧ ¬ SafeMethod req.method ∧ contains c env.tCheck n = true ∧
      ((Csrf.csrf param header env h {} req c s).2.1 = remove c n ∨
        ∃ bytes, env.rnd = some bytes ∧ (Csrf.csrf param header env h {} req c s).2.1 = add (remove c n) env.tAdd (Csrf.hex bytes) anHour) := by
  by_cases hm : SafeMethod req.method
  · cases hr : env.rnd with
    | none => left; simp [Csrf.csrf, (skipCheck_iff _).2 hm, Csrf.issue, hr]
    | some bytes => right; left; exact ⟨bytes, rfl, hm, by rw [c39_safe_methods _ _ _ _ _ _ _ _ hm bytes hr]⟩
  · by_cases hn : ∃ n, Carries param header req n ∧ contains c env.tCheck n = true
    · obtain ⟨n, h1, h2⟩ := hn
      right; right
      refine ⟨n, h1, hm, h2, ?_⟩
      cases hr : env.rnd with
      | none =>
        left
        have hs : Csrf.skipCheck req.method = false := by
          cases hk : Csrf.skipCheck req.method with
          | false => rfl
          | true => exact absurd ((skipCheck_iff _).1 hk) hm
        have hne : n ≠ [] := by cases h1 <;> assumption
        have hp := (previousNonce_iff param header req n hne).2 h1
        simp [Csrf.csrf, hs, hp, hne, h2, Csrf.issue, hr]
      | some bytes => right; exact ⟨bytes, rfl, by rw [c39_guarded_accepted _ _ _ _ _ _ _ _ hm n h1 h2 bytes hr]⟩
    · left; rw [c39_unguarded_refused _ _ _ _ _ _ _ _ hm hn]

/-- What the start of a login does to the states. -/
theorem initiate_states (cfg : OAuth.Config σ) (base : Str) (now : Int) (st : Str) (req : Req) (c : Cache) :
    (¬ Selectable cfg req ∧ (OAuth.initiate cfg base now st req (some c)).2 = some c) ∨
    (Selectable cfg req ∧ (OAuth.initiate cfg base now st req (some c)).2 = some (add c now st cfg.keyExpiration)) := by
  unfold OAuth.initiate
  cases hsel : OAuth.selectProvider cfg req with
  | ok p => right; exact ⟨(selectProvider_ok hsel).2, rfl⟩
  | error e =>
    left
    refine ⟨fun h => ?_, rfl⟩
    obtain ⟨p, hp⟩ := selectable_selects h
    rw [hsel] at hp; cases hp

theorem get?_add (c : Cache) (now : Int) (k : Str) (d : Int) (k₂ : Str) :
    Map.get? (add c now k d) k₂ = if k₂ = k then some (now + d) else Map.get? c k₂ := by
  by_cases h : k₂ = k
  · subst h; simp [add, Map.get?_set_same]
  · simp [add, Map.get?_set_other _ _ _ _ h, h]

theorem get?_remove (c : Cache) (k k₂ : Str) : Map.get? (remove c k) k₂ = if k₂ = k then none else Map.get? c k₂ := by
  by_cases h : k₂ = k
  · subst h; simp [remove, Map.get?_erase_same]
  · simp [remove, Map.get?_erase_other _ _ _ h, h]

/-- Every entry after a page was there before or was issued by it. -/
theorem page_keys (a : App σ ρ) (env : Csrf.Env) (req : Req) (c : Cache) (s : σ) (k : Str) (t : Int)
    (h : Map.get? (Csrf.csrf a.param a.header env a.handler {} req c s).2.1 k = some t) :
    Map.get? c k = some t ∨ IssuesNonce a k t (.page req env) := by
  rcases page_nonces a.param a.header env a.handler req c s with h1 | ⟨bytes, h1, h2, h3⟩ | ⟨n, h1, h2, h3, h4 | ⟨bytes, h4, h5⟩⟩
  · rw [h1] at h; exact .inl h
  · rw [h3, get?_add] at h
    split at h
    · rename_i hk; simp only [Option.some.injEq] at h; exact .inr ⟨⟨bytes, h1, hk⟩, h.symm, .inl h2⟩
    · exact .inl h
  · rw [h4, get?_remove] at h
    split at h
    · cases h
    · exact .inl h
  · rw [h5, get?_add] at h
    split at h
    · rename_i hk; simp only [Option.some.injEq] at h; exact .inr ⟨⟨bytes, h4, hk⟩, h.symm, .inr ⟨n, h1⟩⟩
    · rw [get?_remove] at h
      split at h
      · cases h
      · exact .inl h

/-- A page that spares a token leaves its entry. -/
theorem page_spares (a : App σ ρ) (env : Csrf.Env) (req : Req) (c : Cache) (s : σ) (k : Str) (h : Spares a k (.page req env)) :
    Map.get? (Csrf.csrf a.param a.header env a.handler {} req c s).2.1 k = Map.get? c k := by
  obtain ⟨h1, h2⟩ := h
  rcases page_nonces a.param a.header env a.handler req c s with h3 | ⟨bytes, h3, h4, h5⟩ | ⟨n, h3, h4, h5, h6⟩
  · rw [h3]
  · rw [h5, get?_add, if_neg (fun e => h1 bytes h3 e.symm)]
  · have hkn : k ≠ n := by
      rintro rfl
      rcases h2 with h2 | h2
      · exact h4 h2
      · exact h2 h3
    rcases h6 with h6 | ⟨bytes, h6, h7⟩
    · rw [h6, get?_remove, if_neg hkn]
    · rw [h7, get?_add, if_neg (fun e => h1 bytes h6 e.symm), get?_remove, if_neg hkn]

/-- A history that spares a token leaves its entry. -/
theorem one_spares (a : App σ ρ) (k : Str) (evs : List Purpose.Ev) (h : ∀ e ∈ evs, Spares a k e) (w : Cache × σ) :
    Map.get? (runOne a evs w).1 k = Map.get? w.1 k := by
  induction evs generalizing w with
  | nil => rfl
  | cons e evs ih =>
    rw [show runOne a (e :: evs) w = runOne a evs (stepOne a w e) from rfl, ih (fun x hx => h x (by simp [hx]))]
    have he := h e (by simp)
    match e, he with
    | .page req env, he => exact page_spares a env req w.1 w.2 k he
    | .login (.initiate now st req), he =>
      simp only [stepOne]
      rcases initiate_states a.cfg a.base now st req w.1 with ⟨-, h1⟩ | ⟨-, h1⟩
      · rw [h1]; rfl
      · rw [h1, Option.getD_some, get?_add, if_neg (fun e => he e.symm)]
    | .login (.callback now n req), _ => rfl

theorem runOne_snoc (a : App σ ρ) (pre : List Purpose.Ev) (e : Purpose.Ev) (post : List Purpose.Ev) (w : Cache × σ) :
    runOne a (pre ++ e :: post) w = runOne a post (stepOne a (runOne a pre w) e) := by
  simp [runOne, List.foldl_append]

/-- A callback whose state is in the cache goes on as if no states were kept at all. -/
theorem callback_contained (cfg : OAuth.Config σ) (base : Str) (now : Int) (name : Str) (h : OAuth.OHandler σ ρ) (req : Req) (c : Cache) (s : σ)
    (hc : contains c now (given req b!"state") = true) :
    OAuth.callback cfg base now name h {} req (some c) s = OAuth.callback cfg base now name h {} req none s := by
  rw [← formValue_given] at hc
  unfold OAuth.callback
  simp [hc]

/-- C141 fails whenever one cache serves both, nonce as state: after any history, a page requested with a safe method issues a nonce, and for an
hour, as long as nobody spends it, a callback that gives this nonce as its `state` is treated as if states were not checked at all. -/
theorem c141_violated_never (a : App σ ρ) (pre post : List Purpose.Ev) (w : Cache × σ) (req : Req) (env : Csrf.Env) (bytes : List UInt8)
    (hm : SafeMethod req.method) (hr : env.rnd = some bytes) (hpost : ∀ e ∈ post, Spares a (Csrf.hex bytes) e)
    (now : Int) (hnow : now < env.tAdd + anHour) (name : Str) (cb : Req) (hst : given cb b!"state" = Csrf.hex bytes) (h : OAuth.OHandler σ ρ) (s : σ) :
    OAuth.callback a.cfg a.base now name h {} cb (some (runOne a (pre ++ .page req env :: post) w).1) s =
      OAuth.callback a.cfg a.base now name h {} cb none s := by
  apply callback_contained
  have : Map.get? (runOne a (pre ++ .page req env :: post) w).1 (Csrf.hex bytes) = some (env.tAdd + anHour) := by
    rw [runOne_snoc, one_spares a _ post hpost]
    simp only [stepOne]
    rw [c39_safe_methods _ _ _ _ _ _ _ _ hm bytes hr, get?_add, if_pos rfl]
  rw [hst]
  simp [contains, this, hnow]

/-- C141 fails the other way too, state as nonce: after any history, whoever starts a login gets a state, and until it runs out, as long as nobody
spends it, a state-changing request that carries it as its nonce reaches the handler. -/
theorem c141_violated_never_nonce (a : App σ ρ) (pre post : List Purpose.Ev) (w : Cache × σ) (t : Int) (st : Str) (start : Req)
    (hsel : Selectable a.cfg start) (hpost : ∀ e ∈ post, Spares a st e)
    (env : Csrf.Env) (bytes : List UInt8) (hr : env.rnd = some bytes) (hnow : env.tCheck < t + a.cfg.keyExpiration)
    (req : Req) (hc : Carries a.param a.header req st) (hm : ¬ SafeMethod req.method) (h : Handler σ ρ) (s : σ) :
    (Csrf.csrf a.param a.header env h {} req (runOne a (pre ++ .login (.initiate t st start) :: post) w).1 s).1 =
      (h { nonce := some (Csrf.hex bytes) } req s).1 := by
  have hg : Map.get? (runOne a (pre ++ .login (.initiate t st start) :: post) w).1 st = some (t + a.cfg.keyExpiration) := by
    rw [runOne_snoc, one_spares a _ post hpost]
    simp only [stepOne]
    rcases initiate_states a.cfg a.base t st start (runOne a pre w).1 with ⟨h1, -⟩ | ⟨-, h1⟩
    · exact absurd hsel h1
    · rw [h1, Option.getD_some, get?_add, if_pos rfl]
  rw [c39_guarded_accepted _ _ _ _ _ _ _ _ hm st hc (by simp [contains, hg, hnow]) bytes hr]

/-- C141 for one cache, what is left of it: a token that is accepted for either purpose was issued for one of the two and has not run out. -/
theorem c141_one_partial (a : App σ ρ) (evs : List Purpose.Ev) (s : σ) (now : Int) (k : Str)
    (h : contains (runOne a evs (empty, s)).1 now k = true) :
    ∃ e ∈ evs, ∃ t, now < t ∧ (IssuesNonce a k t e ∨ IssuesState a k t e) := by
  have main : ∀ (evs : List Purpose.Ev) (w : Cache × σ) (t : Int), Map.get? (runOne a evs w).1 k = some t →
      Map.get? w.1 k = some t ∨ ∃ e ∈ evs, IssuesNonce a k t e ∨ IssuesState a k t e := by
    intro evs
    induction evs with
    | nil => intro w t h; exact .inl h
    | cons e evs ih =>
      intro w t h
      rcases ih (stepOne a w e) t h with h | ⟨e', h1, h2⟩
      · match e, h with
        | .page req env, h =>
          rcases page_keys a env req w.1 w.2 k t h with h | h
          · exact .inl h
          · exact .inr ⟨_, by simp, .inl h⟩
        | .login (.initiate t₀ st req), h =>
          simp only [stepOne] at h
          rcases initiate_states a.cfg a.base t₀ st req w.1 with ⟨-, h1⟩ | ⟨hs, h1⟩
          · rw [h1] at h; exact .inl h
          · rw [h1, Option.getD_some, get?_add] at h
            split at h
            · rename_i hk
              simp only [Option.some.injEq] at h
              exact .inr ⟨.login (.initiate t₀ st req), by simp, .inr ⟨hk.symm, h.symm, hs⟩⟩
            · exact .inl h
        | .login (.callback t₀ n req), h => exact .inl h
      · exact .inr ⟨e', by simp [h1], h2⟩
  unfold contains at h
  split at h
  · rename_i t ht
    rcases main evs (empty, s) t ht with h' | ⟨e, h1, h2⟩
    · simp [empty, Map.get?] at h'
    · exact ⟨e, h1, t, by simpa using h, h2⟩
  · cases h

/-- C141 with a cache each: a live nonce was issued as a nonce, a live state as a state. -/
theorem c141_apart_partial (a : App σ ρ) (evs : List Purpose.Ev) (s : σ) (now : Int) (k : Str) :
    (contains (runApart a evs ⟨empty, empty, s⟩).nonces now k = true → ∃ e ∈ evs, ∃ t, now < t ∧ IssuesNonce a k t e) ∧
    (contains (runApart a evs ⟨empty, empty, s⟩).states now k = true → ∃ e ∈ evs, ∃ t, now < t ∧ IssuesState a k t e) := by
  have main : ∀ (evs : List Purpose.Ev) (w : Apart σ) (t : Int),
      (Map.get? (runApart a evs w).nonces k = some t → Map.get? w.nonces k = some t ∨ ∃ e ∈ evs, IssuesNonce a k t e) ∧
      (Map.get? (runApart a evs w).states k = some t → Map.get? w.states k = some t ∨ ∃ e ∈ evs, IssuesState a k t e) := by
    intro evs
    induction evs with
    | nil => intro w t; exact ⟨.inl, .inl⟩
    | cons e evs ih =>
      intro w t
      constructor
      · intro h
        rcases (ih (stepApart a w e) t).1 h with h | ⟨e', h1, h2⟩
        · match e, h with
          | .page req env, h =>
            rcases page_keys a env req w.nonces w.own k t h with h | h
            · exact .inl h
            · exact .inr ⟨_, by simp, h⟩
          | .login (.initiate t₀ st req), h => exact .inl h
          | .login (.callback t₀ n req), h => exact .inl h
        · exact .inr ⟨e', by simp [h1], h2⟩
      · intro h
        rcases (ih (stepApart a w e) t).2 h with h | ⟨e', h1, h2⟩
        · match e, h with
          | .page req env, h => exact .inl h
          | .login (.initiate t₀ st req), h =>
            simp only [stepApart] at h
            rcases initiate_states a.cfg a.base t₀ st req w.states with ⟨-, h1⟩ | ⟨hs, h1⟩
            · rw [h1] at h; exact .inl h
            · rw [h1, Option.getD_some, get?_add] at h
              split at h
              · rename_i hk
                simp only [Option.some.injEq] at h
                exact .inr ⟨.login (.initiate t₀ st req), by simp, hk.symm, h.symm, hs⟩
              · exact .inl h
          | .login (.callback t₀ n req), h => exact .inl h
        · exact .inr ⟨e', by simp [h1], h2⟩
  constructor
  · intro h
    unfold contains at h
    split at h
    · rename_i t ht
      rcases (main evs ⟨empty, empty, s⟩ t).1 ht with h' | ⟨e, h1, h2⟩
      · simp [empty, Map.get?] at h'
      · exact ⟨e, h1, t, by simpa using h, h2⟩
    · cases h
  · intro h
    unfold contains at h
    split at h
    · rename_i t ht
      rcases (main evs ⟨empty, empty, s⟩ t).2 ht with h' | ⟨e, h1, h2⟩
      · simp [empty, Map.get?] at h'
      · exact ⟨e, h1, t, by simpa using h, h2⟩
    · cases h

/-- C141 with a cache each: a callback whose state no login of the history was started with is refused before the provider is asked, however many
nonces were issued, and a state-changing request carrying something that no page issued is refused. -/
theorem c141_apart_refused_partial (a : App σ ρ) (evs : List Purpose.Ev) (s₀ s : σ) :
    (∀ now name (cb : Req) (h : OAuth.OHandler σ ρ), (∀ e ∈ evs, ∀ t, ¬ IssuesState a (given cb b!"state") t e) →
      ∃ e, OAuth.callback a.cfg a.base now name h {} cb (some (runApart a evs ⟨empty, empty, s₀⟩).states) s = (.ret none (some e), s)) ∧
    (∀ (env : Csrf.Env) (req : Req) (h : Handler σ ρ), ¬ SafeMethod req.method →
      (∀ n, Carries a.param a.header req n → ∀ e ∈ evs, ∀ t, ¬ IssuesNonce a n t e) →
      Csrf.csrf a.param a.header env h {} req (runApart a evs ⟨empty, empty, s₀⟩).nonces s =
        (.ret none (some .accessDenied), (runApart a evs ⟨empty, empty, s₀⟩).nonces, s)) := by
  constructor
  · intro now name cb h hno
    have hc : contains (runApart a evs ⟨empty, empty, s₀⟩).states now (given cb b!"state") = false := by
      cases hh : contains (runApart a evs ⟨empty, empty, s₀⟩).states now (given cb b!"state") with
      | false => rfl
      | true =>
        obtain ⟨e, h1, t, -, h2⟩ := (c141_apart_partial a evs s₀ now _).2 hh
        exact absurd h2 (hno e h1 t)
    rw [← formValue_given] at hc
    unfold OAuth.callback
    split
    · exact ⟨_, rfl⟩
    · split
      · exact ⟨_, rfl⟩
      · simp [hc]
  · intro env req h hm hno
    apply c39_unguarded_refused _ _ _ _ _ _ _ _ hm
    rintro ⟨n, h1, h2⟩
    obtain ⟨e, h3, t, -, h4⟩ := (c141_apart_partial a evs s₀ env.tCheck n).1 h2
    exact hno n h1 e h3 t h4

/-- C141: the texts themselves could tell: whatever the random sources give, a nonce of 16 bytes is never a state of 12 characters. -/
theorem c141_texts_differ (bytes : List UInt8) (draws : List Nat) (hb : bytes.length = 16) (hd : draws.length = 12) :
    OAuth.generateUniqueId draws ≠ some (Csrf.hex bytes) := by
  obtain ⟨st, h1, h2, -⟩ := c67_state_alphabet draws
  have hl : ∀ bs : List UInt8, (Csrf.hex bs).length = 2 * bs.length := by
    intro bs
    induction bs with
    | nil => rfl
    | cons b bs ih => simp only [Csrf.hex, List.length_cons, ih]; omega
  rw [h1]
  intro h
  simp only [Option.some.injEq] at h
  have := hl bytes
  rw [← h, h2] at this
  omega

/-- A provider that gives a token for any code. -/
def lavish : OAuth.Provider Unit where
  name := b!"github"
  initiateUrl := fun _ _ _ => []
  fetchToken := fun _ code s => (.ok { accessToken := code, tokenType := b!"bearer" }, s)
  fetchUser := fun _ s => (.err .unauthorized, s)

/-- An application with that provider whose handlers answer 1 and 2. -/
def lavishApp : App Unit Nat where
  param := b!"_csrf"
  header := b!"X-Csrf-Token"
  handler := fun _ _ s => (.ret (some 1) none, s)
  cfg := { websiteUrl := b!"https://x", fetchUserDetails := false, providers := [lavish], keyExpiration := 60 }
  base := b!"/oauth/authorize"
  onLogin := fun _ _ s => (.ret (some 2) none, s)

/-- A page view at time 0 in which the random source gives sixteen zeros. -/
def aView : Purpose.Ev := .page { method := b!"GET" } ⟨0, 0, some (List.replicate 16 0)⟩

/-- A login started at time 0. -/
def aStart : Purpose.Ev := .login (.initiate 0 b!"abcdefghijkl" { method := b!"GET" })

/-- C141 fails with one cache: nobody has ever started a login, and yet a callback is admitted with the nonce of a page view; nobody has ever
viewed a page, and yet a POST is admitted with the state of a login.  With a cache each both are refused. -/
theorem c141_violated :
    let cb : Req := { method := b!"GET", form := [(b!"state", [Csrf.hex (List.replicate 16 0)]), (b!"code", [b!"stolen"])] }
    let post : Req := { method := b!"POST", headers := [(b!"X-Csrf-Token", [b!"abcdefghijkl"])] }
    let env : Csrf.Env := ⟨5, 5, some (List.replicate 16 1)⟩
    OAuth.callback lavishApp.cfg lavishApp.base 5 b!"github" lavishApp.onLogin {} cb (some (runOne lavishApp [aView] (empty, ())).1) () = (.ret (some 2) none, ()) ∧
    OAuth.callback lavishApp.cfg lavishApp.base 5 b!"github" lavishApp.onLogin {} cb (some (runApart lavishApp [aView] ⟨empty, empty, ()⟩).states) () =
      (.ret none (some .unauthorized), ()) ∧
    (Csrf.csrf lavishApp.param lavishApp.header env lavishApp.handler {} post (runOne lavishApp [aStart] (empty, ())).1 ()).1 = .ret (some 1) none ∧
    (Csrf.csrf lavishApp.param lavishApp.header env lavishApp.handler {} post (runApart lavishApp [aStart] ⟨empty, empty, ()⟩).nonces ()).1 =
      .ret none (some .accessDenied) := by decide +kernel

/-- The hypotheses of both are met: the view and the start spare each other's tokens. -/
example : (∀ e ∈ [aStart], Spares lavishApp (Csrf.hex (List.replicate 16 0)) e) ∧ (∀ e ∈ [aView], Spares lavishApp b!"abcdefghijkl" e) ∧
    Selectable lavishApp.cfg { method := b!"GET" } ∧
    Carries lavishApp.param lavishApp.header { method := b!"POST", headers := [(b!"X-Csrf-Token", [b!"abcdefghijkl"])] } b!"abcdefghijkl" := by
  refine ⟨?_, ?_, .inl rfl, .hdr _ [] (by decide) (by decide)⟩
  · intro e he
    rw [List.mem_singleton.1 he]
    show b!"abcdefghijkl" ≠ _
    decide +kernel
  · intro e he
    rw [List.mem_singleton.1 he]
    refine ⟨?_, .inl (by decide)⟩
    intro bytes hb
    simp only [Option.some.injEq] at hb
    subst hb
    decide +kernel

/-- Both kinds of tokens are live in one cache after both requests, and none of the other purpose with a cache each. -/
example : contains (runOne lavishApp [aView, aStart] (empty, ())).1 5 b!"abcdefghijkl" = true ∧
    contains (runOne lavishApp [aView, aStart] (empty, ())).1 5 (Csrf.hex (List.replicate 16 0)) = true ∧
    contains (runApart lavishApp [aView, aStart] ⟨empty, empty, ()⟩).nonces 5 b!"abcdefghijkl" = false ∧
    contains (runApart lavishApp [aView, aStart] ⟨empty, empty, ()⟩).states 5 b!"abcdefghijkl" = true := by decide +kernel

example : OAuth.generateUniqueId (List.range 12) = some b!"abcdefghijkl" ∧ Csrf.hex (List.replicate 16 0) = b!"00000000000000000000000000000000" := by
  decide +kernel

end Gofre.Props
