import Verif.Spec.Honest
import Verif.Props.Csrf
import Verif.Props.OAuth

/-! # C142, C143: the protections over any cache -/

namespace Gofre.Props
open Gofre.AnyCache
open Gofre.Spec (Honest Woven given)
variable {σ ρ : Type}

/-- Everything the middleware can do with a request: refuse it, fail for want of a nonce, or call the handler. -/
theorem c142_guard (param header : Str) (env : AnyCache.Env) (h : Handler σ ρ) (ctx : Ctx) (req : Req) (s : σ) :
    let asked : List Call → Prop := fun l =>
      (SafeMethod req.method ∧ l = []) ∨
      ∃ n, ¬ SafeMethod req.method ∧ Carries param header req n ∧ env.says = true ∧ l = [.contains env.tCheck n true, .remove n]
    (¬ SafeMethod req.method ∧ (∃ l, (l = [] ∨ ∃ n, Carries param header req n ∧ env.says = false ∧ l = [.contains env.tCheck n false]) ∧
      AnyCache.csrf param header env h ctx req s = (.ret none (some .accessDenied), l, s))) ∨
    (env.rnd = none ∧ ∃ l e, asked l ∧ AnyCache.csrf param header env h ctx req s = (.ret none (some e), l, s)) ∨
    (∃ bytes e l, env.rnd = some bytes ∧ env.addErr = some e ∧ asked l ∧
      AnyCache.csrf param header env h ctx req s = (.ret none (some e), l ++ [.add env.tAdd (Csrf.hex bytes) anHour (some e)], s)) ∨
    (∃ bytes l, env.rnd = some bytes ∧ env.addErr = none ∧ asked l ∧
      AnyCache.csrf param header env h ctx req s =
        ((h { ctx with nonce := some (Csrf.hex bytes) } req s).1, l ++ [.add env.tAdd (Csrf.hex bytes) anHour none],
          (h { ctx with nonce := some (Csrf.hex bytes) } req s).2)) := by
  intro asked
  have fin : ∀ l, asked l → AnyCache.csrf param header env h ctx req s = AnyCache.issue env h ctx req l s →
      (env.rnd = none ∧ ∃ l e, asked l ∧ AnyCache.csrf param header env h ctx req s = (.ret none (some e), l, s)) ∨
    (∃ bytes e l, env.rnd = some bytes ∧ env.addErr = some e ∧ asked l ∧
      AnyCache.csrf param header env h ctx req s = (.ret none (some e), l ++ [.add env.tAdd (Csrf.hex bytes) anHour (some e)], s)) ∨
    (∃ bytes l, env.rnd = some bytes ∧ env.addErr = none ∧ asked l ∧
      AnyCache.csrf param header env h ctx req s =
        ((h { ctx with nonce := some (Csrf.hex bytes) } req s).1, l ++ [.add env.tAdd (Csrf.hex bytes) anHour none],
          (h { ctx with nonce := some (Csrf.hex bytes) } req s).2)) := by
    intro l hl heq
    rw [heq]
    unfold AnyCache.issue
    cases hr : env.rnd with
    | none => exact .inl ⟨rfl, l, _, hl, rfl⟩
    | some bytes =>
      cases he : env.addErr with
      | some e => exact .inr (.inl ⟨bytes, e, l, rfl, rfl, hl, rfl⟩)
      | none => exact .inr (.inr ⟨bytes, l, rfl, rfl, hl, rfl⟩)
  by_cases hm : SafeMethod req.method
  · exact .inr (fin [] (.inl ⟨hm, rfl⟩) (by simp [AnyCache.csrf, (skipCheck_iff _).2 hm]))
  · have hs : Csrf.skipCheck req.method = false := by
      cases hk : Csrf.skipCheck req.method with
      | false => rfl
      | true => exact absurd ((skipCheck_iff _).1 hk) hm
    by_cases h0 : Csrf.previousNonce param header req = []
    · exact .inl ⟨hm, [], .inl rfl, by simp [AnyCache.csrf, hs, h0]⟩
    · have hc := (previousNonce_iff param header req _ h0).1 rfl
      cases hsay : env.says with
      | false => exact .inl ⟨hm, _, .inr ⟨_, hc, rfl, rfl⟩, by simp [AnyCache.csrf, hs, h0, hsay]⟩
      | true => exact .inr (fin _ (.inr ⟨_, hm, hc, hsay, rfl⟩) (by simp [AnyCache.csrf, hs, h0, hsay]))

/-- The calls of a request: what a yes and what a successful adding among them mean. -/
theorem calls_mem (param header : Str) (env : AnyCache.Env) (h : Handler σ ρ) (ctx : Ctx) (req : Req) (s : σ) :
    (∀ now n, Call.contains now n true ∈ (AnyCache.csrf param header env h ctx req s).2.1 →
      ¬ SafeMethod req.method ∧ Carries param header req n ∧ now = env.tCheck ∧
      ∃ l, (AnyCache.csrf param header env h ctx req s).2.1 = .contains now n true :: .remove n :: l ∧ ∀ c ∈ l, ∃ t k d e, c = .add t k d e) ∧
    (∀ t n d, Call.add t n d none ∈ (AnyCache.csrf param header env h ctx req s).2.1 →
      t = env.tAdd ∧ d = anHour ∧ ∃ bytes, env.rnd = some bytes ∧ n = Csrf.hex bytes ∧
      ((AnyCache.csrf param header env h ctx req s).1, (AnyCache.csrf param header env h ctx req s).2.2) = h { ctx with nonce := some n } req s) := by
  rcases c142_guard param header env h ctx req s with ⟨hm, l, hl, he⟩ | ⟨hr, l, e, hl, he⟩ | ⟨bytes, e, l, hr, ha, hl, he⟩ | ⟨bytes, l, hr, ha, hl, he⟩
  all_goals rw [he]
  · rcases hl with rfl | ⟨n, -, -, rfl⟩ <;> simp
  · rcases hl with ⟨-, rfl⟩ | ⟨n, hm, hc, -, rfl⟩
    · simp
    · simp only [List.mem_cons, List.not_mem_nil, or_false, reduceCtorEq, Call.contains.injEq, and_true, false_implies, implies_true]
      rintro now k ⟨rfl, rfl⟩
      exact ⟨by simpa using hm, hc, rfl, [], rfl, by simp⟩
  · rcases hl with ⟨-, rfl⟩ | ⟨n, hm, hc, -, rfl⟩
    · simp
    · simp only [List.cons_append, List.nil_append, List.mem_cons, List.not_mem_nil, or_false, reduceCtorEq, Call.contains.injEq, Call.add.injEq, and_true,
        and_false, false_implies, implies_true]
      rintro now k ⟨rfl, rfl⟩
      exact ⟨by simpa using hm, hc, rfl, _, rfl, by simp⟩
  · rcases hl with ⟨-, rfl⟩ | ⟨n, hm, hc, -, rfl⟩
    · simp only [List.nil_append, List.mem_singleton, reduceCtorEq, false_implies, implies_true, true_and, Call.add.injEq, and_true]
      rintro t n d ⟨rfl, rfl, rfl⟩
      exact ⟨rfl, rfl, bytes, hr, rfl, rfl⟩
    · simp only [List.cons_append, List.nil_append, List.mem_cons, List.not_mem_nil, or_false, false_or, reduceCtorEq, Call.contains.injEq, Call.add.injEq,
        and_true]
      constructor
      · rintro now k ⟨rfl, rfl⟩
        exact ⟨by simpa using hm, hc, rfl, _, rfl, by simp⟩
      · rintro t k d ⟨rfl, rfl, rfl⟩
        exact ⟨rfl, rfl, bytes, hr, rfl, rfl⟩

/-- A request to the middleware with everything it gets from outside. -/
structure PageJob (σ : Type) where
  req : Req
  env : AnyCache.Env
  own : σ

/-- Its result, calls and new state. -/
def PageJob.run (param header : Str) (h : Handler σ ρ) (j : PageJob σ) : HRes ρ × List Call × σ :=
  AnyCache.csrf param header j.env h {} j.req j.own

/-- A call in a woven record is a call of its request. -/
theorem woven_mem {each : List (List Call)} {record : List (Nat × Call)} (h : Woven each record) {i : Nat} {c : Call} (hm : (i, c) ∈ record) :
    ∃ l, each[i]? = some l ∧ c ∈ l := by
  obtain ⟨l, h1, h2⟩ := h i c hm
  refine ⟨l, h1, h2.subset ?_⟩
  exact List.mem_filterMap.2 ⟨(i, c), hm, by simp⟩

/-- C142.  Whatever cache is used, as long as it says yes only with reason, and however requests interleave: when the cache says yes to a request
(and only then can a state-changing request reach the handler: `c142_guard`), the request carries a nonce that an earlier call of this
middleware stored less than an hour ago, for a request whose handler was called with this nonce. -/
theorem c142_issued (param header : Str) (h : Handler σ ρ) (jobs : List (PageJob σ)) (record : List (Nat × Call))
    (hw : Woven (jobs.map fun j => (j.run param header h).2.1) record) (hh : Honest (record.map (·.2)))
    (pre post : List (Nat × Call)) (i : Nat) (now : Int) (n : Str) (heq : record = pre ++ (i, .contains now n true) :: post) :
    (∃ j, jobs[i]? = some j ∧ Carries param header j.req n ∧ now = j.env.tCheck) ∧
    ∃ i' j', jobs[i']? = some j' ∧ (i', Call.add j'.env.tAdd n anHour none) ∈ pre ∧ now < j'.env.tAdd + anHour ∧
      ((j'.run param header h).1, (j'.run param header h).2.2) = h { nonce := some n } j'.req j'.own := by
  constructor
  · obtain ⟨l, h1, h2⟩ := woven_mem hw (i := i) (c := .contains now n true) (by simp [heq])
    rw [List.getElem?_map] at h1
    obtain ⟨j, h3, rfl⟩ := Option.map_eq_some_iff.1 h1
    obtain ⟨-, h5, h6, -⟩ := (calls_mem param header j.env h {} j.req j.own).1 now n h2
    exact ⟨j, h3, h5, h6⟩
  · obtain ⟨p, q, t, d, h1, h2, -⟩ := hh (pre.map (·.2)) (post.map (·.2)) now n (by simp [heq])
    obtain ⟨x, hx, hx2⟩ := List.mem_map.1 (show Call.add t n d none ∈ pre.map (·.2) by simp [h1])
    obtain ⟨i', c⟩ := x
    dsimp only at hx2
    subst hx2
    obtain ⟨l, h3, h4⟩ := woven_mem hw (i := i') (c := .add t n d none) (by simp [heq, hx])
    rw [List.getElem?_map] at h3
    obtain ⟨j, h5, rfl⟩ := Option.map_eq_some_iff.1 h3
    obtain ⟨rfl, rfl, bytes, -, rfl, h6⟩ := (calls_mem param header j.env h {} j.req j.own).2 t n d h4
    exact ⟨i', j, h5, hx, h2, h6⟩

theorem split_at {α : Type} {p q u v : List α} {a b : α} (h : p ++ a :: q = u ++ b :: v) (hab : a ≠ b) : (∃ m, u = p ++ a :: m) ∨ b ∈ p := by
  rcases List.append_eq_append_iff.1 h with ⟨m, h1, h2⟩ | ⟨m, h1, h2⟩
  · cases m with
    | nil => simp at h2; exact absurd h2.1 hab
    | cons x m => simp at h2; exact .inl ⟨m, by rw [h1, h2.1]⟩
  · cases m with
    | nil => simp at h2; exact absurd h2.1.symm hab
    | cons x m => simp at h2; right; rw [h1, h2.1]; simp

/-- C142, once only: of requests processed one after the other, between two to which the cache says yes for the same nonce there is one whose
handler is called with this nonce anew (which may be the first of the two). -/
theorem c142_once (param header : Str) (h : Handler σ ρ) (a b c : List (PageJob σ)) (x y : PageJob σ) (n : Str) (t₁ t₂ : Int)
    (hh : Honest ((a ++ x :: (b ++ y :: c)).flatMap fun j => (j.run param header h).2.1))
    (hx : Call.contains t₁ n true ∈ (x.run param header h).2.1) (hy : Call.contains t₂ n true ∈ (y.run param header h).2.1) :
    ∃ z ∈ x :: b, ((z.run param header h).1, (z.run param header h).2.2) = h { nonce := some n } z.req z.own := by
  obtain ⟨-, -, -, lx, hlx, hlx2⟩ := (calls_mem param header x.env h {} x.req x.own).1 t₁ n hx
  obtain ⟨-, -, -, ly, hly, -⟩ := (calls_mem param header y.env h {} y.req y.own).1 t₂ n hy
  let f : PageJob σ → List Call := fun j => (j.run param header h).2.1
  have hfx : f x = .contains t₁ n true :: .remove n :: lx := hlx
  have hfy : f y = .contains t₂ n true :: .remove n :: ly := hly
  obtain ⟨p, q, t, d, h1, -, h3⟩ := hh ((a.flatMap f ++ [.contains t₁ n true]) ++ .remove n :: (lx ++ b.flatMap f)) (.remove n :: ly ++ c.flatMap f) t₂ n
    (by
      show (a ++ x :: (b ++ y :: c)).flatMap f = _
      simp [hfx, hfy])
  have hin : Call.add t n d none ∈ lx ++ b.flatMap f := by
    rcases split_at (p := p) (q := q) (a := Call.add t n d none) (b := Call.remove n) h1.symm (by simp) with ⟨m, hm⟩ | hm
    · rw [hm] at h1
      simp only [List.append_assoc, List.cons_append, List.append_cancel_left_eq, List.cons.injEq, true_and] at h1
      exact absurd (by rw [← h1]; simp) h3
    · -- the removal of `x` is before the adding
      obtain ⟨p₁, p₂, rfl⟩ := List.append_of_mem hm
      rcases List.append_eq_append_iff.1 (show (a.flatMap f ++ [.contains t₁ n true]) ++ .remove n :: (lx ++ b.flatMap f) = (p₁ ++ .remove n :: p₂) ++ .add t n d none :: q from h1) with
        ⟨m, e1, e2⟩ | ⟨m, e1, e2⟩
      · cases m with
        | nil => simp at e2
        | cons y m =>
          simp only [List.cons_append, List.cons.injEq] at e2
          rw [e2.2]; simp
      · cases m with
        | nil => simp at e2
        | cons y m =>
          simp only [List.cons_append, List.cons.injEq] at e2
          exact absurd (by rw [e2.2]; simp) h3
  rcases List.mem_append.1 hin with hin | hin
  · have : Call.add t n d none ∈ f x := by rw [hfx]; simp [hin]
    obtain ⟨-, -, _, -, -, h6⟩ := (calls_mem param header x.env h {} x.req x.own).2 t n d this
    exact ⟨x, by simp, h6⟩
  · obtain ⟨z, hz, hz2⟩ := List.mem_flatMap.1 hin
    obtain ⟨-, -, _, -, -, h6⟩ := (calls_mem param header z.env h {} z.req z.own).2 t n d hz2
    exact ⟨z, by simp [hz], h6⟩

/-- A request to the login endpoints with everything it gets from outside. -/
inductive LoginJob (σ : Type)
  | start (now : Int) (addErr : Option Err) (state : Str) (req : Req)
  | back (now : Int) (says : Bool) (name : Str) (req : Req) (own : σ)

/-- Its calls. -/
def LoginJob.calls (cfg : OAuth.Config σ) (base : Str) (h : OAuth.OHandler σ ρ) : LoginJob σ → List Call
  | .start now e st req => (AnyCache.initiate cfg base now e st req).2
  | .back now says name req s => (AnyCache.callback cfg base now says name h req s).2.1

/-- C142 for logins: whatever honest cache is used and however requests interleave, a callback to which the cache says yes has a state with which
an earlier request was sent to a provider, within the configured time.  Without a yes neither the provider nor the handler is asked. -/
theorem c142_login (cfg : OAuth.Config σ) (base : Str) (h : OAuth.OHandler σ ρ) (jobs : List (LoginJob σ)) (record : List (Nat × Call))
    (hw : Woven (jobs.map (·.calls cfg base h)) record) (hh : Honest (record.map (·.2)))
    (pre post : List (Nat × Call)) (i : Nat) (now : Int) (st : Str) (heq : record = pre ++ (i, .contains now st true) :: post) :
    (∃ name req s, jobs[i]? = some (.back now true name req s) ∧ given req b!"state" = st) ∧
    ∃ i' t req p, jobs[i']? = some (.start t none st req) ∧ p ∈ cfg.providers ∧ now < t + cfg.keyExpiration ∧
      (i', Call.add t st cfg.keyExpiration none) ∈ pre ∧
      (AnyCache.initiate cfg base t none st req).1 = .ok (p.initiateUrl (cfg.websiteUrl ++ base ++ b!"/" ++ p.name) st cfg.fetchUserDetails) := by
  constructor
  · obtain ⟨l, h1, h2⟩ := woven_mem hw (i := i) (c := .contains now st true) (by simp [heq])
    rw [List.getElem?_map] at h1
    obtain ⟨j, h3, rfl⟩ := Option.map_eq_some_iff.1 h1
    cases j with
    | start t e s r =>
      simp only [LoginJob.calls, AnyCache.initiate] at h2
      split at h2
      · simp at h2
      · split at h2 <;> simp at h2
    | back t says name r s =>
      simp only [LoginJob.calls, AnyCache.callback] at h2
      split at h2
      · simp at h2
      · split at h2
        · simp at h2
        · split at h2
          · simp at h2
          · rename_i hs
            simp only [List.mem_singleton, Call.contains.injEq, and_true] at h2
            obtain ⟨rfl, rfl⟩ := h2
            have : says = true := by simpa using hs
            subst this
            exact ⟨name, r, s, h3, (formValue_given _ _).symm⟩
  · obtain ⟨p, q, t, d, h1, h2, -⟩ := hh (pre.map (·.2)) (post.map (·.2)) now st (by simp [heq])
    obtain ⟨x, hx, hx2⟩ := List.mem_map.1 (show Call.add t st d none ∈ pre.map (·.2) by simp [h1])
    obtain ⟨i', c⟩ := x
    dsimp only at hx2
    subst hx2
    obtain ⟨l, h3, h4⟩ := woven_mem hw (i := i') (c := .add t st d none) (by simp [heq, hx])
    rw [List.getElem?_map] at h3
    obtain ⟨j, h5, rfl⟩ := Option.map_eq_some_iff.1 h3
    cases j with
    | back t says name r s =>
      simp only [LoginJob.calls, AnyCache.callback] at h4
      split at h4
      · simp at h4
      · split at h4
        · simp at h4
        · split at h4 <;> simp at h4
    | start t' e s r =>
      simp only [LoginJob.calls, AnyCache.initiate] at h4
      cases hsel : OAuth.selectProvider cfg r with
      | error e => simp [hsel] at h4
      | ok p =>
        cases e with
        | some e => simp [hsel] at h4
        | none =>
          simp only [hsel, List.mem_singleton, Call.add.injEq, and_true] at h4
          obtain ⟨rfl, rfl, rfl⟩ := h4
          exact ⟨i', _, r, p, h5, (selectProvider_ok hsel).1, h2, hx, by simp [AnyCache.initiate, hsel, OAuth.redirectUrl, slash]⟩

/-- C142 for logins: a callback to which the cache does not say yes is refused; neither the provider nor the handler is asked. -/
theorem c142_login_refused (cfg : OAuth.Config σ) (base : Str) (now : Int) (name : Str) (h : OAuth.OHandler σ ρ) (req : Req) (s : σ) :
    ∃ e l, AnyCache.callback cfg base now false name h req s = (.ret none (some e), l, s) := by
  unfold AnyCache.callback
  split
  · exact ⟨_, _, rfl⟩
  · split
    · exact ⟨_, _, rfl⟩
    · exact ⟨_, _, rfl⟩

/-- C142: the in-memory cache is honest. -/
theorem c142_in_memory (calls : List Call) (c : Cache.Cache) (h : serve Cache.empty calls = some c) : Honest calls := by
  -- entries of a cache come from its record
  have inv : ∀ (l done : List Call) (m : Cache.Cache) (c : Cache.Cache),
      (∀ k e, Map.get? m k = some e → ∃ p q t d, done = p ++ .add t k d none :: q ∧ e = t + d ∧ Call.remove k ∉ q) →
      serve m l = some c → ∀ pre post now k, l = pre ++ .contains now k true :: post →
        ∃ p q t d, done ++ pre = p ++ .add t k d none :: q ∧ now < t + d ∧ Call.remove k ∉ q := by
    intro l
    induction l with
    | nil => intro done m c _ _ pre post now k he; simp at he
    | cons x l ih =>
      intro done m c hm hs pre post now k he
      cases pre with
      | nil =>
        simp only [List.nil_append, List.cons.injEq] at he
        obtain ⟨rfl, rfl⟩ := he
        simp only [serve] at hs
        split at hs
        · rename_i hc
          unfold Cache.contains at hc
          split at hc
          · rename_i e hg
            obtain ⟨p, q, t, d, h1, h2, h3⟩ := hm k e hg
            exact ⟨p, q, t, d, by simp [h1], by rw [← h2]; simpa using hc, h3⟩
          · cases hc
        · cases hs
      | cons x' pre =>
        simp only [List.cons_append, List.cons.injEq] at he
        obtain ⟨rfl, he⟩ := he
        have next : ∀ m' : Cache.Cache,
            (∀ k e, Map.get? m' k = some e → ∃ p q t d, done ++ [x] = p ++ .add t k d none :: q ∧ e = t + d ∧ Call.remove k ∉ q) →
            serve m' l = some c → ∃ p q t d, done ++ x :: pre = p ++ .add t k d none :: q ∧ now < t + d ∧ Call.remove k ∉ q := by
          intro m' hm' hs'
          obtain ⟨p, q, t, d, h1, h2⟩ := ih (done ++ [x]) m' c hm' hs' pre post now k he
          exact ⟨p, q, t, d, by simpa using h1, h2⟩
        cases x with
        | contains t₀ k₀ ans =>
          simp only [serve] at hs
          split at hs
          · refine next m (fun k' e hg => ?_) hs
            obtain ⟨p, q, t, d, h1, h2, h3⟩ := hm k' e hg
            exact ⟨p, q ++ [.contains t₀ k₀ ans], t, d, by simp [h1], h2, by simp [h3]⟩
          · cases hs
        | remove k₀ =>
          simp only [serve] at hs
          refine next _ (fun k' e hg => ?_) hs
          by_cases hk : k' = k₀
          · subst hk; simp [Cache.remove, Map.get?_erase_same] at hg
          · rw [Cache.remove, Map.get?_erase_other _ _ _ hk] at hg
            obtain ⟨p, q, t, d, h1, h2, h3⟩ := hm k' e hg
            exact ⟨p, q ++ [.remove k₀], t, d, by simp [h1], h2, by simp [h3, hk]⟩
        | add t₀ k₀ d₀ err =>
          simp only [serve] at hs
          split at hs
          · rename_i herr
            subst herr
            refine next _ (fun k' e hg => ?_) hs
            by_cases hk : k' = k₀
            · subst hk
              simp only [Cache.add, Map.get?_set_same, Option.some.injEq] at hg
              exact ⟨done, [], t₀, d₀, rfl, hg.symm, by simp⟩
            · rw [Cache.add, Map.get?_set_other _ _ _ _ hk] at hg
              obtain ⟨p, q, t, d, h1, h2, h3⟩ := hm k' e hg
              exact ⟨p, q ++ [.add t₀ k₀ d₀ none], t, d, by simp [h1], h2, by simp [h3]⟩
          · cases hs
  intro pre post now k he
  have := inv calls [] Cache.empty c (by intro k e hg; simp [Cache.empty, Map.get?] at hg) h pre post now k he
  simpa using this

/-- With the answers of the in-memory cache the middleware does what it does over that cache (C39), and the cache ends up the same. -/
theorem c142_refines (param header : Str) (env : Csrf.Env) (h : Handler σ ρ) (ctx : Ctx) (req : Req) (c : Cache.Cache) (s : σ) :
    let r := AnyCache.csrf param header
      ⟨env.tCheck, env.tAdd, env.rnd, Cache.contains c env.tCheck (Csrf.previousNonce param header req), none⟩ h ctx req s
    ∃ c', serve c r.2.1 = some c' ∧ Csrf.csrf param header env h ctx req c s = (r.1, c', r.2.2) := by
  intro r
  simp only [r, AnyCache.csrf, Csrf.csrf, AnyCache.issue, Csrf.issue]
  cases hs : Csrf.skipCheck req.method with
  | true => cases hr : env.rnd <;> simp [serve]
  | false =>
    by_cases h0 : Csrf.previousNonce param header req = []
    · simp [h0, serve]
    · cases hc : Cache.contains c env.tCheck (Csrf.previousNonce param header req) with
      | false => simp [h0, serve, hc]
      | true => cases hr : env.rnd <;> simp [h0, serve, hc]

/-- The same for the login endpoints (C43). -/
theorem c142_refines_login (cfg : OAuth.Config σ) (base : Str) (now : Int) (st name : Str) (h : OAuth.OHandler σ ρ) (req : Req) (c : Cache.Cache) (s : σ) :
    (∃ c', serve c (AnyCache.initiate cfg base now none st req).2 = some c' ∧
      OAuth.initiate cfg base now st req (some c) = ((AnyCache.initiate cfg base now none st req).1, some c')) ∧
    (let r := AnyCache.callback cfg base now (Cache.contains c now (given req b!"state")) name h req s
     serve c r.2.1 = some c ∧ OAuth.callback cfg base now name h {} req (some c) s = (r.1, r.2.2)) := by
  constructor
  · unfold AnyCache.initiate OAuth.initiate
    cases OAuth.selectProvider cfg req with
    | error e => exact ⟨c, rfl, rfl⟩
    | ok p => exact ⟨_, rfl, rfl⟩
  · intro r
    simp only [r, AnyCache.callback, ← formValue_given]
    cases hp : OAuth.byName cfg.providers name with
    | none => simp [OAuth.callback, hp, serve]
    | some p =>
      by_cases he : req.formValue b!"error" = []
      · cases hc : Cache.contains c now (req.formValue b!"state") with
        | false => simp [OAuth.callback, hp, he, hc, serve]
        | true => simp [OAuth.callback, hp, he, hc, serve]
      · simp [OAuth.callback, hp, he, serve]

/-! ### C143 -/

/-- C143 fails whenever a request that was let in gets no new nonce: the handler is not called, but the nonce is removed, and as long as no handler
is called with it anew, an honest cache says yes to no later request that carries it. -/
theorem c143_violated_never (param header : Str) (h : Handler σ ρ) (a b c : List (PageJob σ)) (x : PageJob σ) (n : Str)
    (hx : ¬ SafeMethod x.req.method) (hc : Carries param header x.req n) (hs : x.env.says = true) (hf : x.env.rnd = none ∨ x.env.addErr ≠ none) :
    (∃ e, (x.run param header h).1 = .ret none (some e) ∧ (x.run param header h).2.2 = x.own) ∧
    Call.remove n ∈ (x.run param header h).2.1 ∧
    ∀ y, Carries param header y.req n → ¬ SafeMethod y.req.method →
      Honest ((a ++ x :: (b ++ y :: c)).flatMap fun j => (j.run param header h).2.1) →
      (∀ z ∈ b, ∀ bytes, z.env.rnd = some bytes → Csrf.hex bytes ≠ n) → y.env.says = false := by
  have hne : n ≠ [] := by cases hc <;> assumption
  have notSafe : ∀ j : PageJob σ, ¬ SafeMethod j.req.method → Csrf.skipCheck j.req.method = false := by
    intro j hm
    cases hk : Csrf.skipCheck j.req.method with
    | false => rfl
    | true => exact absurd ((skipCheck_iff _).1 hk) hm
  have hp := (previousNonce_iff param header x.req n hne).2 hc
  have hrun : x.run param header h = AnyCache.issue x.env h {} x.req [.contains x.env.tCheck n true, .remove n] x.own := by
    simp [PageJob.run, AnyCache.csrf, notSafe x hx, hp, hne, hs]
  have hfail : ∃ e l, x.run param header h = (.ret none (some e), .contains x.env.tCheck n true :: .remove n :: l, x.own) ∧
      ∀ t k d, Call.add t k d none ∉ l := by
    rw [hrun]
    unfold AnyCache.issue
    cases hr : x.env.rnd with
    | none => exact ⟨_, [], rfl, by simp⟩
    | some bytes =>
      cases he : x.env.addErr with
      | none => rcases hf with hf | hf <;> simp_all
      | some e => exact ⟨e, [_], rfl, by simp⟩
  obtain ⟨e, l, h1, h2⟩ := hfail
  refine ⟨⟨e, by rw [h1], by rw [h1]⟩, by rw [h1]; simp, ?_⟩
  intro y hcy hmy hh hb
  cases hsy : y.env.says with
  | false => rfl
  | true =>
    exfalso
    have hpy := (previousNonce_iff param header y.req n hne).2 hcy
    have hy : Call.contains y.env.tCheck n true ∈ (y.run param header h).2.1 := by
      have : y.run param header h = AnyCache.issue y.env h {} y.req [.contains y.env.tCheck n true, .remove n] y.own := by
        simp [PageJob.run, AnyCache.csrf, notSafe y hmy, hpy, hne, hsy]
      rw [this]
      unfold AnyCache.issue
      cases y.env.rnd with
      | none => simp
      | some bytes => cases y.env.addErr <;> simp
    have hx' : Call.contains x.env.tCheck n true ∈ (x.run param header h).2.1 := by rw [h1]; simp
    -- as in `c142_once`, but looking at the calls
    obtain ⟨-, -, -, ly, hly, -⟩ := (calls_mem param header y.env h {} y.req y.own).1 _ n hy
    let f : PageJob σ → List Call := fun j => (j.run param header h).2.1
    have hfx : f x = .contains x.env.tCheck n true :: .remove n :: l := by show (x.run param header h).2.1 = _; rw [h1]
    have hfy : f y = .contains y.env.tCheck n true :: .remove n :: ly := hly
    have hno : ∀ t d, Call.add t n d none ∉ l ++ b.flatMap f := by
      intro t d hm
      rcases List.mem_append.1 hm with hm | hm
      · exact h2 t n d hm
      · obtain ⟨z, hz, hz2⟩ := List.mem_flatMap.1 hm
        obtain ⟨-, -, bytes, h5, h6, -⟩ := (calls_mem param header z.env h {} z.req z.own).2 t n d hz2
        exact hb z hz bytes h5 h6.symm
    obtain ⟨p, q, t, d, g1, -, g3⟩ := hh ((a.flatMap f ++ [.contains x.env.tCheck n true]) ++ .remove n :: (l ++ b.flatMap f))
      (.remove n :: ly ++ c.flatMap f) y.env.tCheck n
      (by
        show (a ++ x :: (b ++ y :: c)).flatMap f = _
        simp [hfx, hfy])
    rcases List.append_eq_append_iff.1 g1 with ⟨m, e1, e2⟩ | ⟨m, e1, e2⟩
    · cases m with
      | nil => simp at e2
      | cons w m =>
        simp only [List.cons_append, List.cons.injEq] at e2
        exact hno t d (by rw [e2.2]; simp)
    · cases m with
      | nil => simp at e2
      | cons w m =>
        simp only [List.cons_append, List.cons.injEq] at e2
        exact g3 (by rw [e2.2]; simp)

/-- C143, what holds: a request that is refused at the check, or fails before it, removes nothing. -/
theorem c143_refused_partial (param header : Str) (h : Handler σ ρ) (j : PageJob σ) (hj : SafeMethod j.req.method ∨ j.env.says = false) (n : Str) :
    Call.remove n ∉ (j.run param header h).2.1 := by
  unfold PageJob.run
  rcases c142_guard param header j.env h {} j.req j.own with ⟨hm, l, hl, he⟩ | ⟨hr, l, e, hl, he⟩ | ⟨bytes, e, l, hr, ha, hl, he⟩ | ⟨bytes, l, hr, ha, hl, he⟩
  all_goals rw [he]
  · rcases hl with rfl | ⟨n, -, -, rfl⟩ <;> simp
  · rcases hl with ⟨-, rfl⟩ | ⟨k, hm, -, hs, -⟩
    · simp
    · rcases hj with hj | hj
      · exact absurd hj hm
      · rw [hj] at hs; cases hs
  · rcases hl with ⟨-, rfl⟩ | ⟨k, hm, -, hs, -⟩
    · simp
    · rcases hj with hj | hj
      · exact absurd hj hm
      · rw [hj] at hs; cases hs
  · rcases hl with ⟨-, rfl⟩ | ⟨k, hm, -, hs, -⟩
    · simp
    · rcases hj with hj | hj
      · exact absurd hj hm
      · rw [hj] at hs; cases hs

/-- A page view that issues the nonce `AB`. -/
def viewAB : PageJob Nat := ⟨{ method := b!"GET" }, ⟨0, 0, some [0xab], false, none⟩, 0⟩

/-- A POST with that nonce, let in; the cache does not take the new one. -/
def postFails (says : Bool) : PageJob Nat :=
  ⟨{ method := b!"POST", headers := [(b!"X-Csrf-Token", [b!"AB"])] }, ⟨1, 1, some [0xcd], says, some (.other b!"timeout")⟩, 0⟩

/-- The same POST with a cache that takes the new nonce. -/
def postWorks (says : Bool) : PageJob Nat :=
  ⟨{ method := b!"POST", headers := [(b!"X-Csrf-Token", [b!"AB"])] }, ⟨1, 1, some [0xcd], says, none⟩, 0⟩

/-- A handler that answers 7. -/
def answers7 : Handler Nat Nat := fun _ _ s => (.ret (some 7) none, s + 1)

/-- C143 fails: a POST is let in, the cache is unreachable when the new nonce is to be stored, and the same POST sent again is refused although its handler was never called. -/
theorem c143_violated :
    ((postFails true).run b!"_csrf" b!"X-Csrf-Token" answers7).1 = .ret none (some (.other b!"timeout")) ∧
    ((postFails true).run b!"_csrf" b!"X-Csrf-Token" answers7).2.2 = 0 ∧
    ∀ says, Honest ([viewAB, postFails true, postWorks says].flatMap fun j => (j.run b!"_csrf" b!"X-Csrf-Token" answers7).2.1) →
      ((postWorks says).run b!"_csrf" b!"X-Csrf-Token" answers7).1 = .ret none (some .accessDenied) := by
  refine ⟨by decide +kernel, by decide +kernel, fun says hh => ?_⟩
  have := (c143_violated_never b!"_csrf" b!"X-Csrf-Token" answers7 [viewAB] [] [] (postFails true) b!"AB"
    (by decide) (.hdr _ [] (by decide) (by decide)) rfl (.inr (by simp [postFails]))).2.2 (postWorks says)
    (.hdr _ [] (by cases says <;> decide) (by decide)) (by cases says <;> decide) hh (by simp)
  have hs : says = false := this
  subst hs
  decide +kernel

/-- The record of a view and a POST over the in-memory cache: honest, and the POST is let in. -/
example : (serve Cache.empty ([viewAB, postWorks true].flatMap fun j => (j.run b!"_csrf" b!"X-Csrf-Token" answers7).2.1)).isSome = true ∧
    ((postWorks true).run b!"_csrf" b!"X-Csrf-Token" answers7).1 = .ret (some 7) none := by decide +kernel

/-- A record in which the two are woven: the view, then the POST. -/
example : Woven ([viewAB, postWorks true].map fun j => (j.run b!"_csrf" b!"X-Csrf-Token" answers7).2.1)
    [(0, .add 0 b!"AB" anHour none), (1, .contains 1 b!"AB" true), (1, .remove b!"AB")] ∧
    Honest [.add 0 b!"AB" anHour none, .contains 1 b!"AB" true, .remove b!"AB"] := by
  constructor
  · intro i c hm
    simp only [List.mem_cons, Prod.mk.injEq, List.not_mem_nil, or_false] at hm
    rcases hm with ⟨rfl, rfl⟩ | ⟨rfl, rfl⟩ | ⟨rfl, rfl⟩
    · exact ⟨[.add 0 b!"AB" anHour none], by decide +kernel, by decide +kernel⟩
    · exact ⟨[.contains 1 b!"AB" true, .remove b!"AB", .add 1 b!"CD" anHour none], by decide +kernel, by decide +kernel⟩
    · exact ⟨[.contains 1 b!"AB" true, .remove b!"AB", .add 1 b!"CD" anHour none], by decide +kernel, by decide +kernel⟩
  · exact c142_in_memory _ [] (by decide +kernel)

/-- A configuration with one provider. -/
def oneProvider : OAuth.Config Nat where
  websiteUrl := b!"https://x"
  fetchUserDetails := false
  providers := [⟨b!"github", fun _ st _ => st, fun _ code s => (.ok { accessToken := code, tokenType := b!"bearer" }, s), fun _ s => (.err .unauthorized, s)⟩]
  keyExpiration := 60

/-- A login over the in-memory cache: the start stores the state, the callback asks for it. -/
example :
    let jobs : List (LoginJob Nat) := [.start 0 none b!"abc" { method := b!"GET" }, .back 5 true b!"github" { method := b!"GET", form := [(b!"state", [b!"abc"])] } 0]
    let record : List (Nat × Call) := [(0, .add 0 b!"abc" 60 none), (1, .contains 5 b!"abc" true)]
    Woven (jobs.map (·.calls oneProvider b!"/a" (fun _ _ s => (.ret (some 1) none, s)))) record ∧ Honest (record.map (·.2)) := by
  constructor
  · intro i c hm
    simp only [List.mem_cons, Prod.mk.injEq, List.not_mem_nil, or_false] at hm
    rcases hm with ⟨rfl, rfl⟩ | ⟨rfl, rfl⟩
    · exact ⟨[.add 0 b!"abc" 60 none], by decide +kernel, by decide +kernel⟩
    · exact ⟨[.contains 5 b!"abc" true], by decide +kernel, by decide +kernel⟩
  · exact c142_in_memory _ [(b!"abc", 60)] (by decide +kernel)

end Gofre.Props
