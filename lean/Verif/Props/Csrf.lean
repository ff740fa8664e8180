import Verif.Proofs.Cache
import Verif.Model.Csrf

/-! # C39–C42, C68: CSRF protection -/

namespace Gofre.Props
open Gofre.Cache Gofre.Csrf
variable {σ ρ : Type}

/-- Methods that do not change state. -/
abbrev SafeMethod (m : Str) : Prop := m ∈ [b!"GET", b!"HEAD", b!"TRACE", b!"OPTIONS"]

/-- An hour in nanoseconds. -/
def anHour : Int := 3600000000000

theorem expiration_hour : expiration = anHour := rfl

/-- The nonce a request carries: the header if it is there, in whatever spelling it was
configured, else the parsed form field. -/
inductive Carries (param header : Str) (r : Req) : Str → Prop
  | hdr (n : Str) (vs) : Map.get? r.headers (Http.canonicalKey header) = some (n :: vs) → n ≠ [] → Carries param header r n
  | fld (n : Str) (vs) : (∀ m ms, Map.get? r.headers (Http.canonicalKey header) = some (m :: ms) → m = []) →
      r.formParsed = true → Map.get? r.form param = some (n :: vs) → n ≠ [] → Carries param header r n

theorem skipCheck_iff (m : Str) : skipCheck m = true ↔ SafeMethod m := by
  simp [skipCheck, SafeMethod, or_assoc]

theorem getFirst_ne_nil {m : Map (List Str)} {k n : Str} (h : n ≠ []) :
    getFirst m k = n ↔ ∃ vs, Map.get? m k = some (n :: vs) := by
  unfold getFirst
  split
  · rename_i v vs heq; simp [heq]
  · rename_i hno
    constructor
    · intro h'; exact absurd h'.symm h
    · rintro ⟨vs, hv⟩; exact absurd hv (hno n vs)

theorem getFirst_nil_iff {m : Map (List Str)} {k : Str} :
    getFirst m k = [] ↔ ∀ v vs, Map.get? m k = some (v :: vs) → v = [] := by
  unfold getFirst
  split
  · rename_i v vs heq
    constructor
    · intro h v' vs' h'; rw [heq] at h'; simp at h'; rw [← h'.1, h]
    · intro h; exact h v vs heq
  · rename_i hno
    simp only [true_iff]
    intro v vs h; exact absurd h (hno v vs)

theorem previousNonce_iff (param header : Str) (r : Req) (n : Str) (h : n ≠ []) :
    previousNonce param header r = n ↔ Carries param header r n := by
  simp only [previousNonce]
  constructor
  · intro hp
    split at hp
    · rename_i h0
      unfold Req.formGet at hp
      split at hp
      · rename_i hf
        obtain ⟨vs, hv⟩ := (getFirst_ne_nil h).1 hp
        exact .fld n vs (getFirst_nil_iff.1 h0) hf hv h
      · exact absurd hp.symm h
    · obtain ⟨vs, hv⟩ := (getFirst_ne_nil h).1 hp
      exact .hdr n vs hv h
  · intro hc
    cases hc with
    | hdr vs hv _ =>
      have := (getFirst_ne_nil h).2 ⟨vs, hv⟩
      rw [this, if_neg h]
    | fld vs h0 hf hv _ =>
      rw [if_pos (getFirst_nil_iff.2 h0)]
      simp [Req.formGet, hf, (getFirst_ne_nil h).2 ⟨vs, hv⟩]

/-- C39.  A request with a state-changing method that does not carry a nonce which is in the
cache and unexpired is refused: the handler does not run (its state is untouched), the cache
is unchanged, no nonce is issued. -/
theorem c39_unguarded_refused (param header : Str) (env : Env) (h : Handler σ ρ) (ctx : Ctx)
    (req : Req) (c : Cache) (s : σ) (hm : ¬ SafeMethod req.method)
    (hn : ¬ ∃ n, Carries param header req n ∧ contains c env.tCheck n = true) :
    csrf param header env h ctx req c s = (.ret none (some .accessDenied), c, s) := by
  have hs : skipCheck req.method = false := by
    cases hk : skipCheck req.method with
    | false => rfl
    | true => exact absurd ((skipCheck_iff _).1 hk) hm
  simp only [csrf, hs, Bool.false_eq_true, if_false]
  rw [if_pos]
  by_cases h0 : previousNonce param header req = []
  · simp [h0]
  · simp only [Bool.or_eq_true, decide_eq_true_eq, Bool.not_eq_true', h0, false_or]
    cases hc : contains c env.tCheck (previousNonce param header req) with
    | false => rfl
    | true => exact absurd ⟨_, (previousNonce_iff _ _ _ _ h0).1 rfl, hc⟩ hn

/-- C39, the accepting side: with a live nonce the nonce is spent, a new one is stored for an
hour and shown to the handler, and the result is the handler's. -/
theorem c39_guarded_accepted (param header : Str) (env : Env) (h : Handler σ ρ) (ctx : Ctx)
    (req : Req) (c : Cache) (s : σ) (hm : ¬ SafeMethod req.method) (n : Str)
    (hn : Carries param header req n) (hc : contains c env.tCheck n = true)
    (bytes : List UInt8) (hr : env.rnd = some bytes) :
    csrf param header env h ctx req c s =
      ((h { ctx with nonce := some (hex bytes) } req s).1,
        add (remove c n) env.tAdd (hex bytes) anHour,
        (h { ctx with nonce := some (hex bytes) } req s).2) := by
  have hs : skipCheck req.method = false := by
    cases hk : skipCheck req.method with
    | false => rfl
    | true => exact absurd ((skipCheck_iff _).1 hk) hm
  have hne : n ≠ [] := by cases hn <;> assumption
  have hp := (previousNonce_iff param header req n hne).2 hn
  simp [csrf, hs, hp, hne, hc, issue, hr, expiration_hour]

/-- C39, safe methods always reach the handler with a fresh nonce, unless the random source
fails. -/
theorem c39_safe_methods (param header : Str) (env : Env) (h : Handler σ ρ) (ctx : Ctx)
    (req : Req) (c : Cache) (s : σ) (hm : SafeMethod req.method)
    (bytes : List UInt8) (hr : env.rnd = some bytes) :
    csrf param header env h ctx req c s =
      ((h { ctx with nonce := some (hex bytes) } req s).1,
        add c env.tAdd (hex bytes) anHour,
        (h { ctx with nonce := some (hex bytes) } req s).2) := by
  simp [csrf, (skipCheck_iff _).2 hm, issue, hr, expiration_hour]

/-- C39: when no randomness is available no request reaches the handler. -/
theorem c39_no_randomness (param header : Str) (env : Env) (h : Handler σ ρ) (ctx : Ctx)
    (req : Req) (c : Cache) (s : σ) (hr : env.rnd = none) :
    ∃ e c', csrf param header env h ctx req c s = (.ret none (some e), c', s) := by
  unfold csrf issue
  rw [hr]
  split
  · exact ⟨_, _, rfl⟩
  · dsimp only
    split <;> exact ⟨_, _, rfl⟩

/-- C39 for `CSRFPrevention`: a request with a state-changing method reaches the handler exactly when its header `X-Csrf-Token`, or its parsed
form field `_csrf` if there is no such header, is a live nonce (and randomness is available). -/
theorem c39_default (env : Env) (h : Handler σ ρ) (ctx : Ctx) (req : Req) (c : Cache) (s : σ) (hm : ¬ SafeMethod req.method) (bytes : List UInt8) (hr : env.rnd = some bytes) :
    (∃ n, ((∃ vs, Map.get? req.headers b!"X-Csrf-Token" = some (n :: vs)) ∨
        (∀ m ms, Map.get? req.headers b!"X-Csrf-Token" = some (m :: ms) → m = []) ∧ req.formParsed = true ∧ ∃ vs, Map.get? req.form b!"_csrf" = some (n :: vs)) ∧
        n ≠ [] ∧ contains c env.tCheck n = true ∧
        csrfPrevention env h ctx req c s = ((h { ctx with nonce := some (hex bytes) } req s).1, add (remove c n) env.tAdd (hex bytes) anHour, (h { ctx with nonce := some (hex bytes) } req s).2)) ∨
    (¬ ∃ n, ((∃ vs, Map.get? req.headers b!"X-Csrf-Token" = some (n :: vs)) ∨
        (∀ m ms, Map.get? req.headers b!"X-Csrf-Token" = some (m :: ms) → m = []) ∧ req.formParsed = true ∧ ∃ vs, Map.get? req.form b!"_csrf" = some (n :: vs)) ∧
        n ≠ [] ∧ contains c env.tCheck n = true) ∧ csrfPrevention env h ctx req c s = (.ret none (some .accessDenied), c, s) := by
  have hk : Http.canonicalKey b!"X-Csrf-Token" = b!"X-Csrf-Token" := by decide
  have hc : ∀ n, Carries b!"_csrf" b!"X-Csrf-Token" req n ↔ ((∃ vs, Map.get? req.headers b!"X-Csrf-Token" = some (n :: vs)) ∨
        (∀ m ms, Map.get? req.headers b!"X-Csrf-Token" = some (m :: ms) → m = []) ∧ req.formParsed = true ∧ ∃ vs, Map.get? req.form b!"_csrf" = some (n :: vs)) ∧ n ≠ [] := by
    intro n
    constructor
    · intro h
      cases h with
      | hdr vs h1 h2 => exact ⟨.inl ⟨vs, hk ▸ h1⟩, h2⟩
      | fld vs h1 h2 h3 h4 => exact ⟨.inr ⟨hk ▸ h1, h2, vs, h3⟩, h4⟩
    · rintro ⟨⟨vs, h1⟩ | ⟨h1, h2, vs, h3⟩, h4⟩
      · exact .hdr _ vs (hk.symm ▸ h1) h4
      · exact .fld _ vs (hk.symm ▸ h1) h2 h3 h4
  by_cases hn : ∃ n, Carries b!"_csrf" b!"X-Csrf-Token" req n ∧ contains c env.tCheck n = true
  · obtain ⟨n, h1, h2⟩ := hn
    have h3 := (hc n).1 h1
    exact .inl ⟨n, h3.1, h3.2, h2, c39_guarded_accepted _ _ env h ctx req c s hm n h1 h2 bytes hr⟩
  · exact .inr ⟨fun ⟨n, h1, h2, h3⟩ => hn ⟨n, (hc n).2 ⟨h1, h2⟩, h3⟩, c39_unguarded_refused _ _ env h ctx req c s hm hn⟩

example : ¬ SafeMethod b!"POST" ∧
    Carries b!"_csrf" b!"X-Csrf-Token"
      { method := b!"POST", headers := [(b!"X-Csrf-Token", [b!"AB"])] } b!"AB" :=
  ⟨by decide, .hdr _ [] (by decide) (by decide)⟩

/-! ### C68: a nonce sent as a form field -/

/-- C68 fails: nothing in the framework parses the form before the middleware reads it, so a
POST whose form contains a live nonce in the documented field is refused. -/
theorem c68_violated :
    ∃ (req : Req) (c : Cache) (env : Env) (n : Str),
      req.formParsed = false ∧ req.method = b!"POST" ∧ Map.get? req.form b!"_csrf" = some [n] ∧
      contains c env.tCheck n = true ∧
      ∀ (h : Handler Nat Nat) ctx s,
        csrf b!"_csrf" b!"X-Csrf-Token" env h ctx req c s = (.ret none (some .accessDenied), c, s) :=
  ⟨{ method := b!"POST", form := [(b!"_csrf", [b!"AB"])] }, [(b!"AB", 10)], ⟨0, 0, some [1]⟩, b!"AB",
    rfl, rfl, by decide, by decide, fun h ctx s => by
      apply c39_unguarded_refused
      · decide
      · rintro ⟨n, hc, -⟩
        cases hc with
        | hdr vs hv _ => simp [Map.get?] at hv
        | fld vs h0 hf hv _ => simp at hf⟩

/-- C68 when an earlier middleware has parsed the form: the field is honoured. -/
theorem c68_parsed_form_partial (param header : Str) (env : Env) (h : Handler σ ρ) (ctx : Ctx)
    (req : Req) (c : Cache) (s : σ) (hm : ¬ SafeMethod req.method) (n : Str) (vs)
    (hp : req.formParsed = true) (hh : Map.get? req.headers (Http.canonicalKey header) = none)
    (hf : Map.get? req.form param = some (n :: vs)) (hne : n ≠ [])
    (hc : contains c env.tCheck n = true) (bytes : List UInt8) (hr : env.rnd = some bytes) :
    (csrf param header env h ctx req c s).1 = (h { ctx with nonce := some (hex bytes) } req s).1 := by
  rw [c39_guarded_accepted param header env h ctx req c s hm n
    (.fld n vs (by simp [hh]) hp hf hne) hc bytes hr]

/-! ### C40: single use, sequentially -/

/-- What an observer inside the handler sees of one request: the nonce the request spent (for
state-changing methods) and the nonce issued to it. -/
structure Seen where
  spent : Option Str
  issued : Option Str
  deriving DecidableEq, Repr

/-- A handler that only records requests reaching it. -/
def recorder (param header : Str) : Handler (List Seen) Unit := fun ctx req log =>
  (.ret (some ()) none,
    log ++ [⟨if skipCheck req.method then none else some (previousNonce param header req), ctx.nonce⟩])

/-- Bookkeeping invariant: a nonce in the cache was either never spent or has been issued
after it was last spent. -/
def Fresh (c : Cache) (log : List Seen) : Prop :=
  ∀ n : Str, Map.get? c n ≠ none →
    (∀ x ∈ log, x.spent ≠ some n) ∨
    ∃ pre x suf, log = pre ++ x :: suf ∧ x.issued = some n ∧ ∀ y ∈ suf, y.spent ≠ some n

theorem fresh_snoc {c : Cache} {log : List Seen} (hf : Fresh c log) (c' : Cache) (x : Seen) (m : Str)
    (hx : x.issued = some m)
    (hc' : ∀ n, Map.get? c' n ≠ none → n = m ∨ (Map.get? c n ≠ none ∧ x.spent ≠ some n)) :
    Fresh c' (log ++ [x]) := by
  intro n hn
  rcases hc' n hn with rfl | ⟨h1, h2⟩
  · exact .inr ⟨log, x, [], rfl, hx, by simp⟩
  · rcases hf n h1 with h | ⟨pre, y, suf, h3, h4, h5⟩
    · left
      intro y hy
      rcases List.mem_append.1 hy with hy | hy
      · exact h y hy
      · rw [List.mem_singleton.1 hy]; exact h2
    · right
      refine ⟨pre, y, suf ++ [x], by simp [h3], h4, ?_⟩
      intro z hz
      rcases List.mem_append.1 hz with hz | hz
      · exact h5 z hz
      · rw [List.mem_singleton.1 hz]; exact h2

/-- Between two uses of a nonce it was issued again. -/
def SingleUse (log : List Seen) : Prop :=
  ∀ (i j : Nat) (x y : Seen) (n : Str), log[i]? = some x → log[j]? = some y → i < j →
    x.spent = some n → y.spent = some n →
    ∃ (k : Nat) (z : Seen), i ≤ k ∧ k < j ∧ log[k]? = some z ∧ z.issued = some n

theorem singleUse_snoc {log : List Seen} (h : SingleUse log) (x : Seen)
    (hx : ∀ n, x.spent = some n → (∀ y ∈ log, y.spent ≠ some n) ∨
      ∃ pre y suf, log = pre ++ y :: suf ∧ y.issued = some n ∧ ∀ z ∈ suf, z.spent ≠ some n) :
    SingleUse (log ++ [x]) := by
  intro i j a b n ha hb hij hsa hsb
  by_cases hj : j < log.length
  · have hi : i < log.length := by omega
    rw [List.getElem?_append_left hi] at ha
    rw [List.getElem?_append_left hj] at hb
    obtain ⟨k, z, h1, h2, h3, h4⟩ := h i j a b n ha hb hij hsa hsb
    exact ⟨k, z, h1, h2, by rw [List.getElem?_append_left (by omega)]; exact h3, h4⟩
  · have hjl : j < (log ++ [x]).length := by
      rcases List.getElem?_eq_some_iff.1 hb with ⟨h, -⟩; exact h
    have hj' : j = log.length := by simp at hjl; omega
    have hi : i < log.length := by omega
    rw [List.getElem?_append_left hi] at ha
    have hbx : b = x := by
      rw [hj'] at hb; simpa using hb.symm
    subst hbx
    rcases hx n hsb with h | ⟨pre, y, suf, h1, h2, h3⟩
    · exact absurd hsa (h a (List.mem_of_getElem? ha))
    · refine ⟨pre.length, y, ?_, ?_, ?_, h2⟩
      · refine Decidable.byContradiction fun hlt => ?_
        have hlt : pre.length < i := by omega
        rw [h1, List.getElem?_append_right (by omega)] at ha
        obtain ⟨d, hd⟩ : ∃ d, i - pre.length = d + 1 := ⟨i - pre.length - 1, by omega⟩
        rw [hd, List.getElem?_cons_succ] at ha
        exact h3 a (List.mem_of_getElem? ha) hsa
      · rw [hj', h1]; simp
      · rw [h1]; simp

theorem runSeq_inv (param header : Str) (ctx : Ctx) (rs : List (Req × Env)) (c : Cache)
    (log : List Seen) (hf : Fresh c log) (hs : SingleUse log) :
    SingleUse (runSeq param header (recorder param header) ctx rs (c, log)).2 := by
  induction rs generalizing c log with
  | nil => exact hs
  | cons re rs ih =>
    rcases re with ⟨r, e⟩
    simp only [runSeq]
    have main : ∀ c₀ : Cache, (∀ n, Map.get? c₀ n ≠ none → Map.get? c n ≠ none) →
        (skipCheck r.method = false → Map.get? c₀ (previousNonce param header r) = none ∧
          Map.get? c (previousNonce param header r) ≠ none) →
        SingleUse (runSeq param header (recorder param header) ctx rs
          (issue e (recorder param header) ctx r c₀ log).2).2 := by
      intro c₀ hsub hsp
      unfold issue
      cases hr : e.rnd with
      | none =>
        exact ih c₀ log (fun n hn => hf n (hsub n hn)) hs
      | some bytes =>
        simp only [recorder]
        apply ih
        · apply fresh_snoc hf _ _ (hex bytes) rfl
          intro n hn
          by_cases hnm : n = hex bytes
          · exact .inl hnm
          · right
            simp only [add, Map.get?_set_other _ _ _ _ hnm] at hn
            refine ⟨hsub n hn, ?_⟩
            dsimp only
            split
            · simp
            · rename_i hk
              intro heq
              simp only [Option.some.injEq] at heq
              exact hn (by rw [← heq]; exact (hsp (by simpa using hk)).1)
        · apply singleUse_snoc hs
          intro n hn
          dsimp only at hn
          split at hn
          · simp at hn
          · rename_i hk
            simp only [Option.some.injEq] at hn
            have := (hsp (by simpa using hk)).2
            rw [hn] at this
            exact hf n this
    unfold csrf
    split
    · rename_i hk
      exact main c (fun n hn => hn) (by simp [hk])
    · dsimp only
      split
      · exact ih c log hf hs
      · rename_i hk hc
        apply main
        · intro n hn
          by_cases hnp : n = previousNonce param header r
          · subst hnp; exact absurd (Map.get?_erase_same c _) hn
          · simpa [remove, Map.get?_erase_other _ _ _ hnp] using hn
        · intro _
          refine ⟨Map.get?_erase_same c _, ?_⟩
          simp only [Bool.or_eq_true, Bool.not_eq_true', not_or, Bool.not_eq_false,
            decide_eq_true_eq] at hc
          intro hnone
          simp [contains, hnone] at hc

/-- A handler that only notes the requests reaching it, each with the nonce issued to it. -/
def visits : Handler (List (Req × Option Str)) Unit := fun ctx req log => (.ret (some ()) none, log ++ [(req, ctx.nonce)])

/-- Of two state-changing requests in the log which carry one nonce, the earlier one or one between them was issued it again. -/
def SpentOnce (param header : Str) (log : List (Req × Option Str)) : Prop :=
  ∀ (i j : Nat) (x y : Req × Option Str) (n : Str), log[i]? = some x → log[j]? = some y → i < j →
    ¬ SafeMethod x.1.method → ¬ SafeMethod y.1.method → Carries param header x.1 n → Carries param header y.1 n →
    ∃ (k : Nat) (z : Req × Option Str), i ≤ k ∧ k < j ∧ log[k]? = some z ∧ z.2 = some n

theorem visits_recorder (param header : Str) (ctx : Ctx) (rs : List (Req × Env)) (c : Cache) (log : List (Req × Option Str)) :
    (runSeq param header (recorder param header) ctx rs (c, log.map fun v =>
        ⟨if skipCheck v.1.method then none else some (previousNonce param header v.1), v.2⟩)).2 =
      (runSeq param header visits ctx rs (c, log)).2.map fun v =>
        ⟨if skipCheck v.1.method then none else some (previousNonce param header v.1), v.2⟩ := by
  induction rs generalizing c log with
  | nil => rfl
  | cons re rs ih =>
    rcases re with ⟨r, e⟩
    simp only [runSeq]
    have main : ∀ c₀ : Cache, (runSeq param header (recorder param header) ctx rs (issue e (recorder param header) ctx r c₀ (log.map fun v =>
        ⟨if skipCheck v.1.method then none else some (previousNonce param header v.1), v.2⟩)).2).2 =
      (runSeq param header visits ctx rs (issue e visits ctx r c₀ log).2).2.map fun v =>
        ⟨if skipCheck v.1.method then none else some (previousNonce param header v.1), v.2⟩ := by
      intro c₀
      unfold issue
      cases e.rnd with
      | none => exact ih c₀ log
      | some bytes =>
        simp only [recorder, visits]
        rw [← ih]
        simp
    unfold csrf
    split
    · exact main c
    · dsimp only
      split
      · exact ih c log
      · exact main _

/-- C40.  In any sequence of requests processed one at a time, starting from any cache, a nonce
spent by two requests that reach the handler was issued in between. -/
theorem c40_single_use (param header : Str) (ctx : Ctx) (rs : List (Req × Env)) (c : Cache) :
    SpentOnce param header (runSeq param header visits ctx rs (c, [])).2 := by
  have h := runSeq_inv param header ctx rs c [] (fun n _ => .inl (by simp)) (by
    intro i j x y n hx; simp at hx)
  have hv := visits_recorder param header ctx rs c []
  rw [List.map_nil] at hv
  rw [hv] at h
  intro i j x y n hx hy hij hsx hsy hcx hcy
  have spent : ∀ v : Req × Option Str, ¬ SafeMethod v.1.method → Carries param header v.1 n →
      (if skipCheck v.1.method then none else some (previousNonce param header v.1)) = some n := by
    intro v hs hc
    rw [if_neg (fun hk => hs ((skipCheck_iff _).1 hk)), (previousNonce_iff param header v.1 n (by cases hc <;> assumption)).2 hc]
  obtain ⟨k, z, h1, h2, h3, h4⟩ := h i j _ _ n (by rw [List.getElem?_map, hx]; rfl) (by rw [List.getElem?_map, hy]; rfl) hij
    (spent x hsx hcx) (spent y hsy hcy)
  rw [List.getElem?_map] at h3
  cases hz : (runSeq param header visits ctx rs (c, [])).2[k]? with
  | none => rw [hz] at h3; cases h3
  | some v =>
    rw [hz] at h3
    simp only [Option.map_some, Option.some.injEq] at h3
    exact ⟨k, v, h1, h2, hz, by rw [← h3] at h4; exact h4⟩

/-- A witness that logs with reuse exist: the nonce `01` is spent, issued again, spent again. -/
example : (runSeq b!"_csrf" b!"H" visits {}
    [({ method := b!"GET" }, ⟨0, 0, some [1]⟩),
     ({ method := b!"POST", headers := [(b!"H", [b!"01"])] }, ⟨1, 1, some [2]⟩),
     ({ method := b!"POST", headers := [(b!"H", [b!"01"])] }, ⟨2, 2, some [3]⟩),
     ({ method := b!"GET" }, ⟨3, 3, some [1]⟩),
     ({ method := b!"POST", headers := [(b!"H", [b!"01"])] }, ⟨4, 4, some [4]⟩)] (empty, [])).2.map (fun v => (v.1.method, v.2)) =
    [(b!"GET", some b!"01"), (b!"POST", some b!"02"), (b!"GET", some b!"01"), (b!"POST", some b!"04")] := by
  decide

/-! ### C41: concurrent requests -/

/-- C41 fails: two concurrent requests carrying the same nonce both pass the check before
either removes it, and both reach the handler; the nonce was issued only once. -/
theorem c41_violated :
    ∃ (sch : List (Nat × Int)) (ths : List Thread) (c : Cache) (n : Str),
      (∀ th ∈ ths, th.pc = .start ∧ th.fresh ≠ n) ∧
      (runConc sch ths c []).2.2 =
        [.check 0 n, .check 1 n, .remove 0 n, .remove 1 n, .issue 0 b!"A1", .issue 1 b!"A2"] ∧
      (runConc sch ths c []).1.map (·.pc) = [.done, .done] :=
  ⟨[(0, 0), (1, 0), (0, 0), (1, 0), (0, 0), (1, 0)],
    [{ nonce := b!"N", fresh := b!"A1" }, { nonce := b!"N", fresh := b!"A2" }],
    [(b!"N", 10)], b!"N", by decide, by decide, by decide⟩

/-- Every successful check of a nonce that happens after a removal of it is preceded by an
issue in between. -/
def CheckedAfterRemoval (evs : List Ev) : Prop :=
  ∀ pre i n mid j suf, evs = pre ++ Ev.remove i n :: mid ++ Ev.check j n :: suf →
    ∃ k, Ev.issue k n ∈ mid

theorem snoc_split {α} {evs pre mid suf : List α} {a b e : α}
    (h : evs ++ [e] = pre ++ a :: mid ++ b :: suf) :
    (suf = [] ∧ b = e ∧ evs = pre ++ a :: mid) ∨
    ∃ suf', suf = suf' ++ [e] ∧ evs = pre ++ a :: mid ++ b :: suf' := by
  rcases List.eq_nil_or_concat suf with rfl | ⟨suf', x, rfl⟩
  · left
    have : evs ++ [e] = (pre ++ a :: mid) ++ [b] := by simpa using h
    have := List.append_inj' this rfl
    exact ⟨rfl, by simpa using this.2.symm, this.1⟩
  · right
    have : evs ++ [e] = (pre ++ a :: mid ++ b :: suf') ++ [x] := by simpa using h
    have := List.append_inj' this rfl
    exact ⟨suf', by simp at this; simp [this.2], this.1⟩

theorem runConc_inv (sch : List (Nat × Int)) (ths : List Thread) (c : Cache) (evs : List Ev)
    (h1 : ∀ n, Map.get? c n ≠ none → ∀ pre i mid, evs = pre ++ Ev.remove i n :: mid →
      ∃ k, Ev.issue k n ∈ mid)
    (h2 : CheckedAfterRemoval evs) :
    CheckedAfterRemoval (runConc sch ths c evs).2.2 := by
  induction sch generalizing ths c evs with
  | nil => exact h2
  | cons s sch ih =>
    rcases s with ⟨i, now⟩
    simp only [runConc]
    split
    · exact ih _ _ _ h1 h2
    · rename_i th hth
      split
      · exact ih _ _ _ h1 h2
      · rename_i th' c' ev hst
        -- extension facts shared by all cases
        have ext1 : ∀ n, (∀ t, ev ≠ Ev.remove t n) → Map.get? c n ≠ none →
            ∀ pre i mid, evs ++ [ev] = pre ++ Ev.remove i n :: mid → ∃ k, Ev.issue k n ∈ mid := by
          intro n hev hn pre i mid heq
          rcases List.eq_nil_or_concat mid with rfl | ⟨mid', x, rfl⟩
          · have : evs ++ [ev] = pre ++ [Ev.remove i n] := by simpa using heq
            have := (List.append_inj' this rfl).2
            exact absurd (by simpa using this) (hev i)
          · have : evs ++ [ev] = (pre ++ Ev.remove i n :: mid') ++ [x] := by simpa using heq
            obtain ⟨k, hk⟩ := h1 n hn pre i mid' (List.append_inj' this rfl).1
            exact ⟨k, by simp [hk]⟩
        have ext2 : (∀ j n, ev = Ev.check j n → Map.get? c n ≠ none) →
            CheckedAfterRemoval (evs ++ [ev]) := by
          intro hchk pre i n mid j suf heq
          rcases snoc_split heq with ⟨-, hb, he⟩ | ⟨suf', -, he⟩
          · exact h1 n (hchk j n hb.symm) pre i mid he
          · exact h2 pre i n mid j suf' he
        unfold cstep at hst
        split at hst
        · split at hst
          · simp only [Option.some.injEq, Prod.mk.injEq] at hst
            obtain ⟨rfl, rfl, rfl⟩ := hst
            exact ih _ _ _ (fun n hn => ext1 n (by simp) hn) (ext2 (by simp))
          · rename_i hc
            simp only [Option.some.injEq, Prod.mk.injEq] at hst
            obtain ⟨rfl, rfl, rfl⟩ := hst
            refine ih _ _ _ (fun n hn => ext1 n (by simp) hn) (ext2 ?_)
            intro j n heq
            simp only [Ev.check.injEq] at heq
            rw [← heq.2]
            intro hnone
            simp [contains, hnone] at hc
        · simp only [Option.some.injEq, Prod.mk.injEq] at hst
          obtain ⟨rfl, rfl, rfl⟩ := hst
          refine ih _ _ _ (fun n hn => ?_) (ext2 (by simp))
          by_cases hk : n = th.nonce
          · subst hk; exact absurd (Map.get?_erase_same c _) hn
          · simp only [remove, Map.get?_erase_other _ _ _ hk] at hn
            exact ext1 n (by intro t heq; simp at heq; exact hk heq.2.symm) hn
        · simp only [Option.some.injEq, Prod.mk.injEq] at hst
          obtain ⟨rfl, rfl, rfl⟩ := hst
          refine ih _ _ _ (fun n hn => ?_) (ext2 (by simp))
          by_cases hk : n = th.fresh
          · intro pre i' mid heq
            rcases List.eq_nil_or_concat mid with rfl | ⟨mid', x, rfl⟩
            · have := (List.append_inj' heq rfl).2
              simp at this
            · have : evs ++ [Ev.issue i th.fresh] = (pre ++ Ev.remove i' n :: mid') ++ [x] := by
                simpa using heq
              have := (List.append_inj' this rfl).2
              simp only [List.cons.injEq, and_true] at this
              exact ⟨i, by simp [hk, ← this]⟩
          · simp only [add, Map.get?_set_other _ _ _ _ hk] at hn
            exact ext1 n (by simp) hn
        · cases hst
        · cases hst

/-- C41, what does hold for every interleaving: a request whose check happens after another
request has removed the nonce is refused, unless the nonce was issued again in between.  So a
nonce can be accepted twice only by requests whose check-to-remove windows overlap.  Missing
from the full claim: overlapping requests (see `c41_violated`). -/
theorem c41_no_reuse_after_removal_partial (sch : List (Nat × Int)) (ths : List Thread) (c : Cache) :
    CheckedAfterRemoval (runConc sch ths c []).2.2 :=
  runConc_inv sch ths c [] (by intro n _ pre i mid h; simp at h)
    (by intro pre i n mid j suf h; simp at h)

/-! ### C42: nonce text -/

/-- Value of an upper-case hexadecimal digit. -/
def hexVal (b : UInt8) : Option Nat :=
  if 48 ≤ b ∧ b ≤ 57 then some (b.toNat - 48)
  else if 65 ≤ b ∧ b ≤ 70 then some (b.toNat - 55) else none

/-- Reading a hexadecimal text, two digits per byte. -/
def unhex : Str → Option (List UInt8)
  | [] => some []
  | a :: b :: r => do
    let x ← hexVal a
    let y ← hexVal b
    let t ← unhex r
    pure (UInt8.ofNat (16 * x + y) :: t)
  | _ => none

set_option maxRecDepth 20000 in
theorem nibble_pair (b : UInt8) :
    hexVal (nibble ((b &&& 0xf0) >>> 4)) = some (b.toNat / 16) ∧
    hexVal (nibble (b &&& 0x0f)) = some (b.toNat % 16) := by
  have h : ∀ n : Fin 256, hexVal (nibble ((UInt8.ofNat n.val &&& 0xf0) >>> 4)) = some (n.val / 16) ∧
    hexVal (nibble (UInt8.ofNat n.val &&& 0x0f)) = some (n.val % 16) := by decide
  have := h ⟨b.toNat, b.toNat_lt⟩
  simpa using this

theorem unhex_hex (bs : List UInt8) : unhex (hex bs) = some bs := by
  induction bs with
  | nil => rfl
  | cons b bs ih =>
    simp only [hex, unhex, (nibble_pair b).1, (nibble_pair b).2, ih]
    have : 16 * (b.toNat / 16) + b.toNat % 16 = b.toNat := by omega
    show some (UInt8.ofNat (16 * (b.toNat / 16) + b.toNat % 16) :: bs) = _
    rw [this, UInt8.ofNat_toNat]

/-- C42.  The nonce reads back, as upper-case hexadecimal, to exactly the random bytes; it has
two characters per byte, all of them hexadecimal digits; and different random bytes give
different nonces. -/
theorem c42_nonce_hex (bs : List UInt8) :
    unhex (hex bs) = some bs ∧ (hex bs).length = 2 * bs.length ∧
    (∀ ch ∈ hex bs, (48 ≤ ch ∧ ch ≤ 57) ∨ (65 ≤ ch ∧ ch ≤ 70)) ∧
    (∀ bs', hex bs' = hex bs → bs' = bs) := by
  refine ⟨unhex_hex bs, ?_, ?_, ?_⟩
  · induction bs with
    | nil => rfl
    | cons b bs ih => simp only [hex, List.length_cons, ih]; omega
  · induction bs with
    | nil => simp [hex]
    | cons b bs ih =>
      have digit : ∀ x n, hexVal x = some n → (48 ≤ x ∧ x ≤ 57) ∨ (65 ≤ x ∧ x ≤ 70) := by
        intro x n hx
        unfold hexVal at hx
        split at hx
        · left; assumption
        · split at hx
          · right; assumption
          · cases hx
      intro ch hch
      simp only [hex, List.mem_cons] at hch
      rcases hch with rfl | rfl | hch
      · exact digit _ _ (nibble_pair b).1
      · exact digit _ _ (nibble_pair b).2
      · exact ih ch hch
  · intro bs' h
    have := congrArg unhex h
    simpa [unhex_hex] using this

example : hex [0x00, 0x9f, 0xa0, 0xff] = b!"009FA0FF" := by decide

end Gofre.Props
