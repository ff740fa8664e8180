import Verif.Model.Race
import Verif.Props.OAuth
import Verif.Props.Csrf

/-! # C95-C97: the in-memory cache under load; predictable states -/

namespace Gofre.Props
open Gofre.Race Gofre.Cache Gofre.OAuth
open Gofre.Spec (given)
variable {σ ρ : Type}

/-! ### C95: requests served at the same time -/

/-- C95 fails for any two requests with safe methods behind `CSRFPrevention`, whatever the map holds: when the
second reaches its `Add` before the first has left its own, the process ends. -/
theorem c95_violated_never (m₁ m₂ n₁ n₂ f₁ f₂ : Str) (h₁ : SafeMethod m₁) (h₂ : SafeMethod m₂) (c : Cache) (t₁ t₂ : Int) :
    runTasks [(0, t₁), (1, t₂)] [csrfTask m₁ n₁ f₁, csrfTask m₂ n₂ f₂] ⟨c, false⟩ = none := by
  simp [runTasks, csrfTask, (skipCheck_iff _).2 h₁, (skipCheck_iff _).2 h₂, taskStep]

/-- C95 fails: one `GET` is enough against any request that presents a nonce while others are known. -/
theorem c95_violated_reader (m n f₁ f₂ : Str) (hm : ¬ SafeMethod m) (hn : n ≠ []) (c : Cache) (hc : c ≠ []) (t₁ t₂ : Int) :
    runTasks [(0, t₁), (1, t₂)] [csrfTask b!"GET" [] f₁, csrfTask m n f₂] ⟨c, false⟩ = none := by
  have hg : Csrf.skipCheck b!"GET" = true := by decide
  have hm : Csrf.skipCheck m = false := by rw [← skipCheck_iff] at hm; simpa using hm
  simp [runTasks, csrfTask, hg, hm, hn, taskStep, hc]

/-- C95 fails for OAuth2: a flow being started against another one being started or completed. -/
theorem c95_violated_oauth (s₁ s₂ s₃ : Str) (d : Int) (c : Cache) (hc : c ≠ []) (t₁ t₂ : Int) :
    runTasks [(0, t₁), (1, t₂)] [initiateTask s₁ d, initiateTask s₂ d] ⟨c, false⟩ = none ∧
    runTasks [(0, t₁), (1, t₂)] [initiateTask s₁ d, callbackTask s₃] ⟨c, false⟩ = none := by
  simp [runTasks, initiateTask, callbackTask, taskStep, hc]

/-- No request moves while another one is inside a write. -/
def noOverlap : List (Nat × Int) → List Visit → Mem → Bool
  | [], _, _ => true
  | (i, now) :: sch, ts, m =>
    match ts[i]? with
    | none => noOverlap sch ts m
    | some t =>
      (!m.writing || t.inside) &&
      match taskStep now t m with
      | .crash => true
      | .ok t' m' => noOverlap sch (ts.set i t') m'

/-- The flag says whether some request is inside a write; readers are never inside. -/
def Sane (ts : List Visit) (m : Mem) : Prop :=
  (∀ t ∈ ts, t.inside = true → m.writing = true) ∧ (∀ t ∈ ts, t.inside = true → ∃ k d r, t.todo = .add k d :: r ∨ t.todo = .remove k :: r) ∧
  (m.writing = true → ∃ (i : Nat) (t : Visit), ts[i]? = some t ∧ t.inside = true ∧ ∀ (j : Nat) (t' : Visit), ts[j]? = some t' → t'.inside = true → j = i)

theorem mem_set {ts : List Visit} {i : Nat} {t x : Visit} (h : x ∈ ts.set i t) : x = t ∨ ∃ j, j ≠ i ∧ ts[j]? = some x := by
  obtain ⟨j, hj⟩ := List.mem_iff_getElem?.1 h
  by_cases e : j = i
  · subst e
    rw [List.getElem?_set] at hj
    simp only [if_true] at hj
    split at hj
    · exact .inl (Option.some.inj hj).symm
    · cases hj
  · rw [List.getElem?_set_ne (Ne.symm e)] at hj
    exact .inr ⟨j, e, hj⟩

/-- A step that leaves the mover outside with the flag clear. -/
theorem sane_out {ts : List Visit} {m : Mem} (hs : Sane ts m) {i : Nat} {t : Visit} (ht : ts[i]? = some t)
    (hw : m.writing = true → t.inside = true) (rest : List Call) (map : Cache) :
    Sane (ts.set i ⟨rest, false⟩) ⟨map, false⟩ := by
  have out : ∀ x ∈ ts.set i ⟨rest, false⟩, x.inside = false := by
    intro x hx
    rcases mem_set hx with rfl | ⟨j, hj, hx⟩
    · rfl
    · cases hi : x.inside with
      | false => rfl
      | true =>
        have w := hs.1 x (List.mem_iff_getElem?.2 ⟨j, hx⟩) hi
        obtain ⟨a, b, h1, _, h3⟩ := hs.2.2 w
        exact absurd ((h3 j x hx hi).trans (h3 i t ht (hw w)).symm) hj
  refine ⟨fun x hx hi => ?_, fun x hx hi => ?_, by simp⟩
  · rw [out x hx] at hi; cases hi
  · rw [out x hx] at hi; cases hi

/-- A step that enters a write. -/
theorem sane_in {ts : List Visit} {m : Mem} (hs : Sane ts m) {i : Nat} {t : Visit} (ht : ts[i]? = some t)
    (hw : m.writing = false) (hc : ∃ k d r, t.todo = .add k d :: r ∨ t.todo = .remove k :: r) :
    Sane (ts.set i { t with inside := true }) { m with writing := true } := by
  have out : ∀ (j : Nat) (x : Visit), j ≠ i → ts[j]? = some x → x.inside = false := by
    intro j x _ hx
    cases hi : x.inside with
    | false => rfl
    | true =>
      have w := hs.1 x (List.mem_iff_getElem?.2 ⟨j, hx⟩) hi
      rw [hw] at w; cases w
  have hlt : i < ts.length := (List.getElem?_eq_some_iff.1 ht).1
  refine ⟨fun _ _ _ => rfl, fun x hx hi => ?_, fun _ => ⟨i, { t with inside := true }, ?_, rfl, ?_⟩⟩
  · rcases mem_set hx with rfl | ⟨j, hj, hx⟩
    · exact hc
    · rw [out j x hj hx] at hi; cases hi
  · rw [List.getElem?_set]; simp [hlt]
  · intro j x hx hi
    by_cases e : j = i
    · exact e
    · rw [List.getElem?_set_ne (Ne.symm e)] at hx
      rw [out j x e hx] at hi; cases hi

theorem no_overlap_runs (sch : List (Nat × Int)) (ts : List Visit) (m : Mem) (hs : Sane ts m) (h : noOverlap sch ts m = true) :
    (runTasks sch ts m).isSome = true := by
  induction sch generalizing ts m with
  | nil => rfl
  | cons e sch ih =>
    obtain ⟨i, now⟩ := e
    rw [runTasks]
    rw [noOverlap] at h
    cases ht : ts[i]? with
    | none => rw [ht] at h; exact ih ts m hs h
    | some t =>
      rw [ht] at h
      simp only [Bool.and_eq_true, Bool.or_eq_true, Bool.not_eq_true'] at h
      obtain ⟨hw, h⟩ := h
      have hw : m.writing = true → t.inside = true := by
        intro w; rcases hw with hw | hw
        · rw [hw] at w; cases w
        · exact hw
      have htm : t ∈ ts := List.mem_iff_getElem?.2 ⟨i, ht⟩
      have key : ∃ t' m', taskStep now t m = .ok t' m' ∧ Sane (ts.set i t') m' := by
        have hlt : i < ts.length := (List.getElem?_eq_some_iff.1 ht).1
        have self : ts.set i t = ts := by
          apply List.ext_getElem?
          intro j
          by_cases e : j = i
          · subst e; rw [List.getElem?_set, ht]; simp [hlt]
          · rw [List.getElem?_set_ne (Ne.symm e)]
        unfold taskStep
        split
        · exact ⟨t, m, rfl, by rw [self]; exact hs⟩
        · rename_i k rest htodo
          have hin : t.inside = false := by
            cases hi : t.inside with
            | false => rfl
            | true =>
              obtain ⟨k', d, r, h1 | h1⟩ := hs.2.1 t htm hi <;> rw [htodo] at h1 <;> cases h1
          have hwf : m.writing = false := by
            cases hm : m.writing with
            | false => rfl
            | true => rw [hw hm] at hin; cases hin
          have hm : m = ⟨m.map, false⟩ := by rw [← hwf]
          rw [if_neg (by rw [hwf]; simp)]
          split
          · exact ⟨_, _, rfl, by rw [hm]; exact sane_out hs ht hw rest m.map⟩
          · exact ⟨_, _, rfl, by rw [hm]; exact sane_out hs ht hw [] m.map⟩
        · rename_i k rest htodo
          split
          · rename_i hin
            rw [if_pos (hs.1 t htm hin)]
            exact ⟨_, _, rfl, sane_out hs ht hw rest _⟩
          · rename_i hin
            have hwf : m.writing = false := by
              cases hm : m.writing with
              | false => rfl
              | true => exact absurd (hw hm) hin
            split
            · have hm : m = ⟨m.map, false⟩ := by rw [← hwf]
              exact ⟨_, _, rfl, by rw [hm]; exact sane_out hs ht hw rest m.map⟩
            · rw [if_neg (by rw [hwf]; simp)]
              exact ⟨_, _, rfl, sane_in hs ht hwf ⟨k, 0, rest, .inr htodo⟩⟩
        · rename_i k d rest htodo
          split
          · rename_i hin
            rw [if_pos (hs.1 t htm hin)]
            exact ⟨_, _, rfl, sane_out hs ht hw rest _⟩
          · rename_i hin
            have hwf : m.writing = false := by
              cases hm : m.writing with
              | false => rfl
              | true => exact absurd (hw hm) hin
            rw [if_neg (by rw [hwf]; simp)]
            exact ⟨_, _, rfl, sane_in hs ht hwf ⟨k, d, rest, .inl htodo⟩⟩
      obtain ⟨t', m', hstep, hs'⟩ := key
      rw [hstep] at h
      simp only [hstep]
      exact ih _ _ hs' h

/-- C95, what holds: any number of requests of the three kinds, in any order, never end the process as long as none of
them moves while another is inside a write; so a cache that serialises its calls is safe. -/
theorem c95_serial_partial (ts : List Visit) (hts : ∀ t ∈ ts, t.inside = false) (c : Cache) (sch : List (Nat × Int))
    (h : noOverlap sch ts ⟨c, false⟩ = true) : (runTasks sch ts ⟨c, false⟩).isSome = true :=
  no_overlap_runs sch ts _ ⟨fun t ht hi => by (rw [hts t ht] at hi; cases hi), fun t ht hi => by (rw [hts t ht] at hi; cases hi), by simp⟩ h

/-- C95, what holds: callbacks alone only read, and never end the process, however they interleave. -/
theorem c95_readers_partial (states : List Str) (c : Cache) (sch : List (Nat × Int)) :
    (runTasks sch (states.map callbackTask) ⟨c, false⟩).isSome = true := by
  have key : ∀ (ts : List Visit), (∀ t ∈ ts, t.todo = [] ∨ ∃ k, t.todo = [.contains k]) → (runTasks sch ts ⟨c, false⟩).isSome = true := by
    induction sch with
    | nil => intros; rfl
    | cons e sch ih =>
      obtain ⟨i, now⟩ := e
      intro ts hts
      rw [runTasks]
      cases ht : ts[i]? with
      | none => exact ih ts hts
      | some t =>
        have htm : t ∈ ts := List.mem_iff_getElem?.2 ⟨i, ht⟩
        have key : ∃ t', taskStep now t ⟨c, false⟩ = .ok t' ⟨c, false⟩ ∧ (t'.todo = [] ∨ ∃ k, t'.todo = [.contains k]) := by
          rcases hts t htm with h | ⟨k, h⟩
          · exact ⟨t, by simp [taskStep, h], .inl h⟩
          · simp only [taskStep, h]
            rw [if_neg (by simp)]
            split
            · exact ⟨_, rfl, .inl rfl⟩
            · exact ⟨_, rfl, .inl rfl⟩
        obtain ⟨t', h1, h2⟩ := key
        dsimp only
        rw [h1]
        apply ih
        intro x hx
        rcases mem_set hx with rfl | ⟨j, _, hx⟩
        · exact h2
        · exact hts x (List.mem_iff_getElem?.2 ⟨j, hx⟩)
  apply key
  intro t ht
  obtain ⟨s, _, rfl⟩ := List.mem_map.1 ht
  exact .inr ⟨s, rfl⟩

example : noOverlap [(0, 1), (0, 2), (1, 3), (1, 4), (1, 5), (1, 6), (1, 7)] [csrfTask b!"GET" [] b!"n", csrfTask b!"POST" b!"n" b!"o"] ⟨[], false⟩ = true ∧
    (runTasks [(0, 1), (0, 2), (1, 3), (1, 4), (1, 5), (1, 6), (1, 7)] [csrfTask b!"GET" [] b!"n", csrfTask b!"POST" b!"n" b!"o"] ⟨[], false⟩).map (·.2.map.map (·.1)) = some [b!"o"] := by
  decide

/-! ### C96: what has expired is forgotten -/

theorem get?_set_some {α : Type} (m : Map α) (k k' : Str) (v : α) (h : (Map.get? m k).isSome = true) : (Map.get? (Map.set m k' v) k).isSome = true := by
  by_cases e : k = k'
  · subst e; rw [Map.get?_set_same]; rfl
  · rwa [Map.get?_set_other _ _ _ _ e]

/-- C96 fails for OAuth2 states: whatever happens afterwards and however much time passes, a state that was issued stays in the
map. -/
theorem c96_violated_never (cfg : Config σ) (base : Str) (h₀ : OHandler σ ρ) (evs : List Ev) (s₀ : σ) (t : Int) (st : Str) (req : Req)
    (hin : Ev.initiate t st req ∈ evs) (hsel : Selectable cfg req) (c : Cache) (hc : (OAuth.run cfg base h₀ evs (some empty, s₀)).1 = some c) :
    (Map.get? c st).isSome = true := by
  have keep : ∀ (evs : List Ev) (c₀ : Cache) (s : σ), (Map.get? c₀ st).isSome = true → ∀ c, (OAuth.run cfg base h₀ evs (some c₀, s)).1 = some c → (Map.get? c st).isSome = true := by
    intro evs
    induction evs with
    | nil => intro c₀ s h c hc; cases hc; exact h
    | cons ev evs ih =>
      intro c₀ s h c hc
      cases ev with
      | callback now n r => exact ih c₀ _ h c hc
      | initiate now st' r =>
        simp only [OAuth.run, initiate] at hc
        cases hs : selectProvider cfg r with
        | error e => rw [hs] at hc; exact ih c₀ s h c hc
        | ok p =>
          rw [hs] at hc
          exact ih _ s (get?_set_some _ _ _ _ h) c hc
  have all : ∀ (evs : List Ev) (c₀ : Cache) (s : σ), Ev.initiate t st req ∈ evs → ∀ c, (OAuth.run cfg base h₀ evs (some c₀, s)).1 = some c → (Map.get? c st).isSome = true := by
    intro evs
    induction evs with
    | nil => intro _ _ h; cases h
    | cons ev evs ih =>
      intro c₀ s h c hc
      rcases List.mem_cons.1 h with rfl | h'
      · obtain ⟨p, hp⟩ := selectable_selects hsel
        simp only [OAuth.run, initiate, hp] at hc
        refine keep evs (add c₀ t st cfg.keyExpiration) s ?_ c hc
        rw [Cache.add, Map.get?_set_same]; rfl
      · cases ev with
        | callback now n r => exact ih c₀ _ h' c hc
        | initiate now st' r =>
          simp only [OAuth.run, initiate] at hc
          cases hs : selectProvider cfg r with
          | error e => rw [hs] at hc; exact ih c₀ s h' c hc
          | ok p => rw [hs] at hc; exact ih _ s h' c hc
  exact all evs empty s₀ hin c hc

/-- C96 fails for CSRF nonces: `n` requests with safe methods that draw different random bytes leave `n` entries more, at
whatever times they come. -/
theorem c96_violated_csrf (param header : Str) (handler : Handler σ ρ) (ctx : Ctx) (rs : List (Req × Csrf.Env)) (c : Cache) (s : σ)
    (hsafe : ∀ x ∈ rs, SafeMethod x.1.method) (nonces : List Str) (hn : rs.map (fun x => x.2.rnd.map Csrf.hex) = nonces.map some)
    (hd : (nonces ++ c.map (·.1)).Nodup) : (Csrf.runSeq param header handler ctx rs (c, s)).1.length = c.length + rs.length := by
  induction rs generalizing c s nonces with
  | nil => rfl
  | cons x rs ih =>
    obtain ⟨r, e⟩ := x
    cases nonces with
    | nil => cases hn
    | cons n nonces =>
      simp only [List.map_cons, List.cons.injEq] at hn
      obtain ⟨h1, h2⟩ := hn
      have hs : Csrf.skipCheck r.method = true := (skipCheck_iff _).2 (hsafe (r, e) (by simp))
      cases hr : e.rnd with
      | none => rw [hr] at h1; cases h1
      | some bytes =>
        rw [hr] at h1
        have hnn : Csrf.hex bytes = n := Option.some.inj h1
        have hnew : n ∉ c.map (·.1) := by
          intro h
          have := List.nodup_cons.1 hd
          exact this.1 (List.mem_append.2 (.inr h))
        have hset : ∀ (c : Cache) (v : Int), n ∉ c.map (·.1) → Map.set c n v = c ++ [(n, v)] := by
          intro c v
          induction c with
          | nil => intro _; rfl
          | cons p c ih =>
            intro h
            obtain ⟨k, w⟩ := p
            simp only [List.map_cons, List.mem_cons, not_or] at h
            rw [Map.set, if_neg (fun e => h.1 e.symm), ih h.2]; rfl
        have hstep : (Csrf.csrf param header e handler ctx r c s).2.1 = c ++ [(n, e.tAdd + Csrf.expiration)] := by
          simp only [Csrf.csrf, hs, if_true, Csrf.issue, hr, hnn, add]
          exact hset c _ hnew
        rw [Csrf.runSeq]
        have := ih (Csrf.csrf param header e handler ctx r c s).2.1 (Csrf.csrf param header e handler ctx r c s).2.2
          (fun y hy => hsafe y (List.mem_cons_of_mem _ hy)) nonces h2 (by
            rw [hstep]
            have hp : (nonces ++ (c ++ [(n, e.tAdd + Csrf.expiration)]).map (·.1)).Perm (n :: nonces ++ c.map (·.1)) := by
              rw [List.map_append, List.map_singleton, ← List.append_assoc]
              exact List.perm_append_comm
            exact hp.nodup_iff.2 hd)
        rw [show (((Csrf.csrf param header e handler ctx r c s).2.1, (Csrf.csrf param header e handler ctx r c s).2.2) : Cache × σ) = (Csrf.csrf param header e handler ctx r c s).2 from rfl] at this
        rw [this, hstep]
        simp; omega

/-- Two years apart, both entries are kept. -/
example : (Csrf.runSeq (σ := Unit) (ρ := Unit) [] [] (fun _ _ s => (.ret none none, s)) {}
    [({ method := b!"GET" }, ⟨0, 0, some [1]⟩), ({ method := b!"GET" }, ⟨0, 63072000000000000, some [2]⟩)] ([], ())).1.length = 2 := by decide

/-! ### C97: states cannot be guessed -/

/-- C97 fails: what the generator yields after start-up decides every state, whoever asks, whenever and how: the same guesses are right
for every process. -/
theorem c97_violated_never (rng : Nat → Nat) : ∃ guess : Nat → Str, ∀ (rs : List (Int × Req)) (i : Nat) (t : Int) (st : Str) (r : Req),
    (statesFrom rng 0 rs)[i]? = some (.initiate t st r) → st = guess i := by
  refine ⟨fun n => (stateOf rng n).getD [], ?_⟩
  have tot : ∀ n, ∃ st, stateOf rng n = some st := by
    intro n
    obtain ⟨s, h, _⟩ := c67_state_alphabet ((List.range 12).map fun i => rng (12 * n + i))
    exact ⟨s, h⟩
  have key : ∀ (rs : List (Int × Req)) (n i : Nat) (t : Int) (st : Str) (r : Req), (statesFrom rng n rs)[i]? = some (.initiate t st r) → st = (stateOf rng (n + i)).getD [] := by
    intro rs
    induction rs with
    | nil => intro n i t st r h; simp [statesFrom] at h
    | cons x rs ih =>
      intro n i t st r h
      obtain ⟨t', r'⟩ := x
      obtain ⟨s, hs⟩ := tot n
      rw [statesFrom, hs] at h
      cases i with
      | zero =>
        simp only [List.getElem?_cons_zero, Option.some.injEq, Ev.initiate.injEq] at h
        rw [Nat.add_zero, hs, ← h.2.1]; rfl
      | succ i =>
        rw [List.getElem?_cons_succ] at h
        rw [show n + (i + 1) = n + 1 + i by omega]
        exact ih (n + 1) i t st r h
  intro rs i t st r h
  have := key rs 0 i t st r h
  rwa [Nat.zero_add] at this

/-- C97 fails: a callback with a state computed from the generator alone, by somebody the application never talked to, is accepted
while the flow it was drawn for lives. -/
theorem c97_violated (rng : Nat → Nat) (cfg : Config σ) (p : Provider σ) (hone : cfg.providers = [p]) (hf : cfg.fetchUserDetails = false)
    (base : Str) (h₀ h : OHandler σ ρ) (s₀ s s₁ : σ) (t : Int) (victim : Req) (now : Int) (forged : Req) (tok : AccessToken)
    (hnow : now < t + cfg.keyExpiration) (herr : given forged b!"error" = []) (hst : some (given forged b!"state") = stateOf rng 0)
    (htok : p.fetchToken (cfg.websiteUrl ++ base ++ b!"/" ++ p.name) (given forged b!"code") s = (.ok tok, s₁)) :
    callback cfg base now p.name h {} forged (OAuth.run cfg base h₀ (statesFrom rng 0 [(t, victim)]) (some empty, s₀)).1 s = h ⟨some tok, none⟩ forged s₁ := by
  rw [show cfg.websiteUrl ++ base ++ b!"/" ++ p.name = redirectUrl cfg base p by simp [redirectUrl]] at htok
  simp only [statesFrom, ← hst, OAuth.run, initiate, selectProvider, hone]
  unfold callback
  simp only [formValue_given]
  rw [hone, show byName [p] p.name = some p by simp [byName]]
  simp only [herr, ne_eq, not_true_eq_false, if_false]
  have : contains (add empty t (given forged b!"state") cfg.keyExpiration) now (given forged b!"state") = true := by
    unfold contains
    rw [add, Map.get?_set_same]
    simpa using hnow
  simp [this, htok, hf]

example : stateOf (fun i => i) 0 = some b!"abcdefghijkl" ∧ stateOf (fun i => i) 1 = some b!"mnopqrstuvwx" := by decide

end Gofre.Props
