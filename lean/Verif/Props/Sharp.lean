import Verif.Props.Csrf
import Verif.Props.OAuth
import Verif.Props.Middleware
import Verif.Props.Cors
import Verif.Props.Security

/-!
# How far the failing claims fail

For claims that a single run refutes, this file says on which inputs they fail: on all of them
(`_violated_never`), or exactly on those described (`_exact`).
-/

namespace Gofre.Props
open Gofre.Cache Gofre.MW
variable {σ ρ α : Type}

/-! ### C41 -/

/-- C41 fails whenever it could: for every nonce a request could be accepted with, any two requests carrying
it can both be let through to the handler, in whatever state the cache is otherwise. -/
theorem c41_violated_never (c : Cache) (n f g : Str) (now : Int) (hn : n ≠ []) (hc : contains c now n = true) :
    ∃ sch, (Csrf.runConc sch [⟨n, f, .start⟩, ⟨n, g, .start⟩] c []).1.map (·.pc) = [.done, .done] ∧
      (Csrf.runConc sch [⟨n, f, .start⟩, ⟨n, g, .start⟩] c []).2.2 =
        [.check 0 n, .check 1 n, .remove 0 n, .remove 1 n, .issue 0 f, .issue 1 g] := by
  refine ⟨[(0, now), (1, now), (0, now), (1, now), (0, now), (1, now)], ?_, ?_⟩ <;>
    simp [Csrf.runConc, Csrf.cstep, hn, hc, List.set]

example : contains [(b!"N", (10 : Int))] 3 b!"N" = true := by decide

/-! ### C68 -/

/-- C68 fails for every request it is about: when nothing in front has parsed the form, a
request that changes state and carries no nonce header is refused whatever form it posts. -/
theorem c68_violated_never (param header : Str) (env : Csrf.Env) (h : Handler σ ρ) (ctx : Ctx)
    (req : Req) (c : Cache) (s : σ) (hm : ¬ SafeMethod req.method) (hp : req.formParsed = false)
    (hh : ∀ m ms, Map.get? req.headers (Http.canonicalKey header) = some (m :: ms) → m = []) :
    Csrf.csrf param header env h ctx req c s = (.ret none (some .accessDenied), c, s) := by
  refine c39_unguarded_refused param header env h ctx req c s hm ?_
  rintro ⟨n, hn, -⟩
  cases hn with
  | hdr vs h1 h2 => exact h2 (hh n vs h1)
  | fld vs _ h1 _ _ => rw [hp] at h1; cases h1

example : ¬ SafeMethod b!"POST" ∧
    Map.get? ({ method := b!"POST", form := [(b!"_csrf", [b!"AB"])] } : Req).headers (Http.canonicalKey b!"X-CSRF-TOKEN") = none := by decide

/-! ### C44 -/

/-- The callback requests of a history. -/
def IsCallback : OAuth.Ev → Prop
  | .callback _ _ _ => True
  | .initiate _ _ _ => False

theorem run_append (cfg : OAuth.Config σ) (base : Str) (h : OAuth.OHandler σ ρ) (as bs : List OAuth.Ev) (w) :
    OAuth.run cfg base h (as ++ bs) w = OAuth.run cfg base h bs (OAuth.run cfg base h as w) := by
  induction as generalizing w with
  | nil => rfl
  | cons a as ih =>
    obtain ⟨c, s⟩ := w
    cases a <;> simp only [List.cons_append, OAuth.run, ih]

theorem run_callbacks (cfg : OAuth.Config σ) (base : Str) (h : OAuth.OHandler σ ρ) (cbs : List OAuth.Ev)
    (hcb : ∀ ev ∈ cbs, IsCallback ev) (w) : (OAuth.run cfg base h cbs w).1 = w.1 := by
  induction cbs generalizing w with
  | nil => rfl
  | cons a as ih =>
    obtain ⟨c, s⟩ := w
    cases a with
    | initiate now st req => exact absurd (hcb _ List.mem_cons_self) id
    | callback now n req =>
      simp only [OAuth.run]
      rw [ih (fun ev hm => hcb ev (List.mem_cons_of_mem _ hm))]

/-- C44 fails always: no callback uses anything up.  Whatever callbacks came in after a
history, the next callback is answered as if none of them had happened; in particular an
accepted one is accepted again, with the same code and state, as long as the state's time runs. -/
theorem c44_violated_never (cfg : OAuth.Config σ) (base : Str) (h₀ h : OAuth.OHandler σ ρ)
    (evs cbs : List OAuth.Ev) (hcb : ∀ ev ∈ cbs, IsCallback ev) (w : Option Cache × σ) (s : σ) (now : Int)
    (name : Str) (req : Req) :
    OAuth.callback cfg base now name h {} req (OAuth.run cfg base h₀ (evs ++ cbs) w).1 s =
      OAuth.callback cfg base now name h {} req (OAuth.run cfg base h₀ evs w).1 s := by
  rw [run_append, run_callbacks _ _ _ _ hcb]

example : (OAuth.run demoCfg b!"/oauth/authorize" counter
    [.initiate 1 b!"st" { method := b!"GET" }, .callback 2 b!"github" demoReq] (some empty, 0)).2 = 1 := by decide

/-! ### C69 -/

/-- C69, exactly: building the address leaves the array behind the configured scopes alone if
and only if the added scopes do not fit into it, or they are what already stands there. -/
theorem c69_exact (s : OAuth.Slice) (xs : List Str) (hl : s.len ≤ s.arr.length) :
    (s.append xs).2 = s.arr ↔
      s.arr.length < s.len + xs.length ∨ (s.arr.drop s.len).take xs.length = xs := by
  unfold OAuth.Slice.append
  by_cases hfit : s.len + xs.length ≤ s.arr.length
  · simp only [if_pos hfit]
    have hs : s.arr = s.arr.take s.len ++ ((s.arr.drop s.len).take xs.length ++ s.arr.drop (s.len + xs.length)) := by
      rw [← List.drop_drop, List.take_append_drop, List.take_append_drop]
    constructor
    · intro h
      right
      have h2 := congrArg (fun l => (l.drop s.len).take xs.length) h
      rw [← h2]
      simp [List.drop_append, List.take_append, Nat.min_eq_left hl]
    · rintro (h | h)
      · omega
      · conv => rhs; rw [hs]
        rw [h]
        simp
  · simp only [if_neg hfit]
    exact ⟨fun _ => .inl (by omega), fun _ => trivial⟩

example : (⟨[b!"repo", b!"admin"], 1⟩ : OAuth.Slice).append [b!"user"] = (⟨[b!"repo", b!"user"], 2⟩, [b!"repo", b!"user"]) := by
  decide

/-! ### C47 -/

/-- C47, exactly: a panic becomes an error answer if and only if its value is not `nil`; after
`panic(nil)` there is neither a response nor an error. -/
theorem c47_exact (stack : Str) (h : Handler σ ρ) (ctx req s) (v : Option Str) (s' : σ)
    (hh : h ctx req s = (.panic v, s')) :
    ((∃ e, panicRecover stack h ctx req s = (.ret none (some e), s')) ↔ v ≠ none) ∧
    (v = none → panicRecover stack h ctx req s = (.ret none none, s')) := by
  cases v <;> simp [panicRecover, hh]

/-! ### C50 -/

/-- C50 fails always: whatever the policy, the request and the verdict on it, everything the
handler does has been done. -/
theorem c50_violated_never (x : Cors.Ext) (c : Cors.Config) (h : Handler σ (RespH α)) (ctx : Ctx) (r : Req) (s : σ) :
    (Cors.cors x c h ctx r s).2 = (h ctx r s).2 := by
  unfold Cors.cors
  cases hr : h ctx r s with
  | mk res st =>
    dsimp only
    repeat' split
    all_goals first | rfl | simp_all

/-! ### C51 -/

/-- C51 fails on every permitted cross-origin request once the configuration enables both. -/
theorem c51_violated_never (x : Cors.Ext) (c : Cors.Config) (h : Handler σ (RespH α)) (ctx : Ctx) (r : Req) (s : σ)
    (o : Str) (vs) (ho : Map.get? r.headers b!"Origin" = some (o :: vs)) (hx : ¬ SameOrigin r o)
    (ha : c.anyOriginAllowed = true) (hcr : c.supportsCredentials = true)
    (resp : RespH α) (hd : Map Str) (e s') (hres : Cors.cors x c h ctx r s = (.ret (some resp) e, s'))
    (hhd : resp.headers = some hd) :
    Map.get? hd b!"Access-Control-Allow-Origin" = some b!"*" ∧
    Map.get? hd b!"Access-Control-Allow-Credentials" = some b!"true" := by
  have key : ∀ resp₀ : RespH α, Cors.respond c r resp₀ = .ret (some resp) e →
      Map.get? hd b!"Access-Control-Allow-Origin" = some b!"*" ∧
      Map.get? hd b!"Access-Control-Allow-Credentials" = some b!"true" := by
    intro resp₀ hresp
    unfold Cors.respond at hresp
    split at hresp
    · cases hresp
    · rename_i h₀ hh0
      simp only [HRes.ret.injEq, Option.some.injEq] at hresp
      rw [← hresp.1] at hhd
      simp only [Option.some.injEq] at hhd
      rw [← hhd, addStandard_origin, addStandard_credentials, ha, hcr]
      simp
  obtain ⟨hk1, hk2, hk3⟩ := requestType_cross x r o vs ho hx
  unfold Cors.cors at hres
  cases hr : h ctx r s with
  | mk res st =>
    rw [hr] at hres
    cases res with
    | panic v => simp at hres
    | ret resp₀ e₀ =>
      cases e₀ with
      | some e₀ => simp at hres
      | none =>
        dsimp only at hres
        cases resp₀ with
        | none => cases hk : Cors.requestType x r <;> simp [hk] at hres
        | some resp₀ =>
          cases hk : Cors.requestType x r <;> rw [hk] at hres <;> dsimp only at hres
          all_goals first
            | (split at hres
               · exact key resp₀ (by simpa using congrArg Prod.fst hres)
               · simp at hres)
            | exact key resp₀ (by simpa using congrArg Prod.fst hres)
            | simp at hres
            | simp_all

end Gofre.Props
