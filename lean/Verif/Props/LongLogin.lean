import Verif.Props.LongApp
import Verif.Props.Login

/-! # C131: logins begun with a path that is too long -/

namespace Gofre.Props
open Gofre.Http Gofre.Response Gofre.Spec Gofre.Serve Gofre.Path Gofre.MW Gofre.Stack Gofre.App
open Gofre.Mux (World run)
variable {σ : Type} {env : Env} {c : Codec} {x : Ext} {other : Str → Str} {ci : Bool}

theorem serveApp_more {r : Router} {hs : List (AHandler σ)} {q : AReq} {buf : List USeg} {f g : Nat} {s : σ} {res : WRes c × σ}
    (h : serveApp (c := c) x other env r hs q buf f s = some res) (hfg : f ≤ g) : serveApp x other env r hs q buf g s = some res := by
  unfold serveApp at h ⊢
  cases hp : parseURLPath q.path buf with
  | none => simp only [hp] at h ⊢; exact h
  | some segs =>
    simp only [hp] at h ⊢
    cases hm : r.matchers (toUpper other q.req.method) with
    | none => simp only [hm] at h ⊢; exact h
    | some m =>
      simp only [hm, Option.map_eq_some_iff] at h ⊢
      obtain ⟨a, h1, h2⟩ := h
      exact ⟨a, matchM_fuel h1 hfg, h2⟩

theorem serveLogins_fuel {r : Router} {hs : List (AHandler (LoginState σ))} {buf : List USeg} {f g : Nat} (hfg : f ≤ g) {qs : List (AReq × Int × Str)} :
    ∀ {w : LoginState σ} {res : List (WRes c) × LoginState σ}, serveLogins (c := c) x other env r hs buf f qs w = some res →
      serveLogins x other env r hs buf g qs w = some res := by
  induction qs with
  | nil => intro w res h; exact h
  | cons e qs ih =>
    obtain ⟨q, t, rnd⟩ := e
    intro w res h
    unfold serveLogins at h ⊢
    cases ha : serveApp (c := c) x other env r hs q buf f { w with now := t, rnd := rnd } with
    | none => rw [ha] at h; cases h
    | some a =>
      obtain ⟨a, w'⟩ := a
      rw [ha] at h
      rw [serveApp_more ha hfg]
      simp only [Option.map_eq_some_iff] at h ⊢
      obtain ⟨b, h1, h2⟩ := h
      exact ⟨b, ih h1, h2⟩

/-- In every application: a history that begins with a request for `/u` in a path of more than 65535 bytes goes as if it had been a request for `/t`. -/
theorem logins_disguised (r : Router) (hs : List (AHandler (LoginState σ))) (q : AReq) (at_ : Int) (rnd : Str) (rest : List (AReq × Int × Str)) {t u : Str}
    (ht : Lone t) (hu : Lone u) (hl : t.length = u.length) (hlen : t.length ≤ 65532) {buf : List USeg} (hb : buf.length = 19) (w : LoginState σ) :
    ∃ f, ∀ g, f ≤ g →
      serveLogins (c := c) x other env r hs buf g (({ q with path := disguised t u }, at_, rnd) :: rest) w =
        serveLogins x other env r hs buf g (({ q with path := slash :: t }, at_, rnd) :: rest) w := by
  obtain ⟨-, f, h⟩ := c126_violated_long (c := c) (env := env) (x := x) (other := other) r hs q ht hu hl hlen hb hb { w with now := at_, rnd := rnd }
  exact ⟨f, fun g hg => by simp only [serveLogins, h g hg]⟩

/-- An application whose login begins at `/login`. -/
def shortClub : List (Mux.Op (AHandler (LoginState (List Str)))) :=
  withLogin hubConfig 0 [] b!"/login" b!"/oauth/authorize" [] [] [] [] tokenShower

/-- C131 fails for paths of more than 65535 bytes: the only request before the callback was for `/guest`, not for the initiate path; yet the state given to it
lets the callback through to the user's handler. -/
theorem c131_violated : ∃ r, load plainExt id (newRouter false) 0 (run World.init shortClub).routes = some r ∧
    segmentsOf (disguised b!"login" b!"guest") = [b!"guest"] ∧
    ∃ f l w, (∀ g, f ≤ g → serveLogins (c := dotCodec) plainExt id simpleEnv r ((run World.init shortClub).routes.map (·.handler)) freshBuf g
      [({ req := { method := b!"GET" }, path := disguised b!"login" b!"guest" }, 1, b!"S1"),
        ({ req := { method := b!"GET", form := [(b!"state", [b!"S1"]), (b!"code", [b!"good"])] }, path := b!"/oauth/authorize/hub" }, 2, b!"S2")]
      ⟨0, [], [], []⟩ = some (l, w)) ∧ w.rest = [b!"T"] := by
  have hlog : Lone b!"login" := ⟨by decide, by decide, by decide⟩
  have h := (by decide +kernel : triedLogins (run World.init shortClub).routes
    [({ req := { method := b!"GET" }, path := b!"/login" }, 1, b!"S1"),
      ({ req := { method := b!"GET", form := [(b!"state", [b!"S1"]), (b!"code", [b!"good"])] }, path := b!"/oauth/authorize/hub" }, 2, b!"S2")] 40 =
    some ([[302], [200]], [b!"T"]))
  unfold triedLogins at h
  rw [Option.bind_eq_some_iff] at h
  obtain ⟨r, hr, h⟩ := h
  rw [Option.map_eq_some_iff] at h
  obtain ⟨⟨l, w⟩, h1, h2⟩ := h
  obtain ⟨f, hf⟩ := logins_disguised (c := dotCodec) (env := simpleEnv) (x := plainExt) (other := id) r ((run World.init shortClub).routes.map (·.handler))
    { req := { method := b!"GET" }, path := [] } 1 b!"S1"
    [({ req := { method := b!"GET", form := [(b!"state", [b!"S1"]), (b!"code", [b!"good"])] }, path := b!"/oauth/authorize/hub" }, 2, b!"S2")]
    hlog lone_guest rfl (by decide) (buf := freshBuf) (by decide) ⟨0, [], [], []⟩
  refine ⟨r, hr, segments_disguised hlog lone_guest, max f 40, l, w, fun g hg => ?_, ?_⟩
  · rw [hf g (by omega)]
    exact serveLogins_fuel (Nat.le_trans (Nat.le_max_right f 40) hg) h1
  · simp only [Prod.mk.injEq] at h2
    exact h2.2

end Gofre.Props
