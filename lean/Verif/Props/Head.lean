import Verif.Props.Serve

/-! # C125: HEAD requests -/

namespace Gofre.Props
open Gofre.Http Gofre.Response Gofre.Serve Gofre.Path Gofre.Spec

variable {x : Ext} {other : Str → Str} {ci : Bool} {env : Env} {c : Codec}

/-- C125 fails: unless a route has been registered for HEAD itself, every HEAD request gets a bare 404, whatever the routes for GET do. -/
theorem c125_violated_never {es : List Route} {r : Router} (hr : Built x other sortSiblings ci es r) (hno : ∀ e ∈ es, Ascii e.method ∧ ¬ SameMethod e.method b!"HEAD")
    (act : Nat → Act) (req : RReq) (hm : req.method = b!"HEAD") (path : Str) {buf : List USeg} (hb : buf.length = 19) :
    ∃ (f : Nat) (res : WRes c), (∀ g, f ≤ g → serve x other env r act req path buf g = some res) ∧ seen res = [.head 404 fun _ => []] := by
  obtain ⟨f, hf⟩ := c26_no_method hr (fun h => behaviour (act h)) req.method path hb (fun e he h => (hno e he).2 (by
    rw [hm] at h
    exact (toUpper_eq_iff (hno e he).1 (by unfold Ascii; decide)).1 h))
  exact ⟨f, onConnection env act req [.status 404], fun g hg => by rw [serve_eq, hf g hg]; rfl, rfl⟩

/-- A router with a page. -/
example : ∃ r, Built plainExt id sortSiblings false [⟨b!"GET", b!"/a", 7⟩] r ∧ ∃ (f : Nat) (res : WRes dotCodec),
    (∀ g, f ≤ g → serve plainExt id simpleEnv r (fun _ => .fails) { method := b!"HEAD" } b!"/a" freshBuf g = some res) ∧ seen res = [.head 404 fun _ => []] := by
  obtain ⟨r, h1, _⟩ := serve0_spec (l := [(b!"/a", 7)]) (behave := fun _ => .noResponse) (path := b!"/a") (fuel := 5) (evs := [.ran 7, .panic]) (by decide +kernel)
  refine ⟨r, h1, c125_violated_never h1 ?_ _ _ rfl _ (by decide)⟩
  intro e he
  rw [List.mem_singleton.1 he]
  exact ⟨by unfold Ascii; decide, by rintro ⟨⟩; rename_i h _; exact absurd h (by simp [sameLetter])⟩

/-- Routers whose routes for GET have all been registered for HEAD as well, one after the other. -/
inductive Mirrored (x : Ext) (other : Str → Str) (ci : Bool) : Router → Prop
  | new : Mirrored x other ci (newRouter ci)
  | both {r r₁ r₂} (pat : Str) (h : Nat) : Mirrored x other ci r → handle x other sortSiblings r b!"GET" pat h = .returned r₁ →
      handle x other sortSiblings r₁ b!"HEAD" pat h = .returned r₂ → Mirrored x other ci r₂
  | elsewhere {r r'} (method pat : Str) (h : Nat) : Mirrored x other ci r → Ascii method → ¬ SameMethod method b!"GET" → ¬ SameMethod method b!"HEAD" →
      handle x other sortSiblings r method pat h = .returned r' → Mirrored x other ci r'

theorem handle_at {r r' : Router} {method pat : Str} {h : Nat} (hh : handle x other sortSiblings r method pat h = .returned r') :
    r'.ci = r.ci ∧ (∀ M, M ≠ toUpper other method → r'.matchers M = r.matchers M) ∧ ∃ p, parsePattern x r.ci pat = .ok p ∧
      r'.matchers (toUpper other method) = some (addPattern x r.ci sortSiblings ((r.matchers (toUpper other method)).getD {}) { p with attachment := h }).1 := by
  unfold handle at hh
  split at hh
  · cases hh
  · cases hh
  · cases hh
  · rename_i p hp
    split at hh
    rename_i m err hm
    dsimp only at hh
    split at hh
    · cases hh
    · cases hh
      refine ⟨rfl, fun M hM => by simp [hM], p, hp, by simp [hm]⟩

theorem mirrored_same {r : Router} (h : Mirrored x other ci r) : r.matchers b!"HEAD" = r.matchers b!"GET" := by
  have hg : toUpper other b!"GET" = b!"GET" := by unfold toUpper; rfl
  have hh : toUpper other b!"HEAD" = b!"HEAD" := by unfold toUpper; rfl
  induction h with
  | new => rfl
  | both pat h _ h1 h2 ih =>
    obtain ⟨a1, a2, p, a3, a4⟩ := handle_at h1
    obtain ⟨b1, b2, q, b3, b4⟩ := handle_at h2
    rw [hg] at a2 a4
    rw [hh] at b2 b4
    rw [b4, b2 _ (by decide), a4, a2 _ (by decide), ih, a1]
    rw [a1, a3] at b3
    cases b3
    rfl
  | elsewhere method pat h _ ha n1 n2 h1 ih =>
    obtain ⟨_, a2, _⟩ := handle_at h1
    rw [a2 _ (fun e => n2 ((toUpper_eq_iff (other := other) ha (by unfold Ascii; decide)).1 (by rw [hh]; exact e.symm))),
      a2 _ (fun e => n1 ((toUpper_eq_iff (other := other) ha (by unfold Ascii; decide)).1 (by rw [hg]; exact e.symm))), ih]

/-- C125 (when every route for GET is registered for HEAD as well): a HEAD request does what the GET request does. -/
theorem c125_mirrored_partial {r : Router} (h : Mirrored x other ci r) (behave : Nat → Behaviour) (path : Str) (buf : List USeg) (fuel : Nat) :
    serveHTTP x other r behave b!"HEAD" path buf fuel = serveHTTP x other r behave b!"GET" path buf fuel := by
  unfold serveHTTP
  rw [show toUpper other b!"HEAD" = b!"HEAD" by unfold toUpper; rfl, show toUpper other b!"GET" = b!"GET" by unfold toUpper; rfl, mirrored_same h]

/-- A page registered for both. -/
example : ∃ r, Mirrored plainExt id false r ∧ serveHTTP plainExt id r (fun _ => .fails) b!"HEAD" b!"/a" freshBuf 9 = some [.ran 7, .logged, .status 500] := by
  let f : HandleRes → Option Router := fun | .returned r => some r | _ => none
  have hf : ∀ h r, f h = some r → h = .returned r := by
    intro h r
    cases h <;> simp [f]
  have h : ((f (handle plainExt id sortSiblings (newRouter false) b!"GET" b!"/a" 7)).bind fun r => (f (handle plainExt id sortSiblings r b!"HEAD" b!"/a" 7)).bind fun r =>
      serveHTTP plainExt id r (fun _ => .fails) b!"HEAD" b!"/a" freshBuf 9) = some [.ran 7, .logged, .status 500] := by decide +kernel
  obtain ⟨r₁, h1, h⟩ := Option.bind_eq_some_iff.1 h
  obtain ⟨r₂, h2, h⟩ := Option.bind_eq_some_iff.1 h
  exact ⟨r₂, .both b!"/a" 7 .new (hf _ _ h1) (hf _ _ h2), h⟩

end Gofre.Props
