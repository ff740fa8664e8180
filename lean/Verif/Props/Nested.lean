import Verif.Proofs.Tower
import Verif.Props.Compress

/-! # Responses compressed several times (C74) -/

namespace Gofre.Props
open Gofre.Http Gofre.Response Gofre.Spec
variable {c : Codec} {env : Env}

theorem nested_writeWith (he : Orders env) {decode : Alg → Str → Option Str} (hd : Lossless c decode) {req : RReq} {r : Resp} {h : HeadResp} {w w' : Wr c} {ok : Bool} {a : Alg}
    (hal : algFor req.acceptEncoding = some a) (hk : headOf req r = some h) (hl : w.layers = []) (hs : w.base.status = none)
    (hf : FinalStatus h.statusCode) (hb : W.bodyAllowed h.statusCode.toNat = true) (ho : bodyOf w.base.out = []) (hr : Reliable w.base)
    (ha : Absent (h.headers.getD []) b!"Content-Encoding") (hw : r.writeWith env req false w = .ret ok w') :
    ∀ (levels : List Int) (ss : List c.σ) (h0 : Header) (drop : Bool), (∀ l ∈ levels, -1 ≤ l ∧ l ≤ 9) → (levels ≠ [] ∨ h0 b!"Content-Encoding" = [algName a]) →
      ∃ w1 x H, (nested levels r).writeWith env req drop (⟨{ w.base with header := h0 }, ss.map fun s => ⟨s, false⟩⟩ : Wr c) = .ret ok w1 ∧
        Given c ss h.statusCode.toNat x w1 ∧ decodings (decode a) levels.length x = some (bodyOf w'.base.out) ∧ H b!"Content-Encoding" = [algName a] ∧
        More { w.base with header := H, status := some h.statusCode.toNat, out := w.base.out ++ [.head h.statusCode.toNat H] } w1.base
  | [], ss, h0, drop, _, hne => by
    have ht := tower_resp (env := env) (ss := ss) (h0 := h0) drop hk hl hs hf hb ho hr
    have hm := kind_writeWith (env := env) (c := c) drop (w := ⟨{ w.base with header := h0 }, ss.map fun s => ⟨s, false⟩⟩) hk hs hf
    rw [hw] at ht
    show ∃ w1 x H, r.writeWith env req drop _ = _ ∧ _
    cases hx : r.writeWith env req drop (⟨{ w.base with header := h0 }, ss.map fun s => ⟨s, false⟩⟩ : Wr c) with
    | panic w2 => rw [hx] at ht; cases ht
    | blocked w2 => rw [hx] at ht; cases ht
    | ret ok2 w2 =>
      rw [hx] at ht hm
      cases ht with
      | ret _ ht =>
        refine ⟨w2, bodyOf w'.base.out, blockOf env (h.without drop) h0, rfl, ⟨⟨_, ht.fed, ht.body.symm⟩, ht.status1, ht.plan1⟩, rfl, ?_, hm⟩
        exact ((block_ok he (h.without drop) _).others b!"Content-Encoding" (absent_without (drop := drop) ha) (by decide) (by decide) (by decide)).trans (hne.resolve_left fun h => h rfl)
  | l :: levels, ss, h0, drop, hlev, _ => by
    obtain ⟨w1, x, H, e, hg, hdec, hH, hm⟩ := nested_writeWith he hd hal hk hl hs hf hb ho hr ha hw levels (c.start a l :: ss) (h0.set b!"Content-Encoding" (algName a)) true
      (fun k hk => hlev k (.tail _ hk)) (.inr rfl)
    obtain ⟨ops, hops, hg'⟩ := given_close hb hg
    refine ⟨w1.close, _, H, ?_, hg', ?_, hH, ?_⟩
    · show (Resp.compress l (nested levels r)).writeWith env req drop _ = _
      rw [Resp.writeWith, hal]
      exact congrArg WRes.thenClose e
    · have := hd a l ops (hlev l (.head _)).1 (hlev l (.head _)).2
      show (decode a _).bind _ = _
      rw [this, hops]
      exact hdec
    · exact hm.trans (more_thenClose (r := .ret ok w1) (by rw [show (WRes.ret ok w1).w = w1 from rfl, hg.status]; rfl))

theorem decodings_one {decode : Str → Option Str} : ∀ (n : Nat) {x y : Str}, decodings decode (n + 1) x = some y → ∃ z, decode x = some z ∧ decodings decode n z = some y
  | n, x, y, h => by
    have h : (decode x).bind (decodings decode n) = some y := h
    cases hx : decode x with
    | none => rw [hx] at h; cases h
    | some z => rw [hx] at h; exact ⟨z, rfl, h⟩

/-- C74 for a response wrapped in any number of compressing responses: when the client is to get a
compressed body, one encoding is announced, and the body has to be decoded in it as often as the response was
wrapped in order to get the body that would be sent without compression.  Missing: a response that announces
an encoding itself (`c74_violated_custom`) and one whose status has no body. -/
theorem c74_nested_partial (he : Orders env) {decode : Alg → Str → Option Str} (hd : Lossless c decode) {req : RReq} {levels : List Int} {r : Resp} {h : HeadResp} {w w' : Wr c} {ok : Bool}
    (hlev : ∀ l ∈ levels, -1 ≤ l ∧ l ≤ 9) (hne : levels ≠ []) {a : Alg} (hal : Chosen req.acceptEncoding a) (hk : headOf req r = some h)
    (hl : w.layers = []) (hs : w.base.status = none) (hf : FinalStatus h.statusCode) (hb : BodyStatus h.statusCode) (ho : w.base.out = []) (hr : Reliable w.base)
    (ha : Absent (h.headers.getD []) b!"Content-Encoding") (hw : r.write env req w = .ret ok w') :
    ∃ w1 H rest, (nested levels r).write env req w = .ret ok w1 ∧ w1.base.out = .head h.statusCode.toNat H :: rest ∧ H b!"Content-Encoding" = [encodingName a] ∧
      decodings (decode a) levels.length (bodyOf w1.base.out) = some (bodyOf w'.base.out) := by
  obtain ⟨w1, x, H, e, ⟨⟨ops, hfed, hx⟩, _, _⟩, hdec, hH, hm⟩ := nested_writeWith (c := c) he hd ((alg_chosen _ a).2 hal) hk hl hs hf hb.allowed (by rw [ho]; rfl) hr ha hw levels []
    w.base.header false hlev (.inl hne)
  obtain ⟨rest, h1, _⟩ := hm.out
  have ew : (⟨{ w.base with header := w.base.header }, ([] : List c.σ).map fun s => ⟨s, false⟩⟩ : Wr c) = w := by
    obtain ⟨base, layers⟩ := w
    obtain rfl : layers = [] := hl
    rfl
  rw [ew] at e
  refine ⟨w1, H, rest, e, by rw [h1]; simp [ho], by rw [hH, algName_name], ?_⟩
  generalize bodyOf w1.base.out = body at hfed ⊢
  generalize w1.layers = ls at hfed
  cases hfed with
  | nil => rw [hx]; exact hdec

/-- C74 fails for every response wrapped twice or more: a client that decodes the body as announced gets the
body that would be sent without compression only if that body, decoded again, gives itself. -/
theorem c74_violated_never (he : Orders env) {decode : Alg → Str → Option Str} (hd : Lossless c decode) {req : RReq} {l : Int} {levels : List Int} {r : Resp} {h : HeadResp} {w w' : Wr c} {ok : Bool}
    (hlev : ∀ k ∈ l :: levels, -1 ≤ k ∧ k ≤ 9) {a : Alg} (hal : Chosen req.acceptEncoding a) (hk : headOf req r = some h)
    (hl : w.layers = []) (hs : w.base.status = none) (hf : FinalStatus h.statusCode) (hb : BodyStatus h.statusCode) (ho : w.base.out = []) (hr : Reliable w.base)
    (ha : Absent (h.headers.getD []) b!"Content-Encoding") (hw : r.write env req w = .ret ok w')
    (hq : decodings (decode a) levels.length (bodyOf w'.base.out) ≠ some (bodyOf w'.base.out)) :
    ∃ w1 H rest, (nested (l :: levels) r).write env req w = .ret ok w1 ∧ w1.base.out = .head h.statusCode.toNat H :: rest ∧ H b!"Content-Encoding" = [encodingName a] ∧
      decode a (bodyOf w1.base.out) ≠ some (bodyOf w'.base.out) := by
  obtain ⟨w1, H, rest, h1, h2, h3, h4⟩ := c74_nested_partial (c := c) he hd hlev (by simp) hal hk hl hs hf hb ho hr ha hw
  refine ⟨w1, H, rest, h1, h2, h3, fun hx => ?_⟩
  obtain ⟨z, hz, hz'⟩ := decodings_one _ h4
  rw [hx] at hz
  cases hz
  exact hq hz'

/-- The hypotheses hold for a text compressed three times. -/
example : ∃ w1 H rest, (nested [5, 9, -1] (.text {} b!"hi")).write simpleEnv { acceptEncoding := b!"gzip" } ({} : Wr dotCodec) = .ret true w1 ∧ w1.base.out = .head 200 H :: rest ∧
    H b!"Content-Encoding" = [b!"gzip"] ∧ undot .gzip (bodyOf w1.base.out) ≠ some b!"hi" :=
  c74_violated_never (r := .text {} b!"hi") (h := {}) (l := 5) (levels := [9, -1]) (req := { acceptEncoding := b!"gzip" }) (a := .gzip) (w := {}) simple_orders dot_lossless
    (by decide) (by decide) rfl rfl rfl (.inr (by decide)) (by decide) rfl (fun _ => rfl) (fun _ _ h => by simp at h) rfl (by decide +kernel)

end Gofre.Props
