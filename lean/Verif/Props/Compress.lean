import Verif.Proofs.Twin
import Verif.Props.Response

/-! # C54, C55, C74, C75, C76: compression, and responses that fail -/

namespace Gofre.Props
open Gofre.Http Gofre.Response Gofre.Spec

variable {env : Env} {c : Codec}

/-- The header block of a compressed response. -/
theorem compressed_block (he : Orders env) {req : RReq} {level : Int} {r : Resp} {w : Wr c} {a : Alg} (hal : algFor req.acceptEncoding = some a)
    (hp : Passes req b!"Content-Encoding" r) (ha : Absent (r.headers.getD []) b!"Content-Encoding") (hs : w.base.status = none) :
    ∃ code H, Answered w.base.out (seen ((Resp.compress level r).write env req w)) code H ∧ H b!"Content-Encoding" = [algName a] := by
  unfold Resp.write
  rw [Resp.writeWith, hal]
  have hg : Good (· = [algName a]) b!"Content-Encoding" w.base.out
      (r.writeWith env req true (⟨{ w.base with header := w.base.header.set b!"Content-Encoding" (algName a) }, ⟨c.start a level, false⟩ :: w.layers⟩ : Wr c)).thenClose.w.base := by
    refine Good.thenClose (good_write (w := (⟨{ w.base with header := w.base.header.set b!"Content-Encoding" (algName a) }, ⟨c.start a level, false⟩ :: w.layers⟩ : Wr c)) (h0 := fun H => H b!"Content-Encoding" = [algName a]) ?_ r true hp (has_encoding he r true hp ha) hs ?_)
    · intro H a' ha' hH
      obtain rfl := Option.some.inj (hal.symm.trans ha')
      rfl
    · rfl
  exact hg.seen (by
    have := passes_done (env := env) (c := c) (.compress level r) false (w := w) hp hs
    simp only [Resp.writeWith, hal] at this
    exact this)

/-- C54 (for `Accept-Encoding` headers in ASCII that do not list `compress`): if the client gets a
content encoding then it has listed it. -/
theorem c54_listed_partial (he : Orders env) {req : RReq} {level : Int} {r : Resp} {w : Wr c} (hacc : AsciiText req.acceptEncoding)
    (hc : ¬ Lists req.acceptEncoding b!"compress") (hp : Passes req b!"Content-Encoding" r) (ha : Absent (r.headers.getD []) b!"Content-Encoding")
    (hs : w.base.status = none) :
    (r.write env req w = (Resp.compress level r).write env req w) ∨
    ∃ code H name, Answered w.base.out (seen ((Resp.compress level r).write env req w)) code H ∧ H b!"Content-Encoding" = [name] ∧ Lists req.acceptEncoding name := by
  unfold Resp.write
  rw [Resp.writeWith]
  cases hal : algFor req.acceptEncoding with
  | none => exact .inl rfl
  | some a =>
    refine .inr ?_
    have hg : Good (· = [algName a]) b!"Content-Encoding" w.base.out
        (r.writeWith env req true (⟨{ w.base with header := w.base.header.set b!"Content-Encoding" (algName a) }, ⟨c.start a level, false⟩ :: w.layers⟩ : Wr c)).thenClose.w.base := by
      refine Good.thenClose (good_write (w := (⟨{ w.base with header := w.base.header.set b!"Content-Encoding" (algName a) }, ⟨c.start a level, false⟩ :: w.layers⟩ : Wr c)) (h0 := fun H => H b!"Content-Encoding" = [algName a]) ?_ r true hp (has_encoding he r true hp ha) hs ?_)
      · intro H a' ha' hH
        obtain rfl := Option.some.inj (hal.symm.trans ha')
        rfl
      · rfl
    obtain ⟨code, H, h1, h2⟩ := hg.seen (by
      have := passes_done (env := env) (c := c) (.compress level r) false (w := w) hp hs
      simp only [Resp.writeWith, hal] at this
      exact this)
    refine ⟨code, H, algName a, h1, h2, ?_⟩
    rcases alg_listed hacc hal with h | h
    · exact h
    · exact absurd h hc

/-- C54: which encoding the client gets, for every `Accept-Encoding`. -/
theorem c54_exact_partial (he : Orders env) {req : RReq} {level : Int} {r : Resp} {w : Wr c}
    (hp : Passes req b!"Content-Encoding" r) (ha : Absent (r.headers.getD []) b!"Content-Encoding") (hs : w.base.status = none) :
    (Takes req.acceptEncoding b!"gzip" ∨ Takes req.acceptEncoding b!"compress" →
      ∃ code H, Answered w.base.out (seen ((Resp.compress level r).write env req w)) code H ∧ H b!"Content-Encoding" = [b!"gzip"]) ∧
    (Takes req.acceptEncoding b!"deflate" ∧ ¬ (Takes req.acceptEncoding b!"gzip" ∨ Takes req.acceptEncoding b!"compress") →
      ∃ code H, Answered w.base.out (seen ((Resp.compress level r).write env req w)) code H ∧ H b!"Content-Encoding" = [b!"deflate"]) ∧
    (¬ Takes req.acceptEncoding b!"gzip" ∧ ¬ Takes req.acceptEncoding b!"compress" ∧ ¬ Takes req.acceptEncoding b!"deflate" →
      (Resp.compress level r).write env req w = r.write env req w) := by
  obtain ⟨g, d, n⟩ := alg_exact req.acceptEncoding
  refine ⟨fun h => compressed_block he (g.2 h) hp ha hs, fun h => compressed_block he (d.2 h) hp ha hs, fun h => ?_⟩
  unfold Resp.write
  rw [Resp.writeWith, n.2 h]

example : Passes { acceptEncoding := b!"br,\tDEFLATE" } b!"Content-Encoding" (.text {} b!"hi") ∧ Takes b!"br,\tDEFLATE" b!"deflate" ∧ Takes b!"br,\u2003deflate" b!"deflate" :=
  ⟨⟨by decide, by decide⟩, (takes_iff (by decide)).2 (by decide), (takes_iff (by decide)).2 (by decide)⟩

/-- C54: without a supported encoding the response is written as it is. -/
theorem c54_unmodified_partial {req : RReq} {level : Int} {r : Resp} {w : Wr c} (hu : ¬ Understood req.acceptEncoding) : (Resp.compress level r).write env req w = r.write env req w := by
  unfold Resp.write
  rw [Resp.writeWith]
  rw [(alg_understood _).2 hu]

/-- A name with a byte that is nowhere in the header is not listed. -/
theorem not_listed {accept name : Str} {b : UInt8} (hb : b ∈ name) (h : ∀ c ∈ accept, lowerByte c ≠ b) : ¬ Lists accept name := by
  rintro ⟨e, he, pre, mid, post, h1, _, _, h2⟩
  rw [← h2] at hb
  obtain ⟨x, hx, hx2⟩ := List.mem_map.1 hb
  have : ∀ (s : Str) (e : Str), e ∈ splitOn 44 s → ∀ b ∈ e, b ∈ s := by
    intro s e he b hb
    have hj := joinWith_splitOn 44 s
    have : ∀ l : List Str, e ∈ l → b ∈ joinWith 44 l := by
      intro l
      induction l with
      | nil => intro h; exact absurd h (by simp)
      | cons a l ih =>
        intro hm
        cases l with
        | nil => rw [List.mem_singleton.1 hm] at hb; exact hb
        | cons a' l =>
          simp only [joinWith, List.mem_append, List.mem_cons]
          rcases List.mem_cons.1 hm with rfl | hm
          · exact .inl hb
          · exact .inr (.inr (ih hm))
    rw [← hj]
    exact this _ he
  exact h x (this _ _ he x (by rw [h1]; simp [hx])) hx2

example : AsciiText b!"br, GZIP ,identity" ∧ Lists b!"br, GZIP ,identity" b!"gzip" ∧ ¬ Lists b!"br, GZIP ,identity" b!"compress" ∧ algFor b!"br, GZIP ,identity" = some .gzip :=
  ⟨by unfold AsciiText; decide, ⟨b!" GZIP ", by decide, b!" ", b!"GZIP", b!" ", rfl, by unfold Blank; decide, by unfold Blank; decide, by decide⟩, not_listed (b := 115) (by decide) (by decide), by decide +kernel⟩

example : ¬ Understood b!"br, identity, x gzip" ∧ Understood b!"br;q=1, \u00a0gzİp" := by decide

/-- C54 fails for `compress`, an encoding of its own: the client gets gzip. -/
theorem c54_violated : ¬ Lists b!"compress" b!"gzip" ∧ ∃ H rest, ((Resp.compress 5 (.text {} b!"hi")).write simpleEnv { acceptEncoding := b!"compress" } ({} : Wr dotCodec)).w.base.out = .head 200 H :: rest ∧
    H b!"Content-Encoding" = [b!"gzip"] :=
  ⟨not_listed (b := 122) (by decide) (by decide), _, _, rfl, by decide⟩

/-- C54 fails outside ASCII: a name with a dotted capital İ counts as gzip. -/
theorem c54_violated_letter : ¬ Lists b!"gzİp" b!"gzip" ∧ ∃ H rest, ((Resp.compress 5 (.text {} b!"hi")).write simpleEnv { acceptEncoding := b!"gzİp" } ({} : Wr dotCodec)).w.base.out = .head 200 H :: rest ∧
    H b!"Content-Encoding" = [b!"gzip"] :=
  ⟨not_listed (b := 105) (by decide) (by decide), _, _, rfl, by decide⟩

/-- C55: a compressed response can be made exactly for the levels -1 to 9. -/
theorem c55_levels (r : Resp) (level : Int) : (∃ r', newCompress r level = some r') ↔ -1 ≤ level ∧ level ≤ 9 := by
  unfold newCompress
  split
  · simp; omega
  · simp; omega

/-- C55: it has the status, the headers and the cookies of the response inside, also after changes. -/
theorem c55_preserves {r r' : Resp} {level : Int} (h : newCompress r level = some r') (f : Map Str → Map Str) (g : Map Cookie → Map Cookie) :
    r'.statusCode = r.statusCode ∧ r'.headers = r.headers ∧ r'.cookies = r.cookies ∧
      (r'.mapHeaders f).headers = (r.mapHeaders f).headers ∧ (r'.mapCookies g).cookies = (r.mapCookies g).cookies := by
  unfold newCompress at h
  split at h
  · exact absurd h (by simp)
  · obtain rfl := Option.some.inj h
    exact ⟨rfl, rfl, rfl, rfl, rfl⟩

example : ∃ r', newCompress (.text { status := 404 } b!"x") 9 = some r' ∧ r'.statusCode = 404 := ⟨_, rfl, rfl⟩
example : newCompress (.text {} b!"x") 10 = none ∧ newCompress (.text {} b!"x") (-2) = none := ⟨rfl, rfl⟩

theorem decodes_as (he : Orders env) {decode : Alg → Str → Option Str} (hd : Lossless c decode) {req : RReq} {level : Int} {r : Resp} {h : HeadResp} {w w' : Wr c} {ok : Bool}
    (hlev : -1 ≤ level ∧ level ≤ 9) {a : Alg} (hal : algFor req.acceptEncoding = some a) (hk : headOf req r = some h) (hl : w.layers = []) (hs : w.base.status = none)
    (hf : FinalStatus h.statusCode) (hb : W.bodyAllowed h.statusCode.toNat = true) (ho : w.base.out = []) (hr : Reliable w.base)
    (ha : Absent (h.headers.getD []) b!"Content-Encoding") (hw : r.write env req w = .ret ok w') :
    ∃ w1 H rest, (Resp.compress level r).write env req w = .ret ok w1 ∧ w1.base.out = .head h.statusCode.toNat H :: rest ∧
      H b!"Content-Encoding" = [algName a] ∧ decode a (bodyOf w1.base.out) = some (bodyOf w'.base.out) := by
  have ht := twin_resp (env := env) (s := c.start a level) (h0 := w.base.header.set b!"Content-Encoding" (algName a)) hk hl hs hf hb (by rw [ho]; rfl) hr
  have e : (Resp.compress level r).write env req w = (r.writeWith env req true (⟨{ w.base with header := w.base.header.set b!"Content-Encoding" (algName a) }, [⟨c.start a level, false⟩]⟩ : Wr c)).thenClose := by
    unfold Resp.write
    rw [Resp.writeWith, hal]
    simp only [Wr.setHeader, hl]
  have hw' : r.writeWith env req false w = .ret ok w' := hw
  rw [hw'] at ht
  cases hx : r.writeWith env req true (⟨{ w.base with header := w.base.header.set b!"Content-Encoding" (algName a) }, [⟨c.start a level, false⟩]⟩ : Wr c) with
  | panic w2 => rw [hx] at ht; cases ht
  | blocked w2 => rw [hx] at ht; cases ht
  | ret ok2 w2 =>
    rw [hx] at ht
    cases ht with
    | ret _ ht =>
      rename_i ops
      have hm : More (headed (⟨{ w.base with header := w.base.header.set b!"Content-Encoding" (algName a) }, [⟨c.start a level, false⟩]⟩ : Wr c) h.statusCode.toNat
          (blockOf env (h.without true) (w.base.header.set b!"Content-Encoding" (algName a)))).base (WRes.ret ok w2).thenClose.w.base := by
        rw [← hx]
        have hm := kind_writeWith (env := env) (c := c) true (w := ⟨{ w.base with header := w.base.header.set b!"Content-Encoding" (algName a) }, [⟨c.start a level, false⟩]⟩) hk hs hf
        exact hm.trans (more_thenClose (hm.some rfl))
      obtain ⟨rest, h1, _, _⟩ := headed_more (w' := w2.close) hm
      refine ⟨w2.close, blockOf env (h.without true) (w.base.header.set b!"Content-Encoding" (algName a)), rest, by rw [e, hx]; rfl, by rw [h1]; simp [ho], ?_, ?_⟩
      · exact ((block_ok he (h.without true) _).others b!"Content-Encoding" (absent_without (drop := true) ha) (by decide) (by decide) (by decide)).trans rfl
      · rw [ht.close hb, ht.body]
        exact hd a level ops hlev.1 hlev.2

theorem algName_name (a : Alg) : algName a = encodingName a := by cases a <;> rfl

/-- C74 (one compressing response around a response that is none, without a custom
`Content-Encoding`, over a connection that does not fail): for a client that lists no encoding the server understands the response is
written as it is; otherwise the body decodes, in the encoding announced, which is the one to be chosen for the client,
to the body that would be sent without compression, and the outcome is the same. -/
theorem c74_decodes_partial (he : Orders env) {decode : Alg → Str → Option Str} (hd : Lossless c decode) {req : RReq} {level : Int} {r : Resp} {h : HeadResp} {w w' : Wr c} {ok : Bool}
    (hlev : -1 ≤ level ∧ level ≤ 9) (hk : headOf req r = some h) (hl : w.layers = []) (hs : w.base.status = none)
    (hf : FinalStatus h.statusCode) (hb : BodyStatus h.statusCode) (ho : w.base.out = []) (hr : Reliable w.base)
    (ha : Absent (h.headers.getD []) b!"Content-Encoding") (hw : r.write env req w = .ret ok w') :
    ((Resp.compress level r).write env req w = .ret ok w' ∧ ¬ Understood req.acceptEncoding) ∨
    ∃ a w1 H rest, Chosen req.acceptEncoding a ∧ (Resp.compress level r).write env req w = .ret ok w1 ∧ w1.base.out = .head h.statusCode.toNat H :: rest ∧
      H b!"Content-Encoding" = [encodingName a] ∧ decode a (bodyOf w1.base.out) = some (bodyOf w'.base.out) := by
  cases hal : algFor req.acceptEncoding with
  | none =>
    refine .inl ⟨?_, (alg_understood _).1 hal⟩
    rw [← hw]
    unfold Resp.write
    rw [Resp.writeWith, hal]
  | some a =>
    obtain ⟨w1, H, rest, h1⟩ := decodes_as (c := c) he hd hlev hal hk hl hs hf hb.allowed ho hr ha hw
    rw [algName_name] at h1
    exact .inr ⟨a, w1, H, rest, (alg_chosen _ a).1 hal, h1⟩

/-- Decoding for `dotCodec`. -/
def undot (_ : Alg) (s : Str) : Option Str := if s.getLast? = some 46 then some s.dropLast else none

theorem dot_feed : ∀ (l : List Feeding) (s : Str), feedAll dotCodec ((), s) l = ((), s ++ writtenBytes l)
  | [], s => congrArg (Prod.mk ()) (by simp [writtenBytes])
  | .write b :: l, s => by
    rw [feedAll]
    exact (dot_feed l (s ++ b)).trans (congrArg (Prod.mk ()) (by simp [writtenBytes]))
  | .flush :: l, s => by
    rw [feedAll]
    exact (dot_feed l (s ++ [])).trans (congrArg (Prod.mk ()) (by simp [writtenBytes]))

theorem dot_lossless : Lossless dotCodec undot := by
  intro a level l _ _
  show undot a ((feedAll dotCodec ((), []) l).2 ++ b!".") = _
  rw [dot_feed]
  simp [undot]

example : ∃ w1 H rest, (Resp.compress 9 (.text {} b!"hi")).write simpleEnv { acceptEncoding := b!"gzip" } ({} : Wr dotCodec) = .ret true w1 ∧ w1.base.out = .head 200 H :: rest ∧
    H b!"Content-Encoding" = [b!"gzip"] ∧ undot .gzip (bodyOf w1.base.out) = some b!"hi" :=
  decodes_as (r := .text {} b!"hi") (h := {}) (level := 9) (req := { acceptEncoding := b!"gzip" }) (a := .gzip) (w := {}) simple_orders dot_lossless ⟨by decide, by decide⟩ (by decide +kernel) rfl rfl rfl (.inr (by decide)) (by decide) rfl (fun _ => rfl)
    (fun _ _ h => by simp at h) rfl

/-- C74 fails when the response is compressed twice: only one encoding is announced. -/
theorem c74_violated : Lossless dotCodec undot ∧ ∃ H rest, ((Resp.compress 5 (.compress 5 (.text {} b!"hi"))).write simpleEnv { acceptEncoding := b!"gzip" } ({} : Wr dotCodec)).w.base.out = .head 200 H :: rest ∧
    H b!"Content-Encoding" = [b!"gzip"] ∧ undot .gzip (bodyOf rest) = some b!"hi." :=
  ⟨dot_lossless, _, _, rfl, by decide, by decide⟩

/-- C74 fails when the response has its own `Content-Encoding`: the body is compressed, but the
announced encoding is that of the response. -/
theorem c74_violated_custom : ∃ H rest, ((Resp.compress 5 (.text { headers := some [(b!"content-encoding", b!"identity")] } b!"hi")).write simpleEnv { acceptEncoding := b!"gzip" } ({} : Wr dotCodec)).w.base.out = .head 200 H :: rest ∧
    H b!"Content-Encoding" = [b!"identity"] ∧ bodyOf rest = b!"hi." :=
  ⟨_, _, rfl, by decide, by decide⟩

/-- C75 fails: a `Content-Length` that is right without compression is sent with the compressed body. -/
theorem c75_violated : ∃ (r : Resp) (H H' : Header) (rest rest' : List Ev),
    (r.write simpleEnv { acceptEncoding := b!"gzip" } ({} : Wr dotCodec)).w.base.out = .head 200 H :: rest ∧ H b!"Content-Length" = [itoa (bodyOf rest).length] ∧
    ((Resp.compress 5 r).write simpleEnv { acceptEncoding := b!"gzip" } ({} : Wr dotCodec)).w.base.out = .head 200 H' :: rest' ∧ H' b!"Content-Length" ≠ [itoa (bodyOf rest').length] :=
  ⟨.text { headers := some [(b!"Content-Length", b!"2")] } b!"hi", _, _, _, _, rfl, by decide, rfl, by decide⟩

/-- C75 when nothing is compressed: the response with its `Content-Length` is sent as it is. -/
theorem c75_uncompressed_partial {req : RReq} {level : Int} {r : Resp} {w : Wr c} (hu : ¬ Understood req.acceptEncoding) :
    ((Resp.compress level r).write env req w).w.base.out = (r.write env req w).w.base.out := by
  rw [c54_unmodified_partial hu]

/-- C75 without a `Content-Length` of its own: none is announced. -/
theorem c75_absent_partial (he : Orders env) {req : RReq} {level : Int} {r : Resp} {h : HeadResp} {w : Wr c} (hk : headOf req r = some h) (hs : w.base.status = none)
    (hf : FinalStatus h.statusCode) (ha : Absent (h.headers.getD []) b!"Content-Length") (h0 : w.base.header b!"Content-Length" = []) :
    ∃ H rest, ((Resp.compress level r).write env req w).w.base.out = w.base.out ++ .head h.statusCode.toNat H :: rest ∧ H b!"Content-Length" = [] := by
  unfold Resp.write
  rw [Resp.writeWith]
  cases hal : algFor req.acceptEncoding with
  | none =>
    obtain ⟨rest, h1, _, _⟩ := headed_more (kind_writeWith (env := env) (c := c) false hk hs hf)
    exact ⟨_, rest, h1, ((block_ok he (h.without false) _).others b!"Content-Length" (absent_without (drop := false) ha) (by decide) (by decide) (by decide)).trans h0⟩
  | some a =>
    have hm := kind_writeWith (env := env) (c := c) true (w := ⟨{ w.base with header := w.base.header.set b!"Content-Encoding" (algName a) }, ⟨c.start a level, false⟩ :: w.layers⟩) hk hs hf
    obtain ⟨rest, h1, _, _⟩ := headed_more (hm.trans (more_thenClose (hm.some rfl)))
    exact ⟨_, rest, h1, ((block_ok he (h.without true) _).others b!"Content-Length" (absent_without (drop := true) ha) (by decide) (by decide) (by decide)).trans h0⟩

example : ∃ H rest, ((Resp.compress 5 (.text {} b!"hi")).write simpleEnv { acceptEncoding := b!"deflate" } ({} : Wr dotCodec)).w.base.out = [] ++ .head 200 H :: rest ∧ H b!"Content-Length" = [] :=
  c75_absent_partial (h := {}) simple_orders rfl rfl (.inr (by decide)) (fun _ _ h => by simp at h) rfl

/-- C76 fails: a response whose status is no HTTP status is answered with 200. -/
theorem c76_violated_status {req : RReq} {r : Resp} {h : HeadResp} {w : Wr c} (hk : headOf req r = some h) (hf : h.statusCode < 100 ∨ h.statusCode > 999) (hs : w.base.status = none) :
    (∃ w', r.write env req w = .ret false w') ∧ seen (r.write env req w) = w.base.out ++ [.head 200 w.base.header] := by
  rw [c56_invalid hk hf]
  exact ⟨⟨_, rfl⟩, by simp [seen, WRes.w, W.commit, hs]⟩

/-- C76 fails for a JSON payload that cannot be encoded: 200 with an empty body. -/
theorem c76_violated : ∃ w' H, (Resp.json { status := 200 } (some none)).write simpleEnv {} ({} : Wr dotCodec) = .ret false w' ∧
    seen ((Resp.json { status := 200 } (some none)).write simpleEnv {} ({} : Wr dotCodec)) = [.head 200 H] := ⟨_, _, rfl, rfl⟩

end Gofre.Props
