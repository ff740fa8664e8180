import Verif.Spec.Browser
import Verif.Props.Compress

/-! # C56, C55, C102: one status line whatever is written; the level; redirects -/

namespace Gofre.Spec
open Gofre.Http

/-- A status line. -/
def isHead : Ev → Bool
  | .head _ _ => true
  | _ => false

/-- A client can read this as (the beginning of) one response: informational responses and possibly the handing over of the
connection, then one status line with a three-digit status, and the body only after it. -/
def OneResponse (out : List Ev) : Prop :=
  (∀ e ∈ out, isHead e = false ∧ isBody e = false) ∨
  ∃ pre code H rest, out = pre ++ .head code H :: rest ∧ (100 ≤ code ∧ code ≤ 999) ∧ (∀ e ∈ pre, isHead e = false ∧ isBody e = false) ∧ ∀ e ∈ rest, isHead e = false

end Gofre.Spec

namespace Gofre.Response
open Gofre.Http Gofre.Spec
variable {env : Env} {c : Codec}

/-- A statement about response writers that writing bodies and setting headers does not make false. -/
structure Soft (P : W → Prop) : Prop where
  header : ∀ w H, P w → P { w with header := H }
  write : ∀ w b, P w → P (w.write b).2
  flush : ∀ w, P w → P w.flush

/-- A statement about response writers that no use of them makes false. -/
structure Stable (P : W → Prop) : Prop extends Soft P where
  writeHeader : ∀ w code w', P w → w.writeHeader code = some w' → P w'
  hijack : ∀ w, P w → P w.hijack

variable {P : W → Prop}

theorem Soft.push (h : Soft P) : ∀ (ls : List (Layer c)) {w : W} (b : Str), P w → P (pushBytes ls w b).2.2
  | [], w, b, hw => h.write w b hw
  | l :: ls, w, b, hw => by
    unfold pushBytes
    split
    · exact hw
    · simp only
      split
      · exact hw
      · exact h.push ls _ hw

theorem Soft.wrWrite (h : Soft P) {w : Wr c} (b : Str) (hw : P w.base) : P (w.write b).2.base := h.push _ b hw

theorem Soft.wrFlush (h : Soft P) {w : Wr c} (hw : P w.base) : P w.flush.base := by
  unfold Wr.flush
  split
  · exact h.flush _ hw
  · split
    · exact hw
    · simp only
      split
      · exact hw
      · exact h.push _ _ hw

theorem Soft.wrClose (h : Soft P) {w : Wr c} (hw : P w.base) : P w.close.base := by
  unfold Wr.close
  split
  · exact hw
  · split
    · exact hw
    · simp only
      split
      · exact hw
      · exact h.push _ _ hw

theorem Stable.wrHeader (h : Stable P) {w w' : Wr c} {code : Int} (hw : P w.base) (he : w.writeHeader code = some w') : P w'.base := by
  simp only [Wr.writeHeader, Option.map_eq_some_iff] at he
  obtain ⟨b, h1, rfl⟩ := he
  exact h.writeHeader _ _ _ hw h1

theorem Stable.head (h : Stable P) {r : HeadResp} {w : Wr c} (hw : P w.base) : P (headWrite env r w).w.base := by
  unfold headWrite
  split
  · exact hw
  · simp only
    have hs := h.header w.base (defaultHeaders r.contentType (customHeaders env r.headers (cookieHeaders env r.cookies w.base.header))) hw
    split
    · exact hs
    · rename_i he; exact h.wrHeader hs he

theorem Soft.text (h : Soft P) {w : Wr c} (p : Str) (hw : P w.base) : P (writeText w p).2.base := by
  unfold writeText
  split
  · exact hw
  · exact h.wrWrite p hw

theorem Soft.chunks (h : Soft P) : ∀ (l : List Str) {w : Wr c}, P w.base → P (writeChunks l w).2.base
  | [], w, hw => hw
  | b :: l, w, hw => by
    have h1 := h.wrWrite b hw
    unfold writeChunks
    split
    · rename_i he; rw [he] at h1; exact h.chunks l h1
    · rename_i he; rw [he] at h1; exact h1

theorem Soft.run (h : Soft P) (k : Chunks) {w : Wr c} (hw : P w.base) : P (runChunks k w).w.base := by
  have h1 := h.chunks k.chunks hw
  unfold runChunks
  split <;> rename_i he <;> rw [he] at h1 <;> exact h1

theorem Stable.ops (h : Stable P) : ∀ (l : List Op) {w : Wr c}, P w.base → P (runOps l w).w.base
  | [], w, hw => hw
  | .set k v :: l, w, hw => h.ops l (w := w.setHeader _) (h.header _ _ hw)
  | .add k v :: l, w, hw => h.ops l (w := w.setHeader _) (h.header _ _ hw)
  | .writeHeader code :: l, w, hw => by
    unfold runOps
    split
    · exact hw
    · rename_i he; exact h.ops l (h.wrHeader hw he)
  | .write b :: l, w, hw => h.ops l (h.wrWrite b hw)
  | .flush :: l, w, hw => h.ops l (h.wrFlush hw)

theorem Soft.events (h : Soft P) (closes : Bool) : ∀ (l : List (Event × Bool)) {w : Wr c}, P w.base → P (eventLoop closes l w).w.base
  | [], w, hw => by unfold eventLoop; split <;> exact hw
  | (_, true) :: _, w, hw => hw
  | (e, false) :: l, w, hw => by
    have h1 := h.text (eventText e) hw
    unfold eventLoop
    split
    · rename_i he; rw [he] at h1; exact h1
    · rename_i he; rw [he] at h1; exact h.events closes l (h.wrFlush h1)

theorem Soft.thenFlush (h : Soft P) {r : WRes c} (hr : P r.w.base) : P r.thenFlush.w.base := by
  cases r with
  | ret ok w => exact h.wrFlush (w := w) hr
  | panic w => exact h.wrFlush (w := w) hr
  | blocked w => exact hr

theorem Soft.thenClose (h : Soft P) {r : WRes c} (hr : P r.w.base) : P r.thenClose.w.base := by
  cases r with
  | ret ok w => exact h.wrClose (w := w) hr
  | panic w => exact h.wrClose (w := w) hr
  | blocked w => exact hr

theorem Stable.andThen {r : WRes c} {f : Wr c → WRes c} (hr : P r.w.base) (hf : ∀ w, P w.base → P (f w).w.base) : P (r.andThen f).w.base := by
  unfold WRes.andThen
  split
  · exact hf _ hr
  · exact hr

/-- No response makes it false. -/
theorem Stable.resp (h : Stable P) {req : RReq} : ∀ (r : Resp) (drop : Bool) {w : Wr c}, P w.base → P (r.writeWith env req drop w).w.base
  | .plain _, _, w, hw => h.head hw
  | .text _ p, _, w, hw => Stable.andThen (h.head hw) fun w hw => h.text p hw
  | .json _ p, _, w, hw => Stable.andThen (h.head hw) fun w hw => by
    split
    · exact hw
    · exact h.wrWrite _ hw
  | .raw _ k, _, w, hw => Stable.andThen (h.head hw) fun w hw => by
    split
    · exact hw
    · exact h.run _ hw
  | .stream _ k, _, w, hw => Stable.andThen (h.head hw) fun w hw => by
    split
    · exact hw
    · exact h.run _ hw
  | .template _ k, _, w, hw => Stable.andThen (h.head hw) fun w hw => by
    split
    · exact hw
    · exact h.run _ hw
  | .redirect hd url, _, w, hw => by
    unfold Resp.writeWith redirectWrite
    simp only
    split
    · exact h.header _ _ hw
    · rename_i he
      have h1 := h.wrHeader (w := w.setHeader _) (h.header _ _ hw) he
      split
      · exact h.wrWrite _ h1
      · exact h1
  | .adaptor hs ks ops, drop, w, hw => h.ops ops (w := w.setHeader _) (h.header _ _ hw)
  | .hijack, _, w, hw => by
    unfold Resp.writeWith
    split
    · exact h.hijack _ hw
    · exact hw
  | .sse hd feed, _, w, hw => by
    unfold Resp.writeWith
    split
    · split
      · exact hw
      · rename_i he; exact h.wrHeader hw he
    · exact Stable.andThen (h.head hw) fun w hw => h.thenFlush (h.events _ _ (w := w.setHeader _) (h.header _ _ hw))
  | .compress level r, drop, w, hw => by
    unfold Resp.writeWith
    split
    · exact h.resp r drop hw
    · exact h.thenClose (h.resp r true (w := ⟨{ w.base with header := _ }, _ :: w.layers⟩) (h.header _ _ hw))

/-- At most one status line, in its place; `status` says whether it was sent. -/
inductive Orderly (w : W) : Prop
  | before (hs : w.status = none) (h : ∀ e ∈ w.out, isHead e = false ∧ isBody e = false)
  | after (code : Nat) (hs : w.status = some code) (pre : List Ev) (H : Header) (rest : List Ev) (he : w.out = pre ++ .head code H :: rest)
      (hc : 100 ≤ code ∧ code ≤ 999)
      (hp : ∀ e ∈ pre, isHead e = false ∧ isBody e = false) (hr : ∀ e ∈ rest, isHead e = false)

theorem Orderly.more {w : W} (h : Orderly w) (hs : w.status.isSome) {w' : W} (hs' : w'.status = w.status) (e : Ev) (he : isHead e = false) (ho : w'.out = w.out ++ [e]) : Orderly w' := by
  cases h with
  | before h1 _ => rw [h1] at hs; cases hs
  | after code h1 pre H rest h2 hc hp hr =>
    refine .after code (hs'.trans h1) pre H (rest ++ [e]) (by rw [ho, h2]; simp) hc hp ?_
    intro x hx
    rcases List.mem_append.1 hx with hx | hx
    · exact hr x hx
    · rw [List.mem_singleton] at hx; subst hx; exact he

theorem Orderly.commit {w : W} (h : Orderly w) : Orderly w.commit ∧ w.commit.status.isSome := by
  unfold W.commit
  split
  · rename_i hs; exact ⟨h, hs⟩
  · rename_i hs
    refine ⟨?_, rfl⟩
    cases h with
    | before _ h1 => exact .after 200 rfl w.out w.header [] rfl (by decide) h1 (by simp)
    | after code h1 => rw [h1] at hs; exact absurd rfl hs

theorem orderly_stable : Stable Orderly where
  header w H h := by
    cases h with
    | before h1 h2 => exact .before h1 h2
    | after code h1 pre H' rest h2 hc hp hr => exact .after code h1 pre H' rest h2 hc hp hr
  writeHeader w code w' h he := by
    unfold W.writeHeader at he
    split at he
    · cases Option.some.inj he; exact h
    · rename_i hs
      cases h with
      | after code h1 => rw [h1] at hs; exact absurd rfl hs
      | before h1 h2 =>
        split at he
        · cases he
        · split at he
          · cases Option.some.inj he
            refine .before h1 ?_
            intro e hm
            rcases List.mem_append.1 hm with hm | hm
            · exact h2 e hm
            · rw [List.mem_singleton] at hm; subst hm; exact ⟨rfl, rfl⟩
          · cases Option.some.inj he
            exact .after _ rfl w.out w.header [] rfl (by omega) h2 (by simp)
  write w b h := by
    obtain ⟨h1, h2⟩ := h.commit
    unfold W.write
    simp only
    split
    · exact h1
    · split
      · exact h1
      · split
        · exact h1.more h2 rfl (.data b) rfl rfl
        · exact h1.more h2 rfl (.data _) rfl rfl
  flush w h := by
    obtain ⟨h1, h2⟩ := h.commit
    exact h1.more h2 rfl .flush rfl rfl
  hijack w h := by
    cases h with
    | before h1 h2 =>
      refine .before h1 ?_
      intro e hm
      rcases List.mem_append.1 hm with hm | hm
      · exact h2 e hm
      · rw [List.mem_singleton] at hm; subst hm; exact ⟨rfl, rfl⟩
    | after code h1 pre H rest h2 hc hp hr => exact Orderly.more (.after code h1 pre H rest h2 hc hp hr) (by rw [h1]; rfl) rfl .hijack rfl rfl

end Gofre.Response

namespace Gofre.Props
open Gofre.Http Gofre.Response Gofre.Spec
variable {env : Env} {c : Codec}

/-- Writing several responses one after the other, as when a handler's response fails and another is written. -/
def writeAll (env : Env) (req : RReq) : List Resp → Wr c → Wr c
  | [], w => w
  | r :: l, w => writeAll env req l (r.write env req w).w

/-- C56: however many responses, of whatever kinds and with whatever statuses, are written, returning errors, panicking or
not returning, the client gets at most one status line, and no body before it. -/
theorem c56_once (req : RReq) (l : List Resp) (w : Wr c) (hw : w.base.out = []) (hs : w.base.status = none) :
    OneResponse (writeAll env req l w).base.out ∧ OneResponse (writeAll env req l w).base.commit.out := by
  have : ∀ (l : List Resp) (w : Wr c), Orderly w.base → Orderly (writeAll env req l w).base := by
    intro l
    induction l with
    | nil => intro w h; exact h
    | cons r l ih => intro w h; exact ih _ (orderly_stable.resp r false h)
  have h := this l w (.before hs (by simp [hw]))
  have fin : ∀ w : W, Orderly w → OneResponse w.out := by
    intro w h
    cases h with
    | before _ h => exact .inl h
    | after code _ pre H rest h1 hc h2 h3 => exact .inr ⟨pre, code, H, rest, h1, hc, h2, h3⟩
  exact ⟨fin _ h, fin _ h.commit.1⟩

/-- A text, then an error response, then an informational status: one status line. -/
example : ∃ H, (writeAll simpleEnv {} [.text { status := 103 } [], .text { status := 404 } b!"hi", .text { status := 500 } b!"oops", .plain { status := 103 }] ({} : Wr dotCodec)).base.out =
    [.info 103 H, .head 404 H, .data b!"hi", .data b!"oops"] := ⟨_, rfl⟩

theorem level_as (env : Env) {req : RReq} {level : Int} {r : Resp} {h : HeadResp} {w w' : Wr c} {ok : Bool}
    {a : Alg} (hal : algFor req.acceptEncoding = some a) (hk : headOf req r = some h) (hl : w.layers = []) (hs : w.base.status = none)
    (hf : FinalStatus h.statusCode) (hb : W.bodyAllowed h.statusCode.toNat = true) (ho : w.base.out = []) (hr : Reliable w.base)
    (hw : r.write env req w = .ret ok w') :
    ∃ w1 l, (Resp.compress level r).write env req w = .ret ok w1 ∧ writtenBytes l = bodyOf w'.base.out ∧
      bodyOf w1.base.out = (feedAll c (c.start a level, []) l).2 ++ (c.close (feedAll c (c.start a level, []) l).1).2 := by
  have ht := twin_resp (env := env) (s := c.start a level) (h0 := w.base.header.set b!"Content-Encoding" (algName a)) hk hl hs hf hb (by rw [ho]; rfl) hr
  have e : (Resp.compress level r).write env req w = (r.writeWith env req true (⟨{ w.base with header := w.base.header.set b!"Content-Encoding" (algName a) }, [⟨c.start a level, false⟩]⟩ : Wr c)).thenClose := by
    unfold Resp.write
    rw [Resp.writeWith, hal]
    simp only [Wr.setHeader, hl]
  have hw' : r.writeWith env req false w = .ret ok w' := hw
  rw [hw'] at ht
  cases hx : r.writeWith env req true (⟨{ w.base with header := w.base.header.set b!"Content-Encoding" (algName a) }, [⟨c.start a level, false⟩]⟩ : Wr c) with
  | panic w2 => rw [hx] at ht; cases ht
  | blocked w2 => rw [hx] at ht; cases ht
  | ret ok2 w2 =>
    rw [hx] at ht
    cases ht with
    | ret _ ht =>
      rename_i ops
      exact ⟨w2.close, ops, by rw [e, hx]; rfl, ht.body.symm, ht.close hb⟩

/-- C55: for a client that lists no encoding the server understands the response is written as it is; otherwise the body is what the
compressor to be chosen for the client gives for the uncompressed body when started with the level given, and no other. -/
theorem c55_level (env : Env) {req : RReq} {level : Int} {r : Resp} {h : HeadResp} {w w' : Wr c} {ok : Bool}
    (hk : headOf req r = some h) (hl : w.layers = []) (hs : w.base.status = none)
    (hf : FinalStatus h.statusCode) (hb : BodyStatus h.statusCode) (ho : w.base.out = []) (hr : Reliable w.base)
    (hw : r.write env req w = .ret ok w') :
    ((Resp.compress level r).write env req w = .ret ok w' ∧ ¬ Understood req.acceptEncoding) ∨
    ∃ a w1 l, Chosen req.acceptEncoding a ∧ (Resp.compress level r).write env req w = .ret ok w1 ∧ writtenBytes l = bodyOf w'.base.out ∧
      bodyOf w1.base.out = (feedAll c (c.start a level, []) l).2 ++ (c.close (feedAll c (c.start a level, []) l).1).2 := by
  cases hal : algFor req.acceptEncoding with
  | none =>
    refine .inl ⟨?_, (alg_understood _).1 hal⟩
    rw [← hw]
    unfold Resp.write
    rw [Resp.writeWith, hal]
  | some a =>
    obtain ⟨w1, l, h1⟩ := level_as (c := c) env hal hk hl hs hf hb.allowed ho hr hw
    exact .inr ⟨a, w1, l, (alg_chosen _ a).1 hal, h1⟩

/-- C75, exactly: for a client that accepts an encoding the server understands, the `Content-Length` of the application is sent as it is
with a body that the compressor makes of the uncompressed one; so one that is right for the latter is right exactly when both have
the same length. -/
theorem c75_exact (he : Orders env) {req : RReq} {level : Int} {r : Resp} {h : HeadResp} {w w' : Wr c} {ok : Bool}
    (hu : Understood req.acceptEncoding)
    (hk : headOf req r = some h) (hl : w.layers = []) (hs : w.base.status = none)
    (hf : FinalStatus h.statusCode) (hb : BodyStatus h.statusCode) (ho : w.base.out = []) (hr : Reliable w.base)
    {k v : Str} (hkv : Field (h.headers.getD []) k v) (hn : SameField b!"Content-Length" k)
    (hw : r.write env req w = .ret ok w') (hright : decimal v = some (bodyOf w'.base.out).length) :
    ∃ a w1 l H rest, Chosen req.acceptEncoding a ∧ (Resp.compress level r).write env req w = .ret ok w1 ∧ w1.base.out = .head h.statusCode.toNat H :: rest ∧
      writtenBytes l = bodyOf w'.base.out ∧ bodyOf w1.base.out = (feedAll c (c.start a level, []) l).2 ++ (c.close (feedAll c (c.start a level, []) l).1).2 ∧
      H b!"Content-Length" = [v] ∧ (decimal v = some (bodyOf w1.base.out).length ↔ (bodyOf w1.base.out).length = (bodyOf w'.base.out).length) := by
  cases hal : algFor req.acceptEncoding with
  | none => exact absurd hu ((alg_understood _).1 hal)
  | some a =>
    obtain ⟨w1, l, h1, h2, h3⟩ := level_as (c := c) (level := level) env hal hk hl hs hf hb.allowed ho hr hw
    have e : (Resp.compress level r).write env req w = (r.writeWith env req true (⟨{ w.base with header := w.base.header.set b!"Content-Encoding" (algName a) }, [⟨c.start a level, false⟩]⟩ : Wr c)).thenClose := by
      unfold Resp.write
      rw [Resp.writeWith, hal]
      simp only [Wr.setHeader, hl]
    have hm := kind_writeWith (env := env) (c := c) true (w := ⟨{ w.base with header := w.base.header.set b!"Content-Encoding" (algName a) }, [⟨c.start a level, false⟩]⟩) hk hs hf
    have hm := hm.trans (more_thenClose (hm.some rfl))
    rw [← e, h1] at hm
    obtain ⟨rest, h4, _, _⟩ := headed_more (w' := w1) hm
    have hne : k ≠ b!"Accept-Encoding" := by
      rintro rfl
      have := (canonicalKey_iff _ _).2 hn
      revert this
      decide
    have h5 := (block_ok he (h.without true) (w.base.header.set b!"Content-Encoding" (algName a))).custom k v (field_without (drop := true) hne hkv)
      (.inr ⟨fun h => by
        have := ((canonicalKey_iff _ _).2 hn).trans ((canonicalKey_iff _ _).2 h)
        revert this
        decide, fun h => by
        have := ((canonicalKey_iff _ _).2 hn).trans ((canonicalKey_iff _ _).2 h)
        revert this
        decide⟩) _ hn
    refine ⟨a, w1, l, _, rest, (alg_chosen _ a).1 hal, h1, by rw [h4]; simp [ho], h2, h3, h5, ?_⟩
    rw [hright, Option.some.injEq]
    exact ⟨Eq.symm, Eq.symm⟩

/-- A text with the right length, which the compressed text exceeds. -/
example : ∃ (w' w1 : Wr dotCodec), (Resp.text { headers := some [(b!"content-length", b!"2")] } b!"hi").write simpleEnv { acceptEncoding := b!"br, gzip" } ({} : Wr dotCodec) = .ret true w' ∧
    decimal b!"2" = some (bodyOf w'.base.out).length ∧ Field [(b!"content-length", b!"2")] b!"content-length" b!"2" ∧ SameField b!"Content-Length" b!"content-length" ∧
    (Resp.compress 5 (.text { headers := some [(b!"content-length", b!"2")] } b!"hi")).write simpleEnv { acceptEncoding := b!"br, gzip" } ({} : Wr dotCodec) = .ret true w1 ∧
    bodyOf w1.base.out = b!"hi." :=
  ⟨_, _, rfl, by decide, ⟨by simp, fun k' v' h => by simp at h; exact fun _ => h.2⟩, (canonicalKey_iff _ _).1 (by decide), rfl, by decide⟩

/-- A codec that tells its level at the end. -/
def levelCodec : Codec where
  σ := Int
  start _ l := l
  write s b := (s, b)
  flush s := (s, [])
  close s := (s, itoaInt s)

example : ∃ w1 l, (Resp.compress 7 (.text {} b!"hi")).write simpleEnv { acceptEncoding := b!"gzip" } ({} : Wr levelCodec) = .ret true w1 ∧ writtenBytes l = b!"hi" ∧
    bodyOf w1.base.out = (feedAll levelCodec ((7 : Int), []) l).2 ++ (levelCodec.close (feedAll levelCodec ((7 : Int), []) l).1).2 :=
  level_as (c := levelCodec) simpleEnv (r := .text {} b!"hi") (h := {}) (level := 7) (req := { acceptEncoding := b!"gzip" }) (a := .gzip) (w := {}) (by decide +kernel) rfl rfl rfl (.inr (by decide)) (by decide) rfl (fun _ => rfl) rfl

/-- C102 for redirects: a redirect sends the status given and the location, with every method and whatever was put into the header map
before; it reports success. -/
theorem c102_redirect_partial {req : RReq} {h : HeadResp} {url : Str} {w : Wr c} (hs : w.base.status = none) (h1 : 200 ≤ h.status) (h2 : h.status ≤ 999) :
    ∃ w' H rest, (Resp.redirect h url).write env req w = .ret true w' ∧ w'.base.out = w.base.out ++ .head h.status.toNat H :: rest ∧
      H b!"Location" = [env.location url] ∧ (∀ k, k ≠ b!"Location" → k ≠ b!"Content-Type" → H k = w.base.header k) ∧ ∀ e ∈ rest, isBody e = true := by
  have hl : canonicalKey b!"Location" = b!"Location" := by decide
  have ht : canonicalKey b!"Content-Type" = b!"Content-Type" := by decide
  have hne : b!"Location" ≠ b!"Content-Type" := by decide
  have key : ∀ H : Header, (w.setHeader H).writeHeader h.status = some (headed w h.status.toNat H) := by
    intro H
    simp only [Wr.writeHeader, Wr.setHeader, W.writeHeader, hs]
    rw [if_neg (by simp), if_neg (by omega), if_neg (by omega)]
    rfl
  have fin : ∀ (H : Header) (w2 : Wr c), H b!"Location" = [env.location url] → (∀ k, k ≠ b!"Location" → k ≠ b!"Content-Type" → H k = w.base.header k) →
      More (headed w h.status.toNat H).base w2.base →
      ∃ w' H rest, WRes.ret true w2 = .ret true w' ∧ w'.base.out = w.base.out ++ .head h.status.toNat H :: rest ∧
        H b!"Location" = [env.location url] ∧ (∀ k, k ≠ b!"Location" → k ≠ b!"Content-Type" → H k = w.base.header k) ∧ ∀ e ∈ rest, isBody e = true := by
    intro H w2 g1 g2 hm
    obtain ⟨rest, g3, g4, _⟩ := headed_more hm
    exact ⟨w2, H, rest, rfl, g3, g1, g2, g4⟩
  have g : ∀ H : Header, H = (if (!decide (w.base.header b!"Content-Type" ≠ []) && (req.method == b!"GET" || req.method == b!"HEAD")) = true
      then (w.base.header.set b!"Location" (env.location url)).set b!"Content-Type" b!"text/html; charset=utf-8" else w.base.header.set b!"Location" (env.location url)) →
      H b!"Location" = [env.location url] ∧ ∀ k, k ≠ b!"Location" → k ≠ b!"Content-Type" → H k = w.base.header k := by
    intro H e
    split at e
    · subst e
      refine ⟨by simp only [Header.set, hl, ht, if_neg hne, if_true], fun k k1 k2 => by simp only [Header.set, hl, ht, if_neg k1, if_neg k2]⟩
    · subst e
      refine ⟨by simp only [Header.set, hl, if_true], fun k k1 k2 => by simp only [Header.set, hl, if_neg k1]⟩
  obtain ⟨g1, g2⟩ := g _ rfl
  unfold Resp.write Resp.writeWith redirectWrite
  simp only [key]
  split
  · exact fin _ _ g1 g2 (more_wr_write rfl _)
  · exact fin _ _ g1 g2 (.refl _)

/-- C102: a redirect with a status that is no status panics; among them the status that is not given, which every other
response takes for 200, as `StatusCode` of the redirect does as well. -/
theorem c102_violated {req : RReq} {h : HeadResp} {url : Str} {w : Wr c} (hs : w.base.status = none) (h0 : h.status = 0) :
    (Resp.redirect h url).statusCode = 200 ∧ ∃ w', (Resp.redirect h url).write env req w = .panic w' ∧ w'.base.out = w.base.out := by
  refine ⟨by simp [Resp.statusCode, HeadResp.statusCode, h0], ?_⟩
  unfold Resp.write Resp.writeWith redirectWrite
  simp only [h0, Wr.writeHeader, Wr.setHeader, W.writeHeader, hs]
  exact ⟨_, rfl, rfl⟩

/-- Moved permanently, asked for by `GET` and by `POST`. -/
example : ∃ w' H rest, (Resp.redirect { status := 301 } b!"/new").write simpleEnv { method := b!"POST" } ({} : Wr dotCodec) = .ret true w' ∧
    w'.base.out = [] ++ .head 301 H :: rest ∧ H b!"Location" = [simpleEnv.location b!"/new"] ∧ (∀ k, k ≠ b!"Location" → k ≠ b!"Content-Type" → H k = []) ∧ ∀ e ∈ rest, isBody e = true :=
  c102_redirect_partial (c := dotCodec) (w := {}) (h := { status := 301 }) rfl (by decide) (by decide)

example : (Resp.redirect {} b!"/new").statusCode = 200 ∧ ∃ w', (Resp.redirect {} b!"/new").write simpleEnv {} ({} : Wr dotCodec) = .panic w' ∧ w'.base.out = [] :=
  c102_violated (c := dotCodec) (w := {}) rfl rfl

/-- The responses that answer with the status they name: those with a common header part (event streams only over HTTP/2) and
redirects with a status, compressed any number of times. -/
inductive Names (req : RReq) : Resp → Prop
  | kind {r : Resp} {h : HeadResp} (hk : headOf req r = some h) (hf : FinalStatus h.statusCode) : Names req r
  | redirect {h : HeadResp} {url : Str} (h1 : 200 ≤ h.status) (h2 : h.status ≤ 999) : Names req (.redirect h url)
  | compress {level : Int} {r : Resp} (hr : Names req r) : Names req (.compress level r)

theorem kind_statusCode {req : RReq} {r : Resp} {h : HeadResp} (hk : headOf req r = some h) : r.statusCode = h.statusCode := by
  cases r <;> simp only [headOf, Option.some.injEq, reduceCtorEq] at hk
  case sse => split at hk <;> simp_all [Resp.statusCode]
  all_goals (subst hk; rfl)

theorem names_sent {req : RReq} {r : Resp} (hn : Names req r) : ∀ (drop : Bool) {w : Wr c}, w.base.status = none →
    ∃ H rest, (r.writeWith env req drop w).w.base.out = w.base.out ++ .head r.statusCode.toNat H :: rest ∧ (∀ e ∈ rest, isBody e = true) ∧
      (r.writeWith env req drop w).w.base.status = some r.statusCode.toNat := by
  induction hn with
  | kind hk hf =>
    intro drop w hs
    obtain ⟨rest, h1, h2, h3⟩ := headed_more (kind_writeWith (env := env) drop hk hs hf)
    rw [kind_statusCode hk]
    exact ⟨_, rest, h1, h2, h3⟩
  | @redirect h url h1 h2 =>
    intro drop w hs
    have hc : (Resp.redirect h url).statusCode = h.status := by
      show HeadResp.statusCode h = _
      unfold HeadResp.statusCode
      rw [if_neg (by omega)]
    rw [hc]
    have key : ∀ H : Header, (w.setHeader H).writeHeader h.status = some (headed w h.status.toNat H) := by
      intro H
      simp only [Wr.writeHeader, Wr.setHeader, W.writeHeader, hs]
      rw [if_neg (by simp), if_neg (by omega), if_neg (by omega)]
      rfl
    have fin : ∀ (H : Header) (w2 : Wr c), More (headed w h.status.toNat H).base w2.base →
        ∃ H rest, w2.base.out = w.base.out ++ .head h.status.toNat H :: rest ∧ (∀ e ∈ rest, isBody e = true) ∧ w2.base.status = some h.status.toNat :=
      fun H w2 hm => let ⟨rest, g1, g2, g3⟩ := headed_more hm; ⟨H, rest, g1, g2, g3⟩
    unfold Resp.writeWith redirectWrite
    simp only [key]
    split
    · exact fin _ _ (more_wr_write rfl _)
    · exact fin _ _ (.refl _)
  | @compress level r hr ih =>
    intro drop w hs
    show ∃ H rest, _ ∧ _ ∧ _
    have hc : (Resp.compress level r).statusCode = r.statusCode := rfl
    rw [hc]
    unfold Resp.writeWith
    split
    · exact ih drop hs
    · rename_i a ha
      obtain ⟨H, rest, h1, h2, h3⟩ := ih true (w := (⟨{ w.base with header := w.base.header.set b!"Content-Encoding" (algName a) }, ⟨c.start a level, false⟩ :: w.layers⟩ : Wr c)) hs
      have hm := more_thenClose (r := r.writeWith env req true (⟨{ w.base with header := w.base.header.set b!"Content-Encoding" (algName a) }, ⟨c.start a level, false⟩ :: w.layers⟩ : Wr c)) (by rw [h3]; rfl)
      obtain ⟨rest', h4, h5⟩ := hm.out
      refine ⟨H, rest ++ rest', ?_, ?_, hm.status.trans h3⟩
      · exact h4.trans (by rw [h1]; simp)
      · intro e he
        rcases List.mem_append.1 he with he | he
        · exact h2 e he
        · exact h5 e he

/-- C102 for responses with a common header part, redirects with a status, and these compressed: the client gets the status that
`StatusCode` tells, and it is the only one. -/
theorem c102_told_partial {req : RReq} {r : Resp} (hn : Names req r) {w : Wr c} (hs : w.base.status = none) :
    ∃ H rest, seen (r.write env req w) = w.base.out ++ .head r.statusCode.toNat H :: rest ∧ ∀ e ∈ rest, isBody e = true := by
  obtain ⟨H, rest, h1, h2, h3⟩ := names_sent (env := env) hn false hs
  refine ⟨H, rest, ?_, h2⟩
  rw [Done.seen (.inr (by show (r.writeWith env req false w).w.base.status.isSome; rw [h3]; rfl)), commit_some (by show (r.writeWith env req false w).w.base.status.isSome; rw [h3]; rfl)]
  exact h1

example : ∃ H rest, seen ((Resp.compress 5 (.redirect { status := 303 } b!"/next")).write simpleEnv { acceptEncoding := b!"gzip" } ({} : Wr dotCodec)) = [] ++ .head 303 H :: rest ∧
    ∀ e ∈ rest, isBody e = true := c102_told_partial (c := dotCodec) (w := {}) (.compress (.redirect (by decide) (by decide))) rfl

/-- C102 fails always for adapted handlers: `StatusCode` tells 0; the client gets a status of three digits, whatever the handler does, once it returns. -/
theorem c102_violated_never {req : RReq} {hs' : Option (Map Str)} {ks : Option (Map Cookie)} {ops : List Op} {w w1 : Wr c} {ok : Bool} (hs : w.base.status = none) (ho : w.base.out = [])
    (hw : (Resp.adaptor hs' ks ops).write env req w = .ret ok w1) :
    (Resp.adaptor hs' ks ops).statusCode = 0 ∧
      ∃ pre code H rest, seen ((Resp.adaptor hs' ks ops).write env req w) = pre ++ .head code H :: rest ∧ 100 ≤ code ∧ code ≤ 999 := by
  refine ⟨rfl, ?_⟩
  have h := orderly_stable.resp (env := env) (req := req) (.adaptor hs' ks ops) false (w := w) (.before hs (by simp [ho]))
  obtain ⟨h1, h2⟩ := h.commit
  generalize hg : ((Resp.adaptor hs' ks ops).writeWith env req false w).w.base.commit = w' at h1 h2
  cases h1 with
  | before h3 => rw [h3] at h2; cases h2
  | after code _ pre H rest h3 hc => exact ⟨pre, code, H, rest, by rw [Done.seen (.inl ⟨ok, w1, hw⟩), show ((Resp.adaptor hs' ks ops).write env req w).w.base.commit = w' from hg, h3], hc⟩

/-- An adapted handler that answers 404. -/
example : (Resp.adaptor none none [.writeHeader 404, .write b!"no"]).statusCode = 0 ∧
    ∃ H, seen ((Resp.adaptor none none [.writeHeader 404, .write b!"no"]).write simpleEnv {} ({} : Wr dotCodec)) = [.head 404 H, .data b!"no"] := ⟨rfl, _, rfl⟩

/-- C102 fails always for hijacking responses as well: `StatusCode` tells 0; where the connection cannot be taken over, as with HTTP/2 or below
compression, the client gets 200 with an empty body. -/
theorem c102_violated_never_hijack {req : RReq} {w : Wr c} (hs : w.base.status = none) (hh : w.base.canHijack = false ∨ w.layers ≠ []) :
    Resp.hijack.statusCode = 0 ∧ ∃ H, seen (Resp.hijack.write env req w) = w.base.out ++ [.head 200 H] := by
  refine ⟨rfl, ?_⟩
  have : (w.layers.isEmpty && w.base.canHijack) = false := by
    rcases hh with h | h
    · simp [h]
    · cases hl : w.layers with
      | nil => exact absurd hl h
      | cons => rfl
  exact ⟨w.base.header, by simp [Resp.write, Resp.writeWith, this, seen, W.commit, hs]⟩

example : Resp.hijack.statusCode = 0 ∧ ∃ H, seen (Resp.hijack.write simpleEnv { protoMajor := 2 } ({ base := { canHijack := false } } : Wr dotCodec)) = [] ++ [.head 200 H] :=
  c102_violated_never_hijack (c := dotCodec) (w := { base := { canHijack := false } }) rfl (.inl rfl)

/-- C102 fails for event streams over HTTP/1: `StatusCode` tells the status given, the client gets 500. -/
theorem c102_violated_sse {req : RReq} {h : HeadResp} {feed : Feed} {w : Wr c} (hs : w.base.status = none) (hp : req.protoMajor ≠ 2) :
    (Resp.sse h feed).statusCode = h.statusCode ∧ ∃ w' H, (Resp.sse h feed).write env req w = .ret false w' ∧ w'.base.out = w.base.out ++ [.head 500 H] := by
  refine ⟨rfl, ?_⟩
  simp only [Resp.write, Resp.writeWith, ne_eq, hp, not_false_eq_true, if_true, Wr.writeHeader, W.writeHeader, hs]
  exact ⟨_, _, rfl, rfl⟩

example : (Resp.sse {} ⟨[], true⟩).statusCode = 200 ∧ ∃ w' H, (Resp.sse {} ⟨[], true⟩).write simpleEnv { protoMajor := 1 } ({} : Wr dotCodec) = .ret false w' ∧ w'.base.out = [] ++ [.head 500 H] :=
  c102_violated_sse (c := dotCodec) (w := {}) rfl (by decide)

end Gofre.Props
