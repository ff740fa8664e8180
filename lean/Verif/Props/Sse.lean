import Verif.Proofs.Compress
import Verif.Proofs.SseLoop
import Verif.Props.Response

/-! # C60, C61, C63, C72, C73: event streams -/

namespace Gofre.Props
open Gofre.Http Gofre.Response Gofre.Spec

variable {env : Env} {c : Codec}

/-- C60: a client reading what is written for a sequence of events gets these events back, without
the empty ones. -/
theorem c60_recovered (es : List Event) (h : ∀ e ∈ es, Sendable e) : readStream (es.flatMap eventText) = (es.map normalEvent).filter (· ≠ {}) := read_all es h

example : ∀ e ∈ [({ name := b!"a", data := [b!"x", [], b!" y: z"], id := b!"7", retry := 10 } : Event), {}, { id := b!"8" }, { data := [b!"end"], retry := -1 }], Sendable e := by
  intro e he
  simp only [List.mem_cons, List.not_mem_nil, or_false] at he
  rcases he with rfl | rfl | rfl | rfl
  · refine ⟨⟨by decide, by decide⟩, ⟨by decide, by decide⟩, by decide, ?_, by decide⟩
    intro d hd
    simp only [List.mem_cons, List.not_mem_nil, or_false] at hd
    rcases hd with rfl | rfl | rfl <;> exact ⟨by decide, by decide⟩
  · exact ⟨⟨by decide, by decide⟩, ⟨by decide, by decide⟩, by decide, by simp, by decide⟩
  · exact ⟨⟨by decide, by decide⟩, ⟨by decide, by decide⟩, by decide, by simp, by decide⟩
  · refine ⟨⟨by decide, by decide⟩, ⟨by decide, by decide⟩, by decide, ?_, by decide⟩
    intro d hd
    rw [List.mem_singleton.1 hd]
    exact ⟨by decide, by decide⟩

example : readStream ([({ name := b!"a", data := [b!"x", [], b!" y: z"], id := b!"7", retry := 10 } : Event), {}, { id := b!"8" }, { data := [b!"end"], retry := -1 }].flatMap eventText) =
    [{ name := b!"a", data := [b!"x", [], b!" y: z"], id := b!"7", retry := 10 }, { id := b!"8" }, { data := [b!"end"] }] := by decide +kernel

/-- C61: what an event stream that is not compressed sends: the head, then the first `n` events in
order, each with a flush; it ends because the channel is closed or silent, the request is cancelled,
or the connection fails. -/
theorem c61_delivered (he : Orders env) {req : RReq} {h : HeadResp} {feed : Feed} {w : Wr c} (hp : req.protoMajor = 2) (hl : w.layers = [])
    (hs : w.base.status = none) (hf : FinalStatus h.statusCode) (hb : BodyStatus h.statusCode) :
    ∃ H n tail waits w', Block env h w.base.header H ∧
      ((Resp.sse h feed).write env req w = if waits then .blocked w' else .ret true w') ∧
      w'.base.out = w.base.out ++ [.head h.statusCode.toNat H] ++ (feed.events.take n).flatMap (fun x => delivery (eventText x.1)) ++ tail ++ (if waits then [] else [.flush]) ∧
      n ≤ feed.events.length ∧ (∀ x ∈ feed.events.take n, x.2 = false) ∧ Stopped w.base.plan feed n tail waits := by
  have hw := headWrite_ok (env := env) (r := h) hs hf
  let H := blockOf env h w.base.header
  let w1 := (headed w h.statusCode.toNat H).setHeader ((H.set b!"Cache-Control" b!"no-cache").set b!"Connection" b!"keep-alive")
  have e1 : (Resp.sse h feed).write env req w = (eventLoop feed.closes feed.events w1).thenFlush := by
    simp only [Resp.write, Resp.writeWith, without_false, hw, WRes.andThen, hp, ne_eq, not_true_eq_false, if_false]
    rfl
  obtain ⟨n, tail, waits, w', a1, a2, a3, a4, a5, a6, a7⟩ := loop_spec feed.closes hb.allowed feed.events w1 hl rfl
  have a7 : w'.base.out = w.base.out ++ [.head h.statusCode.toNat H] ++ (feed.events.take n).flatMap (fun x => delivery (eventText x.1)) ++ tail := a7
  cases waits with
  | true =>
    refine ⟨H, n, tail, true, w', block_ok he h _, ?_, by simp [a7], a3, a4, a2⟩
    rw [e1, a1]; rfl
  | false =>
    refine ⟨H, n, tail, false, w'.flush, block_ok he h _, ?_, ?_, a3, a4, a2⟩
    · rw [e1, a1]; rfl
    · have : w'.flush.base.out = w'.base.out ++ [.flush] := by simp [Wr.flush, a5, W.flush, commit_some, a6]
      rw [this, a7]
      simp

/-- C61: a request that is not HTTP/2 is answered with 500 and gets no event. -/
theorem c61_http1 {req : RReq} {h : HeadResp} {feed : Feed} {w : Wr c} (hp : req.protoMajor ≠ 2) (hs : w.base.status = none) :
    ∃ w', (Resp.sse h feed).write env req w = .ret false w' ∧ w'.base.out = w.base.out ++ [.head 500 w.base.header] := by
  have : w.base.writeHeader 500 = some { w.base with status := some 500, out := w.base.out ++ [.head 500 w.base.header] } := by simp [W.writeHeader, hs]
  refine ⟨{ w with base := { w.base with status := some 500, out := w.base.out ++ [.head 500 w.base.header] } }, ?_, rfl⟩
  simp [Resp.write, Resp.writeWith, hp, Wr.writeHeader, this]

example : ∃ H, ((Resp.sse { contentType := b!"text/event-stream" } ⟨[({ data := [b!"1"] }, false), ({ data := [b!"2"] }, false), ({ data := [b!"3"] }, true)], true⟩).write simpleEnv {} ({} : Wr dotCodec)).w.base.out =
    [.head 200 H, .data b!"data: 1\n\n", .flush, .data b!"data: 2\n\n", .flush, .flush] := ⟨_, rfl⟩
example : ∃ H, ((Resp.sse {} ⟨[({ data := [b!"1"] }, false), ({ data := [b!"2"] }, false)], true⟩).write simpleEnv {} ({ base := { plan := fun i => if i = 1 then some 3 else none } } : Wr dotCodec)).w.base.out =
    [.head 200 H, .data b!"data: 1\n\n", .flush, .data b!"dat", .flush] := ⟨_, rfl⟩
example : ((Resp.sse {} ⟨[({ data := [b!"1"] }, false)], true⟩).write simpleEnv { protoMajor := 1 } ({} : Wr dotCodec)).w.base.out = [.head 500 fun _ => []] := rfl

/-- C63 for event streams that are not compressed: every delivered event is followed by a flush of
the connection. -/
theorem c63_uncompressed_partial (he : Orders env) {req : RReq} {h : HeadResp} {feed : Feed} {w : Wr c} (hp : req.protoMajor = 2) (hl : w.layers = [])
    (hs : w.base.status = none) (hf : FinalStatus h.statusCode) (hb : BodyStatus h.statusCode) {pre post : List Ev} {e : Event}
    (ho : ((Resp.sse h feed).write env req w).w.base.out = w.base.out ++ pre ++ .data (eventText e) :: post) : ∃ post', post = .flush :: post' := by
  obtain ⟨H, n, tail, waits, w', _, h2, h3, _, _, h6⟩ := c61_delivered (c := c) he (feed := feed) hp hl hs hf hb
  have hw : ((Resp.sse h feed).write env req w).w = w' := by rw [h2]; cases waits <;> rfl
  rw [hw, h3] at ho
  have ho : (Ev.head h.statusCode.toNat H :: (feed.events.take n).flatMap (fun x => delivery (eventText x.1))) ++ (tail ++ (if waits then [] else [.flush])) = pre ++ .data (eventText e) :: post := by
    simpa using ho
  have hend : ∀ p q : List Ev, tail ++ (if waits then [] else [Ev.flush]) = p ++ .data (eventText e) :: q → ∃ q', q = .flush :: q' := by
    intro p q hpq
    cases h6 with
    | closed => cases p with
      | nil => simp at hpq
      | cons a p => simp at hpq
    | waiting => simp at hpq
    | cancelled e' => cases p with
      | nil => simp at hpq
      | cons a p => simp at hpq
    | failed e' i k => cases p with
      | nil =>
        simp only [List.singleton_append, Bool.false_eq_true, if_false, List.nil_append, List.cons.injEq] at hpq
        exact ⟨[], hpq.2.symm⟩
      | cons a p => cases p <;> simp at hpq
  have main : ∀ (l : List (Event × Bool)) (p q : List Ev), l.flatMap (fun x => delivery (eventText x.1)) ++ (tail ++ (if waits then [] else [Ev.flush])) = p ++ .data (eventText e) :: q → ∃ q', q = .flush :: q' := by
    intro l
    induction l with
    | nil => intro p q hpq; exact hend p q (by simpa using hpq)
    | cons x l ih =>
      intro p q hpq
      rw [List.flatMap_cons, List.append_assoc] at hpq
      unfold delivery at hpq
      split at hpq
      · cases p with
        | nil => simp at hpq
        | cons a p =>
          simp only [List.nil_append, List.singleton_append, List.cons_append, List.cons.injEq] at hpq
          exact ih p q hpq.2
      · cases p with
        | nil =>
          simp only [List.cons_append, List.nil_append, List.cons.injEq] at hpq
          exact ⟨_, hpq.2.symm⟩
        | cons a p => cases p with
          | nil => simp at hpq
          | cons a' p =>
            simp only [List.cons_append, List.nil_append, List.cons.injEq] at hpq
            exact ih p q hpq.2.2
  cases pre with
  | nil => simp at ho
  | cons a pre =>
    simp only [List.cons_append, List.cons.injEq] at ho
    exact main _ pre post ho.2

example : ∃ H, ((Resp.sse {} ⟨[({ data := [b!"1"] }, false)], true⟩).write simpleEnv {} ({} : Wr dotCodec)).w.base.out =
    [] ++ [.head 200 H] ++ .data (eventText { data := [b!"1"] }) :: [.flush, .flush] := ⟨_, rfl⟩

/-- C63 fails under compression: no compressed response, event stream or not, ever flushes the
connection. -/
theorem c63_violated_never {req : RReq} {level : Int} {r : Resp} {w : Wr c} (hu : Understood req.acceptEncoding) :
    ∃ rest, ((Resp.compress level r).write env req w).w.base.out = w.base.out ++ rest ∧ ∀ e ∈ rest, isFlush e = false := by
  unfold Resp.write Resp.writeWith
  split
  · rename_i h; exact absurd hu ((alg_understood _).1 h)
  · rename_i a _
    exact quiet_out_trans (quiet_resp r true ⟨{ w.base with header := w.base.header.set b!"Content-Encoding" (algName a) }, ⟨c.start a level, false⟩ :: w.layers⟩ (Nat.succ_pos _))
      (quiet_thenClose _)

/-- C63 fails for an event stream of two events. -/
theorem c63_violated : ∃ H, ((Resp.compress 5 (Resp.sse {} ⟨[({ data := [b!"1"] }, false), ({ data := [b!"2"] }, false)], true⟩)).write simpleEnv { acceptEncoding := b!"gzip" } ({} : Wr dotCodec)).w.base.out =
    [.head 200 H, .data b!"data: 1\n\n", .data b!"data: 2\n\n", .data b!"."] := ⟨_, rfl⟩

/-- C72 fails: a line break in the data lets it forge another event. -/
theorem c72_violated : readStream (eventText { data := [b!"hello\n\nevent: admin\ndata: granted"] }) = [{ data := [b!"hello"] }, { name := b!"admin", data := [b!"granted"] }] := by
  decide +kernel

/-- C72 for an event without line breaks: the client never reads more than one event. -/
theorem c72_one_partial {e : Event} (h : Sendable e) : readStream (eventText e) = [normalEvent e] ∨ readStream (eventText e) = [] := by
  have := read_one h []
  rw [List.append_nil] at this
  rw [this]
  split
  · exact .inr rfl
  · exact .inl rfl

example : Sendable { data := [b!"hello event: admin"] } :=
  ⟨⟨by decide, by decide⟩, ⟨by decide, by decide⟩, by decide, fun d hd => by rw [List.mem_singleton.1 hd]; exact ⟨by decide, by decide⟩, by decide⟩

/-- C73 fails: with a silent channel the response waits for ever, whatever happens to the request. -/
theorem c73_violated : ∃ w', (Resp.sse {} ⟨[({ data := [b!"1"] }, false)], false⟩).write simpleEnv {} ({} : Wr dotCodec) = .blocked w' := ⟨_, rfl⟩

/-- C73 when the generator closes its channel or sends anything after the cancellation. -/
theorem c73_returns_partial (he : Orders env) {req : RReq} {h : HeadResp} {feed : Feed} {w : Wr c} (hp : req.protoMajor = 2) (hl : w.layers = [])
    (hs : w.base.status = none) (hf : FinalStatus h.statusCode) (hb : BodyStatus h.statusCode)
    (hc : feed.closes = true ∨ ∃ e, (e, true) ∈ feed.events) : ∃ w', (Resp.sse h feed).write env req w = .ret true w' := by
  obtain ⟨H, n, tail, waits, w', _, h2, _, _, h5, h6⟩ := c61_delivered (c := c) he (feed := feed) hp hl hs hf hb
  cases waits with
  | false => exact ⟨w', h2⟩
  | true =>
    cases h6 with
    | waiting h7 h8 =>
      rcases hc with hc | ⟨e, hc⟩
      · rw [h8] at hc; exact absurd hc (by simp)
      · rw [h7, List.take_length] at h5
        exact absurd (h5 _ hc) (by simp)

example : ∃ w', (Resp.sse {} ⟨[({ data := [b!"1"] }, false), ({}, true)], false⟩).write simpleEnv {} ({} : Wr dotCodec) = .ret true w' :=
  c73_returns_partial (w := {}) simple_orders rfl rfl rfl (.inr (by decide)) (by decide) (.inr ⟨{}, by simp⟩)

end Gofre.Props
