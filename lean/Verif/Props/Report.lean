import Verif.Props.Build

/-! # C98: what a write without error means -/

namespace Gofre.Response
open Gofre.Http Gofre.Spec
variable {env : Env} {c : Codec}

theorem base_write_ok {w w' : W} {b : Str} (h : w.write b = (true, w')) : bodyOf w'.out = bodyOf w.out ++ b := by
  have hc : bodyOf w.commit.out = bodyOf w.out := by
    unfold W.commit
    split <;> simp [bodyOf]
  unfold W.write at h
  simp only at h
  split at h
  · rename_i hb
    rw [← (Prod.mk.inj h).2, hc, hb, List.append_nil]
  · split at h
    · exact absurd (Prod.mk.inj h).1 (by decide)
    · split at h
      · rw [← (Prod.mk.inj h).2, ← hc]
        simp [bodyOf]
      · exact absurd (Prod.mk.inj h).1 (by decide)

theorem wr_write_ok {w w' : Wr c} {b : Str} (hl : w.layers = []) (h : w.write b = (true, w')) : w'.layers = [] ∧ bodyOf w'.base.out = bodyOf w.base.out ++ b := by
  have e : w.write b = ((w.base.write b).1, ⟨(w.base.write b).2, []⟩) := by simp [Wr.write, hl, pushBytes]
  rw [e] at h
  obtain ⟨h1, h2⟩ := Prod.mk.inj h
  subst h2
  exact ⟨rfl, base_write_ok (w' := (w.base.write b).2) (Prod.ext h1 rfl)⟩

theorem chunks_ok : ∀ (l : List Str) {w w' : Wr c}, w.layers = [] → writeChunks l w = (true, w') → bodyOf w'.base.out = bodyOf w.base.out ++ l.flatten
  | [], w, w', _, h => by
    rw [← (Prod.mk.inj h).2]
    simp
  | b :: l, w, w', hl, h => by
    rw [writeChunks] at h
    cases hw : w.write b with
    | mk ok w1 =>
      rw [hw] at h
      cases ok with
      | false => exact absurd (Prod.mk.inj h).1 (by decide)
      | true =>
        obtain ⟨h1, h2⟩ := wr_write_ok hl hw
        rw [chunks_ok l h1 h, h2]
        simp

theorem run_ok {k : Chunks} {w w' : Wr c} (hl : w.layers = []) (h : runChunks k w = .ret true w') : k.err = false ∧ bodyOf w'.base.out = bodyOf w.base.out ++ k.chunks.flatten := by
  unfold runChunks at h
  cases hw : writeChunks k.chunks w with
  | mk ok w1 =>
    rw [hw] at h
    cases ok with
    | false => exact absurd h (by simp)
    | true =>
      simp only [WRes.ret.injEq] at h
      rw [← h.2]
      exact ⟨by simpa using h.1, chunks_ok _ hl hw⟩

theorem base_head_body {w w' : W} {code : Int} (h : w.writeHeader code = some w') : bodyOf w'.out = bodyOf w.out := by
  unfold W.writeHeader at h
  split at h
  · cases Option.some.inj h; rfl
  · split at h
    · simp at h
    · split at h <;> cases Option.some.inj h <;> simp [bodyOf]

theorem head_ok {h : HeadResp} {w w' : Wr c} (hw : headWrite env h w = .ret true w') :
    100 ≤ h.statusCode ∧ h.statusCode ≤ 999 ∧ w'.layers = w.layers ∧ bodyOf w'.base.out = bodyOf w.base.out := by
  unfold headWrite at hw
  split at hw
  · simp at hw
  · rename_i hs
    simp only at hw
    refine ⟨by omega, by omega, ?_⟩
    split at hw
    · simp at hw
    · rename_i w1 h1
      simp only [WRes.ret.injEq, true_and] at hw
      subst hw
      simp only [Wr.writeHeader, Option.map_eq_some_iff] at h1
      obtain ⟨b, h2, h3⟩ := h1
      subst h3
      have := base_head_body h2
      exact ⟨rfl, this⟩

theorem andThen_ok {r : WRes c} {f : Wr c → WRes c} {w' : Wr c} (h : r.andThen f = .ret true w') : ∃ w1, r = .ret true w1 ∧ f w1 = .ret true w' := by
  cases r with
  | ret ok w => cases ok with
    | true => exact ⟨w, rfl, h⟩
    | false => simp [WRes.andThen] at h
  | panic w => simp [WRes.andThen] at h
  | blocked w => simp [WRes.andThen] at h

end Gofre.Response

namespace Gofre.Props
open Gofre.Http Gofre.Response Gofre.Spec
variable {env : Env} {c : Codec}

/-- C98 (no compression, no event streams, redirects, adapted handlers and hijacked connections): if `Write` returns no
error then the payload could be encoded and produced, the status was one that can be sent, and the whole body
was accepted by the connection — whatever failures the connection had in store. -/
theorem c98_complete_partial {req : RReq} {r : Resp} {h : HeadResp} {w w' : Wr c} (hk : headOf req r = some h) (hn : ∀ h f, r ≠ .sse h f)
    (hl : w.layers = []) (hw : r.write env req w = .ret true w') :
    (100 ≤ h.statusCode ∧ h.statusCode ≤ 999) ∧ ∃ b, BodyText r b ∧ bodyOf w'.base.out = bodyOf w.base.out ++ b := by
  have fin : ∀ {h : HeadResp} {f : Wr c → WRes c} {b : Str}, (headWrite env h w).andThen f = .ret true w' →
      (∀ w1, w1.layers = [] → f w1 = .ret true w' → bodyOf w'.base.out = bodyOf w1.base.out ++ b) →
      (100 ≤ h.statusCode ∧ h.statusCode ≤ 999) ∧ bodyOf w'.base.out = bodyOf w.base.out ++ b := by
    intro h f b hw hf
    obtain ⟨w1, h1, h2⟩ := andThen_ok hw
    obtain ⟨h3, h4, h5, h6⟩ := head_ok h1
    exact ⟨⟨h3, h4⟩, by rw [hf w1 (h5.trans hl) h2, h6]⟩
  have bad : ∀ {h : HeadResp} {f : Wr c → WRes c}, (headWrite env h w).andThen f = .ret true w' →
      (∀ w1, f w1 ≠ .ret true w') → False := by
    intro h f hw hf
    obtain ⟨w1, _, h2⟩ := andThen_ok hw
    exact hf w1 h2
  have fin2 : ∀ {h : HeadResp} {k : Chunks}, (headWrite env h w).andThen (fun w => runChunks k w) = .ret true w' →
      (100 ≤ h.statusCode ∧ h.statusCode ≤ 999) ∧ k = ⟨k.chunks, false⟩ ∧ bodyOf w'.base.out = bodyOf w.base.out ++ k.chunks.flatten := by
    intro h k hw
    obtain ⟨w1, h1, h2⟩ := andThen_ok hw
    obtain ⟨h3, h4, h5, h6⟩ := head_ok h1
    obtain ⟨h7, h8⟩ := run_ok (h5.trans hl) h2
    exact ⟨⟨h3, h4⟩, by cases k; simp_all, by rw [h8, h6]⟩
  cases r <;> simp only [headOf, Option.some.injEq, reduceCtorEq] at hk <;> simp only [Resp.write, Resp.writeWith, without_false] at hw
  case plain h' =>
    subst hk
    obtain ⟨h3, h4, _, h6⟩ := head_ok hw
    exact ⟨⟨h3, h4⟩, [], .plain _, by rw [h6, List.append_nil]⟩
  case text h' p =>
    subst hk
    obtain ⟨h1, h2⟩ := fin (b := p) hw fun w1 hl1 e => by
      unfold writeText at e
      split at e
      · rename_i hp
        cases e
        rw [hp, List.append_nil]
      · simp only [WRes.ret.injEq] at e
        exact (wr_write_ok hl1 (Prod.ext e.1 e.2)).2
    exact ⟨h1, p, .text _ _, h2⟩
  case json h' p =>
    subst hk
    match p with
    | none =>
      obtain ⟨h1, h2⟩ := fin (b := b!"{}") hw fun w1 hl1 e => by
        simp only [Option.getD_none, WRes.ret.injEq] at e
        exact (wr_write_ok hl1 (Prod.ext e.1 e.2)).2
      exact ⟨h1, _, .jsonNil _, h2⟩
    | some none => exact (bad hw fun w1 e => by simp at e).elim
    | some (some b) =>
      obtain ⟨h1, h2⟩ := fin (b := b) hw fun w1 hl1 e => by
        simp only [Option.getD_some, WRes.ret.injEq] at e
        exact (wr_write_ok hl1 (Prod.ext e.1 e.2)).2
      exact ⟨h1, _, .json _ _, h2⟩
  case raw h' k =>
    subst hk
    match k with
    | none =>
      obtain ⟨h1, h2⟩ := fin (b := []) hw fun w1 hl1 e => by cases e; rw [List.append_nil]
      exact ⟨h1, _, .rawNil _, h2⟩
    | some k =>
      obtain ⟨h1, h2, h3⟩ := fin2 hw
      exact ⟨h1, _, by rw [h2]; exact .raw _ _, h3⟩
  case stream h' k =>
    subst hk
    match k with
    | none =>
      obtain ⟨h1, h2⟩ := fin (b := []) hw fun w1 hl1 e => by cases e; rw [List.append_nil]
      exact ⟨h1, _, .streamNil _, h2⟩
    | some k =>
      obtain ⟨h1, h2, h3⟩ := fin2 hw
      exact ⟨h1, _, by rw [h2]; exact .stream _ _, h3⟩
  case template h' k =>
    subst hk
    match k with
    | none => exact (bad hw fun w1 e => by simp at e).elim
    | some k =>
      obtain ⟨h1, h2, h3⟩ := fin2 hw
      exact ⟨h1, _, by rw [h2]; exact .template _ _, h3⟩
  case sse h' f => exact absurd rfl (hn h' f)

example : (100 ≤ (201 : Int) ∧ (201 : Int) ≤ 999) ∧ ∃ b, BodyText (.stream { status := 201 } (some ⟨[b!"a", b!"b"], false⟩)) b ∧
    bodyOf [.head 201 (fun k => if k = b!"X-Content-Type-Options" then [b!"nosniff"] else []), .data b!"a", .data b!"b"] = bodyOf [] ++ b :=
  ⟨by decide, _, .stream _ _, rfl⟩

/-- A stream that fails after the first piece, and a connection that fails at the second: both are reported. -/
example : (∃ w', (Resp.stream { status := 200 } (some ⟨[b!"a"], true⟩)).write simpleEnv {} ({} : Wr dotCodec) = .ret false w') ∧
    ∃ w', (Resp.raw { status := 200 } (some ⟨[b!"a", b!"b"], false⟩)).write simpleEnv {} ({ base := { plan := fun i => if i = 1 then some 0 else none } } : Wr dotCodec) = .ret false w' :=
  ⟨⟨_, rfl⟩, ⟨_, rfl⟩⟩

/-- C98, contrapositive: a payload that cannot be encoded or whose source fails is always reported. -/
theorem c98_reported_partial {req : RReq} {r : Resp} {h : HeadResp} {w w' : Wr c} (hk : headOf req r = some h) (hn : ∀ h f, r ≠ .sse h f)
    (hl : w.layers = []) (hb : ¬ ∃ b, BodyText r b) : r.write env req w ≠ .ret true w' :=
  fun hw => hb (let ⟨_, b, h, _⟩ := c98_complete_partial hk hn hl hw; ⟨b, h⟩)

example (w' : Wr dotCodec) : (Resp.json { status := 200 } (some none)).write simpleEnv {} ({} : Wr dotCodec) ≠ .ret true w' :=
  c98_reported_partial rfl (by simp) rfl (by rintro ⟨b, h⟩; cases h)

theorem loop_no_error (closes : Bool) : ∀ (l : List (Event × Bool)) (w w' : Wr c), eventLoop closes l w ≠ .ret false w'
  | [], w, w' => by unfold eventLoop; split <;> simp
  | (e, true) :: l, w, w' => by simp [eventLoop]
  | (e, false) :: l, w, w' => by
    unfold eventLoop
    split
    · simp
    · exact loop_no_error closes l _ w'

/-- C98 fails for event streams: with a status that can be sent, no failure of the connection is ever reported. -/
theorem c98_violated_never {h : HeadResp} {feed : Feed} {req : RReq} {w w' : Wr c} (hp : req.protoMajor = 2) (h1 : 100 ≤ h.statusCode) (h2 : h.statusCode ≤ 999) :
    (Resp.sse h feed).write env req w ≠ .ret false w' := by
  intro hw
  simp only [Resp.write, Resp.writeWith, without_false, hp, ne_eq, not_true_eq_false, if_false] at hw
  cases hh : headWrite env h w with
  | ret ok w1 =>
    rw [hh] at hw
    cases ok with
    | false =>
      unfold headWrite at hh
      rw [if_neg (by omega)] at hh
      simp only at hh
      split at hh <;> simp at hh
    | true =>
      simp only [WRes.andThen] at hw
      have := loop_no_error (c := c) feed.closes feed.events
      cases hl : eventLoop feed.closes feed.events (w1.setHeader ((w1.base.header.set b!"Cache-Control" b!"no-cache").set b!"Connection" b!"keep-alive")) with
      | ret ok w2 =>
        rw [hl] at hw
        simp only [WRes.thenFlush, WRes.ret.injEq] at hw
        exact this _ _ (hw.1 ▸ hl)
      | panic w2 => rw [hl] at hw; simp [WRes.thenFlush] at hw
      | blocked w2 => rw [hl] at hw; simp [WRes.thenFlush] at hw
  | panic w1 => rw [hh] at hw; simp [WRes.andThen] at hw
  | blocked w1 => rw [hh] at hw; simp [WRes.andThen] at hw

/-- An event stream whose connection accepts three bytes of the first event: no error. -/
theorem c98_violated : ∃ w', (Resp.sse {} ⟨[({ data := [b!"x"] }, false), ({ data := [b!"y"] }, false)], true⟩).write simpleEnv { protoMajor := 2 }
    ({ base := { plan := fun _ => some 3 } } : Wr dotCodec) = .ret true w' ∧ bodyOf w'.base.out = b!"dat" := ⟨_, rfl, by decide +kernel⟩

theorem ops_no_error : ∀ (l : List Op) (w w' : Wr c), runOps l w ≠ .ret false w'
  | [], w, w' => by simp [runOps]
  | .set k v :: l, w, w' => by rw [runOps]; exact ops_no_error l _ w'
  | .add k v :: l, w, w' => by rw [runOps]; exact ops_no_error l _ w'
  | .writeHeader code :: l, w, w' => by
    rw [runOps]
    split
    · simp
    · exact ops_no_error l _ w'
  | .write b :: l, w, w' => by rw [runOps]; exact ops_no_error l _ w'
  | .flush :: l, w, w' => by rw [runOps]; exact ops_no_error l _ w'

/-- C98 fails for adapted handlers: whatever they did and whatever the connection took, no error is reported. -/
theorem c98_violated_adaptor (hs : Option (Map Str)) (ks : Option (Map Cookie)) (ops : List Op) (req : RReq) (w w' : Wr c) :
    (Resp.adaptor hs ks ops).write env req w ≠ .ret false w' := by
  simp only [Resp.write, Resp.writeWith]
  exact ops_no_error _ _ _

/-- A file of an adapted handler over a connection that takes three bytes. -/
example : ∃ w', (Resp.adaptor none none [.write b!"a file"]).write simpleEnv {} ({ base := { plan := fun _ => some 3 } } : Wr dotCodec) = .ret true w' ∧
    bodyOf w'.base.out = b!"a f" := ⟨_, rfl, by decide +kernel⟩

/-- A compressor that holds back what is written until it is closed, as the real ones do with short texts. -/
def Holds (c : Codec) : Prop := ∀ s b, (c.write s b).2 = []

/-- C98 fails under compression: the error of closing the compressor, which sends everything a compressor that holds short
texts back has to send, is not looked at.  Every text is reported as written over a connection that takes nothing. -/
theorem c98_violated_compressed {h : HeadResp} {p : Str} {level : Int} {req : RReq} {w : Wr c} (hc : Holds c) (hu : Understood req.acceptEncoding)
    (hs : w.base.status = none) (hf : FinalStatus h.statusCode) (hl : w.layers = []) (hp : ∀ i, w.base.plan i = some 0) :
    ∃ w', (Resp.compress level (.text h p)).write env req w = .ret true w' ∧ bodyOf w'.base.out = bodyOf w.base.out := by
  obtain ⟨a, ha⟩ := understood_alg hu
  simp only [Resp.write, Resp.writeWith, ha]
  generalize hw1 : ({ base := { w.base with header := w.base.header.set b!"Content-Encoding" (algName a) }, layers := ⟨c.start a level, false⟩ :: w.layers } : Wr c) = w1
  have hs1 : w1.base.status = none := by rw [← hw1]; exact hs
  have hf' : FinalStatus (h.without true).statusCode := hf
  have hh : headWrite env (h.without true) w1 = _ := headWrite_ok hs1 hf'
  simp only [Wr.setHeader, hw1]
  rw [hh]
  simp only [WRes.andThen]
  generalize hw2 : headed w1 (h.without true).statusCode.toNat (blockOf env (h.without true) w1.base.header) = w2
  have hb : bodyOf w2.base.out = bodyOf w.base.out := by rw [← hw2, ← hw1]; simp [headed, bodyOf]
  have hp2 : ∀ i, w2.base.plan i = some 0 := by rw [← hw2, ← hw1]; exact hp
  have hl2 : w2.layers = [⟨c.start a level, false⟩] := by rw [← hw2, ← hw1]; simp [headed, hl]
  have htext : (writeText w2 p).1 = true ∧ ∃ st, (writeText w2 p).2 = ⟨w2.base, [⟨st, false⟩]⟩ := by
    unfold writeText
    split
    · exact ⟨rfl, _, by rw [← hl2]⟩
    · have e : pushBytes w2.layers w2.base p = (true, [⟨(c.write (c.start a level) p).1, false⟩], w2.base) := by
        rw [hl2, pushBytes, if_neg (show ¬ (false = true) by decide)]
        simp only
        rw [if_pos (hc _ _)]
      simp only [Wr.write, e]
      exact ⟨trivial, _, rfl⟩
  obtain ⟨h1, st, h2⟩ := htext
  rw [h1, h2]
  refine ⟨_, rfl, ?_⟩
  rw [← hb]
  simp only [Wr.close, if_neg (show ¬ (false = true) by decide)]
  split
  · rfl
  · simp only [pushBytes]
    have hcm : bodyOf w2.base.commit.out = bodyOf w2.base.out := by
      unfold W.commit
      split <;> simp [bodyOf]
    have hpc : ∀ i, w2.base.commit.plan i = some 0 := by
      intro i
      unfold W.commit
      split <;> exact hp2 i
    unfold W.write
    simp only
    split
    · exact hcm
    · split
      · exact hcm
      · rw [hpc]
        simp [bodyOf] at hcm ⊢
        exact hcm

/-- A codec of that kind: closing sends a full stop. -/
def lateCodec : Codec := ⟨Str, fun _ _ => [], fun s b => (s ++ b, []), fun s => ([], s), fun s => ([], s ++ b!".")⟩

example : ∃ w', (Resp.compress 6 (.text { status := 200 } b!"hello")).write simpleEnv { acceptEncoding := b!"gzip" } ({ base := { plan := fun _ => some 0 } } : Wr lateCodec) = .ret true w' ∧
    bodyOf w'.base.out = bodyOf ([] : List Ev) :=
  c98_violated_compressed (fun _ _ => rfl) (by decide) rfl (.inr (by decide)) rfl (fun _ => rfl)

end Gofre.Props
