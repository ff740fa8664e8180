import Verif.Proofs.Twin

/-! # A response on a plain writer and through any number of compressing writers -/

namespace Gofre.Response
open Gofre.Http Gofre.Spec

variable {c : Codec} {env : Env}

/-- Compressing writers started in the states `ss`, outermost first, after `ops` on the outermost one, with what has arrived below. -/
inductive Fed (c : Codec) : List c.σ → List (Layer c) → List Feeding → Str → Prop
  | nil (ops : List Feeding) : Fed c [] [] ops (writtenBytes ops)
  | cons {s : c.σ} {ss : List c.σ} {ls : List (Layer c)} {ops ops' : List Feeding} {body : Str} (hb : writtenBytes ops' = (feedAll c (s, []) ops).2)
      (h : Fed c ss ls ops' body) : Fed c (s :: ss) (⟨(feedAll c (s, []) ops).1, false⟩ :: ls) ops body

theorem fed_start : ∀ ss : List c.σ, Fed c ss (ss.map fun s => ⟨s, false⟩) [] []
  | [] => .nil []
  | s :: ss => .cons (s := s) (ops := []) (ops' := []) rfl (fed_start ss)

theorem feed_write (s : c.σ) (ops : List Feeding) (b : Str) : feedAll c (s, []) (ops ++ [.write b]) =
    ((c.write (feedAll c (s, []) ops).1 b).1, (feedAll c (s, []) ops).2 ++ (c.write (feedAll c (s, []) ops).1 b).2) := by
  rw [feedAll_append]; rfl

theorem feed_flush (s : c.σ) (ops : List Feeding) : feedAll c (s, []) (ops ++ [.flush]) =
    ((c.flush (feedAll c (s, []) ops).1).1, (feedAll c (s, []) ops).2 ++ (c.flush (feedAll c (s, []) ops).1).2) := by
  rw [feedAll_append]; rfl

theorem written_one (ops : List Feeding) (b : Str) : writtenBytes (ops ++ [.write b]) = writtenBytes ops ++ b := by simp [writtenBytes]

theorem fed_push {code : Nat} (hc : W.bodyAllowed code = true) {ss : List c.σ} {ls : List (Layer c)} {ops : List Feeding} {body : Str} (h : Fed c ss ls ops body) :
    ∀ {w : W} (b : Str), bodyOf w.out = body → w.status = some code → Reliable w →
      (pushBytes ls w b).1 = true ∧ Fed c ss (pushBytes ls w b).2.1 (ops ++ [.write b]) (bodyOf (pushBytes ls w b).2.2.out) ∧
      (pushBytes ls w b).2.2.status = some code ∧ Reliable (pushBytes ls w b).2.2 := by
  induction h with
  | nil ops =>
    intro w b hw hs hp
    obtain ⟨a1, a2, a3, a4⟩ := base_write hc hs hp b
    refine ⟨a1, ?_, a2, a4⟩
    show Fed c [] [] _ (bodyOf (w.write b).2.out)
    rw [a3, hw, ← written_one]
    exact .nil _
  | @cons s ss ls ops ops' body hb h ih =>
    intro w b hw hs hp
    have hf := feed_write (c := c) s ops b
    by_cases hn : (c.write (feedAll c (s, []) ops).1 b).2 = []
    · have e : pushBytes (⟨(feedAll c (s, []) ops).1, false⟩ :: ls) w b = (true, ⟨(c.write (feedAll c (s, []) ops).1 b).1, false⟩ :: ls, w) := by
        simp [pushBytes, hn]
      rw [e]
      refine ⟨rfl, ?_, hs, hp⟩
      have := Fed.cons (c := c) (s := s) (ops := ops ++ [.write b]) (ops' := ops') (by rw [hf, hn, List.append_nil, hb]) h
      rw [hf] at this
      rw [hw]
      exact this
    · obtain ⟨b1, b2, b3, b4⟩ := ih (c.write (feedAll c (s, []) ops).1 b).2 hw hs hp
      have e : pushBytes (⟨(feedAll c (s, []) ops).1, false⟩ :: ls) w b =
          (true, ⟨(c.write (feedAll c (s, []) ops).1 b).1, false⟩ :: (pushBytes ls w (c.write (feedAll c (s, []) ops).1 b).2).2.1, (pushBytes ls w (c.write (feedAll c (s, []) ops).1 b).2).2.2) := by
        simp [pushBytes, hn, b1]
      rw [e]
      refine ⟨rfl, ?_, b3, b4⟩
      have := Fed.cons (c := c) (s := s) (ops := ops ++ [.write b]) (by rw [hf, written_one, hb]) b2
      rw [hf] at this
      exact this

theorem fed_flush {code : Nat} (hc : W.bodyAllowed code = true) {ss : List c.σ} {w : Wr c} {ops : List Feeding} {body : Str} (h : Fed c ss w.layers ops body)
    (hw : bodyOf w.base.out = body) (hs : w.base.status = some code) (hp : Reliable w.base) :
    Fed c ss w.flush.layers (ops ++ [.flush]) (bodyOf w.flush.base.out) ∧ w.flush.base.status = some code ∧ Reliable w.flush.base := by
  obtain ⟨base, layers⟩ := w
  simp only at h hw hs hp
  cases h with
  | nil =>
    have e : (⟨base, []⟩ : Wr c).flush = ⟨{ base with out := base.out ++ [.flush] }, []⟩ := by simp [Wr.flush, W.flush, commit_some, hs]
    rw [e]
    refine ⟨?_, hs, hp⟩
    have : bodyOf (base.out ++ [.flush]) = writtenBytes (ops ++ [.flush]) := by
      rw [body_append, hw, written_append]; simp [writtenBytes, bodyOf]
    rw [this]
    exact .nil _
  | @cons s ss ls _ ops' _ hb h =>
    have hf := feed_flush (c := c) s ops
    by_cases hn : (c.flush (feedAll c (s, []) ops).1).2 = []
    · have e : (⟨base, ⟨(feedAll c (s, []) ops).1, false⟩ :: ls⟩ : Wr c).flush = ⟨base, ⟨(c.flush (feedAll c (s, []) ops).1).1, false⟩ :: ls⟩ := by
        simp [Wr.flush, hn]
      rw [e]
      refine ⟨?_, hs, hp⟩
      have := Fed.cons (c := c) (s := s) (ops := ops ++ [.flush]) (ops' := ops') (by rw [hf, hn, List.append_nil, hb]) h
      rw [hf] at this
      rw [hw]
      exact this
    · obtain ⟨b1, b2, b3, b4⟩ := fed_push hc h (c.flush (feedAll c (s, []) ops).1).2 hw hs hp
      have e : (⟨base, ⟨(feedAll c (s, []) ops).1, false⟩ :: ls⟩ : Wr c).flush =
          ⟨(pushBytes ls base (c.flush (feedAll c (s, []) ops).1).2).2.2, ⟨(c.flush (feedAll c (s, []) ops).1).1, false⟩ :: (pushBytes ls base (c.flush (feedAll c (s, []) ops).1).2).2.1⟩ := by
        simp [Wr.flush, hn, b1]
      rw [e]
      refine ⟨?_, b3, b4⟩
      have := Fed.cons (c := c) (s := s) (ops := ops ++ [.flush]) (by rw [hf, written_one, hb]) b2
      rw [hf] at this
      exact this

/-- Compressing writers `ss` to the outermost of which `x` has been written. -/
structure Given (c : Codec) (ss : List c.σ) (code : Nat) (x : Str) (w : Wr c) : Prop where
  fed : ∃ ops, Fed c ss w.layers ops (bodyOf w.base.out) ∧ writtenBytes ops = x
  status : w.base.status = some code
  plan : Reliable w.base

theorem given_close {code : Nat} (hc : W.bodyAllowed code = true) {s : c.σ} {ss : List c.σ} {x : Str} {w : Wr c} (h : Given c (s :: ss) code x w) :
    ∃ ops, writtenBytes ops = x ∧ Given c ss code ((feedAll c (s, []) ops).2 ++ (c.close (feedAll c (s, []) ops).1).2) w.close := by
  obtain ⟨⟨ops, hf, hx⟩, hs, hp⟩ := h
  obtain ⟨base, layers⟩ := w
  simp only at hf hs hp
  refine ⟨ops, hx, ?_⟩
  generalize hbody : bodyOf base.out = body at hf
  cases hf with
  | @cons _ _ ls _ ops' _ hb h =>
    by_cases hn : (c.close (feedAll c (s, []) ops).1).2 = []
    · have e : (⟨base, ⟨(feedAll c (s, []) ops).1, false⟩ :: ls⟩ : Wr c).close = ⟨base, ls⟩ := by simp [Wr.close, hn]
      rw [e, hn, List.append_nil, ← hb]
      exact ⟨⟨ops', by rw [hbody]; exact h, rfl⟩, hs, hp⟩
    · obtain ⟨_, b2, b3, b4⟩ := fed_push hc h (c.close (feedAll c (s, []) ops).1).2 hbody hs hp
      have e : (⟨base, ⟨(feedAll c (s, []) ops).1, false⟩ :: ls⟩ : Wr c).close =
          ⟨(pushBytes ls base (c.close (feedAll c (s, []) ops).1).2).2.2, (pushBytes ls base (c.close (feedAll c (s, []) ops).1).2).2.1⟩ := by
        simp [Wr.close, hn]
      rw [e, ← hb]
      exact ⟨⟨_, b2, written_one _ _⟩, b3, b4⟩

/-- The same response on a plain writer and through compressing writers, after `ops` on the outermost of these. -/
structure Tower (ss : List c.σ) (code : Nat) (ops : List Feeding) (w w1 : Wr c) : Prop where
  layers : w.layers = []
  fed : Fed c ss w1.layers ops (bodyOf w1.base.out)
  status : w.base.status = some code
  status1 : w1.base.status = some code
  body : bodyOf w.base.out = writtenBytes ops
  plan : Reliable w.base
  plan1 : Reliable w1.base

variable {ss : List c.σ} {code : Nat}

theorem Tower.write (hb : W.bodyAllowed code = true) {ops : List Feeding} {w w1 : Wr c} (h : Tower ss code ops w w1) (b : Str) :
    (w.write b).1 = true ∧ (w1.write b).1 = true ∧ Tower ss code (ops ++ [.write b]) (w.write b).2 (w1.write b).2 := by
  have e1 : w.write b = ((w.base.write b).1, ⟨(w.base.write b).2, []⟩) := by simp [Wr.write, h.layers, pushBytes]
  obtain ⟨a1, a2, a3, a4⟩ := base_write hb h.status h.plan b
  obtain ⟨b1, b2, b3, b4⟩ := fed_push hb h.fed b rfl h.status1 h.plan1
  rw [e1]
  exact ⟨a1, b1, rfl, b2, a2, b3, by rw [a3, h.body, written_one], a4, b4⟩

theorem Tower.flush (hb : W.bodyAllowed code = true) {ops : List Feeding} {w w1 : Wr c} (h : Tower ss code ops w w1) :
    Tower ss code (ops ++ [.flush]) w.flush w1.flush := by
  have e1 : w.flush = ⟨{ w.base with out := w.base.out ++ [.flush] }, []⟩ := by
    obtain ⟨base, layers⟩ := w
    obtain rfl : layers = [] := h.layers
    have hs : base.status = some code := h.status
    simp [Wr.flush, W.flush, commit_some, hs]
  have hw : bodyOf (w.base.out ++ [.flush]) = writtenBytes (ops ++ [.flush]) := by
    rw [body_append, h.body, written_append]; simp [writtenBytes, bodyOf]
  obtain ⟨b2, b3, b4⟩ := fed_flush hb h.fed rfl h.status1 h.plan1
  rw [e1]
  exact ⟨rfl, b2, h.status, b3, hw, h.plan, b4⟩

/-- Both end in the same way. -/
inductive TowerRes (ss : List c.σ) (code : Nat) : WRes c → WRes c → Prop
  | ret (ok : Bool) {ops : List Feeding} {w w1 : Wr c} (h : Tower ss code ops w w1) : TowerRes ss code (.ret ok w) (.ret ok w1)
  | panic {ops : List Feeding} {w w1 : Wr c} (h : Tower ss code ops w w1) : TowerRes ss code (.panic w) (.panic w1)
  | blocked {ops : List Feeding} {w w1 : Wr c} (h : Tower ss code ops w w1) : TowerRes ss code (.blocked w) (.blocked w1)

theorem Tower.text (hb : W.bodyAllowed code = true) {ops : List Feeding} {w w1 : Wr c} (h : Tower ss code ops w w1) (p : Str) :
    (writeText w p).1 = true ∧ (writeText w1 p).1 = true ∧ ∃ ops', Tower ss code ops' (writeText w p).2 (writeText w1 p).2 := by
  unfold writeText
  by_cases hp : p = []
  · rw [if_pos hp, if_pos hp]; exact ⟨rfl, rfl, ops, h⟩
  · rw [if_neg hp, if_neg hp]
    obtain ⟨a, b, d⟩ := h.write hb p
    exact ⟨a, b, _, d⟩

theorem Tower.chunks (hb : W.bodyAllowed code = true) : ∀ (l : List Str) {ops : List Feeding} {w w1 : Wr c}, Tower ss code ops w w1 →
    (writeChunks l w).1 = true ∧ (writeChunks l w1).1 = true ∧ ∃ ops', Tower ss code ops' (writeChunks l w).2 (writeChunks l w1).2
  | [], ops, _, _, h => ⟨rfl, rfl, ops, h⟩
  | b :: l, ops, w, w1, h => by
    obtain ⟨a1, a2, a3⟩ := h.write hb b
    have e1 : writeChunks (b :: l) w = writeChunks l (w.write b).2 := by
      rw [writeChunks]
      revert a1
      generalize w.write b = r
      obtain ⟨x, y⟩ := r
      rintro rfl
      rfl
    have e2 : writeChunks (b :: l) w1 = writeChunks l (w1.write b).2 := by
      rw [writeChunks]
      revert a2
      generalize w1.write b = r
      obtain ⟨x, y⟩ := r
      rintro rfl
      rfl
    rw [e1, e2]
    exact Tower.chunks hb l a3

theorem Tower.run (hb : W.bodyAllowed code = true) {ops : List Feeding} {w w1 : Wr c} (h : Tower ss code ops w w1) (k : Chunks) : TowerRes ss code (runChunks k w) (runChunks k w1) := by
  obtain ⟨a1, a2, ops', a3⟩ := Tower.chunks hb k.chunks h
  unfold runChunks
  revert a1 a2 a3
  generalize writeChunks k.chunks w = r
  generalize writeChunks k.chunks w1 = r1
  obtain ⟨x, w'⟩ := r
  obtain ⟨x1, w1'⟩ := r1
  rintro rfl rfl a3
  exact .ret _ a3

theorem Tower.events (hb : W.bodyAllowed code = true) (closes : Bool) : ∀ (l : List (Event × Bool)) {ops : List Feeding} {w w1 : Wr c}, Tower ss code ops w w1 →
    TowerRes ss code (eventLoop closes l w) (eventLoop closes l w1)
  | [], _, _, _, h => by
    cases closes
    · exact .blocked h
    · exact .ret _ h
  | (_, true) :: _, _, _, _, h => .ret _ h
  | (e, false) :: l, _, w, w1, h => by
    obtain ⟨a1, a2, ops', a3⟩ := h.text hb (eventText e)
    unfold eventLoop
    revert a1 a2 a3
    generalize writeText w (eventText e) = r
    generalize writeText w1 (eventText e) = r1
    obtain ⟨x, w'⟩ := r
    obtain ⟨x1, w1'⟩ := r1
    rintro rfl rfl a3
    exact Tower.events hb closes l (a3.flush hb)

theorem TowerRes.thenFlush (hb : W.bodyAllowed code = true) {r r1 : WRes c} (h : TowerRes ss code r r1) : TowerRes ss code r.thenFlush r1.thenFlush := by
  cases h with
  | ret ok h => exact .ret ok (h.flush hb)
  | panic h => exact .panic (h.flush hb)
  | blocked h => exact .blocked h

/-- The header of the writer does not matter. -/
theorem Tower.header {ops : List Feeding} {w w1 : Wr c} (h : Tower ss code ops w w1) (H H1 : Header) : Tower ss code ops (w.setHeader H) (w1.setHeader H1) :=
  ⟨h.layers, h.fed, h.status, h.status1, h.body, h.plan, h.plan1⟩

theorem tower_head {w : Wr c} (hl : w.layers = []) (ho : bodyOf w.base.out = []) (hr : Reliable w.base) (h0 H H1 : Header) :
    Tower ss code [] (headed w code H) (headed ⟨{ w.base with header := h0 }, ss.map fun s => ⟨s, false⟩⟩ code H1) :=
  ⟨hl, by simp only [headed, body_append, ho]; exact fed_start ss, rfl, rfl, by simp only [headed, body_append, ho]; rfl, hr, hr⟩

theorem tower_resp {req : RReq} {r : Resp} {h : HeadResp} {w : Wr c} {h0 : Header} (drop : Bool) (hk : headOf req r = some h) (hl : w.layers = []) (hs : w.base.status = none)
    (hf : FinalStatus h.statusCode) (hb : W.bodyAllowed h.statusCode.toNat = true) (ho : bodyOf w.base.out = []) (hr : Reliable w.base) :
    TowerRes ss h.statusCode.toNat (r.writeWith env req false w) (r.writeWith env req drop ⟨{ w.base with header := h0 }, ss.map fun s => ⟨s, false⟩⟩) := by
  have e0 : ∀ drop, headWrite env (h.without drop) w = .ret true (headed w h.statusCode.toNat (blockOf env (h.without drop) w.base.header)) := fun _ => headWrite_ok hs hf
  have e1 : ∀ drop, headWrite env (h.without drop) (⟨{ w.base with header := h0 }, ss.map fun s => ⟨s, false⟩⟩ : Wr c) = .ret true (headed ⟨{ w.base with header := h0 }, ss.map fun s => ⟨s, false⟩⟩ h.statusCode.toNat (blockOf env (h.without drop) h0)) :=
    fun _ => headWrite_ok (w := (⟨{ w.base with header := h0 }, ss.map fun s => ⟨s, false⟩⟩ : Wr c)) hs hf
  have ht : Tower ss h.statusCode.toNat [] (headed w h.statusCode.toNat (blockOf env (h.without false) w.base.header)) (headed ⟨{ w.base with header := h0 }, ss.map fun s => ⟨s, false⟩⟩ h.statusCode.toNat (blockOf env (h.without drop) h0)) :=
    tower_head hl ho hr _ _ _
  cases r <;> simp only [headOf, Option.some.injEq, reduceCtorEq] at hk
  case plain => subst hk; simp only [Resp.writeWith, e0, e1]; exact .ret _ ht
  case text h' p =>
    subst hk
    simp only [Resp.writeWith, e0, e1, WRes.andThen]
    obtain ⟨a1, a2, ops, a3⟩ := ht.text hb p
    rw [a1, a2]
    exact .ret _ a3
  case json h' p =>
    subst hk
    simp only [Resp.writeWith, e0, e1, WRes.andThen]
    split
    · exact .ret _ ht
    · obtain ⟨a1, a2, a3⟩ := ht.write hb ‹_›
      rw [a1, a2]
      exact .ret _ a3
  case raw h' k =>
    subst hk
    simp only [Resp.writeWith, e0, e1, WRes.andThen]
    cases k with
    | none => exact .ret _ ht
    | some k => exact ht.run hb k
  case stream h' k =>
    subst hk
    simp only [Resp.writeWith, e0, e1, WRes.andThen]
    cases k with
    | none => exact .ret _ ht
    | some k => exact ht.run hb k
  case template h' k =>
    subst hk
    simp only [Resp.writeWith, e0, e1, WRes.andThen]
    cases k with
    | none => exact .panic ht
    | some k => exact ht.run hb k
  case sse h' feed =>
    by_cases hp : req.protoMajor = 2
    · rw [if_pos hp] at hk
      obtain rfl := Option.some.inj hk
      simp only [Resp.writeWith, e0, e1, WRes.andThen, hp, ne_eq, not_true_eq_false, if_false]
      exact ((ht.header _ _).events hb _ _).thenFlush hb
    · rw [if_neg hp] at hk
      exact absurd hk (by simp)

end Gofre.Response
