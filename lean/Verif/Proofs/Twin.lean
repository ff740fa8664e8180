import Verif.Proofs.Compress

/-! # A response with and without compression -/

namespace Gofre.Response
open Gofre.Http Gofre.Spec

variable {c : Codec} {env : Env}

theorem feedAll_append (s : c.σ × Str) : ∀ (l l' : List Feeding), feedAll c s (l ++ l') = feedAll c (feedAll c s l) l' := by
  intro l
  induction l generalizing s with
  | nil => intro l'; rfl
  | cons x l ih =>
    intro l'
    cases x <;> exact ih _ l'

theorem written_append (l l' : List Feeding) : writtenBytes (l ++ l') = writtenBytes l ++ writtenBytes l' := by simp [writtenBytes]

theorem body_append (a b : List Ev) : bodyOf (a ++ b) = bodyOf a ++ bodyOf b := by simp [bodyOf]

/-- The same response on a plain and on a compressing writer, after `ops` on the compressor. -/
structure Twin (s : c.σ) (code : Nat) (ops : List Feeding) (w w1 : Wr c) : Prop where
  layers : w.layers = []
  layers1 : w1.layers = [⟨(feedAll c (s, []) ops).1, false⟩]
  status : w.base.status = some code
  status1 : w1.base.status = some code
  body : bodyOf w.base.out = writtenBytes ops
  body1 : bodyOf w1.base.out = (feedAll c (s, []) ops).2
  plan : Reliable w.base
  plan1 : Reliable w1.base

variable {s : c.σ} {code : Nat}

theorem base_write (hb : W.bodyAllowed code = true) {w : W} (hs : w.status = some code) (hp : Reliable w) (b : Str) :
    (w.write b).1 = true ∧ (w.write b).2.status = some code ∧ bodyOf (w.write b).2.out = bodyOf w.out ++ b ∧ Reliable (w.write b).2 := by
  by_cases h : b = []
  · subst h
    have : w.write [] = (true, w) := by simp [W.write, commit_some, hs]
    rw [this]
    exact ⟨rfl, hs, by simp, hp⟩
  · rw [write_open hs hb h, hp]
    exact ⟨rfl, hs, by simp [bodyOf], hp⟩

theorem Twin.write (hb : W.bodyAllowed code = true) {ops : List Feeding} {w w1 : Wr c} (h : Twin s code ops w w1) (b : Str) :
    (w.write b).1 = true ∧ (w1.write b).1 = true ∧ Twin s code (ops ++ [.write b]) (w.write b).2 (w1.write b).2 := by
  have e1 : w.write b = ((w.base.write b).1, ⟨(w.base.write b).2, []⟩) := by simp [Wr.write, h.layers, pushBytes]
  obtain ⟨a1, a2, a3, a4⟩ := base_write hb h.status h.plan b
  have hf : feedAll c (s, []) (ops ++ [.write b]) = ((c.write (feedAll c (s, []) ops).1 b).1, (feedAll c (s, []) ops).2 ++ (c.write (feedAll c (s, []) ops).1 b).2) := by
    rw [feedAll_append]; rfl
  by_cases hn : (c.write (feedAll c (s, []) ops).1 b).2 = []
  · have e2 : w1.write b = (true, ⟨w1.base, [⟨(c.write (feedAll c (s, []) ops).1 b).1, false⟩]⟩) := by
      simp [Wr.write, h.layers1, pushBytes, hn]
    rw [e1, e2]
    refine ⟨a1, rfl, rfl, by rw [hf], a2, h.status1, ?_, ?_, a4, h.plan1⟩
    · rw [a3, h.body, written_append]; simp [writtenBytes]
    · rw [hf, hn, List.append_nil, h.body1]
  · obtain ⟨b1, b2, b3, b4⟩ := base_write hb h.status1 h.plan1 (c.write (feedAll c (s, []) ops).1 b).2
    have e2 : w1.write b = (true, ⟨(w1.base.write (c.write (feedAll c (s, []) ops).1 b).2).2, [⟨(c.write (feedAll c (s, []) ops).1 b).1, false⟩]⟩) := by
      simp [Wr.write, h.layers1, pushBytes, hn, b1]
    rw [e1, e2]
    refine ⟨a1, rfl, rfl, by rw [hf], a2, b2, ?_, ?_, a4, b4⟩
    · rw [a3, h.body, written_append]; simp [writtenBytes]
    · rw [b3, hf, h.body1]

theorem Twin.flush (hb : W.bodyAllowed code = true) {ops : List Feeding} {w w1 : Wr c} (h : Twin s code ops w w1) :
    Twin s code (ops ++ [.flush]) w.flush w1.flush := by
  have hf : feedAll c (s, []) (ops ++ [.flush]) = ((c.flush (feedAll c (s, []) ops).1).1, (feedAll c (s, []) ops).2 ++ (c.flush (feedAll c (s, []) ops).1).2) := by
    rw [feedAll_append]; rfl
  have e1 : w.flush = ⟨{ w.base with out := w.base.out ++ [.flush] }, []⟩ := by
    obtain ⟨base, layers⟩ := w
    obtain rfl : layers = [] := h.layers
    have hs : base.status = some code := h.status
    simp [Wr.flush, W.flush, commit_some, hs]
  have hw : bodyOf (w.base.out ++ [.flush]) = writtenBytes (ops ++ [.flush]) := by
    rw [body_append, h.body, written_append]; simp [writtenBytes, bodyOf]
  by_cases hn : (c.flush (feedAll c (s, []) ops).1).2 = []
  · have e2 : w1.flush = ⟨w1.base, [⟨(c.flush (feedAll c (s, []) ops).1).1, false⟩]⟩ := by
      simp [Wr.flush, h.layers1, hn]
    rw [e1, e2]
    exact ⟨rfl, by rw [hf], h.status, h.status1, hw, by rw [hf, hn, List.append_nil, h.body1], h.plan, h.plan1⟩
  · obtain ⟨b1, b2, b3, b4⟩ := base_write hb h.status1 h.plan1 (c.flush (feedAll c (s, []) ops).1).2
    have e2 : w1.flush = ⟨(w1.base.write (c.flush (feedAll c (s, []) ops).1).2).2, [⟨(c.flush (feedAll c (s, []) ops).1).1, false⟩]⟩ := by
      simp [Wr.flush, h.layers1, hn, pushBytes, b1]
    rw [e1, e2]
    exact ⟨rfl, by rw [hf], h.status, b2, hw, by rw [b3, hf, h.body1], h.plan, b4⟩

/-- Both end in the same way. -/
inductive TwinRes (s : c.σ) (code : Nat) : WRes c → WRes c → Prop
  | ret (ok : Bool) {ops : List Feeding} {w w1 : Wr c} (h : Twin s code ops w w1) : TwinRes s code (.ret ok w) (.ret ok w1)
  | panic {ops : List Feeding} {w w1 : Wr c} (h : Twin s code ops w w1) : TwinRes s code (.panic w) (.panic w1)
  | blocked {ops : List Feeding} {w w1 : Wr c} (h : Twin s code ops w w1) : TwinRes s code (.blocked w) (.blocked w1)

theorem Twin.text (hb : W.bodyAllowed code = true) {ops : List Feeding} {w w1 : Wr c} (h : Twin s code ops w w1) (p : Str) :
    (writeText w p).1 = true ∧ (writeText w1 p).1 = true ∧ ∃ ops', Twin s code ops' (writeText w p).2 (writeText w1 p).2 := by
  unfold writeText
  by_cases hp : p = []
  · rw [if_pos hp, if_pos hp]; exact ⟨rfl, rfl, ops, h⟩
  · rw [if_neg hp, if_neg hp]
    obtain ⟨a, b, d⟩ := h.write hb p
    exact ⟨a, b, _, d⟩

theorem Twin.chunks (hb : W.bodyAllowed code = true) : ∀ (l : List Str) {ops : List Feeding} {w w1 : Wr c}, Twin s code ops w w1 →
    (writeChunks l w).1 = true ∧ (writeChunks l w1).1 = true ∧ ∃ ops', Twin s code ops' (writeChunks l w).2 (writeChunks l w1).2
  | [], ops, _, _, h => ⟨rfl, rfl, ops, h⟩
  | b :: l, ops, w, w1, h => by
    obtain ⟨a1, a2, a3⟩ := h.write hb b
    have e1 : writeChunks (b :: l) w = writeChunks l (w.write b).2 := by
      rw [writeChunks]
      revert a1
      generalize w.write b = r
      obtain ⟨x, y⟩ := r
      rintro rfl
      rfl
    have e2 : writeChunks (b :: l) w1 = writeChunks l (w1.write b).2 := by
      rw [writeChunks]
      revert a2
      generalize w1.write b = r
      obtain ⟨x, y⟩ := r
      rintro rfl
      rfl
    rw [e1, e2]
    exact Twin.chunks hb l a3

theorem Twin.run (hb : W.bodyAllowed code = true) {ops : List Feeding} {w w1 : Wr c} (h : Twin s code ops w w1) (k : Chunks) : TwinRes s code (runChunks k w) (runChunks k w1) := by
  obtain ⟨a1, a2, ops', a3⟩ := Twin.chunks hb k.chunks h
  unfold runChunks
  revert a1 a2 a3
  generalize writeChunks k.chunks w = r
  generalize writeChunks k.chunks w1 = r1
  obtain ⟨x, w'⟩ := r
  obtain ⟨x1, w1'⟩ := r1
  rintro rfl rfl a3
  exact .ret _ a3

theorem Twin.events (hb : W.bodyAllowed code = true) (closes : Bool) : ∀ (l : List (Event × Bool)) {ops : List Feeding} {w w1 : Wr c}, Twin s code ops w w1 →
    TwinRes s code (eventLoop closes l w) (eventLoop closes l w1)
  | [], _, _, _, h => by
    cases closes
    · exact .blocked h
    · exact .ret _ h
  | (_, true) :: _, _, _, _, h => .ret _ h
  | (e, false) :: l, _, w, w1, h => by
    obtain ⟨a1, a2, ops', a3⟩ := h.text hb (eventText e)
    unfold eventLoop
    revert a1 a2 a3
    generalize writeText w (eventText e) = r
    generalize writeText w1 (eventText e) = r1
    obtain ⟨x, w'⟩ := r
    obtain ⟨x1, w1'⟩ := r1
    rintro rfl rfl a3
    exact Twin.events hb closes l (a3.flush hb)

theorem TwinRes.thenFlush (hb : W.bodyAllowed code = true) {r r1 : WRes c} (h : TwinRes s code r r1) : TwinRes s code r.thenFlush r1.thenFlush := by
  cases h with
  | ret ok h => exact .ret ok (h.flush hb)
  | panic h => exact .panic (h.flush hb)
  | blocked h => exact .blocked h

/-- The header of the writer does not matter. -/
theorem Twin.header {ops : List Feeding} {w w1 : Wr c} (h : Twin s code ops w w1) (H H1 : Header) : Twin s code ops (w.setHeader H) (w1.setHeader H1) :=
  ⟨h.layers, h.layers1, h.status, h.status1, h.body, h.body1, h.plan, h.plan1⟩

theorem twin_head {w : Wr c} (hl : w.layers = []) (ho : bodyOf w.base.out = []) (hr : Reliable w.base) (h0 H H1 : Header) :
    Twin s code [] (headed w code H) (headed ⟨{ w.base with header := h0 }, [⟨s, false⟩]⟩ code H1) :=
  ⟨hl, rfl, rfl, rfl, by simp only [headed, body_append, ho]; rfl, by simp only [headed, body_append, ho]; rfl, hr, hr⟩

theorem twin_resp {req : RReq} {r : Resp} {h : HeadResp} {w : Wr c} {h0 : Header} (hk : headOf req r = some h) (hl : w.layers = []) (hs : w.base.status = none)
    (hf : FinalStatus h.statusCode) (hb : W.bodyAllowed h.statusCode.toNat = true) (ho : bodyOf w.base.out = []) (hr : Reliable w.base) :
    TwinRes s h.statusCode.toNat (r.writeWith env req false w) (r.writeWith env req true ⟨{ w.base with header := h0 }, [⟨s, false⟩]⟩) := by
  have e0 : ∀ drop, headWrite env (h.without drop) w = .ret true (headed w h.statusCode.toNat (blockOf env (h.without drop) w.base.header)) := fun _ => headWrite_ok hs hf
  have e1 : ∀ drop, headWrite env (h.without drop) (⟨{ w.base with header := h0 }, [⟨s, false⟩]⟩ : Wr c) = .ret true (headed ⟨{ w.base with header := h0 }, [⟨s, false⟩]⟩ h.statusCode.toNat (blockOf env (h.without drop) h0)) :=
    fun _ => headWrite_ok (w := (⟨{ w.base with header := h0 }, [⟨s, false⟩]⟩ : Wr c)) hs hf
  have ht : Twin s h.statusCode.toNat [] (headed w h.statusCode.toNat (blockOf env (h.without false) w.base.header)) (headed ⟨{ w.base with header := h0 }, [⟨s, false⟩]⟩ h.statusCode.toNat (blockOf env (h.without true) h0)) :=
    twin_head hl ho hr _ _ _
  cases r <;> simp only [headOf, Option.some.injEq, reduceCtorEq] at hk
  case plain => subst hk; simp only [Resp.writeWith, e0, e1]; exact .ret _ ht
  case text h' p =>
    subst hk
    simp only [Resp.writeWith, e0, e1, WRes.andThen]
    obtain ⟨a1, a2, ops, a3⟩ := ht.text hb p
    rw [a1, a2]
    exact .ret _ a3
  case json h' p =>
    subst hk
    simp only [Resp.writeWith, e0, e1, WRes.andThen]
    split
    · exact .ret _ ht
    · obtain ⟨a1, a2, a3⟩ := ht.write hb ‹_›
      rw [a1, a2]
      exact .ret _ a3
  case raw h' k =>
    subst hk
    simp only [Resp.writeWith, e0, e1, WRes.andThen]
    cases k with
    | none => exact .ret _ ht
    | some k => exact ht.run hb k
  case stream h' k =>
    subst hk
    simp only [Resp.writeWith, e0, e1, WRes.andThen]
    cases k with
    | none => exact .ret _ ht
    | some k => exact ht.run hb k
  case template h' k =>
    subst hk
    simp only [Resp.writeWith, e0, e1, WRes.andThen]
    cases k with
    | none => exact .panic ht
    | some k => exact ht.run hb k
  case sse h' feed =>
    by_cases hp : req.protoMajor = 2
    · rw [if_pos hp] at hk
      obtain rfl := Option.some.inj hk
      simp only [Resp.writeWith, e0, e1, WRes.andThen, hp, ne_eq, not_true_eq_false, if_false]
      exact ((ht.header _ _).events hb _ _).thenFlush hb
    · rw [if_neg hp] at hk
      exact absurd hk (by simp)

theorem Twin.close (hb : W.bodyAllowed code = true) {ops : List Feeding} {w w1 : Wr c} (h : Twin s code ops w w1) :
    bodyOf w1.close.base.out = (feedAll c (s, []) ops).2 ++ (c.close (feedAll c (s, []) ops).1).2 := by
  unfold Wr.close
  rw [h.layers1]
  simp only [Bool.false_eq_true, if_false]
  split
  · rename_i hn
    rw [hn, List.append_nil]
    exact h.body1
  · rw [← h.body1]
    exact (base_write hb h.status1 h.plan1 _).2.2.1

end Gofre.Response
