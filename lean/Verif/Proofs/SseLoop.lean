import Verif.Proofs.Sse

/-! # The event loop, and flushing under compression -/

namespace Gofre.Response
open Gofre.Http Gofre.Spec

variable {c : Codec} {env : Env}

theorem write_open {w : W} {code : Nat} (hs : w.status = some code) (hb : W.bodyAllowed code = true) {b : Str} (hne : b ≠ []) :
    w.write b = match w.plan w.writes with
      | none => (true, { w with writes := w.writes + 1, out := w.out ++ [.data b] })
      | some k => (false, { w with writes := w.writes + 1, out := w.out ++ [.data (b.take k)] }) := by
  unfold W.write
  rw [commit_some (by simp [hs])]
  simp only [hs, Option.getD_some, hb, Bool.not_true, Bool.false_eq_true, if_false, if_neg hne]
  cases w.plan w.writes <;> rfl

theorem loop_spec (closes : Bool) {code : Nat} (hb : W.bodyAllowed code = true) : ∀ (l : List (Event × Bool)) (w : Wr c), w.layers = [] → w.base.status = some code →
    ∃ n tail waits w', (eventLoop closes l w = if waits then .blocked w' else .ret true w') ∧ Stopped w.base.plan ⟨l, closes⟩ n tail waits ∧
      n ≤ l.length ∧ (∀ x ∈ l.take n, x.2 = false) ∧ w'.layers = [] ∧ w'.base.status = some code ∧
      w'.base.out = w.base.out ++ (l.take n).flatMap (fun x => delivery (eventText x.1)) ++ tail
  | [], w, hl, hs => by
    cases closes with
    | true => exact ⟨0, [], false, w, rfl, .closed rfl rfl, by simp, by simp, hl, hs, by simp⟩
    | false => exact ⟨0, [], true, w, rfl, .waiting rfl rfl, by simp, by simp, hl, hs, by simp⟩
  | (e, true) :: l, w, hl, hs => ⟨0, [], false, w, rfl, .cancelled e rfl, by simp, by simp, hl, hs, by simp⟩
  | (e, false) :: l, w, hl, hs => by
    have next : ∀ (w1 : Wr c), w1.layers = [] → w1.base.status = some code → w1.base.plan = w.base.plan →
        w1.base.out = w.base.out ++ delivery (eventText e) → eventLoop closes ((e, false) :: l) w = eventLoop closes l w1 →
        ∃ n tail waits w', (eventLoop closes ((e, false) :: l) w = if waits then .blocked w' else .ret true w') ∧ Stopped w.base.plan ⟨(e, false) :: l, closes⟩ n tail waits ∧
          n ≤ ((e, false) :: l).length ∧ (∀ x ∈ ((e, false) :: l).take n, x.2 = false) ∧ w'.layers = [] ∧ w'.base.status = some code ∧
          w'.base.out = w.base.out ++ (((e, false) :: l).take n).flatMap (fun x => delivery (eventText x.1)) ++ tail := by
      intro w1 h1 h2 h3 h4 h5
      obtain ⟨n, tail, waits, w', a1, a2, a3, a4, a5, a6, a7⟩ := loop_spec closes hb l w1 h1 h2
      refine ⟨n + 1, tail, waits, w', by rw [h5, a1], ?_, by simpa using a3, ?_, a5, a6, ?_⟩
      · rw [h3] at a2
        cases a2 with
        | closed ha hc => exact .closed (by simpa using ha) hc
        | waiting ha hc => exact .waiting (by simpa using ha) hc
        | cancelled e' ha => exact .cancelled e' (by simpa using ha)
        | failed e' i k ha hi => exact .failed e' i k (by simpa using ha) hi
      · intro x hx
        rw [List.take_succ_cons] at hx
        rcases List.mem_cons.1 hx with rfl | hx
        · rfl
        · exact a4 x hx
      · rw [a7, h4, List.take_succ_cons, List.flatMap_cons]
        simp
    by_cases ht : eventText e = []
    · refine next w.flush (by simp [Wr.flush, hl]) ?_ ?_ ?_ ?_
      · simp [Wr.flush, hl, W.flush, commit_some, hs]
      · simp [Wr.flush, hl, W.flush, commit_some, hs]
      · simp [Wr.flush, hl, W.flush, commit_some, hs, delivery, ht]
      · rw [eventLoop]; simp [writeText, ht]
    · have hw := write_open hs hb ht
      have hww : w.write (eventText e) = ((w.base.write (eventText e)).1, ⟨(w.base.write (eventText e)).2, []⟩) := by simp [Wr.write, hl, pushBytes]
      cases hp : w.base.plan w.base.writes with
      | none =>
        rw [hp] at hw
        simp only at hw
        refine next ((w.write (eventText e)).2.flush) (by simp [hww, Wr.flush]) ?_ ?_ ?_ ?_
        · simp [hww, hw, Wr.flush, W.flush, commit_some, hs]
        · simp [hww, hw, Wr.flush, W.flush, commit_some, hs]
        · simp [hww, hw, Wr.flush, W.flush, commit_some, hs, delivery, ht]
        · rw [eventLoop]; simp [writeText, ht, hww, hw]
      | some k =>
        rw [hp] at hw
        simp only at hw
        refine ⟨0, [.data ((eventText e).take k)], false, (w.write (eventText e)).2, ?_, .failed e _ k rfl hp, by simp, by simp, by simp [hww], ?_, ?_⟩
        · rw [eventLoop]; simp [writeText, ht, hww, hw]
        · simp [hww, hw, hs]
        · simp [hww, hw]

/-- The connection has not been flushed, and the compressing writers are still there. -/
structure Quiet (w w' : Wr c) : Prop where
  layers : w'.layers.length = w.layers.length
  out : ∃ rest, w'.base.out = w.base.out ++ rest ∧ ∀ e ∈ rest, isFlush e = false

theorem Quiet.refl (w : Wr c) : Quiet w w := ⟨rfl, [], by simp, by simp⟩

theorem quiet_out_trans {a b d : List Ev} (h : ∃ rest, b = a ++ rest ∧ ∀ e ∈ rest, isFlush e = false) (h' : ∃ rest, d = b ++ rest ∧ ∀ e ∈ rest, isFlush e = false) :
    ∃ rest, d = a ++ rest ∧ ∀ e ∈ rest, isFlush e = false := by
  obtain ⟨r, h1, h2⟩ := h
  obtain ⟨r', h1', h2'⟩ := h'
  refine ⟨r ++ r', by rw [h1', h1, List.append_assoc], fun e he => ?_⟩
  rcases List.mem_append.1 he with h | h
  · exact h2 e h
  · exact h2' e h

theorem Quiet.trans {a b d : Wr c} (h : Quiet a b) (h' : Quiet b d) : Quiet a d := ⟨h'.layers.trans h.layers, quiet_out_trans h.out h'.out⟩

theorem quiet_commit (w : W) : ∃ rest, w.commit.out = w.out ++ rest ∧ ∀ e ∈ rest, isFlush e = false := by
  unfold W.commit
  split
  · exact ⟨[], by simp, by simp⟩
  · exact ⟨_, rfl, by simp [isFlush]⟩

theorem quiet_base_write (w : W) (b : Str) : ∃ rest, (w.write b).2.out = w.out ++ rest ∧ ∀ e ∈ rest, isFlush e = false := by
  unfold W.write
  simp only
  split
  · exact quiet_commit w
  · split
    · exact quiet_commit w
    · split
      · exact quiet_out_trans (quiet_commit w) ⟨_, rfl, by simp [isFlush]⟩
      · exact quiet_out_trans (quiet_commit w) ⟨_, rfl, by simp [isFlush]⟩

theorem quiet_push : ∀ (ls : List (Layer c)) (w : W) (b : Str), ∃ rest, (pushBytes ls w b).2.2.out = w.out ++ rest ∧ ∀ e ∈ rest, isFlush e = false
  | [], w, b => quiet_base_write w b
  | l :: ls, w, b => by
    unfold pushBytes
    split
    · exact ⟨[], by simp, by simp⟩
    · simp only
      split
      · exact ⟨[], by simp, by simp⟩
      · exact quiet_push ls w _

theorem quiet_write (w : Wr c) (b : Str) : Quiet w (w.write b).2 := ⟨push_layers _ _ _, quiet_push _ _ _⟩

theorem quiet_flush {w : Wr c} (h : 0 < w.layers.length) : Quiet w w.flush := by
  unfold Wr.flush
  split
  · rename_i hl; rw [hl] at h; exact absurd h (by simp)
  · rename_i l ls hl
    split
    · exact .refl w
    · simp only
      split
      · exact ⟨by simp [hl], [], by simp, by simp⟩
      · exact ⟨by simp [hl, push_layers], quiet_push _ _ _⟩

theorem quiet_close (w : Wr c) : ∃ rest, w.close.base.out = w.base.out ++ rest ∧ ∀ e ∈ rest, isFlush e = false := by
  unfold Wr.close
  split
  · exact ⟨[], by simp, by simp⟩
  · split
    · exact ⟨[], by simp, by simp⟩
    · simp only
      split
      · exact ⟨[], by simp, by simp⟩
      · exact quiet_push _ _ _

theorem close_layers (w : Wr c) : w.close.layers.length = w.layers.length - 1 := by
  unfold Wr.close
  split
  · rename_i hl; simp [hl]
  · rename_i l ls hl
    split
    · simp [hl]
    · simp only
      split
      · simp [hl]
      · simp [hl, push_layers]

theorem quiet_setHeader (w : Wr c) (H : Header) : Quiet w (w.setHeader H) := ⟨rfl, [], by simp [Wr.setHeader], by simp⟩

theorem quiet_writeHeader {w w' : Wr c} {code : Int} (h : w.writeHeader code = some w') : Quiet w w' := by
  unfold Wr.writeHeader at h
  obtain ⟨b, hb, rfl⟩ := Option.map_eq_some_iff.1 h
  refine ⟨rfl, ?_⟩
  unfold W.writeHeader at hb
  split at hb
  · obtain rfl := Option.some.inj hb; exact ⟨[], by simp, by simp⟩
  · split at hb
    · exact absurd hb (by simp)
    · split at hb <;> obtain rfl := Option.some.inj hb <;> exact ⟨_, rfl, by simp [isFlush]⟩

theorem quiet_head (h : HeadResp) (w : Wr c) : Quiet w (headWrite env h w).w := by
  unfold headWrite
  split
  · exact .refl w
  · simp only
    split
    · exact quiet_setHeader _ _
    · rename_i w' hw
      exact (quiet_setHeader w _).trans (quiet_writeHeader hw)

theorem quiet_andThen {r : WRes c} {w : Wr c} (h : Quiet w r.w) {f : Wr c → WRes c} (hf : ∀ w', w'.layers.length = w.layers.length → Quiet w' (f w').w) : Quiet w (r.andThen f).w := by
  cases r with
  | ret ok w' =>
    cases ok with
    | true => exact h.trans (hf w' h.layers)
    | false => exact h
  | panic w' => exact h
  | blocked w' => exact h

theorem quiet_text (w : Wr c) (p : Str) : Quiet w (writeText w p).2 := by
  unfold writeText
  split
  · exact .refl w
  · exact quiet_write w p

theorem quiet_chunks : ∀ (l : List Str) (w : Wr c), Quiet w (writeChunks l w).2
  | [], w => .refl w
  | b :: l, w => by
    unfold writeChunks
    have hm := quiet_write w b
    revert hm
    generalize w.write b = r
    obtain ⟨ok, w1⟩ := r
    intro hm
    cases ok with
    | true => exact hm.trans (quiet_chunks l w1)
    | false => exact hm

theorem quiet_run (k : Chunks) (w : Wr c) : Quiet w (runChunks k w).w := by
  unfold runChunks
  have hm := quiet_chunks k.chunks w
  revert hm
  generalize writeChunks k.chunks w = r
  obtain ⟨ok, w1⟩ := r
  intro hm
  cases ok <;> exact hm

theorem quiet_events (closes : Bool) : ∀ (l : List (Event × Bool)) (w : Wr c), 0 < w.layers.length → Quiet w (eventLoop closes l w).w
  | [], w, _ => by
    unfold eventLoop
    split <;> exact .refl w
  | (_, true) :: _, w, _ => .refl w
  | (e, false) :: l, w, h => by
    unfold eventLoop
    have hm := quiet_text w (eventText e)
    revert hm
    generalize writeText w (eventText e) = r
    obtain ⟨ok, w1⟩ := r
    intro hm
    cases ok with
    | false => exact hm
    | true =>
      have h1 : 0 < w1.layers.length := by rw [hm.layers]; exact h
      have hf := quiet_flush h1
      exact hm.trans (hf.trans (quiet_events closes l _ (by rw [hf.layers]; exact h1)))

theorem quiet_ops : ∀ (l : List Op) (w : Wr c), 0 < w.layers.length → Quiet w (runOps l w).w
  | [], w, _ => .refl w
  | .set k v :: l, w, h => (quiet_setHeader w _).trans (quiet_ops l _ h)
  | .add k v :: l, w, h => (quiet_setHeader w _).trans (quiet_ops l _ h)
  | .writeHeader code :: l, w, h => by
    unfold runOps
    split
    · exact .refl w
    · rename_i w1 hw
      have hm := quiet_writeHeader hw
      exact hm.trans (quiet_ops l w1 (by rw [hm.layers]; exact h))
  | .write b :: l, w, h => by
    have hm := quiet_write w b
    exact hm.trans (quiet_ops l _ (by rw [hm.layers]; exact h))
  | .flush :: l, w, h => by
    have hm := quiet_flush h
    exact hm.trans (quiet_ops l _ (by rw [hm.layers]; exact h))

theorem quiet_thenFlush {r : WRes c} (h : 0 < r.w.layers.length) : Quiet r.w r.thenFlush.w := by
  cases r with
  | ret ok w => exact quiet_flush (w := w) h
  | panic w => exact quiet_flush (w := w) h
  | blocked w => exact .refl _

theorem quiet_thenClose (r : WRes c) : ∃ rest, r.thenClose.w.base.out = r.w.base.out ++ rest ∧ ∀ e ∈ rest, isFlush e = false := by
  cases r with
  | ret ok w => exact quiet_close w
  | panic w => exact quiet_close w
  | blocked w => exact ⟨[], by simp [WRes.thenClose], by simp⟩

/-- Nothing in a response behind a compressing writer flushes the connection. -/
theorem quiet_resp {req : RReq} : ∀ (r : Resp) (drop : Bool) (w : Wr c), 0 < w.layers.length →
    ∃ rest, (r.writeWith env req drop w).w.base.out = w.base.out ++ rest ∧ ∀ e ∈ rest, isFlush e = false
  | .plain h, drop, w, _ => (quiet_head _ w).out
  | .text h p, drop, w, _ => by
    refine (quiet_andThen (quiet_head _ w) fun w' _ => ?_).out
    exact quiet_text w' p
  | .json h p, drop, w, _ => by
    refine (quiet_andThen (quiet_head _ w) fun w' _ => ?_).out
    split
    · exact .refl w'
    · exact quiet_write w' _
  | .raw h k, drop, w, _ => by
    refine (quiet_andThen (quiet_head _ w) fun w' _ => ?_).out
    cases k with
    | none => exact .refl w'
    | some k => exact quiet_run k w'
  | .stream h k, drop, w, _ => by
    refine (quiet_andThen (quiet_head _ w) fun w' _ => ?_).out
    cases k with
    | none => exact .refl w'
    | some k => exact quiet_run k w'
  | .template h k, drop, w, _ => by
    refine (quiet_andThen (quiet_head _ w) fun w' _ => ?_).out
    cases k with
    | none => exact .refl w'
    | some k => exact quiet_run k w'
  | .redirect h url, drop, w, _ => by
    unfold Resp.writeWith redirectWrite
    simp only
    split
    · exact (quiet_setHeader w _).out
    · rename_i w1 hw
      have hm := (quiet_setHeader w _).trans (quiet_writeHeader hw)
      split
      · exact (hm.trans (quiet_write w1 _)).out
      · exact hm.out
  | .adaptor hs ks ops, drop, w, hl =>
    ((quiet_setHeader w (customHeaders env (Response.without drop hs) (cookieHeaders env ks w.base.header))).trans (quiet_ops ops _ hl)).out
  | .hijack, drop, w, hl => by
    unfold Resp.writeWith
    cases h : w.layers with
    | nil => rw [h] at hl; exact absurd hl (by simp)
    | cons l ls => exact ⟨[], by simp [WRes.w], by simp⟩
  | .sse h feed, drop, w, hl => by
    unfold Resp.writeWith
    split
    · split
      · exact (Quiet.refl w).out
      · rename_i w1 hw
        exact (quiet_writeHeader hw).out
    · refine (quiet_andThen (quiet_head _ w) fun w' hw' => ?_).out
      have h1 : 0 < w'.layers.length := by rw [hw']; exact hl
      have hm := (quiet_setHeader w' ((w'.base.header.set b!"Cache-Control" b!"no-cache").set b!"Connection" b!"keep-alive")).trans (quiet_events feed.closes feed.events _ h1)
      exact hm.trans (quiet_thenFlush (by rw [hm.layers]; exact h1))
  | .compress level r, drop, w, hl => by
    unfold Resp.writeWith
    split
    · exact quiet_resp r drop w hl
    · rename_i a _
      exact quiet_out_trans (quiet_resp r true
        ⟨{ w.base with header := w.base.header.set b!"Content-Encoding" (algName a) }, ⟨c.start a level, false⟩ :: w.layers⟩ (Nat.succ_pos _)) (quiet_thenClose _)

end Gofre.Response
