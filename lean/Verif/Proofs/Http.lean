import Verif.Spec.Response

/-! # Lemmas about response writers -/

namespace Gofre.Http
open Gofre.Spec

/-- The second writer is the first one, whose header block is already fixed, after more of the body. -/
structure More (w w' : W) : Prop where
  status : w'.status = w.status
  out : ∃ rest, w'.out = w.out ++ rest ∧ ∀ e ∈ rest, isBody e = true

theorem More.refl (w : W) : More w w := ⟨rfl, [], by simp, by simp⟩

theorem More.trans {a b c : W} (h : More a b) (h' : More b c) : More a c := by
  obtain ⟨r, h1, h2⟩ := h.out
  obtain ⟨r', h1', h2'⟩ := h'.out
  refine ⟨h'.status.trans h.status, r ++ r', by rw [h1', h1, List.append_assoc], ?_⟩
  intro e he
  rcases List.mem_append.1 he with h | h
  · exact h2 e h
  · exact h2' e h

theorem commit_some {w : W} (h : w.status.isSome) : w.commit = w := by simp [W.commit, h]

theorem more_write {w : W} (h : w.status.isSome) (b : Str) : More w (w.write b).2 := by
  unfold W.write
  simp only [commit_some h]
  split
  · exact .refl w
  · split
    · exact .refl w
    · split <;> exact ⟨rfl, _, rfl, by simp [isBody]⟩

theorem more_flush {w : W} (h : w.status.isSome) : More w w.flush := by
  unfold W.flush
  simp only [commit_some h]
  exact ⟨rfl, _, rfl, by simp [isBody]⟩

variable {c : Codec}

theorem more_push : ∀ (ls : List (Layer c)) {w : W} (b : Str), w.status.isSome → More w (pushBytes ls w b).2.2
  | [], _, b, h => more_write h b
  | l :: ls, w, b, h => by
    unfold pushBytes
    split
    · exact .refl w
    · simp only
      split
      · exact .refl w
      · exact more_push ls _ h

theorem more_wr_write {w : Wr c} (h : w.base.status.isSome) (b : Str) : More w.base (w.write b).2.base := more_push _ b h

theorem more_wr_flush {w : Wr c} (h : w.base.status.isSome) : More w.base w.flush.base := by
  unfold Wr.flush
  split
  · exact more_flush h
  · split
    · exact .refl _
    · simp only
      split
      · exact .refl _
      · exact more_push _ _ h

theorem more_wr_close {w : Wr c} (h : w.base.status.isSome) : More w.base w.close.base := by
  unfold Wr.close
  split
  · exact .refl _
  · split
    · exact .refl _
    · simp only
      split
      · exact .refl _
      · exact more_push _ _ h

theorem push_layers : ∀ (ls : List (Layer c)) (w : W) (b : Str), (pushBytes ls w b).2.1.length = ls.length
  | [], _, _ => rfl
  | l :: ls, w, b => by
    unfold pushBytes
    split
    · rfl
    · simp only
      split
      · rfl
      · simp [push_layers ls]

theorem More.some {w w' : W} (h : More w w') (hs : w.status.isSome) : w'.status.isSome := by rw [h.status]; exact hs

end Gofre.Http

namespace Gofre.Response
open Gofre.Http

variable {c : Codec}

theorem more_text {w : Wr c} (h : w.base.status.isSome) (p : Str) : More w.base (writeText w p).2.base := by
  unfold writeText
  split
  · exact .refl _
  · exact more_wr_write h p

theorem more_chunks : ∀ (l : List Str) {w : Wr c}, w.base.status.isSome → More w.base (writeChunks l w).2.base
  | [], _, _ => .refl _
  | b :: l, w, h => by
    unfold writeChunks
    have hm := more_wr_write h b
    revert hm
    generalize w.write b = r
    obtain ⟨ok, w1⟩ := r
    intro hm
    cases ok with
    | true => exact hm.trans (more_chunks l (hm.some h))
    | false => exact hm

theorem more_run {w : Wr c} (h : w.base.status.isSome) (k : Chunks) : More w.base (runChunks k w).w.base := by
  unfold runChunks
  have hm := more_chunks k.chunks h
  revert hm
  generalize writeChunks k.chunks w = r
  obtain ⟨ok, w1⟩ := r
  intro hm
  cases ok <;> exact hm

theorem more_events (closes : Bool) : ∀ (l : List (Event × Bool)) {w : Wr c}, w.base.status.isSome → More w.base (eventLoop closes l w).w.base
  | [], w, _ => by
    unfold eventLoop
    split <;> exact .refl _
  | (_, true) :: _, _, _ => .refl _
  | (e, false) :: l, w, h => by
    unfold eventLoop
    have hm := more_text h (eventText e)
    revert hm
    generalize writeText w (eventText e) = r
    obtain ⟨ok, w1⟩ := r
    intro hm
    cases ok with
    | false => exact hm
    | true =>
      have h1 := hm.some h
      have hf := more_wr_flush h1
      exact hm.trans (hf.trans (more_events closes l (hf.some h1)))

theorem more_thenFlush {r : WRes c} (h : r.w.base.status.isSome) : More r.w.base r.thenFlush.w.base := by
  cases r with
  | ret ok w => exact more_wr_flush (w := w) h
  | panic w => exact more_wr_flush (w := w) h
  | blocked w => exact .refl _

theorem more_thenClose {r : WRes c} (h : r.w.base.status.isSome) : More r.w.base r.thenClose.w.base := by
  cases r with
  | ret ok w => exact more_wr_close (w := w) h
  | panic w => exact more_wr_close (w := w) h
  | blocked w => exact .refl _

end Gofre.Response
