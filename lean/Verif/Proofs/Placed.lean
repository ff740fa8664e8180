import Verif.Spec.Placed
import Verif.Props.Url

/-! # Parsing request paths of any length -/

namespace Gofre.Props
open Gofre.Path Gofre.Spec

/-- The offsets of a piece as they are recorded. -/
def recorded (p : Nat × Str) : USeg := ⟨UInt16.ofNat p.1, UInt16.ofNat (p.1 + p.2.length)⟩

theorem pushAt_snd (st : List (Nat × Str)) (p : Nat × Str) : (pushAt st p).map (·.2) = push (st.map (·.2)) p.2 := by
  unfold pushAt push
  split
  · rfl
  · split
    · rw [List.map_tail]
    · rfl

theorem placed_snd (st : List (Nat × Str)) (k : Nat) (vs : List Str) :
    ((placed k vs).foldl pushAt st).map (·.2) = vs.foldl push (st.map (·.2)) := by
  induction vs generalizing st k with
  | nil => rfl
  | cons v vs ih => rw [placed, List.foldl_cons, ih, pushAt_snd]; rfl

/-- The buffer against the stack of placed pieces. -/
theorem runU_at (path : Str) : ∀ (vs : List Str) (pre : Str) (st : List (Nat × Str)) (buf : List USeg),
    path = pre ++ joinWith slash vs → vs ≠ [] → buf.length = 19 → st.length ≤ 19 → buf.take st.length = st.reverse.map recorded →
    ((∀ q, q <+: vs → (q.foldl push (st.map (·.2))).length ≤ 19) ∧
      ∃ b, runU path pre.length vs st.length buf = .ok ((placed pre.length vs).foldl pushAt st).length b ∧
        b.take ((placed pre.length vs).foldl pushAt st).length = ((placed pre.length vs).foldl pushAt st).reverse.map recorded) ∨
    ((∃ q, q <+: vs ∧ 19 < (q.foldl push (st.map (·.2))).length) ∧ runU path pre.length vs st.length buf = .full) := by
  intro vs
  induction vs with
  | nil => intro pre st buf _ h; exact absurd rfl h
  | cons v vs ih =>
    intro pre st buf hp _ hb hst hinv
    have ht : (path.take (pre.length + v.length)).drop pre.length = v := by
      have : ∃ r, path = pre ++ v ++ r := by
        cases vs with
        | nil => exact ⟨[], by simpa [joinWith] using hp⟩
        | cons w ws => exact ⟨slash :: joinWith slash (w :: ws), by simpa [joinWith] using hp⟩
      obtain ⟨r, rfl⟩ := this
      rw [← List.length_append, List.take_left']
      · simp
      · rfl
    have cont : ∀ (b' : List USeg), b'.length = 19 → (pushAt st (pre.length, v)).length ≤ 19 →
        b'.take (pushAt st (pre.length, v)).length = (pushAt st (pre.length, v)).reverse.map recorded →
        addSegment path pre.length (pre.length + v.length) st.length buf = .ok (pushAt st (pre.length, v)).length b' →
        ((∀ q, q <+: v :: vs → (q.foldl push (st.map (·.2))).length ≤ 19) ∧
          ∃ b, runU path pre.length (v :: vs) st.length buf = .ok ((placed pre.length (v :: vs)).foldl pushAt st).length b ∧
            b.take ((placed pre.length (v :: vs)).foldl pushAt st).length = ((placed pre.length (v :: vs)).foldl pushAt st).reverse.map recorded) ∨
        ((∃ q, q <+: v :: vs ∧ 19 < (q.foldl push (st.map (·.2))).length) ∧ runU path pre.length (v :: vs) st.length buf = .full) := by
      intro b' hb' hl' hinv' hadd
      have hpre : ∀ q, q <+: v :: vs → q = [] ∨ ∃ q', q = v :: q' ∧ q' <+: vs := by
        intro q hq
        cases q with
        | nil => exact .inl rfl
        | cons y q => rw [List.cons_prefix_cons] at hq; exact .inr ⟨q, by rw [hq.1], hq.2⟩
      have hps : push (st.map (·.2)) v = (pushAt st (pre.length, v)).map (·.2) := (pushAt_snd st (pre.length, v)).symm
      simp only [runU, hadd, placed, List.foldl_cons]
      cases vs with
      | nil =>
        left
        refine ⟨?_, b', rfl, hinv'⟩
        intro q hq
        rcases hpre q hq with rfl | ⟨q', rfl, hq'⟩
        · simpa using hst
        · have : q' = [] := List.prefix_nil.1 hq'
          subst this
          rw [List.foldl_cons, hps]; simpa using hl'
      | cons w ws =>
        have := ih (pre ++ v ++ [slash]) (pushAt st (pre.length, v)) b' (by simp [hp, joinWith]) (by simp) hb' hl' hinv'
        simp only [List.length_append, List.length_cons, List.length_nil, Nat.zero_add] at this
        rcases this with ⟨h1, b, h2, h3⟩ | ⟨⟨q, h1, h1'⟩, h2⟩
        · left
          refine ⟨?_, b, h2, h3⟩
          intro q hq
          rcases hpre q hq with rfl | ⟨q', rfl, hq'⟩
          · simpa using hst
          · rw [List.foldl_cons, hps]; exact h1 q' hq'
        · right
          exact ⟨⟨v :: q, by rw [List.cons_prefix_cons]; exact ⟨rfl, h1⟩, by rw [List.foldl_cons, hps]; exact h1'⟩, h2⟩
    by_cases h0 : v = []
    · have hpush : pushAt st (pre.length, v) = st := by simp [pushAt, h0]
      refine cont buf hb (by rw [hpush]; exact hst) (by rw [hpush]; exact hinv) ?_
      rw [hpush]; unfold addSegment; rw [ht, if_pos h0]
    · by_cases h1 : v = b!".."
      · have hpush : pushAt st (pre.length, v) = st.tail := by simp [pushAt, h1]
        refine cont buf hb (by rw [hpush, List.length_tail]; omega) ?_ ?_
        · rw [hpush]
          cases st with
          | nil => simp
          | cons p st =>
            rw [List.tail_cons]
            have := congrArg (List.take st.length) hinv
            rw [List.take_take, List.length_cons, Nat.min_eq_left (by omega)] at this
            rw [this]
            simp
        · rw [hpush]; unfold addSegment; rw [ht, if_neg h0, if_pos h1, List.length_tail]
      · have hpush : pushAt st (pre.length, v) = (pre.length, v) :: st := by simp [pushAt, h0, h1]
        by_cases hfull : st.length ≥ 19
        · right
          refine ⟨⟨[v], by simp, ?_⟩, ?_⟩
          · rw [List.foldl_cons, List.foldl_nil, push, if_neg h0, if_neg h1]; simp; omega
          · simp only [runU]; unfold addSegment; rw [ht, if_neg h0, if_neg h1, if_pos hfull]
        · refine cont (buf.set st.length (recorded (pre.length, v))) (by simpa using hb) (by rw [hpush]; simp; omega) ?_ ?_
          · rw [hpush, List.length_cons, List.reverse_cons, List.map_append, ← hinv, List.take_add_one, List.take_set_of_le (by omega)]
            rw [List.getElem?_set_self (by omega)]
            rfl
          · rw [hpush]; unfold addSegment; rw [ht, if_neg h0, if_neg h1, if_neg hfull, if_pos (by omega)]; rfl

/-- What parsing yields, for paths of any length. -/
theorem parse_at (path : Str) (buf : List USeg) (hb : buf.length = 19) :
    (Fits path ∧ parseURLPath path buf = some ((segmentsAt path).map recorded)) ∨ (¬ Fits path ∧ parseURLPath path buf = some []) := by
  rw [parseURLPath_eq]
  by_cases h0 : path = [] ∨ path = b!"/"
  · rw [if_pos h0]
    left
    refine ⟨fits_of_peak _ ?_, ?_⟩ <;> rcases h0 with rfl | rfl <;> decide
  · rw [if_neg h0]
    by_cases hs : slash ∈ path
    · obtain ⟨pre, r, he, hn⟩ := List.eq_append_cons_of_mem hs
      have hsp : splitOn slash path = pre :: splitOn slash r := by rw [he, splitOn_append hn]
      have haf : afterSlash path = splitOn slash r := by simp [afterSlash, hsp]
      have hhd : ((splitOn slash path).headD []).length.succ = (pre ++ [slash]).length := by simp [hsp]
      have hspec := runU_at path (afterSlash path) (pre ++ [slash]) [] buf
        (by rw [haf, joinWith_splitOn]; simp [he]) (by rw [haf]; exact splitOn_ne_nil _ _) hb (by simp) (by simp)
      simp only [List.length_nil, List.map_nil] at hspec
      rw [segmentsAt, ← Nat.succ_eq_add_one, hhd]
      rcases hspec with ⟨h1, b, h2, h3⟩ | ⟨⟨q, h1, h1'⟩, h2⟩
      · left
        exact ⟨fun q hq => by simpa [normal] using h1 q hq, by rw [h2]; simp only; rw [h3]⟩
      · right
        refine ⟨fun hf => ?_, by rw [h2]⟩
        have := hf q h1
        simp [normal] at this
        omega
    · left
      have hsp : splitOn slash path = [path] := splitOn_of_not_mem hs
      have haf : afterSlash path = [] := by simp [afterSlash, hsp]
      refine ⟨?_, ?_⟩
      · intro q hq
        rw [haf] at hq
        have : q = [] := List.prefix_nil.1 hq
        subst this; simp [normal]
      · rw [haf]; simp [runU, segmentsAt, haf, placed]

end Gofre.Props
