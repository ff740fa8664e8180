import Verif.Model.Url
import Verif.Spec.Url

/-! # The loop of `ParseURLPath` -/

namespace Gofre.Path
open Gofre.Spec

/-- The pieces one after the other, `k` being the offset of the first. -/
def runU (path : Str) : Nat → List Str → Nat → List USeg → ARes
  | _, [], idx, buf => .ok idx buf
  | k, v :: vs, idx, buf =>
    match addSegment path k (k + v.length) idx buf with
    | .ok i b => runU path (k + v.length + 1) vs i b
    | r => r

theorem addSegment_empty (path : Str) (a idx : Nat) (buf : List USeg) : addSegment path a a idx buf = .ok idx buf := by
  have : (path.take a).drop a = [] := by
    apply List.drop_eq_nil_of_le; rw [List.length_take]; omega
  simp [addSegment, this]

theorem urlLoop_some (path rest pre w : Str) (idx : Nat) (buf : List USeg) (hp : path = pre ++ w ++ rest) (hw : slash ∉ w) :
    urlLast path (urlLoop path (pre ++ w).length rest (some pre.length) idx buf) =
      runU path pre.length (splitOn slash (w ++ rest)) idx buf := by
  induction rest generalizing pre w idx buf with
  | nil =>
    rw [List.append_nil, splitOn_of_not_mem hw]
    simp only [urlLoop, urlLast, runU]
    have hl : path.length = pre.length + w.length := by rw [hp]; simp
    by_cases he : w = []
    · subst he
      rw [if_neg (by simp at hl; omega)]
      simp [addSegment_empty]
    · have : 0 < w.length := List.length_pos_iff.2 he
      rw [if_pos (by omega), hl]
      cases addSegment path pre.length (pre.length + w.length) idx buf <;> rfl
  | cons c rest ih =>
    by_cases hc : c = slash
    · subst hc
      rw [splitOn_append hw]
      simp only [urlLoop, if_true, runU, List.length_append]
      cases addSegment path pre.length (pre.length + w.length) idx buf with
      | ok i b =>
        simp only
        have := ih (pre ++ w ++ [slash]) [] i b (by simp [hp]) (by simp)
        simpa [Nat.add_assoc] using this
      | full => rfl
      | panic => rfl
    · simp only [urlLoop, hc, if_false]
      have := ih pre (w ++ [c]) idx buf (by simp [hp]) (by
        simp only [List.mem_append, List.mem_singleton, not_or]
        exact ⟨hw, fun h => hc h.symm⟩)
      simpa [Nat.add_assoc] using this

theorem urlLoop_none (path rest pre : Str) (idx : Nat) (buf : List USeg) (hp : path = pre ++ rest) (hw : slash ∉ pre) :
    urlLast path (urlLoop path pre.length rest none idx buf) =
      runU path ((splitOn slash path).headD []).length.succ (afterSlash path) idx buf := by
  induction rest generalizing pre idx buf with
  | nil =>
    have : path = pre := by simpa using hp
    rw [this]
    simp [urlLoop, urlLast, afterSlash, splitOn_of_not_mem hw, runU]
  | cons c rest ih =>
    by_cases hc : c = slash
    · subst hc
      simp only [urlLoop, if_true]
      have h := urlLoop_some path rest (pre ++ [slash]) [] idx buf (by simp [hp]) (by simp)
      simp only [List.append_nil, List.length_append, List.length_cons, List.length_nil, Nat.zero_add, List.nil_append] at h
      rw [h]
      have hs : splitOn slash path = pre :: splitOn slash rest := by rw [hp, splitOn_append hw]
      simp [afterSlash, hs]
    · simp only [urlLoop, hc, if_false]
      have := ih (pre ++ [c]) idx buf (by simp [hp]) (by
        simp only [List.mem_append, List.mem_singleton, not_or]
        exact ⟨hw, fun h => hc h.symm⟩)
      simpa [Nat.add_assoc] using this

/-- Offsets of a piece that denote it exactly. -/
def Exact (path : Str) (s : USeg) (v : Str) : Prop :=
  s.start ≤ s.stop ∧ s.stop.toNat ≤ path.length ∧ sliceU path s = some v

theorem push_length (st : List Str) (v : Str) : (push st v).length ≤ st.length + 1 := by
  unfold push
  split
  · omega
  · split
    · rw [List.length_tail]; omega
    · simp

/-- The buffer against the stack of pieces. -/
theorem runU_spec (path : Str) (hlen : path.length ≤ 65535) : ∀ (vs : List Str) (pre : Str) (st : List Str) (buf : List USeg),
    path = pre ++ joinWith slash vs → vs ≠ [] → buf.length = 19 → st.length ≤ 19 →
    (∀ (i : Nat) (v : Str), st.reverse[i]? = some v → ∃ s, buf[i]? = some s ∧ sliceU path s = some v) →
    ((∀ q, q <+: vs → (q.foldl push st).length ≤ 19) ∧ ∃ b, runU path pre.length vs st.length buf = .ok (vs.foldl push st).length b ∧
        b.length = 19 ∧ (∀ (i : Nat) (v : Str), (vs.foldl push st).reverse[i]? = some v → ∃ s, b[i]? = some s ∧ sliceU path s = some v)) ∨
    ((∃ q, q <+: vs ∧ 19 < (q.foldl push st).length) ∧ runU path pre.length vs st.length buf = .full) := by
  intro vs
  induction vs with
  | nil => intro pre st buf _ h; exact absurd rfl h
  | cons v vs ih =>
    intro pre st buf hp _ hb hst hinv
    -- the text of the piece
    have htext : (path.take (pre.length + v.length)).drop pre.length = v ∧ pre.length + v.length ≤ path.length := by
      have : ∃ r, path = pre ++ v ++ r := by
        cases vs with
        | nil => exact ⟨[], by simpa [joinWith] using hp⟩
        | cons w ws => exact ⟨slash :: joinWith slash (w :: ws), by simpa [joinWith] using hp⟩
      obtain ⟨r, rfl⟩ := this
      constructor
      · rw [← List.length_append, List.take_left']
        · simp
        · rfl
      · simp
    obtain ⟨ht, hle⟩ := htext
    have hstart : ((UInt16.ofNat pre.length).toNat = pre.length) ∧ ((UInt16.ofNat (pre.length + v.length)).toNat = pre.length + v.length) := by
      constructor <;> (rw [UInt16.toNat_ofNat']; omega)
    have hslice : sliceU path ⟨UInt16.ofNat pre.length, UInt16.ofNat (pre.length + v.length)⟩ = some v := by
      unfold sliceU
      rw [if_pos ⟨by rw [UInt16.le_iff_toNat_le, hstart.1, hstart.2]; omega, by rw [hstart.2]; exact hle⟩]
      rw [hstart.1, hstart.2, ht]
    -- continuing after this piece with the stack `st'` and buffer `b'`
    have cont : ∀ (b' : List USeg), b'.length = 19 → (push st v).length ≤ 19 →
        (∀ (i : Nat) (w : Str), (push st v).reverse[i]? = some w → ∃ s, b'[i]? = some s ∧ sliceU path s = some w) →
        addSegment path pre.length (pre.length + v.length) st.length buf = .ok (push st v).length b' →
        ((∀ q, q <+: v :: vs → (q.foldl push st).length ≤ 19) ∧ ∃ b, runU path pre.length (v :: vs) st.length buf = .ok ((v :: vs).foldl push st).length b ∧
        b.length = 19 ∧ (∀ (i : Nat) (w : Str), ((v :: vs).foldl push st).reverse[i]? = some w → ∃ s, b[i]? = some s ∧ sliceU path s = some w)) ∨
        ((∃ q, q <+: v :: vs ∧ 19 < (q.foldl push st).length) ∧ runU path pre.length (v :: vs) st.length buf = .full) := by
      intro b' hb' hl' hinv' hadd
      have hpre : ∀ q, q <+: v :: vs → q = [] ∨ ∃ q', q = v :: q' ∧ q' <+: vs := by
        intro q hq
        cases q with
        | nil => exact .inl rfl
        | cons y q => rw [List.cons_prefix_cons] at hq; exact .inr ⟨q, by rw [hq.1], hq.2⟩
      simp only [runU, hadd, List.foldl_cons]
      cases vs with
      | nil =>
        left
        refine ⟨?_, b', rfl, hb', hinv'⟩
        intro q hq
        rcases hpre q hq with rfl | ⟨q', rfl, hq'⟩
        · exact hst
        · have : q' = [] := List.prefix_nil.1 hq'
          subst this; exact hl'
      | cons w ws =>
        have := ih (pre ++ v ++ [slash]) (push st v) b' (by simp [hp, joinWith]) (by simp) hb' hl' hinv'
        simp only [List.length_append, List.length_cons, List.length_nil, Nat.zero_add] at this
        rcases this with ⟨h1, b, h2, h3, h4⟩ | ⟨⟨q, h1, h1'⟩, h2⟩
        · left
          refine ⟨?_, b, h2, h3, h4⟩
          intro q hq
          rcases hpre q hq with rfl | ⟨q', rfl, hq'⟩
          · exact hst
          · exact h1 q' hq'
        · right
          exact ⟨⟨v :: q, by rw [List.cons_prefix_cons]; exact ⟨rfl, h1⟩, by simpa using h1'⟩, h2⟩
    by_cases h0 : v = []
    · have hpush : push st v = st := by simp [push, h0]
      refine cont buf hb (by rw [hpush]; exact hst) (by rw [hpush]; exact hinv) ?_
      rw [hpush]; unfold addSegment; rw [ht, if_pos h0]
    · by_cases h1 : v = b!".."
      · have hpush : push st v = st.tail := by simp [push, h1]
        refine cont buf hb (by rw [hpush, List.length_tail]; omega) ?_ ?_
        · rw [hpush]
          intro i w hi
          refine hinv i w ?_
          cases st with
          | nil => simp at hi
          | cons y st =>
            simp only [List.tail_cons] at hi
            rw [List.reverse_cons, List.getElem?_append_left]
            · exact hi
            · have := (List.getElem?_eq_some_iff.1 hi).1; exact this
        · rw [hpush, List.length_tail]; unfold addSegment; rw [ht, if_neg h0, if_pos h1]
      · have hpush : push st v = v :: st := by simp [push, h0, h1]
        by_cases hfull : st.length ≥ 19
        · right
          refine ⟨⟨[v], by simp, by rw [List.foldl_cons, List.foldl_nil, hpush]; simp; omega⟩, ?_⟩
          have : addSegment path pre.length (pre.length + v.length) st.length buf = .full := by
            unfold addSegment; rw [ht, if_neg h0, if_neg h1, if_pos hfull]
          simp only [runU, this]
        · refine cont (buf.set st.length ⟨UInt16.ofNat pre.length, UInt16.ofNat (pre.length + v.length)⟩) (by simp [hb])
            (by rw [hpush]; simp; omega) ?_ ?_
          · rw [hpush]
            intro i w hi
            rw [List.reverse_cons] at hi
            by_cases hlt : i < st.length
            · rw [List.getElem?_append_left (by simpa using hlt)] at hi
              obtain ⟨s, hs, hs2⟩ := hinv i w hi
              exact ⟨s, by rw [List.getElem?_set_ne (by omega)]; exact hs, hs2⟩
            · rw [List.getElem?_append_right (by simpa using hlt)] at hi
              have hi0 : i - st.reverse.length = 0 := by
                have := (List.getElem?_eq_some_iff.1 hi).1
                simp at this ⊢
                omega
              rw [hi0] at hi
              have hw : v = w := by simpa using hi
              have hii : i = st.length := by simp at hi0; omega
              subst hii
              refine ⟨_, by rw [List.getElem?_set_self (by omega)], by rw [← hw]; exact hslice⟩
          · rw [hpush]; unfold addSegment
            rw [ht, if_neg h0, if_neg h1, if_neg hfull, if_pos (by omega)]
            simp

end Gofre.Path
