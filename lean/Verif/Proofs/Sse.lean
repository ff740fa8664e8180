import Verif.Proofs.Response
import Verif.Spec.Sse

/-! # Event streams -/

namespace Gofre.Response
open Gofre.Http Gofre.Spec

theorem lines_piece {t : Str} (ht : OneLine t) : ∀ (cur rest : Str), linesFrom cur (t ++ 10 :: rest) = (cur ++ t) :: linesFrom [] rest := by
  induction t with
  | nil =>
    intro cur rest
    rw [List.nil_append, linesFrom.eq_def]
    simp
  | cons c t ih =>
    intro cur rest
    have hc : c ≠ 10 ∧ c ≠ 13 := ⟨fun e => ht.1 (by simp [e]), fun e => ht.2 (by simp [e])⟩
    rw [List.cons_append, linesFrom.eq_def]
    split
    · rename_i h; exact absurd h (by simp)
    · rename_i h
      exact absurd (List.cons.inj h).1 hc.2
    · rename_i c' l' _ h
      obtain ⟨rfl, rfl⟩ := List.cons.inj h
      rw [if_neg (by simp [hc.1, hc.2]), ih ⟨fun h => ht.1 (by simp [h]), fun h => ht.2 (by simp [h])⟩]
      simp

/-- The lines an event consists of. -/
def eventLines (e : Event) : List Str :=
  (if e.name ≠ [] then [b!"event: " ++ e.name] else []) ++ e.data.map (b!"data: " ++ ·) ++
  (if e.id ≠ [] then [b!"id: " ++ e.id] else []) ++ (if e.retry > 0 then [b!"retry: " ++ itoaInt e.retry] else [])

/-- Every line followed by a line feed. -/
def terminated (ls : List Str) : Str := ls.flatMap (· ++ [10])

theorem data_shift : ∀ (l : List Str) (x : Str), dataText true l ++ 10 :: x = 10 :: (terminated (l.map (b!"data: " ++ ·)) ++ x)
  | [], x => by simp [dataText, terminated]
  | d :: l, x => by
    have := data_shift l x
    simp only [dataText, terminated, List.map_cons, List.flatMap_cons, List.append_assoc] at this ⊢
    rw [this]
    simp

theorem id_shift (e : Event) (x : Str) : (if e.id ≠ [] then b!"\nid: " ++ e.id else []) ++ 10 :: x =
    10 :: (terminated (if e.id ≠ [] then [b!"id: " ++ e.id] else []) ++ x) := by
  split <;> simp [terminated]

theorem retry_shift (e : Event) (x : Str) : (if e.retry > 0 then b!"\nretry: " ++ itoaInt e.retry else []) ++ 10 :: x =
    10 :: (terminated (if e.retry > 0 then [b!"retry: " ++ itoaInt e.retry] else []) ++ x) := by
  split <;> simp [terminated]

theorem terminated_append (a b : List Str) : terminated (a ++ b) = terminated a ++ terminated b := by simp [terminated]

/-- The text of an event without the two line feeds. -/
def rawText (e : Event) : Str := (if e.name ≠ [] then b!"event: " ++ e.name else []) ++ dataText (decide (e.name ≠ [])) e.data ++
    (if e.id ≠ [] then b!"\nid: " ++ e.id else []) ++ (if e.retry > 0 then b!"\nretry: " ++ itoaInt e.retry else [])

theorem text_raw (e : Event) : eventText e = if rawText e = [] then [] else rawText e ++ [10, 10] := rfl

/-- The text of an event that is not empty. -/
theorem text_lines (e : Event) (x : Str) (h : eventText e ≠ []) :
    eventText e ++ x = (if e.name = [] ∧ e.data = [] then [10] else []) ++ terminated (eventLines e) ++ 10 :: x := by
  have hr : rawText e ≠ [] := fun hr => h (by rw [text_raw, if_pos hr])
  rw [text_raw, if_neg hr]
  have h1 : rawText e ++ [10, 10] ++ x = (if e.name ≠ [] then b!"event: " ++ e.name else []) ++ (dataText (decide (e.name ≠ [])) e.data ++
      ((if e.id ≠ [] then b!"\nid: " ++ e.id else []) ++ ((if e.retry > 0 then b!"\nretry: " ++ itoaInt e.retry else []) ++ 10 :: 10 :: x))) := by
    simp only [rawText, List.append_assoc, List.cons_append, List.nil_append]
  rw [h1, retry_shift, id_shift]
  simp only [eventLines, terminated_append, List.append_assoc]
  by_cases hn : e.name = []
  · cases hd : e.data with
    | nil => simp [hn, dataText, terminated]
    | cons d l =>
      have := data_shift l
      simp only [hn, ne_eq, not_true_eq_false, decide_false, dataText, List.append_assoc, if_false, List.nil_append]
      rw [this]
      simp [terminated]
  · simp only [hn, ne_eq, not_false_eq_true, decide_true, if_true, List.append_assoc]
    rw [data_shift]
    simp [terminated]

theorem text_empty {e : Event} (h : eventText e = []) : normalEvent e = {} := by
  rw [text_raw] at h
  split at h
  · rename_i h1
    simp only [rawText, List.append_eq_nil_iff] at h1
    obtain ⟨⟨⟨h1, h2⟩, h3⟩, h4⟩ := h1
    have hn : e.name = [] := by
      by_cases hn : e.name = []
      · exact hn
      · rw [if_pos hn] at h1; simp at h1
    have hd : e.data = [] := by
      cases hd : e.data with
      | nil => rfl
      | cons d l => rw [hd, hn] at h2; simp [dataText] at h2
    have hi : e.id = [] := by
      by_cases hn : e.id = []
      · exact hn
      · rw [if_pos hn] at h3; simp at h3
    have hr : ¬ e.retry > 0 := by
      intro hr
      rw [if_pos hr] at h4; simp at h4
    have : max e.retry 0 = 0 := by omega
    simp [normalEvent, hn, hd, hi, this]
  · exact absurd h (by simp)

theorem lines_terminated : ∀ (ls : List Str), (∀ l ∈ ls, OneLine l) → ∀ x, linesFrom [] (terminated ls ++ x) = ls ++ linesFrom [] x
  | [], _, x => rfl
  | l :: ls, h, x => by
    have : terminated (l :: ls) ++ x = l ++ 10 :: (terminated ls ++ x) := by simp [terminated]
    rw [this, lines_piece (h l (by simp)), lines_terminated ls (fun l' h' => h l' (by simp [h']))]
    simp

theorem blocks_lines : ∀ (ls : List Str) (b : Event) (rest : List Str), (∀ l ∈ ls, l ≠ []) → readBlocks b (ls ++ rest) = readBlocks (ls.foldl readLine b) rest
  | [], _, _, _ => rfl
  | [] :: ls, _, _, h => absurd rfl (h [] (by simp))
  | (c :: l) :: ls, b, rest, h => by
    rw [List.cons_append, readBlocks, blocks_lines ls _ rest fun l' h' => h l' (by simp [h'])]
    rfl

theorem read_event (b : Event) (v : Str) : readLine b (b!"event: " ++ v) = { b with name := v } := by simp [readLine, cutColon, dropSpace]
theorem read_data (b : Event) (v : Str) : readLine b (b!"data: " ++ v) = { b with data := b.data ++ [v] } := by simp [readLine, cutColon, dropSpace]
theorem read_id (b : Event) (v : Str) (h : (0 : UInt8) ∉ v) : readLine b (b!"id: " ++ v) = { b with id := v } := by simp [readLine, cutColon, dropSpace, h]
theorem read_retry (b : Event) (n : Int) (h : 0 < n) (h' : n < 2 ^ 63) : readLine b (b!"retry: " ++ itoaInt n) = { b with retry := n } := by
  cases n with
  | ofNat n =>
    have : parseDigits (itoa n) = some n := parseDigits_itoa (by
      have : (n : Int) < 2 ^ 63 := h'
      omega)
    simp [readLine, cutColon, dropSpace, itoaInt, this]
  | negSucc n => exact absurd h (by omega)

theorem read_datas : ∀ (l : List Str) (b : Event), (l.map (b!"data: " ++ ·)).foldl readLine b = { b with data := b.data ++ l }
  | [], b => by simp
  | d :: l, b => by
    rw [List.map_cons, List.foldl_cons, read_data, read_datas]
    simp

theorem read_lines {e : Event} (h : Sendable e) : (eventLines e).foldl readLine {} = normalEvent e := by
  unfold eventLines
  rw [List.foldl_append, List.foldl_append, List.foldl_append, read_datas]
  have h1 : (if e.name ≠ [] then [b!"event: " ++ e.name] else []).foldl readLine {} = { name := e.name } := by
    split
    · simp only [List.foldl_cons, List.foldl_nil, read_event]
    · rename_i h; simp only [List.foldl_nil]; rw [Classical.not_not.1 h]
  rw [h1]
  have h2 : ∀ b : Event, b.id = [] → (if e.id ≠ [] then [b!"id: " ++ e.id] else []).foldl readLine b = { b with id := e.id } := by
    intro b hb
    split
    · simp only [List.foldl_cons, List.foldl_nil, read_id _ _ h.idNul]
    · rename_i h; simp only [List.foldl_nil]; rw [Classical.not_not.1 h, ← hb]
  rw [h2 _ rfl]
  split
  · rename_i hr
    simp only [List.foldl_cons, List.foldl_nil]
    rw [read_retry _ _ hr h.retry]
    have : max e.retry 0 = e.retry := by omega
    simp [normalEvent, this]
  · rename_i hr
    have : max e.retry 0 = 0 := by omega
    simp [normalEvent, this]

theorem itoa_oneLine (n : Int) : OneLine (itoaInt n) := by
  have : ∀ n, OneLine (itoa n) := fun n =>
    ⟨fun h => absurd (itoa_range n _ h).1 (by decide), fun h => absurd (itoa_range n _ h).1 (by decide)⟩
  cases n with
  | ofNat n => exact this n
  | negSucc n =>
    have := this (n + 1)
    exact ⟨by simpa [itoaInt] using this.1, by simpa [itoaInt] using this.2⟩

theorem oneLine_append {a b : Str} (ha : OneLine a) (hb : OneLine b) : OneLine (a ++ b) :=
  ⟨by simp [ha.1, hb.1], by simp [ha.2, hb.2]⟩

theorem lines_ok {e : Event} (h : Sendable e) : ∀ l ∈ eventLines e, OneLine l ∧ l ≠ [] := by
  have hc : ∀ {p s : Str}, OneLine p → OneLine s → p ≠ [] → OneLine (p ++ s) ∧ p ++ s ≠ [] := fun hp hs hne =>
    ⟨oneLine_append hp hs, by simp [hne]⟩
  intro l hl
  simp only [eventLines, List.mem_append, List.mem_map] at hl
  rcases hl with ((hl | ⟨d, hd, rfl⟩) | hl) | hl
  · split at hl
    · rw [List.mem_singleton.1 hl]; exact hc ⟨by decide, by decide⟩ h.name (by decide)
    · exact absurd hl (by simp)
  · exact hc ⟨by decide, by decide⟩ (h.data d hd) (by decide)
  · split at hl
    · rw [List.mem_singleton.1 hl]; exact hc ⟨by decide, by decide⟩ h.id (by decide)
    · exact absurd hl (by simp)
  · split at hl
    · rw [List.mem_singleton.1 hl]; exact hc ⟨by decide, by decide⟩ (itoa_oneLine _) (by decide)
    · exact absurd hl (by simp)

theorem normal_lines {e : Event} (h : eventText e ≠ []) : normalEvent e ≠ {} := by
  intro hn
  apply h
  have h1 : e.name = [] := congrArg Event.name hn
  have h2 : e.data = [] := congrArg Event.data hn
  have h3 : e.id = [] := congrArg Event.id hn
  have h4 : max e.retry 0 = 0 := congrArg Event.retry hn
  have h4 : ¬ e.retry > 0 := by omega
  simp [eventText, h1, h2, h3, h4, dataText]

theorem lines_lf (x : Str) : linesFrom [] (10 :: x) = [] :: linesFrom [] x := lines_piece (t := []) ⟨by simp, by simp⟩ [] x

theorem read_one {e : Event} (h : Sendable e) (x : Str) :
    readStream (eventText e ++ x) = (if normalEvent e = {} then [] else [normalEvent e]) ++ readStream x := by
  by_cases ht : eventText e = []
  · rw [if_pos (text_empty ht), ht]; rfl
  · rw [if_neg (normal_lines ht), text_lines e x ht]
    have hl := lines_ok h
    have key : ∀ y, readBlocks {} (linesFrom [] (terminated (eventLines e) ++ 10 :: y)) = normalEvent e :: readBlocks {} (linesFrom [] y) := by
      intro y
      rw [lines_terminated _ (fun l hl' => (hl l hl').1), lines_lf, blocks_lines _ _ _ (fun l hl' => (hl l hl').2), read_lines h]
      rw [readBlocks, if_neg (normal_lines ht)]
    unfold readStream
    split
    · simp only [List.cons_append, List.nil_append, lines_lf]
      rw [readBlocks, if_pos rfl, key]
    · simp only [List.nil_append]
      rw [key, List.singleton_append]

theorem read_all : ∀ (es : List Event), (∀ e ∈ es, Sendable e) → readStream (es.flatMap eventText) = (es.map normalEvent).filter (· ≠ {})
  | [], _ => rfl
  | e :: es, h => by
    rw [List.flatMap_cons, read_one (h e (by simp)), read_all es fun e' h' => h e' (by simp [h'])]
    by_cases hn : normalEvent e = {}
    · simp [hn]
    · simp [hn]

end Gofre.Response
