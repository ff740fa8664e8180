import Verif.Model.Memo

/-!
# The kept header text under concurrent requests

Property C116.
-/

namespace Gofre.Props
open Gofre.Memo

/-- C116 fails when the length is stored before the pointer: the first two requests, at the same
time, crash the program. -/
theorem c116_violated (loadLen : Bool) (text : Str) (ht : text ≠ []) : ∃ is p n, (run ⟨true, loadLen⟩ text start is).pcs 1 = .out p n ∧ use p n = none := by
  have hl : text.length ≠ 0 := by simpa using ht
  refine ⟨[0, 0, 1, 1, 1], none, text.length, ?_, by simp [use, ht]⟩
  cases loadLen <;> simp [run, State.next, step, start, ht]

/-- What holds when the pointer is stored first. -/
def Sound (text : Str) (c : Cell) : Prop := (c.ptr = none ∨ c.ptr = some text) ∧ (c.len = 0 ∨ c.len = text.length ∧ c.ptr = some text)

/-- What a request knows. -/
def Knows (o : Order) (text : Str) (c : Cell) : Pc → Prop
  | .check => True
  | .store1 => True
  | .store2 => c.ptr = some text
  | .load1 => c.ptr = some text ∧ c.len = text.length
  | .load2 p n => c.ptr = some text ∧ c.len = text.length ∧ (if o.loadLen then n = text.length else p = some text)
  | .out p n => p = some text ∧ n = text.length

theorem memo_invariant (loadLen : Bool) (text : Str) (is : List Nat) (s : State) (h1 : Sound text s.cell) (h2 : ∀ i, Knows ⟨false, loadLen⟩ text s.cell (s.pcs i)) :
    Sound text (run ⟨false, loadLen⟩ text s is).cell ∧ ∀ i, Knows ⟨false, loadLen⟩ text (run ⟨false, loadLen⟩ text s is).cell ((run ⟨false, loadLen⟩ text s is).pcs i) := by
  induction is generalizing s with
  | nil => exact ⟨h1, h2⟩
  | cons i is ih =>
    have keep : ∀ (c : Cell) (pc : Pc), step ⟨false, loadLen⟩ text s.cell (s.pcs i) = some (c, pc) → Sound text c → Knows ⟨false, loadLen⟩ text c pc →
        (s.cell.ptr = some text → c.ptr = some text) → (s.cell.len = text.length → c.len = text.length) →
        Sound text (State.next ⟨false, loadLen⟩ text s i).cell ∧
          ∀ j, Knows ⟨false, loadLen⟩ text (State.next ⟨false, loadLen⟩ text s i).cell ((State.next ⟨false, loadLen⟩ text s i).pcs j) := by
      intro c pc h hs hk hp hn
      unfold State.next
      rw [h]
      refine ⟨hs, fun j => ?_⟩
      dsimp only
      split
      · exact hk
      · have := h2 j
        cases hj : s.pcs j with
        | check => trivial
        | store1 => trivial
        | store2 => rw [hj] at this; exact hp this
        | load1 => rw [hj] at this; exact ⟨hp this.1, hn this.2⟩
        | load2 p n => rw [hj] at this; exact ⟨hp this.1, hn this.2.1, this.2.2⟩
        | out p n => rw [hj] at this; exact this
    have main : Sound text (State.next ⟨false, loadLen⟩ text s i).cell ∧
        ∀ j, Knows ⟨false, loadLen⟩ text (State.next ⟨false, loadLen⟩ text s i).cell ((State.next ⟨false, loadLen⟩ text s i).pcs j) := by
      have hi := h2 i
      cases hpc : s.pcs i with
      | check =>
        refine keep _ _ (by rw [hpc]; rfl) h1 ?_ id id
        by_cases h0 : s.cell.len = 0
        · rw [if_pos h0]; trivial
        · rw [if_neg h0]
          rcases h1.2 with h | h
          · exact absurd h h0
          · exact ⟨h.2, h.1⟩
      | store1 =>
        refine keep { s.cell with ptr := some text } .store2 (by rw [hpc]; rfl) ⟨.inr rfl, ?_⟩ rfl (fun _ => rfl) id
        exact h1.2.imp id fun h => ⟨h.1, rfl⟩
      | store2 =>
        rw [hpc] at hi
        exact keep { s.cell with len := text.length } .load1 (by rw [hpc]; rfl) ⟨.inr hi, .inr ⟨rfl, hi⟩⟩ ⟨hi, rfl⟩ id fun _ => rfl
      | load1 =>
        rw [hpc] at hi
        refine keep _ _ (by rw [hpc]; rfl) h1 ?_ id id
        cases loadLen
        · exact ⟨hi.1, hi.2, hi.1⟩
        · exact ⟨hi.1, hi.2, hi.2⟩
      | load2 p n =>
        rw [hpc] at hi
        refine keep _ _ (by rw [hpc]; rfl) h1 ?_ id id
        cases loadLen
        · exact ⟨hi.2.2, hi.2.1⟩
        · exact ⟨hi.1, hi.2.2⟩
      | out p n =>
        unfold State.next
        rw [hpc]
        exact ⟨h1, h2⟩
    exact ih _ main.1 main.2

/-- C116 when the pointer is stored before the length: whatever the requests do in whatever order,
each gets the text of the configuration.

Missing: the other order of the stores, see `c116_violated`. -/
theorem c116_pointer_first_partial (loadLen : Bool) (text : Str) (is : List Nat) (i : Nat) (p : Option Str) (n : Nat)
    (h : (run ⟨false, loadLen⟩ text start is).pcs i = .out p n) : use p n = some text := by
  have := (memo_invariant loadLen text is start ⟨.inl rfl, .inl rfl⟩ fun _ => trivial).2 i
  rw [h] at this
  obtain ⟨rfl, rfl⟩ := this
  unfold use
  split
  · rename_i h0; rw [List.length_eq_zero_iff] at h0; rw [h0]
  · simp

example : (run ⟨false, true⟩ b!"max-age=1" start [0, 1, 0, 0, 2, 1, 1, 2, 2, 1, 1, 0, 0]).pcs 2 = .out (some b!"max-age=1") 9 ∧
    (run ⟨false, true⟩ b!"max-age=1" start [0, 1, 0, 0, 2, 1, 1, 2, 2, 1, 1, 0, 0]).pcs 1 = .out (some b!"max-age=1") 9 := by decide

theorem memo_append (o : Order) (text : Str) (s : State) (is js : List Nat) : run o text s (is ++ js) = run o text (run o text s is) js := by
  induction is generalizing s with
  | nil => rfl
  | cons i is ih => exact ih _

/-- One request by itself. -/
theorem memo_one (o : Order) (text : Str) (s : State) (i : Nat) (hc : s.cell = ⟨none, 0⟩ ∨ s.cell = ⟨some text, text.length⟩) (hi : s.pcs i = .check) :
    (run o text s (List.replicate 5 i)).cell = ⟨some text, text.length⟩ ∧ (run o text s (List.replicate 5 i)).pcs i = .out (some text) text.length ∧
      ∀ j, j ≠ i → (run o text s (List.replicate 5 i)).pcs j = s.pcs j := by
  obtain ⟨c, pcs⟩ := s
  obtain ⟨sl, ll⟩ := o
  simp only at hc hi
  by_cases ht : text = []
  · subst ht
    rcases hc with rfl | rfl <;> cases sl <;> cases ll <;> simp +contextual [run, State.next, step, hi, List.replicate]
  · rcases hc with rfl | rfl <;> cases sl <;> cases ll <;> simp +contextual [run, State.next, step, hi, List.replicate, ht]

theorem memo_keeps (o : Order) (text : Str) (j : Nat) (is : List Nat) (h : j ∉ is) (s : State) : (run o text s is).pcs j = s.pcs j := by
  induction is generalizing s with
  | nil => rfl
  | cons i is ih =>
    rw [List.mem_cons, not_or] at h
    rw [run, ih h.2, State.next]
    split
    · rfl
    · exact if_neg h.1

/-- C116 when requests are not at the same place at the same time, however the program was
compiled: each gets the text of the configuration. -/
theorem c116_alone_partial (o : Order) (text : Str) (is : List Nat) (hd : is.Nodup) :
    ∀ i ∈ is, ∃ p n, (run o text start (is.flatMap fun i => List.replicate 5 i)).pcs i = .out p n ∧ use p n = some text := by
  have main : ∀ (is : List Nat) (s : State), (s.cell = ⟨none, 0⟩ ∨ s.cell = ⟨some text, text.length⟩) → is.Nodup → (∀ i ∈ is, s.pcs i = .check) →
      ∀ i ∈ is, (run o text s (is.flatMap fun i => List.replicate 5 i)).pcs i = .out (some text) text.length := by
    intro is
    induction is with
    | nil => intro _ _ _ _ i hi; cases hi
    | cons k is ih =>
      intro s hc hn hp i hi
      obtain ⟨h1, h2, h3⟩ := memo_one o text s k hc (hp k (by simp))
      rw [List.flatMap_cons, memo_append]
      rw [List.nodup_cons] at hn
      by_cases hik : i = k
      · subst hik
        rw [memo_keeps, h2]
        intro hm
        obtain ⟨j, hj, hm⟩ := List.mem_flatMap.1 hm
        rw [List.eq_of_mem_replicate hm] at hn
        exact hn.1 hj
      · refine ih _ (.inr h1) hn.2 (fun j hj => ?_) i ((List.mem_cons.1 hi).resolve_left hik)
        rw [h3 j (fun e => hn.1 (e ▸ hj))]
        exact hp j (by simp [hj])
  intro i hi
  refine ⟨_, _, main is start (.inl rfl) hd (fun _ _ => rfl) i hi, ?_⟩
  unfold use
  split
  · rename_i h0; rw [List.length_eq_zero_iff] at h0; rw [h0]
  · simp

example : [4, 0, 7].Nodup ∧ (run ⟨true, true⟩ b!"DENY" start ([4, 0, 7].flatMap fun i => List.replicate 5 i)).pcs 7 = .out (some b!"DENY") 4 := by decide

/-! ### What can go wrong, exactly -/

/-- What holds however the program was compiled. -/
def Half (text : Str) (c : Cell) : Prop := (c.ptr = none ∨ c.ptr = some text) ∧ (c.len = 0 ∨ c.len = text.length)

/-- What a request knows however the program was compiled. -/
def HalfKnows (o : Order) (text : Str) (c : Cell) : Pc → Prop
  | .check => True
  | .store1 => True
  | .store2 => if o.storeLen then c.len = text.length else c.ptr = some text
  | .load1 => c.len = text.length
  | .load2 p n => c.len = text.length ∧ if o.loadLen then n = text.length else ((p = none ∨ p = some text) ∧ (p = some text → c.ptr = some text))
  | .out p n => c.len = text.length ∧ n = text.length ∧ (p = none ∨ p = some text) ∧ (p = some text → c.ptr = some text)

theorem half_step (o : Order) (text : Str) (c c' : Cell) (pc pc' : Pc) (h : step o text c pc = some (c', pc')) (h1 : Half text c) (h2 : HalfKnows o text c pc) :
    Half text c' ∧ HalfKnows o text c' pc' ∧ (c.ptr = some text → c'.ptr = some text) ∧ (c.len = text.length → c'.len = text.length) := by
  obtain ⟨sl, ll⟩ := o
  obtain ⟨hp, hl⟩ := h1
  cases pc with
  | check =>
    simp only [step, Option.some.injEq, Prod.mk.injEq] at h
    obtain ⟨rfl, rfl⟩ := h
    refine ⟨⟨hp, hl⟩, ?_, id, id⟩
    split
    · trivial
    · rename_i h0; exact hl.resolve_left h0
  | store1 =>
    simp only [step, Option.some.injEq, Prod.mk.injEq] at h
    obtain ⟨rfl, rfl⟩ := h
    cases sl
    · exact ⟨⟨.inr rfl, hl⟩, rfl, fun _ => rfl, id⟩
    · exact ⟨⟨hp, .inr rfl⟩, rfl, id, fun _ => rfl⟩
  | store2 =>
    simp only [step, Option.some.injEq, Prod.mk.injEq] at h
    obtain ⟨rfl, rfl⟩ := h
    cases sl
    · exact ⟨⟨hp, .inr rfl⟩, rfl, id, fun _ => rfl⟩
    · exact ⟨⟨.inr rfl, hl⟩, h2, fun _ => rfl, id⟩
  | load1 =>
    simp only [step, Option.some.injEq, Prod.mk.injEq] at h
    obtain ⟨rfl, rfl⟩ := h
    refine ⟨⟨hp, hl⟩, ?_, id, id⟩
    cases ll
    · exact ⟨h2, hp, id⟩
    · exact ⟨h2, h2⟩
  | load2 p n =>
    simp only [step, Option.some.injEq, Prod.mk.injEq] at h
    obtain ⟨rfl, rfl⟩ := h
    refine ⟨⟨hp, hl⟩, ?_, id, id⟩
    cases ll
    · exact ⟨h2.1, h2.1, h2.2.1, h2.2.2⟩
    · exact ⟨h2.1, h2.2, hp, id⟩
  | out p n => cases h

theorem half_keeps {o : Order} {text : Str} {c c' : Cell} {pc : Pc} (h : HalfKnows o text c pc) (hp : c.ptr = some text → c'.ptr = some text)
    (hl : c.len = text.length → c'.len = text.length) : HalfKnows o text c' pc := by
  obtain ⟨sl, ll⟩ := o
  cases pc with
  | check => trivial
  | store1 => trivial
  | store2 =>
    cases sl
    · exact hp h
    · exact hl h
  | load1 => exact hl h
  | load2 p n =>
    refine ⟨hl h.1, ?_⟩
    cases ll
    · exact ⟨h.2.1, fun e => hp (h.2.2 e)⟩
    · exact h.2
  | out p n => exact ⟨hl h.1, h.2.1, h.2.2.1, fun e => hp (h.2.2.2 e)⟩

theorem half_run (o : Order) (text : Str) (is : List Nat) (s : State) (h1 : Half text s.cell) (h2 : ∀ i, HalfKnows o text s.cell (s.pcs i)) :
    Half text (run o text s is).cell ∧ ∀ i, HalfKnows o text (run o text s is).cell ((run o text s is).pcs i) := by
  induction is generalizing s with
  | nil => exact ⟨h1, h2⟩
  | cons i is ih =>
    rw [run]
    cases hst : step o text s.cell (s.pcs i) with
    | none =>
      have e : s.next o text i = s := by simp [State.next, hst]
      rw [e]
      exact ih s h1 h2
    | some r =>
      obtain ⟨c', pc'⟩ := r
      have e : s.next o text i = ⟨c', fun j => if j = i then pc' else s.pcs j⟩ := by simp [State.next, hst]
      obtain ⟨h3, h4, h5, h6⟩ := half_step o text _ _ _ _ hst h1 (h2 i)
      rw [e]
      refine ih _ h3 fun j => ?_
      dsimp only
      split
      · exact h4
      · exact half_keeps (h2 j) h5 h6

theorem use_whole (text : Str) : use (some text) text.length = some text := by
  unfold use
  split
  · rename_i h0; rw [List.length_eq_zero_iff] at h0; rw [h0]
  · simp

/-- C116: a request never gets a wrong text, however the program was compiled and whatever runs at the same time: it gets the configured one or
crashes the program. -/
theorem c116_right_or_crash (o : Order) (text : Str) (is : List Nat) (i : Nat) (p : Option Str) (n : Nat)
    (h : (run o text start is).pcs i = .out p n) : use p n = some text ∨ use p n = none := by
  have := (half_run o text is start ⟨.inl rfl, .inl rfl⟩ fun _ => trivial).2 i
  rw [h] at this
  obtain ⟨_, rfl, rfl | rfl, _⟩ := this
  · cases text with
    | nil => exact .inl rfl
    | cons a l => exact .inr rfl
  · exact .inl (use_whole text)

/-- C116, exactly: some interleaving crashes the program if and only if lengths are stored before pointers and the configured text is not
empty; two requests are then enough (`c116_violated`). -/
theorem c116_exact (o : Order) (text : Str) :
    (∃ is i p n, (run o text start is).pcs i = .out p n ∧ use p n = none) ↔ o.storeLen = true ∧ text ≠ [] := by
  obtain ⟨sl, ll⟩ := o
  constructor
  · rintro ⟨is, i, p, n, h1, h2⟩
    constructor
    · cases sl with
      | true => rfl
      | false => rw [c116_pointer_first_partial ll text is i p n h1] at h2; cases h2
    · rintro rfl
      have := (half_run ⟨sl, ll⟩ [] is start ⟨.inl rfl, .inl rfl⟩ fun _ => trivial).2 i
      rw [h1] at this
      obtain ⟨_, rfl, _, _⟩ := this
      cases h2
  · rintro ⟨h1, h2⟩
    simp only at h1
    subst h1
    obtain ⟨is, p, n, h3, h4⟩ := c116_violated ll text h2
    exact ⟨is, 1, p, n, h3, h4⟩

/-- What a request that began after the field was complete knows. -/
def After (o : Order) (text : Str) : Pc → Prop
  | .load2 p n => if o.loadLen then n = text.length else p = some text
  | .out p n => p = some text ∧ n = text.length
  | _ => True

theorem after_run (o : Order) (text : Str) (js : List Nat) (j : Nat) (s : State) (hc : s.cell = ⟨some text, text.length⟩) (hj : After o text (s.pcs j)) :
    After o text ((run o text s js).pcs j) := by
  induction js generalizing s with
  | nil => exact hj
  | cons i js ih =>
    rw [run]
    cases hst : step o text s.cell (s.pcs i) with
    | none =>
      have e : s.next o text i = s := by simp [State.next, hst]
      rw [e]
      exact ih s hc hj
    | some r =>
      obtain ⟨c', pc'⟩ := r
      have e : s.next o text i = ⟨c', fun j => if j = i then pc' else s.pcs j⟩ := by simp [State.next, hst]
      rw [e]
      obtain ⟨sl, ll⟩ := o
      have key : c' = ⟨some text, text.length⟩ ∧ (After ⟨sl, ll⟩ text (s.pcs i) → After ⟨sl, ll⟩ text pc') := by
        rw [hc] at hst
        cases hpc : s.pcs i <;> rw [hpc] at hst <;> simp only [step, Option.some.injEq, Prod.mk.injEq, reduceCtorEq] at hst
        all_goals
          obtain ⟨rfl, rfl⟩ := hst
          refine ⟨by cases sl <;> rfl, fun ha => ?_⟩
          first
            | trivial
            | (split <;> trivial)
            | (cases ll <;> first | exact ⟨ha, rfl⟩ | exact ⟨rfl, ha⟩ | rfl)
      refine ih _ key.1 ?_
      dsimp only
      split
      · rename_i hji; subst hji; exact key.2 hj
      · exact hj

/-- C116 in the long run: once one request has got the text, every request that begins afterwards gets it, however the program was
compiled and whatever else is going on. -/
theorem c116_settled (o : Order) (text : Str) (is js : List Nat) (i j : Nat) (p q : Option Str) (n m : Nat)
    (hi : (run o text start is).pcs i = .out p n) (hu : use p n = some text) (ht : text ≠ []) (hj : (run o text start is).pcs j = .check)
    (hout : (run o text start (is ++ js)).pcs j = .out q m) : use q m = some text := by
  have hk := (half_run o text is start ⟨.inl rfl, .inl rfl⟩ fun _ => trivial).2 i
  rw [hi] at hk
  obtain ⟨h1, rfl, h2, h3⟩ := hk
  have hp : p = some text := by
    rcases h2 with rfl | h2
    · have : text.length ≠ 0 := by simpa using ht
      simp [use, ht] at hu
    · exact h2
  have hc : (run o text start is).cell = ⟨some text, text.length⟩ := by
    have h3 := h3 hp
    generalize (run o text start is).cell = c at h1 h3
    obtain ⟨a, b⟩ := c
    simp only at h1 h3
    rw [h1, h3]
  rw [memo_append] at hout
  have := after_run o text js j _ hc (by rw [hj]; trivial)
  rw [hout] at this
  obtain ⟨rfl, rfl⟩ := this
  exact use_whole text

/-- Two requests at the same time of which one crashes, and a later one. -/
example : (run ⟨true, false⟩ b!"DENY" start [0, 0, 1, 1, 1]).pcs 1 = .out none 4 ∧ use none 4 = none ∧
    (run ⟨true, false⟩ b!"DENY" start [0, 0, 0, 0, 0]).pcs 0 = .out (some b!"DENY") 4 ∧ (run ⟨true, false⟩ b!"DENY" start [0, 0, 0, 0, 0]).pcs 2 = .check ∧
    (run ⟨true, false⟩ b!"DENY" start ([0, 0, 0, 0, 0] ++ [2, 3, 3, 2, 2])).pcs 2 = .out (some b!"DENY") 4 := by decide

end Gofre.Props
