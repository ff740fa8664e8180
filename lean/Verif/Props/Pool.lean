import Verif.Proofs.Pool

/-! # C58, C66, C77: pooled maps and buffers -/

namespace Gofre.Props
open Gofre.Pool Gofre.Spec Gofre.Proofs.Pool

variable {β : Type} {empty : β}

/-- C58 for maps that are passed to one response each: whatever the interleaving, everything that is
read, and so sent, is what a program would read in which every response has a new map of its own. -/
theorem c58_unobservable_partial {ops : List (Op β)} (h : Follows (fun _ => .absent) ops) : (run empty (St.init empty) ops).log = valueLog empty ops :=
  (inv_run inv_init h).log

/-- C58: a map obtained for a response is empty and is not the map of any other place. -/
theorem c58_new_partial {ops : List (Op β)} (h : Follows (fun _ => .absent) ops) (o choice : Nat) :
    ∃ a, (run empty (St.init empty) (ops ++ [.get o choice])).ref o = some a ∧ (run empty (St.init empty) (ops ++ [.get o choice])).heap a = empty ∧
      ∀ o', o' ≠ o → known (fun _ => .absent) ops o' = .own → (run empty (St.init empty) (ops ++ [.get o choice])).ref o' ≠ some a := by
  have hi := inv_get (inv_run (empty := empty) inv_init h) o choice
  have e : run empty (St.init empty) (ops ++ [.get o choice]) = (run empty (St.init empty) ops).get empty o choice := by
    simp [run, St.step]
  rw [e]
  obtain ⟨a, h1, _⟩ := hi.held o (.inl (by simp))
  refine ⟨a, h1, (hi.own o a (by simp) h1).trans (by simp), ?_⟩
  intro o' hne ho' hr
  exact hne (hi.inj o' o a (.inl (by simp [hne, ho'])) (.inl (by simp)) hr h1)

/-- Headers as a list, for the examples. -/
abbrev Hs := List (Str × Str)

/-- Two responses (2 and 3), one with a map of the application, written in turns, and a third that
reuses a map. -/
def goodProgram : List (Op Hs) :=
  [.get 0 0, .update 0 ((b!"A", b!"1") :: ·), .setNil 3, .assign 2 0, .ensure 3 0, .update 3 ((b!"B", b!"2") :: ·), .read 2, .clear 2, .put 2,
    .setNil 4, .ensure 4 0, .update 4 ((b!"C", b!"3") :: ·), .read 3, .read 4]

example : Follows (fun _ => .absent) goodProgram ∧ (run [] (St.init []) goodProgram).pool = [] ∧ (run [] (St.init []) goodProgram).next = 2 := by decide
example : valueLog [] goodProgram = [(2, [(b!"A", b!"1")]), (3, [(b!"B", b!"2")]), (4, [(b!"C", b!"3")])] := by decide

/-- C58 fails when the application constructs two responses with one map: though each response is
written once, the map is then twice in the pool, two later responses get it, and the headers of one are
sent with the other. -/
theorem c58_violated : (run [] (St.init ([] : Hs)) [.make 0, .assign 1 0, .assign 2 0, .read 1, .clear 1, .put 1, .read 2, .clear 2, .put 2,
    .setNil 3, .setNil 4, .ensure 3 0, .ensure 4 0, .update 3 ((b!"Authorization", b!"secret") :: ·), .read 4]).log = [(1, []), (2, []), (4, [(b!"Authorization", b!"secret")])] := by decide

/-- C77 fails always: releasing the map that the application passed empties it, for every holder. -/
theorem c77_violated_never (s : St β) {o p a : Nat} (ho : s.ref o = some a) (hp : s.ref p = some a) :
    ((s.step empty (.clear o)).ref p = some a) ∧ (s.step empty (.clear o)).heap a = empty := by
  simp only [St.step, ho]
  exact ⟨hp, upd_same⟩

/-- C77 fails for two responses constructed with one map: the second is sent without its headers. -/
theorem c77_violated : (run [] (St.init ([] : Hs)) [.make 0, .update 0 ((b!"X-Frame-Options", b!"DENY") :: ·), .assign 1 0, .assign 2 0,
    .read 1, .clear 1, .put 1, .read 2]).log = [(1, [(b!"X-Frame-Options", b!"DENY")]), (2, [])] := by decide

/-- What `Serving` allows follows the rules. -/
theorem serving_follows : ∀ {ops : List (Op β)} {ph : Nat → Phase} {st : Nat → Status}, Serving ph ops →
    (∀ r, (ph r = .running → st r = .own) ∧ (ph r = .resetting → st r = .cleared)) →
    Follows st ops ∧ ∀ r, (phases ph ops r = .running → known st ops r = .own)
  | _, ph, st, .done, h => ⟨trivial, fun r => (h r).1⟩
  | _, ph, st, .start (r := r) (choice := choice) (ops := ops) _ hs, h => by
    have ih := serving_follows (st := after (β := β) st (.get r choice)) hs (by
      intro x
      by_cases e : x = r
      · simp [after, e]
      · simpa [after, e] using h x)
    exact ⟨⟨trivial, ih.1⟩, ih.2⟩
  | _, ph, st, .update (r := r) hr hs, h => by
    have ih := serving_follows (st := st) hs h
    exact ⟨⟨(h r).1 hr, ih.1⟩, ih.2⟩
  | _, ph, st, .read (r := r) hr hs, h => by
    have ih := serving_follows (st := st) hs h
    exact ⟨⟨.inl ((h r).1 hr), ih.1⟩, ih.2⟩
  | _, ph, st, .clone (r := r) hr hs, h => by
    have ih := serving_follows (st := st) hs h
    exact ⟨⟨.inl ((h r).1 hr), ih.1⟩, ih.2⟩
  | _, ph, st, .readClone hs, h => by
    have ih := serving_follows (st := st) hs h
    exact ⟨⟨trivial, ih.1⟩, ih.2⟩
  | _, ph, st, .forget hs, h => by
    have ih := serving_follows (st := st) hs h
    exact ⟨⟨trivial, ih.1⟩, ih.2⟩
  | _, ph, st, .reset (r := r) hr hs, h => by
    have ih := serving_follows (st := after (β := β) st (.clear r)) hs (by
      intro x
      by_cases e : x = r
      · simp [after, e, (h r).1 hr]
      · simpa [after, e] using h x)
    exact ⟨⟨.inl ((h r).1 hr), ih.1⟩, ih.2⟩
  | _, ph, st, .giveBack (r := r) hr hs, h => by
    have ih := serving_follows (st := after (β := β) st (.put r)) hs (by
      intro x
      by_cases e : x = r
      · simp [after, e]
      · simpa [after, e] using h x)
    exact ⟨⟨.inl ((h r).2 hr), ih.1⟩, ih.2⟩

/-- C66: in every interleaving of requests, each request reads what it wrote into its buffer itself, and
clones keep their values for ever. -/
theorem c66_unobservable {ops : List (Op β)} (h : Serving (fun _ => .idle) ops) : (run empty (St.init empty) ops).log = valueLog empty ops :=
  c58_unobservable_partial (serving_follows (st := fun _ => .absent) h (fun _ => ⟨by simp, by simp⟩)).1

/-- C66: two requests that are served at the same time have different buffers. -/
theorem c66_exclusive {ops : List (Op β)} (h : Serving (fun _ => .idle) ops) {r r' : Nat} (hr : phases (fun _ => .idle) ops r = .running)
    (hr' : phases (fun _ => .idle) ops r' = .running) (hne : r ≠ r') : ∃ a b, (run empty (St.init empty) ops).ref r = some a ∧ (run empty (St.init empty) ops).ref r' = some b ∧ a ≠ b := by
  have hf := serving_follows (st := fun _ => .absent) h (fun _ => ⟨by simp, by simp⟩)
  have hi := inv_run (empty := empty) inv_init hf.1
  obtain ⟨a, h1, _⟩ := hi.held r (.inl (hf.2 r hr))
  obtain ⟨b, h2, _⟩ := hi.held r' (.inl (hf.2 r' hr'))
  refine ⟨a, b, h1, h2, ?_⟩
  rintro rfl
  exact hne (hi.inj r r' a (.inl (hf.2 r hr)) (.inl (hf.2 r' hr')) h1 h2)

/-- C66: a new request gets a buffer without anything of another request. -/
theorem c66_clean {ops : List (Op β)} (h : Serving (fun _ => .idle) ops) (r choice : Nat) :
    ∃ a, (run empty (St.init empty) (ops ++ [.get r choice])).ref r = some a ∧ (run empty (St.init empty) (ops ++ [.get r choice])).heap a = empty := by
  obtain ⟨a, h1, h2, _⟩ := c58_new_partial (empty := empty) (serving_follows (st := fun _ => .absent) h (fun _ => ⟨by simp, by simp⟩)).1 r choice
  exact ⟨a, h1, h2⟩

/-- Two overlapping requests and a third that reuses a buffer, with a clone read at the end. -/
def servingProgram : List (Op (List Nat)) :=
  [.get 1 0, .get 2 0, .update 1 (fun _ => [10]), .update 2 (fun _ => [20]), .read 1, .clone 1 7, .clear 1, .put 1, .get 3 0, .update 3 (fun _ => [30]), .read 2, .readClone 7]

example : Serving (fun _ => .idle) servingProgram :=
  .start rfl (.start rfl (.update rfl (.update rfl (.read rfl (.clone rfl (.reset rfl (.giveBack rfl (.start rfl (.update rfl (.read rfl (.readClone .done)))))))))))
example : (run [] (St.init []) servingProgram).log = [(1, [10]), (2, [20]), (7, [10])] ∧ (run [] (St.init []) servingProgram).next = 2 := by decide

/-- Without a clone, a context used after its request shows another request's segments. -/
example : (run [] (St.init ([] : List Nat)) [.get 1 0, .update 1 (fun _ => [10]), .clear 1, .put 1, .get 2 0, .update 2 (fun _ => [20]), .read 1]).log = [(1, [20])] := by decide

end Gofre.Props
