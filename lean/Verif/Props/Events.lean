import Verif.Proofs.Events

/-! # C105–C108: the event stream of the example server -/

namespace Gofre.Props
open Gofre.Events

/-! ### C106, C108: one connection -/

/-- The state of a stream that only connection `c` reads, which was sent the `k` events after event `n`. -/
structure Alone (cap c n : Nat) (base : List (Nat × Nat)) (s : State) (k : Nat) : Prop where
  ring : Ring cap s
  up : s.crashed = false
  idx : s.readIndex = ((n + k : Nat) : Int)
  out : s.sent = base ++ (List.range k).map fun i => (c, n + i + 1)
  pc : s.pc c = .out ∨ s.pc c = .loaded ((n + k : Nat) : Int) ∨ (s.pc c = .below ((n + k : Nat) : Int) ∧ n + k < s.writeIndex) ∨
    (s.pc c = .holds (n + k + 1) ∧ n + k < s.writeIndex)
  written : 0 < k → n + k ≤ s.writeIndex

/-- A step of the producer or of connection `c`. -/
inductive By (c : Nat) : Step → Prop
  | store : By c .store
  | publish : By c .publish
  | load : By c (.load c)
  | compare : By c (.compare c)
  | fetch : By c (.fetch c)
  | advance : By c (.advance c)

theorem alone_step {cap c n k : Nat} {base : List (Nat × Nat)} {s : State} {t : Step} (hc : 0 < cap) (h : Alone cap c n base s k) (ht : By c t)
    (hlap : (s.stored : Int) ≤ s.readIndex + cap) (hb : n + k < 9223372036854775807) :
    Alone cap c n base (step cap s t) k ∨ Alone cap c n base (step cap s t) (k + 1) := by
  obtain ⟨h1, h2, h3, h4, h5, h6⟩ := h
  have hring := ring_step h1 t
  have hgoto : ∀ p, (s.goto c p).pc c = p := fun p => by simp [State.goto]
  have hlap' : s.stored ≤ n + k + cap := by rw [h3] at hlap; omega
  cases ht with
  | store =>
    left
    have e : step cap s .store = if s.storing then s
      else { s with storing := true, list := fun i => if i = s.writeIndex % cap then s.writeIndex + 1 else s.list i } := by
      simp [step, h2, show cap ≠ 0 by omega]
    rw [e] at hring ⊢
    split at hring
    · rename_i hs; rw [if_pos hs]; exact ⟨h1, h2, h3, h4, h5, h6⟩
    · rename_i hs; rw [if_neg hs]; exact ⟨hring, h2, h3, h4, h5, h6⟩
  | publish =>
    left
    have e : step cap s .publish = if s.storing then { s with storing := false, writeIndex := s.writeIndex + 1 } else s := by simp [step, h2]
    rw [e] at hring ⊢
    split at hring
    · rename_i hs
      rw [if_pos hs]
      refine ⟨hring, h2, h3, h4, ?_, fun hk => Nat.le_succ_of_le (h6 hk)⟩
      rcases h5 with h | h | ⟨h, h'⟩ | ⟨h, h'⟩
      · exact .inl h
      · exact .inr (.inl h)
      · exact .inr (.inr (.inl ⟨h, Nat.lt_succ_of_lt h'⟩))
      · exact .inr (.inr (.inr ⟨h, Nat.lt_succ_of_lt h'⟩))
    · rename_i hs; rw [if_neg hs]; exact ⟨h1, h2, h3, h4, h5, h6⟩
  | load =>
    left
    have e : step cap s (.load c) = if s.pc c = .out then s.goto c (.loaded s.readIndex) else s := by simp [step, h2]
    rw [e] at hring ⊢
    split at hring
    · rename_i hs
      rw [if_pos hs]
      exact ⟨hring, h2, h3, h4, .inr (.inl (by rw [hgoto, h3])), h6⟩
    · rename_i hs; rw [if_neg hs]; exact ⟨h1, h2, h3, h4, h5, h6⟩
  | compare =>
    left
    rcases h5 with h | h | ⟨h, h'⟩ | ⟨h, h'⟩
    · have e : step cap s (.compare c) = s := by simp [step, h2, h]
      rw [e]; exact ⟨h1, h2, h3, h4, .inl h, h6⟩
    · have e : step cap s (.compare c) = if (s.writeIndex : Int) ≤ ((n + k : Nat) : Int) then s.goto c .out else s.goto c (.below ((n + k : Nat) : Int)) := by
        simp only [step, h2, h]; rfl
      rw [e] at hring ⊢
      split at hring
      · rename_i hs; rw [if_pos hs]; exact ⟨hring, h2, h3, h4, .inl (hgoto _), h6⟩
      · rename_i hs; rw [if_neg hs]
        exact ⟨hring, h2, h3, h4, .inr (.inr (.inl ⟨hgoto _, by simp only [State.goto]; omega⟩)), h6⟩
    · have e : step cap s (.compare c) = s := by simp [step, h2, h]
      rw [e]; exact ⟨h1, h2, h3, h4, .inr (.inr (.inl ⟨h, h'⟩)), h6⟩
    · have e : step cap s (.compare c) = s := by simp [step, h2, h]
      rw [e]; exact ⟨h1, h2, h3, h4, .inr (.inr (.inr ⟨h, h'⟩)), h6⟩
  | fetch =>
    left
    rcases h5 with h | h | ⟨h, h'⟩ | ⟨h, h'⟩
    · have e : step cap s (.fetch c) = s := by simp [step, h2, h]
      rw [e]; exact ⟨h1, h2, h3, h4, .inl h, h6⟩
    · have e : step cap s (.fetch c) = s := by simp [step, h2, h]
      rw [e]; exact ⟨h1, h2, h3, h4, .inr (.inl h), h6⟩
    · have e : step cap s (.fetch c) = s.goto c (.holds (s.list ((n + k) % cap))) := by
        simp only [step, h2, h, tmod_nat, Int.toNat_natCast]
        rw [if_neg (by simp), if_neg (by omega)]
      rw [(h1.get hc h').2.2 hlap'] at e
      rw [e] at hring ⊢
      exact ⟨hring, h2, h3, h4, .inr (.inr (.inr ⟨hgoto _, h'⟩)), h6⟩
    · have e : step cap s (.fetch c) = s := by simp [step, h2, h]
      rw [e]; exact ⟨h1, h2, h3, h4, .inr (.inr (.inr ⟨h, h'⟩)), h6⟩
  | advance =>
    rcases h5 with h | h | ⟨h, h'⟩ | ⟨h, h'⟩
    · left
      have e : step cap s (.advance c) = s := by simp [step, h2, h]
      rw [e]; exact ⟨h1, h2, h3, h4, .inl h, h6⟩
    · left
      have e : step cap s (.advance c) = s := by simp [step, h2, h]
      rw [e]; exact ⟨h1, h2, h3, h4, .inr (.inl h), h6⟩
    · left
      have e : step cap s (.advance c) = s := by simp [step, h2, h]
      rw [e]; exact ⟨h1, h2, h3, h4, .inr (.inr (.inl ⟨h, h'⟩)), h6⟩
    · right
      have e : step cap s (.advance c) = { s.goto c .out with readIndex := inc s.readIndex, sent := s.sent ++ [(c, n + k + 1)] } := by
        simp [step, h2, h]
      rw [e] at hring ⊢
      refine ⟨hring, h2, ?_, ?_, .inl (hgoto _), fun _ => h'⟩
      · show inc s.readIndex = _
        rw [h3, inc, if_neg (by omega)]
        omega
      · show s.sent ++ _ = _
        rw [h4, List.range_succ, List.map_append]
        simp

theorem alone_run {cap c n : Nat} {base : List (Nat × Nat)} (hc : 0 < cap) : ∀ (ts : List Step) (s : State) (k : Nat), Alone cap c n base s k → (∀ t ∈ ts, By c t) →
    (∀ pre, pre <+: ts → ((run cap s pre).stored : Int) ≤ (run cap s pre).readIndex + cap) → n + k + ts.length < 9223372036854775807 →
    ∃ k', Alone cap c n base (run cap s ts) k' := by
  intro ts
  induction ts with
  | nil => intro s k h _ _ _; exact ⟨k, h⟩
  | cons t ts ih =>
    intro s k h hby hlap hb
    have hnext : ∀ pre, pre <+: ts → ((run cap (step cap s t) pre).stored : Int) ≤ (run cap (step cap s t) pre).readIndex + cap :=
      fun pre hp => hlap (t :: pre) (by simpa using hp)
    simp only [List.length_cons] at hb
    rcases alone_step hc h (hby t (by simp)) (hlap [] (List.nil_prefix)) (by omega) with h' | h'
    · exact ih _ k h' (fun u hu => hby u (by simp [hu])) hnext (by omega)
    · exact ih _ (k + 1) h' (fun u hu => hby u (by simp [hu])) hnext (by omega)

/-- C106 for one connection that is there from the beginning and never falls more than the size of the ring behind: what it is sent
is event 1, event 2 and so on without gap or repetition, whatever the interleaving with the producer. -/
theorem c106_alone_partial (cap c : Nat) (hc : 0 < cap) (ts : List Step) (hts : ∀ t ∈ ts, By c t)
    (hlap : ∀ pre, pre <+: ts → ((run cap {} pre).stored : Int) ≤ (run cap {} pre).readIndex + cap) (hb : ts.length < 9223372036854775807) :
    ∃ k, k ≤ (run cap {} ts).writeIndex ∧ (run cap {} ts).sent = (List.range k).map (fun i => (c, i + 1)) ∧ (run cap {} ts).crashed = false := by
  obtain ⟨k, h⟩ := alone_run (n := 0) (base := []) hc ts {} 0 ⟨ring_new cap, rfl, rfl, rfl, .inl rfl, by omega⟩ hts hlap (by omega)
  refine ⟨k, ?_, by simpa using h.out, h.up⟩
  rcases Nat.eq_zero_or_pos k with h0 | h0
  · omega
  · have := h.written h0; omega

/-- Events made by the producer alone. -/
def produce (n : Nat) : List Step := (List.replicate n [Step.store, Step.publish]).flatten

/-- One uninterrupted call of `Next` by connection `c`. -/
def next (c : Nat) : List Step := [.load c, .compare c, .fetch c, .advance c]

theorem steps_append (cap : Nat) (s : State) (a b : List Step) : run cap s (a ++ b) = run cap (run cap s a) b := by simp [run]

theorem run_produce {cap : Nat} (hc : 0 < cap) : ∀ (n : Nat) (s : State), s.crashed = false → s.storing = false →
    (run cap s (produce n)).writeIndex = s.writeIndex + n ∧ (run cap s (produce n)).readIndex = s.readIndex ∧ (run cap s (produce n)).crashed = false ∧
    (run cap s (produce n)).storing = false ∧ (run cap s (produce n)).pc = s.pc ∧ (run cap s (produce n)).sent = s.sent
  | 0, s, h1, h2 => ⟨rfl, rfl, h1, h2, rfl, rfl⟩
  | n + 1, s, h1, h2 => by
    have e : run cap s (produce (n + 1)) = run cap (step cap (step cap s .store) .publish) (produce n) := by
      simp [produce, run, List.replicate_succ]
    have e1 : step cap s .store = { s with storing := true, list := fun i => if i = s.writeIndex % cap then s.writeIndex + 1 else s.list i } := by
      simp [step, h1, h2, show cap ≠ 0 by omega]
    have e2 : step cap (step cap s .store) .publish = { s with storing := false, writeIndex := s.writeIndex + 1, list := fun i => if i = s.writeIndex % cap then s.writeIndex + 1 else s.list i } := by
      rw [e1]; simp [step, h1]
    obtain ⟨a1, a2, a3, a4, a5, a6⟩ := run_produce hc n (step cap (step cap s .store) .publish) (by rw [e2]; exact h1) (by rw [e2])
    rw [e]
    rw [e2] at a1 a2 a3 a4 a5 a6 ⊢
    exact ⟨by rw [a1]; dsimp only; omega, a2, a3, a4, a5, a6⟩

/-- One uninterrupted call of `Next` with the read index at `n`, below the write index. -/
theorem run_next {cap c n : Nat} {s : State} (hup : s.crashed = false) (hpc : s.pc c = .out) (hr : s.readIndex = (n : Int)) (hn : n < s.writeIndex) :
    (run cap s (next c)).sent = s.sent ++ [(c, s.list (n % cap))] := by
  have e1 : step cap s (.load c) = s.goto c (.loaded (n : Int)) := by simp [step, hup, hpc, hr]
  have e2 : step cap (s.goto c (.loaded (n : Int))) (.compare c) = (s.goto c (.loaded (n : Int))).goto c (.below (n : Int)) := by
    simp only [step, State.goto, hup, Bool.false_eq_true, if_false, if_true]
    rw [if_neg (by omega)]
  have e3 : step cap ((s.goto c (.loaded (n : Int))).goto c (.below (n : Int))) (.fetch c) =
      ((s.goto c (.loaded (n : Int))).goto c (.below (n : Int))).goto c (.holds (s.list (n % cap))) := by
    simp only [step, State.goto, hup, tmod_nat, Int.toNat_natCast, Bool.false_eq_true, if_false, if_true]
    rw [if_neg (by omega)]
  have : run cap s (next c) = step cap (step cap (step cap (step cap s (.load c)) (.compare c)) (.fetch c)) (.advance c) := rfl
  rw [this, e1, e2, e3]
  simp [step, State.goto, hup]

/-- C106 fails always for a connection that begins after more events than the ring holds: the first event
it is sent is not the first one (nor the oldest one in the ring, see `c106_violated`). -/
theorem c106_violated_never (cap c n : Nat) (hc : 0 < cap) (hn : cap < n) :
    ∃ e, 1 < e ∧ e ≤ n ∧ (run cap {} (produce n ++ next c)).sent = [(c, e)] := by
  obtain ⟨a1, a2, a3, a4, a5, a6⟩ := run_produce hc n {} rfl rfl
  have hring := ring_run (ring_new cap) (produce n)
  have hw : 0 < (run cap {} (produce n)).writeIndex := by rw [a1]; simp; omega
  refine ⟨(run cap {} (produce n)).list (0 % cap), ?_, ?_, ?_⟩
  · rcases hring (0 % cap) (by simpa using hc) with ⟨_, h⟩ | ⟨h1, h2, h3, h4⟩
    · simp [State.stored, a1, a4] at h; omega
    · simp only [State.stored, a1, a4] at h3
      rw [if_neg (by simp)] at h3
      refine Decidable.byContradiction fun hlt => ?_
      have : (run cap {} (produce n)).list (0 % cap) = 1 := by omega
      rw [this] at h3
      have e : ({} : State).writeIndex = 0 := rfl
      omega
  · rcases hring (0 % cap) (by simpa using hc) with ⟨h, _⟩ | ⟨h1, h2, h3, h4⟩
    · omega
    · simpa [State.stored, a1, a4] using h2
  · rw [steps_append, run_next a3 (by rw [a5]) (n := 0) (by rw [a2]; rfl) hw, a6]
    rfl

/-- C106 fails in the example as it is: eleven seconds after the start the first connection is sent event 11, then event 2. -/
theorem c106_violated : (run 10 {} (produce 11 ++ next 0 ++ next 0)).sent = [(0, 11), (0, 2)] := by decide +kernel

/-- C106 fails when somebody else reconnects: connection 0 gets the first event twice. -/
theorem c106_violated_rewound : (run 10 {} (produce 2 ++ next 0 ++ next 0 ++ [.connect 1 b!"0"] ++ next 0)).sent = [(0, 1), (0, 2), (0, 1)] := by decide +kernel

example : (∀ t ∈ produce 3 ++ next 7 ++ next 7, By 7 t) ∧
    (∀ pre, pre <+: produce 3 ++ next 7 ++ next 7 → ((run 10 {} pre).stored : Int) ≤ (run 10 {} pre).readIndex + (10 : Nat)) ∧
    (run 10 {} (produce 3 ++ next 7 ++ next 7)).sent = [(7, 1), (7, 2)] := by
  refine ⟨?_, ?_, by decide +kernel⟩
  · intro t ht
    have : t = .store ∨ t = .publish ∨ t ∈ next 7 := by
      simp only [produce, List.mem_append, List.replicate, List.flatten, List.mem_cons, List.not_mem_nil] at ht
      simp_all [next]
      grind
    rcases this with rfl | rfl | h
    · exact .store
    · exact .publish
    · simp only [next, List.mem_cons, List.not_mem_nil, or_false] at h
      rcases h with rfl | rfl | rfl | rfl
      · exact .load
      · exact .compare
      · exact .fetch
      · exact .advance
  · intro pre hp
    have hall : ∀ k ∈ List.range 15, ((run 10 {} ((produce 3 ++ next 7 ++ next 7).take k)).stored : Int) ≤ (run 10 {} ((produce 3 ++ next 7 ++ next 7).take k)).readIndex + (10 : Nat) := by
      decide +kernel
    have hlen : pre.length ≤ 14 := by simpa [produce, next] using hp.length_le
    rw [List.prefix_iff_eq_take] at hp
    rw [hp]
    exact hall pre.length (by simp; omega)

/-- C108 when nobody else is reading, the client knows event `n`, and the reader never falls more than the size of the ring behind:
whatever happened before, the reconnected client is sent event `n + 1` and its successors without gap or repetition. -/
theorem c108_continues_partial (cap c n : Nat) (hc : 0 < cap) (before ts : List Step) (hup : (run cap {} before).crashed = false)
    (hquiet : (run cap {} before).pc c = .out) (hts : ∀ t ∈ ts, By c t)
    (hlap : ∀ pre, pre <+: ts → ((run cap {} (before ++ .connect c (itoa n) :: pre)).stored : Int) ≤ (run cap {} (before ++ .connect c (itoa n) :: pre)).readIndex + cap)
    (hb : n + ts.length < 9223372036854775807) :
    ∃ k, (run cap {} (before ++ .connect c (itoa n) :: ts)).sent = (run cap {} before).sent ++ (List.range k).map (fun i => (c, n + i + 1)) ∧
      (run cap {} (before ++ .connect c (itoa n) :: ts)).crashed = false := by
  have e : ∀ l, run cap {} (before ++ .connect c (itoa n) :: l) = run cap { run cap {} before with readIndex := (n : Int) } l := by
    intro l
    rw [steps_append]
    show run cap (step cap (run cap {} before) (.connect c (itoa n))) l = _
    congr 1
    simp [step, hup, atoi_itoa (show n ≤ 9223372036854775807 by omega)]
  obtain ⟨k, h⟩ := alone_run (n := n) (base := (run cap {} before).sent) hc ts { run cap {} before with readIndex := (n : Int) } 0
    ⟨ring_run (ring_new cap) before, hup, rfl, by simp, .inl hquiet, by omega⟩ hts (fun pre hp => by rw [← e]; exact hlap pre hp) (by omega)
  exact ⟨k, by rw [e]; exact h.out, by rw [e]; exact h.up⟩

/-- C108 in one uninterrupted step: the next event is there. -/
theorem c108_next_partial (cap c n : Nat) (hc : 0 < cap) (before : List Step) (hup : (run cap {} before).crashed = false)
    (hquiet : (run cap {} before).pc c = .out) (hn : n < (run cap {} before).writeIndex) (hlap : (run cap {} before).stored ≤ n + cap) (hb : n < 9223372036854775807) :
    (run cap {} (before ++ .connect c (itoa n) :: next c)).sent = (run cap {} before).sent ++ [(c, n + 1)] := by
  rw [steps_append]
  show (run cap (step cap (run cap {} before) (.connect c (itoa n))) (next c)).sent = _
  have e : step cap (run cap {} before) (.connect c (itoa n)) = { run cap {} before with readIndex := (n : Int) } := by
    simp [step, hup, atoi_itoa (show n ≤ 9223372036854775807 by omega)]
  rw [e, run_next (s := { run cap {} before with readIndex := (n : Int) }) hup hquiet rfl hn]
  rw [((ring_run (ring_new cap) before).get hc hn).2.2 hlap]

/-- C108, exactly, for a client that is not disturbed: when events it does not know are there, it is sent one of them, and that is the next one
if and only if it is still in the ring. -/
theorem c108_exact (cap c n : Nat) (hc : 0 < cap) (before : List Step) (hup : (run cap {} before).crashed = false)
    (hquiet : (run cap {} before).pc c = .out) (hn : n < (run cap {} before).writeIndex) (hb : n < 9223372036854775807) :
    ∃ e, n < e ∧ e ≤ (run cap {} before).stored ∧ (run cap {} (before ++ .connect c (itoa n) :: next c)).sent = (run cap {} before).sent ++ [(c, e)] ∧
      (e = n + 1 ↔ (run cap {} before).stored ≤ n + cap) := by
  have hring := ring_run (ring_new cap) before
  obtain ⟨g1, _, g3⟩ := hring.get hc hn
  refine ⟨(run cap {} before).list (n % cap), by omega, ?_, ?_, ?_⟩
  · rcases hring (n % cap) (Nat.mod_lt n hc) with ⟨h, _⟩ | ⟨_, h, _⟩ <;> omega
  · rw [steps_append]
    show (run cap (step cap (run cap {} before) (.connect c (itoa n))) (next c)).sent = _
    have e : step cap (run cap {} before) (.connect c (itoa n)) = { run cap {} before with readIndex := (n : Int) } := by
      simp [step, hup, atoi_itoa (show n ≤ 9223372036854775807 by omega)]
    rw [e, run_next (s := { run cap {} before with readIndex := (n : Int) }) hup hquiet rfl hn]
  · refine ⟨fun h => ?_, g3⟩
    rcases hring (n % cap) (Nat.mod_lt n hc) with ⟨h, _⟩ | ⟨_, _, h, _⟩ <;> omega

/-- The hypotheses hold, and the next event is gone, after twelve events in a ring of ten. -/
example : (run 10 {} (produce 12)).crashed = false ∧ (run 10 {} (produce 12)).pc 0 = .out ∧ 1 < (run 10 {} (produce 12)).writeIndex ∧
    ¬ (run 10 {} (produce 12)).stored ≤ 1 + 10 := by decide +kernel

/-- C108 fails when more events were missed than the ring holds: a client that knows event 1 and comes back eleven events later is sent
event 12, then event 3. -/
theorem c108_violated : (run 10 {} (produce 12 ++ .connect 0 b!"1" :: next 0 ++ next 0)).sent = [(0, 12), (0, 3)] := by decide +kernel

/-- C108 fails for everybody when one client claims to know a later event: nobody is sent any of the events up to that one. -/
theorem c108_violated_muted (cap c d n : Nat) (hc : 0 < cap) (m : Nat) (hm : m ≤ n) (hb : n ≤ 9223372036854775807) :
    (run cap {} (.connect d (itoa n) :: produce m ++ next c)).sent = [] := by
  have e : step cap {} (.connect d (itoa n)) = { ({} : State) with readIndex := (n : Int) } := by
    simp [step, atoi_itoa hb]
  show (run cap (step cap {} (.connect d (itoa n))) (produce m ++ next c)).sent = []
  rw [e, steps_append]
  obtain ⟨a1, a2, a3, a4, a5, a6⟩ := run_produce hc m { ({} : State) with readIndex := (n : Int) } rfl rfl
  generalize run cap { ({} : State) with readIndex := (n : Int) } (produce m) = s at *
  have hp : s.pc c = .out := by rw [a5]
  have e1 : step cap s (.load c) = s.goto c (.loaded (n : Int)) := by simp [step, a3, hp, a2]
  have e2 : step cap (s.goto c (.loaded (n : Int))) (.compare c) = (s.goto c (.loaded (n : Int))).goto c .out := by
    have : s.writeIndex ≤ n := by rw [a1]; simpa using hm
    simp [step, State.goto, a3, this]
  show (step cap (step cap (step cap (step cap s (.load c)) (.compare c)) (.fetch c)) (.advance c)).sent = []
  rw [e1, e2]
  simp [step, State.goto, a3, a6]

/-! ### C105: the process -/

/-- C105 fails always: in whatever running state the server is, a connection that sends the header `Last-Event-Id: -1` ends the
process with its first look for an event. -/
theorem c105_violated_never (cap c : Nat) (hc : 1 < cap) (s : State) (hup : s.crashed = false) (hpc : s.pc c = .out) :
    (run cap s [.connect c b!"-1", .load c, .compare c, .fetch c]).crashed = true := by
  have ha : atoi b!"-1" = some (-1) := by decide
  have e0 : step cap s (.connect c b!"-1") = { s with readIndex := -1 } := by simp [step, hup, ha]
  have e1 : step cap { s with readIndex := -1 } (.load c) = State.goto { s with readIndex := -1 } c (.loaded (-1)) := by simp [step, hup, hpc]
  have e2 : step cap (State.goto { s with readIndex := -1 } c (.loaded (-1))) (.compare c) = (State.goto { s with readIndex := -1 } c (.loaded (-1))).goto c (.below (-1)) := by
    simp only [step, State.goto, hup, Bool.false_eq_true, if_false, if_true]
    rw [if_neg (by omega)]
  show (step cap (step cap (step cap (step cap s (.connect c b!"-1")) (.load c)) (.compare c)) (.fetch c)).crashed = true
  rw [e0, e1, e2]
  have hm : (-1 : Int).tmod cap < 0 := by
    rw [Int.neg_tmod, ← Int.ofNat_one, ← Int.ofNat_tmod, Nat.mod_eq_of_lt hc]
    decide
  simp only [step, State.goto, hup, Bool.false_eq_true, if_false, if_true, hm]

/-- C105 fails without a negative header, too: while one connection is between taking an event and counting it, another connects with the largest number;
the count wraps around and the first connection's next look for an event ends the process. -/
theorem c105_violated_overflow (c d e : Nat) (s : State) (hup : s.crashed = false) (hpc : s.pc c = .holds e) :
    (run 10 s [.connect d b!"9223372036854775807", .advance c, .load c, .compare c, .fetch c]).crashed = true := by
  have ha : atoi b!"9223372036854775807" = some 9223372036854775807 := by decide
  have e0 : step 10 s (.connect d b!"9223372036854775807") = { s with readIndex := 9223372036854775807 } := by simp [step, hup, ha]
  show (step 10 (step 10 (step 10 (step 10 (step 10 s (.connect d b!"9223372036854775807")) (.advance c)) (.load c)) (.compare c)) (.fetch c)).crashed = true
  rw [e0]
  have hn : ¬ ((s.writeIndex : Int) ≤ -9223372036854775808) := by omega
  have hm : (-9223372036854775808 : Int).tmod 10 < 0 := by decide
  simp [step, State.goto, hup, hpc, inc, hn, hm]

/-- Such a moment comes up at once. -/
example : (run 10 {} (produce 1 ++ [.load 0, .compare 0, .fetch 0])).crashed = false ∧ (run 10 {} (produce 1 ++ [.load 0, .compare 0, .fetch 0])).pc 0 = .holds 1 := by decide

/-- C105 when no connection claims a negative number or one near the end of the range: the process goes on, whatever the number of
connections and the interleaving. -/
theorem c105_survives_partial (cap : Nat) (hc : 0 < cap) (ts : List Step)
    (hids : ∀ c id n, Step.connect c id ∈ ts → atoi id = some n → 0 ≤ n ∧ n + ts.length < 9223372036854775807) (hlen : ts.length < 9223372036854775807) :
    (run cap {} ts).crashed = false := by
  have key : ∀ (l : List Step) (s : State) (b : Int), s.crashed = false → 0 ≤ s.readIndex → s.readIndex ≤ b → b + l.length < 9223372036854775807 →
      (∀ c ri, s.pc c = .loaded ri ∨ s.pc c = .below ri → 0 ≤ ri) → (∀ c id n, Step.connect c id ∈ l → atoi id = some n → 0 ≤ n ∧ n ≤ b) →
      (run cap s l).crashed = false := by
    intro l
    induction l with
    | nil => intro s b h1 _ _ _ _ _; exact h1
    | cons t l ih =>
      intro s b h1 h2 h3 h4 h5 h6
      simp only [List.length_cons] at h4
      have h6' : ∀ c id n, Step.connect c id ∈ l → atoi id = some n → 0 ≤ n ∧ n ≤ b + 1 := fun c id n hm ha => by
        have := h6 c id n (by simp [hm]) ha; omega
      have hgo : ∀ c p, (∀ ri, p = .loaded ri ∨ p = .below ri → 0 ≤ ri) → ∀ d ri, (s.goto c p).pc d = .loaded ri ∨ (s.goto c p).pc d = .below ri → 0 ≤ ri := by
        intro c p hp d ri hd
        simp only [State.goto] at hd
        split at hd
        · exact hp ri hd
        · exact h5 d ri hd
      show (run cap (step cap s t) l).crashed = false
      refine ih (step cap s t) (b + 1) ?_ ?_ ?_ (by omega) ?_ h6'
      all_goals
        unfold step
        rw [if_neg (by simp [h1])]
        cases t with
        | store =>
          dsimp only
          split
          · first | assumption | omega
          · rw [if_neg (by omega)]; first | assumption | (dsimp only; omega)
        | publish => dsimp only; split <;> first | assumption | omega | (dsimp only; omega)
        | connect c id =>
          dsimp only
          cases ha : atoi id with
          | none => first | assumption | (dsimp only; omega)
          | some n =>
            have := h6 c id n (by simp) ha
            first | assumption | (dsimp only; omega)
        | load c =>
          dsimp only
          split
          · first
            | assumption
            | (refine hgo c _ ?_; intro ri h; rcases h with h | h <;> cases h; exact h2)
            | (simp only [State.goto]; omega)
          · first | assumption | omega
        | compare c =>
          dsimp only
          split
          · rename_i ri hri
            have := h5 c ri (.inl hri)
            split
            · first
              | assumption
              | (refine hgo c _ ?_; intro ri h; rcases h with h | h <;> cases h)
              | (simp only [State.goto]; omega)
            · first
              | assumption
              | (refine hgo c _ ?_; intro ri h; rcases h with h | h <;> cases h; assumption)
              | (simp only [State.goto]; omega)
          · first | assumption | omega
        | fetch c =>
          dsimp only
          split
          · rename_i ri hri
            have h0 := h5 c ri (.inr hri)
            have : ¬ ri.tmod cap < 0 := by
              have := Int.tmod_nonneg (b := (cap : Int)) h0
              omega
            rw [if_neg this]
            first
            | assumption
            | (refine hgo c _ ?_; intro ri h; rcases h with h | h <;> cases h)
            | (simp only [State.goto]; omega)
          · first | assumption | omega
        | advance c =>
          dsimp only
          split
          · have hinc : inc s.readIndex = s.readIndex + 1 := by rw [inc, if_neg (by omega)]
            first
            | assumption
            | (refine hgo c .out ?_; intro ri h; rcases h with h | h <;> cases h)
            | (simp only [hinc]; omega)
          · first | assumption | omega
  have hmax : ∃ b : Int, 0 ≤ b ∧ b + ts.length < 9223372036854775807 ∧ ∀ c id n, Step.connect c id ∈ ts → atoi id = some n → n ≤ b :=
    ⟨9223372036854775806 - ts.length, by omega, by omega, fun c id n hm ha => by have := hids c id n hm ha; omega⟩
  obtain ⟨b, hb0, hb1, hb2⟩ := hmax
  exact key ts {} b rfl (by simp) hb0 hb1 (by simp) fun c id n hm ha => ⟨(hids c id n hm ha).1, hb2 c id n hm ha⟩

/-! ### C107: several connections -/

/-- The goroutine is on its way to hand out what index `i` leads to. -/
def Towards (i : Int) (e : Nat) (p : Pc) : Prop := p = .loaded i ∨ p = .below i ∨ p = .holds e

/-- What holds as long as nobody rewinds. -/
structure Forward (cap : Nat) (s : State) : Prop where
  ring : Ring cap s
  count : s.readIndex = (s.sent.length : Int)
  held : ∀ a ri, s.pc a = .loaded ri ∨ s.pc a = .below ri → ∃ n : Nat, ri = n ∧ n ≤ s.sent.length
  room : ∀ a ri, s.pc a = .below ri → ri < s.writeIndex
  past : ∀ a, (a, 2) ∈ s.sent → ¬ Towards 0 1 (s.pc a)
  first : ∀ a, Towards 1 2 (s.pc a) ∨ (a, 2) ∈ s.sent → (a, 1) ∈ s.sent → s.sent.head? = some (a, 1)

theorem forward_step {cap : Nat} (hc : 1 < cap) {s : State} (h : Forward cap s) (t : Step) (ht : ∀ c id, t = .connect c id → atoi id = none)
    (hb : s.sent.length < 9223372036854775807) : Forward cap (step cap s t) := by
  obtain ⟨h1, h2, h3, h4, h5, h6⟩ := h
  have hring := ring_step h1 t
  revert hring
  unfold step
  split
  · exact fun _ => ⟨h1, h2, h3, h4, h5, h6⟩
  · cases t with
    | store =>
      dsimp only
      split
      · exact fun _ => ⟨h1, h2, h3, h4, h5, h6⟩
      · split
        · exact fun hr => ⟨hr, h2, h3, h4, h5, h6⟩
        · exact fun hr => ⟨hr, h2, h3, h4, h5, h6⟩
    | publish =>
      dsimp only
      split
      · exact fun hr => ⟨hr, h2, h3, fun a ri ha => by have := h4 a ri ha; dsimp only; omega, h5, h6⟩
      · exact fun _ => ⟨h1, h2, h3, h4, h5, h6⟩
    | connect c id =>
      dsimp only
      rw [ht c id rfl]
      exact fun _ => ⟨h1, h2, h3, h4, h5, h6⟩
    | load c =>
      dsimp only
      split
      · intro hr
        refine ⟨hr, h2, ?_, ?_, ?_, ?_⟩
        · intro a ri ha
          simp only [State.goto] at ha ⊢
          by_cases hac : a = c
          · rw [if_pos hac] at ha
            rcases ha with ha | ha <;> cases ha
            exact ⟨_, h2, Nat.le_refl _⟩
          · rw [if_neg hac] at ha; exact h3 a ri ha
        · intro a ri ha
          simp only [State.goto] at ha ⊢
          by_cases hac : a = c
          · rw [if_pos hac] at ha; cases ha
          · rw [if_neg hac] at ha; exact h4 a ri ha
        · intro a ha hto
          simp only [State.goto] at ha hto
          by_cases hac : a = c
          · rw [if_pos hac] at hto
            rcases hto with hto | hto | hto
            · have h0 : s.readIndex = 0 := by injection hto
              have : 0 < s.sent.length := List.length_pos_of_mem ha
              omega
            · cases hto
            · cases hto
          · rw [if_neg hac] at hto; exact h5 a ha hto
        · intro a ha ha1
          simp only [State.goto] at ha ha1 ⊢
          by_cases hac : a = c
          · rw [if_pos hac] at ha
            rcases ha with (ha | ha | ha) | ha
            · have hr1 : s.readIndex = 1 := by injection ha
              have hl : s.sent.length = 1 := by omega
              obtain ⟨x, hx⟩ := List.length_eq_one_iff.1 hl
              rw [hx] at ha1 ⊢
              rw [List.mem_singleton] at ha1
              rw [ha1]; rfl
            · cases ha
            · cases ha
            · exact h6 a (.inr ha) ha1
          · rw [if_neg hac] at ha; exact h6 a ha ha1
      · exact fun _ => ⟨h1, h2, h3, h4, h5, h6⟩
    | compare c =>
      dsimp only
      split
      · rename_i ri hri
        split
        · intro hr
          refine ⟨hr, h2, ?_, ?_, ?_, ?_⟩
          · intro a r ha
            simp only [State.goto] at ha ⊢
            by_cases hac : a = c
            · rw [if_pos hac] at ha; rcases ha with ha | ha <;> cases ha
            · rw [if_neg hac] at ha; exact h3 a r ha
          · intro a r ha
            simp only [State.goto] at ha ⊢
            by_cases hac : a = c
            · rw [if_pos hac] at ha; cases ha
            · rw [if_neg hac] at ha; exact h4 a r ha
          · intro a ha hto
            simp only [State.goto] at ha hto
            by_cases hac : a = c
            · rw [if_pos hac] at hto; rcases hto with hto | hto | hto <;> cases hto
            · rw [if_neg hac] at hto; exact h5 a ha hto
          · intro a ha ha1
            simp only [State.goto] at ha ha1 ⊢
            by_cases hac : a = c
            · rw [if_pos hac] at ha
              rcases ha with (ha | ha | ha) | ha
              · cases ha
              · cases ha
              · cases ha
              · exact h6 a (.inr ha) ha1
            · rw [if_neg hac] at ha; exact h6 a ha ha1
        · rename_i hlt
          intro hr
          refine ⟨hr, h2, ?_, ?_, ?_, ?_⟩
          · intro a r ha
            simp only [State.goto] at ha ⊢
            by_cases hac : a = c
            · rw [if_pos hac] at ha
              rcases ha with ha | ha <;> cases ha
              exact h3 c ri (.inl hri)
            · rw [if_neg hac] at ha; exact h3 a r ha
          · intro a r ha
            simp only [State.goto] at ha ⊢
            by_cases hac : a = c
            · rw [if_pos hac] at ha; cases ha; omega
            · rw [if_neg hac] at ha; exact h4 a r ha
          · intro a ha hto
            simp only [State.goto] at ha hto
            by_cases hac : a = c
            · rw [if_pos hac] at hto
              subst hac
              rcases hto with hto | hto | hto <;> cases hto
              exact h5 a ha (.inl hri)
            · rw [if_neg hac] at hto; exact h5 a ha hto
          · intro a ha ha1
            simp only [State.goto] at ha ha1 ⊢
            by_cases hac : a = c
            · rw [if_pos hac] at ha
              subst hac
              rcases ha with (ha | ha | ha) | ha
              · cases ha
              · cases ha; exact h6 a (.inl (.inl hri)) ha1
              · cases ha
              · exact h6 a (.inr ha) ha1
            · rw [if_neg hac] at ha; exact h6 a ha ha1
      · exact fun _ => ⟨h1, h2, h3, h4, h5, h6⟩
    | fetch c =>
      dsimp only
      split
      · rename_i ri hri
        obtain ⟨n, rfl, hn⟩ := h3 c ri (.inr hri)
        have hnw : n < s.writeIndex := by have := h4 c _ hri; omega
        rw [tmod_nat, if_neg (by omega), Int.toNat_natCast]
        obtain ⟨g1, g2, _⟩ := h1.get (by omega) hnw
        generalize s.list (n % cap) = e at g1 g2
        intro hr
        refine ⟨hr, h2, ?_, ?_, ?_, ?_⟩
        · intro a r ha
          simp only [State.goto] at ha ⊢
          by_cases hac : a = c
          · rw [if_pos hac] at ha; rcases ha with ha | ha <;> cases ha
          · rw [if_neg hac] at ha; exact h3 a r ha
        · intro a r ha
          simp only [State.goto] at ha ⊢
          by_cases hac : a = c
          · rw [if_pos hac] at ha; cases ha
          · rw [if_neg hac] at ha; exact h4 a r ha
        · intro a ha hto
          simp only [State.goto] at ha hto
          by_cases hac : a = c
          · rw [if_pos hac] at hto
            subst hac
            rcases hto with hto | hto | hto <;> cases hto
            have : n = 0 := by omega
            subst this
            exact h5 a ha (.inr (.inl hri))
          · rw [if_neg hac] at hto; exact h5 a ha hto
        · intro a ha ha1
          simp only [State.goto] at ha ha1 ⊢
          by_cases hac : a = c
          · rw [if_pos hac] at ha
            subst hac
            rcases ha with (ha | ha | ha) | ha
            · cases ha
            · cases ha
            · cases ha
              have : n = 1 := by
                rcases Nat.lt_or_ge n 1 with h0 | h0
                · have : n = 0 := by omega
                  subst this
                  rw [Nat.mod_eq_of_lt (show 0 + 1 < cap by omega)] at g2
                  rcases Nat.lt_or_ge 2 cap with h' | h'
                  · rw [Nat.mod_eq_of_lt h'] at g2; omega
                  · have : cap = 2 := by omega
                    rw [this] at g2; omega
                · omega
              subst this
              exact h6 a (.inl (.inr (.inl hri))) ha1
            · exact h6 a (.inr ha) ha1
          · rw [if_neg hac] at ha; exact h6 a ha ha1
      · exact fun _ => ⟨h1, h2, h3, h4, h5, h6⟩
    | advance c =>
      dsimp only
      split
      · rename_i e he
        intro hr
        refine ⟨hr, ?_, ?_, ?_, ?_, ?_⟩
        · show inc s.readIndex = _
          rw [inc, if_neg (by omega)]
          simp
          omega
        · intro a r ha
          simp only [State.goto, List.length_append, List.length_cons, List.length_nil] at ha ⊢
          by_cases hac : a = c
          · rw [if_pos hac] at ha; rcases ha with ha | ha <;> cases ha
          · rw [if_neg hac] at ha
            obtain ⟨n, a1, a2⟩ := h3 a r ha
            exact ⟨n, a1, by omega⟩
        · intro a r ha
          simp only [State.goto] at ha ⊢
          by_cases hac : a = c
          · rw [if_pos hac] at ha; cases ha
          · rw [if_neg hac] at ha; exact h4 a r ha
        · intro a ha hto
          simp only [State.goto, List.mem_append, List.mem_singleton, Prod.mk.injEq] at ha hto
          by_cases hac : a = c
          · rw [if_pos hac] at hto; rcases hto with hto | hto | hto <;> cases hto
          · rw [if_neg hac] at hto
            rcases ha with ha | ha
            · exact h5 a ha hto
            · exact hac ha.1
        · intro a ha ha1
          simp only [State.goto, List.mem_append, List.mem_singleton, Prod.mk.injEq] at ha ha1 ⊢
          have hhead : s.sent.head? = some (a, 1) → (s.sent ++ [(c, e)]).head? = some (a, 1) := by
            intro hh
            cases hs : s.sent with
            | nil => rw [hs] at hh; cases hh
            | cons x l => rw [hs] at hh; exact hh
          by_cases hac : a = c
          · subst hac
            rw [if_pos rfl] at ha
            have ha2 : (a, 2) ∈ s.sent ∨ 2 = e := by
              rcases ha with (ha | ha | ha) | ha | ha
              · cases ha
              · cases ha
              · cases ha
              · exact .inl ha
              · exact .inr ha.2
            rcases ha1 with ha1 | ⟨_, rfl⟩
            · apply hhead
              rcases ha2 with ha2 | rfl
              · exact h6 a (.inr ha2) ha1
              · exact h6 a (.inl (.inr (.inr he))) ha1
            · exfalso
              rcases ha2 with ha2 | ha2
              · exact h5 a ha2 (.inr (.inr he))
              · omega
          · rw [if_neg hac] at ha
            rcases ha1 with ha1 | ha1
            · apply hhead
              refine h6 a ?_ ha1
              rcases ha with ha | ha | ha
              · exact .inl ha
              · exact .inr ha
              · exact absurd ha.1 hac
            · exact absurd ha1.1 hac
      · exact fun _ => ⟨h1, h2, h3, h4, h5, h6⟩

theorem sent_step (cap : Nat) (s : State) (t : Step) : (step cap s t).sent.length ≤ s.sent.length + 1 := by
  unfold step
  split
  · omega
  · cases t with
    | store => dsimp only; split <;> (try split) <;> simp
    | publish => dsimp only; split <;> simp
    | connect c id => dsimp only; split <;> simp
    | load c => dsimp only; split <;> simp [State.goto]
    | compare c => dsimp only; split <;> (try split) <;> simp [State.goto]
    | fetch c => dsimp only; split <;> (try split) <;> simp [State.goto]
    | advance c => dsimp only; split <;> simp

/-- C107 fails always: as long as nobody reconnects with an event number, no two connections are both sent the first two events,
whatever the interleaving. -/
theorem c107_violated_never (cap : Nat) (hc : 1 < cap) (ts : List Step) (hts : ∀ c id, Step.connect c id ∈ ts → atoi id = none)
    (hlen : ts.length < 9223372036854775807) (a b : Nat) (hab : a ≠ b) :
    ¬ ((∀ e ∈ [1, 2], (a, e) ∈ (run cap {} ts).sent) ∧ ∀ e ∈ [1, 2], (b, e) ∈ (run cap {} ts).sent) := by
  have key : ∀ (l : List Step) (s : State), Forward cap s → (∀ c id, Step.connect c id ∈ l → atoi id = none) →
      s.sent.length + l.length < 9223372036854775807 → Forward cap (run cap s l) := by
    intro l
    induction l with
    | nil => intro s h _ _; exact h
    | cons t l ih =>
      intro s h hl hb
      simp only [List.length_cons] at hb
      have := sent_step cap s t
      exact ih (step cap s t) (forward_step hc h t (fun c id e => hl c id (by simp [e])) (by omega)) (fun c id hm => hl c id (by simp [hm])) (by omega)
  have h0 : Forward cap {} := ⟨ring_new cap, rfl, by simp, by simp, by simp, by simp⟩
  have h := key ts {} h0 hts (by simpa using hlen)
  rintro ⟨ha, hb⟩
  have e1 := h.first a (.inr (ha 2 (by simp))) (ha 1 (by simp))
  have e2 := h.first b (.inr (hb 2 (by simp))) (hb 1 (by simp))
  rw [e1] at e2
  simp at e2
  exact hab e2

/-- C107 fails: of two connected clients each is sent every other event. -/
theorem c107_violated : (run 10 {} (produce 4 ++ next 0 ++ next 1 ++ next 0 ++ next 1)).sent = [(0, 1), (1, 2), (0, 3), (1, 4)] := by decide +kernel

/-- C107 fails for overlapping calls too, where an event goes to nobody: both clients are sent the first event and the third. -/
theorem c107_violated_lost : (run 10 {} (produce 3 ++ [.load 0, .load 1, .compare 0, .compare 1, .fetch 0, .fetch 1, .advance 0, .advance 1] ++ next 0 ++ next 1)).sent =
    [(0, 1), (1, 1), (0, 3)] := by decide +kernel

/-- C107 when each event is taken by an uninterrupted call and no connection falls behind the ring: every event reaches some
connection, the next one not yet taken. -/
theorem c107_some_partial (cap c n : Nat) (hc : 0 < cap) (before : List Step) (hup : (run cap {} before).crashed = false) (hquiet : (run cap {} before).pc c = .out)
    (hr : (run cap {} before).readIndex = (n : Int)) (hn : n < (run cap {} before).writeIndex) (hlap : (run cap {} before).stored ≤ n + cap) :
    (run cap {} (before ++ next c)).sent = (run cap {} before).sent ++ [(c, n + 1)] := by
  rw [steps_append, run_next hup hquiet hr hn, ((ring_run (ring_new cap) before).get hc hn).2.2 hlap]

example : atoi b!"-1" = some (-1) ∧ atoi b!"+7" = some 7 ∧ atoi b!"" = none ∧ atoi b!"x" = none ∧ atoi b!"9223372036854775808" = none ∧
    (run 10 {} (produce 5 ++ next 3 ++ .connect 1 b!"4" :: next 1)).sent = [(3, 1), (1, 5)] := by decide +kernel

end Gofre.Props
