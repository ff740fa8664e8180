import Verif.Spec.Stream

/-!
# An event stream ends when the client goes away

Property C114.
-/

namespace Gofre.Props
open Gofre.Stream Gofre.Spec

theorem step_done {careful : Bool} {s t : Conn} {a : Act} (h : step careful s a = some t) (hd : s.done = true) : t.done = true := by
  cases a <;> simp only [step] at h <;> first
    | (split at h <;> cases h <;> exact hd)
    | (cases h <;> rfl)

theorem run_done {careful : Bool} {s t : Conn} {as : List Act} (h : run careful s as = some t) (hd : s.done = true) : t.done = true := by
  induction as generalizing s with
  | nil => simp only [run] at h; cases h; exact hd
  | cons a as ih =>
    simp only [run, Option.bind_eq_some_iff] at h
    obtain ⟨s', h1, h2⟩ := h
    exact ih h2 (step_done h1 hd)

/-- C114: after the client has gone away at most one more event is written, and none unless its
writing had begun. -/
theorem c114_written (careful : Bool) (s t : Conn) (as : List Act) (hd : s.done = true) (h : run careful s as = some t) :
    t.written = s.written + as.count .write ∧ as.count .write ≤ if s.loop = .writing then 1 else 0 := by
  induction as generalizing s with
  | nil => simp only [run] at h; cases h; simp
  | cons a as ih =>
    simp only [run, Option.bind_eq_some_iff] at h
    obtain ⟨s', h1, h2⟩ := h
    have := ih s' (step_done h1 hd) h2
    cases a <;> simp only [step] at h1 <;> first
      | (split at h1 <;> cases h1 <;> simp_all <;> omega)
      | (split at h1 <;> cases h1 <;> simp_all)
      | (cases h1; simpa using this)

example : run false start [.take, .pass, .check, .cancel, .write, .take, .pass, .check, .quit] = some ⟨true, .ended, .returned, 1⟩ := by decide

/-- One action while the client is there. -/
theorem connected_step {careful : Bool} {s t : Conn} {a : Act} (h : step careful s a = some t) (hc : a ≠ .cancel) (hf : a ≠ .fail) (hd : s.done = false)
    (hg : s.gen ≠ .ended) (hl : s.loop ≠ .returned) :
    t.done = false ∧ t.gen ≠ .ended ∧ t.loop ≠ .returned ∧
      (if a = .take then 1 else 0) + (s.written + (if s.gen = .sending then 1 else 0) + (if s.loop = .receiving then 0 else 1)) =
        t.written + (if t.gen = .sending then 1 else 0) + (if t.loop = .receiving then 0 else 1) := by
  obtain ⟨d, g, l, w⟩ := s
  simp only at hd hg hl
  subst hd
  cases a <;> first | exact absurd rfl hc | exact absurd rfl hf | skip
  all_goals cases g <;> first | exact absurd rfl hg | skip
  all_goals cases l <;> first | exact absurd rfl hl | skip
  all_goals first | (simp [step] at h; done) | skip
  all_goals simp [step] at h
  all_goals subst h
  all_goals simp
  all_goals omega

/-- C114, the other side: as long as the client is there and no writing fails, the goroutine and the loop go on, every event taken is
written, in flight or waiting, and there is a next action of the two. -/
theorem c114_connected (careful : Bool) (as : List Act) (s : Conn) (h : run careful start as = some s) (hc : .cancel ∉ as) (hf : .fail ∉ as) :
    s.gen ≠ .ended ∧ s.loop ≠ .returned ∧
    as.count .take = s.written + (if s.gen = .sending then 1 else 0) + (if s.loop = .receiving then 0 else 1) ∧
    ∃ a ∈ [Act.take, .pass, .check, .write], (step careful s a).isSome := by
  have gen : ∀ (as : List Act) (s t : Conn), run careful s as = some t → .cancel ∉ as → .fail ∉ as → s.done = false → s.gen ≠ .ended → s.loop ≠ .returned →
      t.done = false ∧ t.gen ≠ .ended ∧ t.loop ≠ .returned ∧
      as.count .take + (s.written + (if s.gen = .sending then 1 else 0) + (if s.loop = .receiving then 0 else 1)) =
        t.written + (if t.gen = .sending then 1 else 0) + (if t.loop = .receiving then 0 else 1) := by
    intro as
    induction as with
    | nil => intro s t h _ _ hd hg hl; simp only [run] at h; cases h; exact ⟨hd, hg, hl, by simp⟩
    | cons a as ih =>
      intro s t h hc hf hd hg hl
      simp only [run, Option.bind_eq_some_iff] at h
      obtain ⟨s', h1, h2⟩ := h
      obtain ⟨h3, h4, h5, h6⟩ := connected_step h1 (fun h => hc (h ▸ List.mem_cons_self)) (fun h => hf (h ▸ List.mem_cons_self)) hd hg hl
      obtain ⟨h7, h8, h9, h10⟩ := ih s' t h2 (fun h => hc (List.mem_cons_of_mem _ h)) (fun h => hf (List.mem_cons_of_mem _ h)) h3 h4 h5
      refine ⟨h7, h8, h9, ?_⟩
      rw [← h10, ← h6, List.count_cons]
      simp only [beq_iff_eq]
      omega
  obtain ⟨h1, h2, h3, h4⟩ := gen as start s h hc hf rfl (by decide) (by decide)
  refine ⟨h2, h3, by simpa [start] using h4, ?_⟩
  obtain ⟨d, g, l, w⟩ := s
  cases g <;> cases l <;> simp_all [step]

example : run false start [.idle, .take, .pass, .check, .take, .write, .pass] = some ⟨false, .selecting, .holding, 1⟩ := by decide

theorem leaked_step {s t : Conn} {a : Act} (hl : Leaked s) (h : step false s a = some t) : Leaked t := by
  obtain ⟨d, g, l, w⟩ := s
  obtain ⟨h1, h2⟩ := hl
  simp only at h1 h2
  subst h1
  rcases h2 with rfl | ⟨rfl, rfl⟩ <;> cases a <;> simp [step] at h <;> subst h <;> simp [Leaked]

theorem leaked_run {s t : Conn} {as : List Act} (hl : Leaked s) (h : run false s as = some t) : Leaked t := by
  induction as generalizing s with
  | nil => simp only [run] at h; cases h; exact hl
  | cons a as ih =>
    simp only [run, Option.bind_eq_some_iff] at h
    obtain ⟨s', h1, h2⟩ := h
    exact ih (leaked_step hl h1) h2

/-- C114 fails for the generator of the example: the client goes away while an event is waiting,
the loop drops the event and returns, the goroutine finds the next event before it looks at the
context, and waits for ever for it to be taken, whatever happens afterwards. -/
theorem c114_violated : ∃ as s, run false start as = some s ∧ s.done = true ∧ s.loop = .returned ∧ s.gen ≠ .ended ∧
    ∀ bs t, run false s bs = some t → t.gen ≠ .ended :=
  ⟨[.take, .cancel, .pass, .check, .take], ⟨true, .sending, .returned, 0⟩, by decide, rfl, rfl, by decide,
    fun bs t h c => by have := (leaked_run ⟨rfl, .inl rfl⟩ h).1; rw [c] at this; cases this⟩

/-- C114, exactly when it fails: once the client has gone away, the goroutine of the example can
still end unless it waits for an event to be taken and the loop has returned, or holds the event
before. -/
theorem c114_exact (s : Conn) (hd : s.done = true) :
    (∃ as t, run false s as = some t ∧ t.gen = .ended) ↔ ¬ (s.gen = .sending ∧ (s.loop = .returned ∨ s.loop = .holding)) := by
  have hL : s.gen = .sending ∧ (s.loop = .returned ∨ s.loop = .holding) ↔ Leaked s := by simp [Leaked, hd]
  rw [hL]
  constructor
  · rintro ⟨as, t, h, he⟩ hl
    have := (leaked_run hl h).1
    rw [he] at this
    cases this
  · intro hl
    obtain ⟨d, g, l, w⟩ := s
    simp only at hd
    subst hd
    cases g with
    | ended => exact ⟨[], _, rfl, rfl⟩
    | selecting => exact ⟨[.quit], _, rfl, rfl⟩
    | sending =>
      cases l with
      | receiving => exact ⟨[.pass, .quit], _, rfl, rfl⟩
      | holding => exact absurd ⟨rfl, .inr ⟨rfl, rfl⟩⟩ hl
      | writing => exact ⟨[.write, .pass, .quit], _, rfl, rfl⟩
      | returned => exact absurd ⟨rfl, .inl rfl⟩ hl

example : run false start [.take, .pass, .take, .cancel] = some ⟨true, .sending, .holding, 0⟩ ∧
    run false start [.take, .pass, .check, .take, .cancel] = some ⟨true, .sending, .writing, 0⟩ := by decide

section
variable {careful : Bool} {st : Nat → Conn} {act : Nat → Option Act}

theorem exec_done (he : Execution careful st act) {n m : Nat} (hnm : n ≤ m) (hd : (st n).done = true) : (st m).done = true := by
  induction hnm with
  | refl => exact hd
  | step _ ih =>
    rename_i m _
    cases ha : act m with
    | none => rw [he.rests m ha]; exact ih
    | some a => exact step_done (he.steps m a ha) ih

/-- What an action does to the goroutine and the loop. -/
theorem step_gen_ended {s t : Conn} {a : Act} (h : step careful s a = some t) (hs : s.gen = .ended) : t.gen = .ended := by
  cases a <;> simp [step, hs] at h
  all_goals first | (obtain ⟨_, rfl⟩ := h; first | exact hs | rfl) | (subst h; exact hs)

theorem exec_ended (he : Execution careful st act) {n m : Nat} (hnm : n ≤ m) (hd : (st n).gen = .ended) : (st m).gen = .ended := by
  induction hnm with
  | refl => exact hd
  | step _ ih =>
    rename_i m _
    cases ha : act m with
    | none => rw [he.rests m ha]; exact ih
    | some a => exact step_gen_ended (he.steps m a ha) ih

theorem step_loop {s t : Conn} {a : Act} (h : step careful s a = some t) (ha : a ∉ loopActs) : t.loop = s.loop := by
  cases a <;> simp [loopActs] at ha <;> simp only [step] at h <;> first
    | (split at h <;> cases h <;> rfl)
    | (cases h <;> rfl)

theorem exec_receiving (he : Execution careful st act) {n m : Nat} (hnm : n ≤ m) (hd : (st n).loop = .receiving)
    (hno : ∀ k, n ≤ k → k < m → ∀ a, act k = some a → a ∉ loopActs) : (st m).loop = .receiving := by
  induction hnm with
  | refl => exact hd
  | step hle ih =>
    rename_i m
    have ih := ih fun k h1 h2 => hno k h1 (by omega)
    cases ha : act m with
    | none => rw [he.rests m ha]; exact ih
    | some a => rw [step_loop (he.steps m a ha) (hno m hle (by omega) a ha)]; exact ih

/-- The first action of the loop from an instant on. -/
theorem first_loop {n : Nat} (h : ∃ m a, n ≤ m ∧ a ∈ loopActs ∧ act m = some a) :
    ∃ m a, n ≤ m ∧ a ∈ loopActs ∧ act m = some a ∧ ∀ k, n ≤ k → k < m → ∀ b, act k = some b → b ∉ loopActs := by
  obtain ⟨m, a, h1, h2, h3⟩ := h
  induction m using Nat.strongRecOn generalizing a with
  | _ m ih =>
    by_cases hk : ∃ k b, n ≤ k ∧ k < m ∧ act k = some b ∧ b ∈ loopActs
    · obtain ⟨k, b, hk1, hk2, hk3, hk4⟩ := hk
      exact ih k hk2 b hk1 hk4 hk3
    · exact ⟨m, a, h1, h2, h3, fun k hk1 hk2 b hb hm => hk ⟨k, b, hk1, hk2, hb, hm⟩⟩

/-- The loop ends once the context is done and the goroutine either has ended or waits at the
channel for ever. -/
theorem loop_ends (he : Execution careful st act) (hs : Scheduled careful st act) {n : Nat} (hd : (st n).done = true)
    (hg' : (∀ m, n ≤ m → (st m).gen = .ended) ∨ ∀ m, n ≤ m → (st m).gen = .sending) :
    ∃ m, n ≤ m ∧ (st m).loop = .returned := by
  apply Classical.byContradiction
  intro hno
  have hno : ∀ m, n ≤ m → (st m).loop ≠ .returned := fun m hm h => hno ⟨m, hm, h⟩
  have hen : ∀ m, n ≤ m → ∃ a ∈ loopActs, (step careful (st m) a).isSome := by
    intro m hm
    cases hl : (st m).loop with
    | returned => exact absurd hl (hno m hm)
    | holding => exact ⟨.check, by simp [loopActs], by simp [step, hl]⟩
    | writing => exact ⟨.write, by simp [loopActs], by simp [step, hl]⟩
    | receiving =>
      rcases hg' with h | h
      · exact ⟨.over, by simp [loopActs], by simp [step, hl, h m hm]⟩
      · exact ⟨.pass, by simp [loopActs], by simp [step, hl, h m hm]⟩
  have hfirst : ∀ k, n ≤ k → ∃ m a, k ≤ m ∧ a ∈ loopActs ∧ act m = some a ∧ ∀ j, k ≤ j → j < m → ∀ b, act j = some b → b ∉ loopActs :=
    fun k hk => first_loop (hs.loop k fun m hm => hen m (by omega))
  -- no event can be passed, and the loop does not end: every action of the loop writes
  have hact : ∀ m a, n ≤ m → a ∈ loopActs → act m = some a → a = .write := by
    intro m a hm ha hma
    have hst := he.steps m a hma
    have hdm := exec_done he hm hd
    have hr := hno (m + 1) (by omega)
    cases a with
    | write => rfl
    | pass =>
      simp only [step] at hst
      split at hst
      · rename_i hc
        rw [Option.some.injEq] at hst
        exfalso
        rcases hg' with h | h
        · have := h m hm; rw [hc.1] at this; cases this
        · have := h (m + 1) (by omega); rw [← hst] at this; cases this
      · cases hst
    | check =>
      simp only [step] at hst
      split at hst
      · rw [Option.some.injEq] at hst
        exfalso; rw [← hst] at hr; simp [hdm] at hr
      · cases hst
    | fail =>
      simp only [step] at hst
      split at hst
      · rw [Option.some.injEq] at hst
        exfalso; rw [← hst] at hr; exact hr rfl
      · cases hst
    | over =>
      simp only [step] at hst
      split at hst
      · rw [Option.some.injEq] at hst
        exfalso; rw [← hst] at hr; exact hr rfl
      · cases hst
    | _ => simp [loopActs] at ha
  obtain ⟨m1, a1, h1, h2, h3, _⟩ := hfirst n (Nat.le_refl _)
  have := hact m1 a1 h1 h2 h3
  subst this
  have hst := he.steps m1 _ h3
  simp only [step] at hst
  split at hst
  · rw [Option.some.injEq] at hst
    have hrec : (st (m1 + 1)).loop = .receiving := by rw [← hst]
    obtain ⟨m2, a2, h4, h5, h6, h7⟩ := hfirst (m1 + 1) (by omega)
    have := hact m2 a2 (by omega) h5 h6
    subst this
    have hst2 := he.steps m2 _ h6
    have hrec2 := exec_receiving he h4 hrec h7
    simp [step, hrec2] at hst2
  · cases hst

end

/-- C114 in the long run: once the client has gone away, the loop returns, and the goroutine ends or
is leaked for ever; one that looks at the context while it waits at the channel ends. -/
theorem c114_ends_partial {careful : Bool} {st : Nat → Conn} {act : Nat → Option Act} (he : Execution careful st act) (hs : Scheduled careful st act)
    {n : Nat} (hd : (st n).done = true) :
    ((∃ m, n ≤ m ∧ ∀ k, m ≤ k → (st k).loop = .returned ∧ (st k).gen = .ended) ∨
      careful = false ∧ ∃ m, n ≤ m ∧ ∀ k, m ≤ k → (st k).loop = .returned ∧ (st k).gen = .sending) := by
  have hret : ∀ {m k : Nat}, m ≤ k → (st m).loop = .returned → (st k).loop = .returned := by
    intro m k hmk h
    induction hmk with
    | refl => exact h
    | step _ ih =>
      rename_i k _
      cases ha : act k with
      | none => rw [he.rests k ha]; exact ih
      | some a =>
        have := he.steps k a ha
        cases a <;> simp [step, ih] at this
        all_goals first | (obtain ⟨_, hh⟩ := this; rw [← hh]) | rw [← this]
        all_goals exact ih
  by_cases hend : ∃ m, n ≤ m ∧ (st m).gen = .ended
  · obtain ⟨m, hm, hme⟩ := hend
    obtain ⟨k, hk, hkr⟩ := loop_ends he hs (exec_done he hm hd) (.inl fun j hj => exec_ended he hj hme)
    exact .inl ⟨k, by omega, fun j hj => ⟨hret hj hkr, exec_ended he (by omega) hme⟩⟩
  · right
    have hne : ∀ m, n ≤ m → (st m).gen ≠ .ended := fun m hm h => hend ⟨m, hm, h⟩
    have hq : ∃ k, ∀ m, k ≤ m → (step careful (st m) .quit).isSome = false := by
      apply Classical.byContradiction
      intro hall
      have h : ∀ k, ∃ m, k ≤ m ∧ (step careful (st m) .quit).isSome := by
        intro k
        apply Classical.byContradiction
        intro hk
        refine hall ⟨k, fun m hm => ?_⟩
        cases hq : (step careful (st m) .quit).isSome with
        | false => rfl
        | true => exact absurd ⟨m, hm, hq⟩ hk
      obtain ⟨m, hm⟩ := hs.select h
      have hst := he.steps m _ hm
      have hme : (st (m + 1)).gen = .ended := by
        simp only [step] at hst
        split at hst
        · rw [Option.some.injEq] at hst; rw [← hst]
        · cases hst
      exact hne (max n (m + 1)) (by omega) (exec_ended he (by omega) hme)
    obtain ⟨k, hk⟩ := hq
    have hgen : ∀ m, max n k ≤ m → (st m).gen = .sending ∧ careful = false := by
      intro m hm
      have h1 := hk m (by omega)
      have h2 := hne m (by omega)
      have h3 := exec_done he (show n ≤ m by omega) hd
      cases hg : (st m).gen with
      | ended => exact absurd hg h2
      | selecting => simp [step, hg, h3] at h1
      | sending => refine ⟨rfl, ?_⟩; simpa [step, hg, h3] using h1
    obtain ⟨j, hj, hjr⟩ := loop_ends he hs (exec_done he (show n ≤ max n k by omega) hd) (.inr fun m hm => (hgen m hm).1)
    exact ⟨(hgen _ (Nat.le_refl _)).2, j, by omega, fun i hi => ⟨hret hi hjr, (hgen i (by omega)).1⟩⟩

/-- The execution in which the client goes away at once and the goroutine sees it. -/
example : Execution false (fun n => if n = 0 then start else if n = 1 then ⟨true, .selecting, .receiving, 0⟩ else if n = 2 then ⟨true, .ended, .receiving, 0⟩
      else ⟨true, .ended, .returned, 0⟩) (fun n => if n = 0 then some .cancel else if n = 1 then some .quit else if n = 2 then some .over else none) ∧
    Scheduled false (fun n => if n = 0 then start else if n = 1 then ⟨true, .selecting, .receiving, 0⟩ else if n = 2 then ⟨true, .ended, .receiving, 0⟩
      else ⟨true, .ended, .returned, 0⟩) (fun n => if n = 0 then some .cancel else if n = 1 then some .quit else if n = 2 then some .over else none) := by
  refine ⟨⟨?_, ?_⟩, ⟨?_, fun _ => ⟨1, rfl⟩⟩⟩
  · intro n a h
    match n with
    | 0 => cases h; rfl
    | 1 => cases h; rfl
    | 2 => cases h; rfl
    | n + 3 => simp at h
  · intro n h
    match n with
    | 0 => cases h
    | 1 => cases h
    | 2 => cases h
    | n + 3 => simp
  · intro n h
    obtain ⟨a, ha, h⟩ := h (n + 3) (by omega)
    simp [loopActs] at ha
    rcases ha with rfl | rfl | rfl | rfl | rfl <;> simp [step] at h

end Gofre.Props
