import Verif.Spec.Pool

/-! # Pooling cannot be observed by programs that follow the rules -/

namespace Gofre.Proofs.Pool
open Gofre.Pool Gofre.Spec

variable {β : Type} {empty : β}

/-- The place has an object that is nobody else's. -/
def Holds (st : Nat → Status) (o : Nat) : Prop := st o = .own ∨ st o = .cleared

/-- The invariant: the objects held are different, exist, and are not in the pool; the pooled ones are
empty; and the values are those of the program with values. -/
structure Inv (empty : β) (s : St β) (st : Nat → Status) (i : Values β) : Prop where
  held : ∀ o, Holds st o → ∃ a, s.ref o = some a ∧ a < s.next ∧ a ∉ s.pool
  own : ∀ o a, st o = .own → s.ref o = some a → s.heap a = i.val o
  cleared : ∀ o a, st o = .cleared → s.ref o = some a → s.heap a = empty
  absent : ∀ o, st o = .absent → s.ref o = none ∧ i.val o = empty
  inj : ∀ o o' a, Holds st o → Holds st o' → s.ref o = some a → s.ref o' = some a → o = o'
  nodup : s.pool.Nodup
  pooled : ∀ a ∈ s.pool, a < s.next ∧ s.heap a = empty
  copies : ∀ v, s.copies v = i.copies v
  log : s.log = i.log

theorem upd_same {f : Nat → β} {a : Nat} {b : β} : upd f a b a = b := by simp [upd]
theorem upd_other {f : Nat → β} {a x : Nat} {b : β} (h : x ≠ a) : upd f a b x = f x := by simp [upd, h]

/-- A place gets an object that nobody holds. -/
theorem inv_gain {s s' : St β} {st : Nat → Status} {i : Values β} (h : Inv empty s st i) {o a : Nat}
    (hr : s'.ref = upd s.ref o (some a)) (ha : a < s'.next) (hn : s.next ≤ s'.next) (hp : a ∉ s'.pool) (hsub : ∀ x ∈ s'.pool, x ∈ s.pool) (hnd : s'.pool.Nodup)
    (hheap : ∀ x, x < s.next → s'.heap x = s.heap x) (he : s'.heap a = empty) (hfree : ∀ o, Holds st o → s.ref o ≠ some a) (hc : s'.copies = s.copies) (hl : s'.log = s.log) :
    Inv empty s' (fun x => if x = o then .own else st x) { i with val := fun x => if x = o then empty else i.val x } := by
  have hh : ∀ x, x ≠ o → Holds (fun x => if x = o then .own else st x) x → Holds st x := by
    intro x hx; simp [Holds, hx]
  have hlt : ∀ x b, Holds st x → s.ref x = some b → b < s.next := by
    intro x b hx hb
    obtain ⟨b', h1, h2, _⟩ := h.held x hx
    rw [h1] at hb; obtain rfl := Option.some.inj hb; exact h2
  constructor
  · intro x hx
    by_cases e : x = o
    · subst e; exact ⟨a, by rw [hr, upd_same], ha, hp⟩
    · obtain ⟨b, h1, h2, h3⟩ := h.held x (hh x e hx)
      exact ⟨b, by rw [hr, upd_other e, h1], by omega, fun hb => h3 (hsub b hb)⟩
  · intro x b hx hb
    by_cases e : x = o
    · subst e
      rw [hr, upd_same] at hb
      obtain rfl := Option.some.inj hb
      simp [he]
    · simp only [e, if_false] at hx ⊢
      rw [hr, upd_other e] at hb
      rw [hheap b (hlt x b (.inl hx) hb)]
      exact h.own x b hx hb
  · intro x b hx hb
    by_cases e : x = o
    · simp [e] at hx
    · simp only [e, if_false] at hx
      rw [hr, upd_other e] at hb
      rw [hheap b (hlt x b (.inr hx) hb)]
      exact h.cleared x b hx hb
  · intro x hx
    by_cases e : x = o
    · simp [e] at hx
    · simp only [e, if_false] at hx ⊢
      rw [hr, upd_other e]
      exact h.absent x hx
  · intro x y b hx hy hb hb'
    by_cases e : x = o <;> by_cases e' : y = o
    · rw [e, e']
    · subst e
      rw [hr, upd_same] at hb
      obtain rfl := Option.some.inj hb
      rw [hr, upd_other e'] at hb'
      exact absurd hb' (hfree y (hh y e' hy))
    · subst e'
      rw [hr, upd_same] at hb'
      obtain rfl := Option.some.inj hb'
      rw [hr, upd_other e] at hb
      exact absurd hb (hfree x (hh x e hx))
    · rw [hr, upd_other e] at hb
      rw [hr, upd_other e'] at hb'
      exact h.inj x y b (hh x e hx) (hh y e' hy) hb hb'
  · exact hnd
  · intro b hb
    obtain ⟨h1, h2⟩ := h.pooled b (hsub b hb)
    exact ⟨by omega, by rw [hheap b h1, h2]⟩
  · intro v; rw [hc]; exact h.copies v
  · rw [hl]; exact h.log

theorem inv_fresh {s : St β} {st : Nat → Status} {i : Values β} (h : Inv empty s st i) (o : Nat) :
    Inv empty { s with heap := upd s.heap s.next empty, next := s.next + 1, ref := upd s.ref o (some s.next) }
      (fun x => if x = o then .own else st x) { i with val := fun x => if x = o then empty else i.val x } := by
  refine inv_gain h rfl (Nat.lt_succ_self _) (Nat.le_succ _) (fun hp => ?_) (fun _ h => h) h.nodup (fun x hx => upd_other (Nat.ne_of_lt hx)) upd_same ?_ rfl rfl
  · exact absurd (h.pooled _ hp).1 (Nat.lt_irrefl _)
  · intro x hx hr
    obtain ⟨b, h1, h2, _⟩ := h.held x hx
    rw [h1] at hr
    obtain rfl := Option.some.inj hr
    exact Nat.lt_irrefl _ h2

theorem inv_get {s : St β} {st : Nat → Status} {i : Values β} (h : Inv empty s st i) (o choice : Nat) :
    Inv empty (s.get empty o choice) (fun x => if x = o then .own else st x) { i with val := fun x => if x = o then empty else i.val x } := by
  unfold St.get
  cases hc : s.pool[choice]? with
  | none => exact inv_fresh h o
  | some a =>
    have hm : a ∈ s.pool := List.mem_of_getElem? hc
    refine inv_gain h rfl (h.pooled a hm).1 (Nat.le_refl _) ?_ (fun _ h => List.mem_of_mem_eraseIdx h) (h.nodup.sublist (List.eraseIdx_sublist ..)) (fun _ _ => rfl) (h.pooled a hm).2 ?_ rfl rfl
    · intro hx
      obtain ⟨j, hj, hne⟩ := List.mem_eraseIdx_iff_getElem?.1 hx
      obtain ⟨hj1, hj2⟩ := List.getElem?_eq_some_iff.1 hne
      obtain ⟨hc1, hc2⟩ := List.getElem?_eq_some_iff.1 hc
      exact hj ((List.getElem_inj h.nodup).1 (hj2.trans hc2.symm))
    · intro x hx hr
      obtain ⟨b, h1, _, h3⟩ := h.held x hx
      rw [h1] at hr
      obtain rfl := Option.some.inj hr
      exact h3 hm

/-- The invariant is kept by every allowed step. -/
theorem inv_step {s : St β} {st : Nat → Status} {i : Values β} (h : Inv empty s st i) {op : Op β} (ha : Allowed st op) :
    Inv empty (s.step empty op) (after st op) (i.step empty op) := by
  have href : ∀ {o}, Holds st o → ∃ a, s.ref o = some a := fun ho => (h.held _ ho).imp fun _ h => h.1
  cases op with
  | get o choice => exact inv_get h o choice
  | make o => exact inv_fresh h o
  | ensure o choice =>
    rcases ha with ha | ha
    · obtain ⟨a, hr⟩ := href (.inl ha)
      have e : s.step empty (.ensure o choice) = s := by simp [St.step, hr]
      have e' : after (β := β) st (.ensure o choice) = st := by
        funext x; simp only [after]; split
        · rename_i hx; rw [hx, ha]
        · rfl
      rw [e, e']; exact h
    · obtain ⟨hr, hv⟩ := h.absent o ha
      have e : s.step empty (.ensure o choice) = s.get empty o choice := by simp [St.step, hr]
      rw [e]
      have := inv_get h o choice
      have ei : (fun x => if x = o then empty else i.val x) = i.val := by
        funext x; split
        · rename_i hx; rw [hx, hv]
        · rfl
      rw [ei] at this
      exact this
  | setNil o =>
    have hh : ∀ x, Holds (after (β := β) st (.setNil o)) x → x ≠ o ∧ Holds st x := by
      intro x hx
      by_cases e : x = o
      · simp [Holds, after, e] at hx
      · exact ⟨e, by simpa [Holds, after, e] using hx⟩
    constructor
    · intro x hx
      obtain ⟨e, hx⟩ := hh x hx
      obtain ⟨b, h1, h2⟩ := h.held x hx
      exact ⟨b, by simp only [St.step]; rw [upd_other e, h1], h2⟩
    · intro x b hx hb
      obtain ⟨e, _⟩ := hh x (.inl hx)
      simp only [after, e, if_false] at hx
      simp only [St.step] at hb; rw [upd_other e] at hb
      simp only [Values.step, e, if_false]
      exact h.own x b hx hb
    · intro x b hx hb
      obtain ⟨e, _⟩ := hh x (.inr hx)
      simp only [after, e, if_false] at hx
      simp only [St.step] at hb; rw [upd_other e] at hb
      exact h.cleared x b hx hb
    · intro x hx
      simp only [St.step, Values.step]
      by_cases e : x = o
      · subst e; exact ⟨upd_same, by simp⟩
      · simp only [after, e, if_false] at hx ⊢
        rw [upd_other e]
        exact h.absent x hx
    · intro x y b hx hy hb hb'
      obtain ⟨e, hx⟩ := hh x hx
      obtain ⟨e', hy⟩ := hh y hy
      simp only [St.step] at hb hb'
      rw [upd_other e] at hb
      rw [upd_other e'] at hb'
      exact h.inj x y b hx hy hb hb'
    · exact h.nodup
    · exact h.pooled
    · exact h.copies
    · exact h.log
  | assign o p =>
    obtain ⟨ha, hne⟩ := ha
    obtain ⟨a, hr, hlt, hnp⟩ := h.held p (.inl ha)
    have hh : ∀ x, Holds (after (β := β) st (.assign o p)) x → x = o ∨ (x ≠ o ∧ x ≠ p ∧ Holds st x) := by
      intro x hx
      by_cases e : x = o
      · exact .inl e
      · by_cases e' : x = p
        · simp [Holds, after, e', Ne.symm hne] at hx
        · exact .inr ⟨e, e', by simpa [Holds, after, e, e'] using hx⟩
    have hro : (s.step empty (.assign o p)).ref o = some a := by simp only [St.step]; rw [upd_same, hr]
    have hrx : ∀ {x}, x ≠ o → (s.step empty (.assign o p)).ref x = s.ref x := fun e => upd_other e
    constructor
    · intro x hx
      rcases hh x hx with rfl | ⟨e, _, hx⟩
      · exact ⟨a, hro, hlt, hnp⟩
      · rw [hrx e]; exact h.held x hx
    · intro x b hx hb
      rcases hh x (.inl hx) with rfl | ⟨e, e', _⟩
      · rw [hro] at hb
        obtain rfl := Option.some.inj hb
        simp only [Values.step, if_true]; exact h.own p a ha hr
      · simp only [after, e, e', if_false] at hx
        rw [hrx e] at hb
        simp only [Values.step, e, if_false]
        exact h.own x b hx hb
    · intro x b hx hb
      rcases hh x (.inr hx) with rfl | ⟨e, e', _⟩
      · simp [after] at hx
      · simp only [after, e, e', if_false] at hx
        rw [hrx e] at hb
        exact h.cleared x b hx hb
    · intro x hx
      by_cases e : x = o
      · simp [after, e] at hx
      · by_cases e' : x = p
        · simp [after, e', Ne.symm hne] at hx
        · simp only [after, e, e', if_false] at hx
          rw [hrx e]
          simp only [Values.step, e, if_false]
          exact h.absent x hx
    · intro x y b hx hy hb hb'
      rcases hh x hx with e | ⟨e, e2, hx1⟩ <;> rcases hh y hy with e' | ⟨e', e2', hy1⟩
      · rw [e, e']
      · subst e
        rw [hro] at hb
        obtain rfl := Option.some.inj hb
        rw [hrx e'] at hb'
        exact absurd (h.inj y p a hy1 (.inl ha) hb' hr) e2'
      · subst e'
        rw [hro] at hb'
        obtain rfl := Option.some.inj hb'
        rw [hrx e] at hb
        exact absurd (h.inj x p a hx1 (.inl ha) hb hr) e2
      · rw [hrx e] at hb
        rw [hrx e'] at hb'
        exact h.inj x y b hx1 hy1 hb hb'
    · exact h.nodup
    · exact h.pooled
    · exact h.copies
    · exact h.log
  | update o f =>
    obtain ⟨a, hr, hlt, hnp⟩ := h.held o (.inl ha)
    have e : s.step empty (.update o f) = { s with heap := upd s.heap a (f (s.heap a)) } := by simp only [St.step, hr]
    rw [e]
    have hoth : ∀ x b, Holds st x → x ≠ o → s.ref x = some b → b ≠ a :=
      fun x b hx hxo hb hba => hxo (h.inj x o a hx (.inl ha) (hba ▸ hb) hr)
    constructor
    · exact h.held
    · intro x b hx hb
      simp only [Values.step]
      by_cases e : x = o
      · subst e
        rw [hr] at hb
        obtain rfl := Option.some.inj hb
        simp only [if_true, upd_same]
        rw [h.own x a hx hr]
      · simp only [e, if_false]
        rw [upd_other (hoth x b (.inl hx) e hb)]
        exact h.own x b hx hb
    · intro x b hx hb
      have e : x ≠ o := by rintro rfl; exact absurd (ha.symm.trans hx) (by decide)
      show upd s.heap a (f (s.heap a)) b = empty
      rw [upd_other (hoth x b (.inr hx) e hb)]
      exact h.cleared x b hx hb
    · intro x hx
      have e : x ≠ o := by rintro rfl; exact absurd (ha.symm.trans hx) (by decide)
      simp only [Values.step, e, if_false]
      exact h.absent x hx
    · exact h.inj
    · exact h.nodup
    · intro b hb
      have : b ≠ a := fun e => hnp (e ▸ hb)
      refine ⟨(h.pooled b hb).1, ?_⟩
      show upd s.heap a (f (s.heap a)) b = empty
      rw [upd_other this]; exact (h.pooled b hb).2
    · exact h.copies
    · exact h.log
  | read o =>
    have hv : ((s.ref o).map s.heap).getD empty = i.val o := by
      rcases ha with ha | ha
      · obtain ⟨a, hr⟩ := href (.inl ha)
        rw [hr]; exact h.own o a ha hr
      · rw [(h.absent o ha).1, (h.absent o ha).2]; rfl
    refine ⟨h.held, h.own, h.cleared, h.absent, h.inj, h.nodup, h.pooled, h.copies, ?_⟩
    simp only [St.step, Values.step, h.log, hv]
  | clone o v =>
    have hv : ((s.ref o).map s.heap).getD empty = i.val o := by
      rcases ha with ha | ha
      · obtain ⟨a, hr⟩ := href (.inl ha)
        rw [hr]; exact h.own o a ha hr
      · rw [(h.absent o ha).1, (h.absent o ha).2]; rfl
    refine ⟨h.held, h.own, h.cleared, h.absent, h.inj, h.nodup, h.pooled, ?_, h.log⟩
    intro x
    simp only [St.step, Values.step, hv]
    by_cases e : x = v
    · subst e; simp [upd]
    · simp only [e, if_false, upd]; exact h.copies x
  | readClone v =>
    refine ⟨h.held, h.own, h.cleared, h.absent, h.inj, h.nodup, h.pooled, h.copies, ?_⟩
    simp only [St.step, Values.step, h.log, h.copies v]
  | clear o =>
    rcases ha with ha | ha
    · obtain ⟨a, hr, hlt, hnp⟩ := h.held o (.inl ha)
      have e : s.step empty (.clear o) = { s with heap := upd s.heap a empty } := by simp only [St.step, hr]
      rw [e]
      have hoth : ∀ x b, Holds st x → x ≠ o → s.ref x = some b → b ≠ a :=
        fun x b hx hxo hb hba => hxo (h.inj x o a hx (.inl ha) (hba ▸ hb) hr)
      have hh : ∀ x, Holds (after (β := β) st (.clear o)) x → Holds st x := by
        intro x hx
        by_cases e : x = o
        · exact .inl (e ▸ ha)
        · simpa [Holds, after, e] using hx
      constructor
      · exact fun x hx => h.held x (hh x hx)
      · intro x b hx hb
        by_cases e : x = o
        · simp [after, e, ha] at hx
        · simp only [after, e, if_false] at hx
          show upd s.heap a empty b = i.val x
          rw [upd_other (hoth x b (.inl hx) e hb)]
          exact h.own x b hx hb
      · intro x b hx hb
        show upd s.heap a empty b = empty
        by_cases e : x = o
        · subst e
          rw [hr] at hb
          obtain rfl := Option.some.inj hb
          exact upd_same
        · simp only [after, e, if_false] at hx
          rw [upd_other (hoth x b (.inr hx) e hb)]
          exact h.cleared x b hx hb
      · intro x hx
        by_cases e : x = o
        · simp [after, e, ha] at hx
        · simp only [after, e, if_false] at hx
          exact h.absent x hx
      · exact fun x y b hx hy => h.inj x y b (hh x hx) (hh y hy)
      · exact h.nodup
      · intro b hb
        have : b ≠ a := fun e => hnp (e ▸ hb)
        refine ⟨(h.pooled b hb).1, ?_⟩
        show upd s.heap a empty b = empty
        rw [upd_other this]; exact (h.pooled b hb).2
      · exact h.copies
      · exact h.log
    · have e : s.step empty (.clear o) = s := by simp only [St.step, (h.absent o ha).1]
      have e' : after (β := β) st (.clear o) = st := by
        funext x; simp only [after]; split
        · rename_i hx; rw [hx, ha]; rfl
        · rfl
      rw [e, e']; exact h
  | put o =>
    rcases ha with ha | ha
    · obtain ⟨a, hr, hlt, hnp⟩ := h.held o (.inr ha)
      have e : s.step empty (.put o) = { s with pool := a :: s.pool } := by simp only [St.step, hr]
      rw [e]
      have hh : ∀ x, Holds (after (β := β) st (.put o)) x → x ≠ o ∧ Holds st x := by
        intro x hx
        by_cases e : x = o
        · simp [Holds, after, e, ha] at hx
        · exact ⟨e, by simpa [Holds, after, e] using hx⟩
      constructor
      · intro x hx
        obtain ⟨ex, hx⟩ := hh x hx
        obtain ⟨b, h1, h2, h3⟩ := h.held x hx
        refine ⟨b, h1, h2, ?_⟩
        intro hb
        rcases List.mem_cons.1 hb with rfl | hb
        · exact ex (h.inj x o b hx (.inr ha) h1 hr)
        · exact h3 hb
      · intro x b hx hb
        obtain ⟨e, _⟩ := hh x (.inl hx)
        simp only [after, e, if_false] at hx
        exact h.own x b hx hb
      · intro x b hx hb
        obtain ⟨e, _⟩ := hh x (.inr hx)
        simp only [after, e, if_false] at hx
        exact h.cleared x b hx hb
      · intro x hx
        by_cases e : x = o
        · simp [after, e, ha] at hx
        · simp only [after, e, if_false] at hx
          exact h.absent x hx
      · exact fun x y b hx hy => h.inj x y b (hh x hx).2 (hh y hy).2
      · exact List.nodup_cons.2 ⟨hnp, h.nodup⟩
      · intro b hb
        rcases List.mem_cons.1 hb with rfl | hb
        · exact ⟨hlt, h.cleared o b ha hr⟩
        · exact h.pooled b hb
      · exact h.copies
      · exact h.log
    · have e : s.step empty (.put o) = s := by simp only [St.step, (h.absent o ha).1]
      have e' : after (β := β) st (.put o) = st := by
        funext x; simp only [after]; split
        · rename_i hx; rw [hx, ha]; rfl
        · rfl
      rw [e, e']; exact h
  | forget k =>
    refine ⟨?_, h.own, h.cleared, h.absent, h.inj, h.nodup.sublist (List.eraseIdx_sublist ..), fun b hb => h.pooled b (List.mem_of_mem_eraseIdx hb), h.copies, h.log⟩
    intro x hx
    obtain ⟨b, h1, h2, h3⟩ := h.held x hx
    exact ⟨b, h1, h2, fun hb => h3 (List.mem_of_mem_eraseIdx hb)⟩

theorem inv_run : ∀ {ops : List (Op β)} {s : St β} {st : Nat → Status} {i : Values β}, Inv empty s st i → Follows st ops →
    Inv empty (run empty s ops) (known st ops) (ops.foldl (·.step empty) i)
  | [], _, _, _, h, _ => h
  | op :: ops, s, st, i, h, hf => inv_run (ops := ops) (s := s.step empty op) (st := after st op) (i := i.step empty op) (inv_step h hf.1) hf.2

theorem inv_init : Inv empty (St.init empty) (fun _ => .absent) { val := fun _ => empty, copies := fun _ => empty } := by
  refine ⟨?_, ?_, ?_, fun _ _ => ⟨rfl, rfl⟩, ?_, List.nodup_nil, ?_, fun _ => rfl, rfl⟩
  · rintro o (h | h) <;> simp at h
  · intro o a h; simp at h
  · intro o a h; simp at h
  · rintro o o' a (h | h) <;> simp at h
  · intro a h; simp [St.init] at h

end Gofre.Proofs.Pool
