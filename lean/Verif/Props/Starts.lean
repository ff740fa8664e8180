import Verif.Spec.Starts
import Verif.Props.App
import Verif.Props.Handled

/-! # C147: which applications start -/

namespace Gofre.Props
open Gofre.Http Gofre.Response Gofre.Spec Gofre.Serve Gofre.Path Gofre.MW Gofre.Stack Gofre.App
open Gofre.Mux (World run)
variable {σ H : Type} {x : Ext} {other : Str → Str} {ci : Bool}

/-- The matcher to which the next route of a method is added. -/
theorem built_registered {es : List Spec.Route} {r : Router} (hr : Built x other sortSiblings ci es r) (method : Str) :
    Registered x ci sortSiblings (patternsFor x other ci es method) ((r.matchers (toUpper other method)).getD {}) := by
  obtain ⟨-, hm⟩ := built_matchers hr
  cases hmat : r.matchers (toUpper other method) with
  | none =>
    have h0 : es.filter (fun e => toUpper other e.method = toUpper other method) = [] := (hm _).1 hmat
    have hp : patternsFor x other ci es method = [] := by simp [patternsFor, h0]
    rw [hp]
    exact .new
  | some m =>
    obtain ⟨ps, h1, h2⟩ := (hm _).2 m hmat
    have hp : patternsFor x other ci es method = ps := by
      refine filterMap_all2 (fun e p he => ?_) h2
      obtain ⟨p0, h3, rfl⟩ := he
      rw [h3]
    rw [hp]
    exact h1

theorem sameShape_symm (hl : FoldLaws x.eqFold) {ss ts : List Segment} (h : SameShape x ci ss ts) : SameShape x ci ts ss := by
  induction h with
  | nil => exact .nil
  | cons h _ ih =>
    refine .cons ⟨h.1.symm, fun hk => ?_, fun hk => (h.2.2 (h.1.trans hk)).symm⟩ ih
    rcases h.2.1 (by rw [h.1]; exact hk) with e | ⟨hc, e⟩
    · exact .inl e.symm
    · exact .inr ⟨hc, hl.symm _ _ e⟩

theorem sameShape_unconstrained {ss ts : List Segment} (h : SameShape x ci ss ts) (hu : Unconstrained ss) : Unconstrained ts := by
  induction h with
  | nil => intro s hs; cases hs
  | cons h _ ih =>
    intro s hs
    rcases List.mem_cons.1 hs with rfl | hs
    · rw [← h.1]; exact hu _ (by simp)
    · exact ih (fun s hs => hu s (by simp [hs])) s hs

/-- One registration: it returns exactly when the pattern is accepted and no route of the method is in the way. -/
theorem handle_returns (hl : FoldLaws x.eqFold) {es : List Spec.Route} {r : Router} (hr : Built x other sortSiblings ci es r) (method pat : Str) (i : Nat)
    (hplain : ∀ p, parsePattern x ci pat = .ok p → ∀ s ∈ p.segments, Unbraced ci s) :
    (∃ r', handle x other sortSiblings r method pat i = .returned r') ↔
      ∃ p, parsePattern x ci pat = .ok p ∧ ∀ e ∈ es, toUpper other e.method = toUpper other method → ∀ q, parsePattern x ci e.pat = .ok q →
        ¬ (Unconstrained p.segments ∧ SameShape x ci q.segments p.segments) := by
  have hci := (built_matchers hr).1
  unfold handle
  rw [hci]
  cases hp : parsePattern x ci pat with
  | error => simp
  | panic => simp
  | hangs => simp
  | ok p =>
    have hx := c21_exact hl (built_registered hr method) hp (hplain p hp) i
    simp only [PRes.ok.injEq, exists_eq_left']
    cases hadd : addPattern x ci sortSiblings ((r.matchers (toUpper other method)).getD {}) { p with attachment := i } with
    | mk m err =>
      rw [hadd] at hx
      simp only at hx ⊢
      cases err with
      | false =>
        simp only [Bool.false_eq_true, if_false, HandleRes.returned.injEq, exists_eq', true_iff]
        intro e he hm q hq hcl
        exact absurd (hx.2 ⟨hcl.1, _, patternsFor_mem he hm hq, sameShape_symm hl hcl.2⟩) (by simp)
      | true =>
        simp only [if_true, reduceCtorEq, exists_false, false_iff]
        obtain ⟨h1, q, h2, h3⟩ := hx.1 rfl
        obtain ⟨e, e1, e2, -, q0, e4, rfl⟩ := mem_patternsFor h2
        exact fun h => h e e1 e2 q0 e4 ⟨h1, sameShape_symm hl h3⟩

theorem load_starts (hl : FoldLaws x.eqFold) : ∀ (rts : List (Mux.Route H)) {es : List Spec.Route} {r : Router} (i : Nat), Built x other sortSiblings ci es r →
    (∀ rt ∈ rts, ∀ p, parsePattern x ci rt.path = .ok p → ∀ s ∈ p.segments, Unbraced ci s) → (∀ rt ∈ rts, Ascii rt.method) → (∀ e ∈ es, Ascii e.method) →
    ((load x other r i rts).isSome = true ↔ (∀ rt ∈ rts, ∃ p, parsePattern x ci rt.path = .ok p) ∧ rts.Pairwise (fun a b => ¬ Clash x ci Unconstrained a b) ∧
      ∀ rt ∈ rts, ∀ e ∈ es, SameMethod e.method rt.method → ∀ q p, parsePattern x ci e.pat = .ok q → parsePattern x ci rt.path = .ok p →
        ¬ (Unconstrained p.segments ∧ SameShape x ci q.segments p.segments))
  | [], es, r, i, _, _, _, _ => by simp [load]
  | rt :: rts, es, r, i, hr, hplain, hms, hes => by
    have h1 := handle_returns hl hr rt.method rt.path i (hplain rt (by simp))
    have hm := hms rt (by simp)
    unfold load
    cases hh : handle x other sortSiblings r rt.method rt.path i with
    | panicked r' =>
      rw [hh] at h1
      simp only [reduceCtorEq, exists_false, false_iff] at h1
      simp only [Option.isSome_none, Bool.false_eq_true, false_iff]
      rintro ⟨a, -, c⟩
      obtain ⟨p, hp⟩ := a rt (by simp)
      exact h1 ⟨p, hp, fun e he hme q hq => c rt (by simp) e he ((toUpper_eq_iff (hes e he) hm).1 hme) q p hq hp⟩
    | hangs =>
      rw [hh] at h1
      simp only [reduceCtorEq, exists_false, false_iff] at h1
      simp only [Option.isSome_none, Bool.false_eq_true, false_iff]
      rintro ⟨a, -, c⟩
      obtain ⟨p, hp⟩ := a rt (by simp)
      exact h1 ⟨p, hp, fun e he hme q hq => c rt (by simp) e he ((toUpper_eq_iff (hes e he) hm).1 hme) q p hq hp⟩
    | returned r' =>
      obtain ⟨p, hp, hno⟩ := h1.1 ⟨r', hh⟩
      have hes' : ∀ e ∈ (⟨rt.method, rt.path, i⟩ : Spec.Route) :: es, Ascii e.method := by
        intro e he
        rcases List.mem_cons.1 he with rfl | he
        · exact hm
        · exact hes e he
      have ih := load_starts hl rts (i + 1) (.returned ⟨rt.method, rt.path, i⟩ hr hh) (fun t ht => hplain t (by simp [ht])) (fun t ht => hms t (by simp [ht])) hes'
      simp only
      rw [ih, List.pairwise_cons]
      constructor
      · rintro ⟨a, b, c⟩
        refine ⟨fun t ht => ?_, ⟨fun t ht hcl => ?_, b⟩, fun t ht e he hme q p' hq hp' => ?_⟩
        · rcases List.mem_cons.1 ht with rfl | ht
          · exact ⟨p, hp⟩
          · exact a t ht
        · obtain ⟨h1, p1, q1, h2, h3, h4, h5⟩ := hcl
          exact c t ht ⟨rt.method, rt.path, i⟩ (by simp) h1 p1 q1 h2 h3 ⟨h4, h5⟩
        · rcases List.mem_cons.1 ht with rfl | ht
          · rw [hp, PRes.ok.injEq] at hp'
            subst hp'
            exact hno e he ((toUpper_eq_iff (hes e he) hm).2 hme) q hq
          · exact c t ht e (by simp [he]) hme q p' hq hp'
      · rintro ⟨a, ⟨b1, b2⟩, c⟩
        refine ⟨fun t ht => a t (by simp [ht]), b2, fun t ht e he hme q p' hq hp' hcl => ?_⟩
        rcases List.mem_cons.1 he with rfl | he
        · exact b1 t ht ⟨hme, q, p', hq, hp', hcl.1, hcl.2⟩
        · exact c t (by simp [ht]) e he hme q p' hq hp' hcl

/-- C147, exactly, for programs without constraints whose expression starts with a brace: the application starts if and only if every pattern is accepted and no two routes
for one method have the same pattern without a constraint. -/
theorem c147_exact (hl : FoldLaws x.eqFold) (ops : List (Mux.Op H)) (hms : ∀ rt ∈ routesMade ops.reverse, Ascii rt.method)
    (hplain : ∀ rt ∈ routesMade ops.reverse, ∀ p, parsePattern x ci rt.path = .ok p → ∀ s ∈ p.segments, Unbraced ci s) :
    (load x other (newRouter ci) 0 (run World.init ops).routes).isSome = true ↔
      (∀ rt ∈ routesMade ops.reverse, ∃ p, parsePattern x ci rt.path = .ok p) ∧ (routesMade ops.reverse).Pairwise fun a b => ¬ Clash x ci Unconstrained a b := by
  rw [(same_run ops).routes, load_starts hl _ 0 .new hplain hms (fun e he => by cases he)]
  simp

/-- C147: whether such an application starts does not depend on the order in which its routes are registered. -/
theorem c147_order_partial (hl : FoldLaws x.eqFold) (ops ops' : List (Mux.Op H)) (hperm : (routesMade ops.reverse).Perm (routesMade ops'.reverse))
    (hms : ∀ rt ∈ routesMade ops.reverse, Ascii rt.method)
    (hplain : ∀ rt ∈ routesMade ops.reverse, ∀ p, parsePattern x ci rt.path = .ok p → ∀ s ∈ p.segments, Unbraced ci s) :
    (load x other (newRouter ci) 0 (run World.init ops).routes).isSome = (load x other (newRouter ci) 0 (run World.init ops').routes).isSome := by
  have hsym : ∀ a b : Mux.Route H, a ∈ routesMade ops.reverse → b ∈ routesMade ops.reverse → ¬ Clash x ci Unconstrained a b → ¬ Clash x ci Unconstrained b a := by
    rintro a b ha hb h ⟨h1, p, q, h2, h3, h4, h5⟩
    have h1' : SameMethod a.method b.method := (toUpper_eq_iff (other := other) (hms a ha) (hms b hb)).1 ((toUpper_eq_iff (hms b hb) (hms a ha)).2 h1).symm
    exact h ⟨h1', q, p, h3, h2, sameShape_unconstrained (sameShape_symm hl h5) h4, sameShape_symm hl h5⟩
  have hpw : (routesMade ops.reverse).Pairwise (fun a b => ¬ Clash x ci Unconstrained a b) ↔ (routesMade ops'.reverse).Pairwise (fun a b => ¬ Clash x ci Unconstrained a b) := by
    have key : ∀ l l' : List (Mux.Route H), l.Perm l' → (∀ a b, a ∈ l → b ∈ l → ¬ Clash x ci Unconstrained a b → ¬ Clash x ci Unconstrained b a) →
        l.Pairwise (fun a b => ¬ Clash x ci Unconstrained a b) → l'.Pairwise (fun a b => ¬ Clash x ci Unconstrained a b) := by
      intro l l' hp hs h
      have both : l.Pairwise (fun a b => ¬ Clash x ci Unconstrained a b ∧ ¬ Clash x ci Unconstrained b a) :=
        List.Pairwise.imp_of_mem (fun ha hb h => ⟨h, hs _ _ ha hb h⟩) h
      exact ((hp.pairwise_iff (fun h => ⟨h.2, h.1⟩)).1 both).imp fun h => h.1
    exact ⟨key _ _ hperm hsym, key _ _ hperm.symm fun a b ha hb => hsym a b (hperm.mem_iff.2 ha) (hperm.mem_iff.2 hb)⟩
  rw [Bool.eq_iff_iff, c147_exact hl ops hms hplain, c147_exact hl ops' (fun rt h => hms rt (hperm.mem_iff.2 h)) (fun rt h => hplain rt (hperm.mem_iff.2 h)), hpw]
  constructor
  · exact fun h => ⟨fun rt hrt => h.1 rt (hperm.mem_iff.2 hrt), h.2⟩
  · exact fun h => ⟨fun rt hrt => h.1 rt (hperm.mem_iff.1 hrt), h.2⟩

/-- Routes on a sub-router and a variable beside a literal: the program meets the conditions and starts; with one more `/api/{name}` it does not. -/
def apiApp : List (Mux.Op Nat) := [.sub 0 b!"/api", .handle 1 b!"GET" b!"/{id}" 1 [], .handle 0 b!"POST" b!"/api/{name}" 2 [], .handle 1 b!"GET" b!"/all" 3 []]

example : (load plainExt id (newRouter false) 0 (run World.init apiApp).routes).isSome = true ∧
    (load plainExt id (newRouter false) 0 (run World.init (apiApp ++ [.handle 0 b!"get" b!"/api/{name}" 4 []])).routes).isSome = false ∧
    (∀ rt ∈ routesMade apiApp.reverse, Ascii rt.method) ∧
    (∀ rt ∈ routesMade apiApp.reverse, ∀ p, parsePattern plainExt false rt.path = .ok p → ∀ s ∈ p.segments, Unbraced false s) := by
  have hm : ∀ rt ∈ routesMade apiApp.reverse, rt.method.all (· < 128) = true := by
    rw [← (same_run apiApp).routes]
    decide +kernel
  have hk : ∀ p ∈ patternsOf plainExt false (routesMade apiApp.reverse), ∀ s ∈ p.segments, s.kind ≠ .constraint := by
    rw [← (same_run apiApp).routes]
    decide +kernel
  refine ⟨by decide +kernel, by decide +kernel, fun rt hrt c hc => ?_, fun rt hrt p hp s hs hsk => absurd hsk (hk p (mem_patternsOf hrt hp) s hs)⟩
  simpa using List.all_eq_true.1 (hm rt hrt) c hc

/-- C147 fails for constraints: an application that registers one route twice starts. -/
theorem c147_violated : ∃ (ops : List (Mux.Op Nat)) (a b : Mux.Route Nat), (run World.init ops).routes = [a, b] ∧ a.method = b.method ∧ a.path = b.path ∧
    (load plainExt id (newRouter false) 0 (run World.init ops).routes).isSome = true :=
  ⟨[.handle 0 b!"GET" b!"/{n:a}" 1 [], .handle 0 b!"GET" b!"/{n:a}" 2 []], _, _, rfl, rfl, rfl, by decide +kernel⟩

end Gofre.Props
