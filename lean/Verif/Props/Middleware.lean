import Verif.Model.Middleware

/-!
# C37, C47, C48: authorisation, panic recovery, error translation
-/

namespace Gofre.Props
open Gofre.MW Gofre.Auth
variable {σ ρ : Type}

theorem hasAll_iff (p : Principal) (qs : List Permission) :
    hasAll p qs = true ↔ ∀ q ∈ qs, p.hasPermission q = true := by
  induction qs with
  | nil => simp [hasAll]
  | cons q qs ih => simp only [hasAll]; split <;> simp_all

theorem hasAny_iff (p : Principal) (qs : List Permission) :
    hasAny p qs = true ↔ ∃ q ∈ qs, p.hasPermission q = true := by
  induction qs with
  | nil => simp [hasAny]
  | cons q qs ih => simp only [hasAny]; split <;> simp_all

/-- What a guard must do: if the permissions could be supplied and a principal having the
required ones is present, the call is exactly the handler's; in every other case the handler
is not entered (the state is the one the supplier left) and an error is returned. -/
def Guards (required : Principal → List Permission → Prop)
    (supplier : Ctx → Req → σ → Except Err (List Permission) × σ)
    (guarded : Handler σ ρ → Handler σ ρ) : Prop :=
  ∀ (h : Handler σ ρ) ctx req s,
    (∀ ps s' p, supplier ctx req s = (.ok ps, s') → ctx.principal = some p → required p ps →
      guarded h ctx req s = h ctx req s') ∧
    (∀ ps s', supplier ctx req s = (.ok ps, s') →
      (¬ ∃ p, ctx.principal = some p ∧ required p ps) →
      guarded h ctx req s = (.ret none (some .unauthorized), s')) ∧
    (∀ e s', supplier ctx req s = (.error e, s') →
      guarded h ctx req s = (.ret none (some e), s'))

/-- C37, all permissions. -/
theorem c37_authorize_all (supplier : Ctx → Req → σ → Except Err (List Permission) × σ) :
    Guards (ρ := ρ) (fun p ps => ∀ q ∈ ps, p.hasPermission q = true) supplier
      (authorize supplier true) := by
  intro h ctx req s
  refine ⟨?_, ?_, ?_⟩
  · intro ps s' p hs hp hr
    simp [authorize, hs, hp, (hasAll_iff p ps).2 hr]
  · intro ps s' hs hn
    simp only [authorize, hs]
    split
    · rfl
    · rename_i p hp
      rw [if_pos trivial, if_neg]
      intro hall
      exact hn ⟨p, hp, (hasAll_iff p ps).1 hall⟩
  · intro e s' hs; simp [authorize, hs]

/-- C37, at least one permission. -/
theorem c37_authorize_any (supplier : Ctx → Req → σ → Except Err (List Permission) × σ) :
    Guards (ρ := ρ) (fun p ps => ∃ q ∈ ps, p.hasPermission q = true) supplier
      (authorize supplier false) := by
  intro h ctx req s
  refine ⟨?_, ?_, ?_⟩
  · intro ps s' p hs hp hr
    simp [authorize, hs, hp, (hasAny_iff p ps).2 hr]
  · intro ps s' hs hn
    simp only [authorize, hs]
    split
    · rfl
    · rename_i p hp
      rw [if_neg (by simp), if_neg]
      intro hany
      exact hn ⟨p, hp, (hasAny_iff p ps).1 hany⟩
  · intro e s' hs; simp [authorize, hs]

/-- C37 for the fixed-list variants: the handler runs iff a principal with the permissions is
present; otherwise nothing at all happens. -/
theorem c37_authorize_fixed (perms : List Permission) (h : Handler σ ρ) (ctx req s) :
    (authorizeAll perms h ctx req s =
      match ctx.principal with
      | some p => if ∀ q ∈ perms, p.hasPermission q = true then h ctx req s
          else (.ret none (some .unauthorized), s)
      | none => (.ret none (some .unauthorized), s)) ∧
    (authorizeAny perms h ctx req s =
      match ctx.principal with
      | some p => if ∃ q ∈ perms, p.hasPermission q = true then h ctx req s
          else (.ret none (some .unauthorized), s)
      | none => (.ret none (some .unauthorized), s)) := by
  unfold authorizeAll authorizeAny authorize
  constructor
  · cases hp : ctx.principal with
    | none => simp
    | some p => simp [hasAll_iff]
  · cases hp : ctx.principal with
    | none => simp
    | some p => simp [hasAny_iff]

/-- C37: a principal supplied by the supplier middleware is the one that authorisation sees:
behind both, the handler runs with that principal iff it has the permissions. -/
theorem c37_supplied_principal (p : Principal) (perms : List Permission) (h : Handler σ ρ)
    (ctx req s) :
    principalSupplier (fun _ _ s => (.ok (some p), s)) (authorizeAll perms h) ctx req s =
      if ∀ q ∈ perms, p.hasPermission q = true then h { ctx with principal := some p } req s
      else (.ret none (some .unauthorized), s) := by
  simp [principalSupplier, authorizeAll, authorize, hasAll_iff]

/-- C37: a supplier that fails, or supplies nobody where nobody was before, keeps every request from the handler. -/
theorem c37_supplier_fails (sps : Ctx → Req → σ → Except Err (Option Principal) × σ) (perms : List Permission) (h : Handler σ ρ) (ctx req s) :
    (∀ e s', sps ctx req s = (.error e, s') → principalSupplier sps h ctx req s = (.ret none (some e), s')) ∧
    (∀ s', sps ctx req s = (.ok none, s') → ctx.principal = none →
      principalSupplier sps (authorizeAll perms h) ctx req s = (.ret none (some .unauthorized), s') ∧
      principalSupplier sps (authorizeAny perms h) ctx req s = (.ret none (some .unauthorized), s')) := by
  constructor
  · intro e s' hs; simp [principalSupplier, hs]
  · intro s' hs hn; simp [principalSupplier, hs, authorizeAll, authorizeAny, authorize, hn]

example : principalSupplier (fun _ _ n => (.error (.other b!"db"), n + 1)) (fun _ _ n => (.ret (some 200) none, n + 10)) {} { method := b!"GET" } 0 =
    ((.ret none (some (.other b!"db")) : HRes Nat), 1) := by decide

example : ∃ p : Principal, p.hasPermission ⟨b!"a", 1⟩ = true ∧ p.hasPermission ⟨b!"b", 1⟩ = false ∧
    (authorizeAll [⟨b!"a", 1⟩, ⟨b!"b", 1⟩] (fun _ _ (n : Nat) => (.ret (some 200) none, n + 1))
      { principal := some p } { method := b!"GET" } 0) =
      (.ret none (some .unauthorized), 0) ∧
    (authorizeAny [⟨b!"a", 1⟩, ⟨b!"b", 1⟩] (fun _ _ (n : Nat) => (.ret (some 200) none, n + 1))
      { principal := some p } { method := b!"GET" } 0) =
      ((.ret (some 200) none : HRes Nat), 1) :=
  ⟨⟨fun q => Auth.implies ⟨b!"a", 1⟩ q⟩, by decide, by decide, by decide, by decide⟩

/-- C47 fails for `panic(nil)`: no error and no response come back. -/
theorem c47_violated :
    ∃ (h : Handler Nat Nat) (ctx : Ctx) (req : Req) (s : Nat),
      (∃ v s', h ctx req s = (.panic v, s')) ∧
      ∀ stack, ¬ ∃ e s', panicRecover stack h ctx req s = (.ret none (some e), s') :=
  ⟨fun _ _ s => (.panic none, s), {}, { method := b!"GET" }, 0,
    ⟨none, 0, rfl⟩, by rintro stack ⟨e, s', h⟩; simp [panicRecover] at h⟩

/-- C47 for every panic with a non-nil value: it becomes an error without a response, the
handler's effects up to the panic stay, and results of non-panicking handlers are unchanged.
No panic of any kind escapes. -/
theorem c47_recovers_partial (stack : Str) (h : Handler σ ρ) (ctx req s) :
    (∀ v s', h ctx req s = (.panic (some v), s') →
      ∃ e, panicRecover stack h ctx req s = (.ret none (some e), s')) ∧
    (∀ r e s', h ctx req s = (.ret r e, s') → panicRecover stack h ctx req s = (.ret r e, s')) ∧
    (∀ v s', panicRecover stack h ctx req s ≠ (.panic v, s')) := by
  refine ⟨fun v s' hh => ⟨_, by simp [panicRecover, hh]; rfl⟩, fun r e s' hh => ?_, fun v s' => ?_⟩
  · simp [panicRecover, hh]
  · unfold panicRecover
    split <;> simp

example : panicRecover b!"goroutine 1" (fun _ _ (n : Nat) => ((.panic (some b!"boom") : HRes Nat), n + 1)) {}
    { method := b!"GET" } 4 =
    (.ret none (some (.other b!"recover from panic, stack: [goroutine 1]")), 5) := by decide

/-- The documented status for each kind of error. -/
inductive DocumentedStatus : Err → Nat → Prop
  | bad (m) : DocumentedStatus (.badRequest m) 400
  | notFound (m) : DocumentedStatus (.notFound m) 404
  | unauthorized : DocumentedStatus .unauthorized 401
  | credentials : DocumentedStatus .wrongCredentials 403
  | denied : DocumentedStatus .accessDenied 403
  | other (m) : DocumentedStatus (.other m) 500

/-- C48: an error is always replaced by the supplied response for its documented status, with
no error left; anything else passes unchanged; the handler runs exactly once. -/
theorem c48_err_response (supplier : Nat → Err → ρ) (h : Handler σ ρ) (ctx req s) :
    (∀ r e s', h ctx req s = (.ret r (some e), s') →
      ∃ code, DocumentedStatus e code ∧
        errResponse supplier h ctx req s = (.ret (some (supplier code e)) none, s')) ∧
    (∀ r s', h ctx req s = (.ret r none, s') → errResponse supplier h ctx req s = (.ret r none, s')) ∧
    (∀ v s', h ctx req s = (.panic v, s') → errResponse supplier h ctx req s = (.panic v, s')) := by
  refine ⟨fun r e s' hh => ⟨statusOf e, ?_, ?_⟩, fun r s' hh => ?_, fun v s' hh => ?_⟩
  · cases e <;> constructor
  · simp [errResponse, hh]
  · simp [errResponse, hh]
  · simp [errResponse, hh]

example : errResponse (fun c _ => c) (fun _ _ (n : Nat) => ((.ret none (some .accessDenied)), n)) {}
    { method := b!"GET" } 4 = (.ret (some 403) none, 4) := by decide

/-- C47/C48 together, in the usual order (error translation outside panic recovery): whatever
the handler does, the outcome is never a panic and never an error. -/
theorem c48_total_with_recover (stack : Str) (supplier : Nat → Err → ρ) (h : Handler σ ρ) (ctx req s) :
    ∃ r s', errResponse supplier (panicRecover stack h) ctx req s = (.ret r none, s') := by
  unfold errResponse panicRecover
  rcases hh : h ctx req s with ⟨r, s'⟩
  cases r with
  | ret r e => cases e <;> simp
  | panic v => cases v <;> simp

end Gofre.Props
