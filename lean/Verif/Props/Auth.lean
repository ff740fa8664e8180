import Verif.Proofs.Auth

/-!
# C31–C36: permissions, roles, users
-/

namespace Gofre.Props
open Gofre.Auth Gofre.Spec

/-- Every scope text is the text of some list of levels, so quantifying over levels below
ranges over all scopes. -/
theorem c31_every_scope_has_levels (s : Str) : ∃ ls, Levels ls ∧ scopeText ls = s :=
  exists_levels s

/-- C31: implication is exactly "access included, and scope covered level by level". -/
theorem c31_implies_iff (ls ms : List Str) (hl : Levels ls) (hm : Levels ms) (a b : UInt32) :
    implies ⟨scopeText ls, a⟩ ⟨scopeText ms, b⟩ = true ↔ BitsWithin b a ∧ Covers ls ms :=
  implies_iff_levels ls ms hl hm a b

example : implies ⟨b!"admin/*", 3⟩ ⟨b!"admin/timesheet/team1", 1⟩ = true ∧
    implies ⟨b!"admin/*/team1", 3⟩ ⟨b!"admin/timesheet/team2", 1⟩ = false ∧
    implies ⟨b!"admin/a", 3⟩ ⟨b!"admin", 1⟩ = false := by decide

example : Levels [b!"admin", b!"*"] ∧ scopeText [b!"admin", b!"*"] = b!"admin/*" := by
  refine ⟨⟨by decide, ?_⟩, by decide⟩
  intro l hl; simp at hl; rcases hl with rfl | rfl <;> decide

/-- C32: implication is reflexive. -/
theorem c32_refl (p : Permission) : implies p p = true := implies_refl p

/-- C32: implication is transitive. -/
theorem c32_trans (p q r : Permission) (h1 : implies p q = true) (h2 : implies q r = true) :
    implies p r = true := implies_trans h1 h2

example : implies ⟨b!"*", 7⟩ ⟨b!"a/*", 3⟩ = true ∧ implies ⟨b!"a/*", 3⟩ ⟨b!"a/b/c", 1⟩ = true := by
  decide

/-- C32: asking for less access on the same scope keeps the implication; owning more access
keeps it too. -/
theorem c32_mono (s t : Str) (a a' b b' : UInt32) (ha : BitsWithin a a') (hb : BitsWithin b' b)
    (h : implies ⟨s, a⟩ ⟨t, b⟩ = true) : implies ⟨s, a'⟩ ⟨t, b'⟩ = true := by
  obtain ⟨ls, hl, rfl⟩ := exists_levels s
  obtain ⟨ms, hm, rfl⟩ := exists_levels t
  rw [implies_iff_levels ls ms hl hm] at h ⊢
  exact ⟨bits_trans hb (bits_trans h.1 ha), h.2⟩

/-- C33 fails: a role that denies deleting everywhere still grants the combined request
"read and delete". -/
theorem c33_violated :
    ∃ (r : Role) (scope : Str) (req : UInt32) (i : Nat),
      (∃ d ∈ r.denied, Grants d.scope d.access scope (2 ^ i)) ∧
      req.toNat.testBit i = true ∧ r.hasPermission ⟨scope, req⟩ = true :=
  ⟨⟨b!"ops", [allPermissions], [⟨b!"*", 8⟩]⟩, b!"db", 9, 3,
    ⟨⟨b!"*", 8⟩, by simp, (implies_grants ⟨b!"*", 8⟩ ⟨b!"db", 2 ^ 3⟩).1 (by decide)⟩, by decide, by decide⟩

/-- C33 for requests whose accesses are all denied by one denied permission: never granted.
What is missing: requests mixing denied and non-denied accesses (see `c33_violated`). -/
theorem c33_denied_wins_partial (r : Role) (d q : Permission) (hd : d ∈ r.denied)
    (h : Grants d.scope d.access q.scope q.access) : r.hasPermission q = false := by
  rw [← implies_grants] at h
  cases hp : r.hasPermission q with
  | false => rfl
  | true => rw [(role_iff r q).1 hp |>.1 d hd] at h; simp at h

/-- C33 for single-access requests: if the role denies that access (possibly among others) on
a scope covering the requested one, it is not granted, whatever is allowed. -/
theorem c33_single_access_partial (r : Role) (ls ms : List Str) (hl : Levels ls) (hm : Levels ms)
    (a b : UInt32) (i : Nat) (hb : ∀ j, b.toNat.testBit j = true → j = i)
    (ha : a.toNat.testBit i = true) (hc : Covers ls ms) (hd : ⟨scopeText ls, a⟩ ∈ r.denied) :
    r.hasPermission ⟨scopeText ms, b⟩ = false := by
  apply c33_denied_wins_partial r _ _ hd
  rw [← implies_grants, implies_iff_levels ls ms hl hm]
  refine ⟨fun j hj => ?_, hc⟩
  rw [hb j hj]; exact ha

example : (Role.hasPermission ⟨b!"r", [allPermissions], [⟨b!"admin/*", 12⟩]⟩
    ⟨b!"admin/x", 8⟩) = false := by decide

/-- C34: a user has a permission iff some role of some group has no denied permission
implying it and an allowed one implying it. -/
theorem c34_user_has_permission_iff (u : User) (q : Permission) :
    u.hasPermission q = true ↔
      ∃ g ∈ u.groups, ∃ r ∈ g.roles,
        (∀ d ∈ r.denied, ¬ Grants d.scope d.access q.scope q.access) ∧ ∃ p ∈ r.allowed, Grants p.scope p.access q.scope q.access := by
  simp only [← implies_grants, Bool.not_eq_true]
  simp only [User.hasPermission, user_iff, Group.hasPermission, group_iff, role_iff]

/-- C34: joining further groups never takes a permission away, and the order of groups is
irrelevant. -/
theorem c34_groups_monotone (u v : User) (q : Permission) (h : ∀ g ∈ u.groups, g ∈ v.groups)
    (hp : u.hasPermission q = true) : v.hasPermission q = true := by
  rw [c34_user_has_permission_iff] at hp ⊢
  obtain ⟨g, hg, rest⟩ := hp
  exact ⟨g, h g hg, rest⟩

/-- C34: `HasRole` is membership of the role name in some group. -/
theorem c34_has_role_iff (u : User) (n : Str) :
    u.hasRole n = true ↔ ∃ g ∈ u.groups, ∃ r ∈ g.roles, r.name = n := by
  simp only [User.hasRole, userHasRole_iff, Group.hasRole, hasRole_iff]

example : (User.hasPermission ⟨b!"u", [⟨b!"g", [⟨b!"a", [], [allPermissions]⟩]⟩,
    ⟨b!"h", [⟨b!"b", [⟨b!"x/*", 1⟩], []⟩]⟩]⟩ ⟨b!"x/y", 1⟩) = true := by decide

/-- C35: printing then parsing returns the permission, for every scope of at most three
levels (colons in the scope included) and every access value. -/
theorem c35_round_trip (ls : List Str) (hl : Levels ls) (h3 : ls.length ≤ 3) (a : UInt32) :
    parsePermission (Permission.print ⟨scopeText ls, a⟩) = some ⟨scopeText ls, a⟩ := by
  apply parse_print
  have := count_scopeText hl
  simp only; omega

/-- C35: whatever parses (or is created) has at most three levels, and the text is the scope,
a colon and digits denoting the access. -/
theorem c35_parse_sound (s : Str) (p : Permission) (h : parsePermission s = some p) :
    (∃ ls, Levels ls ∧ scopeText ls = p.scope ∧ ls.length ≤ 3) ∧
    ∃ digits, s = p.scope ++ 58 :: digits ∧ parseDigits digits = some p.access.toNat := by
  unfold parsePermission at h
  split at h
  · simp at h
  rename_i index hidx
  split at h
  · simp at h
  split at h
  · simp at h
  rename_i access hacc
  obtain ⟨h1, h2, h3⟩ := newPermission_levels h
  refine ⟨?_, s.drop (index + 1), ?_, ?_⟩
  · obtain ⟨ls, hl, hs⟩ := exists_levels p.scope
    refine ⟨ls, hl, hs, ?_⟩
    have := count_scopeText hl
    rw [hs] at this; omega
  · have hcolon : ∀ (s : Str) (i : Nat), lastColon s = some i → s[i]? = some 58 := by
      intro s
      induction s with
      | nil => intro i h; simp [lastColon] at h
      | cons c s ih =>
        intro i h
        simp only [lastColon] at h
        split at h
        · rename_i j hj
          simp at h; subst h; simpa using ih j hj
        · split at h
          · rename_i hc; simp at h; subst h; simp [hc]
          · simp at h
    have hc := hcolon s index hidx
    obtain ⟨hi, hv⟩ := List.getElem?_eq_some_iff.1 hc
    rw [h1]
    conv => lhs; rw [← List.take_append_drop index s, List.drop_eq_getElem_cons hi, hv]
  · rw [h2]
    unfold parseUint32 at hacc
    split at hacc
    · simp at hacc
    · rename_i n hn
      split at hacc
      · rename_i hlt
        simp at hacc
        rw [hn, ← hacc]
        simp; omega
      · simp at hacc

/-- C35: creating a permission succeeds exactly for scopes of at most three levels. -/
theorem c35_new_iff (ls : List Str) (hl : Levels ls) (a : UInt32) :
    newPermission (scopeText ls) a = some ⟨scopeText ls, a⟩ ↔ ls.length ≤ 3 := by
  have := count_scopeText hl
  unfold newPermission
  split
  · simp; omega
  · simp; omega

theorem parseDigitsAux_iff (a : Nat) (v : Str) (n : Nat) :
    parseDigitsAux a v = some n ↔ (∀ c ∈ v, 48 ≤ c.toNat ∧ c.toNat ≤ 57) ∧ v.foldl (fun n c => n * 10 + (c.toNat - 48)) a = n := by
  induction v generalizing a with
  | nil => simp [parseDigitsAux]
  | cons c v ih =>
    have hc : (48 ≤ c ∧ c ≤ 57) ↔ (48 ≤ c.toNat ∧ c.toNat ≤ 57) := by simp [UInt8.le_iff_toNat_le]
    simp only [parseDigitsAux, List.foldl_cons, List.forall_mem_cons]
    split
    · rename_i h; rw [ih]; simp [hc.1 h]
    · rename_i h; rw [hc] at h; simp [h]

theorem parseDigits_iff (v : Str) (n : Nat) :
    parseDigits v = some n ↔ v ≠ [] ∧ (∀ c ∈ v, 48 ≤ c.toNat ∧ c.toNat ≤ 57) ∧ number v = n := by
  unfold parseDigits
  by_cases h : v = []
  · simp [h]
  · rw [if_neg h, parseDigitsAux_iff]; simp [h, number]

theorem colon_not_digit {v : Str} (h : ∀ c ∈ v, 48 ≤ c.toNat ∧ c.toNat ≤ 57) : (58 : UInt8) ∉ v := by
  intro hm
  have := (h _ hm).2
  exact absurd this (by decide)

/-- C35, exactly: a text is accepted as a permission when it is a scope of at most three levels, a
colon and a decimal number of 32 bits, and it is the permission with that scope and access. -/
theorem c35_parse_exact (s : Str) (p : Permission) : parsePermission s = some p ↔ PermissionText s p.scope p.access.toNat := by
  constructor
  · intro h
    obtain ⟨⟨ls, h1, h2, h3⟩, d, h4, h5⟩ := c35_parse_sound s p h
    obtain ⟨h6, h7, h8⟩ := (parseDigits_iff _ _).1 h5
    exact ⟨ls, d, h1, h3, h2.symm, h4, h6, h7, h8, p.access.toNat_lt⟩
  · rintro ⟨ls, d, h1, h2, h3, rfl, h5, h6, h7, h8⟩
    have hpu : parseUint32 d = some p.access := by
      unfold parseUint32
      rw [(parseDigits_iff d _).2 ⟨h5, h6, rfl⟩, h7]
      simp [h8]
    unfold parsePermission
    rw [lastColon_append _ _ (colon_not_digit h6)]
    have hlen : 0 < d.length := List.length_pos_iff.2 h5
    dsimp only
    rw [if_neg (by simp only [List.length_append, List.length_cons]; omega)]
    have : (p.scope ++ 58 :: d).drop (p.scope.length + 1) = d := by
      rw [List.drop_append]; simp
    rw [this, hpu]
    have : (p.scope ++ 58 :: d).take p.scope.length = p.scope := List.take_left
    dsimp only
    rw [this, h3]
    rw [(c35_new_iff ls h1 p.access).2 h2, ← h3]

theorem not_permission_text (s : Str) : (¬ ∃ scope a, PermissionText s scope a) ↔ parsePermission s = none := by
  constructor
  · intro h
    cases hp : parsePermission s with
    | none => rfl
    | some p => exact absurd ⟨_, _, (c35_parse_exact s p).1 hp⟩ h
  · rintro h ⟨scope, a, hs⟩
    have ha : a < 2 ^ 32 := by obtain ⟨_, _, _, _, _, _, _, _, _, ha⟩ := hs; exact ha
    have := (c35_parse_exact s ⟨scope, UInt32.ofNat a⟩).2 (by simpa [UInt32.toNat_ofNat_of_lt' ha] using hs)
    rw [h] at this; cases this

example : PermissionText b!"a:b/c:0012" b!"a:b/c" 12 := ⟨[b!"a:b", b!"c"], b!"0012", ⟨by simp, by decide⟩, by decide, by decide, by decide, by decide, by decide, by decide, by decide⟩

example : parsePermission b!"a:b/c:12" = some ⟨b!"a:b/c", 12⟩ ∧
    parsePermission b!"a/b/c/d:1" = none ∧ parsePermission b!"a:" = none ∧
    parsePermission b!"a:4294967296" = none := by decide

/-- C36: the all-permissions value implies exactly the permissions using only the nine
defined access bits. -/
theorem c36_all_permissions_iff (q : Permission) :
    implies allPermissions q = true ↔ ∀ i, q.access.toNat.testBit i = true → i < 9 := by
  obtain ⟨ms, hm, hs⟩ := exists_levels q.scope
  have e : q = ⟨scopeText ms, q.access⟩ := by rw [hs]
  have ea : accessAll = 511 := by decide
  have hstar : Levels [b!"*"] := ⟨by simp, by intro l hl; simp at hl; subst hl; decide⟩
  have e2 : allPermissions = ⟨scopeText [b!"*"], 511⟩ := by simp [allPermissions, ea, scopeText]
  rw [e, e2, implies_iff_levels _ _ hstar hm]
  have hcov : Covers [b!"*"] ms := by
    refine ⟨?_, fun i m _ => .inl ?_⟩
    · have := List.length_pos_iff.2 hm.1; simp; omega
    · simp only [governing]
      split
      · rename_i h; simp at h; simp [h]
      · simp
  simp only [hcov, and_true, BitsWithin]
  have hbits : ∀ i, (511 : UInt32).toNat.testBit i = decide (i < 9) := by
    intro i
    have : (511 : UInt32).toNat = 2 ^ 9 - 1 := by decide
    rw [this, Nat.testBit_two_pow_sub_one]
  simp only [hbits, decide_eq_true_eq]

example : implies allPermissions ⟨b!"x/y/z", 256⟩ = true ∧
    implies allPermissions ⟨b!"x", 512⟩ = false := by decide

end Gofre.Props
