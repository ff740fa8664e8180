import Verif.Proofs.Priority
import Verif.Proofs.Rank

/-! # The priority of a list of segment kinds -/

namespace Gofre.Path
open Gofre.Spec

theorem splitLoop_first (pre post : List Nat) : ∀ (f k : Nat), (∀ c ∈ pre, 1 ≤ c ∧ c ≤ 9 ∧ c ≠ 6) → pre.length < f →
    splitLoop 10 f (decR (pre ++ 6 :: post)) k = some (k + pre.length) := by
  induction pre with
  | nil =>
    intro f k _ hf
    cases f with
    | zero => simp at hf
    | succ f =>
      have h1 : decR (6 :: post) ≠ 0 := by simp [decR]
      have h2 : decR (6 :: post) % 10 = 6 := by simp only [decR]; omega
      simp [splitLoop, h1, h2]
  | cons c pre ih =>
    intro f k h hf
    cases f with
    | zero => simp at hf
    | succ f =>
      obtain ⟨c1, c2, c3⟩ := h c (by simp)
      have h1 : decR (c :: (pre ++ 6 :: post)) ≠ 0 := by simp only [decR]; omega
      have h2 : decR (c :: (pre ++ 6 :: post)) % 10 ≠ 6 := by simp only [decR]; omega
      have h3 : decR (c :: (pre ++ 6 :: post)) / 10 = decR (pre ++ 6 :: post) := by simp only [decR]; omega
      simp only [List.cons_append, splitLoop, h1, h2, if_false, h3]
      rw [ih f (k + 1) (fun c hc => h c (by simp [hc])) (by simp at hf; omega)]
      simp; omega

/-- Without two adjacent sixes, at most every other entry is a six. -/
theorem count_no_adj : ∀ (n : Nat) (l : List Nat), l.length ≤ n → (¬ ∃ a b, l = a ++ 6 :: 6 :: b) →
    2 * l.count 6 ≤ l.length + 1 := by
  intro n
  induction n with
  | zero => intro l hl _; have : l = [] := List.length_eq_zero_iff.1 (by omega); simp [this]
  | succ n ih =>
    intro l hl hna
    match l with
    | [] => simp
    | [x] => by_cases hx : x = 6 <;> simp [hx]
    | x :: y :: l =>
      simp only [List.length_cons] at hl
      by_cases hx : x = 6
      · have hy : y ≠ 6 := fun hy => hna ⟨[], l, by simp [hx, hy]⟩
        have := ih l (by omega) (fun ⟨a, b, e⟩ => hna ⟨x :: y :: a, b, by simp [e]⟩)
        simp [hx, hy]
        omega
      · have := ih (y :: l) (by simp; omega) (fun ⟨a, b, e⟩ => hna ⟨x :: a, b, by simp [e]⟩)
        rw [List.count_cons_of_ne (by simpa using hx)]
        simp at this ⊢
        omega

/-- All the cases in which the first step leads to a safe state. -/
theorem safe_table : ∀ k ∈ List.range 20, ∀ c ∈ List.range 11, ∀ p ∈ List.range 20,
    1 ≤ c → (k ≤ 16 ∨ c ≤ 6) → 1 ≤ p → p + 2 * c ≤ k + 1 →
    safe ((19 - k) / c) (c - 1) (p + 1 + (19 - k) / c) (k + (19 - k) / c) = true := by
  decide +kernel

theorem code_multiple (k : MT) : k.code = 6 ↔ k = .multiple := by cases k <;> simp [MT.code]

theorem code_bounds (k : MT) (h : k ≠ .unknown) : 1 ≤ k.code ∧ k.code ≤ 6 := by
  cases k <;> simp [MT.code] at h ⊢

theorem count_codes (ks : List MT) : (ks.map MT.code).count 6 = ks.countP (· = .multiple) := by
  induction ks with
  | nil => rfl
  | cons k ks ih =>
    simp only [List.map_cons, List.countP_cons, List.count_cons, ih]
    by_cases h : k = .multiple
    · simp [h, MT.code]
    · have h' : k.code ≠ 6 := fun e => h ((code_multiple k).1 e)
      simp [h, h']

theorem adj_codes (ks : List MT) (h : ¬ ∃ a b, ks = a ++ .multiple :: .multiple :: b) :
    ¬ ∃ a b, (ks.map MT.code).reverse = a ++ 6 :: 6 :: b := by
  rintro ⟨a, b, e⟩
  have e2 : ks.map MT.code = b.reverse ++ 6 :: 6 :: a.reverse := by
    have := congrArg List.reverse e
    simpa using this
  obtain ⟨k1, k2, rfl, _, h2⟩ := List.map_eq_append_iff.1 e2
  obtain ⟨x, l, rfl, hx, h3⟩ := List.map_eq_cons_iff.1 h2
  obtain ⟨y, l', rfl, hy, _⟩ := List.map_eq_cons_iff.1 h3
  exact h ⟨k1, l', by rw [(code_multiple x).1 hx, (code_multiple y).1 hy]⟩

/-- The first six of a list that has one. -/
theorem first_six (l : List Nat) (h : 1 ≤ l.count 6) : ∃ pre post, l = pre ++ 6 :: post ∧ 6 ∉ pre := by
  have hm : 6 ∈ l := List.count_pos_iff.1 (by omega)
  obtain ⟨pre, post, e, hn⟩ := List.eq_append_cons_of_mem hm
  exact ⟨pre, post, e, hn⟩

/-- Termination. -/
theorem computePriority_ends (ks : List MT) (hu : ∀ k ∈ ks, k ≠ .unknown) (hl : ks.length ≤ 19)
    (hadj : ¬ ∃ a b, ks = a ++ .multiple :: .multiple :: b)
    (hc : ks.length ≤ 16 ∨ ks.countP (· = .multiple) ≤ 6) : ∃ r, computePriority ks = some r := by
  by_cases h0 : ks.countP (· = .multiple) = 0
  · exact ⟨_, by simp only [computePriority]; rw [if_pos h0]⟩
  · simp only [computePriority]
    rw [if_neg h0]
    generalize hcnt : ks.countP (· = .multiple) = cnt at *
    have hspare : (19 : Int) - (ks.length : Int) = ((19 - ks.length : Nat) : Int) := by omega
    have ha : (19 - (ks.length : Int)).tdiv cnt = (((19 - ks.length) / cnt : Nat) : Int) := by
      rw [hspare]; rfl
    have hr : (19 - (ks.length : Int)).tmod cnt = (((19 - ks.length) % cnt : Nat) : Int) := by
      rw [hspare]; rfl
    rw [ha, hr]
    have hkn := kindsNumber_eq ks hl
    have hc6 : (ks.map MT.code).reverse.count 6 = cnt := by rw [List.count_reverse, count_codes, hcnt]
    have hb : ∀ c ∈ (ks.map MT.code).reverse, 1 ≤ c ∧ c ≤ 6 := by
      intro c hc
      simp only [List.mem_reverse, List.mem_map] at hc
      obtain ⟨k, hk, rfl⟩ := hc
      exact code_bounds k (hu k hk)
    have hna := adj_codes ks hadj
    have hlen : (ks.map MT.code).reverse.length = ks.length := by simp
    rw [hkn]
    revert hc6 hb hna hlen
    generalize (ks.map MT.code).reverse = rs
    intro hc6 hb hna hlen
    obtain ⟨pre, post, rfl, hpre⟩ := first_six rs (by omega)
    have hdec := decR_lt (pre ++ 6 :: post) fun c hc => by have := hb c hc; omega
    rw [hlen] at hdec
    have hcp : (pre ++ 6 :: post).count 6 = (6 :: post).count 6 := by
      rw [List.count_append, List.count_eq_zero.2 hpre]; omega
    have hadj2 := count_no_adj _ (6 :: post) (Nat.le_refl _) (fun ⟨a, b, e⟩ => hna ⟨pre ++ a, b, by simp [e]⟩)
    rw [← hcp, hc6] at hadj2
    simp only [List.length_append, List.length_cons] at hlen hadj2
    cases pre with
    | nil =>
      have := sixesLoop_six ((19 - ks.length) / cnt) ((19 - ks.length) % cnt) cnt (decR ([] ++ 6 :: post)) 1 ks.length hdec
        (by simp only [List.nil_append, decR]; omega) (by omega) (by omega) (by
          have := Nat.div_add_mod (19 - ks.length) cnt
          omega)
      exact this
    | cons c pre =>
      have hcb := hb c (by simp)
      have hcne : c ≠ 6 := fun e => hpre (by simp [e])
      have hfirst := splitLoop_first (c :: pre) post 21 0 (fun d hd => by
        have h1 := hb d (by simp at hd ⊢; rcases hd with h | h <;> simp [h])
        refine ⟨by omega, by omega, fun e => hpre (e ▸ hd)⟩) (by simp at hlen ⊢; omega)
      have hsi : splitIndex (decR ((c :: pre) ++ 6 :: post)) 1 = some (((pre.length + 2 : Nat)) : Int) := by
        have : decimalDivider 1 = 10 := by decide
        simp only [splitIndex, this, hfirst, Option.map_some]
        congr 1; simp; omega
      simp only [List.length_cons] at hlen hadj2
      match cnt, h0 with
      | left + 1, _ =>
        show ∃ r, sixesLoop _ _ (left + 1) _ (1 : Int) = some r
        simp only [sixesLoop, hsi]
        cases left with
        | zero => exact ⟨_, rfl⟩
        | succ left =>
          rw [if_neg (by omega), div10_pow (by omega) (by omega), Int.toNat_natCast]
          have hsafe := safe_table ks.length (List.mem_range.2 (by omega)) (left + 1 + 1) (List.mem_range.2 (by omega))
            (pre.length + 1) (List.mem_range.2 (by omega)) (by omega) (by omega) (by omega) (by omega)
          generalize hA : (19 - ks.length) / (left + 1 + 1) = A at hsafe ⊢
          have hA19 : ks.length + A ≤ 19 := by
            have : A ≤ 19 - ks.length := by rw [← hA]; exact Nat.div_le_self _ _
            omega
          have emax : max ks.length (pre.length + 2) = ks.length := by omega
          obtain ⟨b1, b2⟩ := step_bound (decR (c :: pre ++ 6 :: post)) ks.length (pre.length + 2) A hdec (by omega) (by omega)
          rw [emax] at b1
          have hmod : decR (c :: pre ++ 6 :: post) % 10 = c := by
            simp only [List.cons_append, decR]; omega
          have := sixesLoop_safe A ((19 - ks.length) % (left + 1 + 1)) (left + 1) _ (pre.length + 2 + A) (ks.length + A) hsafe b1
            (by omega) (by rw [b2, hmod]; exact hcne) (by rw [b2, hmod]; omega)
          obtain ⟨r, hr⟩ := this
          exact ⟨r, by rw [← hr]; congr 1⟩

/-! ### Exact values with at most one `**` -/

theorem computePriority_none (ks : List MT) (hl : ks.length ≤ 19) (h0 : ks.countP (· = .multiple) = 0) :
    computePriority ks = some (decR (spread ks).reverse) := by
  simp only [computePriority]
  rw [if_pos h0, kindsNumber_eq ks hl]
  have hlt := decR_lt (ks.map MT.code).reverse (by
    intro c hc
    simp only [List.mem_reverse, List.mem_map] at hc
    obtain ⟨k, _, rfl⟩ := hc
    cases k <;> simp [MT.code])
  simp only [List.length_reverse, List.length_map] at hlt
  have hsp : spread ks = ks.map MT.code ++ List.replicate (19 - ks.length) 0 := by
    have : ks.flatMap (fun k => if k = .multiple then List.replicate (20 - ks.length) 6 else [k.code]) = ks.map MT.code := by
      generalize 20 - ks.length = n
      clear hl hlt
      induction ks with
      | nil => rfl
      | cons k ks ih =>
        rw [List.countP_cons] at h0
        have hk : k ≠ .multiple := by intro e; simp [e] at h0
        simp only [List.flatMap_cons, hk, if_false, List.map_cons]
        rw [ih (by omega)]; rfl
    unfold spread
    simp only [rank_code]
    rw [this]; simp
  have hz : ∀ n, decR (List.replicate n 0) = 0 := by
    intro n
    induction n with
    | zero => rfl
    | succ n ih => simp [List.replicate_succ, decR, ih]
  rw [hsp, List.reverse_append, List.reverse_replicate, decR_append, hz, List.length_replicate, Nat.zero_add]
  have hdiv : decimalDivider (19 - (ks.length : Int)) = 10 ^ (19 - ks.length) ∨ ks.length = 0 := by
    by_cases h1 : ks.length = 0
    · exact .inr h1
    · left
      have e : (19 : Int) - ks.length = ((19 - ks.length : Nat) : Int) := by omega
      rw [e]
      by_cases h2 : ks.length = 19
      · rw [h2]; decide
      · exact div10_pow (by omega) (by omega)
  rcases hdiv with hd | hd
  · rw [hd, Nat.mul_comm, w64_of_lt]
    calc 10 ^ (19 - ks.length) * decR (ks.map MT.code).reverse
        < 10 ^ (19 - ks.length) * 10 ^ ks.length := Nat.mul_lt_mul_of_pos_left hlt (Nat.pow_pos (by omega))
      _ = 10 ^ 19 := by rw [← Nat.pow_add]; congr 1; omega
  · have : ks = [] := List.length_eq_zero_iff.1 hd
    subst this
    decide

theorem computePriority_one (a b : List MT) (hu : ∀ k ∈ a ++ .multiple :: b, k ≠ .unknown)
    (hl : (a ++ .multiple :: b).length ≤ 19) (ha : .multiple ∉ a) (hb : .multiple ∉ b) :
    computePriority (a ++ .multiple :: b) = some (decR (spread (a ++ .multiple :: b)).reverse) := by
  have hca : a.countP (· = .multiple) = 0 := by
    rw [List.countP_eq_zero]; intro k hk e; exact ha (by simpa using (of_decide_eq_true e) ▸ hk)
  have hcb : b.countP (· = .multiple) = 0 := by
    rw [List.countP_eq_zero]; intro k hk e; exact hb (by simpa using (of_decide_eq_true e) ▸ hk)
  have hc : (a ++ .multiple :: b).countP (· = .multiple) = 1 := by
    rw [List.countP_append, List.countP_cons, hca, hcb]; rfl
  have hflat : ∀ (n : Nat) (l : List MT), .multiple ∉ l →
      l.flatMap (fun k => if k = .multiple then List.replicate n 6 else [k.code]) = l.map MT.code := by
    intro n l
    induction l with
    | nil => intro _; rfl
    | cons k l ih =>
      intro h
      have hk : k ≠ .multiple := fun e => h (by simp [e])
      simp only [List.flatMap_cons, hk, if_false, List.map_cons]
      rw [ih fun hm => h (by simp [hm])]; rfl
  have hsp : spread (a ++ .multiple :: b) =
      a.map MT.code ++ List.replicate (20 - (a ++ .multiple :: b).length) 6 ++ b.map MT.code := by
    unfold spread
    simp only [rank_code]
    rw [List.flatMap_append, List.flatMap_cons, hflat _ a ha, hflat _ b hb]
    simp only [if_true]
    have : 19 - (a.map MT.code ++ (List.replicate (20 - (a ++ MT.multiple :: b).length) 6 ++ b.map MT.code)).length = 0 := by
      simp at hl ⊢; omega
    rw [this]; simp
  simp only [computePriority]
  rw [if_neg (by rw [hc]; omega), hc, kindsNumber_eq _ hl]
  have hb9 : ∀ (l : List MT), ∀ c ∈ (l.map MT.code).reverse, c ≤ 9 := by
    intro l c hc
    simp only [List.mem_reverse, List.mem_map] at hc
    obtain ⟨k, _, rfl⟩ := hc
    cases k <;> simp [MT.code]
  have hrev : ((a ++ .multiple :: b).map MT.code).reverse = (b.map MT.code).reverse ++ 6 :: (a.map MT.code).reverse := by
    simp [MT.code]
  rw [hrev]
  have hfirst := splitLoop_first (b.map MT.code).reverse (a.map MT.code).reverse 21 0 (by
      intro c hc
      have h9 := hb9 b c hc
      simp only [List.mem_reverse, List.mem_map] at hc
      obtain ⟨k, hk, rfl⟩ := hc
      have h1 := code_bounds k (hu k (by simp [hk]))
      exact ⟨h1.1, h9, fun e => hb ((code_multiple k).1 e ▸ hk)⟩) (by simp at hl ⊢; omega)
  have hsi : splitIndex (decR ((b.map MT.code).reverse ++ 6 :: (a.map MT.code).reverse)) 1 = some ((b.length + 1 : Nat) : Int) := by
    have : decimalDivider 1 = 10 := by decide
    simp only [splitIndex, this, hfirst, Option.map_some]
    congr 1; simp
  have e1 : (19 - ((a ++ .multiple :: b).length : Int)).tdiv ((1 : Nat) : Int) = ((19 - (a ++ MT.multiple :: b).length : Nat) : Int) := by
    rw [show ((1 : Nat) : Int) = 1 from rfl, Int.tdiv_one]; omega
  have e2 : (19 - ((a ++ .multiple :: b).length : Int)).tmod ((1 : Nat) : Int) = 0 := by
    rw [show ((1 : Nat) : Int) = 1 from rfl, Int.tmod_one]
  rw [e1, e2]
  simp only [sixesLoop, hsi, if_true, Int.add_zero, Int.toNat_natCast]
  have hla : a.length + b.length + 1 ≤ 19 := by simp at hl; omega
  have hlen : (a ++ MT.multiple :: b).length = a.length + b.length + 1 := by simp; omega
  rw [hsp, hlen]
  have hsplit : (b.map MT.code).reverse ++ 6 :: (a.map MT.code).reverse =
      ((b.map MT.code).reverse ++ [6]) ++ (a.map MT.code).reverse := by simp
  have hlow9 : ∀ c ∈ (b.map MT.code).reverse ++ [6], c ≤ 9 := by
    intro c hc
    rcases List.mem_append.1 hc with hc | hc
    · exact hb9 b c hc
    · simp at hc; omega
  have hlow := decR_lt _ hlow9
  simp only [List.length_append, List.length_reverse, List.length_map, List.length_cons, List.length_nil, Nat.zero_add] at hlow
  have hall9 : ∀ c ∈ ((b.map MT.code).reverse ++ [6]) ++ (List.replicate (19 - (a.length + b.length + 1)) 6 ++ (a.map MT.code).reverse), c ≤ 9 := by
    intro c hc
    rcases List.mem_append.1 hc with hc | hc
    · exact hlow9 c hc
    · rcases List.mem_append.1 hc with hc | hc
      · have := List.eq_of_mem_replicate hc; omega
      · exact hb9 a c hc
  have hres := decR_lt _ hall9
  have hgoal : (a.map MT.code ++ List.replicate (20 - (a.length + b.length + 1)) 6 ++ b.map MT.code).reverse =
      ((b.map MT.code).reverse ++ [6]) ++ (List.replicate (19 - (a.length + b.length + 1)) 6 ++ (a.map MT.code).reverse) := by
    have : 20 - (a.length + b.length + 1) = (19 - (a.length + b.length + 1)) + 1 := by omega
    rw [this]
    generalize 19 - (a.length + b.length + 1) = n
    rw [List.reverse_append, List.reverse_append, List.reverse_replicate, List.replicate_succ]
    simp only [List.append_assoc, List.cons_append, List.nil_append]
  rw [hgoal, hsplit]
  have hres19 : decR (((b.map MT.code).reverse ++ [6]) ++ (List.replicate (19 - (a.length + b.length + 1)) 6 ++ (a.map MT.code).reverse)) < 10 ^ 19 := by
    have e : (((b.map MT.code).reverse ++ [6]) ++ (List.replicate (19 - (a.length + b.length + 1)) 6 ++ (a.map MT.code).reverse)).length = 19 := by
      simp; omega
    rw [e] at hres; exact hres
  by_cases h18 : b.length + 1 ≤ 18
  · rw [div10_pow (by omega) h18]
    have hd : decR ((b.map MT.code).reverse ++ [6] ++ (a.map MT.code).reverse) / 10 ^ (b.length + 1) = decR (a.map MT.code).reverse := by
      rw [decR_append]
      simp only [List.length_append, List.length_reverse, List.length_map, List.length_cons, List.length_nil, Nat.zero_add]
      rw [Nat.add_mul_div_left _ _ (Nat.pow_pos (by omega)), Nat.div_eq_of_lt hlow, Nat.zero_add]
    have hm : decR ((b.map MT.code).reverse ++ [6] ++ (a.map MT.code).reverse) % 10 ^ (b.length + 1) = decR ((b.map MT.code).reverse ++ [6]) := by
      rw [decR_append]
      simp only [List.length_append, List.length_reverse, List.length_map, List.length_cons, List.length_nil, Nat.zero_add]
      rw [Nat.add_mul_mod_self_left, Nat.mod_eq_of_lt hlow]
    rw [hd, hm, addSixes_eq _ _ (hb9 a) (by simp; omega)]
    have hval := decR_append ((b.map MT.code).reverse ++ [6]) (List.replicate (19 - (a.length + b.length + 1)) 6 ++ (a.map MT.code).reverse)
    simp only [List.length_append, List.length_reverse, List.length_map, List.length_cons, List.length_nil, Nat.zero_add] at hval
    rw [Nat.mul_comm (10 ^ (b.length + 1))] at hval
    rw [hval] at hres19 ⊢
    rw [w64_of_lt (show decR (List.replicate (19 - (a.length + b.length + 1)) 6 ++ (a.map MT.code).reverse) * 10 ^ (b.length + 1) < 10 ^ 19 by omega)]
    rw [w64_of_lt (by omega), Nat.add_comm]
  · have hb18 : b.length = 18 := by omega
    have ha0 : a = [] := List.length_eq_zero_iff.1 (by omega)
    subst ha0
    have e : ((b.length + 1 : Nat) : Int) = 19 := by omega
    have hd1 : decimalDivider 19 = 1 := by decide
    simp only [List.length_nil] at *
    have e0 : 19 - (0 + b.length + 1) = 0 := by omega
    rw [e, hd1, e0]
    rw [e0] at hres19
    simp only [List.map_nil, List.reverse_nil, List.append_nil, List.replicate_zero, addSixes, Nat.div_one, Nat.mul_one, Nat.mod_one, Nat.add_zero] at *
    rw [w64_of_lt hres19, w64_of_lt hres19]

/-- Numbers with equally many digits compare like their digit lists. -/
theorem decR_lt_iff : ∀ (a b : List Nat), a.length = b.length → (∀ c ∈ a, c ≤ 9) → (∀ c ∈ b, c ≤ 9) →
    (decR a.reverse < decR b.reverse ↔ a < b) := by
  intro a
  induction a with
  | nil =>
    intro b hl _ _
    have : b = [] := List.length_eq_zero_iff.1 (by simpa using hl.symm)
    subst this; simp
  | cons x a ih =>
    intro b hl ha hb
    cases b with
    | nil => simp at hl
    | cons y b =>
      have hl' : a.length = b.length := by simpa using hl
      have i := ih b hl' (fun c hc => ha c (by simp [hc])) (fun c hc => hb c (by simp [hc]))
      have la := decR_lt a.reverse (fun c hc => ha c (by simp at hc; simp [hc]))
      have lb := decR_lt b.reverse (fun c hc => hb c (by simp at hc; simp [hc]))
      simp only [List.length_reverse] at la lb
      simp only [List.reverse_cons, decR_append, decR, List.length_reverse, Nat.mul_zero, Nat.add_zero]
      rw [← hl'] at lb ⊢
      rw [List.cons_lt_cons_iff, ← i]
      generalize decR a.reverse = A at *
      generalize decR b.reverse = B at *
      generalize hP : 10 ^ a.length = P at *
      rcases Nat.lt_trichotomy x y with h | h | h
      · have : P * (x + 1) ≤ P * y := Nat.mul_le_mul_left _ h
        rw [Nat.mul_add, Nat.mul_one] at this
        constructor
        · intro _; exact .inl h
        · intro _; omega
      · subst h
        constructor
        · intro h; exact .inr ⟨rfl, by omega⟩
        · rintro (h | ⟨_, h⟩)
          · omega
          · omega
      · have : P * (y + 1) ≤ P * x := Nat.mul_le_mul_left _ h
        rw [Nat.mul_add, Nat.mul_one] at this
        constructor
        · intro _; omega
        · rintro (h | ⟨h, _⟩) <;> omega

end Gofre.Path
