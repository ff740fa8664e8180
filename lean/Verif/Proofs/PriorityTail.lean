import Verif.Proofs.PriorityKinds
import Verif.Proofs.Endless

/-! # The priority of kinds that end in `**` -/

namespace Gofre.Path
open Gofre.Spec

/-- One step of the outer loop that puts sixes before the last `d` digits, all of them sixes. -/
theorem six_step (d k : Nat) (post : List Nat) (hp : ∀ c ∈ post, c ≤ 9) (h1 : 1 ≤ d) (hl : d + k + post.length ≤ 19) :
    w64 (w64 (addSixes k (decR (List.replicate d 6 ++ post) / decimalDivider (d : Int)) * decimalDivider (d : Int)) +
      decR (List.replicate d 6 ++ post) % decimalDivider (d : Int)) = decR (List.replicate (d + k) 6 ++ post) := by
  have h6 : ∀ n, ∀ c ∈ List.replicate n 6, c ≤ 9 := fun n c hc => by have := List.eq_of_mem_replicate hc; omega
  have hall : ∀ n, ∀ c ∈ List.replicate n 6 ++ post, c ≤ 9 := by
    intro n c hc
    rcases List.mem_append.1 hc with hc | hc
    · exact h6 n c hc
    · exact hp c hc
  have hbig := decR_lt (List.replicate (d + k) 6 ++ post) (hall _)
  have hb19 : decR (List.replicate (d + k) 6 ++ post) < 10 ^ 19 :=
    Nat.lt_of_lt_of_le hbig (Nat.pow_le_pow_right (by omega) (by simp; omega))
  by_cases h18 : d ≤ 18
  · rw [div10_pow h1 h18]
    have hlow := decR_lt _ (h6 d)
    rw [List.length_replicate] at hlow
    have hd : decR (List.replicate d 6 ++ post) / 10 ^ d = decR post := by
      rw [decR_append, List.length_replicate, Nat.add_mul_div_left _ _ (Nat.pow_pos (by omega)), Nat.div_eq_of_lt hlow,
        Nat.zero_add]
    have hm : decR (List.replicate d 6 ++ post) % 10 ^ d = decR (List.replicate d 6) := by
      rw [decR_append, List.length_replicate, Nat.add_mul_mod_self_left, Nat.mod_eq_of_lt hlow]
    rw [hd, hm, addSixes_eq _ _ hp (by omega)]
    have hval : decR (List.replicate (d + k) 6 ++ post) =
        decR (List.replicate d 6) + 10 ^ d * decR (List.replicate k 6 ++ post) := by
      rw [← List.replicate_append_replicate, List.append_assoc, decR_append, List.length_replicate]
    rw [hval, Nat.mul_comm (10 ^ d)] at hb19
    rw [hval, Nat.mul_comm (10 ^ d), w64_of_lt (show decR (List.replicate k 6 ++ post) * 10 ^ d < 10 ^ 19 by omega),
      w64_of_lt (by omega), Nat.add_comm]
  · have hd19 : d = 19 := by omega
    have hk : k = 0 := by omega
    subst hd19 hk
    have hdd : decimalDivider ((19 : Nat) : Int) = 1 := by decide
    rw [hdd]
    simp only [addSixes, Nat.div_one, Nat.mul_one, Nat.mod_one, Nat.add_zero] at *
    rw [w64_of_lt hb19, w64_of_lt hb19]

/-- The whole outer loop once the last digit is a six: every six goes to the end. -/
theorem sixesLoop_tail (a rem : Nat) (post : List Nat) (hp : ∀ c ∈ post, c ≤ 9) : ∀ (left d : Nat), 1 ≤ d →
    d + post.length + a * (left + 1) + rem ≤ 19 →
    sixesLoop a rem (left + 1) (decR (List.replicate d 6 ++ post)) (d : Int) =
      some (decR (List.replicate (d + a * (left + 1) + rem) 6 ++ post)) := by
  have hmod : ∀ d, 1 ≤ d → decR (List.replicate d 6 ++ post) % 10 = 6 := by
    intro d hd
    obtain ⟨e, rfl⟩ : ∃ e, d = e + 1 := ⟨d - 1, by omega⟩
    rw [List.replicate_succ, List.cons_append, decR]
    omega
  intro left
  induction left with
  | zero =>
    intro d hd hl
    rw [sixesLoop, splitIndex_six _ (hmod d hd)]
    simp only [if_true, sixesLoop, Option.some.injEq]
    have e : ((a : Int) + (rem : Int)).toNat = a + rem := by omega
    rw [e, six_step d (a + rem) post hp hd (by omega)]
    simp [Nat.add_assoc]
  | succ left ih =>
    intro d hd hl
    have hm : a * (left + 1 + 1) = a + a * (left + 1) := by rw [Nat.mul_succ]; omega
    rw [sixesLoop, splitIndex_six _ (hmod d hd)]
    simp only [Nat.succ_ne_zero, if_false, Int.toNat_natCast]
    rw [six_step d a post hp hd (by omega)]
    have := ih (d + a) (by omega) (by omega)
    rw [Int.natCast_add] at this
    rw [this, hm]
    have e : d + a + a * (left + 1) + rem = d + (a + a * (left + 1)) + rem := by omega
    rw [e]

/-- Kinds that end in `**`: the priority is spelled by the kinds and then by sixes. -/
theorem computePriority_tail (a : List MT) (hl : a.length + 1 ≤ 19) :
    computePriority (a ++ [MT.multiple]) =
      some (decR ((a ++ [MT.multiple]).map MT.code ++ List.replicate (19 - (a.length + 1)) 6).reverse) := by
  have hc9 : ∀ c ∈ (a.map MT.code).reverse, c ≤ 9 := by
    intro c hc
    simp only [List.mem_reverse, List.mem_map] at hc
    obtain ⟨k, _, rfl⟩ := hc
    cases k <;> simp [MT.code]
  have hlen : (a ++ [MT.multiple]).length = a.length + 1 := by simp
  have hpos : 0 < (a ++ [MT.multiple]).countP (· = .multiple) :=
    List.countP_pos_iff.2 ⟨.multiple, by simp, by simp⟩
  simp only [computePriority]
  rw [if_neg (by omega), kindsNumber_eq _ (by omega), hlen]
  generalize hcnt : (a ++ [MT.multiple]).countP (· = .multiple) = cnt at *
  obtain ⟨left, rfl⟩ : ∃ left, cnt = left + 1 := ⟨cnt - 1, by omega⟩
  have hspare : (19 : Int) - ((a.length + 1 : Nat) : Int) = ((19 - (a.length + 1) : Nat) : Int) := by omega
  have ha : (19 - ((a.length + 1 : Nat) : Int)).tdiv ((left + 1 : Nat) : Int) = (((19 - (a.length + 1)) / (left + 1) : Nat) : Int) := by
    rw [hspare]; rfl
  have hr : (19 - ((a.length + 1 : Nat) : Int)).tmod ((left + 1 : Nat) : Int) = (((19 - (a.length + 1)) % (left + 1) : Nat) : Int) := by
    rw [hspare]; rfl
  rw [ha, hr]
  have hdm := Nat.div_add_mod (19 - (a.length + 1)) (left + 1)
  rw [Nat.mul_comm] at hdm
  have ht := sixesLoop_tail ((19 - (a.length + 1)) / (left + 1)) ((19 - (a.length + 1)) % (left + 1)) (a.map MT.code).reverse hc9
    left 1 (by omega) (by rw [List.length_reverse, List.length_map]; omega)
  have hrev : ((a ++ [MT.multiple]).map MT.code).reverse = List.replicate 1 6 ++ (a.map MT.code).reverse := by
    simp [MT.code]
  rw [hrev]
  rw [show ((1 : Nat) : Int) = 1 from rfl] at ht
  rw [ht, List.reverse_append, List.reverse_replicate, hrev, ← List.append_assoc, List.replicate_append_replicate]
  congr 4
  omega

end Gofre.Path
