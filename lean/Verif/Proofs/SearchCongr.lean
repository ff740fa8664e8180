import Verif.Proofs.SearchSound

/-! # The search only depends on which segments accept which request segments -/

namespace Gofre.Path

variable {U V : Type} {acc : Segment → U → Option MT} {acc' : Segment → V → Option MT}

/-- The two request segments are accepted by the same segments. -/
abbrev Alike (acc : Segment → U → Option MT) (acc' : Segment → V → Option MT) (u : U) (v : V) : Prop := ∀ s, acc s u = acc' s v

theorem anyAcc_congr {u : U} {v : V} (h : Alike acc acc' u v) : ∀ (ns : List Node), anyAcc acc u ns = anyAcc acc' v ns := by
  intro ns
  induction ns with
  | nil => rfl
  | cons n ns ih => simp only [anyAcc, h n.seg, ih]

theorem starLoop_congr {any : U → Option Bool} {any' : V → Option Bool} {f : List U → Res} {f' : List V → Res} :
    ∀ {us : List U} {vs : List V}, All2 (fun u v => any u = any' v ∧ Alike acc acc' u v) us vs →
    (∀ us vs, All2 (Alike acc acc') us vs → f us = f' vs) → starLoop any f us = starLoop any' f' vs := by
  intro us vs h hf
  induction h with
  | nil => rfl
  | @cons u v us vs hr ht ih =>
    have hall : All2 (Alike acc acc') (u :: us) (v :: vs) := .cons hr.2 (ht.imp fun _ _ _ _ h => h.2)
    simp only [starLoop, hr.1, ih, hf _ _ hall]

theorem tryC_congr : ∀ (n : Nat) (ns : List Node), sizeOf ns ≤ n → ∀ (d b : Nat) (us : List U) (vs : List V),
    All2 (Alike acc acc') us vs → tryC acc d ns b us = tryC acc' d ns b vs := by
  intro n
  induction n with
  | zero => intro ns h; cases ns <;> simp at h
  | succ n ih =>
    intro ns hn d b us vs h
    match ns, b with
    | [], _ => simp [tryC]
    | _ :: _, 0 => simp [tryC]
    | .mk mx pr seg pat kids :: rest, b + 1 =>
      have hrest := ih rest (by simp at hn; omega) d b us vs h
      rw [tryC, tryC, hrest]
      have hN : tryN acc d (.mk mx pr seg pat kids) us = tryN acc' d (.mk mx pr seg pat kids) vs := by
        cases h with
        | nil => simp [tryN]
        | @cons u v us vs hr ht =>
          have hbelow : ∀ us vs, All2 (Alike acc acc') us vs → below acc d kids us = below acc' d kids vs := by
            intro us vs h
            simp only [below]
            rw [ih kids (by have := sizeOf_kids mx pr seg pat kids rest; omega) _ _ us vs h]
          have hst : starLoop (fun w => anyAcc acc w kids) (below acc d kids) (u :: us) =
              starLoop (fun w => anyAcc acc' w kids) (below acc' d kids) (v :: vs) :=
            starLoop_congr (acc := acc) (acc' := acc')
              ((All2.cons hr ht).imp fun a b _ _ hab => ⟨anyAcc_congr hab kids, hab⟩) hbelow
          rw [tryN_cons, tryN_cons, hr seg, hst, ht.length, hbelow _ _ ht]
          congr 1
          congr 1
          funext k
          cases ht <;> rfl
      rw [hN]

end Gofre.Path
