import Verif.Proofs.SearchRefine

/-! # How many times the main loop of `Match` goes round

The refinement of `Proofs/SearchRefine.lean` once more, with the number of iterations counted. -/

namespace Gofre.Path.Cost

open Gofre.Path

variable {U : Type} (acc : Segment → U → Option MT) (rootKids : List Node) (url : List U)

/-- Running the main loop from one outcome to another within a number of iterations. -/
inductive Leads : Nat → Out → Out → Prop
  | refl (k : Nat) (o : Out) : Leads k o o
  | step {k : Nat} {s : MSt} {o : Out} : Leads k (mstep acc rootKids url s) o → Leads (k + 1) (.cont s) o

variable {acc rootKids url}

theorem Leads.mono {a b : Nat} {o o' : Out} (hab : a ≤ b) (h : Leads acc rootKids url a o o') : Leads acc rootKids url b o o' := by
  induction h generalizing b with
  | refl => exact .refl _ _
  | @step k s o _ ih =>
    obtain ⟨c, rfl⟩ : ∃ c, b = c + 1 := ⟨b - 1, by omega⟩
    exact .step (ih (by omega))

theorem Leads.trans {x y : Nat} {a b c : Out} (h : Leads acc rootKids url x a b) (h' : Leads acc rootKids url y b c) :
    Leads acc rootKids url (x + y) a c := by
  induction h with
  | refl => exact h'.mono (by omega)
  | @step k _ _ _ ih =>
    have := Leads.step (ih h')
    exact this.mono (by omega)

theorem mrun_of_leads' {k : Nat} {o d : Out} (h : Leads acc rootKids url k o d) :
    ∀ s r, o = .cont s → d = .done r → ∀ g, k ≤ g → mrun acc rootKids url g s = some r := by
  induction h with
  | refl => intro s r h1 h2; subst h1; cases h2
  | @step k s' o' h ih =>
    intro s r h1 h2 g hg
    cases h1
    subst h2
    obtain ⟨g, rfl⟩ : ∃ c, g = c + 1 := ⟨g - 1, by omega⟩
    cases hm : mstep acc rootKids url s' with
    | done r' =>
      rw [hm] at h
      cases h
      simp [mrun, hm]
    | cont t => simp [mrun, hm, ih t r hm rfl g (by omega)]

theorem mrun_of_leads {k : Nat} {s : MSt} {r : MRes} (h : Leads acc rootKids url k (.cont s) (.done r)) (g : Nat) (hg : k ≤ g) :
    mrun acc rootKids url g s = some r := mrun_of_leads' h s r rfl rfl g hg

mutual
/-- Two for every node that is neither a `**` nor below one. -/
def outer : Node → Nat
  | .mk _ _ seg _ kids => if seg.kind = .multiple then 0 else 2 + outers kids
def outers : List Node → Nat
  | [] => 0
  | n :: ns => outer n + outers ns
end

mutual
/-- Two for every node that is a `**` or below one. -/
def inner : Node → Nat
  | .mk _ _ seg _ kids => if seg.kind = .multiple then 2 + outers kids + inners kids else inners kids
def inners : List Node → Nat
  | [] => 0
  | n :: ns => inner n + inners ns
end

mutual
/-- The nodes of a tree. -/
def count : Node → Nat
  | .mk _ _ _ _ kids => 1 + counts kids
def counts : List Node → Nat
  | [] => 0
  | n :: ns => count n + counts ns
end

mutual
theorem outer_inner : ∀ n : Node, outer n + inner n = 2 * count n
  | .mk _ _ seg _ kids => by
    have := outers_inners kids
    simp only [outer, inner, count]
    split <;> omega
theorem outers_inners : ∀ ns : List Node, outers ns + inners ns = 2 * counts ns
  | [] => rfl
  | n :: ns => by
    have := outer_inner n
    have := outers_inners ns
    simp only [outers, inners, counts]
    omega
end

/-- The iterations spent on a level that ends the search. -/
def most (L : List Node) : Nat := outers L + 20 * inners L + 1

theorem outers_tail (n : Node) (ns : List Node) : outers ns ≤ outers (n :: ns) := by simp [outers]
theorem most_tail (n : Node) (ns : List Node) : most ns ≤ most (n :: ns) := by simp [most, outers, inners]; omega

section
variable {mx : UInt8} {pr : Nat} {seg : Segment} (pat : Option Pattern) (kids rest : List Node)

theorem outers_plain (h : seg.kind ≠ .multiple) : outers (.mk mx pr seg pat kids :: rest) = 2 + outers kids + outers rest := by
  simp [outers, outer, h]
theorem most_plain (h : seg.kind ≠ .multiple) :
    most (.mk mx pr seg pat kids :: rest) = 2 + outers kids + outers rest + 20 * (inners kids + inners rest) + 1 := by
  simp [most, outers, outer, inners, inner, h]
theorem most_star (h : seg.kind = .multiple) :
    most (.mk mx pr seg pat kids :: rest) = outers rest + 20 * (2 + outers kids + inners kids + inners rest) + 1 := by
  simp [most, outers, outer, inners, inner, h]
end

/-- The outcome `o` agrees with the result of the recursive search. -/
def Good (acc : Segment → U → Option MT) (rootKids : List Node) (url : List U) (x y : Nat) (o : Out) (path : List Node)
    (ns : List (Nat × Nat)) (ms : List MT) (v : MT) (labels : List MT) : Res → Prop
  | .found p ls => Leads acc rootKids url y o (.done (.found p (labels.take ms.length ++ ls)))
  | .abort => Leads acc rootKids url y o (.done .none)
  | .panic => Leads acc rootKids url y o (.done .panic)
  | .next => False
  | .stop =>
    (path = [] ∧ Leads acc rootKids url x o (.done .none)) ∨
    ∃ n ps ns' e labels2, path = n :: ps ∧ ns = ns' ++ [e] ∧
      Leads acc rootKids url x o (.cont (popped ps ns' e ms labels2)) ∧ labels2.length = url.length ∧
      labels2.take ms.length = labels.take ms.length ∧
      (v ≠ .unknown → ms.length + 1 < url.length → labels2[ms.length]? = some v)

theorem Good.lead {k x y : Nat} {o o' : Out} {path : List Node} {ns : List (Nat × Nat)} {ms : List MT} {v : MT}
    {labels labels' : List MT} {r : Res} (hl : labels.take ms.length = labels'.take ms.length) (h : Leads acc rootKids url k o o')
    (g : Good acc rootKids url x y o' path ns ms v labels' r) : Good acc rootKids url (k + x) (k + y) o path ns ms v labels r := by
  cases r with
  | found p ls => simp only [Good] at g ⊢; rw [hl]; exact h.trans g
  | abort => exact h.trans g
  | panic => exact h.trans g
  | next => exact g
  | stop =>
    rcases g with ⟨h1, h2⟩ | ⟨n, ps, ns', e, l2, h1, h2, h3, h4, h5, h6⟩
    · exact .inl ⟨h1, h.trans h2⟩
    · exact .inr ⟨n, ps, ns', e, l2, h1, h2, h.trans h3, h4, by rw [h5, hl], h6⟩

theorem Good.mono {x y x' y' : Nat} {o : Out} {path : List Node} {ns : List (Nat × Nat)} {ms : List MT} {v : MT}
    {labels : List MT} {r : Res} (hx : x ≤ x') (hy : y ≤ y')
    (g : Good acc rootKids url x y o path ns ms v labels r) : Good acc rootKids url x' y' o path ns ms v labels r := by
  cases r with
  | found p ls => exact Leads.mono hy g
  | abort => exact Leads.mono hy g
  | panic => exact Leads.mono hy g
  | next => exact g
  | stop =>
    rcases g with ⟨h1, h2⟩ | ⟨n, ps, ns', e, l2, h1, h2, h3, h4, h5, h6⟩
    · exact .inl ⟨h1, h2.mono hx⟩
    · exact .inr ⟨n, ps, ns', e, l2, h1, h2, h3.mono hx, h4, h5, h6⟩

/-- A level started in state `s` agrees with the recursive search. -/
def LevelGood (acc : Segment → U → Option MT) (rootKids : List Node) (url : List U) (L : List Node) : Prop :=
  ∀ (path : List Node) (ns : List (Nat × Nat)) (e : Nat × Nat) (ms : List MT) (v : MT) (labels : List MT) (ci : Nat) (u : U),
    ns.length = path.length → ns.length < 19 → url[ms.length]? = some u → labels.length = url.length →
    (v ≠ .unknown → labels[ms.length]? = some v) → (kidsOf rootKids path).drop ci = L →
    Good acc rootKids url (outers L) (most L)
      (atEnd url.length (stOf path ns e ms v labels)
        (scan acc url (stOf path ns e ms v labels) u ci L ((kidsOf rootKids path).length % 65536 - ci)))
      path ns ms v labels
      (tryC acc ns.length L ((kidsOf rootKids path).length % 65536 - ci) (url.drop ms.length))

/-- Entering a level. -/
theorem LevelGood.enter {L : List Node} (h : LevelGood acc rootKids url L) (path : List Node) (ns : List (Nat × Nat))
    (ci x : Nat) (ms : List MT) (v : MT) (labels : List MT)
    (hp : ns.length = path.length) (hd : ns.length < 19) (hm : ms.length < url.length) (hl : labels.length = url.length)
    (hk : (kidsOf rootKids path).drop ci = L) :
    Good acc rootKids url (1 + outers L) (1 + most L) (.cont (stOf path ns (ci, x) ms v labels)) path ns ms v labels
      (tryC acc ns.length L ((kidsOf rootKids path).length % 65536 - ci) (url.drop ms.length)) := by
  have hu : url[ms.length]? = some url[ms.length] := List.getElem?_eq_getElem hm
  obtain ⟨labels', h1, h2, h3, h4⟩ := mstep_stOf (acc := acc) (rootKids := rootKids) path ns ci x ms v labels _ hu hl
  have g := h path ns (ci, x) ms v labels' ci _ hp hd hu h2 h4 hk
  rw [← hk] at g ⊢
  rw [← h1] at g
  rw [hk] at g ⊢
  exact Good.lead h3.symm (.step (.refl 0 _)) g

/-- Entering the children of a node, or panicking when the stack is full. -/
theorem enter_below {n : Node} (h : LevelGood acc rootKids url n.kids) (path : List Node) (ns : List (Nat × Nat))
    (ms : List MT) (v : MT) (labels : List MT)
    (hp : ns.length = path.length + 1) (hd : ns.length ≤ 19) (hm : ms.length < url.length) (hl : labels.length = url.length) :
    Good acc rootKids url (1 + outers n.kids) (1 + most n.kids) (.cont (entered (n :: path) ns ms v labels)) (n :: path) ns ms v labels
      (below acc path.length n.kids (url.drop ms.length)) := by
  unfold below
  by_cases hlt : path.length + 1 < 19
  · rw [if_pos hlt]
    have := h.enter (n :: path) ns 0 0 ms v labels (by simpa using hp) (by omega) hm hl (by simp [kidsOf])
    have e : 19 - ns.length = (18 - ns.length) + 1 := by omega
    rw [← hp]
    simpa [kidsOf, stOf, entered, e, List.replicate_succ, ← hp] using this
  · rw [if_neg hlt]
    refine Leads.mono (Nat.le_add_right 1 _) (.step (k := 0) ?_)
    have hu : url[ms.length]? = some url[ms.length] := List.getElem?_eq_getElem hm
    have e : 19 - ns.length = 0 := by omega
    unfold mstep
    simp only [entered, hu, e, List.replicate_zero, List.append_nil, List.getElem?_eq_none (Nat.le_refl ns.length)]
    exact .refl _ _

/-- The outcome `o` agrees with the result of the positions tried for a `**`. -/
def StarGood (acc : Segment → U → Option MT) (rootKids : List Node) (url : List U) (k : Nat) (o : Out) (pre : List MT) : Res → Prop
  | .found p ls => Leads acc rootKids url k o (.done (.found p (pre ++ ls)))
  | .abort => Leads acc rootKids url k o (.done .none)
  | .panic => Leads acc rootKids url k o (.done .panic)
  | _ => False

theorem StarGood.good {x k : Nat} {o : Out} {path : List Node} {ns : List (Nat × Nat)} {ms : List MT} {v : MT} {labels : List MT} {r : Res}
    (h : StarGood acc rootKids url k o (labels.take ms.length) r) : Good acc rootKids url x k o path ns ms v labels r := by
  cases r <;> first | exact h | exact h.elim

theorem StarGood.cons {a b : Nat} {o o' : Out} {pre : List MT} {r : Res} (k : MT) (ho : Leads acc rootKids url a o o')
    (h : StarGood acc rootKids url b o' (pre ++ [k]) r) : StarGood acc rootKids url (a + b) o pre (r.cons k) := by
  cases r with
  | found p ls => simp only [StarGood, Res.cons] at h ⊢; rw [List.append_assoc] at h; exact ho.trans h
  | abort => exact ho.trans h
  | panic => exact ho.trans h
  | stop => exact h
  | next => exact h

theorem StarGood.mono {a b : Nat} {o : Out} {pre : List MT} {r : Res} (hab : a ≤ b)
    (h : StarGood acc rootKids url a o pre r) : StarGood acc rootKids url b o pre r := by
  cases r <;> first | exact Leads.mono hab h | exact h

/-- The loop of a `**` child agrees with `starLoop`. -/
theorem greedy_good (hstar : ∀ s u v, acc s u = some .multiple → acc s v = some .multiple) (hurl : url.length ≤ 19)
    (mx : UInt8) (pr : Nat) (seg : Segment) (pat : Option Pattern) (kids : List Node)
    (hkids : LevelGood acc rootKids url kids) (hnl : ¬ (kids = [] ∧ pat.isSome))
    (path : List Node) (ns : List (Nat × Nat)) (ci : Nat) (rest : List Node)
    (hp : ns.length = path.length) (hd : ns.length < 19)
    (hk : (kidsOf rootKids path).drop ci = .mk mx pr seg pat kids :: rest)
    (hb : ci < (kidsOf rootKids path).length % 65536) (u0 : U) (hseg : acc seg u0 = some .multiple) :
    ∀ (us : List U) (e : Nat × Nat) (ms : List MT) (v : MT) (labels labels0 : List MT) (j : Nat),
      us = url.drop j → ms.length ≤ j → j ≤ url.length → labels.length = url.length →
      url.length - j ≤ mx.toNat →
      StarGood acc rootKids url (us.length * (outers kids + 2) + most kids + 1) (atEnd url.length (stOf path ns e ms v labels0)
          (afterGreedy (stOf path ns e ms v labels0) (.mk mx pr seg pat kids) ci (greedyLoop acc kids j us labels)))
        (labels.take j) (starLoop (fun w => anyAcc acc w kids) (below acc ns.length kids) us) := by
  intro us
  induction us with
  | nil =>
    intro e ms v labels labels0 j _ _ _ _ _
    exact .refl _ _
  | cons u us ih =>
    intro e ms v labels labels0 j hus hmj hj hl hmx
    have hjlt : j < url.length := by
      rcases Nat.lt_or_ge j url.length with h | h
      · exact h
      · rw [List.drop_eq_nil_of_le h] at hus; cases hus
    have hus' : us = url.drop (j + 1) := by
      rw [List.drop_eq_getElem_cons hjlt] at hus
      exact (List.cons.inj hus).2
    -- continuing at the next position
    have hnext : ∀ (lab : List MT), lab.length = url.length → lab.take (j + 1) = labels.take j ++ [.multiple] →
        ∀ (e' : Nat × Nat) (ms' : List MT) (v' : MT) (lab0 : List MT), ms'.length ≤ j + 1 → ∀ k o,
        k ≤ outers kids + 2 → Leads acc rootKids url k o (atEnd url.length (stOf path ns e' ms' v' lab0)
            (afterGreedy (stOf path ns e' ms' v' lab0) (.mk mx pr seg pat kids) ci (greedyLoop acc kids (j + 1) us lab))) →
        StarGood acc rootKids url ((u :: us).length * (outers kids + 2) + most kids + 1) o (labels.take j)
          ((starLoop (fun w => anyAcc acc w kids) (below acc ns.length kids) us).cons .multiple) := by
      intro lab hlab htake e' ms' v' lab0 hms' k o hko ho
      have := ih e' ms' v' lab lab0 (j + 1) hus' hms' (by omega) hlab (by omega)
      rw [htake] at this
      refine (this.cons _ ho).mono ?_
      rw [List.length_cons, Nat.add_mul]; omega
    have hset : (labels.set j .multiple).take (j + 1) = labels.take j ++ [.multiple] := take_succ_set _ _ _ (by omega)
    cases hany : anyAcc acc u kids with
    | none =>
      simp only [starLoop, greedyLoop, hany, afterGreedy, atEnd]
      exact .refl _ _
    | some t =>
      cases t with
      | false =>
        have hg : greedyLoop acc kids j (u :: us) labels = greedyLoop acc kids (j + 1) us (labels.set j .multiple) := by
          simp only [greedyLoop, hany]
        have hs : starLoop (fun w => anyAcc acc w kids) (below acc ns.length kids) (u :: us) =
            (starLoop (fun w => anyAcc acc w kids) (below acc ns.length kids) us).cons .multiple := by
          simp only [starLoop, hany]
        rw [hs, hg]
        exact hnext _ (by simp [hl]) hset e ms v labels0 (by omega) 0 _ (by omega) (.refl 0 _)
      | true =>
        have hg : greedyLoop acc kids j (u :: us) labels = .hit j (labels.set j .multiple) := by
          simp only [greedyLoop, hany]
        rw [hg]
        -- the state in which the children are entered
        obtain ⟨ms2, rfl, hmt⟩ := set_later ms v j hmj (by omega)
        have hcont : atEnd url.length (stOf path ns e ms v labels0)
              (afterGreedy (stOf path ns e ms v labels0) (.mk mx pr seg pat kids) ci (.hit ms2.length (labels.set ms2.length .multiple))) =
            .cont (entered (.mk mx pr seg pat kids :: path) (ns ++ [(ci, ms2.length + 1)]) ms2 .multiple (labels.set ms2.length .multiple)) := by
          have hi1 : (ms2.length + 255) % 256 ≠ url.length - 1 := by omega
          have hi2 : ((ms2.length + 255) % 256 + 1) % 256 = ms2.length := by omega
          have hnst : (ns ++ e :: List.replicate (18 - ns.length) (0, 0)).set ns.length (ci, ms2.length + 1) =
              (ns ++ [(ci, ms2.length + 1)]) ++ List.replicate (19 - (ns ++ [(ci, ms2.length + 1)]).length) (0, 0) := by
            rw [set_mid]
            have : 19 - (ns ++ [(ci, ms2.length + 1)]).length = 18 - ns.length := by simp
            rw [this]; simp
          simp only [afterGreedy, atEnd, stOf, Node.pat, hmt, hnst, entered]
          cases pat with
          | none => simp [hi2]
          | some p => simp [hi1, hi2]
        rw [hcont, starLoop_true (any := fun w => anyAcc acc w kids) hany]
        have hgood := enter_below (n := .mk mx pr seg pat kids) (acc := acc) (rootKids := rootKids) hkids path
          (ns ++ [(ci, ms2.length + 1)]) ms2 .multiple
          (labels.set ms2.length .multiple) (by simp [hp]) (by simp; omega) (by omega) (by simp [hl])
        simp only [Node.kids] at hgood
        rw [← hus, ← hp] at hgood
        have hle : 1 + most kids ≤ (u :: us).length * (outers kids + 2) + most kids + 1 := by omega
        cases hbel : below acc ns.length kids (u :: us) with
        | found p ls =>
          rw [hbel] at hgood
          simp only [Good] at hgood
          rw [set_take] at hgood
          exact Leads.mono hle hgood
        | abort => rw [hbel] at hgood; exact Leads.mono hle hgood
        | panic => rw [hbel] at hgood; exact Leads.mono hle hgood
        | next => rw [hbel] at hgood; exact hgood.elim
        | stop =>
          rw [hbel] at hgood
          rcases hgood with ⟨h, _⟩ | ⟨n0, ps, ns', e2, lab2, h1, h2, h3, h4, h5, h6⟩
          · cases h
          · cases h1
            obtain ⟨h2a, h2b⟩ := List.append_inj' h2 rfl
            cases h2b
            subst h2a
            simp only [Res.orStop]
            by_cases hend : ms2.length + 1 < url.length
            · have hpop : popped path ns (ci, ms2.length + 1) ms2 lab2 = stOf path ns (ci, ms2.length + 1) (ms2 ++ [.unknown]) .unknown lab2 :=
                stOf_zero_mt _ _ _ _ _ rfl (by omega)
              rw [hpop] at h3
              have hu' : url[(ms2 ++ [MT.unknown]).length]? = some url[ms2.length + 1] := by
                simp only [List.length_append, List.length_cons, List.length_nil, Nat.zero_add]
                exact List.getElem?_eq_getElem hend
              obtain ⟨labels', g1, g2, g3, _⟩ := mstep_stOf (acc := acc) (rootKids := rootKids) path ns ci (ms2.length + 1) (ms2 ++ [.unknown]) .unknown
                lab2 _ hu' h4
              rw [hk] at g1
              obtain ⟨b, hb2⟩ : ∃ b, (kidsOf rootKids path).length % 65536 - ci = b + 1 := ⟨_, (Nat.succ_pred_eq_of_pos (by omega)).symm⟩
              have hidx : (stOf path ns (ci, ms2.length + 1) (ms2 ++ [MT.unknown]) .unknown labels').idx = ms2.length + 1 := by simp [stOf]
              rw [hb2, scan_cons, hidx, if_neg (by omega), hstar seg u0 _ hseg] at g1
              simp only [byKind] at g1
              rw [ifLeaf_no hnl, ← hus'] at g1
              have htake : labels'.take (ms2.length + 1) = labels.take ms2.length ++ [.multiple] := by
                simp only [List.length_append, List.length_cons, List.length_nil, Nat.zero_add] at g3
                rw [g3, List.take_add_one, h5, set_take, h6 (by simp) hend]
                rfl
              exact hnext labels' g2 htake (ci, ms2.length + 1) (ms2 ++ [.unknown]) .unknown labels' (by simp)
                _ _ (by omega) (h3.trans (.step (k := 0) (by rw [g1]; exact .refl 0 _)))
            · have hus0 : us = [] := by rw [hus', List.drop_eq_nil_of_le (by omega)]
              subst hus0
              simp only [starLoop, Res.cons]
              refine Leads.mono ?_ (h3.trans (.step (k := 0) ?_))
              · simp only [List.length_cons, List.length_nil]; omega
              have : mstep acc rootKids url (popped path ns (ci, ms2.length + 1) ms2 lab2) = .done .none := by
                unfold mstep
                have : url[(popped path ns (ci, ms2.length + 1) ms2 lab2).idx]? = none := by
                  rw [List.getElem?_eq_none_iff]; simp [popped]; omega
                rw [this]
              rw [this]; exact .refl _ _

/-- The whole level. -/
theorem levelGood (hstar : ∀ s u, acc s u = some .multiple ↔ s.kind = .multiple) (hurl : url.length ≤ 19) :
    ∀ (k : Nat) (L : List Node), sizeOf L ≤ k → LevelGood acc rootKids url L := by
  intro k
  induction k with
  | zero => intro L hL; cases L <;> simp at hL
  | succ k ih =>
    intro L hL path ns e ms v labels ci u hp hd hu hl hv hk
    have hstar' : ∀ s u v, acc s u = some .multiple → acc s v = some .multiple := fun s u v h => (hstar s v).2 ((hstar s u).1 h)
    have hm : ms.length < url.length := (List.getElem?_eq_some_iff.1 hu).1
    have hdrop : url.drop ms.length = u :: url.drop (ms.length + 1) := by
      rw [List.drop_eq_getElem_cons hm]
      congr 1
      exact (List.getElem?_eq_some_iff.1 hu).2
    -- no child matched
    have hpop : ∀ lab : List MT, lab.length = url.length → lab.take ms.length = labels.take ms.length →
        (v ≠ .unknown → ms.length + 1 < url.length → lab[ms.length]? = some v) →
        Good acc rootKids url (outers L) (most L) (atEnd url.length (stOf path ns e ms v labels) (.unmatched lab)) path ns ms v labels .stop := by
      intro lab h1 h2 h3
      cases path with
      | nil => exact .inl ⟨rfl, .refl _ _⟩
      | cons n ps =>
        obtain ⟨ns', e', rfl⟩ : ∃ ns' e', ns = ns' ++ [e'] := by
          have : ns ≠ [] := by intro h; simp [h] at hp
          exact ⟨ns.dropLast, ns.getLast this, (List.dropLast_concat_getLast this).symm⟩
        refine .inr ⟨n, ps, ns', e', lab, rfl, rfl, ?_, h1, h2, h3⟩
        have : atEnd url.length (stOf (n :: ps) (ns' ++ [e']) e ms v labels) (.unmatched lab) = .cont (popped ps ns' e' ms lab) := by
          simp only [atEnd, stOf, popped]
          congr 1
          have hd' : (ns' ++ [e']).length - 1 = ns'.length := by simp
          have hns : (ns' ++ [e'] ++ e :: List.replicate (18 - (ns' ++ [e']).length) (0, 0)).set (ns' ++ [e']).length (0, 0) =
              ns' ++ e' :: List.replicate (18 - ns'.length) (0, 0) := by
            rw [set_mid]
            have : 18 - ns'.length = (18 - (ns' ++ [e']).length) + 1 := by simp at hd ⊢; omega
            rw [this, List.replicate_succ]; simp
          have hms : (ms ++ v :: List.replicate (18 - ms.length) MT.unknown).set ms.length .unknown = ms ++ List.replicate (19 - ms.length) .unknown := by
            rw [set_mid]
            have : 19 - ms.length = (18 - ms.length) + 1 := by omega
            rw [this, List.replicate_succ]
          rw [hns, hms, hd']
          simp
        rw [this]; exact .refl _ _
    have hnil : Good acc rootKids url (outers L) (most L) (atEnd url.length (stOf path ns e ms v labels) (.unmatched labels)) path ns ms v labels .stop :=
      hpop labels hl rfl fun h _ => hv h
    match L, hk with
    | [], hk => simp only [scan, tryC]; exact hnil
    | .mk mx pr seg pat kids :: rest, hk =>
      generalize hbud : (kidsOf rootKids path).length % 65536 - ci = bud
      cases bud with
      | zero => simp only [scan, tryC]; exact hnil
      | succ b =>
        have hrest : (kidsOf rootKids path).drop (ci + 1) = rest := by
          rw [← List.drop_drop, hk]; rfl
        have hbud' : (kidsOf rootKids path).length % 65536 - (ci + 1) = b := by omega
        have hrestGood : LevelGood acc rootKids url rest := ih rest (by simp at hL; omega)
        have hkidsGood : LevelGood acc rootKids url kids := ih kids (by have := sizeOf_kids mx pr seg pat kids rest; omega)
        -- going on with the siblings in the same iteration
        have hskip : Good acc rootKids url (outers (.mk mx pr seg pat kids :: rest)) (most (.mk mx pr seg pat kids :: rest)) (atEnd url.length (stOf path ns e ms v labels)
            (scan acc url (stOf path ns e ms v labels) u (ci + 1) rest b)) path ns ms v labels
            (tryC acc ns.length rest b (url.drop ms.length)) := by
          have := hrestGood path ns e ms v labels (ci + 1) u hp hd hu hl hv hrest
          rw [hbud'] at this
          exact this.mono (outers_tail _ _) (most_tail _ _)
        have hidx : (stOf path ns e ms v labels).idx = ms.length := rfl
        have hlab : (stOf path ns e ms v labels).labels = labels := rfl
        rw [scan_cons, tryC, hdrop, tryN_cons, ← hdrop, hidx, hlab]
        have hlen : (url.drop (ms.length + 1)).length + 1 = url.length - ms.length := by simp; omega
        rw [hlen]
        by_cases hmx : mx.toNat < url.length - ms.length
        · rw [if_pos hmx, if_pos hmx]; exact hskip
        · rw [if_neg hmx, if_neg hmx]
          cases hacc : acc seg u with
          | none => exact Leads.refl _ _
          | some kd =>
            by_cases hunk : kd = .unknown
            · subst hunk; exact hskip
            · by_cases hmul : kd = .multiple
              · subst hmul
                simp only [byKind]
                by_cases hleaf : kids = [] ∧ pat.isSome
                · obtain ⟨rfl, hsome⟩ := hleaf
                  obtain ⟨p, rfl⟩ := Option.isSome_iff_exists.1 hsome
                  simp only [ifLeaf, atEnd, Good, fillMultiple, hl]
                  exact Leads.refl _ _
                · rw [ifLeaf_no hleaf, ifLeaf_no hleaf]
                  have := greedy_good hstar' hurl mx pr seg pat kids hkidsGood hleaf path ns ci rest hp hd hk (by omega) u hacc
                    (url.drop ms.length) e ms v labels labels ms.length rfl (Nat.le_refl _) (by omega) hl (by omega)
                  have hmost : (url.drop ms.length).length * (outers kids + 2) + most kids + 1 ≤ most (.mk mx pr seg pat kids :: rest) := by
                    have hlen19 : (url.drop ms.length).length ≤ 19 := by simp; omega
                    have := Nat.mul_le_mul_right (outers kids + 2) hlen19
                    rw [most_star _ _ _ ((hstar seg u).1 hacc)]
                    unfold most at *
                    omega
                  revert this
                  cases starLoop (fun v => anyAcc acc v kids) (below acc ns.length kids) (url.drop ms.length) <;>
                    intro h <;> first | exact h.elim | exact (h.mono hmost).good
              · rw [byKind_other hunk hmul, byKind_other hunk hmul]
                by_cases hlast : ms.length = url.length - 1
                · have hnil' : url.drop (ms.length + 1) = [] := List.drop_eq_nil_of_le (by omega)
                  rw [if_pos hlast, hnil']
                  have hset : labels.set ms.length kd = labels.take ms.length ++ [kd] := by
                    rw [← take_succ_set _ _ _ (by omega), List.take_of_length_le]
                    simp; omega
                  cases pat with
                  | some p =>
                    simp only [ordinary, atEnd, Good, hset]
                    exact Leads.refl _ _
                  | none =>
                    simp only [ordinary]
                    exact hpop _ (by simp [hl]) (set_take _ _ _) fun _ h => by omega
                · rw [if_neg hlast]
                  have hcons : url.drop (ms.length + 1) = url[ms.length + 1] :: url.drop (ms.length + 1 + 1) :=
                    List.drop_eq_getElem_cons (by omega)
                  have hord : ordinary kd pat (url.drop (ms.length + 1)) (below acc ns.length kids (url.drop (ms.length + 1))) =
                      (below acc ns.length kids (url.drop (ms.length + 1))).up kd := by
                    rw [hcons]; rfl
                  rw [hord]
                  have hcont : atEnd url.length (stOf path ns e ms v labels)
                      (.matched { path := .mk mx pr seg pat kids :: (stOf path ns e ms v labels).path,
                                  depth := (stOf path ns e ms v labels).depth + 1, idx := ms.length,
                                  nodeStack := (stOf path ns e ms v labels).nodeStack.set (stOf path ns e ms v labels).depth (ci + 1, ms.length),
                                  mtStack := (stOf path ns e ms v labels).mtStack, labels := labels.set ms.length kd }) =
                      .cont (entered (.mk mx pr seg pat kids :: path) (ns ++ [(ci + 1, ms.length)]) (ms ++ [v]) .unknown (labels.set ms.length kd)) := by
                    have hi2 : (ms.length + 1) % 256 = ms.length + 1 := by omega
                    have hnst : (ns ++ e :: List.replicate (18 - ns.length) (0, 0)).set ns.length (ci + 1, ms.length) =
                        (ns ++ [(ci + 1, ms.length)]) ++ List.replicate (19 - (ns ++ [(ci + 1, ms.length)]).length) (0, 0) := by
                      rw [set_mid]
                      have : 19 - (ns ++ [(ci + 1, ms.length)]).length = 18 - ns.length := by simp
                      rw [this]; simp
                    have hmst : ms ++ v :: List.replicate (18 - ms.length) MT.unknown =
                        (ms ++ [v]) ++ .unknown :: List.replicate (18 - (ms ++ [v]).length) .unknown := by
                      have : 18 - ms.length = (18 - (ms ++ [v]).length) + 1 := by simp; omega
                      rw [this, List.replicate_succ]; simp
                    simp only [atEnd, stOf, Node.pat, hnst, hmst, entered]
                    cases pat with
                    | none => simp [hi2]
                    | some p => simp [hi2, hlast]
                  rw [hcont]
                  have hgood := enter_below (n := .mk mx pr seg pat kids) (acc := acc) (rootKids := rootKids) hkidsGood path
                    (ns ++ [(ci + 1, ms.length)]) (ms ++ [v]) .unknown
                    (labels.set ms.length kd) (by simp [hp]) (by simp; omega) (by simp; omega) (by simp [hl])
                  have hlen1 : (ms ++ [v]).length = ms.length + 1 := by simp
                  simp only [Node.kids, hlen1] at hgood
                  rw [← hp] at hgood
                  have hplain : seg.kind ≠ .multiple := fun h => hmul (by
                    have := (hstar seg u).2 h; rw [hacc] at this; exact Option.some.inj this)
                  have hle : 1 + most kids ≤ most (.mk mx pr seg pat kids :: rest) := by
                    rw [most_plain _ _ _ hplain]; unfold most; omega
                  cases hbel : below acc ns.length kids (url.drop (ms.length + 1)) with
                  | found p ls =>
                    rw [hbel] at hgood
                    simp only [Good, hlen1] at hgood
                    rw [take_succ_set _ _ _ (by omega), List.append_assoc] at hgood
                    exact Leads.mono hle hgood
                  | abort => rw [hbel] at hgood; exact Leads.mono hle hgood
                  | panic => rw [hbel] at hgood; exact Leads.mono hle hgood
                  | next => rw [hbel] at hgood; exact hgood.elim
                  | stop =>
                    rw [hbel] at hgood
                    rcases hgood with ⟨h, _⟩ | ⟨n0, ps, ns', e2, lab2, h1, h2, h3, h4, h5, h6⟩
                    · cases h
                    · cases h1
                      obtain ⟨h2a, h2b⟩ := List.append_inj' h2 rfl
                      cases h2b
                      subst h2a
                      rw [stOf_back _ _ _ _ _ _ rfl] at h3
                      have hr := hrestGood.enter path ns (ci + 1) ms.length ms v lab2 hp hd hm h4 hrest
                      rw [hbud'] at hr
                      refine (Good.lead ?_ h3 hr).mono (by rw [outers_plain _ _ _ hplain]; omega) (by rw [most_plain _ _ _ hplain]; unfold most; omega)
                      rw [hlen1] at h5
                      have : (lab2.take (ms.length + 1)).take ms.length = ((labels.set ms.length kd).take (ms.length + 1)).take ms.length := by rw [h5]
                      rw [List.take_take, List.take_take, Nat.min_eq_left (by omega), set_take] at this
                      exact this.symm

/-- The main loop ends within twice the nodes outside every `**` and forty times the others. -/
theorem mrun_within (hstar : ∀ s u, acc s u = some .multiple ↔ s.kind = .multiple) (hurl : url.length ≤ 19) (hne : url ≠ [])
    (g : Nat) (hg : 1 + most rootKids ≤ g) :
    mrun acc rootKids url g (mstart url.length) = some (tryC acc 0 rootKids (rootKids.length % 65536) url).toM := by
  have hlen : 0 < url.length := List.length_pos_iff.2 hne
  have h := (levelGood (acc := acc) (rootKids := rootKids) hstar hurl _ rootKids (Nat.le_refl _)).enter [] [] 0 0 [] .unknown
    (List.replicate url.length .unknown) rfl (by simp) hlen (by simp) rfl
  have hs : stOf [] [] (0, 0) [] .unknown (List.replicate url.length .unknown) = mstart url.length := rfl
  rw [hs] at h
  simp only [List.length_nil, List.drop_zero, kidsOf, Nat.sub_zero] at h
  revert h
  cases tryC acc 0 rootKids (rootKids.length % 65536) url with
  | found p ls => intro h; exact mrun_of_leads h g hg
  | abort => intro h; exact mrun_of_leads h g hg
  | panic => intro h; exact mrun_of_leads h g hg
  | next => intro h; exact h.elim
  | stop =>
    intro h
    rcases h with ⟨_, h⟩ | ⟨_, _, _, _, _, h, _⟩
    · exact mrun_of_leads h g (by unfold most at hg; omega)
    · cases h

end Gofre.Path.Cost
