import Verif.Proofs.Search

/-! # The main loop of `Match` computes the recursive search -/

namespace Gofre.Path

variable {U : Type} (acc : Segment → U → Option MT) (rootKids : List Node) (url : List U)

/-- Running the main loop from one outcome to another. -/
inductive Leads : Out → Out → Prop
  | refl (o : Out) : Leads o o
  | step {s : MSt} {o : Out} : Leads (mstep acc rootKids url s) o → Leads (.cont s) o

variable {acc rootKids url}

theorem Leads.trans {a b c : Out} (h : Leads acc rootKids url a b) (h' : Leads acc rootKids url b c) :
    Leads acc rootKids url a c := by
  induction h with
  | refl => exact h'
  | step _ ih => exact .step (ih h')

theorem mrun_of_leads' {o d : Out} (h : Leads acc rootKids url o d) :
    ∀ s r, o = .cont s → d = .done r → ∃ f, ∀ g, f ≤ g → mrun acc rootKids url g s = some r := by
  induction h with
  | refl => intro s r h1 h2; subst h1; cases h2
  | @step s' o' h ih =>
    intro s r h1 h2
    cases h1
    subst h2
    cases hm : mstep acc rootKids url s' with
    | done r' =>
      rw [hm] at h
      cases h
      refine ⟨1, fun g hg => ?_⟩
      cases g with
      | zero => omega
      | succ g => simp [mrun, hm]
    | cont t =>
      obtain ⟨f, hf⟩ := ih t r hm rfl
      refine ⟨f + 1, fun g hg => ?_⟩
      cases g with
      | zero => omega
      | succ g => simp [mrun, hm, hf g (by omega)]

theorem mrun_of_leads {s : MSt} {r : MRes} (h : Leads acc rootKids url (.cont s) (.done r)) :
    ∃ f, ∀ g, f ≤ g → mrun acc rootKids url g s = some r := mrun_of_leads' h s r rfl rfl

/-- The state with the stacks laid out: `ns` are the entries below the current depth, `ms` the
entries below the current request segment. -/
def stOf (path : List Node) (ns : List (Nat × Nat)) (e : Nat × Nat) (ms : List MT) (v : MT) (labels : List MT) : MSt :=
  { path := path, depth := ns.length, idx := ms.length,
    nodeStack := ns ++ e :: List.replicate (18 - ns.length) (0, 0),
    mtStack := ms ++ v :: List.replicate (18 - ms.length) .unknown, labels := labels }

/-- The state after a level failed. -/
def popped (ps : List Node) (ns : List (Nat × Nat)) (e : Nat × Nat) (ms : List MT) (labels : List MT) : MSt :=
  { path := ps, depth := ns.length, idx := e.2,
    nodeStack := ns ++ e :: List.replicate (18 - ns.length) (0, 0),
    mtStack := ms ++ List.replicate (19 - ms.length) .unknown, labels := labels }

/-- The outcome `o` agrees with the result of the recursive search. -/
def Good (acc : Segment → U → Option MT) (rootKids : List Node) (url : List U) (o : Out) (path : List Node)
    (ns : List (Nat × Nat)) (ms : List MT) (v : MT) (labels : List MT) : Res → Prop
  | .found p ls => Leads acc rootKids url o (.done (.found p (labels.take ms.length ++ ls)))
  | .abort => Leads acc rootKids url o (.done .none)
  | .panic => Leads acc rootKids url o (.done .panic)
  | .next => False
  | .stop =>
    (path = [] ∧ Leads acc rootKids url o (.done .none)) ∨
    ∃ n ps ns' e labels2, path = n :: ps ∧ ns = ns' ++ [e] ∧
      Leads acc rootKids url o (.cont (popped ps ns' e ms labels2)) ∧ labels2.length = url.length ∧
      labels2.take ms.length = labels.take ms.length ∧
      (v ≠ .unknown → ms.length + 1 < url.length → labels2[ms.length]? = some v)

theorem Good.lead {o o' : Out} {path : List Node} {ns : List (Nat × Nat)} {ms : List MT} {v : MT}
    {labels labels' : List MT} {r : Res} (hl : labels.take ms.length = labels'.take ms.length) (h : Leads acc rootKids url o o')
    (g : Good acc rootKids url o' path ns ms v labels' r) : Good acc rootKids url o path ns ms v labels r := by
  cases r with
  | found p ls => simp only [Good] at g ⊢; rw [hl]; exact h.trans g
  | abort => exact h.trans g
  | panic => exact h.trans g
  | next => exact g
  | stop =>
    rcases g with ⟨h1, h2⟩ | ⟨n, ps, ns', e, l2, h1, h2, h3, h4, h5, h6⟩
    · exact .inl ⟨h1, h.trans h2⟩
    · exact .inr ⟨n, ps, ns', e, l2, h1, h2, h.trans h3, h4, by rw [h5, hl], h6⟩

theorem getElem?_ns (ns : List (Nat × Nat)) (e : Nat × Nat) (r : List (Nat × Nat)) : (ns ++ e :: r)[ns.length]? = some e := by
  simp

theorem set_mid {α : Type} (a : List α) (x y : α) (b : List α) : (a ++ x :: b).set a.length y = a ++ y :: b := by
  simp

theorem set_take {α : Type} (l : List α) (i : Nat) (x : α) : (l.set i x).take i = l.take i := by
  rw [List.take_set, List.set_eq_of_length_le]; simp [List.length_take]; omega

theorem take_succ_set {α : Type} (l : List α) (i : Nat) (x : α) (h : i < l.length) : (l.set i x).take (i + 1) = l.take i ++ [x] := by
  rw [List.take_add_one, set_take, List.getElem?_set_self h]; rfl

/-- Reading the labels of the state at the start of an iteration. -/
theorem mstep_stOf (path : List Node) (ns : List (Nat × Nat)) (ci x : Nat) (ms : List MT) (v : MT) (labels : List MT)
    (u : U) (hu : url[ms.length]? = some u) (hll : labels.length = url.length) :
    ∃ labels', mstep acc rootKids url (stOf path ns (ci, x) ms v labels) =
        atEnd url.length (stOf path ns (ci, x) ms v labels')
          (scan acc url (stOf path ns (ci, x) ms v labels') u ci ((kidsOf rootKids path).drop ci) ((kidsOf rootKids path).length % 65536 - ci)) ∧
      labels'.length = url.length ∧ labels'.take ms.length = labels.take ms.length ∧
      (v ≠ .unknown → labels'[ms.length]? = some v) := by
  have hm : ms.length < url.length := (List.getElem?_eq_some_iff.1 hu).1
  have hmt : (stOf path ns (ci, x) ms v labels).mtStack[ms.length]? = some v := by simp [stOf]
  have hnst : (stOf path ns (ci, x) ms v labels).nodeStack[ns.length]? = some (ci, x) := by simp [stOf]
  have hidx : (stOf path ns (ci, x) ms v labels).idx = ms.length := rfl
  have hdep : (stOf path ns (ci, x) ms v labels).depth = ns.length := rfl
  by_cases hv : v = .unknown
  · refine ⟨labels, ?_, hll, rfl, fun h => absurd hv h⟩
    subst hv
    unfold mstep
    rw [hidx, hu]
    simp only [hmt, hdep, hnst]
    rfl
  · refine ⟨labels.set ms.length v, ?_, by simp [hll], set_take _ _ _, fun _ => List.getElem?_set_self (by omega)⟩
    unfold mstep
    rw [hidx, hu]
    simp only [hmt, hdep, hnst]
    cases v <;> first | exact absurd rfl hv | rfl

theorem stOf_zero_mt (path : List Node) (ns : List (Nat × Nat)) (e : Nat × Nat) (ms : List MT) (labels : List MT)
    (he : e.2 = ms.length + 1) (hm : ms.length < 18) :
    popped path ns e ms labels = stOf path ns e (ms ++ [.unknown]) .unknown labels := by
  unfold popped stOf
  congr 1
  · simp [he]
  · have : 19 - ms.length = (18 - (ms.length + 1)) + 1 + 1 := by omega
    rw [this]
    simp [List.replicate_succ]

theorem stOf_back (path : List Node) (ns : List (Nat × Nat)) (e : Nat × Nat) (ms : List MT) (v : MT) (labels : List MT)
    (he : e.2 = ms.length) :
    popped path ns e (ms ++ [v]) labels = stOf path ns e ms v labels := by
  unfold popped stOf
  congr 1
  simp only [List.length_append, List.length_cons, List.length_nil, List.append_assoc, List.cons_append, List.nil_append]
  have : 19 - (ms.length + (0 + 1)) = 18 - ms.length := by omega
  rw [this]

/-- What `scan` does with a `**` child that is not a childless leaf. -/
def afterGreedy (s : MSt) (n : Node) (ci : Nat) : GRes → SRes
  | .panic => .ret .panic
  | .miss => .ret .none
  | .hit j labels =>
    .matched { path := n :: s.path, depth := s.depth + 1, idx := (j + 255) % 256,
               nodeStack := s.nodeStack.set s.depth (ci, j + 1),
               mtStack := s.mtStack.set j .multiple, labels := labels }

/-- The children explored below a node at depth `d`. -/
def below (acc : Segment → U → Option MT) (d : Nat) (kids : List Node) (vs : List U) : Res :=
  if d + 1 < 19 then tryC acc (d + 1) kids (kids.length % 65536) vs else .panic

/-- The four outcomes of matching one segment. -/
def byKind {α : Type} (o : Option MT) (pan unk mul : α) (f : MT → α) : α :=
  match o with
  | none => pan
  | some .unknown => unk
  | some .multiple => mul
  | some k => f k

theorem byKind_other {α : Type} {k : MT} (h1 : k ≠ .unknown) (h2 : k ≠ .multiple) (a b c : α) (f : MT → α) :
    byKind (some k) a b c f = f k := by
  cases k <;> first | exact absurd rfl h1 | exact absurd rfl h2 | rfl

/-- A `**` that ends a pattern and has no children, or another one. -/
def ifLeaf {α : Type} (kids : List Node) (pat : Option Pattern) (a : Pattern → α) (b : α) : α :=
  match kids, pat with
  | [], some p => a p
  | _, _ => b

theorem ifLeaf_no {α : Type} {kids : List Node} {pat : Option Pattern} (h : ¬ (kids = [] ∧ pat.isSome)) (a : Pattern → α) (b : α) :
    ifLeaf kids pat a b = b := by
  cases kids <;> cases pat <;> first | rfl | simp at h

/-- A segment other than `**` that accepts. -/
def ordinary (k : MT) (pat : Option Pattern) (us : List U) (r : Res) : Res :=
  match us with
  | [] =>
    match pat with
    | some p => .found p [k]
    | none => .stop
  | _ :: _ => r.up k

/-- The failure of a level under `**` moves on to the next position. -/
def Res.orStop (r s : Res) : Res :=
  match r with
  | .stop => s
  | r => r

theorem starLoop_true {any : U → Option Bool} {f : List U → Res} {u : U} {us : List U} (h : any u = some true) :
    starLoop any f (u :: us) = (f (u :: us)).orStop ((starLoop any f us).cons .multiple) := by
  simp only [starLoop, h]
  cases f (u :: us) <;> rfl

theorem tryN_cons (d : Nat) (mx : UInt8) (pr : Nat) (seg : Segment) (pat : Option Pattern) (kids : List Node) (u : U) (us : List U) :
    tryN acc d (.mk mx pr seg pat kids) (u :: us) =
      if mx.toNat < us.length + 1 then .next
      else byKind (acc seg u) .panic .next
        (ifLeaf kids pat (fun p => .found p (List.replicate (us.length + 1) .multiple))
          (starLoop (fun v => anyAcc acc v kids) (below acc d kids) (u :: us)))
        (fun k => ordinary k pat us (below acc d kids us)) := by
  by_cases hc : mx.toNat < us.length + 1
  · rw [if_pos hc]
    cases kids <;> cases pat <;> cases us <;> exact if_pos hc
  · rw [if_neg hc]
    cases kids <;> cases pat <;> cases us <;> refine (if_neg hc).trans ?_ <;>
      (cases acc seg u with
       | none => rfl
       | some k => cases k <;> rfl)

/-- What the loop over the children does at a node. -/
theorem scan_cons (s : MSt) (u : U) (ci : Nat) (mx : UInt8) (pr : Nat) (seg : Segment) (pat : Option Pattern)
    (kids ns : List Node) (b : Nat) :
    scan acc url s u ci (.mk mx pr seg pat kids :: ns) (b + 1) =
      if mx.toNat < url.length - s.idx then scan acc url s u (ci + 1) ns b
      else byKind (acc seg u) (.ret .panic) (scan acc url s u (ci + 1) ns b)
        (ifLeaf kids pat (fun p => .ret (.found p (fillMultiple s.idx s.labels)))
          (afterGreedy s (.mk mx pr seg pat kids) ci (greedyLoop acc kids s.idx (url.drop s.idx) s.labels)))
        (fun k =>
          if s.idx = url.length - 1 then
            match pat with
            | some p => .ret (.found p (s.labels.set s.idx k))
            | none => .unmatched (s.labels.set s.idx k)
          else
            .matched { path := .mk mx pr seg pat kids :: s.path, depth := s.depth + 1, idx := s.idx,
                       nodeStack := s.nodeStack.set s.depth (ci + 1, s.idx),
                       mtStack := s.mtStack, labels := s.labels.set s.idx k }) := by
  rw [scan]
  by_cases hc : (Node.mk mx pr seg pat kids).max.toNat < url.length - s.idx
  · rw [if_pos hc, if_pos (show mx.toNat < url.length - s.idx from hc)]
  · rw [if_neg hc, if_neg (show ¬ mx.toNat < url.length - s.idx from hc)]
    simp only [Node.seg, Node.kids, Node.pat]
    cases acc seg u with
    | none => rfl
    | some k =>
      cases k <;> try rfl
      cases kids <;> cases pat <;> first | rfl | (simp only [byKind, ifLeaf]; cases greedyLoop acc _ s.idx (List.drop s.idx url) s.labels <;> rfl)

/-- A level started in state `s` agrees with the recursive search. -/
def LevelGood (acc : Segment → U → Option MT) (rootKids : List Node) (url : List U) (L : List Node) : Prop :=
  ∀ (path : List Node) (ns : List (Nat × Nat)) (e : Nat × Nat) (ms : List MT) (v : MT) (labels : List MT) (ci : Nat) (u : U),
    ns.length = path.length → ns.length < 19 → url[ms.length]? = some u → labels.length = url.length →
    (v ≠ .unknown → labels[ms.length]? = some v) → (kidsOf rootKids path).drop ci = L →
    Good acc rootKids url
      (atEnd url.length (stOf path ns e ms v labels)
        (scan acc url (stOf path ns e ms v labels) u ci L ((kidsOf rootKids path).length % 65536 - ci)))
      path ns ms v labels
      (tryC acc ns.length L ((kidsOf rootKids path).length % 65536 - ci) (url.drop ms.length))

/-- Entering a level. -/
theorem LevelGood.enter {L : List Node} (h : LevelGood acc rootKids url L) (path : List Node) (ns : List (Nat × Nat))
    (ci x : Nat) (ms : List MT) (v : MT) (labels : List MT)
    (hp : ns.length = path.length) (hd : ns.length < 19) (hm : ms.length < url.length) (hl : labels.length = url.length)
    (hk : (kidsOf rootKids path).drop ci = L) :
    Good acc rootKids url (.cont (stOf path ns (ci, x) ms v labels)) path ns ms v labels
      (tryC acc ns.length L ((kidsOf rootKids path).length % 65536 - ci) (url.drop ms.length)) := by
  have hu : url[ms.length]? = some url[ms.length] := List.getElem?_eq_getElem hm
  obtain ⟨labels', h1, h2, h3, h4⟩ := mstep_stOf (acc := acc) (rootKids := rootKids) path ns ci x ms v labels _ hu hl
  have g := h path ns (ci, x) ms v labels' ci _ hp hd hu h2 h4 hk
  rw [← hk] at g ⊢
  rw [← h1] at g
  exact Good.lead h3.symm (.step (.refl _)) g

/-- The state in which the children of a node are entered. -/
def entered (path : List Node) (ns : List (Nat × Nat)) (ms : List MT) (v : MT) (labels : List MT) : MSt :=
  { path := path, depth := ns.length, idx := ms.length,
    nodeStack := ns ++ List.replicate (19 - ns.length) (0, 0),
    mtStack := ms ++ v :: List.replicate (18 - ms.length) .unknown, labels := labels }

theorem set_later (ms : List MT) (v : MT) (j : Nat) (h : ms.length ≤ j) (hj : j < 19) :
    ∃ ms2 : List MT, ms2.length = j ∧ (ms ++ v :: List.replicate (18 - ms.length) MT.unknown).set j .multiple =
      ms2 ++ .multiple :: List.replicate (18 - ms2.length) .unknown := by
  rcases Nat.lt_or_ge ms.length j with hlt | hge
  · obtain ⟨t, rfl⟩ : ∃ t, j = ms.length + 1 + t := ⟨j - (ms.length + 1), by omega⟩
    have hr : List.replicate (18 - ms.length) MT.unknown =
        List.replicate t .unknown ++ .unknown :: List.replicate (18 - (ms.length + 1 + t)) .unknown := by
      have : 18 - ms.length = t + ((18 - (ms.length + 1 + t)) + 1) := by omega
      rw [this, ← List.replicate_append_replicate, List.replicate_succ]
    have hlen : (ms ++ v :: List.replicate t MT.unknown).length = ms.length + 1 + t := by simp; omega
    refine ⟨ms ++ v :: List.replicate t .unknown, hlen, ?_⟩
    rw [hlen, hr]
    have := set_mid (ms ++ v :: List.replicate t MT.unknown) .unknown .multiple (List.replicate (18 - (ms.length + 1 + t)) MT.unknown)
    rw [hlen] at this
    simpa using this
  · have : j = ms.length := by omega
    subst this
    exact ⟨ms, rfl, set_mid _ _ _ _⟩

/-- Entering the children of a node, or panicking when the stack is full. -/
theorem enter_below {n : Node} (h : LevelGood acc rootKids url n.kids) (path : List Node) (ns : List (Nat × Nat))
    (ms : List MT) (v : MT) (labels : List MT)
    (hp : ns.length = path.length + 1) (hd : ns.length ≤ 19) (hm : ms.length < url.length) (hl : labels.length = url.length) :
    Good acc rootKids url (.cont (entered (n :: path) ns ms v labels)) (n :: path) ns ms v labels
      (below acc path.length n.kids (url.drop ms.length)) := by
  unfold below
  by_cases hlt : path.length + 1 < 19
  · rw [if_pos hlt]
    have := h.enter (n :: path) ns 0 0 ms v labels (by simpa using hp) (by omega) hm hl (by simp [kidsOf])
    have e : 19 - ns.length = (18 - ns.length) + 1 := by omega
    rw [← hp]
    simpa [kidsOf, stOf, entered, e, List.replicate_succ, ← hp] using this
  · rw [if_neg hlt]
    refine .step ?_
    have hu : url[ms.length]? = some url[ms.length] := List.getElem?_eq_getElem hm
    have e : 19 - ns.length = 0 := by omega
    unfold mstep
    simp only [entered, hu, e, List.replicate_zero, List.append_nil, List.getElem?_eq_none (Nat.le_refl ns.length)]
    exact .refl _

/-- The outcome `o` agrees with the result of the positions tried for a `**`. -/
def StarGood (acc : Segment → U → Option MT) (rootKids : List Node) (url : List U) (o : Out) (pre : List MT) : Res → Prop
  | .found p ls => Leads acc rootKids url o (.done (.found p (pre ++ ls)))
  | .abort => Leads acc rootKids url o (.done .none)
  | .panic => Leads acc rootKids url o (.done .panic)
  | _ => False

theorem StarGood.good {o : Out} {path : List Node} {ns : List (Nat × Nat)} {ms : List MT} {v : MT} {labels : List MT} {r : Res}
    (h : StarGood acc rootKids url o (labels.take ms.length) r) : Good acc rootKids url o path ns ms v labels r := by
  cases r <;> first | exact h | exact h.elim

theorem StarGood.cons {o o' : Out} {pre : List MT} {r : Res} (k : MT) (ho : Leads acc rootKids url o o')
    (h : StarGood acc rootKids url o' (pre ++ [k]) r) : StarGood acc rootKids url o pre (r.cons k) := by
  cases r with
  | found p ls => simp only [StarGood, Res.cons] at h ⊢; rw [List.append_assoc] at h; exact ho.trans h
  | abort => exact ho.trans h
  | panic => exact ho.trans h
  | stop => exact h
  | next => exact h

/-- The loop of a `**` child agrees with `starLoop`. -/
theorem greedy_good (hstar : ∀ s u v, acc s u = some .multiple → acc s v = some .multiple) (hurl : url.length ≤ 19)
    (mx : UInt8) (pr : Nat) (seg : Segment) (pat : Option Pattern) (kids : List Node)
    (hkids : LevelGood acc rootKids url kids) (hnl : ¬ (kids = [] ∧ pat.isSome))
    (path : List Node) (ns : List (Nat × Nat)) (ci : Nat) (rest : List Node)
    (hp : ns.length = path.length) (hd : ns.length < 19)
    (hk : (kidsOf rootKids path).drop ci = .mk mx pr seg pat kids :: rest)
    (hb : ci < (kidsOf rootKids path).length % 65536) (u0 : U) (hseg : acc seg u0 = some .multiple) :
    ∀ (us : List U) (e : Nat × Nat) (ms : List MT) (v : MT) (labels labels0 : List MT) (j : Nat),
      us = url.drop j → ms.length ≤ j → j ≤ url.length → labels.length = url.length →
      url.length - j ≤ mx.toNat →
      StarGood acc rootKids url (atEnd url.length (stOf path ns e ms v labels0)
          (afterGreedy (stOf path ns e ms v labels0) (.mk mx pr seg pat kids) ci (greedyLoop acc kids j us labels)))
        (labels.take j) (starLoop (fun w => anyAcc acc w kids) (below acc ns.length kids) us) := by
  intro us
  induction us with
  | nil =>
    intro e ms v labels labels0 j _ _ _ _ _
    exact .refl _
  | cons u us ih =>
    intro e ms v labels labels0 j hus hmj hj hl hmx
    have hjlt : j < url.length := by
      rcases Nat.lt_or_ge j url.length with h | h
      · exact h
      · rw [List.drop_eq_nil_of_le h] at hus; cases hus
    have hus' : us = url.drop (j + 1) := by
      rw [List.drop_eq_getElem_cons hjlt] at hus
      exact (List.cons.inj hus).2
    -- continuing at the next position
    have hnext : ∀ (lab : List MT), lab.length = url.length → lab.take (j + 1) = labels.take j ++ [.multiple] →
        ∀ (e' : Nat × Nat) (ms' : List MT) (v' : MT) (lab0 : List MT), ms'.length ≤ j + 1 → ∀ o,
        Leads acc rootKids url o (atEnd url.length (stOf path ns e' ms' v' lab0)
            (afterGreedy (stOf path ns e' ms' v' lab0) (.mk mx pr seg pat kids) ci (greedyLoop acc kids (j + 1) us lab))) →
        StarGood acc rootKids url o (labels.take j)
          ((starLoop (fun w => anyAcc acc w kids) (below acc ns.length kids) us).cons .multiple) := by
      intro lab hlab htake e' ms' v' lab0 hms' o ho
      have := ih e' ms' v' lab lab0 (j + 1) hus' hms' (by omega) hlab (by omega)
      rw [htake] at this
      exact this.cons _ ho
    have hset : (labels.set j .multiple).take (j + 1) = labels.take j ++ [.multiple] := take_succ_set _ _ _ (by omega)
    cases hany : anyAcc acc u kids with
    | none =>
      simp only [starLoop, greedyLoop, hany, afterGreedy, atEnd]
      exact .refl _
    | some t =>
      cases t with
      | false =>
        have hg : greedyLoop acc kids j (u :: us) labels = greedyLoop acc kids (j + 1) us (labels.set j .multiple) := by
          simp only [greedyLoop, hany]
        have hs : starLoop (fun w => anyAcc acc w kids) (below acc ns.length kids) (u :: us) =
            (starLoop (fun w => anyAcc acc w kids) (below acc ns.length kids) us).cons .multiple := by
          simp only [starLoop, hany]
        rw [hs, hg]
        exact hnext _ (by simp [hl]) hset e ms v labels0 (by omega) _ (.refl _)
      | true =>
        have hg : greedyLoop acc kids j (u :: us) labels = .hit j (labels.set j .multiple) := by
          simp only [greedyLoop, hany]
        rw [hg]
        -- the state in which the children are entered
        obtain ⟨ms2, rfl, hmt⟩ := set_later ms v j hmj (by omega)
        have hcont : atEnd url.length (stOf path ns e ms v labels0)
              (afterGreedy (stOf path ns e ms v labels0) (.mk mx pr seg pat kids) ci (.hit ms2.length (labels.set ms2.length .multiple))) =
            .cont (entered (.mk mx pr seg pat kids :: path) (ns ++ [(ci, ms2.length + 1)]) ms2 .multiple (labels.set ms2.length .multiple)) := by
          have hi1 : (ms2.length + 255) % 256 ≠ url.length - 1 := by omega
          have hi2 : ((ms2.length + 255) % 256 + 1) % 256 = ms2.length := by omega
          have hnst : (ns ++ e :: List.replicate (18 - ns.length) (0, 0)).set ns.length (ci, ms2.length + 1) =
              (ns ++ [(ci, ms2.length + 1)]) ++ List.replicate (19 - (ns ++ [(ci, ms2.length + 1)]).length) (0, 0) := by
            rw [set_mid]
            have : 19 - (ns ++ [(ci, ms2.length + 1)]).length = 18 - ns.length := by simp
            rw [this]; simp
          simp only [afterGreedy, atEnd, stOf, Node.pat, hmt, hnst, entered]
          cases pat with
          | none => simp [hi2]
          | some p => simp [hi1, hi2]
        rw [hcont, starLoop_true (any := fun w => anyAcc acc w kids) hany]
        have hgood := enter_below (n := .mk mx pr seg pat kids) (acc := acc) (rootKids := rootKids) hkids path
          (ns ++ [(ci, ms2.length + 1)]) ms2 .multiple
          (labels.set ms2.length .multiple) (by simp [hp]) (by simp; omega) (by omega) (by simp [hl])
        simp only [Node.kids] at hgood
        rw [← hus, ← hp] at hgood
        cases hbel : below acc ns.length kids (u :: us) with
        | found p ls =>
          rw [hbel] at hgood
          simp only [Good] at hgood
          rw [set_take] at hgood
          exact hgood
        | abort => rw [hbel] at hgood; exact hgood
        | panic => rw [hbel] at hgood; exact hgood
        | next => rw [hbel] at hgood; exact hgood.elim
        | stop =>
          rw [hbel] at hgood
          rcases hgood with ⟨h, _⟩ | ⟨n0, ps, ns', e2, lab2, h1, h2, h3, h4, h5, h6⟩
          · cases h
          · cases h1
            obtain ⟨h2a, h2b⟩ := List.append_inj' h2 rfl
            cases h2b
            subst h2a
            simp only [Res.orStop]
            by_cases hend : ms2.length + 1 < url.length
            · have hpop : popped path ns (ci, ms2.length + 1) ms2 lab2 = stOf path ns (ci, ms2.length + 1) (ms2 ++ [.unknown]) .unknown lab2 :=
                stOf_zero_mt _ _ _ _ _ rfl (by omega)
              rw [hpop] at h3
              have hu' : url[(ms2 ++ [MT.unknown]).length]? = some url[ms2.length + 1] := by
                simp only [List.length_append, List.length_cons, List.length_nil, Nat.zero_add]
                exact List.getElem?_eq_getElem hend
              obtain ⟨labels', g1, g2, g3, _⟩ := mstep_stOf (acc := acc) (rootKids := rootKids) path ns ci (ms2.length + 1) (ms2 ++ [.unknown]) .unknown
                lab2 _ hu' h4
              rw [hk] at g1
              obtain ⟨b, hb2⟩ : ∃ b, (kidsOf rootKids path).length % 65536 - ci = b + 1 := ⟨_, (Nat.succ_pred_eq_of_pos (by omega)).symm⟩
              have hidx : (stOf path ns (ci, ms2.length + 1) (ms2 ++ [MT.unknown]) .unknown labels').idx = ms2.length + 1 := by simp [stOf]
              rw [hb2, scan_cons, hidx, if_neg (by omega), hstar seg u0 _ hseg] at g1
              simp only [byKind] at g1
              rw [ifLeaf_no hnl, ← hus'] at g1
              have htake : labels'.take (ms2.length + 1) = labels.take ms2.length ++ [.multiple] := by
                simp only [List.length_append, List.length_cons, List.length_nil, Nat.zero_add] at g3
                rw [g3, List.take_add_one, h5, set_take, h6 (by simp) hend]
                rfl
              exact hnext labels' g2 htake (ci, ms2.length + 1) (ms2 ++ [.unknown]) .unknown labels' (by simp)
                _ (h3.trans (.step (by rw [g1]; exact .refl _)))
            · have hus0 : us = [] := by rw [hus', List.drop_eq_nil_of_le (by omega)]
              subst hus0
              simp only [starLoop, Res.cons]
              refine h3.trans (.step ?_)
              have : mstep acc rootKids url (popped path ns (ci, ms2.length + 1) ms2 lab2) = .done .none := by
                unfold mstep
                have : url[(popped path ns (ci, ms2.length + 1) ms2 lab2).idx]? = none := by
                  rw [List.getElem?_eq_none_iff]; simp [popped]; omega
                rw [this]
              rw [this]; exact .refl _

theorem sizeOf_kids (mx : UInt8) (pr : Nat) (seg : Segment) (pat : Option Pattern) (kids : List Node) (ns : List Node) :
    sizeOf kids < sizeOf (Node.mk mx pr seg pat kids :: ns) := by simp; omega

/-- The whole level. -/
theorem levelGood (hstar : ∀ s u v, acc s u = some .multiple → acc s v = some .multiple) (hurl : url.length ≤ 19) :
    ∀ (k : Nat) (L : List Node), sizeOf L ≤ k → LevelGood acc rootKids url L := by
  intro k
  induction k with
  | zero => intro L hL; cases L <;> simp at hL
  | succ k ih =>
    intro L hL path ns e ms v labels ci u hp hd hu hl hv hk
    have hm : ms.length < url.length := (List.getElem?_eq_some_iff.1 hu).1
    have hdrop : url.drop ms.length = u :: url.drop (ms.length + 1) := by
      rw [List.drop_eq_getElem_cons hm]
      congr 1
      exact (List.getElem?_eq_some_iff.1 hu).2
    -- no child matched
    have hpop : ∀ lab : List MT, lab.length = url.length → lab.take ms.length = labels.take ms.length →
        (v ≠ .unknown → ms.length + 1 < url.length → lab[ms.length]? = some v) →
        Good acc rootKids url (atEnd url.length (stOf path ns e ms v labels) (.unmatched lab)) path ns ms v labels .stop := by
      intro lab h1 h2 h3
      cases path with
      | nil => exact .inl ⟨rfl, .refl _⟩
      | cons n ps =>
        obtain ⟨ns', e', rfl⟩ : ∃ ns' e', ns = ns' ++ [e'] := by
          have : ns ≠ [] := by intro h; simp [h] at hp
          exact ⟨ns.dropLast, ns.getLast this, (List.dropLast_concat_getLast this).symm⟩
        refine .inr ⟨n, ps, ns', e', lab, rfl, rfl, ?_, h1, h2, h3⟩
        have : atEnd url.length (stOf (n :: ps) (ns' ++ [e']) e ms v labels) (.unmatched lab) = .cont (popped ps ns' e' ms lab) := by
          simp only [atEnd, stOf, popped]
          congr 1
          have hd' : (ns' ++ [e']).length - 1 = ns'.length := by simp
          have hns : (ns' ++ [e'] ++ e :: List.replicate (18 - (ns' ++ [e']).length) (0, 0)).set (ns' ++ [e']).length (0, 0) =
              ns' ++ e' :: List.replicate (18 - ns'.length) (0, 0) := by
            rw [set_mid]
            have : 18 - ns'.length = (18 - (ns' ++ [e']).length) + 1 := by simp at hd ⊢; omega
            rw [this, List.replicate_succ]; simp
          have hms : (ms ++ v :: List.replicate (18 - ms.length) MT.unknown).set ms.length .unknown = ms ++ List.replicate (19 - ms.length) .unknown := by
            rw [set_mid]
            have : 19 - ms.length = (18 - ms.length) + 1 := by omega
            rw [this, List.replicate_succ]
          rw [hns, hms, hd']
          simp
        rw [this]; exact .refl _
    have hnil : Good acc rootKids url (atEnd url.length (stOf path ns e ms v labels) (.unmatched labels)) path ns ms v labels .stop :=
      hpop labels hl rfl fun h _ => hv h
    match L, hk with
    | [], hk => simp only [scan, tryC]; exact hnil
    | .mk mx pr seg pat kids :: rest, hk =>
      generalize hbud : (kidsOf rootKids path).length % 65536 - ci = bud
      cases bud with
      | zero => simp only [scan, tryC]; exact hnil
      | succ b =>
        have hrest : (kidsOf rootKids path).drop (ci + 1) = rest := by
          rw [← List.drop_drop, hk]; rfl
        have hbud' : (kidsOf rootKids path).length % 65536 - (ci + 1) = b := by omega
        have hrestGood : LevelGood acc rootKids url rest := ih rest (by simp at hL; omega)
        have hkidsGood : LevelGood acc rootKids url kids := ih kids (by have := sizeOf_kids mx pr seg pat kids rest; omega)
        -- going on with the siblings in the same iteration
        have hskip : Good acc rootKids url (atEnd url.length (stOf path ns e ms v labels)
            (scan acc url (stOf path ns e ms v labels) u (ci + 1) rest b)) path ns ms v labels
            (tryC acc ns.length rest b (url.drop ms.length)) := by
          have := hrestGood path ns e ms v labels (ci + 1) u hp hd hu hl hv hrest
          rw [hbud'] at this
          exact this
        have hidx : (stOf path ns e ms v labels).idx = ms.length := rfl
        have hlab : (stOf path ns e ms v labels).labels = labels := rfl
        rw [scan_cons, tryC, hdrop, tryN_cons, ← hdrop, hidx, hlab]
        have hlen : (url.drop (ms.length + 1)).length + 1 = url.length - ms.length := by simp; omega
        rw [hlen]
        by_cases hmx : mx.toNat < url.length - ms.length
        · rw [if_pos hmx, if_pos hmx]; exact hskip
        · rw [if_neg hmx, if_neg hmx]
          cases hacc : acc seg u with
          | none => exact Leads.refl _
          | some kd =>
            by_cases hunk : kd = .unknown
            · subst hunk; exact hskip
            · by_cases hmul : kd = .multiple
              · subst hmul
                simp only [byKind]
                by_cases hleaf : kids = [] ∧ pat.isSome
                · obtain ⟨rfl, hsome⟩ := hleaf
                  obtain ⟨p, rfl⟩ := Option.isSome_iff_exists.1 hsome
                  simp only [ifLeaf, atEnd, Good, fillMultiple, hl]
                  exact Leads.refl _
                · rw [ifLeaf_no hleaf, ifLeaf_no hleaf]
                  have := greedy_good hstar hurl mx pr seg pat kids hkidsGood hleaf path ns ci rest hp hd hk (by omega) u hacc
                    (url.drop ms.length) e ms v labels labels ms.length rfl (Nat.le_refl _) (by omega) hl (by omega)
                  revert this
                  cases starLoop (fun v => anyAcc acc v kids) (below acc ns.length kids) (url.drop ms.length) <;>
                    intro h <;> first | exact h.elim | exact h.good
              · rw [byKind_other hunk hmul, byKind_other hunk hmul]
                by_cases hlast : ms.length = url.length - 1
                · have hnil' : url.drop (ms.length + 1) = [] := List.drop_eq_nil_of_le (by omega)
                  rw [if_pos hlast, hnil']
                  have hset : labels.set ms.length kd = labels.take ms.length ++ [kd] := by
                    rw [← take_succ_set _ _ _ (by omega), List.take_of_length_le]
                    simp; omega
                  cases pat with
                  | some p =>
                    simp only [ordinary, atEnd, Good, hset]
                    exact Leads.refl _
                  | none =>
                    simp only [ordinary]
                    exact hpop _ (by simp [hl]) (set_take _ _ _) fun _ h => by omega
                · rw [if_neg hlast]
                  have hcons : url.drop (ms.length + 1) = url[ms.length + 1] :: url.drop (ms.length + 1 + 1) :=
                    List.drop_eq_getElem_cons (by omega)
                  have hord : ordinary kd pat (url.drop (ms.length + 1)) (below acc ns.length kids (url.drop (ms.length + 1))) =
                      (below acc ns.length kids (url.drop (ms.length + 1))).up kd := by
                    rw [hcons]; rfl
                  rw [hord]
                  have hcont : atEnd url.length (stOf path ns e ms v labels)
                      (.matched { path := .mk mx pr seg pat kids :: (stOf path ns e ms v labels).path,
                                  depth := (stOf path ns e ms v labels).depth + 1, idx := ms.length,
                                  nodeStack := (stOf path ns e ms v labels).nodeStack.set (stOf path ns e ms v labels).depth (ci + 1, ms.length),
                                  mtStack := (stOf path ns e ms v labels).mtStack, labels := labels.set ms.length kd }) =
                      .cont (entered (.mk mx pr seg pat kids :: path) (ns ++ [(ci + 1, ms.length)]) (ms ++ [v]) .unknown (labels.set ms.length kd)) := by
                    have hi2 : (ms.length + 1) % 256 = ms.length + 1 := by omega
                    have hnst : (ns ++ e :: List.replicate (18 - ns.length) (0, 0)).set ns.length (ci + 1, ms.length) =
                        (ns ++ [(ci + 1, ms.length)]) ++ List.replicate (19 - (ns ++ [(ci + 1, ms.length)]).length) (0, 0) := by
                      rw [set_mid]
                      have : 19 - (ns ++ [(ci + 1, ms.length)]).length = 18 - ns.length := by simp
                      rw [this]; simp
                    have hmst : ms ++ v :: List.replicate (18 - ms.length) MT.unknown =
                        (ms ++ [v]) ++ .unknown :: List.replicate (18 - (ms ++ [v]).length) .unknown := by
                      have : 18 - ms.length = (18 - (ms ++ [v]).length) + 1 := by simp; omega
                      rw [this, List.replicate_succ]; simp
                    simp only [atEnd, stOf, Node.pat, hnst, hmst, entered]
                    cases pat with
                    | none => simp [hi2]
                    | some p => simp [hi2, hlast]
                  rw [hcont]
                  have hgood := enter_below (n := .mk mx pr seg pat kids) (acc := acc) (rootKids := rootKids) hkidsGood path
                    (ns ++ [(ci + 1, ms.length)]) (ms ++ [v]) .unknown
                    (labels.set ms.length kd) (by simp [hp]) (by simp; omega) (by simp; omega) (by simp [hl])
                  have hlen1 : (ms ++ [v]).length = ms.length + 1 := by simp
                  simp only [Node.kids, hlen1] at hgood
                  rw [← hp] at hgood
                  cases hbel : below acc ns.length kids (url.drop (ms.length + 1)) with
                  | found p ls =>
                    rw [hbel] at hgood
                    simp only [Good, hlen1] at hgood
                    rw [take_succ_set _ _ _ (by omega), List.append_assoc] at hgood
                    exact hgood
                  | abort => rw [hbel] at hgood; exact hgood
                  | panic => rw [hbel] at hgood; exact hgood
                  | next => rw [hbel] at hgood; exact hgood.elim
                  | stop =>
                    rw [hbel] at hgood
                    rcases hgood with ⟨h, _⟩ | ⟨n0, ps, ns', e2, lab2, h1, h2, h3, h4, h5, h6⟩
                    · cases h
                    · cases h1
                      obtain ⟨h2a, h2b⟩ := List.append_inj' h2 rfl
                      cases h2b
                      subst h2a
                      rw [stOf_back _ _ _ _ _ _ rfl] at h3
                      have hr := hrestGood.enter path ns (ci + 1) ms.length ms v lab2 hp hd hm h4 hrest
                      rw [hbud'] at hr
                      refine Good.lead ?_ h3 hr
                      rw [hlen1] at h5
                      have : (lab2.take (ms.length + 1)).take ms.length = ((labels.set ms.length kd).take (ms.length + 1)).take ms.length := by rw [h5]
                      rw [List.take_take, List.take_take, Nat.min_eq_left (by omega), set_take] at this
                      exact this.symm

/-- The result of the search as seen by the caller of `Match`. -/
def Res.toM : Res → MRes
  | .found p ls => .found p ls
  | .panic => .panic
  | _ => .none

/-- The main loop of `Match` ends and computes the recursive search. -/
theorem mrun_eq (hstar : ∀ s u v, acc s u = some .multiple → acc s v = some .multiple) (hurl : url.length ≤ 19) (hne : url ≠ []) :
    ∃ f, ∀ g, f ≤ g → mrun acc rootKids url g (mstart url.length) =
      some (tryC acc 0 rootKids (rootKids.length % 65536) url).toM := by
  have hlen : 0 < url.length := List.length_pos_iff.2 hne
  have h := (levelGood (acc := acc) (rootKids := rootKids) hstar hurl _ rootKids (Nat.le_refl _)).enter [] [] 0 0 [] .unknown
    (List.replicate url.length .unknown) rfl (by simp) hlen (by simp) rfl
  have hs : stOf [] [] (0, 0) [] .unknown (List.replicate url.length .unknown) = mstart url.length := rfl
  rw [hs] at h
  simp only [List.length_nil, List.drop_zero, kidsOf, Nat.sub_zero] at h
  revert h
  cases tryC acc 0 rootKids (rootKids.length % 65536) url with
  | found p ls => intro h; exact mrun_of_leads h
  | abort => intro h; exact mrun_of_leads h
  | panic => intro h; exact mrun_of_leads h
  | next => intro h; exact h.elim
  | stop =>
    intro h
    rcases h with ⟨_, h⟩ | ⟨_, _, _, _, _, h, _⟩
    · exact mrun_of_leads h
    · cases h

end Gofre.Path
