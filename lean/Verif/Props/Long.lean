import Verif.Props.Exact

/-! # C14, C15, C26: paths of more than 65535 bytes -/

namespace Gofre.Props
open Gofre.Path Gofre.Spec

/-- A text that is a segment of its own in a path. -/
structure Lone (v : Str) : Prop where
  ne : v ≠ []
  up : v ≠ b!".."
  flat : slash ∉ v

/-- A path that goes to `u`, with `t` where the offsets of `u` point when they are cut to 16 bits. -/
def disguised (t u : Str) : Str := (slash :: t) ++ slash :: (b!".." ++ slash :: (List.replicate (65532 - t.length) slash ++ u))

theorem split_slashes (u : Str) (hu : slash ∉ u) : ∀ n, splitOn slash (List.replicate n slash ++ u) = List.replicate n [] ++ [u]
  | 0 => by simpa using splitOn_of_not_mem hu
  | n + 1 => by
    rw [List.replicate_succ, List.cons_append, splitOn, if_pos rfl, split_slashes u hu n]
    rfl

theorem split_disguised {t u : Str} (ht : Lone t) (hu : Lone u) :
    splitOn slash (disguised t u) = [] :: t :: b!".." :: (List.replicate (65532 - t.length) [] ++ [u]) := by
  have h1 : disguised t u = [] ++ slash :: (t ++ slash :: (b!".." ++ slash :: (List.replicate (65532 - t.length) slash ++ u))) := by simp [disguised]
  rw [h1, splitOn_append (by simp), splitOn_append ht.flat, splitOn_append (by decide), split_slashes u hu.flat]

theorem after_disguised {t u : Str} (ht : Lone t) (hu : Lone u) :
    afterSlash (disguised t u) = t :: b!".." :: (List.replicate (65532 - t.length) [] ++ [u]) := by
  rw [afterSlash, split_disguised ht hu]; rfl

theorem push_lone {v : Str} (h : Lone v) (st : List Str) : push st v = v :: st := by rw [push, if_neg h.ne, if_neg h.up]

theorem push_up (st : List Str) : push st b!".." = st.tail := rfl

theorem pushAt_lone {v : Str} (h : Lone v) (k : Nat) (st : List (Nat × Str)) : pushAt st (k, v) = (k, v) :: st := by
  rw [pushAt, if_neg h.ne, if_neg h.up]

theorem pushAt_up (k : Nat) (st : List (Nat × Str)) : pushAt st (k, b!"..") = st.tail := rfl

/-- The piece is not empty. -/
def filled (v : Str) : Bool := !v.isEmpty

theorem push_blank (n : Nat) (st : List Str) : (List.replicate n []).foldl push st = st := by
  induction n with
  | zero => rfl
  | succ n ih => rw [List.replicate_succ, List.foldl_cons]; simpa [push] using ih

theorem segments_disguised {t u : Str} (ht : Lone t) (hu : Lone u) : segmentsOf (disguised t u) = [u] := by
  rw [segmentsOf, after_disguised ht hu, normal, List.foldl_cons, List.foldl_cons, List.foldl_append, push_lone ht, push_up, push_blank,
    List.foldl_cons, List.foldl_nil, push_lone hu]
  rfl

theorem normal_length_le (vs : List Str) : ∀ st : List Str, (vs.foldl push st).length ≤ st.length + (vs.filter filled).length := by
  induction vs with
  | nil => intro st; simp
  | cons v vs ih =>
    intro st
    rw [List.foldl_cons]
    refine Nat.le_trans (ih _) ?_
    by_cases h : v = []
    · simp [push, h, filled]
    · have : (push st v).length ≤ st.length + 1 := by
        unfold push
        rw [if_neg h]
        split
        · simp; omega
        · simp
      have hv : filled v = true := by simp [filled, h]
      rw [List.filter_cons, if_pos hv, List.length_cons]
      omega

theorem fits_disguised {t u : Str} (ht : Lone t) (hu : Lone u) : Fits (disguised t u) := by
  intro pre hpre
  rw [after_disguised ht hu] at hpre
  have h1 := normal_length_le pre []
  have h2 := (hpre.sublist.filter filled).length_le
  have h3 : ((t :: b!".." :: (List.replicate (65532 - t.length) [] ++ [u])).filter filled).length ≤ 3 := by
    have h0 : (List.replicate (65532 - t.length) ([] : Str)).filter filled = [] := by
      rw [List.filter_eq_nil_iff]
      intro v hv
      rw [List.eq_of_mem_replicate hv]
      decide
    have e1 : filled t = true := by simp [filled, ht.ne]
    have e2 : filled u = true := by simp [filled, hu.ne]
    rw [List.filter_cons, if_pos e1, List.filter_cons, if_pos (by decide), List.filter_append, h0, List.nil_append, List.filter_cons, if_pos e2]
    simp
  rw [normal, List.length_reverse]
  simp only [List.length_nil] at h1
  omega

theorem placed_blank (n k : Nat) (vs : List Str) : placed k (List.replicate n [] ++ vs) = ((List.range n).map fun i => (k + i, [])) ++ placed (k + n) vs := by
  induction n generalizing k with
  | zero => simp
  | succ n ih =>
    rw [List.replicate_succ, List.cons_append, placed, ih, List.range_succ_eq_map]
    simp only [List.map_cons, List.map_map, List.cons_append, List.length_nil, Nat.add_zero, List.cons.injEq, true_and]
    congr 1
    · apply List.map_congr_left
      intro i _
      simp; omega
    · congr 1; omega

theorem pushAt_blank {l : List (Nat × Str)} (h : ∀ p ∈ l, p.2 = []) (st : List (Nat × Str)) : l.foldl pushAt st = st := by
  induction l with
  | nil => rfl
  | cons p l ih =>
    rw [List.foldl_cons, pushAt, if_pos (h p (by simp))]
    exact ih fun q hq => h q (by simp [hq])

theorem at_disguised {t u : Str} (ht : Lone t) (hu : Lone u) (hlen : t.length ≤ 65532) : segmentsAt (disguised t u) = [(65537, u)] := by
  rw [segmentsAt, split_disguised ht hu, after_disguised ht hu]
  simp only [List.headD_cons, List.length_nil, placed, placed_blank, List.foldl_cons, List.foldl_append]
  rw [pushAt_lone ht, pushAt_up, pushAt_blank (l := List.map _ _) (by simp), pushAt_lone hu]
  simp
  omega

theorem at_plain {t : Str} (ht : Lone t) : segmentsAt (slash :: t) = [(1, t)] := by
  have : splitOn slash (slash :: t) = [[], t] := by
    rw [show slash :: t = [] ++ slash :: t from rfl, splitOn_append (by simp), splitOn_of_not_mem ht.flat]
  rw [segmentsAt, afterSlash, this]
  simp [placed, pushAt, ht.ne, ht.up]

theorem fits_plain {t : Str} (ht : Lone t) : Fits (slash :: t) := by
  have : splitOn slash (slash :: t) = [[], t] := by
    rw [show slash :: t = [] ++ slash :: t from rfl, splitOn_append (by simp), splitOn_of_not_mem ht.flat]
  intro pre hpre
  rw [afterSlash, this] at hpre
  have h1 := normal_length_le pre []
  have h2 := (hpre.sublist.filter filled).length_le
  have h3 := List.length_filter_le filled (List.drop 1 [[], t])
  rw [normal, List.length_reverse]
  simp only [List.length_nil, List.length_drop, List.length_cons] at h1 h3
  omega

/-- Both paths are split at the same places, where both have `t`. -/
theorem parse_disguised {t u : Str} (ht : Lone t) (hu : Lone u) (hl : t.length = u.length) (hlen : t.length ≤ 65532)
    {buf buf' : List USeg} (hb : buf.length = 19) (hb' : buf'.length = 19) :
    ∃ e, parseURLPath (disguised t u) buf = some [e] ∧ parseURLPath (slash :: t) buf' = some [e] ∧
      sliceU (disguised t u) e = some t ∧ sliceU (slash :: t) e = some t := by
  have h1 : recorded (65537, u) = recorded (1, t) := by
    simp only [recorded, ← hl, USeg.mk.injEq]
    constructor <;> apply UInt16.toNat_inj.1 <;> simp [UInt16.toNat_ofNat'] <;> omega
  have hs1 : (UInt16.ofNat 1).toNat = 1 := rfl
  have hs2 : (UInt16.ofNat (1 + t.length)).toNat = 1 + t.length := by rw [UInt16.toNat_ofNat', Nat.mod_eq_of_lt (by omega)]
  have hslice : ∀ r : Str, sliceU ((slash :: t) ++ r) (recorded (1, t)) = some t := by
    intro r
    unfold sliceU recorded
    simp only [UInt16.le_iff_toNat_le, hs1, hs2]
    rw [if_pos ⟨by omega, by simp; omega⟩]
    rw [List.take_append_of_le_length (by simp; omega), show 1 + t.length = (slash :: t).length by simp; omega, List.take_length]
    rfl
  refine ⟨recorded (1, t), ?_, ?_, hslice _, by simpa using hslice []⟩
  · rcases parse_at (disguised t u) buf hb with ⟨_, h⟩ | ⟨hf, _⟩
    · rw [h, at_disguised ht hu hlen, List.map_cons, List.map_nil, h1]
    · exact absurd (fits_disguised ht hu) hf
  · rcases parse_at (slash :: t) buf' hb' with ⟨_, h⟩ | ⟨hf, _⟩
    · rw [h, at_plain ht]; rfl
    · exact absurd (fits_plain ht) hf

/-- C14 fails for long paths, whatever is registered: a request for `/u` with a path of more than 65535 bytes is answered as `/t` is,
for every `t` of the length of `u`. -/
theorem c14_violated_long (x : Ext) (ci : Bool) (m : Matcher) {t u : Str} (ht : Lone t) (hu : Lone u) (hl : t.length = u.length) (hlen : t.length ≤ 65532)
    {buf buf' : List USeg} (hb : buf.length = 19) (hb' : buf'.length = 19) :
    segmentsOf (disguised t u) = [u] ∧
    ∃ f, ∀ g, f ≤ g → lookup x ci m (disguised t u) buf g = lookup x ci m (slash :: t) buf' g ∧ lookup x ci m (slash :: t) buf' g ≠ none := by
  refine ⟨segments_disguised ht hu, ?_⟩
  obtain ⟨e, h1, h2, h3, h4⟩ := parse_disguised ht hu hl hlen hb hb'
  obtain ⟨segs, k1, f, k2⟩ := lookup_any x ci m (disguised t u) buf hb
  obtain ⟨segs', k1', f', k2'⟩ := lookup_any x ci m (slash :: t) buf' hb'
  rw [h1] at k1
  rw [h2] at k1'
  cases k1
  cases k1'
  refine ⟨max f f', fun g hg => ?_⟩
  rw [k2 g (by omega), k2' g (by omega)]
  refine ⟨congrArg some (answer_congr m (.cons (fun s => ?_) .nil)), by simp⟩
  unfold matchUrl
  rw [h3, h4]

/-- … so handlers run for requests that their routes do not describe: in every router the same things happen for the two paths. -/
theorem c26_violated_long {x : Ext} {other : Str → Str} {r : Router} (behave : Nat → Behaviour) (method : Str) {t u : Str} (ht : Lone t) (hu : Lone u)
    (hl : t.length = u.length) (hlen : t.length ≤ 65532) {buf buf' : List USeg} (hb : buf.length = 19) (hb' : buf'.length = 19) :
    segmentsOf (disguised t u) = [u] ∧
    ∃ f, ∀ g, f ≤ g → serveHTTP x other r behave method (disguised t u) buf g = serveHTTP x other r behave method (slash :: t) buf' g ∧
      serveHTTP x other r behave method (slash :: t) buf' g ≠ none := by
  refine ⟨segments_disguised ht hu, ?_⟩
  simp only [serve_answer behave method _ hb, serve_answer behave method _ hb']
  cases hm : r.matchers (toUpper other method) with
  | none => exact ⟨0, fun _ _ => ⟨rfl, by simp⟩⟩
  | some m =>
    obtain ⟨-, f, hf⟩ := c14_violated_long x r.ci m ht hu hl hlen hb hb'
    refine ⟨f, fun g hg => ?_⟩
    obtain ⟨e1, e2⟩ := hf g hg
    simp only
    rw [e1]
    refine ⟨rfl, ?_⟩
    cases h : lookup x r.ci m (slash :: t) buf' g with
    | none => exact absurd h e2
    | some _ => simp

theorem nthVar_mem {U : Type} {k : Nat} {labels : List MT} {us : List U} {v : U} (h : nthVar k labels us = some v) : v ∈ us := by
  induction labels generalizing k us with
  | nil => simp [nthVar] at h
  | cons l ls ih =>
    cases us with
    | nil => simp [nthVar] at h
    | cons u us =>
      unfold nthVar at h
      split at h
      · split at h
        · cases h; simp
        · exact .tail _ (ih h)
      · exact .tail _ (ih h)

/-- … and a handler reads `t` where the request has `u`. -/
theorem c15_violated_long (p : Pattern) (labels : List MT) (name : Str) {t u : Str} (ht : Lone t) (hu : Lone u) (hl : t.length = u.length)
    (hlen : t.length ≤ 65532) {buf buf' : List USeg} (hb : buf.length = 19) (hb' : buf'.length = 19) :
    ∃ segs segs', parseURLPath (disguised t u) buf = some segs ∧ parseURLPath (slash :: t) buf' = some segs' ∧
      pathVarText (disguised t u) p labels segs name = pathVarText (slash :: t) p labels segs' name ∧
      (pathVarText (disguised t u) p labels segs name = some t ∨ pathVarText (disguised t u) p labels segs name = some []) := by
  obtain ⟨e, h1, h2, h3, h4⟩ := parse_disguised ht hu hl hlen hb hb'
  refine ⟨[e], [e], h1, h2, ?_⟩
  unfold pathVarText
  cases h : pathVar p labels [e] name with
  | none => exact ⟨rfl, .inr rfl⟩
  | some v =>
    have : v = e := by
      unfold pathVar at h
      split at h
      · cases h
      · split at h
        · cases h
        · simpa using nthVar_mem h
    subst this
    exact ⟨h3.trans h4.symm, .inl h3⟩

/-! ### Witnesses -/

theorem serve_fuel {x : Ext} {other : Str → Str} {r : Router} {behave : Nat → Behaviour} {method path : Str} {buf : List USeg} (hb : buf.length = 19)
    {f g : Nat} {evs : List Event} (h : serveHTTP x other r behave method path buf f = some evs) (hg : f ≤ g) :
    serveHTTP x other r behave method path buf g = some evs := by
  rw [serve_answer behave method path hb] at h ⊢
  cases hm : r.matchers (toUpper other method) with
  | none => rw [hm] at h; exact h
  | some m =>
    rw [hm] at h
    simp only [Option.map_eq_some_iff] at h ⊢
    obtain ⟨a, h1, h2⟩ := h
    refine ⟨a, ?_, h2⟩
    unfold lookup at h1 ⊢
    split
    · rename_i h0; rw [h0] at h1; exact h1
    · rename_i h0; rw [h0] at h1; exact matchM_fuel h1 hg

theorem lone_admin : Lone b!"admin" := ⟨by decide, by decide, by decide⟩
theorem lone_guest : Lone b!"guest" := ⟨by decide, by decide, by decide⟩

/-- A request for `/guest` runs the handler of `/admin`, and not that of `/guest`. -/
example : ∃ es r fuel, Built plainExt id sortSiblings false es r ∧ segmentsOf (disguised b!"admin" b!"guest") = [b!"guest"] ∧
    serveHTTP plainExt id r (fun _ => .responds false) b!"GET" b!"/guest" freshBuf fuel = some [.ran 8, .wrote 8] ∧
    serveHTTP plainExt id r (fun _ => .responds false) b!"GET" (disguised b!"admin" b!"guest") freshBuf fuel = some [.ran 7, .wrote 7] := by
  obtain ⟨r, h1, h2, h3⟩ : ∃ r, router0 [(b!"/admin", 7), (b!"/guest", 8)] = some r ∧
      serveHTTP plainExt id r (fun _ => .responds false) b!"GET" b!"/admin" freshBuf 20 = some [.ran 7, .wrote 7] ∧
      serveHTTP plainExt id r (fun _ => .responds false) b!"GET" b!"/guest" freshBuf 20 = some [.ran 8, .wrote 8] :=
    ⟨_, rfl, by decide +kernel, by decide +kernel⟩
  obtain ⟨k1, f, k2⟩ := c26_violated_long (x := plainExt) (other := id) (r := r) (fun _ => .responds false) b!"GET" lone_admin lone_guest rfl (by decide)
    (buf := freshBuf) (buf' := freshBuf) (by decide) (by decide)
  refine ⟨_, r, max f 20, router0_built h1, k1, serve_fuel (by decide) h3 (by omega), ?_⟩
  rw [(k2 _ (by omega)).1]
  exact serve_fuel (by decide) h2 (by omega)

/-- What one variable reads. -/
example : pathVarText b!"/admin" (patOf plainExt false b!"/{x}" 1) [.capture] [⟨1, 6⟩] b!"x" = some b!"admin" := by decide +kernel

/-! ### A crash -/

/-- The answer of the routes of the list to a segment whose recorded end lies before its beginning. -/
def reversed (l : List (Str × Nat)) : Option MRes :=
  match build plainExt false sortSiblings l with
  | none => none
  | some (_, m) => some (answer (matchUrl plainExt false []) m [⟨1, 0⟩])

/-- C26 fails: every request whose path is one segment of 65535 bytes crashes a router with a route of one constrained variable; it gets
neither 404 nor 500. -/
theorem c26_violated_crash : ∃ ps m, Registered plainExt false sortSiblings ps m ∧ ∀ v, Lone v → v.length = 65535 →
    ∀ buf : List USeg, buf.length = 19 → ∃ f, ∀ g, f ≤ g → lookup plainExt false m (slash :: v) buf g = some .panic := by
  have h : reversed [(b!"/{x:^a$}", 1)] = some .panic := by decide +kernel
  unfold reversed at h
  split at h
  · cases h
  · rename_i ps m hbuild
    refine ⟨ps, m, build_registered hbuild, fun v hv hl buf hb => ?_⟩
    obtain ⟨segs, h1, f, h2⟩ := lookup_any plainExt false m (slash :: v) buf hb
    have h3 : segs = [⟨1, 0⟩] := by
      rcases parse_at (slash :: v) buf hb with ⟨_, h⟩ | ⟨hf, _⟩
      · rw [h, at_plain hv, List.map_cons, List.map_nil, recorded, hl] at h1
        have e : UInt16.ofNat (1 + 65535) = 0 := UInt16.toNat_inj.1 (by rw [UInt16.toNat_ofNat']; decide)
        rw [← Option.some.inj h1]
        simp only [e]
        rfl
      · exact absurd (fits_plain hv) hf
    refine ⟨f, fun g hg => ?_⟩
    rw [h2 g hg, h3, ← h]
    refine congrArg some (answer_congr m (.cons (fun s => ?_) .nil))
    have hs : ∀ path : Str, sliceU path ⟨1, 0⟩ = none := fun path => by simp [sliceU]
    unfold matchUrl
    rw [hs, hs]

theorem lone_many (n : Nat) (h : 3 ≤ n) : Lone (List.replicate n 97) where
  ne := by intro e; have := congrArg List.length e; simp at this; omega
  up := by intro e; have := congrArg List.length e; simp at this; omega
  flat := fun e => by have := List.eq_of_mem_replicate e; revert this; decide

/-- Such a path. -/
example : Lone (List.replicate 65535 97) ∧ (List.replicate 65535 97 : Str).length = 65535 :=
  ⟨lone_many _ (by decide), List.length_replicate⟩

end Gofre.Props
