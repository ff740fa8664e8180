import Verif.Proofs.Tail

/-! # C82: static assets -/

namespace Gofre.Props
open Gofre.Path Gofre.Spec Gofre.Mux Gofre.Assets

/-- Name of a file below a directory: pieces that are neither empty nor dots. -/
def PlainName (name : List Str) : Prop := ∀ v ∈ name, v ≠ [] ∧ v ≠ b!"." ∧ v ≠ b!".." ∧ slash ∉ v

theorem cleanPush_plain {st : List Str} {v : Str} (hs : PlainName st) (hv : slash ∉ v) : PlainName (cleanPush st v) := by
  unfold cleanPush
  split
  · exact hs
  · rename_i h1
    split
    · exact fun u hu => hs u (List.mem_of_mem_tail hu)
    · rename_i h2
      intro u hu
      rcases List.mem_cons.1 hu with rfl | hu
      · exact ⟨fun h => h1 (.inl h), fun h => h1 (.inr h), h2, hv⟩
      · exact hs u hu

theorem splitOn_no_sep {sep : UInt8} : ∀ {s v : Str}, v ∈ splitOn sep s → sep ∉ v := by
  intro s
  induction s with
  | nil => intro v hv; simp [splitOn] at hv; simp [hv]
  | cons c s ih =>
    intro v hv
    rw [splitOn] at hv
    split at hv
    · rcases List.mem_cons.1 hv with rfl | hv
      · simp
      · exact ih hv
    · rename_i hc
      cases h : splitOn sep s with
      | nil => exact absurd h (splitOn_ne_nil _ _)
      | cons u us =>
        rw [h] at hv
        rcases List.mem_cons.1 hv with rfl | hv
        · have := ih (v := u) (by simp [h])
          simp only [List.mem_cons, not_or]
          exact ⟨fun e => hc e.symm, this⟩
        · exact ih (by simp [h, hv])

theorem cleanRooted_plain (p : Str) : PlainName (cleanRooted p) := by
  have key : ∀ (vs st : List Str), (∀ v ∈ vs, slash ∉ v) → PlainName st → PlainName (vs.foldl cleanPush st) := by
    intro vs
    induction vs with
    | nil => intro st _ h; exact h
    | cons v vs ih => intro st h1 h2; exact ih _ (fun u hu => h1 u (by simp [hu])) (cleanPush_plain h2 (h1 v (by simp)))
  intro v hv
  exact key (splitOn slash p) [] (fun v hv => splitOn_no_sep hv) (by intro v hv; cases hv) v (List.mem_reverse.1 hv)

/-- C82: whatever the request, the file system is never asked for a name that leaves the
directory of the assets. -/
theorem c82_inside (cfg mapping path raw : Str) (name : List Str) (h : serveAsset (assetsPrefix cfg mapping) path raw = .file name) :
    PlainName name := by
  unfold serveAsset at h
  split at h
  · cases h
  · simp only at h
    split at h
    · split at h
      · cases h
      · injection h with h; subst h; exact cleanRooted_plain _
    · split at h
      · cases h
      · injection h with h; subst h; exact cleanRooted_plain _

example : serveAsset (assetsPrefix b!"/" []) b!"/assets/../../etc/passwd" [] = .file [b!"etc", b!"passwd"] := by decide

theorem cleanRooted_name {vs : List Str} (h : PlainName vs) (hne : vs ≠ []) : cleanRooted (slash :: joinWith slash vs) = vs := by
  have key : ∀ (us st : List Str), PlainName us → us.foldl cleanPush st = us.reverse ++ st := by
    intro us
    induction us with
    | nil => intro st _; rfl
    | cons u us ih =>
      intro st hu
      obtain ⟨h1, h2, h3, _⟩ := hu u (by simp)
      rw [List.foldl_cons, ih _ fun w hw => hu w (by simp [hw])]
      simp [cleanPush, h1, h2, h3]
  unfold cleanRooted
  have hsp : splitOn slash (slash :: joinWith slash vs) = [] :: vs := by
    rw [splitOn, if_pos rfl, splitOn_joinWith hne fun v hv => (h v hv).2.2.2]
  rw [hsp, List.foldl_cons, show cleanPush [] [] = [] from rfl, key vs [] h]
  simp

/-- C82, the file: the path of the assets followed by a name is answered with the file of that
name; only `index.html` is answered by a redirection to its directory. -/
theorem c82_file (cfg mapping raw : Str) (name : List Str) (h : PlainName name) (hne : name ≠ [])
    (hraw : raw = [] ∨ assetsPrefix cfg mapping <+: raw) :
    serveAsset (assetsPrefix cfg mapping) (assetsPrefix cfg mapping ++ joinWith slash name) raw =
      if name.getLast? = some b!"index.html" then .redirect else .file name := by
  have hpos : 0 < (assetsPrefix cfg mapping).length := by unfold assetsPrefix; simp; omega
  have hpne : assetsPrefix cfg mapping ≠ [] := by intro h; rw [h] at hpos; simp at hpos
  generalize assetsPrefix cfg mapping = pre at *
  have hstrip : stripPrefix pre (pre ++ joinWith slash name) raw = some (joinWith slash name, trimPrefix pre raw) := by
    unfold stripPrefix
    rw [if_neg hpne]
    have h1 : trimPrefix pre (pre ++ joinWith slash name) = joinWith slash name := by
      unfold trimPrefix
      rw [if_pos (List.isPrefixOf_iff_prefix.2 (List.prefix_append _ _)), List.drop_left]
    simp only [h1]
    rw [if_pos]
    refine ⟨by simp; omega, ?_⟩
    rcases hraw with hraw | hraw
    · exact .inl hraw
    · right
      unfold trimPrefix
      rw [if_pos (List.isPrefixOf_iff_prefix.2 hraw), List.length_drop]
      have := hraw.length_le
      omega
  have hhead : ¬ (joinWith slash name).head? = some slash := by
    intro hh
    cases name with
    | nil => exact hne rfl
    | cons v vs =>
      obtain ⟨h1, _, _, h4⟩ := h v (by simp)
      cases v with
      | nil => exact h1 rfl
      | cons c v =>
        rw [joinWith_cons_cons] at hh
        simp at hh
        exact h4 (by simp [hh])
  unfold serveAsset
  simp only [hstrip]
  rw [if_neg hhead, cleanRooted_name h hne]
  have hsp : splitOn slash (slash :: joinWith slash name) = [] :: name := by
    rw [splitOn, if_pos rfl, splitOn_joinWith hne fun v hv => (h v hv).2.2.2]
  have hiff : b!"/index.html".isSuffixOf (slash :: joinWith slash name) = true ↔ name.getLast? = some b!"index.html" := by
    rw [List.isSuffixOf_iff_suffix]
    constructor
    · rintro ⟨t, ht⟩
      have h2 := splitOn_append_sep slash t b!"index.html"
      rw [show t ++ slash :: b!"index.html" = slash :: joinWith slash name from ht, hsp, splitOn_of_not_mem (s := b!"index.html") (by decide)] at h2
      have := congrArg List.getLast? h2
      rw [List.getLast?_concat] at this
      cases name with
      | nil => exact absurd rfl hne
      | cons v vs => simpa using this
    · intro hl
      obtain ⟨us, rfl⟩ := List.getLast?_eq_some_iff.1 hl
      cases us with
      | nil => exact ⟨[], rfl⟩
      | cons u us =>
        refine ⟨slash :: joinWith slash (u :: us), ?_⟩
        have e1 : splitOn slash (slash :: joinWith slash (u :: us) ++ b!"/index.html") = splitOn slash (slash :: joinWith slash ((u :: us) ++ [b!"index.html"])) := by
          rw [hsp]
          have := splitOn_append_sep slash (slash :: joinWith slash (u :: us)) b!"index.html"
          refine this.trans ?_
          rw [splitOn, if_pos rfl, splitOn_joinWith (by simp) fun v hv => (h v (by simp only [List.mem_append]; exact .inl hv)).2.2.2,
            splitOn_of_not_mem (s := b!"index.html") (by decide)]
          rfl
        rw [← joinWith_splitOn slash (slash :: joinWith slash (u :: us) ++ b!"/index.html"), e1, joinWith_splitOn]
  by_cases hl : name.getLast? = some b!"index.html"
  · rw [if_pos (hiff.2 hl), if_pos hl]
  · rw [if_neg (fun h => hl (hiff.1 h)), if_neg hl]

example : serveAsset (assetsPrefix b!"/app" b!"static") b!"/app/static/js/main.js" [] = .file [b!"js", b!"main.js"] := by decide

/-- The segment that stands for the rest of the path. -/
def restSeg : Segment := { val := b!"**", kind := .multiple }

/-- C82, the route: a GET for the path of the assets followed by a name is served by the route of
the assets, when that path consists of literal text, no other registered pattern describes the
request, and the conditions of C18 hold. -/
theorem c82_route_partial {x : Ext} {ci : Bool} (hl : FoldLaws x.eqFold)
    {ps : List Pattern} {m : Matcher} (hr : Registered x ci sortSiblings ps m) (hplain : ∀ p ∈ ps, ∀ s ∈ p.segments, Plain ci s)
    (hfew : ps.length < 65536) (hlong : ∀ p ∈ ps, (pieces p.raw).length < 256) (hstars : ∀ p ∈ ps, StarsLast p.segments)
    {cfg mapping : Str} {p : Pattern} {a : Nat} (hin : { p with attachment := a } ∈ ps)
    (hparse : parsePattern x ci (assetsPrefix cfg mapping ++ b!"**") = .ok p)
    (hlit : ∀ s ∈ p.segments.dropLast, s.kind = .literal ∧ s.val ≠ b!"..")
    {name : List Str} (hname : PlainName name) (hne : name ≠ []) (h19 : p.segments.length + name.length ≤ 20)
    {path : Str} (hpath : path = assetsPrefix cfg mapping ++ joinWith slash name)
    {buf : List USeg} (hb : buf.length = 19) (hlen : path.length ≤ 65535)
    (hfaith : Faithful ci ps (segmentsOf path))
    (hpre : ∀ p ∈ ps, ∀ k, 0 < k → k < p.segments.length → ¬ Describes x ci (p.segments.take k) (segmentsOf path))
    (honly : ∀ q ∈ ps, Describes x ci q.segments (segmentsOf path) → q = { p with attachment := a }) :
    ∃ f labels, ∀ g, f ≤ g → lookup x ci m path buf g = some (.found { p with attachment := a } labels) := by
  obtain ⟨R, hR⟩ : ∃ R, assetsPrefix cfg mapping = R ++ [slash] := ⟨_, rfl⟩
  have e1 : assetsPrefix cfg mapping ++ b!"**" = R ++ slash :: b!"**" := by rw [hR]; simp
  have e2 : path = R ++ slash :: joinWith slash name := by rw [hpath, hR]; simp
  have hraw : p.raw = assetsPrefix cfg mapping ++ b!"**" := parse_raw hparse
  have hlongp := hlong _ hin
  rw [show ({ p with attachment := a } : Pattern).raw = p.raw from rfl, hraw, e1] at hlongp
  rw [e1] at hparse
  obtain ⟨ls, hs, hk, hL, hpl, hpcs⟩ := tail_segments (seg := restSeg) hparse (by decide) (by decide) .multiple rfl hlongp hlit
  have hspn : splitOn slash (joinWith slash name) = name := splitOn_joinWith hne fun v hv => (hname v hv).2.2.2
  have hall : ∀ v ∈ ls.map (·.val) ++ name, v ≠ [] ∧ v ≠ b!".." := by
    intro v hv
    rcases List.mem_append.1 hv with hv | hv
    · exact hpl v hv
    · exact ⟨(hname v hv).1, (hname v hv).2.2.1⟩
  have hafter : afterSlash path = ls.map (·.val) ++ name := by rw [e2, afterSlash_append, hL, hspn]
  have hsegs : segmentsOf path = ls.map (·.val) ++ name := by rw [segmentsOf, hafter, normal_plain hall]
  have hfits : Fits path := by
    apply fits_of_count
    rw [hafter]
    refine Nat.le_trans List.countP_le_length ?_
    rw [hs] at h19
    simp at h19 ⊢
    omega
  have hd : Describes x ci p.segments (segmentsOf path) := by
    rw [hs, hsegs]
    clear hs hL hpl hall hafter hsegs hpcs
    induction ls with
    | nil => exact (describes_star rfl).2 ⟨name, [], by simp, fun _ => hne, describes_nil.2 rfl⟩
    | cons s ls ih =>
      have hks := hk s (by simp)
      exact (describes_one (by rw [hks]; decide)).2 ⟨s.val, _, rfl, by simp [Fit, hks], ih fun t ht => hk t (by simp [ht])⟩
  obtain ⟨f, q, labels, hq, hfound⟩ := c18_served_partial hl hr hplain hfew hlong hstars hb hlen hfits hfaith hpre hin hd
  have hdq := (c14_described_partial hl hr hplain hb hlen hfits (hfound f (Nat.le_refl _))).2
  have := honly q hq hdq
  subst this
  exact ⟨f, labels, hfound⟩

/-- The route of the assets beside another one, and a request for a file. -/
example : ∃ (pa pu : Pattern) (m : Matcher), Registered plainExt false sortSiblings [{ pu with attachment := 2 }, { pa with attachment := 1 }] m ∧
    parsePattern plainExt false (assetsPrefix b!"/app" [] ++ b!"**") = .ok pa ∧
    (∀ s ∈ pa.segments.dropLast, s.kind = .literal ∧ s.val ≠ b!"..") ∧ pa.segments.length + 2 ≤ 20 ∧
    lookup plainExt false m b!"/app/assets/js/main.js" freshBuf 20 =
      some (.found { pa with attachment := 1 } [.literal, .literal, .multiple, .multiple]) := by
  obtain ⟨pa, hpa⟩ : ∃ p : Pattern, p = patOf plainExt false (assetsPrefix b!"/app" [] ++ b!"**") 0 := ⟨_, rfl⟩
  obtain ⟨pu, hpu⟩ : ∃ p : Pattern, p = patOf plainExt false b!"/app/{page}" 0 := ⟨_, rfl⟩
  have key : checked plainExt false [(b!"/app/{page}", 2), (assetsPrefix b!"/app" [] ++ b!"**", 1)]
      (fun ps => ps == [{ pu with attachment := 2 }, { pa with attachment := 1 }]) = true := by
    rw [hpa, hpu]; decide +kernel
  obtain ⟨ps, m, h1, h2, h3⟩ := checked_spec key
  rw [beq_iff_eq] at h2
  subst h2
  refine ⟨pa, pu, m, h1, ?_, ?_, ?_, (h3 _ _ _).symm.trans ?_⟩
  · rw [hpa]; rfl
  · rw [hpa]; decide +kernel
  · rw [hpa]; decide +kernel
  · rw [hpa]; decide +kernel

/-- C82 fails at the start: with the context path `/app/`, or with a mapping path that starts
with a slash, the pattern of the assets is refused, and `NewMuxHandler` panics. -/
theorem c82_violated_start (x : Ext) (ci : Bool) :
    (∀ p, parsePattern x ci (assetsPrefix b!"/app/" [] ++ b!"**") ≠ .ok p) ∧
    (∀ p, parsePattern x ci (assetsPrefix b!"/" b!"/static" ++ b!"**") ≠ .ok p) := by
  constructor <;> intro p h <;> cases h

/-- C82 fails for requests the route serves but whose text does not start with the path of the
assets: two slashes, dots, or other letter case when matching ignores case.  They are answered
with 404 or with another file. -/
theorem c82_violated : ∃ p m, Registered plainExt true sortSiblings [p] m ∧ p.raw = assetsPrefix b!"/" [] ++ b!"**" ∧
    (∃ l, lookup plainExt true m b!"//assets/a.js" freshBuf 20 = some (.found p l)) ∧
    segmentsOf b!"//assets/a.js" = [b!"assets", b!"a.js"] ∧ serveAsset (assetsPrefix b!"/" []) b!"//assets/a.js" [] = .notFound ∧
    (∃ l, lookup plainExt true m b!"/Assets/a.js" freshBuf 20 = some (.found p l)) ∧
    serveAsset (assetsPrefix b!"/" []) b!"/Assets/a.js" [] = .notFound ∧
    (∃ l, lookup plainExt true m b!"/assets/x/../../assets/a.js" freshBuf 20 = some (.found p l)) ∧
    segmentsOf b!"/assets/x/../../assets/a.js" = [b!"assets", b!"a.js"] ∧
    serveAsset (assetsPrefix b!"/" []) b!"/assets/x/../../assets/a.js" [] = .file [b!"assets", b!"a.js"] := by
  obtain ⟨ps, m, h1, h2, h3⟩ := checked_spec (x := plainExt) (ci := true) (l := [(assetsPrefix b!"/" [] ++ b!"**", 1)])
    (f := fun ps => ps == [patOf plainExt true (assetsPrefix b!"/" [] ++ b!"**") 1]) (by decide +kernel)
  rw [beq_iff_eq] at h2
  subst h2
  exact ⟨_, m, h1, by decide +kernel, ⟨[.literal, .multiple], (h3 _ _ _).symm.trans (by decide +kernel)⟩, by decide +kernel, by decide +kernel,
    ⟨[.literal, .multiple], (h3 _ _ _).symm.trans (by decide +kernel)⟩, by decide +kernel,
    ⟨[.literal, .multiple], (h3 _ _ _).symm.trans (by decide +kernel)⟩, by decide +kernel, by decide +kernel⟩

theorem trim_shorter {pre s : Str} (h : pre ≠ []) : (trimPrefix pre s).length < s.length ↔ pre <+: s := by
  unfold trimPrefix
  have : 0 < pre.length := by cases pre with | nil => exact absurd rfl h | cons => simp
  by_cases hp : pre <+: s
  · rw [if_pos (List.isPrefixOf_iff_prefix.2 hp), List.length_drop]
    have := hp.length_le
    exact ⟨fun _ => hp, fun _ => by omega⟩
  · rw [if_neg fun h => hp (List.isPrefixOf_iff_prefix.1 h)]
    exact ⟨fun h => absurd h (by omega), fun h => absurd h hp⟩

/-- C82, which requests get no answer but 404 from the file server itself: those whose path does not start with the path of the assets, or
not in the way the client wrote it. -/
theorem c82_missed (cfg mapping path raw : Str) : serveAsset (assetsPrefix cfg mapping) path raw = .notFound ↔
    ¬ (assetsPrefix cfg mapping <+: path ∧ (raw = [] ∨ assetsPrefix cfg mapping <+: raw)) := by
  have hpne : assetsPrefix cfg mapping ≠ [] := by unfold assetsPrefix; simp
  generalize assetsPrefix cfg mapping = pre at *
  unfold serveAsset stripPrefix
  rw [if_neg hpne]
  simp only [trim_shorter hpne]
  by_cases h : pre <+: path ∧ (raw = [] ∨ pre <+: raw)
  · rw [if_pos h]
    simp only
    refine ⟨fun h' => absurd h' ?_, fun h' => absurd h h'⟩
    split <;> split <;> simp
  · rw [if_neg h]
    exact ⟨fun _ => h, fun _ => rfl⟩

example : ¬ (assetsPrefix b!"/" [] <+: b!"/news") ∧ assetsPrefix b!"/" [] <+: b!"/assets/a.js" := by decide

/-- C82 fails when the client writes a letter of the path of the assets as an escape: the path is the one of the file, the route serves it,
but the answer is 404. -/
theorem c82_violated_escaped : ∃ p m, Registered plainExt false sortSiblings [p] m ∧ p.raw = assetsPrefix b!"/" [] ++ b!"**" ∧
    (∃ l, lookup plainExt false m b!"/assets/a.js" freshBuf 20 = some (.found p l)) ∧
    serveAsset (assetsPrefix b!"/" []) b!"/assets/a.js" [] = .file [b!"a.js"] ∧ serveAsset (assetsPrefix b!"/" []) b!"/assets/a.js" b!"/%61ssets/a.js" = .notFound := by
  obtain ⟨ps, m, h1, h2, h3⟩ := checked_spec (x := plainExt) (ci := false) (l := [(assetsPrefix b!"/" [] ++ b!"**", 1)])
    (f := fun ps => ps == [patOf plainExt false (assetsPrefix b!"/" [] ++ b!"**") 1]) (by decide +kernel)
  rw [beq_iff_eq] at h2
  subst h2
  exact ⟨_, m, h1, by decide +kernel, ⟨[.literal, .multiple], (h3 _ _ _).symm.trans (by decide +kernel)⟩, by decide +kernel, by decide +kernel⟩

end Gofre.Props
