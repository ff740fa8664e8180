{
 "claims": [
  {
   "property": "C01",
   "status": "proved",
   "theorems": [
    "Gofre.Props.c01_accepts_only_described"
   ],
   "note": "Every wildcard segment, every request segment, both case modes: an accepted segment is described by the pattern."
  },
  {
   "property": "C02",
   "status": "partial",
   "theorems": [
    "Gofre.Props.c02_exact",
    "Gofre.Props.c02_violated",
    "Gofre.Props.c02_accepts_all_described_partial",
    "Gofre.Props.c02_trailing_star_partial"
   ],
   "note": "c02_violated: the code refuses described segments (a trailing '*' needs at least one byte). c02_exact says for every wildcard and text when a described text is refused: exactly when the wildcard ends in '*' and what stands before it describes the whole text but no proper beginning of it. The two _partial theorems give the accepted texts."
  },
  {
   "property": "C03",
   "status": "partial",
   "theorems": [
    "Gofre.Props.c03_violated",
    "Gofre.Props.c03_no_crash_partial",
    "Gofre.Props.c03_safe_patterns_partial",
    "Gofre.Props.c03_exact"
   ],
   "note": "c03_violated: '*.html' against 'index.' indexes out of range. c03_exact says for every pattern and text exactly when that happens; c03_no_crash_partial and c03_safe_patterns_partial are the classes of patterns and inputs that never crash."
  },
  {
   "property": "C04",
   "status": "proved",
   "theorems": [
    "Gofre.Props.c04_terminates",
    "Gofre.Props.c04_bound"
   ],
   "note": "Every run of the segment loop stops, with an explicit bound."
  },
  {
   "property": "C05",
   "status": "proved",
   "theorems": [
    "Gofre.Props.c05_accepts_iff",
    "Gofre.Props.c05_segments",
    "Gofre.Props.c05_no_panic"
   ],
   "note": "Accepted patterns are exactly `/` and the texts that spell segments; below 256 pieces the segments are the spelled ones; parsing never panics."
  },
  {
   "property": "C06",
   "status": "proved",
   "theorems": [
    "Gofre.Props.c06_classified",
    "Gofre.Props.c06_variables",
    "Gofre.Props.c06_unambiguous"
   ],
   "note": "Every segment is classified by the grammar."
  },
  {
   "property": "C07",
   "status": "partial",
   "theorems": [
    "Gofre.Props.c07_hangs_is_divergence",
    "Gofre.Props.c07_violated",
    "Gofre.Props.c07_terminates_partial",
    "Gofre.Props.c07_exact",
    "Gofre.Props.c07_single_partial"
   ],
   "note": "False: c07_violated gives a well-formed pattern of 17 pieces whose registration never returns. c07_exact says for every pattern of at most 19 pieces whether it returns: it does not exactly when the pattern is well formed and its ** stand in an endless shape. c07_terminates_partial: at most 16 pieces, or at most 6 **; c07_single_partial: at most one **, any length. c07_hangs_is_divergence: the outcome hangs of the model is a loop no number of iterations ends."
  },
  {
   "property": "C08",
   "status": "partial",
   "theorems": [
    "Gofre.Props.c08_priority_number",
    "Gofre.Props.c08_one_double_star_partial",
    "Gofre.Props.c08_violated",
    "Gofre.Props.c08_tail_number",
    "Gofre.Props.c08_tail_partial"
   ],
   "note": "Holds for patterns with at most one ** (c08_one_double_star_partial) and for patterns with several that end in **, the last one standing for all the spare segments (c08_tail_partial, c08_tail_number); fails with several when the last segment is not ** (c08_violated)."
  },
  {
   "property": "C09",
   "status": "partial",
   "theorems": [
    "Gofre.Props.c09_count_mod",
    "Gofre.Props.c09_violated",
    "Gofre.Props.c09_below_256_partial",
    "Gofre.Props.c09_exact"
   ],
   "note": "Fails at 256 pieces (uint8 counter wraps): c09_violated. Holds below 256 pieces. c09_exact: all segments are kept if and only if there are fewer than 256."
  },
  {
   "property": "C10",
   "status": "proved",
   "theorems": [
    "Gofre.Props.c10_normalised"
   ],
   "note": "The segments are the pieces after the first slash with empty pieces removed and `..` cancelling, for paths up to 65535 bytes that fit the limit."
  },
  {
   "property": "C11",
   "status": "proved",
   "theorems": [
    "Gofre.Props.c11_in_bounds",
    "Gofre.Props.c11_safe_values"
   ],
   "note": "At most 19 segments, none empty, `..` or containing a slash; the buffer is never indexed out of bounds."
  },
  {
   "property": "C12",
   "status": "partial",
   "theorems": [
    "Gofre.Props.c12_exact",
    "Gofre.Props.c12_violated",
    "Gofre.Props.c12_overlong_partial"
   ],
   "note": "Fails: an over-long path is treated like the empty path and answered by the handler of `/` (c12_violated). c12_exact: for every router and path of any length, an over-long path is answered exactly as `/` is. c12_overlong_partial: without a route `/` for the method, 404 and no handler."
  },
  {
   "property": "C13",
   "status": "partial",
   "theorems": [
    "Gofre.Props.c13_exact",
    "Gofre.Props.c13_violated",
    "Gofre.Props.c13_exact_partial"
   ],
   "note": "Fails for paths over 65535 bytes (c13_violated). c13_exact: for paths of any length the recorded offsets are the true ones modulo 65536, and the true ones exactly for segments ending within the first 65535 bytes."
  },
  {
   "property": "C14",
   "status": "partial",
   "theorems": [
    "Gofre.Props.c14_violated_long",
    "Gofre.Props.c14_violated",
    "Gofre.Props.c14_described_partial",
    "Gofre.Props.c14_overflow",
    "Gofre.Props.c14_stands",
    "Gofre.Props.c14_culprit",
    "Gofre.Props.c14_own_partial"
   ],
   "note": "Fails for a constraint whose expression is itself of the form {a:b} (c14_violated). For all patterns: the request is described once segments of the returned pattern are replaced by ones that stand for them (c14_stands), and c14_culprit names the segment at fault when the pattern does not describe the request. So it holds for every returned pattern that has no such constraint, whatever else is registered (c14_own_partial); in case-insensitive mode also for wildcards if all wildcard texts are ASCII (c14_described_partial). Paths up to 65535 bytes; overflowing paths of any length in c14_overflow. Fails for longer ones in every matcher: c14_violated_long, a request for /u is answered as /t is, for all texts t and u of one length."
  },
  {
   "property": "C15",
   "status": "partial",
   "theorems": [
    "Gofre.Props.c15_violated_long",
    "Gofre.Props.c15_variables_partial",
    "Gofre.Props.c15_stands",
    "Gofre.Props.c15_own_partial",
    "Gofre.Props.c15_violated",
    "Gofre.Props.c15_violated_constraint"
   ],
   "note": "c15_stands: the values for all patterns; c15_own_partial and c15_variables_partial under the conditions of C14. Fails for a pattern with 256 variables (c15_violated) and for a constraint that shares the node of another one (c15_violated_constraint). Also fails for paths of more than 65535 bytes: c15_violated_long, the handler reads t where the request has u."
  },
  {
   "property": "C16",
   "status": "proved",
   "theorems": [
    "Gofre.Props.c16_terminates"
   ],
   "note": "For any trie and any path; the refinement of the stack machine by a recursive search is in Proofs/SearchRefine."
  },
  {
   "property": "C17",
   "status": "partial",
   "theorems": [
    "Gofre.Props.c17_exact",
    "Gofre.Props.c17_violated",
    "Gofre.Props.c17_no_crash_partial",
    "Gofre.Props.c17_simple_partial"
   ],
   "note": "Fails for patterns with ** and 19 segments (c17_violated) and, through C03, for wildcards. Proved for any number of patterns when each has at most 18 segments, no **, or 19 segments ending with **, and wildcards are in the safe situation of C03. c17_exact: with one registered pattern, which requests crash (those of which its first 19 segments describe a beginning, the 19th not being **). c17_simple_partial: in applications of literals, variables without constraint, * and final **, no request of at most 65535 bytes crashes anything but the handler that runs, whatever its number of segments."
  },
  {
   "property": "C18",
   "status": "partial",
   "theorems": [
    "Gofre.Props.c18_violated",
    "Gofre.Props.c18_violated_stars",
    "Gofre.Props.c18_served_partial",
    "Gofre.Props.c18_single_all_partial",
    "Gofre.Props.c18_handled_partial",
    "Gofre.Props.c18_exact_partial",
    "Gofre.Props.c18_violated_many",
    "Gofre.Props.c18_simple_partial",
    "Gofre.Props.c18_stars_partial",
    "Gofre.Props.c18_single_partial",
    "Gofre.Props.c18_single_exact_partial"
   ],
   "note": "False: a pattern one of whose beginnings describes the request ends the search (c18_violated), and a `**` inside a pattern does too (c18_violated_stars). Proved when `**` only ends patterns (or, c18_stars_partial, stands anywhere provided the rest of its pattern describes an end of the request wherever it is reached; or, c18_single_partial, for one registered pattern), no proper beginning of a registered pattern describes the request, and wildcards are compared exactly (see C02/C03); up to 65535 registered patterns of fewer than 256 segments. c18_exact_partial drops the condition on beginnings: for patterns of at most 19 segments with `**` only at the end, when neither different wildcards nor constrained variables of different registrations compete for a segment of the request, the request goes unserved exactly when every pattern describing it is Hidden by the beginning of another. c18_single_all_partial: with one registered pattern, what becomes of every request, including those that crash. With 65536 patterns beside one another no request is served at all (c18_violated_many). At the router, for orderly patterns (the conditions of c18_exact_partial): c18_handled_partial. c18_simple_partial: outright for applications of literals, variables without constraint, * and final ** without traps, that is when each beginning of a pattern is registered too or competes with no route."
  },
  {
   "property": "C19",
   "status": "partial",
   "theorems": [
    "Gofre.Props.c19_violated",
    "Gofre.Props.c19_violated_wildcards",
    "Gofre.Props.c19_most_specific_partial",
    "Gofre.Props.c19_handled_partial",
    "Gofre.Props.c19_exact_partial",
    "Gofre.Props.c19_violated_long",
    "Gofre.Props.c19_simple_partial"
   ],
   "note": "False: c19_violated (a shared node keeps the search from the more specific pattern) and c19_violated_wildcards (order of competing wildcards). Proved under the conditions of C18 for patterns of at most 19 segments when different wildcards do not compete for a request segment. c19_exact_partial drops the condition on beginnings: the answer is the most specific of the describing patterns that are not Hidden (constrained variables of different registrations must not compete for a segment of the request). The siblings are sorted by Go's stable sort, written out in the model. The limit of 19 segments is needed: with a pattern of 20, /a/* is found where /a/{b} describes the request (c19_violated_long). At the router: c19_handled_partial. c19_simple_partial: among all describing routes, for applications as in c18_simple_partial."
  },
  {
   "property": "C20",
   "status": "partial",
   "theorems": [
    "Gofre.Props.c20_violated",
    "Gofre.Props.c20_order_partial",
    "Gofre.Props.c20_handled_partial",
    "Gofre.Props.c20_beginnings_partial",
    "Gofre.Props.c20_violated_long",
    "Gofre.Props.c20_violated_two_stars",
    "Gofre.Props.c20_simple_partial"
   ],
   "note": "False: c20_violated, three patterns in two orders. Proved under the conditions of C19 when constraints of different patterns do not compete either; c20_beginnings_partial drops the condition on beginnings of patterns. Also false, without wildcards and constraints, for one pattern of 20 pieces (c20_violated_long) or one with two ** (c20_violated_two_stars), because the priority of the former has 20 digits and that of the latter its added digits in the wrong place. At the router, for whatever handlers: c20_handled_partial. c20_simple_partial: for whole applications of literals, variables without constraint, * and final **, with conditions on the routes only (and, ignoring case, ASCII paths), for all paths of at most 65535 bytes, however many segments they have."
  },
  {
   "property": "C21",
   "status": "partial",
   "theorems": [
    "Gofre.Props.c21_violated",
    "Gofre.Props.c21_refused_partial",
    "Gofre.Props.c21_exact"
   ],
   "note": "False for patterns with a constraint (c21_violated). Proved for all patterns without constraints, against every registration history. c21_exact: a pattern without a constraint whose expression starts with a brace is refused if and only if it has no constraint at all and the same segments as a registered pattern."
  },
  {
   "property": "C22",
   "status": "partial",
   "theorems": [
    "Gofre.Props.c22_violated",
    "Gofre.Props.c22_duplicate_partial",
    "Gofre.Props.c22_stands"
   ],
   "note": "False: `/{x:{a:b}}` is refused after `/{a:b}` (c22_violated). Proved for all patterns without a constraint whose expression starts with a brace, with any bytes; in case-insensitive mode there is no exception (c22_duplicate_partial). c22_stands, for all patterns: a refused pattern stands with a registered one for the same segments, and each of its constraints has the whole text of a registered one as its expression."
  },
  {
   "property": "C23",
   "status": "partial",
   "theorems": [
    "Gofre.Props.c23_violated",
    "Gofre.Props.c23_still_served_partial",
    "Gofre.Props.c23_handled_partial",
    "Gofre.Props.c23_culprit_partial",
    "Gofre.Props.c23_violated_many",
    "Gofre.Props.c23_simple_partial"
   ],
   "note": "False: adding `/a/b` to `/{x}` makes `/a` unserved (c23_violated). Proved when the larger set of patterns meets the conditions of C18. c23_culprit_partial says exactly when a registration takes a request away: a proper beginning of the new pattern describes it, with the kinds of the old answer except the last, where it is more specific. Also false when the 65536th pattern is registered beside the others, be they literals: then no request is served any more (c23_violated_many). At the router, for orderly patterns: c23_handled_partial. c23_simple_partial: no request is taken away when the larger application is as in c18_simple_partial."
  },
  {
   "property": "C24",
   "status": "partial",
   "theorems": [
    "Gofre.Props.c24_violated",
    "Gofre.Props.c24_spelling_partial",
    "Gofre.Props.c24_exact"
   ],
   "note": "Fails when one spelling overflows 19 segments on the way (c24_violated), and only then, unless the answer happens to be that of `/` (c24_exact). Proved for paths that do not overflow. Paths up to 65535 bytes."
  },
  {
   "property": "C25",
   "status": "proved",
   "theorems": [
    "Gofre.Props.c25_isolated",
    "Gofre.Props.c25_case_insensitive"
   ],
   "note": "ASCII method names, as HTTP requires."
  },
  {
   "property": "C26",
   "status": "partial",
   "theorems": [
    "Gofre.Props.c26_violated",
    "Gofre.Props.c26_violated_nothing",
    "Gofre.Props.c26_violated_long",
    "Gofre.Props.c26_violated_crash",
    "Gofre.Props.c26_dispatch_partial",
    "Gofre.Props.c26_no_method",
    "Gofre.Props.c26_not_found_partial",
    "Gofre.Props.c26_simple_partial",
    "Gofre.Props.c26_stray",
    "Gofre.Props.c26_overlong",
    "Gofre.Props.c26_not_found_own_partial",
    "Gofre.Props.c26_violated_stray"
   ],
   "note": "Every request is answered by 404, one handler, or a crash of matching (C17) or of a handler returning no response (c26_dispatch_partial). Requests described by no route of the method run no handler under the hypotheses of C14 (c26_not_found_partial), or when no constraint of a route of the method starts with a brace and, ignoring case, there are no wildcards (c26_not_found_own_partial); c26_stray says for all routes which two segments are to blame when one runs nevertheless, as in c26_violated_stray, and c26_overlong which handler runs for paths of too many segments. c26_violated: a crash of matching is neither 404 nor 500; c26_violated_nothing: so is a handler that returns neither response nor error. c26_dispatch_partial and c26_no_method hold for paths of any length; beyond 65535 bytes every router may run the handler of another path (c26_violated_long), and matching may crash with one constrained variable (c26_violated_crash). c26_simple_partial: for applications of literals, variables without constraint, * and final ** every request is answered, by a describing route of the method or, when each such route is hidden (see C18), with 404; nothing but the handler crashes."
  },
  {
   "property": "C27",
   "status": "proved",
   "theorems": [
    "Gofre.Props.c27_same_answer",
    "Gofre.Props.c27_same_dispatch"
   ],
   "note": "For ASCII letters, every trie and router. Constraint expressions are assumed not to switch case-insensitivity off again ((?-i)); strings.EqualFold is assumed to be an equivalence that relates texts differing in the case of ASCII letters. Paths of any length."
  },
  {
   "property": "C28",
   "status": "proved",
   "theorems": [
    "Gofre.Props.c28_wrap_order",
    "Gofre.Props.c28_trace",
    "Gofre.Props.c28_registered"
   ],
   "note": "Arbitrary middlewares (functions on handlers) and the enter/leave trace. c28_registered: the same for the route a registration adds, after any sequence of calls on any number of routers."
  },
  {
   "property": "C29",
   "status": "partial",
   "theorems": [
    "Gofre.Props.c29_violated",
    "Gofre.Props.c29_common_scope_partial",
    "Gofre.Props.c29_routes_stable",
    "Gofre.Props.c29_isolated_partial",
    "Gofre.Props.c29_exact"
   ],
   "note": "c29_violated: RouteUsingPathPrefix with an empty prefix (or the parent's own prefix) returns the parent itself. Proved for every program in which sub-routers get a non-empty prefix different from their parent's; registrations are stable in every program. c29_exact: for every program, each route has exactly the common middlewares of its router, where such calls give the same router again."
  },
  {
   "property": "C30",
   "status": "partial",
   "theorems": [
    "Gofre.Props.c30_resolve_path",
    "Gofre.Props.c30_one_slash",
    "Gofre.Props.c30_violated",
    "Gofre.Props.c30_prefixes_partial",
    "Gofre.Props.c30_exact"
   ],
   "note": "c30_violated: a sub-router with the same prefix as its parent is not nested. The joint and associativity are proved without restriction, whole programs under the same restriction as C29. c30_exact: the path of every route of every program, with such calls leaving the prefix as it is."
  },
  {
   "property": "C31",
   "status": "proved",
   "theorems": [
    "Gofre.Props.c31_every_scope_has_levels",
    "Gofre.Props.c31_implies_iff"
   ],
   "note": "All scopes and access bit sets."
  },
  {
   "property": "C32",
   "status": "proved",
   "theorems": [
    "Gofre.Props.c32_refl",
    "Gofre.Props.c32_trans",
    "Gofre.Props.c32_mono"
   ],
   "note": "Reflexive, transitive, monotone in the access bits."
  },
  {
   "property": "C33",
   "status": "partial",
   "theorems": [
    "Gofre.Props.c33_violated",
    "Gofre.Props.c33_denied_wins_partial",
    "Gofre.Props.c33_single_access_partial",
    "Gofre.Props.c33_exact"
   ],
   "note": "c33_violated: a deny combined with other accesses does not win. c33_exact: exactly when a request is granted, for all roles and requests. c33_denied_wins_partial and c33_single_access_partial: requests all of whose accesses one denied permission has."
  },
  {
   "property": "C34",
   "status": "proved",
   "theorems": [
    "Gofre.Props.c34_user_has_permission_iff",
    "Gofre.Props.c34_groups_monotone",
    "Gofre.Props.c34_has_role_iff"
   ],
   "note": "Roles compared by name; every nesting of groups and roles."
  },
  {
   "property": "C35",
   "status": "proved",
   "theorems": [
    "Gofre.Props.c35_round_trip",
    "Gofre.Props.c35_parse_sound",
    "Gofre.Props.c35_new_iff",
    "Gofre.Props.c35_parse_exact"
   ],
   "note": "Printing and parsing exact on byte strings, 32-bit access as UInt32."
  },
  {
   "property": "C36",
   "status": "proved",
   "theorems": [
    "Gofre.Props.c36_all_permissions_iff"
   ],
   "note": "Every permission, exact characterisation."
  },
  {
   "property": "C37",
   "status": "proved",
   "theorems": [
    "Gofre.Props.c37_authorize_all",
    "Gofre.Props.c37_authorize_any",
    "Gofre.Props.c37_authorize_fixed",
    "Gofre.Props.c37_supplied_principal",
    "Gofre.Props.c37_supplier_fails"
   ],
   "note": "For every handler (state transformer), supplier, principal and request."
  },
  {
   "property": "C38",
   "status": "proved",
   "theorems": [
    "Gofre.Props.c38_contains_iff"
   ],
   "note": "Integer clock; overflow of time.Time.Add not modelled."
  },
  {
   "property": "C39",
   "status": "proved",
   "theorems": [
    "Gofre.Props.c39_unguarded_refused",
    "Gofre.Props.c39_guarded_accepted",
    "Gofre.Props.c39_safe_methods",
    "Gofre.Props.c39_no_randomness",
    "Gofre.Props.c39_default"
   ],
   "note": "In-memory cache; form field as visible in R.Form. c39_default says it for CSRFPrevention with its fixed names of header and field."
  },
  {
   "property": "C40",
   "status": "proved",
   "theorems": [
    "Gofre.Props.c40_single_use"
   ],
   "note": "Every sequence of requests, every nonce source (even repeating ones)."
  },
  {
   "property": "C41",
   "status": "partial",
   "theorems": [
    "Gofre.Props.c41_violated",
    "Gofre.Props.c41_no_reuse_after_removal_partial",
    "Gofre.Props.c41_violated_never"
   ],
   "note": "c41_violated: check and removal are separate calls, two overlapping requests both pass. Proved for every interleaving: a check after a removal needs a re-issue in between. c41_violated_never: it fails for every accepted nonce and any two requests carrying it."
  },
  {
   "property": "C42",
   "status": "proved",
   "theorems": [
    "Gofre.Props.c42_nonce_hex"
   ],
   "note": "Any number of random bytes, in particular 16."
  },
  {
   "property": "C43",
   "status": "proved",
   "theorems": [
    "Gofre.Props.c43_only_issued_states",
    "Gofre.Props.c43_unissued_refused"
   ],
   "note": "Provider calls are arbitrary functions of outside state; in-memory cache."
  },
  {
   "property": "C44",
   "status": "partial",
   "theorems": [
    "Gofre.Props.c44_violated",
    "Gofre.Props.c44_window_partial",
    "Gofre.Props.c44_violated_never"
   ],
   "note": "c44_violated: the state stays in the cache. Proved: acceptance is limited to the expiration window. c44_violated_never: no callback ever changes how a later one is answered."
  },
  {
   "property": "C45",
   "status": "partial",
   "theorems": [
    "Gofre.Props.c45_violated",
    "Gofre.Props.c45_token_exact",
    "Gofre.Props.c45_user_exact",
    "Gofre.Props.c45_token_from_reply"
   ],
   "note": "False: the unchecked type assertions panic on a 2xx answer without the fields (c45_violated). c45_token_exact and c45_user_exact tell exactly for which answers the two calls panic; a returned token always comes from a 2xx answer (c45_token_from_reply)."
  },
  {
   "property": "C46",
   "status": "partial",
   "theorems": [
    "Gofre.Props.c46_violated",
    "Gofre.Props.c46_github_partial",
    "Gofre.Props.c46_github_exact",
    "Gofre.Props.c46_google",
    "Gofre.Props.c46_state_in_url"
   ],
   "note": "c46_violated: GitHub without configured scopes sends no scope parameter. Proved for Google always and for GitHub with at least one configured scope, about the `scope` parameter a server reads from the address. c46_github_exact: for GitHub the profile scopes are asked for if and only if some scope is configured."
  },
  {
   "property": "C47",
   "status": "partial",
   "theorems": [
    "Gofre.Props.c47_violated",
    "Gofre.Props.c47_recovers_partial",
    "Gofre.Props.c47_exact"
   ],
   "note": "c47_violated: panic(nil) is turned into no response and no error. Every other panic is recovered. c47_exact: a panic becomes an error if and only if its value is not nil."
  },
  {
   "property": "C48",
   "status": "proved",
   "theorems": [
    "Gofre.Props.c48_err_response",
    "Gofre.Props.c48_total_with_recover"
   ],
   "note": "Kinds of errors as distinguished by the code; wrapped errors are 'other'."
  },
  {
   "property": "C49",
   "status": "proved",
   "theorems": [
    "Gofre.Props.c49_only_permitted",
    "Gofre.Props.c49_refused",
    "Gofre.Props.c49_permitted_served",
    "Gofre.Props.c49_malformed"
   ],
   "note": "strings.EqualFold and url.ParseRequestURI are parameters. Malformed origins, and cross-origin POSTs and preflights that do not say enough, are refused whatever is allowed (c49_malformed). Requests without Origin and same-origin requests are C70. What counts as white space around a header value and as a member of a list is said in Spec/Trim.lean from the Unicode list of white space, not through the model."
  },
  {
   "property": "C50",
   "status": "partial",
   "theorems": [
    "Gofre.Props.c50_violated",
    "Gofre.Props.c50_no_data_returned_partial",
    "Gofre.Props.c50_violated_never"
   ],
   "note": "c50_violated: the handler runs before the checks. Proved: a refused request gets nothing of the handler's answer. c50_violated_never: whatever the verdict, everything the handler does has been done."
  },
  {
   "property": "C51",
   "status": "partial",
   "theorems": [
    "Gofre.Props.c51_violated",
    "Gofre.Props.c51_partial",
    "Gofre.Props.c51_violated_never"
   ],
   "note": "c51_violated: both can be configured. Proved for configurations that do not enable both. c51_violated_never: with both enabled, every answered cross-origin request gets both headers."
  },
  {
   "property": "C52",
   "status": "proved",
   "theorems": [
    "Gofre.Props.c52_vary",
    "Gofre.Props.c52_only",
    "Gofre.Props.c52_star",
    "Gofre.Props.c52_answer",
    "Gofre.Props.c52_answer_only"
   ],
   "note": "Names without commas and surrounding space, which all callers pass. Lists and white space as in Spec/Trim.lean."
  },
  {
   "property": "C53",
   "status": "proved",
   "theorems": [
    "Gofre.Props.c53_read",
    "Gofre.Props.c53_nothing_exact",
    "Gofre.Props.c53_headers",
    "Gofre.Props.c53_handler_states"
   ],
   "note": "Any sequence of requests; the cached texts are part of the state. c53_read: what a browser reads in the HSTS value. c53_nothing_exact: a handler that returns neither response nor error makes the request panic exactly if a header is to be set."
  },
  {
   "property": "C54",
   "status": "partial",
   "theorems": [
    "Gofre.Props.c54_listed_partial",
    "Gofre.Props.c54_exact_partial",
    "Gofre.Props.c54_unmodified_partial",
    "Gofre.Props.c54_violated",
    "Gofre.Props.c54_violated_letter"
   ],
   "note": "False: Accept-Encoding: compress is answered in gzip (c54_violated), as is gz\u0130p (c54_violated_letter). Proved for ASCII headers that do not list compress, when the response sets no Content-Encoding itself; c54_exact_partial tells for every header, ASCII or not, which encoding the client gets. An encoding refused with ;q=0 is not considered listed by the code, which compares the whole element."
  },
  {
   "property": "C55",
   "status": "proved",
   "theorems": [
    "Gofre.Props.c55_levels",
    "Gofre.Props.c55_preserves",
    "Gofre.Props.c55_level",
    "Gofre.Props.c55_middleware"
   ],
   "note": "The constructor of the model returns none exactly where the Go code returns the error."
  },
  {
   "property": "C56",
   "status": "partial",
   "theorems": [
    "Gofre.Props.c56_violated_never",
    "Gofre.Props.c56_once",
    "Gofre.Props.c56_written_partial",
    "Gofre.Props.c56_status",
    "Gofre.Props.c56_invalid",
    "Gofre.Props.c56_violated",
    "Gofre.Props.c56_violated_info"
   ],
   "note": "False for the informational statuses 100 and 102-199, for every kind of response and whatever its body: net/http sends them as interim responses and a 200 follows (c56_violated_never; c56_violated and c56_violated_info are instances). Proved for 101 and 200-999, and 0 meaning 200, for every kind that writes the common header part, also around already open writers; any other status writes nothing (c56_invalid)."
  },
  {
   "property": "C57",
   "status": "partial",
   "theorems": [
    "Gofre.Props.c57_same_block_partial",
    "Gofre.Props.c57_violated",
    "Gofre.Props.c57_violated_spellings",
    "Gofre.Props.c57_exact"
   ],
   "note": "False when the map has two spellings of one header (c57_violated). Proved for maps with one spelling per header. c57_violated_spellings: each of the values under different spellings is sent under some iteration order. c57_exact: the block is independent of the iteration orders if and only if any two entries for one field are sent with the same value."
  },
  {
   "property": "C58",
   "status": "partial",
   "theorems": [
    "Gofre.Props.c58_unobservable_partial",
    "Gofre.Props.c58_new_partial",
    "Gofre.Props.c58_violated"
   ],
   "note": "False when the application constructs two responses with one map, though each is written once (c58_violated). Proved, for all interleavings and all behaviours of sync.Pool, for programs that pass each map to one response and do not touch a response after writing it; the same machine covers cookies. Steps on one object are atomic."
  },
  {
   "property": "C59",
   "status": "partial",
   "theorems": [
    "Gofre.Props.c59_headers_partial",
    "Gofre.Props.c59_cookies_partial",
    "Gofre.Props.c59_violated_redirect",
    "Gofre.Props.c59_violated_never",
    "Gofre.Props.c59_violated",
    "Gofre.Props.c59_violated_cookie"
   ],
   "note": "c59_violated_never: for every redirect, hijacked connection and event stream over another protocol than HTTP/2, however compressed, what is sent does not depend on the headers and cookies (c59_violated_redirect, c59_violated). c59_violated_cookie: a custom Set-Cookie header replaces the cookies. Proved for all kinds that write the common header part and for adaptors that leave the field alone, also under compression (except Accept-Encoding, which compression removes)."
  },
  {
   "property": "C60",
   "status": "proved",
   "theorems": [
    "Gofre.Props.c60_recovered"
   ],
   "note": "For every sequence of events, against an independent reader following the WHATWG event-stream rules."
  },
  {
   "property": "C61",
   "status": "proved",
   "theorems": [
    "Gofre.Props.c61_delivered",
    "Gofre.Props.c61_http1"
   ],
   "note": "The events received are a schedule: each comes with whether the request was cancelled before it is handled; the channel may close or stay silent at the end; each write may fail after any number of bytes."
  },
  {
   "property": "C62",
   "status": "partial",
   "theorems": [
    "Gofre.Props.c62_violated_never",
    "Gofre.Props.c62_violated",
    "Gofre.Props.c62_custom_partial"
   ],
   "note": "False for every event stream that does not set the header itself (c62_violated_never): the code sets it after the header block is sent. Proved when the application sets it."
  },
  {
   "property": "C63",
   "status": "partial",
   "theorems": [
    "Gofre.Props.c63_uncompressed_partial",
    "Gofre.Props.c63_violated_never",
    "Gofre.Props.c63_violated"
   ],
   "note": "False under compression, for every response (c63_violated_never): Flush of the compressing writer flushes the compressor only, never the connection. Proved without compression."
  },
  {
   "property": "C64",
   "status": "partial",
   "theorems": [
    "Gofre.Props.c64_last_partial",
    "Gofre.Props.c64_distinct",
    "Gofre.Props.c64_calls",
    "Gofre.Props.c64_violated",
    "Gofre.Props.c64_exact"
   ],
   "note": "False when paths and domains contain colons (c64_violated). Proved for all cookies whose name and domain contain none, which are all that net/http sends. c64_exact: a cookie is kept if and only if no later one has the same name:path:domain text."
  },
  {
   "property": "C65",
   "status": "partial",
   "theorems": [
    "Gofre.Props.c65_ascii_partial",
    "Gofre.Props.c65_empty",
    "Gofre.Props.c65_violated_never",
    "Gofre.Props.c65_violated"
   ],
   "note": "False for every message that begins with a non-ASCII character (c65_violated_never). Proved for the others."
  },
  {
   "property": "C66",
   "status": "proved",
   "theorems": [
    "Gofre.Props.c66_unobservable",
    "Gofre.Props.c66_exclusive",
    "Gofre.Props.c66_clean"
   ],
   "note": "For every interleaving of any number of requests and every behaviour of sync.Pool; handlers may end in any way, since the buffer is given back in a deferred function."
  },
  {
   "property": "C67",
   "status": "proved",
   "theorems": [
    "Gofre.Props.c67_state_alphabet",
    "Gofre.Props.c67_all_states"
   ],
   "note": "Any values drawn from the random source. c67_all_states: every such text can be drawn, and equally often."
  },
  {
   "property": "C68",
   "status": "partial",
   "theorems": [
    "Gofre.Props.c68_violated",
    "Gofre.Props.c68_parsed_form_partial",
    "Gofre.Props.c68_violated_never"
   ],
   "note": "c68_violated: nothing parses the form before the middleware reads R.Form. Proved once the form has been parsed by an earlier middleware. c68_violated_never: without a header and a parsed form, every such request is refused whatever it posts."
  },
  {
   "property": "C69",
   "status": "partial",
   "theorems": [
    "Gofre.Props.c69_violated",
    "Gofre.Props.c69_no_spare_capacity_partial",
    "Gofre.Props.c69_exact"
   ],
   "note": "c69_violated: append writes into spare capacity. Proved for slices without spare capacity; the configured scopes themselves never change. c69_exact: the array is left alone if and only if the added scopes do not fit or already stand there."
  },
  {
   "property": "C70",
   "status": "partial",
   "theorems": [
    "Gofre.Props.c70_violated",
    "Gofre.Props.c70_violated_never",
    "Gofre.Props.c70_default_port_partial",
    "Gofre.Props.c70_no_origin"
   ],
   "note": "c70_violated: with an explicit port, URL.Host contains the port and the comparison fails. c70_violated_never: every request whose target is only a path (the form browsers send) and whose Origin is not listed is refused, hence also one from the site's own origin. Proved for absolute-form requests without explicit port and for requests without Origin."
  },
  {
   "property": "C71",
   "status": "partial",
   "theorems": [
    "Gofre.Props.c71_violated",
    "Gofre.Props.c71_sent",
    "Gofre.Props.c71_explicit_value_partial",
    "Gofre.Props.c71_exact"
   ],
   "note": "c71_violated: the option itself is not read (except ALLOW-FROM), only XFrameOptionHeaderValue. Proved when that field spells the option. c71_exact: the right option is sent if and only if that field spells it."
  },
  {
   "property": "C72",
   "status": "partial",
   "theorems": [
    "Gofre.Props.c72_violated_any",
    "Gofre.Props.c72_exact",
    "Gofre.Props.c72_violated",
    "Gofre.Props.c72_one_partial"
   ],
   "note": "False: line breaks in the data forge a second event (c72_violated). Proved for fields without line breaks. c72_violated_any: the writer of the data can make the client read any event at all. c72_exact: an event with something in it is read as it was sent if and only if no field has a line break and the id no NUL."
  },
  {
   "property": "C73",
   "status": "partial",
   "theorems": [
    "Gofre.Props.c73_exact",
    "Gofre.Props.c73_violated",
    "Gofre.Props.c73_returns_partial"
   ],
   "note": "False: the loop only looks at the cancellation when the generator sends something, so a silent generator keeps it waiting (c73_violated). Proved when the channel is closed or delivers anything after the cancellation. c73_exact: over a connection that takes everything, the stream returns if and only if the channel is closed or delivers something after the cancellation."
  },
  {
   "property": "C74",
   "status": "partial",
   "theorems": [
    "Gofre.Props.c74_decodes_partial",
    "Gofre.Props.c74_violated",
    "Gofre.Props.c74_violated_custom",
    "Gofre.Props.c74_nested_partial",
    "Gofre.Props.c74_violated_never"
   ],
   "note": "False when compression is nested or the response has its own Content-Encoding (c74_violated, c74_violated_custom). Proved for one compression around any kind that writes the common header part, any lossless codec and level, on a connection that does not fail (c74_decodes_partial). For any number of nested compressions: one encoding is announced and the body has to be decoded as often as it was wrapped (c74_nested_partial), so with two or more a client that decodes as announced never gets the body, unless the body decodes to itself (c74_violated_never)."
  },
  {
   "property": "C75",
   "status": "partial",
   "theorems": [
    "Gofre.Props.c75_violated",
    "Gofre.Props.c75_uncompressed_partial",
    "Gofre.Props.c75_absent_partial",
    "Gofre.Props.c75_exact"
   ],
   "note": "False: a custom Content-Length is sent unchanged with the compressed body (c75_violated), so that it is right exactly when the compressor keeps the length (c75_exact). Proved when the response is not compressed (sent as it is) and when it has no such header (none is announced)."
  },
  {
   "property": "C76",
   "status": "partial",
   "theorems": [
    "Gofre.Props.c76_no_error_partial",
    "Gofre.Props.c76_violated_status",
    "Gofre.Props.c76_violated",
    "Gofre.Props.c76_exact"
   ],
   "note": "c76_violated, c76_violated_status: an unencodable payload or an invalid status is answered 200. Proved: over a connection that does not fail an error is returned exactly for a body under a status without one (c76_no_error_partial). c76_exact: the status sent is the one the response was given, failure or not, and 200 if that is no HTTP status (not covered: informational statuses)."
  },
  {
   "property": "C77",
   "status": "partial",
   "theorems": [
    "Gofre.Props.c77_violated_never",
    "Gofre.Props.c77_violated"
   ],
   "note": "False: writing a response empties the map (c77_violated_never), and a second response with it is sent without its headers (c77_violated)."
  },
  {
   "property": "C78",
   "status": "partial",
   "theorems": [
    "Gofre.Props.c78_readme_partial",
    "Gofre.Props.c78_violated_never",
    "Gofre.Props.c78_exact",
    "Gofre.Props.c78_violated"
   ],
   "note": "False for every request with exactly one segment below /users, in every order of registration (c78_violated_never: nobody answers, because /users/* is the beginning of /users/*/doe; c78_violated: /users/jane). Proved in any registration order for paths with at least two segments below /users (c78_readme_partial), which are exactly the ones answered as documented (c78_exact)."
  },
  {
   "property": "C79",
   "status": "partial",
   "theorems": [
    "Gofre.Props.c79_between",
    "Gofre.Props.c79_below_partial",
    "Gofre.Props.c79_violated_never",
    "Gofre.Props.c79_violated"
   ],
   "note": "`/users/**/doe` registered alone is proved exactly; `/users/**` never matches `/users` itself (c79_violated, c79_violated_never: every spelling of that path) and is proved exact otherwise."
  },
  {
   "property": "C80",
   "status": "partial",
   "theorems": [
    "Gofre.Props.c80_completes",
    "Gofre.Props.c80_redirect_served_partial",
    "Gofre.Props.c80_default_partial",
    "Gofre.Props.c80_violated",
    "Gofre.Props.c80_registered",
    "Gofre.Props.c80_initiate",
    "Gofre.Props.c80_lasts",
    "Gofre.Props.c80_installed",
    "Gofre.Props.c80_login_partial",
    "Gofre.Props.c80_behind_partial"
   ],
   "note": "The handlers' part is proved without restriction (c80_completes), the registration for every mux (c80_registered). c80_login_partial: in an application with any other routes, from the initiate request through any others to the callback, when only the two routes are for the two requests, no beginning of a pattern hides them and no middlewares stand around them. c80_behind_partial: the same with any middlewares around them, common or not, that hand responses on as they are (PanicRecover, ErrJsonResponse). As routes of an application: what the initiate handler answers and for how long its state is live (c80_initiate), and that the state stays live whatever other requests are served in between (c80_lasts). The route is proved to be reached below any prefix of literal text when the GET routes are those of HandleOAUTH2 (c80_default_partial), or when no other pattern describes the request (c80_redirect_served_partial). False below a prefix with a constrained variable, because the redirect URI carries the prefix's pattern text (c80_violated). c80_installed: which handlers and middlewares the two routes get."
  },
  {
   "property": "C81",
   "status": "partial",
   "theorems": [
    "Gofre.Props.c81_exact",
    "Gofre.Props.c81_violated_never",
    "Gofre.Props.c81_guarded_partial",
    "Gofre.Props.c81_violated",
    "Gofre.Props.c81_violated_assets"
   ],
   "note": "False for EnableDebugEndpoints (c81_violated; c81_violated_never: in every program) and for the static assets (c81_violated_assets), which bypass the common middlewares. c81_exact: every route of every program is wrapped, except these. c81_guarded_partial: programs without the two."
  },
  {
   "property": "C82",
   "status": "partial",
   "theorems": [
    "Gofre.Props.c82_inside",
    "Gofre.Props.c82_file",
    "Gofre.Props.c82_route_partial",
    "Gofre.Props.c82_violated_start",
    "Gofre.Props.c82_violated",
    "Gofre.Props.c82_missed",
    "Gofre.Props.c82_violated_escaped",
    "Gofre.Props.c82_registered"
   ],
   "note": "Never outside the directory (c82_inside), the right file for every name below the path (c82_file), the registration by NewMuxHandler (c82_registered), the route reached when no other pattern describes the request (c82_route_partial). False for context paths ending in a slash and mapping paths starting with one (c82_violated_start: NewMuxHandler panics) and for requests with double slashes, dots or other letter case (c82_violated). http.StripPrefix and http.FileServer are modelled up to the name asked for. Which requests the file server itself misses: c82_missed; one of them is a path of the assets with an escaped letter (c82_violated_escaped)."
  },
  {
   "property": "C83",
   "status": "partial",
   "theorems": [
    "Gofre.Props.c83_default_partial",
    "Gofre.Props.c83_exact",
    "Gofre.Props.c83_violated",
    "Gofre.Props.c83_violated_request"
   ],
   "note": "False: the context path is not used for routes (c83_violated, c83_violated_request). Holds for the default context path in every program (c83_default_partial). c83_exact: the routes of a program are below the context path exactly when it is the default or the program makes none; with any other not one of them is. Paths are those that start with a slash."
  },
  {
   "property": "C84",
   "status": "partial",
   "theorems": [
    "Gofre.Props.c84_results_partial",
    "Gofre.Props.c84_one_answer_partial",
    "Gofre.Props.c84_violated_panic",
    "Gofre.Props.c84_served_partial",
    "Gofre.Props.c84_violated",
    "Gofre.Props.c84_exact"
   ],
   "note": "One final answer for every response of every kind over every connection unless writing panics or blocks before the status line (c84_one_answer_partial), joined with routing (c84_served_partial) and with what handlers return (c84_results_partial). c84_exact: when no compression is asked for, exactly which responses leave the client without an answer (a redirect with a status out of range, an adapted handler that gives such a status first, a template without body after an interim status, an event stream that neither sends nor ends after an interim status). False when handling panics: a handler returning neither response nor error (c84_violated) or a redirect without a status (c84_violated_panic) leaves the client without an answer; see C17 for crashes in matching. Paths of any length."
  },
  {
   "property": "C85",
   "status": "partial",
   "theorems": [
    "Gofre.Props.c85_transparent",
    "Gofre.Props.c85_document_partial",
    "Gofre.Props.c85_exact",
    "Gofre.Props.c85_violated",
    "Gofre.Props.c85_violated_form",
    "Gofre.Props.c85_violated_error"
   ],
   "note": "Transparent for every handler (c85_transparent); for answered requests the document shows the request as received exactly when the handler leaves the two maps alone (c85_exact, c85_document_partial). False when the handler changes the request's header map (c85_violated: headers are marshalled after the handler), for forms not parsed yet (c85_violated_form), and for failing requests, which are not dumped at all (c85_violated_error). The JSON text and the two times are not modelled."
  },
  {
   "property": "C86",
   "status": "proved",
   "theorems": [
    "Gofre.Props.c86_sent",
    "Gofre.Props.c86_redirect",
    "Gofre.Props.c86_events",
    "Gofre.Props.c86_adapted"
   ],
   "note": "One specification case per public constructor (Spec.Builds), followed to what the connection gets (c86_sent); redirects, event streams over HTTP/2 and adapted handlers in their own theorems. The connection is one that does not fail; JSON texts and template outputs are arbitrary; the error message's first byte is ASCII (see C65 for others)."
  },
  {
   "property": "C87",
   "status": "partial",
   "theorems": [
    "Gofre.Props.c87_one_provider_partial",
    "Gofre.Props.c87_violated_never",
    "Gofre.Props.c87_violated"
   ],
   "note": "False with several providers: any state redeems at any of them (c87_violated_never, c87_violated). Proved for one configured provider."
  },
  {
   "property": "C88",
   "status": "partial",
   "theorems": [
    "Gofre.Props.c88_violated_never",
    "Gofre.Props.c88_violated",
    "Gofre.Props.c88_issued_partial"
   ],
   "note": "False for every configuration: nothing binds the state to the client (c88_violated_never, c88_violated). Proved: the state was issued to someone and is unexpired."
  },
  {
   "property": "C89",
   "status": "proved",
   "theorems": [
    "Gofre.Props.c89_json_error",
    "Gofre.Props.c89_routed"
   ],
   "note": "Up to the events on the connection, and through the router (c89_routed). JSON string quoting is a parameter."
  },
  {
   "property": "C90",
   "status": "partial",
   "theorems": [
    "Gofre.Props.c90_outermost_partial",
    "Gofre.Props.c90_violated_never",
    "Gofre.Props.c90_violated"
   ],
   "note": "False when ErrJsonResponse stands outside PanicRecover: the stack is the error message sent (c90_violated_never, c90_violated). Proved when PanicRecover is outermost."
  },
  {
   "property": "C91",
   "status": "partial",
   "theorems": [
    "Gofre.Props.c91_passes",
    "Gofre.Props.c91_decodes_partial",
    "Gofre.Props.c91_violated"
   ],
   "note": "False for levels out of range: every success becomes 500 after the handler ran (c91_violated). Proved for usable levels and responses of c74."
  },
  {
   "property": "C92",
   "status": "proved",
   "theorems": [
    "Gofre.Props.c92_text",
    "Gofre.Props.c92_github",
    "Gofre.Props.c92_google",
    "Gofre.Props.c92_printable",
    "Gofre.Props.c92_initiated"
   ],
   "note": "Query escaping and Values.Encode are modelled byte by byte and read back with a parser written from the URL standard. c92_text: the exact text of the query, as RFC 3986 and the form standard write it, with the names in alphabetical order."
  },
  {
   "property": "C93",
   "status": "partial",
   "theorems": [
    "Gofre.Props.c93_violated_never",
    "Gofre.Props.c93_github_partial",
    "Gofre.Props.c93_google_partial"
   ],
   "note": "c93_violated_never: GitHub's request never declares the form and names neither grant type nor redirect address. Proved: GitHub's body, read as a form anyway, has client, secret and code; Google's request has all parameters, as JSON."
  },
  {
   "property": "C94",
   "status": "proved",
   "theorems": [
    "Gofre.Props.c94_sent",
    "Gofre.Props.c94_endpoints"
   ],
   "note": "For handlers that send nothing themselves."
  },
  {
   "property": "C95",
   "status": "partial",
   "theorems": [
    "Gofre.Props.c95_alone_partial",
    "Gofre.Props.c95_alone_oauth_partial",
    "Gofre.Props.c95_violated_never",
    "Gofre.Props.c95_violated_reader",
    "Gofre.Props.c95_violated_oauth",
    "Gofre.Props.c95_serial_partial",
    "Gofre.Props.c95_readers_partial"
   ],
   "note": "c95_violated_*: two overlapping Adds, or an Add and a check, end the process (Go's map checks). Proved: without overlap no schedule crashes; callbacks alone never do; the calls of one request leave the map as the middleware and the OAuth2 handlers do (c95_alone_partial, c95_alone_oauth_partial). The flag is read and set in one step."
  },
  {
   "property": "C96",
   "status": "partial",
   "theorems": [
    "Gofre.Props.c96_violated_never",
    "Gofre.Props.c96_violated_csrf"
   ],
   "note": "c96_violated_never: an issued state is never removed; c96_violated_csrf: n safe requests leave n entries more, at whatever times."
  },
  {
   "property": "C97",
   "status": "partial",
   "theorems": [
    "Gofre.Props.c97_violated_never",
    "Gofre.Props.c97_violated"
   ],
   "note": "c97_violated_never: with math/rand's default source (seeded with a constant by Go 1.19, the version in go.mod) one guessing function is right for every process; c97_violated: a callback with a computed state is accepted."
  },
  {
   "property": "C98",
   "status": "partial",
   "theorems": [
    "Gofre.Props.c98_complete_partial",
    "Gofre.Props.c98_reported_partial",
    "Gofre.Props.c98_violated_never",
    "Gofre.Props.c98_violated",
    "Gofre.Props.c98_violated_adaptor",
    "Gofre.Props.c98_violated_compressed"
   ],
   "note": "Proved for every response without compression other than event streams, redirects, adapted handlers and hijacked connections. c98_violated_never: event streams never report a failing connection; c98_violated_adaptor: neither do adapted handlers; c98_violated_compressed: the error of closing the compressor is ignored."
  },
  {
   "property": "C99",
   "status": "proved",
   "theorems": [
    "Gofre.Props.c99_defaults",
    "Gofre.Props.c99_error",
    "Gofre.Props.c99_again"
   ],
   "note": "Template parsing is a parameter."
  },
  {
   "property": "C100",
   "status": "partial",
   "theorems": [
    "Gofre.Props.c100_violated_never",
    "Gofre.Props.c100_violated",
    "Gofre.Props.c100_copy_partial"
   ],
   "note": "c100_violated_never: the copy is shallow, changing its resources changes the mux's. Proved: settings outside the resources and the logger are independent."
  },
  {
   "property": "C101",
   "status": "partial",
   "theorems": [
    "Gofre.Props.c101_never_partial",
    "Gofre.Props.c101_violated",
    "Gofre.Props.c101_constrained_partial",
    "Gofre.Props.c101_served_partial",
    "Gofre.Props.c101_violated_long",
    "Gofre.Props.c101_violated_stars",
    "Gofre.Props.c101_violated_brace",
    "Gofre.Props.c101_text_partial"
   ],
   "note": "Paths of any length, among patterns of at most 19 pieces with at most one ** each: c101_never_partial for common beginnings without ** and constrained variables; c101_constrained_partial for common beginnings without ** from the first constrained variable on written alike (its name may differ), when no constraint starts with a brace. c101_text_partial is the same on pattern texts: base/{name} and base/* with base free of **. c101_served_partial: no request to a router runs the handler of base/*, whatever its method. Each condition is needed: c101_violated (a common beginning with **: with /**/*/a/** registered too, /**/* is executed although /**/{x} is registered), c101_violated_long (a route of 20 pieces), c101_violated_stars (a route with two **), c101_violated_brace (constraints that start with a brace)."
  },
  {
   "property": "C102",
   "status": "partial",
   "theorems": [
    "Gofre.Props.c102_redirect_partial",
    "Gofre.Props.c102_violated",
    "Gofre.Props.c102_told_partial",
    "Gofre.Props.c102_violated_never",
    "Gofre.Props.c102_violated_never_hijack",
    "Gofre.Props.c102_violated_sse"
   ],
   "note": "Proved for responses with a common header part, redirects with a status (which also send their location), and these compressed any number of times. Fails always for adapted handlers (0 is told) and for hijacking responses (0 is told, 200 is sent where the connection cannot be taken over), for redirects without a status (200 is told, writing panics) and event streams over HTTP/1 (500 is sent)."
  },
  {
   "property": "C103",
   "status": "partial",
   "theorems": [
    "Gofre.Props.c103_exact",
    "Gofre.Props.c103_documented_partial",
    "Gofre.Props.c103_violated",
    "Gofre.Props.c103_violated_never"
   ],
   "note": "Exactly what Implies decides is the documented meaning plus the scopes below that repeat the last level (c103_exact). False for every permission without a wildcard at the end (c103_violated_never): team/billing implies team/billing/billing. Holds for equal depth, for permissions ending in * and for requests ending otherwise (c103_documented_partial)."
  },
  {
   "property": "C104",
   "status": "partial",
   "theorems": [
    "Gofre.Props.c104_violated_never",
    "Gofre.Props.c104_violated",
    "Gofre.Props.c104_issued_partial"
   ],
   "note": "False always (c104_violated_never, c104_violated): the token anybody gets for a request of their own lets a forged request of somebody else through. Proved: the token was issued by this application to someone less than an hour ago (c104_issued_partial)."
  },
  {
   "property": "C105",
   "status": "partial",
   "theorems": [
    "Gofre.Props.c105_no_room",
    "Gofre.Props.c105_violated_never",
    "Gofre.Props.c105_violated_overflow",
    "Gofre.Props.c105_survives_partial",
    "Gofre.Props.c105_header",
    "Gofre.Props.c105_exact"
   ],
   "note": "False from every running state: Last-Event-Id: -1 indexes the ring with -1 in an unprotected goroutine (c105_violated_never). The largest number crashes it as well: the next number wraps around to the smallest one (c105_violated_overflow). Proved for all interleavings when no connection claims a negative number or one at the end of the range (c105_survives_partial). c105_exact: which header values end the process at the next look at the stream; c105_header: which headers count as numbers. c105_no_room: without any claim by a client the process ends by itself exactly if the ring has no place."
  },
  {
   "property": "C106",
   "status": "partial",
   "theorems": [
    "Gofre.Props.c106_alone_partial",
    "Gofre.Props.c106_violated_never",
    "Gofre.Props.c106_violated",
    "Gofre.Props.c106_violated_rewound"
   ],
   "note": "False for every connection that begins after more events than the ring holds (c106_violated_never; c106_violated: eleven seconds after the start event 11 comes, then event 2) and when another client reconnects (c106_violated_rewound). Proved for one connection that does not fall behind, for every interleaving with the producer."
  },
  {
   "property": "C107",
   "status": "partial",
   "theorems": [
    "Gofre.Props.c107_violated_never",
    "Gofre.Props.c107_violated",
    "Gofre.Props.c107_violated_lost",
    "Gofre.Props.c107_some_partial"
   ],
   "note": "False for every schedule: two connections are never both sent the first two events (c107_violated_never); events may also go to nobody (c107_violated_lost). Proved: uninterrupted calls hand out the next event to the one connection that asks (c107_some_partial)."
  },
  {
   "property": "C108",
   "status": "partial",
   "theorems": [
    "Gofre.Props.c108_continues_partial",
    "Gofre.Props.c108_next_partial",
    "Gofre.Props.c108_exact",
    "Gofre.Props.c108_violated",
    "Gofre.Props.c108_violated_muted"
   ],
   "note": "False when more events were missed than the ring holds (c108_violated) and for everybody else when a client claims a later event (c108_violated_muted). Proved otherwise for one reader, for every history and interleaving with the producer. c108_exact: an undisturbed client is sent some event it does not know, and the next one if and only if that is still in the ring."
  },
  {
   "property": "C109",
   "status": "partial",
   "theorems": [
    "Gofre.Props.c109_violated_never"
   ],
   "note": "Fails for every router without an OPTIONS route: middlewares belong to routes and methods, so the preflight gets a bare 404 (c109_violated_never). With an OPTIONS route behind Cors the answer is that of C110."
  },
  {
   "property": "C110",
   "status": "partial",
   "theorems": [
    "Gofre.Props.c110_granted",
    "Gofre.Props.c110_completes_partial",
    "Gofre.Props.c110_violated",
    "Gofre.Props.c110_violated_method",
    "Gofre.Props.c110_violated_never"
   ],
   "note": "c110_granted: exactly which configurations grant which wishes, for all spellings; c110_completes_partial: after a granted preflight the response may be read, except for a POST without a content type, which is refused under every configuration (c110_violated, c110_violated_never). c110_violated_method: the middleware accepts `patch` for `PATCH`, the browser does not. The browser is Spec/Browser.lean."
  },
  {
   "property": "C111",
   "status": "partial",
   "theorems": [
    "Gofre.Props.c111_exact",
    "Gofre.Props.c111_violated_never",
    "Gofre.Props.c111_shown_partial",
    "Gofre.Props.c111_violated",
    "Gofre.Props.c111_registered"
   ],
   "note": "False for the six profile endpoints below any prefix (c111_violated_never), because net/http/pprof reads the profile's name after `/debug/pprof/` of the request path, and for other spellings of the path (c111_violated). c111_exact says what each handler shows for every path; c111_shown_partial: without prefix, under the conditions of C18. c111_registered: the twelve routes. What pprof and expvar show is taken from their documentation."
  },
  {
   "property": "C112",
   "status": "partial",
   "theorems": [
    "Gofre.Props.c112_routes_partial",
    "Gofre.Props.c112_variables_partial",
    "Gofre.Props.c112_overlong",
    "Gofre.Props.c112_methods",
    "Gofre.Props.c112_violated",
    "Gofre.Props.c112_exact"
   ],
   "note": "Proved for paths of at most 65535 bytes with at most 19 segments at a time (see C12); c112_variables_partial gives the values of the variables. c112_overlong: every path with more segments, of any length, is answered by the start page, so the property fails there (c112_violated), and c112_exact says that up to 65535 bytes a path is answered as meant exactly when it has at most 19 segments at a time or is meant for the start page. The routes are those produced by running the registrations of main on the model of the mux; that the server starts is the example beside the theorem."
  },
  {
   "property": "C113",
   "status": "partial",
   "theorems": [
    "Gofre.Props.c113_exact",
    "Gofre.Props.c113_request_partial",
    "Gofre.Props.c113_violated"
   ],
   "note": "Proved for the middlewares and the handler for every value (c113_exact); c113_request_partial: the value is the last segment of the path, for paths of at most 65535 bytes with at most 19 segments at a time. c113_violated: a longer path leading to /security/authorize/8 is answered by the start page."
  },
  {
   "property": "C114",
   "status": "partial",
   "theorems": [
    "Gofre.Props.c114_failed",
    "Gofre.Props.c114_written",
    "Gofre.Props.c114_connected",
    "Gofre.Props.c114_violated",
    "Gofre.Props.c114_exact",
    "Gofre.Props.c114_ends_partial"
   ],
   "note": "The goroutine of the example server does not always end: c114_violated gives a schedule after which it waits for ever at the channel. c114_exact says in which states after the disconnection it can still end, c114_written bounds the events written. c114_ends_partial: under a fair scheduler the loop returns and the goroutine ends or is stuck for ever at the channel; one that also looks at the context there always ends. Model of two goroutines and a channel; that the generator keeps having ticks is not assumed. c114_failed: when a writing fails the loop returns and exactly that one of the passed events is not written."
  },
  {
   "property": "C115",
   "status": "partial",
   "theorems": [
    "Gofre.Props.c115_violated_cors",
    "Gofre.Props.c115_security_exact",
    "Gofre.Props.c115_exact",
    "Gofre.Props.c115_violated_never"
   ],
   "note": "False for every client that accepts gzip, deflate or compress: behind a compressing middleware the connection is never handed over and the client gets a 200 (c115_violated_never). c115_exact gives the exact condition. False behind Cors as well, where the request panics (c115_violated_cors), and behind SecurityHeaders exactly when it sets a header (c115_security_exact)."
  },
  {
   "property": "C116",
   "status": "partial",
   "theorems": [
    "Gofre.Props.c116_violated",
    "Gofre.Props.c116_pointer_first_partial",
    "Gofre.Props.c116_alone_partial",
    "Gofre.Props.c116_right_or_crash",
    "Gofre.Props.c116_exact",
    "Gofre.Props.c116_settled"
   ],
   "note": "The field is read and written without synchronisation. If the compiler stores the length of the string before the pointer, two first requests can crash the program (c116_violated). c116_pointer_first_partial: right for all interleavings when the pointer is stored first; c116_alone_partial: right for all compilations when requests do not overlap. Loads and stores are sequentially consistent in the model, which the Go memory model does not promise for racing accesses. c116_exact: some interleaving crashes exactly if lengths are stored first and the text is not empty; c116_right_or_crash: never a wrong text; c116_settled: once one request has got the text, no later one fails."
  },
  {
   "property": "C117",
   "status": "partial",
   "theorems": [
    "Gofre.Props.c117_text",
    "Gofre.Props.c117_decoded",
    "Gofre.Props.c117_values_partial",
    "Gofre.Props.c117_violated_never",
    "Gofre.Props.c117_violated"
   ],
   "note": "False for values that are empty, have a slash or are `..` (c117_violated; c117_violated_never: no request gives such a value). Proved for all other values, however the client escapes them (either case of hexadecimal digits, more escaped than needed). c117_decoded: which request paths are decoded, and to what. c117_text: the exact text of an escaped value."
  },
  {
   "property": "C118",
   "status": "proved",
   "theorems": [
    "Gofre.Props.c118_read",
    "Gofre.Props.c118_middlewares",
    "Gofre.Props.c118_wired",
    "Gofre.Props.c118_user"
   ],
   "note": "The context is modelled as the chain context.WithValue builds, keys with their Go types. c118_middlewares also justifies the record `Ctx` the middlewares are modelled with; c118_wired says of the two middlewares themselves that the next handler is called with exactly that extended context, or an error is returned. c118_user: the user of a login has no permission."
  },
  {
   "property": "C119",
   "status": "partial",
   "theorems": [
    "Gofre.Props.c119_order",
    "Gofre.Props.c119_specific_partial",
    "Gofre.Props.c119_violated",
    "Gofre.Props.c119_tail_partial"
   ],
   "note": "c119_order: a strict order on all patterns. c119_specific_partial: its meaning for patterns of at most 19 pieces with at most one **; c119_tail_partial: also for patterns with several ** that end in **; false with several otherwise (c119_violated)."
  },
  {
   "property": "C120",
   "status": "partial",
   "theorems": [
    "Gofre.Props.c120_exact",
    "Gofre.Props.c120_violated",
    "Gofre.Props.c120_violated_never",
    "Gofre.Props.c120_default_partial"
   ],
   "note": "c120_exact: for every configuration whose assets pattern has at most 19 pieces, NewMuxHandler returns an error exactly when the templates cannot be parsed, and panics exactly when they can and the assets pattern is not well formed. c120_violated: context path /app/, nil configuration. c120_violated_never: the constructor with template support never returns an error; it ends the process whenever the templates cannot be parsed. c120_default_partial: the default constructor always succeeds."
  },
  {
   "property": "C121",
   "status": "partial",
   "theorems": [
    "Gofre.Props.c121_violated_never",
    "Gofre.Props.c121_violated",
    "Gofre.Props.c121_declared_partial"
   ],
   "note": "False for every response whose headers do not themselves name Accept-Encoding in Vary (c121_violated_never; c121_violated a concrete answer): the compressing writer sets Content-Encoding only. c121_declared_partial: with such a Vary set by the application a cache gives the answer only to clients to whom the server would send the same."
  },
  {
   "property": "C122",
   "status": "partial",
   "theorems": [
    "Gofre.Props.c122_listed_partial",
    "Gofre.Props.c122_any_partial",
    "Gofre.Props.c122_violated"
   ],
   "note": "Proved at the middleware for GET and HEAD and handlers that answer both requests alike: with listed origins for a Vary in ASCII (c122_listed_partial), with any origin allowed for all (c122_any_partial). False when a handler spells the field vary: the order of the map decides which Vary is sent (c122_violated). Refusals (403) carry no Vary; they are not cacheable by default."
  },
  {
   "property": "C123",
   "status": "partial",
   "theorems": [
    "Gofre.Props.c123_exact",
    "Gofre.Props.c123_kept_partial",
    "Gofre.Props.c123_violated_never",
    "Gofre.Props.c123_violated",
    "Gofre.Props.c123_platforms"
   ],
   "note": "c123_exact: two sign-ins at one provider are those of one user exactly when the shown addresses are equal (the login or id standing in for a missing one). So it fails whenever the address is changed, shown or hidden (c123_violated_never) and when another account shows the address (c123_violated); it holds while the address stays (c123_kept_partial). Users of different platforms differ (c123_platforms)."
  },
  {
   "property": "C124",
   "status": "partial",
   "theorems": [
    "Gofre.Props.c124_violated_never",
    "Gofre.Props.c124_violated"
   ],
   "note": "Fails for every address: verified_email is not looked at (c124_violated_never, c124_violated)."
  },
  {
   "property": "C125",
   "status": "partial",
   "theorems": [
    "Gofre.Props.c125_violated_never",
    "Gofre.Props.c125_mirrored_partial"
   ],
   "note": "Fails for every router without routes for HEAD, and none of HandleGet, HandlePost, ... registers one (c125_violated_never: a bare 404 for every path). c125_mirrored_partial: when each route for GET is registered for HEAD as well the same handler runs with the same outcome."
  },
  {
   "property": "C126",
   "status": "partial",
   "theorems": [
    "Gofre.Props.c126_runs_partial",
    "Gofre.Props.c126_own_partial",
    "Gofre.Props.c126_served_partial",
    "Gofre.Props.c126_exact_partial",
    "Gofre.Props.c126_verb_partial",
    "Gofre.Props.c126_violated",
    "Gofre.Props.c126_overlong",
    "Gofre.Props.c126_violated_long",
    "Gofre.Props.c126_simple_partial"
   ],
   "note": "False: with /{x} and /a/b registered, GET /a is answered 404 (c126_violated; the reasons are those of C18). Proved: for all programs with patterns without nested braces, whatever runs is exactly the chain of a route that is for the request (c126_runs_partial); with any other patterns beside it this holds for each route whose own pattern has none (c126_own_partial). When ** stand last, wildcards are compared exactly and no proper beginning of a pattern describes the request, such a route runs whenever there is one, and otherwise the answer is 404 (c126_served_partial). c126_exact_partial drops the condition on beginnings (patterns of at most 19 segments, wildcards and constrained variables not competing): the most specific route for the request that is not Hidden runs, and the answer is 404 exactly when all are hidden. For one route registered with HandleGet, HandlePost, HandlePut, HandlePatch or HandleDelete the requests it serves are characterised exactly (c126_verb_partial). These are about paths of at most 65535 bytes and 19 pieces. Paths with more pieces, of any length: c126_overlong. Longer paths with few pieces: c126_violated_long, in every application a request for /u is answered as one for /t of the same length. c126_simple_partial: in full, for requests of at most 65535 bytes that fit, when the routes of the program are of literals, variables without constraint, * and final **, and each beginning of a pattern is registered too or competes with no route."
  },
  {
   "property": "C127",
   "status": "partial",
   "theorems": [
    "Gofre.Props.c127_exact",
    "Gofre.Props.c127_guarded_partial",
    "Gofre.Props.c127_violated"
   ],
   "note": "False for debug endpoints and assets, which are registered without the common middlewares: a client who is not signed in gets the command line of the process (c127_violated). c127_exact: these are the only exceptions, in every program, up to requests whose matching crashes (C17). c127_guarded_partial: programs without the two. Paths of any length."
  },
  {
   "property": "C128",
   "status": "proved",
   "theorems": [
    "Gofre.Props.c128_refused",
    "Gofre.Props.c128_verbs",
    "Gofre.Props.c128_accepted"
   ],
   "note": "Full: c128_refused, c128_verbs and c128_accepted hold for every program; crashes of matching are outcomes of their own. Requests are served one at a time (concurrent requests: C41). Paths of any length."
  },
  {
   "property": "C129",
   "status": "proved",
   "theorems": [
    "Gofre.Props.c129_spent",
    "Gofre.Props.c129_single_use"
   ],
   "note": "Full for requests served one after the other; for overlapping requests see C41. The nonce cache belongs to the middleware: that no other handler adds the nonce is a hypothesis (Stays). Paths of any length."
  },
  {
   "property": "C130",
   "status": "partial",
   "theorems": [
    "Gofre.Props.c130_exact",
    "Gofre.Props.c130_google_partial",
    "Gofre.Props.c130_violated_never",
    "Gofre.Props.c130_violated"
   ],
   "note": "Violated: GitHub's refresh token and lifetime are dropped always (c130_violated_never), and a token without scopes has the empty text as its only scope, at both providers (c130_violated). c130_exact says exactly for which replies the token is right; c130_google_partial is the part for Google and a proper list of scopes. Numbers of a reply are whole numbers in the model."
  },
  {
   "property": "C131",
   "status": "partial",
   "theorems": [
    "Gofre.Props.c131_callback",
    "Gofre.Props.c131_no_state",
    "Gofre.Props.c131_unissued",
    "Gofre.Props.c131_initiated_partial",
    "Gofre.Props.c131_violated"
   ],
   "note": "c131_callback: when the handler runs, exactly, and with what. c131_no_state and c131_unissued: without a live state, and without one that was issued, applications with different handlers cannot be told apart by any answer or later state. c131_initiated_partial: only requests served by the initiate route can have issued it, whatever other patterns there are. Missing: the last for paths of more than 65535 bytes, where it is false (c131_violated: a request for /guest begins a login), and for an initiate path that itself contains a constraint with a brace (or, ignoring case, a wildcard). The cache is not nil; requests are served one after the other."
  },
  {
   "property": "C132",
   "status": "partial",
   "theorems": [
    "Gofre.Props.c132_violated_never",
    "Gofre.Props.c132_violated"
   ],
   "note": "Fails always: c132_violated_never shows that nothing but the form values plays a part, c132_violated one client completing the login of another (login CSRF)."
  },
  {
   "property": "C133",
   "status": "proved",
   "theorems": [
    "Gofre.Props.c133_initiate",
    "Gofre.Props.c133_callback",
    "Gofre.Props.c133_installed"
   ],
   "note": "c133_installed is about the addresses, c133_initiate about the start and c133_callback about the callback, each for every list of clients; that requests for these addresses reach the handlers is C80."
  },
  {
   "property": "C134",
   "status": "partial",
   "theorems": [
    "Gofre.Props.c134_overlong",
    "Gofre.Props.c134_violated_long",
    "Gofre.Props.c134_prefix_partial",
    "Gofre.Props.c134_clone_partial"
   ],
   "note": "Both applications as written in the README, for paths of at most 65535 bytes that at no point have more than 19 pieces (c134_prefix_partial, c134_clone_partial); paths with more pieces get 404 whatever their length (c134_overlong). False for longer paths with few pieces: a GET request for /guest may run the handler of /users (c134_violated_long). That the application starts (load succeeds) is a hypothesis, since the library functions are parameters; it is checked for one choice of them in the examples."
  },
  {
   "property": "C135",
   "status": "partial",
   "theorems": [
    "Gofre.Props.c135_exact",
    "Gofre.Props.c135_positive_partial",
    "Gofre.Props.c135_violated",
    "Gofre.Props.c135_violated_never"
   ],
   "note": "False for zero: without the header browsers remember the answer for five seconds (c135_violated; c135_violated_never for every configuration with zero and every handler that leaves the header to the middleware). Proved for every positive number (c135_positive_partial); c135_exact tells all cases. Seconds below 2^63, which is what an int can hold. Browsers may cap the time."
  },
  {
   "property": "C136",
   "status": "proved",
   "theorems": [
    "Gofre.Props.c136_exact",
    "Gofre.Props.c136_own"
   ],
   "note": "The listed names are visible ASCII without commas. The browser's side is Spec/Expose.lean, from the Fetch standard."
  },
  {
   "property": "C137",
   "status": "partial",
   "theorems": [
    "Gofre.Props.c137_cors_partial",
    "Gofre.Props.c137_violated_never",
    "Gofre.Props.c137_security_partial"
   ],
   "note": "False for responses that take the connection over: Headers() is a nil map. Behind Cors they never come through, whatever the configuration (c137_violated_never); behind SecurityHeaders they panic exactly when a header is to be set (c115_security_exact). Proved for all other kinds, also compressed ones (c137_cors_partial, c137_security_partial)."
  },
  {
   "property": "C138",
   "status": "proved",
   "theorems": [
    "Gofre.Props.c138_iterations",
    "Gofre.Props.c138_plain",
    "Gofre.Props.c138_calls"
   ],
   "note": "c138_iterations bounds the rounds of the main loop by 40 per registered segment and 2, c138_plain by 2 per segment and 2 without **, c138_calls the calls of matchUrlPathSegment by 20 per registered segment in each round (the counted search of Model/Cost.lean is shown to give the same answers). The cost of one comparison is C04's c04_bound for wildcard segments; regular expressions are outside the model."
  },
  {
   "property": "C139",
   "status": "partial",
   "theorems": [
    "Gofre.Props.c139_only_partial",
    "Gofre.Props.c139_exactly_partial",
    "Gofre.Props.c139_open_partial",
    "Gofre.Props.c139_violated_never",
    "Gofre.Props.c139_violated",
    "Gofre.Props.c139_violated_other_letter",
    "Gofre.Props.c139_violated_case"
   ],
   "note": "Fails: c139_violated_never (a pattern without * refuses every text with a character of several bytes at the place of a ?), c139_violated (caf?? accepts caf\u00e9), c139_violated_other_letter (case-insensitively \u00e3* accepts a text that begins with another letter), c139_violated_case (\u00c9* refuses \u00e9s). Proved where ? meets ASCII only and case-insensitive patterns are ASCII: c139_only_partial, c139_exactly_partial (patterns not ending in *), c139_open_partial (patterns ending in *, which need one more character, see C02)."
  },
  {
   "property": "C140",
   "status": "partial",
   "theorems": [
    "Gofre.Props.c140_exact",
    "Gofre.Props.c140_read_partial",
    "Gofre.Props.c140_violated"
   ],
   "note": "False: a pattern may use one name twice, and the later variable cannot be read (c140_violated). c140_exact says what PathVar gives for every name: the text under the first variable of the name. c140_read_partial: patterns whose variables have different names. For patterns of fewer than 256 pieces (C15 fails beyond) and paths of at most 65535 bytes and 19 segments at a time (C12, C13); the texts are those under the segments standing for the pattern's own (C14)."
  },
  {
   "property": "C141",
   "status": "partial",
   "theorems": [
    "Gofre.Props.c141_violated_never",
    "Gofre.Props.c141_violated_never_nonce",
    "Gofre.Props.c141_one_partial",
    "Gofre.Props.c141_apart_partial",
    "Gofre.Props.c141_apart_refused_partial",
    "Gofre.Props.c141_texts_differ",
    "Gofre.Props.c141_violated"
   ],
   "note": "False with one cache, in every history and both ways: a live nonce passes the state check of a callback as if there were none (c141_violated_never), a live state passes the nonce check (c141_violated_never_nonce); c141_violated is a concrete application, which refuses both with a cache each. c141_one_partial: with one cache a token that is accepted was at least issued for one of the two. c141_apart_partial and c141_apart_refused_partial: the claim for a cache each. c141_texts_differ: the two kinds of texts never coincide, so a check of the text would tell them apart. Requests one at a time; the login endpoints themselves are not behind the CSRF middleware."
  },
  {
   "property": "C142",
   "status": "proved",
   "theorems": [
    "Gofre.Props.c142_guard",
    "Gofre.Props.c142_issued",
    "Gofre.Props.c142_once",
    "Gofre.Props.c142_login",
    "Gofre.Props.c142_login_refused",
    "Gofre.Props.c142_in_memory",
    "Gofre.Props.c142_refines",
    "Gofre.Props.c142_refines_login"
   ],
   "note": "Model/AnyCache.lean takes the cache's answers as inputs and records its calls; c142_guard says all the middleware can do. c142_issued (any interleaving) and c142_once (requests in sequence; concurrently it fails, C41) for nonces, c142_login and c142_login_refused for states. c142_in_memory: the in-memory cache is honest; c142_refines and c142_refines_login: with its answers the model is that of C39 and C43. Cache calls themselves are atomic; a nonce and a state cache are taken to be different (C141)."
  },
  {
   "property": "C143",
   "status": "partial",
   "theorems": [
    "Gofre.Props.c143_violated_never",
    "Gofre.Props.c143_refused_partial",
    "Gofre.Props.c143_violated"
   ],
   "note": "False: the nonce is removed before the new one is made and stored, so after any such failure an honest cache refuses the request sent again (c143_violated_never), e.g. c143_violated. c143_refused_partial: a request that does not pass the check removes nothing."
  },
  {
   "property": "C144",
   "status": "partial",
   "theorems": [
    "Gofre.Props.c144_matcher_partial",
    "Gofre.Props.c144_unchanged_partial",
    "Gofre.Props.c144_served_partial",
    "Gofre.Props.c144_violated"
   ],
   "note": "AddPattern raises the segment limits of the nodes it passes before it finds the duplicate. For patterns of fewer than 256 pieces the limits passed are already as high, so the trie (c144_matcher_partial) and the whole router (c144_unchanged_partial) are the same as before, and so is every answer (c144_served_partial). For longer patterns, whose pieces are counted in eight bits, the claim is false: a refused pattern of 258 pieces turns a request that was served into a panic (c144_violated)."
  },
  {
   "property": "C145",
   "status": "proved",
   "theorems": [
    "Gofre.Props.c145_good",
    "Gofre.Props.c145_asked",
    "Gofre.Props.c145_login",
    "Gofre.Props.c145_in_memory"
   ],
   "note": "Model/AnyCache.lean; c145_good for nonces (the answer of the cache is yes and the handler runs), c145_asked what a request asks the cache, c145_login for states, c145_in_memory: the in-memory cache forgets nothing early. Cache calls are atomic, the cache is used for one purpose (C141); with unsynchronised calls see C95."
  },
  {
   "property": "C146",
   "status": "partial",
   "theorems": [
    "Gofre.Props.c146_security_partial",
    "Gofre.Props.c146_violated_never",
    "Gofre.Props.c146_cors_partial",
    "Gofre.Props.c146_refused",
    "Gofre.Props.c146_twice_partial",
    "Gofre.Props.c146_violated_never_cors"
   ],
   "note": "Holds when SecurityHeaders (c146_security_partial) or Cors (c146_cors_partial) is given before ErrJsonResponse, and fails for every configuration when it is given after it (c146_violated_never, c146_violated_never_cors): then the answer carries none of their headers. With Cors first, what Cors itself refuses reaches the router as an error (c146_refused); with ErrJsonResponse given twice, around Cors and inside, both are answered (c146_twice_partial). The conditions on the request in the theorems about Cors are those of C49."
  },
  {
   "property": "C147",
   "status": "partial",
   "theorems": [
    "Gofre.Props.c147_exact",
    "Gofre.Props.c147_order_partial",
    "Gofre.Props.c147_violated"
   ],
   "note": "False for constraints: a route with a constraint can be registered twice and the application starts (c147_violated). c147_exact: without constraints whose expression starts with a brace, and with ASCII methods, an application starts exactly when every pattern is accepted (see C05) and no two routes for one method have the same pattern without a constraint. c147_order_partial: under these conditions the order plays no part. The assets and NewMuxHandler are in C120."
  }
 ]
}