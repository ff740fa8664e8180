# Formal model of ixtendio/gofre

Everything below is about the pinned source in `/repo`. The code was only read,
never built or run.

## Trusted base

* Lean 4.33.0's kernel. The only axioms used by any theorem are `propext`,
  `Classical.choice` and `Quot.sound` (see `lean/Verif/Audit.lean`, which prints
  the axioms of every theorem named in `MANIFEST.json`). No axioms of our own, no
  `sorry`, no `native_decide`, no `bv_decide`.
* The reading of the Go source: each model definition cites the file and lines it
  transcribes, and its comment states what was simplified.
* Go semantics used by hand: strings are byte sequences; `uint8`/`uint16`/`uint64`
  arithmetic wraps; an index outside a slice or array panics; reading a nil map gives
  the zero value, writing to it panics; `defer`/`recover`; `go.mod` says `go 1.19`, so
  `panic(nil)` makes `recover()` return nil.
* Library functions that are *parameters* of the model (nothing is assumed unless the
  theorem says so): `regexp.Compile` / `MatchString`, `strings.EqualFold` on non-ASCII
  text, `url.ParseRequestURI`, JSON decoding (we start from the decoded object), random
  bytes, the clock, OAuth HTTP round trips, template rendering, gzip/deflate streams.

## What is not modelled

TLS and the listener (started by the program that uses gofre), template parsing, file serving beyond
the name asked for, the pprof handlers behind the debug endpoints, the JSON text of
request dumps, LDAP/OIDC back ends (there are none in the source), the byte-level compression
algorithms, the memory model below atomic map/cache operations. Of `examples/` the event stream and the routes and authorization checks are modelled.
What a response wrote before it panicked counts as sent (net/http may still hold it in its buffer), and what a
handler writes after hijacking the connection is not modelled.

## Layout

* `Verif/Model/*` – transcription of the Go code, function by function.
* `Verif/Spec/*` – what the properties mean, written without the model's helpers.
* `Verif/Proofs/*` – lemmas.
* `Verif/Props/*` – the theorems listed in `MANIFEST.json`, each with a concrete
  `example` meeting its hypotheses.

Where the code violates a property the violation is proved (`..._violated`, a concrete
reachable witness of the negation) and the strongest true part is kept under a name
ending in `_partial`.

## Assumptions of particular theorems

* Event stream (C105-C108): loads and stores of the indices and accesses to a place of the ring are single steps,
  interleaved arbitrarily; a panic in a goroutine started by a handler ends the process. Sending on the channel and
  writing to the connection are C61.

* Routing: the sibling sort of the trie is `sortSiblings`, `sort.SliceStable` with the comparison `<=` of the
  program: Go's algorithm is written out in `Model/Sort.lean` and proved to permute and to order
  (`sortSiblings_perm`, `sortSiblings_sorted`). Lemmas are proved for any sort `srt` that does; the property
  theorems are about `sortSiblings`. `regexp` and `strings.EqualFold` are fields of `Ext`; C27 assumes
  `FoldLaws` (an equivalence that relates texts differing in the case of ASCII letters).
* Responses (C54-C63, C72-C76): `Model/Http.lean` is a *description of the library* net/http, written from
  its documentation and behaviour for HTTP/1 since Go 1.19: `WriteHeader` with an informational status
  (100, 102-199) sends an interim block and commits nothing, 101 and 200-999 commit once, other values
  panic, later header changes have no effect, a body write commits 200 first, statuses 1xx/204/304 allow no
  body, and when the handler returns without a commit 200 is sent. Connection failures are a plan: the n-th
  write fails after any number of bytes. Go's map iteration order is an arbitrary permutation (`Env`).
  Body sniffing, `Date`, `Transfer-Encoding` and automatic `Content-Length` are not modelled.
* Compressors are an arbitrary state machine (`Codec`); losslessness is a hypothesis of C74 only.

## Plan per property

| id | model and proof |
|----|----|
| C01 | `regexSegmentMatch` as a step machine over (pattern index, url index, checkpoints); invariant linking the remaining search to a declarative relation `Glob`; induction on the iteration measure. |
| C02 | Same invariant, other direction. False for a trailing `*` against nothing (`ab*` vs `ab`): violation witness, `c02_exact` says which described texts are refused. |
| C03 | False (`*bc` vs `b` indexes out of range): witness; the exact condition (`c03_exact`: lockstep of the run on the pattern with the run on its beginning up to a star); `_partial`: panic-free classes. |
| C04 | Lexicographic measure on the step machine. |
| C05 | `ParsePattern` loop vs. `splitOn '/'` specification. |
| C06 | Classifier vs. an independently stated grammar. |
| C07 | `computePriority` with the real uint64 arithmetic as a fuelled loop; "no fuel suffices" is divergence. False: witness with 17 segments. `c07_exact`: among patterns of at most 19 pieces, exactly the shapes of `Spec.EndlessShape` (only the places of the `**` count) never return. `_partial`: at most 16 pieces or 6 `**`; at most one `**` at any length. |
| C08 | Decimal encoding = lexicographic order; proved for patterns with no `**`, for one `**`, and for several when the last segment is `**`; misplacement witness for several otherwise. |
| C09 | uint8 wrap: false at 256 segments; proved below 256. |
| C10, C11, C13 | Index loop of `ParseURLPath` vs. `splitOn`/stack normalisation; uint16 wrap witness beyond 65535 bytes; `c13_exact` with the placed pieces of `Spec/Placed` for paths of any length. |
| C12 | False when `/` is registered; proved otherwise; `c12_exact`: answered as `/` is, always. |
| C14–C18 | `Match` as a step machine with its stacks, refined to a functional depth-first search; soundness, labels, termination, stack bounds by induction on the search; completeness is false (three independent causes, three witnesses) and proved under side conditions. |
| C19, C20 | False in general (node priority is that of the first creating pattern): witness; proved for restricted pattern sets. `Props/OrderLong.lean`: witnesses that the limits on length and `**` are needed. |
| C18, C19, C20, C23 exactly | Spec/Hidden.lean says when the beginning of a pattern hides another; Proofs/Hidden.lean follows the search through the trie: a node without pattern reached with the whole request ends the search among its later siblings. `Props/Handled.lean` lifts C18, C19, C20 and C23 to the router; the conditions are put together in `Spec/Orderly.lean`. `Props/SimpleRoutes.lean`: routes without constraints and wildcards (`Spec/SimpleRoutes.lean`) are orderly for every request, which gives C17, C20 and C26 for whole applications. If moreover each beginning of a pattern is registered or competes with no route (`NoTraps`), C18, C19 and C23 hold for every request of at most 65535 bytes that at no point has more than 19 pieces. `Props/SimpleApp.lean` is the same for programs with sub-routers and middlewares (C126). |
| C14, C15, C22 for all patterns | Spec/Shared.lean says which segments stand for a segment, without reference to the trie; the nodes on the way to a pattern found are such segments. |
| C21–C23 | `AddPattern` insertion invariants: the trie represents exactly the registered patterns; constrained duplicates and monotonicity violated (witnesses). `Props/Many.lean`: the number of children is cut to 16 bits, so with 65536 patterns on one level the search tries none of them (built by induction, also for C18). |
| C24 | `Match` depends on the path only through its normalised segments. |
| C25, C26 | `Router` model with abstract handlers; case analysis and induction on histories. |
| C27 | Relational lemma: match result invariant under case change of the URL. |
| C28–C30 | `MuxHandler` model; traces of middlewares; histories of mux operations over a heap of muxes; byte-level `resolvePath`. |
| C31–C36 | `auth.go` over byte strings and 32-bit masks; algebraic proofs. |
| C37 | Middleware combinators over abstract handlers with effects. |
| C38 | Cache histories by induction. |
| C39–C42 | CSRF middleware over the cache; sequential history invariant; two-thread interleaving witness; hex injectivity. |
| C43–C46 | OAuth handlers over the cache and provider replies. |
| C47, C48 | Combinators; `panic(nil)` witness for C47. |
| C49–C52 | CORS over header maps; witnesses for C50, C51. |
| C49, C52, C54 white space | Spec/Trim.lean says what white space is (the list of Unicode, in UTF-8) and what a member of a list with commas is; Proofs/Trim.lean shows that TrimSpace and Split compute this for every byte string; Proofs/Takes.lean that lower-casing before splitting changes nothing but the spelling, so that the encoding chosen is known for headers that are not ASCII as well. |
| C53 | SecurityHeaders with memoised header strings as shared state. |
| C54, C55, C63 | Compress negotiation over byte strings; witness for `compress`; writer layering for flush. |
| C56, C57, C59, C62 | A ResponseWriter state machine (header map, committed block, body). |
| C58, C66, C77 | A machine with references, objects and a `sync.Pool` (any pooled object or a new one); simulation by a machine with values, over all interleavings of steps. |
| C78, C79 | The README's patterns, registered through `AddPattern`, against a specification written from the README's text alone; from the theorems of C18 and, for a `**` in the middle, an analysis of the search on one pattern. |
| C80 | `initiate` and `callback` run over a history of requests; the callback route through `ParsePattern`, `AddPattern` and `Match`, with the redirect URI's path as the request. Model/Login puts both handlers into an application: c80_login_partial joins C126 for both requests with the life of the state in between. Witness for a prefix with a constraint. |
| C81, C83 | The program model of C28-C30 extended by the assets route and the debug endpoints; an invariant over all muxes. Witnesses. |
| C82 | `http.StripPrefix` and `http.FileServer` up to the name asked for (`Model/Assets`), behind the route through `ParsePattern`, `AddPattern` and `Match`. Witnesses. |
| C60, C61 | Event printer vs. an event-stream parser; loop over a schedule of events/cancel/failure. |
| C64 | Cookie map vs. last-write-wins specification keyed by triples. |
| C65 | UTF-8 re-encoding of the first byte; witness for non-ASCII. |
| C67 | Structural induction. |
| C68 | CSRF middleware over the parsed/unparsed form. False: the form is not parsed; `_partial` when it already is. |
| C69 | `append` on slices over a heap of arrays with capacities. False with spare capacity; proved without. |
| C70, C71 | As C49-C53; witnesses and `_partial`; `c70_violated_never` covers every request in origin form. |
| C72, C73 | As C60, C61: witness for line breaks in data; witness for a silent generator. |
| C74, C75 | Two runs of `Write`, one over the plain writer and one over the compressing layer, related step by step (`Proofs/Twin`); the codec is a parameter with a losslessness hypothesis.  For nested compression the second run is over any number of compressing layers (`Proofs/Tower`). |
| C76 | Writer outcome plus what net/http sends when the handler returns (`Spec.seen`). |
| C84 | An invariant over all writer operations (`Fine`), then `ServeHTTP` over the connection (`Model/Serve`) in terms of the router events of C26. |
| C85 | The middleware over handlers that return what the request's maps contain at the end (`Model/Dump`). Witnesses. |
| C86 | The constructors (`Model/Build`) and a case-by-case specification of what each promises (`Spec/Build`); completeness of writing on a reliable connection, with C56 for the header block. |
| C87 | OAuth2 flow model of C43; two providers over one state cache (Props/Mixup); violation for every multi-provider configuration; proof for one provider from c43_only_issued_states. |
| C88 | As C87; the requests' headers are free in both steps; violation for every configuration; issued-and-unexpired part proved. |
| C89 | Model/Stack: ErrJsonResponse and the router's use of a handler's results; composition of c48_err_response with c86_sent; c89_routed via serve_eq. |
| C90 | Model/Stack, PanicRecover carrying the stack text; violation for every panic with the middlewares one way round; independence of the stack the other way. |
| C91 | Model/Stack: CompressResponse; Model/Response: compression; cases; c74_decodes_partial on the connection; violation for every unusable level. |
| C92 | `Model/Query.lean` writes out `url.Values.Encode`; `Spec/Query.lean` reads forms as the URL standard says; round trip by induction over the bytes. |
| C93 | Token requests as values; `c93_violated_never`, `_partial` for each provider. |
| C94 | Providers over a network that logs what is sent; the log after a callback is characterised for every history. |
| C95 | `Model/Race.lean`: cache calls as two steps with Go's map flag; violations for any two overlapping requests, invariant for the rest. |
| C96 | Violations by induction over histories. |
| C97 | The generator is an arbitrary stream that is the same in every process (Go 1.19); violations. |
| C98 | The write results of `Model/Response.lean` are followed to the bytes accepted by the connection; violations for event streams and compression. |
| C99 | `Model/Config.lean`: configurations and resources in a store with pointers; the defaults are written once more in the specification. |
| C100 | Violation by writing through the shared pointer; frame theorem for the rest. |
| C101 | `Proofs/Shadow.lean`: a node preceded by one that accepts every segment is not reached with a last segment; the order of siblings from `Proofs/Levels.lean`. Constrained variables (`Proofs/ShadowChain.lean`): below such a node there is the rest of one pattern only, so the node of the other pattern is reached only when the first did not match. `Props/ShadowText.lean` puts both together for patterns given as texts: equal texts spell equal segments. `Props/ShadowServed.lean` lifts it to the router. |
| C102 | `Props/Once.lean`: induction over nested compression; that no use of a writer sends a second status line is one invariant for all responses (`Stable`, also C56). |
| C103 | `Props/Scope.lean`: from the exact description in C31; the documented meaning is stated anew in terms of levels. |
| C104 | `Props/Token.lean`: what one request does to one cache entry, then sequences of requests; C39 for the accepted request. |
| C105 | `Model/Events.lean`, `Props/Events.lean`: step machine of producer and connections; invariant of non-negative indices. |
| C106 | `Proofs/Events.lean`: which event a place of the ring holds; invariant of a single reader. |
| C107 | `Props/Events.lean`: invariant relating the read index, what was sent and what is on its way. |
| C108 | as C106, from any state after rewinding. |
| C109, C110 | The browser's reading of headers is written from the Fetch standard (`Spec/Browser.lean`); exact condition for a granted preflight from the permission lemmas of C49; unanswered preflights from the router theorem of C26. |
| C111 | `Model/Debug.lean`: what each handler of the debug table shows for a request path, from the documentation of net/http/pprof; `Spec/Debug.lean`: what the paths stand for. Counting segments shows that a path below a prefix is never the bare path. |
| C112 | `Model/Example.lean` runs the registrations of `examples/cmd.go` on the mux model; `Spec/Example.lean` says by cases on the segments which handler a path is meant for; proved from the exact theorems of C18/C19 and the variables of C15. |
| C113 | `Model/Example.lean` (supplier, user, guarded route) on the models of C31 to C37; `Spec/Example.lean` says which texts grant the deletion. |
| C114 | `Model/Stream.lean`: the goroutine of the generator and the loop of `Write` as two processes and an unbuffered channel; safety by induction over runs, liveness for executions without end under the fairness of `Spec/Stream.lean`. |
| C115 | Response model of C54 to C59 with any number of compressing layers around the hijacking response. |
| C116 | `Model/Memo.lean`: the loads and stores of the two words of a Go string as single steps of any number of requests; invariant over all interleavings. |
| C117 | `Model/Escape.lean`: PathEscape and the decoding of URL.Path of net/url; `Spec/Escape.lean`: links and the texts that can be one segment. Induction over the text, then C15. |
| C118 | `Model/Context.lean`: contexts as chains of typed keys and values, the three readers; `Spec/Context.lean`: the value put last. Induction over the additions. |
| C119 | `highPriorityThan` on the parsed pattern; order laws for all patterns, meaning through `c08`. |
| C120 | `construct`, `constructTemplates`: the outcome of the constructors from the models of the configuration (C99), of `Handle` and of pattern parsing; `log.Fatalf` and panics are outcomes. |
| C121 | `Resp.write` with `Reusable` (RFC 9111, 4.1) on the header block that is sent. |
| C122 | `cors` on two requests; the `Vary` value of the answer read as a cache reads it. |
| C123 | `fetchAuthenticatedUser` on every answer that shows an account. |
| C124 | As C123, the answer also holding `verified_email`. |
| C125 | `serveHTTP` and `serve` for routers without, or with mirrored, HEAD routes. |
| C126 | `load` registers the routes of a mux program in the router model, `serveApp` runs the handlers with their path variables over the response model; C14, C15, C17, C18, C29 composed. |
| C127 | As C126, with C37, C81 and C89. |
| C128 | `Model/App.lean` (`csrfIn`: the middleware over the state of an application; `csrfIn_csrf` ties it to `Model/Csrf.lean`). C81 and C89 around the refusal; methods of routes as in C126. |
| C129 | `Spec/Nonce.lean`: handlers that do not bring a nonce back; every handler of the application keeps that (induction over the program), so a spent nonce stays out of the cache (induction over the requests), then C128. |
| C130 | `Spec/Fields.lean`: what a reply says about a token, with scopes spelled out between separators; characterised exactly by inverting `fetchAccessToken` and `splitOn` on a joined list. |
| C131 | Model/Login: the two handlers of the login flow as routes of an application (C126), over a state with clock, random text and state cache. Programs that differ in the user's handler are related call by call (OpRel); a relation between handlers that all middlewares keep is a relation between the routes, and routing looks at method and path only. Histories by induction, with properties of handlers that all middlewares keep. |
| C132 | The callback of C131 as a function of the form values. Violated, always. |
| C133 | Names and endpoints of the built-in providers written down in `Spec/Provider.lean`; initiate and callback handlers (`Model/Login.lean`, `Model/Query.lean`) followed for every list of clients, using the results for C80, C92 and C94. |
| C134 | The two programs of the README as sequences of registrations on the model of the mux; requests are served by the model of the whole application. From C126 exactly: patterns of texts and variables only compete for nothing, and no beginning of one of these patterns is more specific than another one. |
| C135, C136 | Spec/Expose.lean: what a browser makes of Max-Age and Expose-Headers (Fetch standard); from the headers of an answer, as for C110. |
| C137 | The header middlewares (model of C49, C53) on the response kinds of C56; which kinds have a nil header map by induction over compressing layers. |
| C138 | The search of Model/Trie.lean and the same with the calls of matchUrlPathSegment counted (Model/Cost.lean). The refinement of the recursive search is repeated with the iterations counted: a level that gives up costs two per node outside every `**`, and as a `**` that fails ends the whole search, the nodes below a `**` are visited at most once for each of the 19 positions. The nodes are counted along a registration history. |
| C139 | The byte matcher of Model/Glob.lean applied to the UTF-8 text of lists of characters, against a description in characters (Spec/Chars.lean). UTF-8 is prefix free and its long characters contain no ASCII byte, so a description in bytes can be cut at the characters. Wrong for `?` against long characters and for the case of letters outside ASCII. |
| C140 | PathVar (Model/Router.lean) after the search of Model/Trie.lean. The texts under the variables are those of C15; that PathVar counts variables up to the first of the name is shown by induction over the pattern. Wrong for names used twice. |
| C141 | Model/Purpose.lean runs histories of CSRF pages, started logins and callbacks over one cache or two, using the models of C39 and C43. Entries are followed by induction over the history. Wrong for one cache, proved for two. |
| C142 | Model/AnyCache.lean: middleware and login endpoints with the answers of the cache as inputs and the calls recorded. The promise (Spec/Honest.lean) is a statement about records of calls; claims follow by locating the call that added the key in a record woven from those of all requests. |
| C143 | Same model; the record shows the removal before the failure. Wrong for every such failure. |
| C144 | Model/Router.lean and Model/Trie.lean. Invariant: the limits along the way to each pattern are at least those the pattern asks for (Proofs/Refuse.lean); a refused pattern has the kinds, hence the limits, of the one it duplicates. False for patterns of 256 pieces and more, by a computed counterexample. |
| C145 | Model/AnyCache.lean with caches that forget nothing early (Spec/Retentive.lean): in a record woven of the calls of all requests a removal comes after a yes of the same request for the same nonce. |
| C146 | `Props/OnErrors.lean`: the models of `ErrResponse` with the JSON answers of `response/json.go`, of `SecurityHeaders` and of `Cors`, put one behind the other in both orders. Proved for one order from the theorems on C53 and C49; refuted for the other. |
| C147 | `Props/Starts.lean` on Model/App.lean (`load`, the calls of Router.Handle in order) and Model/Mux.lean; `Spec/Starts.lean` says which routes clash. Induction over the registrations with C21 for each of them; order by the symmetry of clashing. False for constraints (witness). |
| C14, C15, C26 (long paths) | `Props/Long.lean`: with `Spec/Placed` and the offsets modulo 65536 of C13, a path of more than 65535 bytes for `/u` is matched as `/t`, in every trie; and a segment whose recorded end lies before its beginning crashes constrained variables. |
| C126, C134 (long paths) | `Props/LongApp.lean`: C12 and the long paths of C14 and C15 joined with the model of the application. |
| C131 (long paths) | `Props/LongLogin.lean`: the long paths of C126 in a history with a login. |
| C80 (middlewares) | `Props/LoginWrapped.lean`: the proof of `c80_login_partial` with routes wrapped in middlewares that satisfy `LetsThrough`. |
