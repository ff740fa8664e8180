{"id": "C01", "title": "Wildcard segments accept only what the wildcard describes", "statement": "If a pattern segment containing `*` or `?` accepts a request path segment, then that request segment is described by it: `?` stands for exactly one byte, `*` for some run of bytes, every other byte for itself (up to the case of the Latin-1 letter with that number when matching is case-insensitive). For text in ASCII a byte is a character; C139 asks the same for other characters.", "quantifier": "every pattern segment accepted at registration, every non-empty request segment, both case modes", "why_tests_cant": "pattern/segment pairs are unbounded and the matcher backtracks through mutable indices; tests sample ten pairs", "anchors": ["router/path/pattern.go: regexSegmentMatch"]}
{"id": "C02", "title": "Wildcard segments accept everything the wildcard describes", "statement": "If a request segment is described by a wildcard pattern segment (`?` = one byte, `*` = any number of bytes, including none), the pattern segment accepts it. For text in ASCII a byte is a character; C139 asks the same for other characters.", "quantifier": "every accepted wildcard segment, every non-empty request segment", "why_tests_cant": "false negatives depend on where backtracking restarts; no finite sample covers all overlaps", "anchors": ["router/path/pattern.go: regexSegmentMatch"]}
{"id": "C03", "title": "Wildcard matching never crashes the request", "statement": "Matching a request segment against a wildcard pattern segment always yields true or false; it never panics.", "quantifier": "every accepted wildcard segment, every request segment", "why_tests_cant": "an out-of-range index only occurs for particular pattern/segment overlaps chosen by a remote client", "anchors": ["router/path/pattern.go: regexSegmentMatch"]}
{"id": "C04", "title": "Wildcard matching terminates", "statement": "Matching a request segment against a wildcard pattern segment always finishes after finitely many loop iterations.", "quantifier": "every pattern segment, every request segment", "why_tests_cant": "a test cannot establish that an unbounded `for {}` loop exits on all inputs", "anchors": ["router/path/pattern.go: regexSegmentMatch"]}
{"id": "C05", "title": "Registered patterns mean what they spell", "statement": "A pattern is accepted exactly when it is `/`, or starts with `/`, every `/`-separated piece is well formed (non-empty, balanced braces, named variable, no `**` mixed with text), no two `**` are adjacent and every constraint compiles; the accepted pattern then has exactly those pieces, in order, as its segments, with at most one optional trailing slash ignored.", "quantifier": "every byte string given as a pattern with fewer than 256 segments", "why_tests_cant": "the grammar is infinite and the parser is a hand-written index loop", "anchors": ["router/path/pattern.go: ParsePattern, validatePathSegment"]}
{"id": "C06", "title": "Segments are classified by their documented syntax", "statement": "In an accepted pattern `*` is a single-segment wildcard, `**` a multi-segment wildcard, `{name:regex}` a constrained variable with that name and regex, `{name}` a variable with that name, any other piece containing `*` or `?` a character wildcard, and anything else a literal; variable names and constraints are never empty.", "quantifier": "every accepted pattern, every segment", "why_tests_cant": "quantifies over all strings; the classifier's branch order matters", "anchors": ["router/path/pattern.go: determineMatchTypeForSegment, validatePathSegment, ParsePattern"]}
{"id": "C07", "title": "Registering a pattern always finishes", "statement": "Parsing a pattern with at most 19 segments terminates (with a pattern or an error).", "quantifier": "every byte string with at most 19 segments", "why_tests_cant": "the priority computation contains a data-dependent loop whose divisor may be 1", "anchors": ["router/path/pattern.go: ParsePattern", "router/path/encode.go: computePriority, getDecimalDivider"]}
{"id": "C08", "title": "Pattern priority orders patterns from most to least specific", "statement": "For patterns of at most 19 segments, comparing priorities is the same as comparing the segment kinds left to right (literal < constrained variable < variable < character wildcard < `*` < `**`), a `**` counting as the run of segments it may stand for.", "quantifier": "every pair of accepted patterns with at most 19 segments", "why_tests_cant": "pairs of patterns are unbounded; the encoding is decimal arithmetic in a uint64", "anchors": ["router/path/encode.go: computePriority"]}
{"id": "C09", "title": "Patterns keep all their segments", "statement": "An accepted pattern has as many segments as its text has pieces, however many there are; in particular only `/` has none.", "quantifier": "every accepted pattern of any length", "why_tests_cant": "counters are uint8; the failure needs 256 or more segments", "anchors": ["router/path/pattern.go: ParsePattern"]}
{"id": "C10", "title": "Request paths are normalised", "statement": "Parsing a request path yields, as slices of that path, the pieces after the first slash with empty pieces removed and each `..` cancelling the preceding remaining piece (never climbing above the root).", "quantifier": "every request path of at most 65535 bytes whose normalisation never holds more than 19 pieces", "why_tests_cant": "paths are unbounded; the parser works on indices with in-place overwriting", "anchors": ["router/path/matching_context.go: ParseURLPath"]}
{"id": "C11", "title": "Parsed request segments are safe values", "statement": "After parsing, there are at most 19 segments, and none of them is empty, is `..`, or contains a slash; parsing itself never indexes outside the segment buffer.", "quantifier": "every request path of at most 65535 bytes", "why_tests_cant": "an invariant over all byte strings of an index-based loop", "anchors": ["router/path/matching_context.go: ParseURLPath"]}
{"id": "C12", "title": "Over-long request paths are not served", "statement": "A request whose path has more than 19 segments is answered 404 and no handler runs.", "quantifier": "every router, every request path that overflows the 19 segment limit", "why_tests_cant": "quantifies over all routers and paths; the interaction with a registered `/` is only visible for some", "anchors": ["router/path/matching_context.go: ParseURLPath", "router/path/matcher.go: Match"]}
{"id": "C13", "title": "Segment offsets are exact for any path length", "statement": "The offsets recorded for each request segment denote that segment in the request path, for request paths of any length accepted by the server.", "quantifier": "every request path, including longer than 65535 bytes", "why_tests_cant": "offsets are uint16; the failure needs paths over 64 KiB", "anchors": ["router/path/matching_context.go: ParseURLPath, UrlSegment"]}
{"id": "C14", "title": "A request only reaches a handler whose pattern describes it", "statement": "If matching returns a pattern then that pattern was registered on this matcher and describes the request segments: its segments can be laid over the request segments in order, each non-`**` segment accepting exactly one, a `**` covering a run of segments (non-empty if last).", "quantifier": "every registration history, every request path", "why_tests_cant": "an unbounded trie search with backtracking and shared nodes; tests sample a few tries", "anchors": ["router/path/matcher.go: AddPattern, Match"]}
{"id": "C15", "title": "Path variables carry the right text", "statement": "When a pattern matched, PathVar(name) for a variable of that pattern returns exactly the request segment which that variable is laid over in a valid match of the pattern with the request, and the empty string for any other name.", "quantifier": "every registration history, every request, every variable name", "why_tests_cant": "variables are recovered by counting match-kind labels that backtracking writes and must undo on every failed branch", "anchors": ["router/path/matching_context.go: PathVar", "router/path/matcher.go: Match"]}
{"id": "C16", "title": "Matching terminates", "statement": "Matching a request against any set of registered patterns finishes.", "quantifier": "every trie, every request", "why_tests_cant": "the loop index moves backwards during backtracking; termination cannot be tested", "anchors": ["router/path/matcher.go: Match"]}
{"id": "C17", "title": "Matching never crashes", "statement": "Matching a request never indexes outside its fixed-size stacks.", "quantifier": "every registration history, every request path", "why_tests_cant": "the bound 19 is on request segments while the stack is indexed by trie depth", "anchors": ["router/path/matcher.go: Match"]}
{"id": "C18", "title": "A request described by a registered pattern is served", "statement": "If some registered pattern describes the request segments, matching returns a pattern (not 404).", "quantifier": "every registration history, every request path of at most 19 segments", "why_tests_cant": "needs every combination of overlapping patterns and backtracking points", "anchors": ["router/path/matcher.go: Match"]}
{"id": "C19", "title": "The most specific pattern wins", "statement": "Among the registered patterns that describe a request, the one returned is the most specific: at the first segment where two candidates differ in kind, the returned one has the more specific kind.", "quantifier": "every registration history, every request path", "why_tests_cant": "quantifies over all sets of overlapping patterns", "anchors": ["router/path/matcher.go: AddPattern, Match", "router/path/encode.go: computePriority"]}
{"id": "C20", "title": "Registration order does not matter", "statement": "Registering the same patterns in any order gives the same answer for every request.", "quantifier": "every permutation of every pattern list, every request", "why_tests_cant": "factorially many orders for unboundedly many pattern sets", "anchors": ["router/path/matcher.go: AddPattern, Match"]}
{"id": "C21", "title": "Duplicate patterns are rejected at registration", "statement": "Registering a pattern whose segments are pairwise equal (same kind, same text up to case when case-insensitive, variable names ignored) to those of an already registered pattern is refused.", "quantifier": "every registration history", "why_tests_cant": "depends on all previously inserted patterns and the shape of the shared trie", "anchors": ["router/path/matcher.go: AddPattern"]}
{"id": "C22", "title": "Distinct patterns are never refused", "statement": "Registering a pattern that is not a duplicate of an already registered pattern succeeds.", "quantifier": "every registration history", "why_tests_cant": "depends on all previously inserted patterns", "anchors": ["router/path/matcher.go: AddPattern"]}
{"id": "C23", "title": "Adding a route does not take another route away", "statement": "If a request was served before registering a further pattern, it is still served (by some handler) afterwards.", "quantifier": "every registration history, every request, every further pattern", "why_tests_cant": "non-local interaction between a new pattern and all existing ones", "anchors": ["router/path/matcher.go: AddPattern, Match"]}
{"id": "C24", "title": "Spelling of slashes is irrelevant", "statement": "Two request paths with the same normalised segments (differing in doubled or trailing slashes, or in cancelled `x/..` pieces) are routed to the same pattern with the same path variables.", "quantifier": "every router, every pair of request paths", "why_tests_cant": "pairs of unbounded strings", "anchors": ["router/path/matching_context.go: ParseURLPath, PathVar", "router/path/matcher.go: Match"]}
{"id": "C25", "title": "Methods are isolated", "statement": "Registering a handler for one method never changes how requests with another method are answered; method names are compared case-insensitively.", "quantifier": "every registration history, every request", "why_tests_cant": "quantifies over all histories and requests", "anchors": ["router/router.go: Handle, ServeHTTP"]}
{"id": "C26", "title": "Dispatch answers exactly one of handler, 404, 500", "statement": "A request whose method has no routes or whose path matches none gets 404 and no handler runs; otherwise exactly the handler registered with the matched pattern runs, once; if it returns an error the client gets 500 and the error is logged, otherwise its response is written.", "quantifier": "every router, every request, every handler behaviour", "why_tests_cant": "quantifies over arbitrary handlers and route tables", "anchors": ["router/router.go: ServeHTTP"]}
{"id": "C27", "title": "Case-insensitive routing ignores ASCII letter case of literals", "statement": "When the router is case-insensitive, changing the case of ASCII letters in a request path does not change which pattern is selected (constraint regexes being case-insensitive themselves).", "quantifier": "every case-insensitive router, every pair of paths equal up to case", "why_tests_cant": "pairs of unbounded strings against arbitrary tries", "anchors": ["router/path/pattern.go: matchUrlPathSegment, regexSegmentMatch", "router/path/matcher.go: Match"]}
{"id": "C28", "title": "Middlewares wrap in registration order", "statement": "For a handler registered with common middlewares c1..cm and own middlewares h1..hn, a request enters c1,..,cm,h1,..,hn, then the handler, and leaves in the reverse order; nil middlewares are skipped.", "quantifier": "every list of common and own middlewares, every handler", "why_tests_cant": "lists of arbitrary length and arbitrary functions", "anchors": ["gofre.go: wrapMiddleware, HandleRequest"]}
{"id": "C29", "title": "Common middlewares apply to later registrations only, and only to their mux", "statement": "A route is wrapped by exactly the common middlewares its mux had at registration time: middlewares added later, or added to a clone, a sub-router or the parent after the split, do not affect it.", "quantifier": "every history of Clone, RouteUsingPathPrefix, CommonMiddlewares and Handle calls", "why_tests_cant": "all histories over a growing family of muxes sharing a router", "anchors": ["gofre.go: Clone, RouteUsingPathPrefix, CommonMiddlewares, HandleRequest"]}
{"id": "C30", "title": "Path prefixes concatenate with exactly one slash", "statement": "Routes of a sub-router created with a non-empty prefix are registered at parent-prefix + prefix + path joined with exactly one slash at each joint, and nesting sub-routers is associative.", "quantifier": "every chain of prefixes and every path", "why_tests_cant": "all strings, all nesting depths", "anchors": ["gofre.go: resolvePath, RouteUsingPathPrefix"]}
{"id": "C31", "title": "Permission implication is the documented scope order", "statement": "A permission implies another exactly when its access bits include the other's, the other's scope has at least as many levels, and each level is equal or `*` (the last level extending to all deeper ones).", "quantifier": "every pair of permissions (any scope strings, any 32-bit access)", "why_tests_cant": "all strings and bit masks", "anchors": ["auth/auth.go: Implies"]}
{"id": "C32", "title": "Permission implication is a preorder", "statement": "Every permission implies itself; if p implies q and q implies r then p implies r; narrowing the requested access preserves implication.", "quantifier": "all triples of permissions", "why_tests_cant": "triples of unbounded strings", "anchors": ["auth/auth.go: Implies"]}
{"id": "C33", "title": "Denied permissions override allowed ones", "statement": "A role that denies an access on a scope never grants a request that includes that access on that scope.", "quantifier": "every role, every request", "why_tests_cant": "all combinations of bit masks and scopes", "anchors": ["auth/auth.go: Role.HasPermission"]}
{"id": "C34", "title": "A user has a permission iff one of their roles grants it", "statement": "A user has a permission exactly when some role of some group has no denied permission implying it and some allowed permission implying it; adding groups never revokes a permission; HasRole is membership.", "quantifier": "every user, group and role structure", "why_tests_cant": "nested lists of any size", "anchors": ["auth/auth.go: User.HasPermission, Group.HasPermission, Role.HasPermission, HasRole"]}
{"id": "C35", "title": "Permissions survive printing and parsing", "statement": "Parsing the printed form of a permission with at most three scope levels returns that permission; anything parsed has at most three levels.", "quantifier": "every scope string (including ones containing colons), every 32-bit access", "why_tests_cant": "all strings and integers", "anchors": ["auth/auth.go: ParsePermission, Permission.String, NewPermission"]}
{"id": "C36", "title": "The all-permissions value implies every defined permission", "statement": "AllPermissions implies every permission whose access uses only the nine defined bits, and no permission using any other bit.", "quantifier": "every permission", "why_tests_cant": "all scopes and masks", "anchors": ["auth/auth.go: AllPermissions, AccessAll, Implies"]}
{"id": "C37", "title": "Authorisation guards the handler", "statement": "Behind AuthorizeAll/AuthorizeAny the handler runs exactly when the permission supplier succeeds, a principal is in the context, and it has all (respectively at least one) of the supplied permissions; otherwise the handler does not run and the unauthorised error (or the supplier's error) is returned.", "quantifier": "every principal, permission list, supplier and handler", "why_tests_cant": "arbitrary principals and lists", "anchors": ["middleware/authz.go: Authorize, AuthorizeAll, AuthorizeAny"]}
{"id": "C38", "title": "In-memory cache is a keyed expiry map", "statement": "After any history of operations, Contains(k) at time t is true exactly when the last Add or Remove of k was an Add and t is before that Add's time plus its duration.", "quantifier": "every history of timed operations on any keys", "why_tests_cant": "all histories", "anchors": ["cache/cache.go: InMemory"]}
{"id": "C39", "title": "CSRF protection guards state-changing requests", "statement": "Behind the CSRF middleware a request with a method other than GET, HEAD, TRACE, OPTIONS reaches the handler only if it carries a non-empty nonce present in the cache; otherwise access is denied, the cache is unchanged and no nonce is issued.", "quantifier": "every request, every cache state", "why_tests_cant": "all requests and cache contents", "anchors": ["middleware/csrf.go: CSRFPreventionWithCustomParamAndHeaderName"]}
{"id": "C40", "title": "A CSRF nonce is accepted at most once (sequential requests)", "statement": "In any sequence of requests processed one at a time, between two acceptances of the same nonce that nonce must have been issued again.", "quantifier": "every sequence of requests and nonces generated", "why_tests_cant": "all histories", "anchors": ["middleware/csrf.go", "cache/cache.go"]}
{"id": "C41", "title": "A CSRF nonce is accepted at most once (concurrent requests)", "statement": "The same holds when requests are processed concurrently.", "quantifier": "every interleaving of concurrent requests", "why_tests_cant": "schedules", "anchors": ["middleware/csrf.go", "cache/cache.go"]}
{"id": "C42", "title": "CSRF nonces are an injective hex encoding of the random bytes", "statement": "The nonce is the 32-character upper-case hexadecimal text of the 16 random bytes; different random bytes give different nonces.", "quantifier": "every 16-byte string", "why_tests_cant": "2^128 inputs", "anchors": ["middleware/csrf.go: generateNonce"]}
{"id": "C43", "title": "The OAuth2 callback only proceeds with an issued state", "statement": "With a cache configured, the user's handler behind the OAuth2 callback runs only if the `state` parameter was issued by an earlier initiate request and has not expired, the provider is configured, no error parameter is present and the provider calls succeeded; the handler then sees that provider's token (and user when requested).", "quantifier": "every history of initiate/callback requests at any times, every provider behaviour", "why_tests_cant": "all histories and provider responses", "anchors": ["gofre.go: HandleOAUTH2WithCustomPaths", "auth/oauth/oauth2.go"]}
{"id": "C44", "title": "An OAuth2 state is single use", "statement": "A state value accepted once by the callback is not accepted again.", "quantifier": "every history of initiate/callback requests", "why_tests_cant": "histories", "anchors": ["gofre.go: HandleOAUTH2WithCustomPaths"]}
{"id": "C45", "title": "Token exchange never crashes on a provider reply", "statement": "Whatever JSON object and status the provider answers, fetching the access token or user yields a value or an error, never a panic; a token is returned only for a 2xx answer and carries that answer's access_token.", "quantifier": "every status code and decoded JSON object", "why_tests_cant": "all JSON objects", "anchors": ["auth/oauth/github.go: FetchAccessToken, FetchAuthenticatedUser", "auth/oauth/google.go: FetchAccessToken, FetchAuthenticatedUser"]}
{"id": "C46", "title": "Requested profile scopes are included in the authorisation URL", "statement": "When user details are requested, the authorisation URL asks for the provider's profile scopes in addition to the configured ones.", "quantifier": "every provider configuration", "why_tests_cant": "all configurations", "anchors": ["auth/oauth/github.go: InitiateUrl", "auth/oauth/google.go: InitiateUrl"]}
{"id": "C47", "title": "PanicRecover turns panics into errors", "statement": "Behind PanicRecover no panic of the handler escapes: a panicking handler yields an error and no response; a non-panicking handler's result is unchanged.", "quantifier": "every handler behaviour, including panic(nil)", "why_tests_cant": "arbitrary handlers", "anchors": ["middleware/panic.go: PanicRecover", "router/router.go: ServeHTTP"]}
{"id": "C48", "title": "Errors map to documented status codes", "statement": "Behind ErrResponse an error is never passed on: bad request gives 400, not found 404, unauthorised 401, wrong credentials or access denied 403, anything else 500; successful responses pass unchanged.", "quantifier": "every handler result", "why_tests_cant": "arbitrary handlers and errors", "anchors": ["middleware/errors.go: ErrResponse, Error2HttpStatusCode"]}
{"id": "C49", "title": "CORS headers are only granted to allowed origins", "statement": "A cross-origin request gets a response only if its Origin is allowed and its method is allowed (for preflight: the requested method and every requested header); then Allow-Origin is `*` if any origin is allowed and the request's own origin otherwise; every other cross-origin request is refused.", "quantifier": "every configuration and request", "why_tests_cant": "all header values and configurations", "anchors": ["middleware/cors.go"]}
{"id": "C50", "title": "Refused cross-origin requests have no side effects", "statement": "A cross-origin request that CORS refuses does not run the handler.", "quantifier": "every configuration, request and handler", "why_tests_cant": "arbitrary handlers", "anchors": ["middleware/cors.go: Cors"]}
{"id": "C51", "title": "CORS never combines wildcard origin with credentials", "statement": "No response carries both Access-Control-Allow-Origin: * and Access-Control-Allow-Credentials: true.", "quantifier": "every configuration and request", "why_tests_cant": "all configurations", "anchors": ["middleware/cors.go: addStandardCorsHeaders"]}
{"id": "C52", "title": "Vary keeps earlier members", "statement": "Adding a name to Vary yields a header that mentions that name (or is `*`), keeps every member that was there (unless it becomes `*`), and mentions nothing else; it becomes `*` exactly when `*` was a member. A CORS answer that names one origin varies with Origin, one to an OPTIONS request also with Access-Control-Request-Method and Access-Control-Request-Headers, and every answer still varies with what it did before and with nothing else.", "quantifier": "every existing Vary value and added name; every configuration and request", "why_tests_cant": "all strings", "anchors": ["middleware/cors.go: addVaryHeader", "middleware/cors.go:167-202"]}
{"id": "C53", "title": "Security headers are set exactly as configured", "statement": "SecurityHeaders sets HSTS iff enabled and the request is secure, X-Frame-Options, nosniff and XSS headers iff enabled, with values determined by the configuration alone (the same on every request), and leaves all other headers alone. A handler that returns neither a response nor an error leaves nothing to set them on: it comes through if no header is to be set, and makes the request panic otherwise.", "quantifier": "every configuration, request sequence and response", "why_tests_cant": "all configurations and request sequences (the value is memoised in shared state)", "anchors": ["middleware/security.go"]}
{"id": "C54", "title": "Responses are only compressed in an encoding the client listed", "statement": "If Content-Encoding is set by the compression response then the client's Accept-Encoding lists that encoding; without any supported encoding the response is written unmodified.", "quantifier": "every Accept-Encoding value", "why_tests_cant": "all strings", "anchors": ["response/compress.go: getCompressionAlgorithmFromHeaderValue, Write"]}
{"id": "C55", "title": "Only valid compression levels are accepted", "statement": "Creating a compressed response succeeds exactly for levels -1 to 9, and preserves status, headers and cookies of the wrapped response; the middleware fails exactly for the other levels, whatever the handler returns without error.", "quantifier": "every integer level and response", "why_tests_cant": "all integers", "anchors": ["response/compress.go: NewHttpCompressResponse", "middleware/compress.go:12-22"]}
{"id": "C56", "title": "A response is written once, headers first", "statement": "Writing a header response with a status in 100..999 (0 meaning 200) commits exactly one status line, after cookies and headers; custom headers win over the default content type, nosniff is added unless set; any other status writes nothing and returns an error.", "quantifier": "every response value and writer state", "why_tests_cant": "all header maps and status codes", "anchors": ["response/headers.go: Write", "response/text.go", "response/json.go"]}
{"id": "C57", "title": "Header order does not matter", "statement": "The headers sent do not depend on the (random) iteration order of the response's header map.", "quantifier": "every header map and every iteration order", "why_tests_cant": "iteration order is randomised by the runtime", "anchors": ["response/headers.go: Write", "response/response.go: HttpHeaders"]}
{"id": "C58", "title": "Pooled header maps are never shared or dirty", "statement": "As long as each response is written at most once, a header map obtained for a new response is empty and is not held by any other response still being built.", "quantifier": "every interleaving of creations, header writes and response writes", "why_tests_cant": "all interleavings over a pool", "anchors": ["response/response.go: NewHttpHeaders, Release", "response/headers.go: Headers, Write"]}
{"id": "C59", "title": "Response headers set by middlewares reach the client", "statement": "Headers and cookies added to a response through Headers()/Cookies() are sent to the client, for every kind of response.", "quantifier": "every response kind, header name and value", "why_tests_cant": "all kinds and values", "anchors": ["response/redirect.go: Write", "response/adaptor.go: Write", "response/headers.go: Write"]}
{"id": "C60", "title": "Server-sent events survive encoding", "statement": "For events whose fields contain no line breaks (and ids no NUL), an event-stream parser reading the concatenation of the written events recovers exactly the events (type, data lines, id, retry when positive), in order; an event without any field is not sent.", "quantifier": "every sequence of such events", "why_tests_cant": "all strings and all sequences", "anchors": ["response/sse.go: ServerSentEvent.String"]}
{"id": "C61", "title": "Server-sent events are delivered in order until cancellation", "statement": "The SSE response writes and flushes each generated event in order, exactly once, until the request is cancelled, a write fails or the channel closes; requests that are not HTTP/2 get 500 and no event.", "quantifier": "every event sequence, cancellation point and write-failure point", "why_tests_cant": "all cancellation and failure points", "anchors": ["response/sse.go: HttpSSEResponse.Write"]}
{"id": "C62", "title": "SSE responses disable caching", "statement": "The header block of an SSE response carries Cache-Control: no-cache.", "quantifier": "every SSE response", "why_tests_cant": "depends on the commit point of the header block", "anchors": ["response/sse.go: HttpSSEResponse.Write"]}
{"id": "C63", "title": "Flushed events reach the connection under compression", "statement": "After each SSE event is written, the connection is flushed, also when the response is compressed.", "quantifier": "every event sequence, compressed or not", "why_tests_cant": "all sequences", "anchors": ["response/compress.go: compressResponseWriter.Flush", "response/sse.go"]}
{"id": "C64", "title": "Cookies are keyed by name, path and domain", "statement": "Adding cookies keeps exactly the last added cookie for each (name, path, domain); cookies differing in one of these coexist.", "quantifier": "every sequence of cookies", "why_tests_cant": "all sequences and strings", "anchors": ["response/response.go: HttpCookies.Add"]}
{"id": "C65", "title": "JSON error messages are only capitalised", "statement": "The error text in a JSON error response is the error's message with its first letter upper-cased and the rest unchanged.", "quantifier": "every error message", "why_tests_cant": "all byte strings", "anchors": ["response/json.go: errorToString"]}
{"id": "C66", "title": "Request segment buffers are not shared between requests", "statement": "While a request is served its segment buffer is used by no other request, and a cloned matching context keeps its values after the request ends.", "quantifier": "every interleaving of requests", "why_tests_cant": "all interleavings over a pool", "anchors": ["router/router.go: ServeHTTP, urlPathSegmentsPool", "router/path/matching_context.go: Clone"]}
{"id": "C67", "title": "Generated OAuth states use the declared alphabet", "statement": "A generated state has the requested length and consists only of lower-case letters and digits.", "quantifier": "every length and every random source", "why_tests_cant": "all random streams", "anchors": ["gofre.go: generateUniqueId"]}
{"id": "C68", "title": "A CSRF nonce sent as a form field is honoured", "statement": "A state-changing request that carries a live nonce in the documented form field, and no nonce header, reaches the handler behind the CSRF middleware.", "quantifier": "every request, every cache state", "why_tests_cant": "Tests fill in the parsed form by hand; whether the field is visible depends on what happened to the request before, for every request.", "anchors": ["middleware/csrf.go:48-54"]}
{"id": "C69", "title": "Building an authorisation URL does not modify application data", "statement": "Calling InitiateUrl leaves every slice of the application unchanged, including the array behind the configured scopes.", "quantifier": "every configured scopes slice with any spare capacity", "why_tests_cant": "Tests use slice literals, which have no spare capacity, so the write into the shared array never shows.", "anchors": ["auth/oauth/github.go:42-46", "auth/oauth/google.go:48-53"]}
{"id": "C70", "title": "Requests of the site's own origin are not refused by CORS", "statement": "A request without an Origin header, or whose Origin denotes the scheme, host and port the request was sent to, is never refused by the CORS middleware; the handler's response is passed on.", "quantifier": "every request, configuration and handler", "why_tests_cant": "Whether two spellings denote one origin depends on scheme, host and port together; tests try a few spellings.", "anchors": ["middleware/cors.go:242-330"]}
{"id": "C71", "title": "The configured frame option is sent", "statement": "With clickjacking protection enabled, every response carries X-Frame-Options with the value of the configured option (DENY, SAMEORIGIN or ALLOW-FROM uri).", "quantifier": "every configuration and request sequence", "why_tests_cant": "The value is assembled from two configuration fields and cached on first use; tests set both fields consistently.", "anchors": ["middleware/security.go:20-79", "middleware/security.go:97-99"]}
{"id": "C72", "title": "Event data cannot forge other events", "statement": "An event-stream parser reading what was written for one event sees at most that one event, with no field that the application did not set, whatever the data is.", "quantifier": "every event with arbitrary text in its fields", "why_tests_cant": "Injection depends on the position of line breaks in arbitrary texts; tests send tame data.", "anchors": ["response/sse.go:30-59"]}
{"id": "C73", "title": "A cancelled event stream ends", "statement": "When the request of an event stream is cancelled, writing the response returns, whatever the generator does.", "quantifier": "every event sequence and every point of cancellation", "why_tests_cant": "Every event sequence, every point of cancellation and a generator that may stay silent for ever.", "anchors": ["response/sse.go:70-104"]}
{"id": "C74", "title": "A compressed body decodes to the original", "statement": "Decoding the body of a compressed response with the announced Content-Encoding gives exactly the body sent without compression, and the outcome of writing is the same.", "quantifier": "every response, every lossless compressor, every level from -1 to 9", "why_tests_cant": "All payloads, response kinds, header maps and nestings.", "anchors": ["response/compress.go:46-74", "response/compress.go:98-117"]}
{"id": "C75", "title": "An announced length is the length of the body", "statement": "A Content-Length sent with a response is the length of its body, also when it is compressed.", "quantifier": "every response, header map and Accept-Encoding", "why_tests_cant": "All header maps and payloads.", "anchors": ["response/compress.go:46-74", "response/headers.go:38-79"]}
{"id": "C76", "title": "A response that could not be written is not reported as success", "statement": "If writing a response fails before anything was sent, the client does not get status 200.", "quantifier": "every response and writer", "why_tests_cant": "All failing payloads, statuses and writers.", "anchors": ["router/router.go:66-104", "response/headers.go:38-79", "response/json.go:22-44"]}
{"id": "C77", "title": "Header maps given to a response stay the application's", "statement": "A header map that the application passes to a response has the same content after the response was written, so that it can be passed to further responses.", "quantifier": "every header map and every sequence of responses", "why_tests_cant": "Tests use a new map for every response; reuse across responses is what matters.", "anchors": ["response/response.go:38-42", "response/headers.go:38-46"]}
{"id": "C78", "title": "The README's four patterns serve its URLs as documented", "statement": "With the README's patterns /users/john/{lastName}, /users/john/doe, /users/*/doe and /users/** registered in any order, a GET for a path below /users is served by the most specific pattern that describes it, with lastName bound to the segment.", "quantifier": "every registration order, every request path below /users", "why_tests_cant": "Tests register one order and request the listed URLs; the claim covers all orders and all paths.", "anchors": ["README.md:116-134", "router/path/matcher.go:51-252"]}
{"id": "C79", "title": "A ** between or after literals matches as documented", "statement": "/users/**/doe matches any path that starts with /users and ends with /doe; /users/** matches any path that starts with /users.", "quantifier": "every request path", "why_tests_cant": "Tests try a few depths; the claim covers every number and content of segments in between.", "anchors": ["README.md:136-139", "router/path/matcher.go:148-252"]}
{"id": "C80", "title": "The OAuth2 login flow completes", "statement": "An initiate request that is answered sends the browser to a configured provider with a redirect URI naming that provider; the route registered for callbacks serves a GET for that URI's path with the provider's name, and a callback carrying the issued state before it expires redeems its code with the same provider and the same redirect URI and, on success, runs the user's handler.", "quantifier": "every configuration, every path prefix, every sequence of requests before and between, every provider name that can be a path segment", "why_tests_cant": "Tests call the handlers one at a time with made-up state; the claim joins the redirect URI, the registered route, the state cache and the callback across any interleaving of other users' requests.", "anchors": ["gofre.go:193-268", "gofre.go:301-317", "router/path/matcher.go:148-252"]}
{"id": "C81", "title": "Common middlewares apply to all handlers", "statement": "A middleware given to the application before anything else (CommonMiddlewares: \"will be applied for all handlers\") wraps every handler the application registers.", "quantifier": "every program of registrations, clones and sub-routers", "why_tests_cant": "Tests check a few routes registered by hand; the claim covers every way a route can come into being.", "anchors": ["gofre.go:120-138", "gofre.go:178-183", "gofre.go:296-299", "gofre.go:319-334"]}
{"id": "C82", "title": "Static assets are served from their path", "statement": "With resources configured, a GET for ContextPath/AssetsMappingPath/name is answered with the file `name` of the assets directory, and never with a file outside it.", "quantifier": "every context path, mapping path, file name and request path", "why_tests_cant": "Tests never send a request to the assets route; the claim joins pattern, matching and prefix stripping.", "anchors": ["gofre.go:120-138", "router/path/pattern.go:86-178", "router/path/matcher.go:148-252"]}
{"id": "C83", "title": "Routes are below the context path", "statement": "With a ContextPath configured, a route registered at a path is served at the context path followed by that path.", "quantifier": "every context path, every program of registrations", "why_tests_cant": "Tests only check that the configuration value is kept.", "anchors": ["gofre.go:64-90", "gofre.go:120-138", "gofre.go:296-317"]}
{"id": "C84", "title": "Every request gets exactly one answer", "statement": "Whatever the handler does, the client gets interim responses, then exactly one final status line with its headers, then the body: 404 without headers when no route matches, 500 when the handler fails, otherwise the handler's response (or the connection is handed over, with nothing sent on it before).", "quantifier": "every router, request, handler result, response of every kind, nesting of compression, connection that may fail at any write", "why_tests_cant": "Tests use a recorder that keeps only the last state and never a failing connection; the claim quantifies over every response and every failure.", "anchors": ["router/router.go:66-104", "response/headers.go:38-79", "response/compress.go:46-74", "response/adaptor.go:33-51", "response/sse.go:70-104", "response/hijack.go:35-42"]}
{"id": "C85", "title": "Dumping requests only observes", "statement": "RequestDumper dumps the request (before processing) and the corresponding response, once, and changes neither the response nor the error.", "quantifier": "every handler, request, response and logger", "why_tests_cant": "Tests check that the logger was called for one handler; neither transparency nor what happens when the handler changes the request is examined.", "anchors": ["middleware/dump.go:17-74"]}
{"id": "C86", "title": "A constructed response is sent as its constructor says", "statement": "What a response constructor returns is sent with the status it was given (or its name says), its content type unless the given headers have one, every given header and cookie, and exactly the payload: the text, the JSON text ({} for nil), the error text with a capital first letter, the concatenation of what the writer function or the template writes; redirects with their status and Location; event streams with 200; an adapted handler alone decides.", "quantifier": "every public constructor, payload, header map, cookie map and status that allows a body (200 to 999 without 204 and 304)", "why_tests_cant": "Tests compare the struct fields of a few constructors with a few literals; they do not follow every constructor to the bytes sent for every payload.", "anchors": ["response/text.go:25-82", "response/json.go:47-116", "response/raw.go:33-61", "response/streaming.go:31-59", "response/template.go:52-97", "response/headers.go:82-86", "response/redirect.go:20-41", "response/sse.go:113-134", "response/adaptor.go:54-65"]}
{"id": "C87", "title": "An OAuth2 state is honoured only at the provider it was issued for", "statement": "For every history of OAuth2 requests, a callback for a provider runs the application's handler only if the state it carries was issued for a flow with that same provider.", "quantifier": "for every provider configuration, history of initiate and callback requests, callback request and handler", "why_tests_cant": "Needs flows that mix two providers; tests drive one provider from start to end.", "anchors": ["gofre.go:193-268", "auth/oauth/oauth2.go:57-64"]}
{"id": "C88", "title": "An OAuth2 callback is accepted only from the browser that began the flow", "statement": "A callback runs the application's handler only if its request comes from the client (cookies, headers) that received the state in an initiate response.", "quantifier": "for every configuration and pair of initiate and callback requests", "why_tests_cant": "Login forgery needs two clients whose requests are interleaved; tests use one client.", "anchors": ["gofre.go:193-268"]}
{"id": "C89", "title": "Handler errors reach the client as documented JSON", "statement": "Behind ErrJsonResponse, every error a handler returns is sent with the status documented for its kind, Content-Type application/json and the body {\"error\": message}; responses and panics pass unchanged and the handler's side effects remain.", "quantifier": "for every handler, request, error value and state, up to the bytes on the connection", "why_tests_cant": "Unit tests check one error kind at the response object; the claim composes middleware, response writer and router for all of them.", "anchors": ["middleware/errors.go:12-37", "response/json.go:28-40", "router/router.go:85-104"]}
{"id": "C90", "title": "A recovered panic reveals nothing of the server to the client", "statement": "What the client receives after a handler panicked does not depend on the server's stack trace.", "quantifier": "for every handler, panic value, stack text and order of the recovery and error middlewares", "why_tests_cant": "Depends on the order of two middlewares and on what is finally written; the tests of each middleware look at it alone.", "anchors": ["middleware/panic.go:14-26", "middleware/errors.go:12-37"]}
{"id": "C91", "title": "CompressResponse changes only the representation", "statement": "Wrapping a handler in CompressResponse leaves errors, panics and effects as they are, and a client that decodes by the announced encoding receives the same status and the same body as without it.", "quantifier": "for every compression level, handler, request, response and lossless codec", "why_tests_cant": "Quantifies over all responses and codecs, and compares two runs byte for byte.", "anchors": ["middleware/compress.go:12-22", "response/compress.go:46-117"]}
{"id": "C92", "title": "The authorisation address carries exactly the intended parameters", "statement": "Reading the address a user is redirected to, as any server reads a query, yields the provider's authorisation endpoint and exactly the configured client, the issued state, the redirect address and the other parameters, whatever bytes they contain; and the address contains only printable ASCII; its query is written as RFC 3986 and the form standard say, with the names in alphabetical order.", "quantifier": "every client id, login, scopes, redirect address and state", "why_tests_cant": "encoding and decoding must agree on all byte strings, not on the ones a test spells out", "anchors": ["auth/oauth/github.go:42-60", "auth/oauth/google.go:48-73"]}
{"id": "C93", "title": "Token requests follow RFC 6749", "statement": "The request that exchanges a code is a declared form with grant type, code, client and the redirect address the authorisation was asked with.", "quantifier": "every client, secret, code and redirect address", "why_tests_cant": "tests replace the provider and look only at the reply", "anchors": ["auth/oauth/github.go:62-73", "auth/oauth/google.go:75-94"]}
{"id": "C94", "title": "A callback sends credentials only to the provider's token endpoint", "statement": "While a callback is handled nothing is sent unless its state was issued and has not expired; then one token request goes to the provider named in the path, and possibly one user request with the token answered; nothing else.", "quantifier": "every history, callback, set of GitHub/Google providers and answers of the network", "why_tests_cant": "what is not sent in any history cannot be observed by running some histories", "anchors": ["gofre.go:233-267", "auth/oauth/github.go:62-142", "auth/oauth/google.go:75-171"]}
{"id": "C95", "title": "Requests served at the same time do not end the process", "statement": "Cache calls of concurrent requests behind CSRFPrevention or the OAuth2 handlers never end the process.", "quantifier": "every number of requests and every interleaving of their cache calls", "why_tests_cant": "the fatal interleavings are a matter of timing", "anchors": ["cache/cache.go:16-36", "middleware/csrf.go:40-69", "gofre.go:222-250"]}
{"id": "C96", "title": "Expired cache entries are forgotten", "statement": "The in-memory cache does not keep entries of nonces and states that have expired.", "quantifier": "every history of requests and any passage of time", "why_tests_cant": "growth only shows over long runs", "anchors": ["cache/cache.go:24-36", "middleware/csrf.go:58-66", "gofre.go:222-228"]}
{"id": "C97", "title": "OAuth2 states cannot be guessed", "statement": "Nobody can compute the state of a flow without having seen it (the Provider interface asks for an unguessable random string).", "quantifier": "every process and every request", "why_tests_cant": "unpredictability is not a property of sample values", "anchors": ["gofre.go:222", "gofre.go:354-364", "auth/oauth/oauth2.go:85-90"]}
{"id": "C98", "title": "A response reported as written was sent completely", "statement": "If a response's Write returns no error (so the router logs nothing), its payload could be produced and the connection accepted the whole body.", "quantifier": "every response, payload, failure of a source and pattern of failures of the connection", "why_tests_cant": "the failures are those of connections at arbitrary points, which test recorders never show", "anchors": ["router/router.go:101-103", "response/raw.go:19-30", "response/streaming.go:17-28", "response/template.go:39-49", "response/sse.go:70-104", "response/compress.go:46-74"]}
{"id": "C99", "title": "Configured settings are kept and others get their documented defaults", "statement": "NewMuxHandler keeps every setting given, replaces those left out by the documented defaults, fails exactly when templates that have to be parsed cannot be, and leaves everything else of the program alone; a configuration can be used again.", "quantifier": "every configuration, every aliasing of configurations and resources, every set of template files", "why_tests_cant": "quantifies over every combination of settings given and left out and over sharing between configurations", "anchors": ["gofre.go:24-90", "gofre.go:92-118"]}
{"id": "C100", "title": "Config() returns an independent copy", "statement": "Changing what Config() returns changes nothing for the mux (its comment promises a copy).", "quantifier": "every mux and every change", "why_tests_cant": "whether anything observable changes is a matter of all aliases, not of one read", "anchors": ["gofre.go:140-151"]}
{"id": "C101", "title": "Of /a/{b} and /a/* registered together the second is never executed", "statement": "The README documents that a pattern ending in * is never executed when the same pattern ending in a variable is registered; so no request reaches the handler of the former.", "quantifier": "every common beginning, every set and order of other patterns, every request path", "why_tests_cant": "never is a statement about all paths and all sets of other patterns", "anchors": ["README.md:149-153", "router/path/matcher.go:51-146", "router/path/matcher.go:148-252", "router/path/encode.go:16-66"]}
{"id": "C102", "title": "StatusCode tells the status that is sent", "statement": "The status a middleware reads from a response (and the request dumper logs) is the status the client gets when the response is written.", "quantifier": "every response of every kind, any nesting of compression, every request and writer nothing was sent on", "why_tests_cant": "Tests compare StatusCode with the constructor's argument, and the sent status in other tests; nothing relates the two for all kinds", "anchors": ["response/response.go:94-101", "response/headers.go:17-22", "response/adaptor.go:15-17", "response/redirect.go:14-17", "response/sse.go:70-84", "middleware/dump.go:49-59"]}
{"id": "C103", "title": "Only a wildcard reaches deeper scopes", "statement": "A permission covers the scopes of its own depth that agree with it level by level, and scopes below its own only when it ends in the wildcard *, as documented.", "quantifier": "every pair of permissions, scopes of any depth, any access bits", "why_tests_cant": "Tests list a few pairs of scopes; the ones where the levels below repeat the last level of the permission are not among them", "anchors": ["auth/auth.go:60-70", "auth/auth.go:95-123"]}
{"id": "C104", "title": "A CSRF token is accepted only from the client it was issued to", "statement": "A state-changing request passes the CSRF check only with a token that was issued to the same client.", "quantifier": "every cache, handler and sequence of requests, any headers and cookies", "why_tests_cant": "Tests use one client; whether a token of one client serves another is a statement about pairs of clients and all requests in between", "anchors": ["middleware/csrf.go:40-69", "cache/cache.go:24-36"]}
{"id": "C105", "title": "No request ends the process of the example server", "statement": "Whatever a client sends to the event stream of the example server, the process keeps running.", "quantifier": "every state of the stream, every interleaving of any number of connections, every Last-Event-Id header", "why_tests_cant": "The crash is an unrecovered panic in a goroutine started by a handler, reached only with particular header values", "anchors": ["examples/evtgen.go:23-38", "examples/cmd.go:103-130"]}
{"id": "C106", "title": "A client of the example event stream gets the events in order", "statement": "A connected client is sent the events one after the other without gap, repetition or disorder.", "quantifier": "every interleaving of producer and connections, every size of the ring", "why_tests_cant": "Overwriting of unread places and shared indices only show in particular interleavings and after enough events", "anchors": ["examples/evtgen.go:17-38", "examples/cmd.go:111-128"]}
{"id": "C107", "title": "Every client of the example event stream gets every event", "statement": "Two clients connected at the same time are both sent all events.", "quantifier": "every interleaving of any number of connections", "why_tests_cant": "Quantifies over all interleavings of several goroutines with shared indices", "anchors": ["examples/evtgen.go:23-34", "examples/cmd.go:103-130"]}
{"id": "C108", "title": "A reconnecting client continues after the last event it got", "statement": "A client that reconnects with Last-Event-Id n is sent event n+1 and its successors.", "quantifier": "every history before, every n, every interleaving with the producer", "why_tests_cant": "Depends on how far the producer has gone round the ring and on what other connections do", "anchors": ["examples/evtgen.go:23-38", "examples/cmd.go:106-109"]}
{"id": "C109", "title": "The preflight of a route behind Cors is answered by Cors", "statement": "When a route is registered with the Cors middleware, the browser's preflight (OPTIONS) for its path is answered with the CORS headers of its configuration.", "quantifier": "every router, configuration and preflight", "why_tests_cant": "A test calls the middleware with an OPTIONS request; whether the router ever calls it for one depends on the whole set of registered routes.", "anchors": ["middleware/cors.go:88-116", "router/router.go:66-104"]}
{"id": "C110", "title": "A browser that asks first gets to send the request it asked for", "statement": "For a cross-origin request whose origin, credentials, method and header names the configuration of Cors allows, the answer to the preflight lets a browser following the Fetch standard send the request, and its response lets the script read it.", "quantifier": "every configuration, origin, method, list of header names, with and without credentials", "why_tests_cant": "Two requests and a browser's reading of the first answer are involved, for all configurations and spellings.", "anchors": ["middleware/cors.go:51-67", "middleware/cors.go:135-202", "middleware/cors.go:264-279"]}
{"id": "C111", "title": "The debug endpoints show what their paths stand for", "statement": "On a mux with the debug endpoints registered, the request for a profile below `/debug/pprof/` (allocs, block, goroutine, heap, mutex, threadcreate) is shown that profile, and the other debug paths show their own page, whatever prefix the mux was given.", "quantifier": "all path prefixes, all other registered patterns, all request paths", "why_tests_cant": "A test of the endpoints mounts them without prefix and asks for the exact paths; no test mounts them below every prefix or asks for other spellings of the path.", "anchors": ["gofre.go:320-334", "gofre.go:301-318"]}
{"id": "C112", "title": "The routes of the example server", "statement": "Every GET request to the example server is answered by the handler its path is meant for (literal routes before variable ones, one path segment per variable, anything below /assets), by 404 if it is meant for none, in whatever order the routes are registered, and each variable has the value of the segment it stands for.", "quantifier": "all request paths, all orders of registration", "why_tests_cant": "The set of paths is unbounded and thirteen routes have over six billion orders of registration.", "anchors": ["examples/cmd.go:21-147", "router/router.go:46-104"]}
{"id": "C113", "title": "The authorization example grants exactly what the path says", "statement": "A GET of `/security/authorize/v` on the example server runs the handler exactly when v is a decimal number below 2^32 whose bit for the deletion (8) is set; any other permission is answered by 401, and anything that is no permission by 500.", "quantifier": "all path values v, all handlers and states", "why_tests_cant": "The values are unbounded texts that may contain colons, signs, leading zeros and numbers of any size.", "anchors": ["examples/cmd.go:132-147", "auth/auth.go:220-239", "middleware/auth.go:15-28", "middleware/authz.go:18-65"]}
{"id": "C114", "title": "An event stream ends when the client goes away", "statement": "After the client of an event stream has disconnected at most one more event is written, the writing of the response returns, and the goroutine of the generator ends. As long as the client is there and no writing fails, the stream goes on and every event taken is written or on its way. When a writing fails the writing of the response returns, and only that event is lost of those it had taken.", "quantifier": "all schedules of the two goroutines, the client and the channel", "why_tests_cant": "The failing schedule needs the client to disconnect between two particular steps of two goroutines.", "anchors": ["response/sse.go:70-104", "examples/cmd.go:105-128"]}
{"id": "C115", "title": "A handler that takes the connection over gets it", "statement": "A response that takes the TCP connection over gets the connection whenever the server supports it, whatever middlewares the handler is behind.", "quantifier": "all requests, all numbers and levels of compressing middlewares, all connections", "why_tests_cant": "Tests call Write with a recorder and no compression; the combination depends on the Accept-Encoding of each client.", "anchors": ["response/hijack.go:35-42", "response/compress.go:46-74", "response/compress.go:98-117"]}
{"id": "C116", "title": "Security headers under concurrent requests", "statement": "Every request through SecurityHeaders gets the configured header texts, and none crashes the program, whatever requests run at the same time.", "quantifier": "all interleavings of the steps of any number of requests, all texts, all orders of the stores and loads of a string", "why_tests_cant": "The failure needs two first requests to meet within two machine instructions.", "anchors": ["middleware/security.go:36-50", "middleware/security.go:61-72", "middleware/security.go:82-115"]}
{"id": "C117", "title": "Values sent in the path come back", "statement": "A link made from a pattern by putting escaped values (percent-encoding, in any of the ways clients write it) in the place of its variables is answered by that pattern, and PathVar returns the values that were put in.", "quantifier": "all patterns of literals and variables, all values (any bytes), all other registered patterns", "why_tests_cant": "Values are arbitrary byte strings; which of them are lost shows only through decoding, splitting, normalisation and matching together.", "anchors": ["router/router.go:66-80", "router/path/matching_context.go:53-89", "router/path/matching_context.go:91-147"]}
{"id": "C118", "title": "Handlers read from the context what was put there", "statement": "Whatever middlewares a request passes, in whatever order, the handler reads from its context the principal, the access token and the CSRF nonce put there last, none of them hides another, and the application's own values are untouched.", "quantifier": "all sequences of context additions by the framework's middlewares, the login callback and the application", "why_tests_cant": "Orders and nestings of middlewares are unbounded; a key shared by two of them would only show in one combination.", "anchors": ["auth/auth.go:10-21", "auth/oauth/oauth2.go:23-34", "middleware/csrf.go:18-32", "middleware/csrf.go:65-66", "middleware/auth.go:15-28", "gofre.go:256-263"]}
{"id": "C119", "title": "HighPriorityThan orders patterns from most to least specific", "statement": "Pattern.HighPriorityThan is a strict order that decides between any two patterns of different text, and of two patterns the one whose segments are more specific, read from left to right, is before the other; equally specific ones are ordered by their text.", "quantifier": "every two or three patterns", "why_tests_cant": "quantifies over all pairs and triples of patterns; no test calls the method", "anchors": ["router/path/pattern.go: HighPriorityThan", "router/path/encode.go: computePriority"]}
{"id": "C120", "title": "The constructors of a mux report what is wrong as an error", "statement": "NewMuxHandler, NewMuxHandlerWithDefaultConfig and NewMuxHandlerWithDefaultConfigAndTemplateSupport return a mux or an error, for every configuration and every set of template files; they neither panic nor end the process.", "quantifier": "every configuration, every set of template files", "why_tests_cant": "the tests use valid configurations; the ways of failing depend on configuration, pattern syntax and files together", "anchors": ["gofre.go:99-138", "gofre.go:43-61", "router/router.go:46-62"]}
{"id": "C121", "title": "A cache between server and client gives nobody an encoding they did not list", "statement": "An answer compressed for one client is not given by a standards-conforming shared cache to a client whose Accept-Encoding differs: the answer's Vary names Accept-Encoding.", "quantifier": "every response, every Accept-Encoding header of both clients", "why_tests_cant": "needs a second client and a cache between; quantifies over the headers of both requests", "anchors": ["response/compress.go:46-81", "middleware/compress.go"]}
{"id": "C122", "title": "A cache gives no origin an answer meant for another", "statement": "When a standards-conforming cache may answer one GET or HEAD request with the answer to another, the Cors middleware would have given the second request the same answer.", "quantifier": "every configuration, handler answer and pair of requests", "why_tests_cant": "quantifies over pairs of requests and the Vary values handlers set", "anchors": ["middleware/cors.go: addStandardCorsHeaders", "middleware/cors.go: addVaryHeader", "response/headers.go:63-67"]}
{"id": "C123", "title": "Who signs in again is the same user", "statement": "The user an OAuth2 sign-in yields is the same for one account at a provider whenever it signs in, and different for different accounts.", "quantifier": "every pair of sign-ins, every state of the accounts", "why_tests_cant": "relates two sign-ins between which the account changed; tests look at one answer of the provider", "anchors": ["auth/oauth/github.go:112-142", "auth/oauth/google.go:141-171"]}
{"id": "C124", "title": "An address the provider has not verified identifies nobody", "statement": "An account with an e-mail address the provider reports as not verified is not taken for the user with that address.", "quantifier": "every address and every pair of accounts", "why_tests_cant": "relates the sign-ins of two accounts", "anchors": ["auth/oauth/google.go:141-171"]}
{"id": "C125", "title": "HEAD is answered like GET", "statement": "A HEAD request to a path with a route for GET gets the status and headers the GET request would get.", "quantifier": "every set of routes and every path", "why_tests_cant": "quantifies over all routers and paths", "anchors": ["router/router.go:64-104", "gofre.go:271-298"]}
{"id": "C126", "title": "A request runs exactly the chain of a route that is for it", "statement": "Whatever a program registers, on whatever sub-routers and clones, a request runs the common middlewares its route's router had at registration, the route's own middlewares and its handler, in this order and once, for a route whose method is that of the request and whose resolved pattern describes the path, with the variables of that pattern; when there is no such route the answer is 404 and nothing runs.", "quantifier": "every program of registrations, every handler and middleware, every request and state", "why_tests_cant": "relates the whole program of registrations to the behaviour of every request; quantifies over all programs, patterns and paths", "anchors": ["gofre.go:155-183", "gofre.go:270-338", "router/router.go:44-104"]}
{"id": "C127", "title": "Nothing of a guarded application runs for a client without the permissions", "statement": "When ErrJsonResponse, SecurityPrincipalSupplier and AuthorizeAll are given to the first mux before anything else, a request whose principal lacks one of the permissions, or that has none, runs nothing of the application but the supplier, and is answered 404, 401 or with the status of the supplier's error.", "quantifier": "every program, supplier, permissions, request and state", "why_tests_cant": "quantifies over everything the application may register later", "anchors": ["gofre.go:120-183", "gofre.go:296-334", "middleware/authz.go", "middleware/auth.go", "middleware/errors.go:31-51", "router/router.go:66-104"]}
{"id": "C128", "title": "Without a live nonce nothing of an application that changes state runs", "statement": "When ErrJsonResponse and CSRFPrevention are given to the first mux before anything else, a request with a state-changing method that does not carry a live nonce runs nothing of the application behind them, whatever the program registers afterwards and on whichever router: it gets 403 as JSON (or 404, or is for the assets or a debug endpoint), and nothing changes. No handler registered with HandlePost, HandlePut, HandlePatch or HandleDelete runs for a request without a live nonce, however its method is spelled. With a live nonce the chain of the route runs, the nonce spent and a new one shown to it.", "quantifier": "every program, request, nonce cache, clock and random source", "why_tests_cant": "quantifies over everything the application may register later and over all spellings of methods", "anchors": ["gofre.go:120-183", "gofre.go:270-334", "middleware/csrf.go:35-69", "middleware/errors.go:31-51", "router/router.go:44-104"]}
{"id": "C129", "title": "A nonce lets one request into an application", "statement": "Behind ErrJsonResponse and CSRFPrevention, given to the first mux before anything else, of two state-changing requests that carry one nonce at least one runs nothing of the application behind the middleware, to whichever routes they go and whatever requests are served before and between them, unless the nonce was given out again in between.", "quantifier": "every program whose own handlers and middlewares put no nonce into the cache, all requests served one after the other", "why_tests_cant": "quantifies over the application and over unbounded sequences of requests to different routes", "anchors": ["middleware/csrf.go:35-69", "gofre.go:120-183", "router/router.go:66-104", "cache/cache.go:24-36"]}
{"id": "C130", "title": "A token has the fields the provider returned", "statement": "The token that a login gives to the handler has what the provider's reply says: the token and its type, the scopes listed in the reply and no others, the refresh token and the lifetime if the reply has them.", "quantifier": "every reply of a provider", "why_tests_cant": "The space of replies is unbounded, and tests use replies without the optional fields.", "anchors": ["auth/oauth/oauth2.go:66-78", "auth/oauth/github.go:85-95", "auth/oauth/google.go:106-123"]}
{"id": "C131", "title": "A login admits only states issued by the application", "statement": "In an application with a login flow, whatever else it registers before and after it, a request whose `state` was not given to an earlier request for the initiate path, within the configured time, is answered, and changes things, in a way that does not depend on the user's handler behind the login: the handler does not run. The callback runs it exactly when the provider is configured, no error is reported, the state is live and the provider calls succeed, with the token and the user in the context.", "quantifier": "every program around the login flow whose handlers and middlewares put no state of their own into the cache and pass the request on, every history of requests served one after the other, every provider behaviour", "why_tests_cant": "quantifies over everything the application may register and over unbounded histories; that a handler does not run is a statement about all handlers", "anchors": ["gofre.go:193-268", "gofre.go:120-183", "gofre.go:296-299", "cache/cache.go:24-36", "router/router.go:66-104"]}
{"id": "C132", "title": "A login state is good only for the client it was issued to", "statement": "The callback of the login flow accepts a state only from the client whose initiate request issued it, as far as the requests tell clients apart.", "quantifier": "every two requests with the same form values and any other headers", "why_tests_cant": "the claim compares all pairs of requests", "anchors": ["gofre.go:207-267"]}
{"id": "C133", "title": "GitHub and Google logins work under the documented names and addresses", "statement": "HandleOAUTH2 without a path prefix registers GET /oauth/initiate and GET /oauth/authorize/{providerName}. With the built-in providers configured, an initiate request with provider=github (or google), or any initiate request when only one provider is configured, is redirected to that provider's authorisation page, which is told the client, the state and the redirect URI <website>/oauth/authorize/github (or google); a callback under that name with a live state and no error redeems its code at that provider's token endpoint. Of several clients of one provider the first is used; every other name is refused with 400 and nothing is sent.", "quantifier": "every list of GitHub and Google clients, every website address, every request, state of the cache and answer of the network", "why_tests_cant": "The names are configured nowhere: users have to register the redirect URI with the provider and write the links themselves, and a test of one provider with one client does not show which client a name stands for.", "anchors": ["gofre.go:186-195", "gofre.go:207-267", "auth/oauth/github.go:38-40", "auth/oauth/google.go:44-46"]}
{"id": "C134", "title": "The sub-routers of the README serve the documented requests", "statement": "With the users router of the README (RouteUsingPathPrefix(\"/users\") behind the application's common middlewares and its own), GET /users runs getAllUsersHandler, GET /users/{userId} runs getUserHandler and POST /users/{userId} runs createUserHandler, each behind the application's middlewares, then the router's, with userId the second segment of the path; every other request gets 404 and runs nothing. With the health check of the README registered on a Clone before CommonMiddlewares, GET /health runs without these middlewares and GET /api1 and /api2 run behind them; every other request gets 404.", "quantifier": "all handlers and middlewares, every request whose method is ASCII", "why_tests_cant": "The claim covers every path and method, also those that must not be served, and every middleware; a test tries a few of each.", "anchors": ["README.md:264-299", "gofre.go:155-183", "gofre.go:270-299", "router/router.go:44-104"]}
{"id": "C135", "title": "A browser remembers the answer to a preflight for the configured time", "statement": "A browser that follows the Fetch standard remembers an answer of Cors to a preflight for the number of seconds of PreflightMaxAgeSeconds; with zero it asks again before every request.", "quantifier": "every configuration, preflight and handler", "why_tests_cant": "A test looks for the header; what a browser makes of its absence, and that every configuration ends in one of the cases, is not settled by that.", "anchors": ["middleware/cors.go:41-42", "middleware/cors.go:186-193"]}
{"id": "C136", "title": "Scripts of other origins can read the exposed headers and no others", "statement": "Of a response that passed Cors a script of another origin can read exactly the headers every script may read and those that ExposedHeaders lists, whatever the letter case, `*` standing for all when no cookies were sent, and never a cookie header. When the configuration lists none, the handler's own list counts.", "quantifier": "every configuration, request, handler and header name", "why_tests_cant": "All header names and lists, read by a browser following the Fetch standard.", "anchors": ["middleware/cors.go:43-44", "middleware/cors.go:182-184"]}
{"id": "C137", "title": "Middlewares that set headers pass every response on", "statement": "A response that a handler returns behind Cors or SecurityHeaders is passed on (unless Cors refuses the request), whatever kind it is, with nothing but the headers of the middleware changed.", "quantifier": "every configuration, request, handler and kind of response", "why_tests_cant": "Tests return one kind of response; that every kind has a header map which can be written to depends on all of them.", "anchors": ["middleware/cors.go:90-116", "middleware/security.go:82-115", "response/hijack.go:27-29", "response/headers.go:24-29", "response/adaptor.go:19-24"]}
{"id": "C138", "title": "The work of matching one request is bounded by what was registered", "statement": "Whatever routes are registered and whatever path is requested, the router decides which route answers within a number of steps that depends only on the registered routes: at most 40 rounds of the search per registered pattern segment and 2 more, at most 2 per segment and 2 more when no pattern contains `**`, and at most 20 comparisons of a request segment with a pattern segment per registered segment in each round. No request, however long or however crafted, makes the search take exponential time, not even with several `**` in one pattern.", "quantifier": "for all sets of registered patterns, with case-sensitive or case-insensitive matching, every sorting of the siblings, and all request paths", "why_tests_cant": "A test measures the requests somebody thought of; the requests that make a backtracking search slow are the ones nobody thought of, and the claim is about the worst of all of them.", "anchors": ["router/path/matcher.go:148-252", "router/path/matcher.go:51-146", "router/router.go:78-86"]}
{"id": "C139", "title": "Wildcards stand for whole characters", "statement": "A pattern segment with `*` or `?`, and a request segment, are texts of characters. The segment is accepted exactly if the pattern describes it character by character: `?` stands for one character, whichever it is, `*` for a run of characters, and every other character for itself, or for the same letter in the other case when matching is case-insensitive.", "quantifier": "for all pattern segments and request segments made of Unicode characters in UTF-8, in both case modes", "why_tests_cant": "The matcher works on bytes, which tests in ASCII cannot tell from characters; which of the million characters behave differently, and beside which others, is not a matter of samples.", "anchors": ["router/path/pattern.go:180-267", "router/path/pattern.go:194-203"]}
{"id": "C140", "title": "Every variable of a pattern can be read", "statement": "In a pattern that was accepted at registration every variable can be read: when the pattern answers a request, PathVar with the name of a variable gives the text of the request segment at its place, and with any other name nothing.", "quantifier": "for all registered patterns, all requests they answer and all variables of theirs", "why_tests_cant": "Tests read the variables of the patterns they register; which variables of an arbitrary pattern are hidden by others depends on all of its names.", "anchors": ["router/path/matching_context.go:53-88", "router/path/pattern.go:138-158"]}
{"id": "C141", "title": "A token for one purpose is not accepted for another", "statement": "A CSRF nonce is accepted only as a nonce and the state of a login only as a state: a callback whose state was never issued to a login is refused even if it is a live nonce, and a state-changing request that carries the state of a login instead of a nonce is refused, also in an application that gives the same cache to CSRFPrevention and to oauth.CacheConfig.", "quantifier": "for all histories of pages behind the CSRF middleware, started logins and callbacks, all random values, clocks and requests", "why_tests_cant": "Tests set up each feature with a cache of its own and never present a token of the other one.", "anchors": ["middleware/csrf.go:35-69", "gofre.go:203-268", "cache/cache.go:9-36"]}
{"id": "C142", "title": "The protections hold with every cache that keeps the interface's promise", "statement": "Whatever implementation of cache.Cache is used, as long as Contains says yes only for keys that were added without error, have not expired and were not removed since: a state-changing request reaches the handler behind the CSRF middleware only with a nonce that an earlier handler was given less than an hour ago, of requests processed one after the other only one with each nonce issued, and a login callback asks the provider only with a state with which an earlier request was sent to a provider, within the configured time. The in-memory cache keeps the promise.", "quantifier": "for all caches, failures of the cache and of the random source, clocks, requests and interleavings", "why_tests_cant": "Tests use the in-memory cache, which the sources call an example; what other implementations answer, forget or fail at is outside any test.", "anchors": ["cache/cache.go:5-13", "middleware/csrf.go:40-69", "gofre.go:203-268"]}
{"id": "C143", "title": "A request that failed before its handler can be sent again", "statement": "When a state-changing request with a live nonce fails before the handler behind the CSRF middleware is called, because no new nonce can be made or stored, its nonce is still good: the client can send the request again.", "quantifier": "for all requests, caches and failures", "why_tests_cant": "Tests do not make the random source or the cache fail after the check.", "anchors": ["middleware/csrf.go:52-65"]}
{"id": "C144", "title": "A refused registration changes nothing", "statement": "When Handle panics because a pattern is not well-formed or is already registered, and the program recovers from it, the router is as it was: every request is answered as before and every further registration is accepted or refused as it would have been.", "quantifier": "for all sequences of registrations, refused ones among them, methods and patterns", "why_tests_cant": "Tests check that a duplicate panics; nobody asks the router anything afterwards, and registering changes nodes on the way before it finds out.", "anchors": ["router/router.go:46-62", "router/path/matcher.go:51-146"]}
{"id": "C145", "title": "Forms and logins begun at the same time do not spoil each other", "statement": "A nonce shown to a handler stays good for an hour until some request was let in with it, and an OAuth2 state for the configured time, whatever other requests are served meanwhile, before, after or at the same time, and however many nonces and states they are given and use up. A state-changing request that carries such a nonce reaches the handler unless the random source or the cache fails while the new nonce is made.", "quantifier": "for all requests, interleavings, clocks and caches that forget nothing before its time, the in-memory cache among them; nonces and states do not repeat", "why_tests_cant": "Tests send one form; several tabs of a browser and many users mean arbitrary interleavings.", "anchors": ["middleware/csrf.go:40-69", "gofre.go:203-268", "cache/cache.go:15-36"]}
{"id": "C146", "title": "Answers made of errors carry the headers of Cors and SecurityHeaders", "statement": "When SecurityHeaders or Cors is used together with ErrJsonResponse, in whichever order they are given, an answer that ErrJsonResponse makes of a handler's error carries the configured security headers, and an allowed origin that sent the request can read it, as with any other answer.", "quantifier": "for all configurations, handlers, errors, requests and states", "why_tests_cant": "Tests of each middleware put a handler that succeeds, or one middleware alone, behind it; that the headers are missing on exactly the answers made of errors shows only in the combination.", "anchors": ["middleware/errors.go:31-51", "middleware/security.go:82-115", "middleware/cors.go:90-116"]}
{"id": "C147", "title": "An application starts exactly when its routes are well formed and different", "statement": "Registering the routes of a program succeeds if and only if every pattern is accepted and no two routes for one method have the same pattern (up to the names of variables and, if letter case is ignored, the case of letters); the order of registration plays no part.", "quantifier": "every program of registrations on whatever sub-routers and clones", "why_tests_cant": "Whether a registration is refused depends on the trie made by all earlier ones, and there are unboundedly many programs and orders.", "anchors": ["router/router.go:44-62", "router/path/matcher.go: AddPattern", "gofre.go: HandleRequest, RouteUsingPathPrefix, Clone"]}
