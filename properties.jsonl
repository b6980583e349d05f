{"id": "C01", "title": "JSON pointer round trip", "statement": "jp_split(jp_compose(tokens, base=b)) gives back jp_split(b) followed by exactly the tokens, whatever characters ('/', '~', '~0', '~1', ...) the tokens contain; without a base the same holds except for the single token list [''] , which composes to the empty pointer and splits to [].", "quantifier": "every list of token strings and every base string (or none)", "why_tests_cant": "The input domain is infinite (all strings / all documents); a test suite only samples it.", "anchors": ["pyopenapi/utils.py:jp_compose", "pyopenapi/utils.py:jp_split"]}
{"id": "C02", "title": "JSON pointer composition is injective and incremental", "statement": "Two different token lists composed on the same non-empty base give different pointers, and composing in two steps (the result of the first being the base of the second) is the same as composing once with the concatenated tokens; no composed token contains a raw '/'.", "quantifier": "every pair of token lists, every non-empty base", "why_tests_cant": "The input domain is infinite (all strings / all documents); a test suite only samples it.", "anchors": ["pyopenapi/utils.py:jp_compose"]}
{"id": "C03", "title": "Token decoding is RFC 6901 decoding", "statement": "The decoding jp_split applies to each '/'-separated part (two successive global replacements) equals the one-pass RFC 6901 unescaping ('~1' is '/', '~0' is '~', anything else literal), in particular '~01' decodes to '~1'.", "quantifier": "every string", "why_tests_cant": "Interaction of two global replacements over overlapping escapes cannot be enumerated.", "anchors": ["pyopenapi/utils.py:jp_split"]}
{"id": "C04", "title": "Scope names round trip", "statement": "Splitting a composed scope gives back its two parts when neither part contains a separator character; in general it does not (a part ending in a prefix of the separator is cut in the wrong place), and composing with an absent scope or name returns the other part.", "quantifier": "every scope, name and separator", "why_tests_cant": "The input domain is infinite (all strings / all documents); a test suite only samples it.", "anchors": ["pyopenapi/utils.py:scope_compose", "pyopenapi/utils.py:scope_split"]}
{"id": "C05", "title": "ScopeDict lookup decision", "statement": "d[k] returns the exact entry if there is one; otherwise the only entry whose key ends with k; otherwise, among several, the only one whose last scope token equals the last token of k; otherwise ValueError when several keys end with k and KeyError when none does.", "quantifier": "every dictionary of scoped names and every key or key tuple", "why_tests_cant": "The input domain is infinite (all strings / all documents); a test suite only samples it.", "anchors": ["pyopenapi/utils.py:ScopeDict"]}
{"id": "C06", "title": "deref terminates and reports cycles", "statement": "For every $ref graph, deref(obj) terminates: it returns the first object along the chain that has no resolved reference, and raises CycleDetectionError exactly when the chain comes back to an object it has already passed.", "quantifier": "every reference graph, finite or not, with a finite number of reachable objects, cyclic or not", "why_tests_cant": "All graph shapes, including cycles of any length and rho-shaped ones.", "anchors": ["pyopenapi/utils.py:deref", "pyopenapi/utils.py:CycleGuard"]}
{"id": "C07", "title": "derelativise_url removes dot segments", "statement": "The result keeps scheme, authority, parameters, query and fragment, its path contains no '.', '..' or '...+' segment, never climbs above the root, and applying the function again changes nothing.", "quantifier": "every URL", "why_tests_cant": "The input domain is infinite (all strings / all documents); a test suite only samples it.", "anchors": ["pyopenapi/utils.py:derelativise_url", "pyopenapi/utils.py:_fullmatch"]}
{"id": "C08", "title": "normalize_jr qualifies every reference", "statement": "A pure fragment reference is appended to the base url; a reference with its own scheme is returned as is (minus an empty fragment); a relative file reference is resolved against the folder of the base url and keeps its JSON pointer; None stays None; '' without base raises.", "quantifier": "every reference string and every base url", "why_tests_cant": "The input domain is infinite (all strings / all documents); a test suite only samples it.", "anchors": ["pyopenapi/utils.py:normalize_jr"]}
{"id": "C09", "title": "normalize_jr is idempotent", "statement": "Normalizing an already normalized reference against the same base url gives the same reference.", "quantifier": "every reference without tab, CR or LF, every absolute base url without fragment", "why_tests_cant": "A second scanner pass (2.0 then 3.0.0) re-normalizes references already normalized; all histories must agree.", "anchors": ["pyopenapi/utils.py:normalize_jr", "pyopenapi/migration/versions/v3_0_0/main.py:upgrade"]}
{"id": "C10", "title": "jr_split separates document and pointer", "statement": "For a reference made of a document url with a scheme and a JSON pointer, jr_split returns that url and '#'+pointer; without fragment the pointer is '#'; a pure fragment has the empty url. Urls written in another way than urlunparse writes them come back rewritten.", "quantifier": "every absolute url without '#' that is written as urlunparse writes it (lower-case scheme, no empty query) and every pointer", "why_tests_cant": "The input domain is infinite (all strings / all documents); a test suite only samples it.", "anchors": ["pyopenapi/utils.py:jr_split", "pyopenapi/utils.py:normalize_url"]}
{"id": "C11", "title": "url_join inserts exactly one slash", "statement": "Joining a base url and a name keeps scheme, authority, query and fragment and yields path, one '/', name, whatever slashes the base ended or the name started with.", "quantifier": "every base url and non-empty name", "why_tests_cant": "The input domain is infinite (all strings / all documents); a test suite only samples it.", "anchors": ["pyopenapi/utils.py:url_join"]}
{"id": "C12", "title": "url_dirname", "statement": "Strips exactly the last path segment when the path ends in json or yaml and otherwise returns the url unchanged.", "quantifier": "every url", "why_tests_cant": "The input domain is infinite (all strings / all documents); a test suite only samples it.", "anchors": ["pyopenapi/utils.py:url_dirname"]}
{"id": "C13", "title": "patch_path yields a loadable extension", "statement": "The returned path ends in .json, .yaml or .yml, has the given path as a prefix, is unchanged when it already has the chosen extension, and patching twice is patching once.", "quantifier": "every base path and path (posix)", "why_tests_cant": "The input domain is infinite (all strings / all documents); a test suite only samples it.", "anchors": ["pyopenapi/utils.py:patch_path"]}
{"id": "C14", "title": "Version detection priority", "statement": "The version of a loaded document is the value of swaggerVersion, else swagger, else openapi, else None.", "quantifier": "every JSON object", "why_tests_cant": "The input domain is infinite (all strings / all documents); a test suite only samples it.", "anchors": ["pyopenapi/utils.py:get_swagger_version"]}
{"id": "C15", "title": "Supported versions are sorted numerically", "statement": "get_supported_versions lists each version package once, sorted by numeric version components (so 2.0 < 10.0), skipping names not starting with v.", "quantifier": "every set of package names of the form v<digits>_<digits>[_<digits>]", "why_tests_cant": "The input domain is infinite (all strings / all documents); a test suite only samples it.", "anchors": ["pyopenapi/utils.py:get_supported_versions"]}
{"id": "C16", "title": "Migration plan", "statement": "migrate_obj runs the upgrade of every supported version v with (object version) <= v <= (target), in increasing order, each once; an unsupported target raises ValueError; if the object is already newer nothing runs and it is returned unchanged.", "quantifier": "every object version, target version and list of supported versions", "why_tests_cant": "The input domain is infinite (all strings / all documents); a test suite only samples it.", "anchors": ["pyopenapi/migration/base.py:ApiBase.migrate_obj"]}
{"id": "C17", "title": "compare_container accepts equal containers", "statement": "Comparing a JSON value with itself (in any key order) reports no difference, unless a list inside it mixes element types, which raises ValueError.", "quantifier": "every JSON value", "why_tests_cant": "The input domain is infinite (all strings / all documents); a test suite only samples it.", "anchors": ["pyopenapi/utils.py:compare_container"]}
{"id": "C18", "title": "compare_container finds every difference", "statement": "If compare_container reports nothing, the two values have the same shape: same keys, same list lengths, equal primitives, lists of primitives equal up to reordering.", "quantifier": "every pair of JSON values", "why_tests_cant": "The input domain is infinite (all strings / all documents); a test suite only samples it.", "anchors": ["pyopenapi/utils.py:compare_container"]}
{"id": "C19", "title": "compare_container include/exclude", "statement": "Keys outside include, or inside exclude, never influence the result at any depth.", "quantifier": "every pair of values and include/exclude lists", "why_tests_cant": "The input domain is infinite (all strings / all documents); a test suite only samples it.", "anchors": ["pyopenapi/utils.py:compare_container"]}
{"id": "C20", "title": "Field access contract", "statement": "Reading a field returns the value in the document if present, else raises if it is required, else its default; a restricted field raises exactly when present.", "quantifier": "every class, document and field", "why_tests_cant": "The input domain is infinite (all strings / all documents); a test suite only samples it.", "anchors": ["pyopenapi/migration/spec/obj.py:field"]}
{"id": "C21", "title": "Building an object accepts exactly well-shaped documents", "statement": "Constructing an object from a JSON document succeeds iff every child present has the JSON kind its builder asks for (recursively) and every required child is present; otherwise an exception is raised and no object is produced.", "quantifier": "every class table and every JSON document", "why_tests_cant": "The input domain is infinite (all strings / all documents); a test suite only samples it.", "anchors": ["pyopenapi/migration/spec/obj.py:Base2Obj.__init__", "pyopenapi/migration/spec/obj.py:child", "pyopenapi/migration/spec/obj.py:_Map", "pyopenapi/migration/spec/obj.py:_List"]}
{"id": "C22", "title": "dump is lossless on clean documents", "statement": "For a document that only uses declared names, with no null field and no empty container child, dumping the loaded object gives back the document (up to key order).", "quantifier": "every class table and every such document", "why_tests_cant": "The input domain is infinite (all strings / all documents); a test suite only samples it.", "anchors": ["pyopenapi/migration/spec/obj.py:Base2Obj.dump", "pyopenapi/migration/spec/obj.py:_Map.dump", "pyopenapi/migration/spec/obj.py:_List.dump"]}
{"id": "C23", "title": "dump/load is a fixpoint", "statement": "When the dump of a loaded object can be loaded again, dumping the result gives the same dump; it can be loaded again when no required child was lost by the dump (an empty required container is).", "quantifier": "every class table and every document whose load and dump succeed", "why_tests_cant": "The input domain is infinite (all strings / all documents); a test suite only samples it.", "anchors": ["pyopenapi/migration/spec/obj.py:Base2Obj.dump"]}
{"id": "C24", "title": "additionalProperties survives a dump", "statement": "A schema that says additionalProperties: false (or true) keeps saying so after load and dump.", "quantifier": "every schema", "why_tests_cant": "The failing class (boolean child) needs a universally quantified statement to be excluded.", "anchors": ["pyopenapi/migration/spec/obj.py:Base2Obj.dump", "pyopenapi/migration/versions/v3_0_0/objects.py:BoolOrSchemaOrReference"]}
{"id": "C25", "title": "resolve walks the loaded object as the raw document", "statement": "For a loaded object, resolve(tokens) reaches the object built from exactly the JSON value those tokens reach in the raw document; a token that is no declared name raises. (Elements that are plain strings have no resolve, and tokens below a scalar field are ignored.)", "quantifier": "every document and every token path through declared children to an object", "why_tests_cant": "The input domain is infinite (all strings / all documents); a test suite only samples it.", "anchors": ["pyopenapi/migration/spec/obj.py:Base2Obj.resolve", "pyopenapi/migration/spec/obj.py:_Map.resolve", "pyopenapi/migration/spec/obj.py:_List.resolve"]}
{"id": "C26", "title": "get_path is the JSON pointer of the object", "statement": "Every object inside a loaded document has as path the base path extended with the (encoded) tokens that resolve to it.", "quantifier": "every document loaded with a non-empty base path and every contained object", "why_tests_cant": "The input domain is infinite (all strings / all documents); a test suite only samples it.", "anchors": ["pyopenapi/migration/spec/obj.py:child", "pyopenapi/migration/spec/obj.py:_Map.__init__", "pyopenapi/migration/spec/obj.py:_List.__init__"]}
{"id": "C27", "title": "override injects the given object", "statement": "Building with override {pointer: obj} yields a tree whose object at that pointer is obj itself, and which is otherwise the tree built without override.", "quantifier": "every document, pointer and object, including keys that need escaping", "why_tests_cant": "The input domain is infinite (all strings / all documents); a test suite only samples it.", "anchors": ["pyopenapi/migration/spec/obj.py:_Base.__init__", "pyopenapi/migration/spec/obj.py:child"]}
{"id": "C28", "title": "merge_children fills gaps only", "statement": "After a.merge_children(b), every child a had is unchanged, every child missing in a is b's; b is unchanged; merging again changes nothing.", "quantifier": "every pair of objects of one class", "why_tests_cant": "The input domain is infinite (all strings / all documents); a test suite only samples it.", "anchors": ["pyopenapi/migration/spec/obj.py:Base2Obj.merge_children"]}
{"id": "C29", "title": "compare is reflexive", "statement": "obj.compare(obj) never reports a difference: it says same when every declared field of the object and of the objects inside it can be read (required ones are set, restricted ones are not), and raises otherwise.", "quantifier": "every object", "why_tests_cant": "The input domain is infinite (all strings / all documents); a test suite only samples it.", "anchors": ["pyopenapi/migration/spec/obj.py:Base2Obj.compare", "pyopenapi/migration/spec/obj.py:_List.compare", "pyopenapi/migration/spec/obj.py:_Map.compare"]}
{"id": "C30", "title": "compare detects differences", "statement": "If a.compare(b) says same then a and b have the same fields and children.", "quantifier": "every pair of objects", "why_tests_cant": "The input domain is infinite (all strings / all documents); a test suite only samples it.", "anchors": ["pyopenapi/migration/spec/obj.py:Base2Obj.compare", "pyopenapi/migration/spec/obj.py:_List.compare", "pyopenapi/migration/spec/obj.py:_Map.compare"]}
{"id": "C31", "title": "get_children reflects current children", "statement": "After any sequence of attach_child / merge_children / item assignment / append / get_children, get_children returns the children currently attached.", "quantifier": "every history of operations", "why_tests_cant": "A cache is invalidated by some mutations only: a statement about histories.", "anchors": ["pyopenapi/migration/spec/obj.py:get_children", "pyopenapi/migration/spec/obj.py:attach_child", "pyopenapi/migration/spec/obj.py:invalidate_children_cache"]}
{"id": "C32", "title": "Scanning visits every object exactly once", "statement": "A scan terminates and visits the root and every descendant reachable without passing through a leaf class, each exactly once.", "quantifier": "every object tree and every set of leaf classes", "why_tests_cant": "The input domain is infinite (all strings / all documents); a test suite only samples it.", "anchors": ["pyopenapi/migration/scan.py:default_tree_traversal"]}
{"id": "C33", "title": "Scan paths are resolvable pointers", "statement": "The path handed to a handler, split and resolved from the root, reaches the visited object.", "quantifier": "every object tree", "why_tests_cant": "The input domain is infinite (all strings / all documents); a test suite only samples it.", "anchors": ["pyopenapi/migration/scan.py:default_tree_traversal", "pyopenapi/migration/spec/obj.py:get_children"]}
{"id": "C34", "title": "Scan dispatch", "statement": "Each visited object is handed, in registration order and once each, to the handlers registered for exactly its class; handlers of a parent class are not called by scan() (Scanner.scan, which calls them, is C102).", "quantifier": "every route table and object tree, handlers that do not change the scanned objects", "why_tests_cant": "The input domain is infinite (all strings / all documents); a test suite only samples it.", "anchors": ["pyopenapi/migration/scan.py:scan", "pyopenapi/migration/scan.py:_handle_cls_without_app", "pyopenapi/migration/scan.py:Dispatcher.register"]}
{"id": "C35", "title": "Store read-your-writes", "statement": "After caching an object under (url, pointer, version), get returns it, and every pointer below it resolves inside it, as long as no other cached pointer is a prefix of the requested one.", "quantifier": "every store reachable by any history of set / get_under / update_routes", "why_tests_cant": "The input domain is infinite (all strings / all documents); a test suite only samples it.", "anchors": ["pyopenapi/migration/store.py:SpecObjStore.set", "pyopenapi/migration/store.py:SpecObjStore.get"]}
{"id": "C36", "title": "Store isolation", "statement": "Caching under one (url, version) never changes what get returns for another url or version.", "quantifier": "every store history", "why_tests_cant": "The input domain is infinite (all strings / all documents); a test suite only samples it.", "anchors": ["pyopenapi/migration/store.py:SpecObjStore.set", "pyopenapi/migration/store.py:SpecObjStore.get"]}
{"id": "C37", "title": "Store lookup respects pointer segments", "statement": "get(url, pointer, v) only returns an object cached at an ancestor (segment-wise) of that pointer.", "quantifier": "every store and pointer", "why_tests_cant": "Requires all pairs of cached/requested pointers, e.g. User and UserList.", "anchors": ["pyopenapi/migration/store.py:SpecObjStore.get"]}
{"id": "C38", "title": "get_under returns and removes exactly what is below", "statement": "get_under returns exactly the objects cached for that version at a pointer starting with the given one, keyed by the rest; with remove they (and nothing else) are gone afterwards.", "quantifier": "every store", "why_tests_cant": "The input domain is infinite (all strings / all documents); a test suite only samples it.", "anchors": ["pyopenapi/migration/store.py:SpecObjStore.get_under"]}
{"id": "C39", "title": "get_until returns the newest cached migration", "statement": "get_until returns the object of the newest version (not above until) under which the relocated pointer is cached, together with that pointer and version, and nothing if none is.", "quantifier": "every store, pointer and version range", "why_tests_cant": "The input domain is infinite (all strings / all documents); a test suite only samples it.", "anchors": ["pyopenapi/migration/store.py:SpecObjStore.get_until"]}
{"id": "C40", "title": "Pointer relocation composes", "statement": "Relocating from version a to c equals relocating from a to b and then from b to c, and from a version to itself is the identity.", "quantifier": "every route history, every a <= b <= c, every pointer", "why_tests_cant": "The input domain is infinite (all strings / all documents); a test suite only samples it.", "anchors": ["pyopenapi/migration/store.py:SpecObjStore.relocate"]}
{"id": "C41", "title": "Relocation picks the longest matching route, in any order", "statement": "The relocated pointer does not depend on the order in which routes are stored, and follows at each level the longest route that is a prefix; a pointer no route matches is unchanged; the search always terminates.", "quantifier": "every nested route table and pointer", "why_tests_cant": "The input domain is infinite (all strings / all documents); a test suite only samples it.", "anchors": ["pyopenapi/migration/store.py:SpecObjStore._patch_jp"]}
{"id": "C42", "title": "Updating routes accumulates", "statement": "After any sequence of update_routes, a pointer is relocated by the last route registered for it; an update for an unsupported version raises and changes no relocation between supported versions.", "quantifier": "every history", "why_tests_cant": "The input domain is infinite (all strings / all documents); a test suite only samples it.", "anchors": ["pyopenapi/migration/store.py:SpecObjStore.update_routes"]}
{"id": "C43", "title": "Each document is fetched at most once", "statement": "Over any sequence of resolve calls, the loader is invoked for a url only until it first returns a non-empty document; later calls use the cached one, whatever the loader would now return.", "quantifier": "every sequence of references, every loader behaviour over time", "why_tests_cant": "Quantifies over call histories and loader behaviour.", "anchors": ["pyopenapi/migration/resolve.py:Resolver.resolve"]}
{"id": "C44", "title": "Raw resolution follows the JSON pointer", "statement": "The value returned is the one the pointer's decoded tokens lead to in the document (list index or key), and an exception is raised when a step is impossible or the document is empty.", "quantifier": "every document and pointer", "why_tests_cant": "The input domain is infinite (all strings / all documents); a test suite only samples it.", "anchors": ["pyopenapi/migration/resolve.py:Resolver.resolve"]}
{"id": "C45", "title": "Parameter serialization style table", "statement": "For each collectionFormat/location/type combination style and explode are the OpenAPI 3 equivalents; ssv and pipes outside query arrays raise SchemaError.", "quantifier": "every string triple", "why_tests_cant": "The input domain is infinite (all strings / all documents); a test suite only samples it.", "anchors": ["pyopenapi/migration/versions/v2_0/scanner/upgrade/converters.py:to_style_and_explode"]}
{"id": "C46", "title": "Schema conversion preserves every constraint", "statement": "Every validation keyword of a Swagger 2.0 schema (type, format, bounds, enum, required, ...) that is set appears with the same value in the converted schema, at every depth of allOf/items/properties/additionalProperties, and nothing else is invented.", "quantifier": "every schema tree of regular shape (every child is an object of the class declared for it)", "why_tests_cant": "The input domain is infinite (all strings / all documents); a test suite only samples it.", "anchors": ["pyopenapi/migration/versions/v2_0/scanner/upgrade/converters.py:to_schema", "pyopenapi/migration/versions/v2_0/scanner/upgrade/converters.py:_generate_fields"]}
{"id": "C47", "title": "Schema conversion of references and files", "statement": "A schema with $ref converts to that $ref alone; a file schema converts to string/binary.", "quantifier": "every schema", "why_tests_cant": "The input domain is infinite (all strings / all documents); a test suite only samples it.", "anchors": ["pyopenapi/migration/versions/v2_0/scanner/upgrade/converters.py:to_schema"]}
{"id": "C48", "title": "Parameters are partitioned, none lost", "statement": "Converting an operation, each parameter goes either to the parameters list (in order) or into the request body, according to in/type of the dereferenced parameter; nothing is dropped or duplicated.", "quantifier": "every operation, every list of parameters of regular shape, given directly or through references that lead to one", "why_tests_cant": "The input domain is infinite (all strings / all documents); a test suite only samples it.", "anchors": ["pyopenapi/migration/versions/v2_0/scanner/upgrade/converters.py:from_parameter", "pyopenapi/migration/versions/v2_0/scanner/upgrade/converters.py:to_operation"]}
{"id": "C49", "title": "Form parameters become properties", "statement": "Each form/file parameter becomes a property of every media type's schema with its name, is listed in required iff required, and duplicated names raise SchemaError.", "quantifier": "every list of form parameters", "why_tests_cant": "The input domain is infinite (all strings / all documents); a test suite only samples it.", "anchors": ["pyopenapi/migration/versions/v2_0/scanner/upgrade/converters.py:to_media_type", "pyopenapi/migration/versions/v2_0/scanner/upgrade/converters.py:to_request_body"]}
{"id": "C50", "title": "At most one body", "statement": "Two body parameters raise SchemaError.", "quantifier": "every operation", "why_tests_cant": "The input domain is infinite (all strings / all documents); a test suite only samples it.", "anchors": ["pyopenapi/migration/versions/v2_0/scanner/upgrade/converters.py:to_request_body"]}
{"id": "C51", "title": "Content types of a body", "statement": "The media types of a converted body are the consumes entries allowed for its kind, or the documented default when none is.", "quantifier": "every consumes list and parameter kind", "why_tests_cant": "The input domain is infinite (all strings / all documents); a test suite only samples it.", "anchors": ["pyopenapi/migration/versions/v2_0/scanner/upgrade/parameter_context.py:ParameterContext.get_valid_mime_type"]}
{"id": "C52", "title": "Operations of one path do not influence each other", "statement": "The request body of an operation only depends on the path-level parameters and on its own parameters.", "quantifier": "every path item", "why_tests_cant": "Aliasing of a shared mutable dict shows only for certain combinations of operations.", "anchors": ["pyopenapi/migration/versions/v2_0/scanner/upgrade/converters.py:to_path_item", "pyopenapi/migration/versions/v2_0/scanner/upgrade/converters.py:to_operation", "pyopenapi/migration/versions/v2_0/scanner/upgrade/converters.py:to_request_body"]}
{"id": "C53", "title": "Paths and operations are preserved", "statement": "The converted document has the same paths, and per path the same operations, with summary, description, operationId, deprecated and tags unchanged; extension keys in paths raise.", "quantifier": "every Swagger 2.0 document of regular shape whose references lead somewhere and whose named parameters are valid", "why_tests_cant": "The input domain is infinite (all strings / all documents); a test suite only samples it.", "anchors": ["pyopenapi/migration/versions/v2_0/scanner/upgrade/converters.py:to_openapi", "pyopenapi/migration/versions/v2_0/scanner/upgrade/converters.py:to_path_item", "pyopenapi/migration/versions/v2_0/scanner/upgrade/converters.py:to_operation"]}
{"id": "C54", "title": "Definitions end where references are relocated to", "statement": "For every definition, response and security definition, the relocation of its 2.0 pointer (and of any pointer below it) is the pointer at which the converter has put its conversion.", "quantifier": "every Swagger 2.0 document", "why_tests_cant": "The input domain is infinite (all strings / all documents); a test suite only samples it.", "anchors": ["pyopenapi/migration/versions/v2_0/scanner/upgrade/converters.py:to_openapi", "pyopenapi/migration/store.py:SpecObjStore._patch_jp"]}
{"id": "C55", "title": "Parameters end where references are relocated to", "statement": "For every named global parameter, the relocation of its 2.0 pointer is where the converter has put it (components/parameters or components/requestBodies).", "quantifier": "every Swagger 2.0 document", "why_tests_cant": "Names that are prefixes of other names, or need escaping, are the failing class.", "anchors": ["pyopenapi/migration/versions/v2_0/scanner/upgrade/converters.py:to_openapi", "pyopenapi/migration/store.py:SpecObjStore._patch_jp"]}
{"id": "C56", "title": "Server url", "statement": "The converted server url is scheme://host/basePath with the first scheme (https by default) when a basePath is given, the host alone otherwise, '/' when neither.", "quantifier": "every host and basePath (string or absent) and every list of schemes among http, https, ws, wss", "why_tests_cant": "The input domain is infinite (all strings / all documents); a test suite only samples it.", "anchors": ["pyopenapi/migration/versions/v2_0/scanner/upgrade/converters.py:from_swagger_to_server"]}
{"id": "C57", "title": "Response conversion", "statement": "A referenced response without schema stays a reference; otherwise each media type of produces (or the default) carries the converted schema and every header is converted.", "quantifier": "every response", "why_tests_cant": "The input domain is infinite (all strings / all documents); a test suite only samples it.", "anchors": ["pyopenapi/migration/versions/v2_0/scanner/upgrade/converters.py:to_response"]}
{"id": "C58", "title": "Documents with global security can be loaded and converted", "statement": "A valid Swagger 2.0 document with a non-empty root security list can be loaded.", "quantifier": "every valid document", "why_tests_cant": "The set of valid documents is infinite; the failing class is every document with a non-empty root security list.", "anchors": ["pyopenapi/migration/versions/v2_0/objects.py:Swagger", "pyopenapi/migration/versions/v2_0/scanner/upgrade/converters.py:to_openapi"]}
{"id": "C59", "title": "Path item merge", "statement": "Merging a path item with its chain of references terminates on every graph (cyclic included) and for each operation takes the first path item along the chain that defines it; the original is unchanged. (Only operations, parameters and servers are merged: the summary or description of a path item is not.)", "quantifier": "every reference graph", "why_tests_cant": "The input domain is infinite (all strings / all documents); a test suite only samples it.", "anchors": ["pyopenapi/migration/versions/comm.py:_merge_path_item"]}
{"id": "C60", "title": "Response codes become strings", "statement": "After the YAML fix, every response key is a string, its response is unchanged, and string keys are untouched.", "quantifier": "every responses map with int or string keys", "why_tests_cant": "The input domain is infinite (all strings / all documents); a test suite only samples it.", "anchors": ["pyopenapi/migration/versions/v2_0/scanner/yaml.py:YamlFixer._op"]}
{"id": "C61", "title": "Model scoping", "statement": "A 1.2 model reference converts to '#/definitions/' + the very name under which the model of that resource is registered.", "quantifier": "every resource of regular shape, resource path, model id and separator", "why_tests_cant": "The input domain is infinite (all strings / all documents); a test suite only samples it.", "anchors": ["pyopenapi/migration/versions/v1_2/scanner/upgrade.py:update_type_and_ref", "pyopenapi/migration/versions/v1_2/scanner/upgrade.py:convert_model"]}
{"id": "C62", "title": "Subtypes inherit", "statement": "Every subtype of a model gets the model in its allOf, whatever the order in which models are converted, and its own properties are kept.", "quantifier": "every list of models, every order", "why_tests_cant": "The input domain is infinite (all strings / all documents); a test suite only samples it.", "anchors": ["pyopenapi/migration/versions/v1_2/scanner/upgrade.py:convert_model"]}
{"id": "C63", "title": "Host extraction", "statement": "When the basePaths of all resources have the same scheme and host, the upgraded document has that host, and scheme, host and path keys of the upgraded document give back exactly the original basePath + path of the operations.", "quantifier": "every set of resources whose base paths have one scheme and host (or none) and that have at least one operation; the violations outside of these are proved too", "why_tests_cant": "The input domain is infinite (all strings / all documents); a test suite only samples it.", "anchors": ["pyopenapi/migration/versions/v1_2/scanner/upgrade.py:Upgrade.get_swagger"]}
{"id": "C64", "title": "minimum/maximum conversion", "statement": "Bounds are converted to numbers for integer/number types and rejected otherwise.", "quantifier": "every parameter", "why_tests_cant": "The input domain is infinite (all strings / all documents); a test suite only samples it.", "anchors": ["pyopenapi/migration/versions/v1_2/scanner/upgrade.py:convert_min_max"]}
{"id": "C65", "title": "allowMultiple conversion", "statement": "A repeated primitive parameter becomes an array with csv collection format whose items carry the original type and enum.", "quantifier": "every parameter", "why_tests_cant": "The input domain is infinite (all strings / all documents); a test suite only samples it.", "anchors": ["pyopenapi/migration/versions/v1_2/scanner/upgrade.py:convert_parameter"]}
{"id": "C66", "title": "resolve_obj caches", "statement": "Once an object is resolvable from the cache, resolving it again does not load anything and returns the same object.", "quantifier": "every application history", "why_tests_cant": "The input domain is infinite (all strings / all documents); a test suite only samples it.", "anchors": ["pyopenapi/migration/base.py:ApiBase.resolve_obj"]}
{"id": "C67", "title": "current_spec_version is truthful", "statement": "After migrate_obj of a root object, current_spec_version is the version of the object.", "quantifier": "every object and target version", "why_tests_cant": "The input domain is infinite (all strings / all documents); a test suite only samples it.", "anchors": ["pyopenapi/migration/base.py:ApiBase.migrate_obj"]}
{"id": "C68", "title": "Loaded documents are cached under their own reference", "statement": "After load_obj(jref) has built an object, the next load_obj(jref) gives the same object without building it again.", "quantifier": "every application state, document and loader behaviour", "why_tests_cant": "The input domain is infinite (all strings / all documents); a test suite only samples it.", "anchors": ["pyopenapi/migration/base.py:ApiBase.load_obj"]}
{"id": "C69", "title": "original_spec_version", "statement": "original_spec_version is the version of the root object load_obj built last; cached objects and non-root objects do not change it.", "quantifier": "every application state and document", "why_tests_cant": "The input domain is infinite (all strings / all documents); a test suite only samples it.", "anchors": ["pyopenapi/migration/base.py:ApiBase.load_obj"]}
{"id": "C70", "title": "A migrated object is found where references to it are relocated", "statement": "After a successful migrate_obj, resolve_obj of the same reference from the object's version to the target gives the migrated object, without loading or migrating anything.", "quantifier": "every object, version pair and behaviour of the upgrade modules that leaves earlier relocations of this pointer alone, no object being cached at a proper prefix of the pointer (C37)", "why_tests_cant": "The input domain is infinite (all strings / all documents); a test suite only samples it.", "anchors": ["pyopenapi/migration/base.py:ApiBase.migrate_obj", "pyopenapi/migration/base.py:ApiBase.resolve_obj"]}
{"id": "C71", "title": "Converted documents load", "statement": "What the conversion to OpenAPI 3 produces from a Swagger 2.0 object of regular shape can be loaded as the corresponding OpenAPI 3 object.", "quantifier": "every Swagger 2.0 object of regular shape, at every depth", "why_tests_cant": "The input domain is infinite (all strings / all documents); a test suite only samples it.", "anchors": ["pyopenapi/migration/versions/v2_0/scanner/upgrade/converters.py:to_schema", "pyopenapi/migration/versions/v2_0/scanner/upgrade/converters.py:to_openapi", "pyopenapi/migration/versions/v3_0_0/objects.py:OpenApi"]}
{"id": "C72", "title": "Security schemes are converted", "statement": "A converted security scheme says in OpenAPI 3 terms what the 2.0 scheme says: basic becomes http/basic, apiKey keeps name and in, the flow of an oauth2 scheme gets its OpenAPI 3 name, its urls and its scopes.", "quantifier": "every security definition", "why_tests_cant": "The input domain is infinite (all strings / all documents); a test suite only samples it.", "anchors": ["pyopenapi/migration/versions/v2_0/scanner/upgrade/converters.py:to_security_scheme"]}
{"id": "C73", "title": "Servers of an operation", "statement": "An operation with schemes gets one server per scheme, each the document's server url with that scheme.", "quantifier": "every host, basePath, document schemes and operation schemes", "why_tests_cant": "The input domain is infinite (all strings / all documents); a test suite only samples it.", "anchors": ["pyopenapi/migration/versions/v2_0/scanner/upgrade/converters.py:to_operation", "pyopenapi/migration/versions/v2_0/scanner/upgrade/converters.py:from_swagger_to_server"]}
{"id": "C74", "title": "References to models resolve", "statement": "A reference to a model of a 1.2 resource resolves, in the upgraded 2.0 object, to the schema made of that model.", "quantifier": "every resource path, model and document", "why_tests_cant": "The input domain is infinite (all strings / all documents); a test suite only samples it.", "anchors": ["pyopenapi/migration/versions/v1_2/scanner/upgrade.py:update_type_and_ref", "pyopenapi/migration/versions/v1_2/scanner/upgrade.py:Upgrade.get_swagger"]}
{"id": "C75", "title": "Contents of the upgraded 1.2 document", "statement": "The upgraded document has version 2.0, the info of the listing, one tag per resource, one definition per model, one security definition per authorization and one operation for each path and method, converted field by field; nothing is invented.", "quantifier": "every resource listing and resources of regular shape", "why_tests_cant": "The input domain is infinite (all strings / all documents); a test suite only samples it.", "anchors": ["pyopenapi/migration/versions/v1_2/scanner/upgrade.py:Upgrade", "pyopenapi/migration/versions/v1_2/scanner/upgrade.py:convert_operation", "pyopenapi/migration/versions/v1_2/scanner/upgrade.py:convert_model"]}
{"id": "C76", "title": "Security requirements name security definitions", "statement": "Every name in the security of an upgraded operation that is an authorization of the listing is a key of securityDefinitions with that authorization converted.", "quantifier": "every listing and operation", "why_tests_cant": "The input domain is infinite (all strings / all documents); a test suite only samples it.", "anchors": ["pyopenapi/migration/versions/v1_2/scanner/upgrade.py:Upgrade._authorization", "pyopenapi/migration/versions/v1_2/scanner/upgrade.py:convert_operation"]}
{"id": "C77", "title": "Well-formed 1.2 documents are upgraded", "statement": "A resource listing and resources that are valid Swagger 1.2 are upgraded without an exception, and the result is a 2.0 object.", "quantifier": "every valid 1.2 document", "why_tests_cant": "The input domain is infinite (all strings / all documents); a test suite only samples it.", "anchors": ["pyopenapi/migration/versions/v1_2/scanner/upgrade.py:Upgrade", "pyopenapi/migration/versions/v1_2/scanner/upgrade.py:Upgrade.get_swagger"]}
{"id": "C78", "title": "YAML response codes through the upgrade", "statement": "A Swagger 2.0 document whose response codes are written as numbers in YAML is upgraded like the one with the codes quoted.", "quantifier": "every operation with responses", "why_tests_cant": "The input domain is infinite (all strings / all documents); a test suite only samples it.", "anchors": ["pyopenapi/migration/versions/v2_0/main.py:upgrade", "pyopenapi/migration/versions/v2_0/scanner/yaml.py:YamlFixer._op", "pyopenapi/migration/spec/obj.py:Base2Obj.get_children"]}
{"id": "C79", "title": "References of a 2.0 document are resolved", "statement": "After a 2.0 document has been upgraded without an exception, every Reference, Schema and PathItem in it with a $ref has the object the application finds for that $ref (made absolute with the url of the document), asked for as the kind of object declared at that place; nothing else is marked. When every $ref is a resolvable string, the upgrade raises nothing.", "quantifier": "every 2.0 document, every behaviour of the application", "why_tests_cant": "The input domain is infinite (all strings / all documents); a test suite only samples it.", "anchors": ["pyopenapi/migration/versions/v2_0/scanner/norm_ref.py:NormalizeRef", "pyopenapi/migration/versions/v2_0/scanner/resolve.py:Resolve"]}
{"id": "C80", "title": "References of a 3.0 document are resolved", "statement": "After a 3.0 document has been upgraded without an exception, every Reference and PathItem with a $ref has the object the application finds for it, and its $ref and normalized reference are rewritten to where the object now is (local ones stay local); nothing else is changed.", "quantifier": "every 3.0 document, every behaviour of the application", "why_tests_cant": "The input domain is infinite (all strings / all documents); a test suite only samples it.", "anchors": ["pyopenapi/migration/versions/v3_0_0/scanner/norm_ref.py:NormalizeRef", "pyopenapi/migration/versions/v3_0_0/scanner/resolve.py:Resolve"]}
{"id": "C81", "title": "References to nothing are reported", "statement": "A document with a reference the application cannot resolve is not upgraded: a JsonReferenceError is raised.", "quantifier": "every document and reference", "why_tests_cant": "The input domain is infinite (all strings / all documents); a test suite only samples it.", "anchors": ["pyopenapi/migration/versions/v2_0/scanner/resolve.py:_resolve", "pyopenapi/migration/versions/v3_0_0/scanner/resolve.py:_resolve"]}
{"id": "C82", "title": "Media types with examples", "statement": "A 3.0 document in which a media type has examples is upgraded like any other.", "quantifier": "every 3.0 document with such a media type", "why_tests_cant": "The set of such documents is infinite; the failing class is all of them.", "anchors": ["pyopenapi/migration/versions/v3_0_0/scanner/resolve.py:Resolve._media_type", "pyopenapi/migration/versions/v3_0_0/objects.py:MediaType"]}
{"id": "C83", "title": "Which file a local path means", "statement": "Given a local path, the document loaded is the first of the known file names in that folder, else the file itself when it has the extension of a document (.json, .yaml, .yml), else the path with the first of these extensions that gives a file; a path that means nothing is refused with ValueError.", "quantifier": "every path and every file system", "why_tests_cant": "The input domain is infinite (all strings / all documents); a test suite only samples it.", "anchors": ["pyopenapi/migration/getter.py:LocalGetter", "pyopenapi/utils.py:patch_path"]}
{"id": "C84", "title": "Documents given as dictionaries", "statement": "With a DictGetter whose urls are listed in the order in which the documents are first asked for, every reference of any sequence is answered from the dictionary of its own document, however often it is asked for again.", "quantifier": "every sequence of references, every set of non-empty documents", "why_tests_cant": "Quantifies over call histories of any length.", "anchors": ["pyopenapi/migration/getter.py:DictGetter", "pyopenapi/migration/resolve.py:Resolver.resolve"]}
{"id": "C85", "title": "Which getter is used", "statement": "A getter given to resolve is used for that document; otherwise the default getter given to the resolver is used, for every url.", "quantifier": "every url, hook and getter", "why_tests_cant": "The input domain is infinite (all strings / all documents); a test suite only samples it.", "anchors": ["pyopenapi/migration/resolve.py:Resolver.resolve", "pyopenapi/migration/getter.py:SimpleGetter"]}
{"id": "C86", "title": "Self-contained documents are loaded and migrated", "statement": "A document all of whose references point to objects in itself is loaded and migrated without an exception; afterwards every object with a $ref has the absolute reference and the very object it points to, everything in the document is found under its reference (without loading anything), and for a 2.0 document migrated to 3.0 the references have followed the moved parts.", "quantifier": "every url and document of that kind", "why_tests_cant": "The input domain is infinite (all strings / all documents); a test suite only samples it.", "anchors": ["pyopenapi/migration/base.py:ApiBase.load_obj", "pyopenapi/migration/base.py:ApiBase.migrate_obj", "pyopenapi/migration/base.py:ApiBase.resolve_obj", "pyopenapi/migration/versions/v2_0/main.py:upgrade", "pyopenapi/migration/versions/v3_0_0/main.py:upgrade"]}
{"id": "C87", "title": "Objects of every kind are migrated", "statement": "An object of a 2.0 document that is referenced from another one (a schema, parameter, response, path item, ...) can be migrated to 3.0 on its own.", "quantifier": "every 2.0 object, place and application state", "why_tests_cant": "The input domain is infinite (all strings / all documents); a test suite only samples it.", "anchors": ["pyopenapi/migration/versions/v3_0_0/main.py:upgrade", "pyopenapi/migration/base.py:ApiBase.migrate_obj"]}
{"id": "C88", "title": "Applications of many documents", "statement": "A 2.0 document whose references lead to other documents (or other places), whose references may lead on or back again, is loaded and migrated to 2.0 without an exception: exactly the documents that can be reached are fetched, each once; every object with a $ref then has its absolute reference and the object it leads to; a path item with a $ref is merged with those along its references, the first that has an operation giving it; and everything in them is found again without loading anything.", "quantifier": "every finite set of documents, referring to one another in any way, cycles included", "why_tests_cant": "The input domain is infinite (all strings / all documents); a test suite only samples it.", "anchors": ["pyopenapi/migration/base.py:ApiBase.load_obj", "pyopenapi/migration/base.py:ApiBase.migrate_obj", "pyopenapi/migration/base.py:ApiBase.resolve_obj", "pyopenapi/migration/base.py:ApiBase.prepare_obj", "pyopenapi/migration/versions/v2_0/main.py:upgrade", "pyopenapi/migration/versions/v2_0/scanner/merge.py:Merge", "pyopenapi/migration/versions/comm.py:_merge_path_item"]}
{"id": "C89", "title": "Every field of the specifications is kept", "statement": "Every fixed field that Swagger 1.2, Swagger 2.0 or OpenAPI 3.0.0 defines for an object, given in a document, is read from the loaded object as it was given (or as the object loaded from it) and is there again in the dump.", "quantifier": "every document, every object and fixed field of the three specifications", "why_tests_cant": "The input domain is infinite (all strings / all documents); a test suite only samples it.", "anchors": ["pyopenapi/migration/versions/v1_2/objects.py", "pyopenapi/migration/versions/v2_0/objects.py", "pyopenapi/migration/versions/v3_0_0/objects.py", "pyopenapi/migration/spec/obj.py:field", "pyopenapi/migration/spec/obj.py:child", "pyopenapi/migration/spec/obj.py:Base2Obj.dump"]}
{"id": "C90", "title": "Attributes in Python style", "statement": "An attribute whose name is, but for underscores and capitals, that of a field of the specification (operation_id for operationId) gives that field.", "quantifier": "every document, every object and attribute", "why_tests_cant": "The input domain is infinite (all strings / all documents); a test suite only samples it.", "anchors": ["pyopenapi/migration/spec/obj.py:rename", "pyopenapi/migration/versions/v3_0_0/objects.py:OAuthFlows"]}
{"id": "C91", "title": "What a class declares", "statement": "A class has the fields and children it declares, else those of the first of its bases that has them; what is attached to it later counts first.", "quantifier": "every sequence of class statements and attach_field calls", "why_tests_cant": "Quantifies over all sequences of statements that make and change classes.", "anchors": ["pyopenapi/migration/spec/obj.py:FieldMeta", "pyopenapi/migration/spec/obj.py:Base2Obj.attach_field", "pyopenapi/migration/versions/v3_0_0/objects.py:Header"]}
{"id": "C92", "title": "Local paths become file urls", "statement": "normalize_url leaves a url with a scheme as it is, turns a Windows path or a local path into the file url of its absolute path, and refuses with ValueError what is neither (a query, a fragment, a bare authority, a malformed authority).", "quantifier": "every string", "why_tests_cant": "The input domain is infinite (all strings / all documents); a test suite only samples it.", "anchors": ["pyopenapi/utils.py:normalize_url"]}
{"id": "C93", "title": "References to parameters of a path item", "statement": "After a 2.0 document has been converted, a reference to a parameter of a path item leads to what has been made of that parameter: the request body of the operations of the path for one that goes into the body, the converted parameter otherwise.", "quantifier": "every Swagger 2.0 document, path and parameter", "why_tests_cant": "The input domain is infinite (all strings / all documents); a test suite only samples it.", "anchors": ["pyopenapi/migration/versions/v2_0/scanner/upgrade/converters.py:to_path_item", "pyopenapi/migration/versions/v2_0/scanner/upgrade/converters.py:to_openapi", "pyopenapi/migration/store.py:SpecObjStore._patch_jp"]}
{"id": "C94", "title": "Attributes attached to objects", "statement": "An attribute read from the group of an object in a namespace is what was last written to that attribute of that object in that namespace, None before anything was; other objects, namespaces and attributes do not matter.", "quantifier": "every sequence of reads and writes over all objects, with any classes of groups", "why_tests_cant": "Quantifies over histories of any length and over all objects.", "anchors": ["pyopenapi/migration/spec/attr.py:attr", "pyopenapi/migration/spec/attr.py:AttributeMeta", "pyopenapi/migration/spec/obj.py:Base2Obj.get_attrs", "pyopenapi/migration/versions/v2_0/attrs.py", "pyopenapi/migration/versions/v3_0_0/attrs.py"]}
{"id": "C95", "title": "What was migrated before is reused", "statement": "When a 2.0 document is migrated to 3.0.0 and an object below its root has been migrated on its own before, the document that results has that very object at its place, and is otherwise what it is without; so does a schema (or the information) that is migrated on its own after an object below it.", "quantifier": "every document, object and place", "why_tests_cant": "The input domain is infinite (all strings / all documents); a test suite only samples it.", "anchors": ["pyopenapi/migration/versions/v3_0_0/main.py:upgrade", "pyopenapi/migration/store.py:SpecObjStore.get_under", "pyopenapi/migration/spec/obj.py:_Base.__init__"]}
{"id": "C96", "title": "Applications of many documents are migrated to 3.0.0", "statement": "A 2.0 document whose schemas lead to schemas in other documents (which may lead on, or back again) is loaded and migrated to 3.0.0 without an exception: exactly the documents that can be reached are fetched, each once; the result says in 3.0.0 terms what the document says; every reference of the result, and of every schema it leads to, has the 3.0.0 object of what it led to, and its $ref is rewritten to where that is now; any other schema that was reached is migrated when it is asked for, without fetching anything; the 2.0 objects keep what they refer to.", "quantifier": "every finite set of documents, with schemas referring to one another in any way, cycles included", "why_tests_cant": "The input domain is infinite (all strings / all documents); a test suite only samples it.", "anchors": ["pyopenapi/migration/base.py:ApiBase.load_obj", "pyopenapi/migration/base.py:ApiBase.migrate_obj", "pyopenapi/migration/base.py:ApiBase.resolve_obj", "pyopenapi/migration/versions/v2_0/main.py:upgrade", "pyopenapi/migration/versions/v3_0_0/main.py:upgrade", "pyopenapi/migration/versions/v3_0_0/scanner/resolve.py:Resolve", "pyopenapi/migration/versions/v2_0/scanner/upgrade/converters.py:to_openapi", "pyopenapi/migration/versions/v2_0/scanner/upgrade/converters.py:to_schema"]}
{"id": "C97", "title": "3.0.0 applications of many documents", "statement": "A 3.0.0 document whose references lead to other documents (or other places), whose references may lead on or back again, is loaded and prepared as 3.0.0 without an exception: exactly the documents that can be reached are fetched, each once; every Reference and path item with a $ref then has its absolute reference, the object it leads to and a $ref that is written anew (without the url when it had none); a path item with a $ref is merged with those along its references; and everything in them is found again without loading anything.", "quantifier": "every finite set of documents, referring to one another in any way, cycles included", "why_tests_cant": "The input domain is infinite (all strings / all documents); a test suite only samples it.", "anchors": ["pyopenapi/migration/base.py:ApiBase.load_obj", "pyopenapi/migration/base.py:ApiBase.migrate_obj", "pyopenapi/migration/base.py:ApiBase.resolve_obj", "pyopenapi/migration/base.py:ApiBase.prepare_obj", "pyopenapi/migration/versions/v3_0_0/main.py:upgrade", "pyopenapi/migration/versions/v3_0_0/scanner/resolve.py:Resolve", "pyopenapi/migration/versions/v3_0_0/scanner/merge.py:Merge"]}
{"id": "C98", "title": "Swagger 1.2 applications are loaded and migrated to 2.0", "statement": "A Swagger 1.2 resource listing is loaded by fetching the listing and then each resource it names, once and in order; migrating it to 2.0 makes one document of all of them (as C61-C64, C75-C77 say), every reference of which is the absolute reference of a definition of the document and is resolved to that definition; the listing and the new document stay available under the url of the listing; nothing else is fetched.", "quantifier": "every listing and every list of well formed resources of one site (or none)", "why_tests_cant": "The input domain is infinite (all strings / all documents); a test suite only samples it.", "anchors": ["pyopenapi/migration/base.py:ApiBase.load_obj", "pyopenapi/migration/base.py:ApiBase.migrate_obj", "pyopenapi/migration/base.py:ApiBase.resolve_obj", "pyopenapi/migration/versions/v1_2/main.py:upgrade", "pyopenapi/migration/versions/v1_2/scanner/upgrade.py:Upgrade", "pyopenapi/migration/versions/v2_0/main.py:upgrade"]}
{"id": "C99", "title": "Swagger 1.2 applications are migrated to 3.0.0", "statement": "Migrating a Swagger 1.2 application to 3.0.0 gives a document that says what the 2.0 document of C98 says (as C53-C60 say); its references are those to the models, rewritten, known and found; a reference of the 2.0 document is found at its new place; all three versions stay available; nothing but the listing and its resources is fetched.", "quantifier": "every listing and every list of well formed resources of one site (or none) whose operations have a form or at most one body", "why_tests_cant": "The input domain is infinite (all strings / all documents); a test suite only samples it.", "anchors": ["pyopenapi/migration/base.py:ApiBase.load_obj", "pyopenapi/migration/base.py:ApiBase.migrate_obj", "pyopenapi/migration/base.py:ApiBase.resolve_obj", "pyopenapi/migration/versions/v1_2/main.py:upgrade", "pyopenapi/migration/versions/v2_0/main.py:upgrade", "pyopenapi/migration/versions/v3_0_0/main.py:upgrade"]}
{"id": "C100", "title": "The parent of an object is the object that holds it", "statement": "get_parent() of every object of a loaded document is the object that holds it; every object but the first is held by exactly one slot, and the first has no parent: the n-th parent of what lies n steps below an object is that object. Later on it answers the object attach_child attached it to last.", "quantifier": "every class table, document and history of operations on the objects", "why_tests_cant": "The input domain is infinite (all strings / all documents); a test suite only samples it.", "anchors": ["pyopenapi/migration/spec/obj.py:_Base.get_parent", "pyopenapi/migration/spec/obj.py:_Base.set_parent", "pyopenapi/migration/spec/obj.py:_List.__init__", "pyopenapi/migration/spec/obj.py:_Map.__init__", "pyopenapi/migration/spec/obj.py:Base2Obj.__init__", "pyopenapi/migration/spec/obj.py:Base2Obj.attach_child", "pyopenapi/migration/spec/obj.py:Base2Obj.merge_children"]}
{"id": "C101", "title": "Lists and maps of a document act as its JSON lists and objects", "statement": "A map of a loaded document has the keys of the JSON object in its order, its length and its membership; m[k] and m.get(k) give what was loaded from the value under k, otherwise KeyError and the default; a list has the length and the elements of the JSON list, with Python's negative indices and IndexError; assignments change just the key assigned to; container == raw holds exactly when it holds no object of a class; iterating works.", "quantifier": "every class table, every list and map of every document, and every sequence of assignments", "why_tests_cant": "The input domain is infinite (all strings / all documents); a test suite only samples it.", "anchors": ["pyopenapi/migration/spec/obj.py:_Map.keys", "pyopenapi/migration/spec/obj.py:_Map.__getitem__", "pyopenapi/migration/spec/obj.py:_Map.__setitem__", "pyopenapi/migration/spec/obj.py:_Map.__contains__", "pyopenapi/migration/spec/obj.py:_Map.get", "pyopenapi/migration/spec/obj.py:_Map.items", "pyopenapi/migration/spec/obj.py:_Map.__len__", "pyopenapi/migration/spec/obj.py:_Map.__eq__", "pyopenapi/migration/spec/obj.py:_List.__iter__", "pyopenapi/migration/spec/obj.py:_List.__getitem__", "pyopenapi/migration/spec/obj.py:_List.__len__", "pyopenapi/migration/spec/obj.py:_List.__eq__", "pyopenapi/migration/spec/obj.py:_List.append", "pyopenapi/migration/spec/obj.py:_List.extend"]}
{"id": "C102", "title": "A Scanner also calls the handlers of base classes", "statement": "Scanner(app).scan calls, for every visited object and route object in turn, the handlers registered for its class in the order of registration, then those for its base class, and so on up to (not including) Base2Obj; results are handed to the result function; a handler is called as often as classes it was registered for are among these; nothing else is called, and the first exception ends the scan.", "quantifier": "every route table, class hierarchy with single inheritance, object tree and set of leaves", "why_tests_cant": "The input domain is infinite (all strings / all documents); a test suite only samples it.", "anchors": ["pyopenapi/migration/scan.py:Scanner.scan", "pyopenapi/migration/scan.py:_handle_cls", "pyopenapi/migration/scan.py:_build_route"]}
{"id": "C103", "title": "Migration starts from the newest cached version", "statement": "When resolve_obj is asked for an object in a version in which it is not cached, the object cached in the newest older version (at the place its reference has there) is migrated and the document is not loaded; when no version is cached the document is loaded if the reference is of the original version, and otherwise an exception is raised with nothing changed. The answer is the migrated object with the place its reference then has.", "quantifier": "every application state reached by store calls, reference, pair of versions and behaviour of the upgrade modules", "why_tests_cant": "The input domain is infinite (all strings / all documents); a test suite only samples it.", "anchors": ["pyopenapi/migration/base.py:ApiBase.resolve_obj", "pyopenapi/migration/store.py:SpecObjStore.get_until"]}
{"id": "C104", "title": "A failed load changes nothing", "statement": "A load_obj that raises leaves the cache, original_spec_version and current_spec_version as they were; one that succeeds adds at most one object to the cache; unsupported versions and version-less documents without parser raise NotImplementedError.", "quantifier": "every application state, document, loader and builder behaviour, at whatever point it fails", "why_tests_cant": "The input domain is infinite (all strings / all documents); a test suite only samples it.", "anchors": ["pyopenapi/migration/base.py:ApiBase.load_obj", "pyopenapi/migration/store.py:SpecObjStore.get_under"]}
{"id": "C105", "title": "A failed migration keeps its finished stages only", "statement": "A migrate_obj that raises leaves original_spec_version and current_spec_version as they were, caches exactly one object for each version migrated to before the failure, and changes nothing else in the cache. A version the application does not have (ValueError), an object without a version, or a reference that cannot be split changes nothing at all.", "quantifier": "every application state, object, pair of versions and point of failure, for upgrade modules that do not use the application themselves", "why_tests_cant": "The input domain is infinite (all strings / all documents); a test suite only samples it.", "anchors": ["pyopenapi/migration/base.py:ApiBase.migrate_obj"]}
{"id": "C106", "title": "A path item that is moved to another document", "statement": "Moving a path item of a Swagger 2.0 document into a document of its own, with a $ref to it in its place, does not change what it is migrated to in 3.0.0.", "quantifier": "every path item, with any parameters, responses and operations", "why_tests_cant": "The input domain is infinite (all strings / all documents); a test suite only samples it.", "anchors": ["pyopenapi/migration/versions/v2_0/scanner/upgrade/converters.py:to_path_item", "pyopenapi/migration/versions/v2_0/scanner/upgrade/converters.py:to_operation", "pyopenapi/migration/versions/v2_0/scanner/upgrade/converters.py:to_response", "pyopenapi/migration/versions/v2_0/scanner/upgrade/converters.py:to_request_body", "pyopenapi/migration/versions/v3_0_0/main.py:upgrade"]}
{"id": "C107", "title": "An operation redefines a parameter of its path", "statement": "The parameters that hold for an operation (its own, and those of its path item it does not redefine by name and in) are, after the conversion of the path item to 3.0.0, the conversions of those that held for it before; a path item in which an operation redefines a body or form parameter of the path is converted, too.", "quantifier": "every path item, operation and parameters", "why_tests_cant": "The input domain is infinite (all strings / all documents); a test suite only samples it.", "anchors": ["pyopenapi/migration/versions/v2_0/scanner/upgrade/converters.py:to_path_item", "pyopenapi/migration/versions/v2_0/scanner/upgrade/converters.py:to_operation", "pyopenapi/migration/versions/v2_0/scanner/upgrade/converters.py:to_request_body", "pyopenapi/migration/versions/v2_0/scanner/upgrade/converters.py:to_parameter"]}
{"id": "C108", "title": "A reference without url means the document of the application", "statement": "resolve_obj('#/...') does exactly what resolve_obj(app.url + '#/...') does: the same answer or exception, the same new reference and the same effects on the application, also for all later calls; to_spec_version that is left out or empty means from_spec_version; the empty reference is refused with ValueError and nothing changes.", "quantifier": "every application state, pointer, pair of versions, parser and flag", "why_tests_cant": "The input domain is infinite (all strings / all documents); a test suite only samples it.", "anchors": ["pyopenapi/migration/base.py:ApiBase.resolve_obj", "pyopenapi/utils.py:jr_split"]}
{"id": "C109", "title": "Response messages survive the upgrade from 1.2", "statement": "An operation of Swagger 1.2 that says in responseMessages what it answers with which code says so in the 2.0 document, too, as responses under these codes; what it returns is its default response.", "quantifier": "every resource listing and resources of regular shape, every operation and code", "why_tests_cant": "The input domain is infinite (all strings / all documents); a test suite only samples it.", "anchors": ["pyopenapi/migration/versions/v1_2/scanner/upgrade.py:convert_operation", "pyopenapi/migration/versions/v1_2/objects.py:ResponseMessage"]}
{"id": "C110", "title": "Examples and descriptions survive the conversion", "statement": "The examples of a 2.0 response are examples of the media types of the 3.0 response; the description of a part of a form, be it a file or not, is the description of its property.", "quantifier": "every response and every list of parameters", "why_tests_cant": "The input domain is infinite (all strings / all documents); a test suite only samples it.", "anchors": ["pyopenapi/migration/versions/v2_0/scanner/upgrade/converters.py:to_response", "pyopenapi/migration/versions/v2_0/scanner/upgrade/converters.py:to_media_type", "pyopenapi/migration/versions/v2_0/scanner/upgrade/converters.py:to_schema"]}
{"id": "C111", "title": "A converted document names its servers", "statement": "The servers of the converted document are the urls the 2.0 document can be reached at: scheme://host/basePath for each of its schemes (https when it names none).", "quantifier": "every document with a host, any base path and schemes", "why_tests_cant": "The input domain is infinite (all strings / all documents); a test suite only samples it.", "anchors": ["pyopenapi/migration/versions/v2_0/scanner/upgrade/converters.py:from_swagger_to_server", "pyopenapi/migration/versions/v2_0/scanner/upgrade/converters.py:to_openapi"]}
{"id": "C112", "title": "An application reads each document once", "statement": "When the references of an application lead into documents (each to a JSON pointer in the document of its url), loading and migrating it reads exactly the documents that references lead to from the main one, directly or not, each exactly once - however many references lead into one document, at whatever places, and in whatever order and circles; no reference gets anything but what is at its place in its document.", "quantifier": "every application of 2.0 (migrated to 2.0 or 3.0.0) or 3.0.0 as in C88, C96 and C97, with any number of documents and any references between them", "why_tests_cant": "The input domain is infinite (all strings / all documents); a test suite only samples it.", "anchors": ["pyopenapi/migration/resolve.py:Resolver.resolve", "pyopenapi/migration/base.py:ApiBase.load_obj, resolve_obj, migrate_obj, prepare_obj"]}
{"id": "C113", "title": "A prepared document can be saved", "statement": "A document that has been loaded and migrated to 3.0.0 - converted from 2.0, or written in 3.0.0 - can be saved with its rewritten references, and so can one of 2.0 that stays one: it has a dump, and whoever loads that dump from any url gets it prepared as it is, as a document of that version, without anything else being fetched; it says the same (but for empty containers), every `$ref` leads to the saved form of what it led to before, and everything is found under its reference.", "quantifier": "every 2.0 document as in C86, migrated to 3.0.0 or not, and every 3.0.0 document as in C86, all urls at which it is and at which its dump is served, all applications loading it", "why_tests_cant": "The input domain is infinite (all strings / all documents); a test suite only samples it.", "anchors": ["pyopenapi/migration/spec/obj.py:Base2Obj.dump", "pyopenapi/migration/versions/v3_0_0/scanner/resolve.py:Resolve._resolve", "pyopenapi/migration/base.py:ApiBase.load_obj, migrate_obj, resolve_obj"]}
{"id": "C114", "title": "compare says where", "statement": "When a.compare(b, base) reports a difference, the JSON pointer that it gives (base, then the pointer) leads to a place in both objects at which they differ: values that are not equal or not of the same type, or a key only one of them has.", "quantifier": "every pair of objects and every base", "why_tests_cant": "The input domain is infinite (all strings / all documents); a test suite only samples it.", "anchors": ["pyopenapi/migration/spec/obj.py:Base2Obj.compare", "pyopenapi/migration/spec/obj.py:_List.compare", "pyopenapi/migration/spec/obj.py:_Map.compare"]}
