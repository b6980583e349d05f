from props import P, M, write
U="pyopenapi/utils.py"; O="pyopenapi/migration/spec/obj.py"; ST="pyopenapi/migration/store.py"
SC="pyopenapi/migration/scan.py"; RS="pyopenapi/migration/resolve.py"; BA="pyopenapi/migration/base.py"
CV="pyopenapi/migration/versions/v2_0/scanner/upgrade/converters.py"; UP="pyopenapi/migration/versions/v1_2/scanner/upgrade.py"
PC="pyopenapi/migration/versions/v2_0/scanner/upgrade/parameter_context.py"; CM="pyopenapi/migration/versions/comm.py"
GT="pyopenapi/migration/getter.py"; O2="pyopenapi/migration/versions/v2_0/objects.py"; O3="pyopenapi/migration/versions/v3_0_0/objects.py"
O1="pyopenapi/migration/versions/v1_2/objects.py"; YF="pyopenapi/migration/versions/v2_0/scanner/yaml.py"; M3="pyopenapi/migration/versions/v3_0_0/main.py"
inf="The input domain is infinite (all strings / all documents); a test suite only samples it."
# ---- A. JSON pointers, scopes
P("C01","JSON pointer round trip","jp_split(jp_compose(tokens, base=b)) gives back jp_split(b) followed by exactly the tokens, whatever characters ('/', '~', '~0', '~1', ...) the tokens contain; without a base the same holds except for the single token list [''] , which composes to the empty pointer and splits to [].","every list of token strings and every base string (or none)",inf,[U+":jp_compose",U+":jp_split"])
P("C02","JSON pointer composition is injective and incremental","Two different token lists composed on the same non-empty base give different pointers, and composing in two steps (the result of the first being the base of the second) is the same as composing once with the concatenated tokens; no composed token contains a raw '/'.","every pair of token lists, every non-empty base",inf,[U+":jp_compose"])
P("C03","Token decoding is RFC 6901 decoding","The decoding jp_split applies to each '/'-separated part (two successive global replacements) equals the one-pass RFC 6901 unescaping ('~1' is '/', '~0' is '~', anything else literal), in particular '~01' decodes to '~1'.","every string","Interaction of two global replacements over overlapping escapes cannot be enumerated.",[U+":jp_split"])
P("C04","Scope names round trip","Splitting a composed scope gives back its two parts when neither part contains a separator character; in general it does not (a part ending in a prefix of the separator is cut in the wrong place), and composing with an absent scope or name returns the other part.","every scope, name and separator",inf,[U+":scope_compose",U+":scope_split"])
P("C05","ScopeDict lookup decision","d[k] returns the exact entry if there is one; otherwise the only entry whose key ends with k; otherwise, among several, the only one whose last scope token equals the last token of k; otherwise ValueError when several keys end with k and KeyError when none does.","every dictionary of scoped names and every key or key tuple",inf,[U+":ScopeDict"])
# ---- B. cycles, deref
P("C06","deref terminates and reports cycles","For every $ref graph, deref(obj) terminates: it returns the first object along the chain that has no resolved reference, and raises CycleDetectionError exactly when the chain comes back to an object it has already passed.","every reference graph, finite or not, with a finite number of reachable objects, cyclic or not","All graph shapes, including cycles of any length and rho-shaped ones.",[U+":deref",U+":CycleGuard"])
# ---- C. URLs
P("C07","derelativise_url removes dot segments","The result keeps scheme, authority, parameters, query and fragment, its path contains no '.', '..' or '...+' segment, never climbs above the root, and applying the function again changes nothing.","every URL",inf,[U+":derelativise_url",U+":_fullmatch"])
P("C08","normalize_jr qualifies every reference","A pure fragment reference is appended to the base url; a reference with its own scheme is returned as is (minus an empty fragment); a relative file reference is resolved against the folder of the base url and keeps its JSON pointer; None stays None; '' without base raises.","every reference string and every base url",inf,[U+":normalize_jr"])
P("C09","normalize_jr is idempotent","Normalizing an already normalized reference against the same base url gives the same reference.","every reference without tab, CR or LF, every absolute base url without fragment","A second scanner pass (2.0 then 3.0.0) re-normalizes references already normalized; all histories must agree.",[U+":normalize_jr",M3+":upgrade"])
P("C10","jr_split separates document and pointer","For a reference made of a document url with a scheme and a JSON pointer, jr_split returns that url and '#'+pointer; without fragment the pointer is '#'; a pure fragment has the empty url. Urls written in another way than urlunparse writes them come back rewritten.","every absolute url without '#' that is written as urlunparse writes it (lower-case scheme, no empty query) and every pointer",inf,[U+":jr_split",U+":normalize_url"])
P("C11","url_join inserts exactly one slash","Joining a base url and a name keeps scheme, authority, query and fragment and yields path, one '/', name, whatever slashes the base ended or the name started with.","every base url and non-empty name",inf,[U+":url_join"])
P("C12","url_dirname","Strips exactly the last path segment when the path ends in json or yaml and otherwise returns the url unchanged.","every url",inf,[U+":url_dirname"])
P("C13","patch_path yields a loadable extension","The returned path ends in .json, .yaml or .yml, has the given path as a prefix, is unchanged when it already has the chosen extension, and patching twice is patching once.","every base path and path (posix)",inf,[U+":patch_path"])
# ---- D. versions
P("C14","Version detection priority","The version of a loaded document is the value of swaggerVersion, else swagger, else openapi, else None.","every JSON object",inf,[U+":get_swagger_version"])
P("C15","Supported versions are sorted numerically","get_supported_versions lists each version package once, sorted by numeric version components (so 2.0 < 10.0), skipping names not starting with v.","every set of package names of the form v<digits>_<digits>[_<digits>]",inf,[U+":get_supported_versions"])
P("C16","Migration plan","migrate_obj runs the upgrade of every supported version v with (object version) <= v <= (target), in increasing order, each once; an unsupported target raises ValueError; if the object is already newer nothing runs and it is returned unchanged.","every object version, target version and list of supported versions",inf,[BA+":ApiBase.migrate_obj"])
# ---- E. compare_container
P("C17","compare_container accepts equal containers","Comparing a JSON value with itself (in any key order) reports no difference, unless a list inside it mixes element types, which raises ValueError.","every JSON value",inf,[U+":compare_container"])
P("C18","compare_container finds every difference","If compare_container reports nothing, the two values have the same shape: same keys, same list lengths, equal primitives, lists of primitives equal up to reordering.","every pair of JSON values",inf,[U+":compare_container"])
P("C19","compare_container include/exclude","Keys outside include, or inside exclude, never influence the result at any depth.","every pair of values and include/exclude lists",inf,[U+":compare_container"])
# ---- F. object model
P("C20","Field access contract","Reading a field returns the value in the document if present, else raises if it is required, else its default; a restricted field raises exactly when present.","every class, document and field",inf,[O+":field"])
P("C21","Building an object accepts exactly well-shaped documents","Constructing an object from a JSON document succeeds iff every child present has the JSON kind its builder asks for (recursively) and every required child is present; otherwise an exception is raised and no object is produced.","every class table and every JSON document",inf,[O+":Base2Obj.__init__",O+":child",O+":_Map",O+":_List"])
P("C22","dump is lossless on clean documents","For a document that only uses declared names, with no null field and no empty container child, dumping the loaded object gives back the document (up to key order).","every class table and every such document",inf,[O+":Base2Obj.dump",O+":_Map.dump",O+":_List.dump"])
P("C23","dump/load is a fixpoint","When the dump of a loaded object can be loaded again, dumping the result gives the same dump; it can be loaded again when no required child was lost by the dump (an empty required container is).","every class table and every document whose load and dump succeed",inf,[O+":Base2Obj.dump"])
P("C24","additionalProperties survives a dump","A schema that says additionalProperties: false (or true) keeps saying so after load and dump.","every schema","The failing class (boolean child) needs a universally quantified statement to be excluded.",[O+":Base2Obj.dump",O3+":BoolOrSchemaOrReference"])
P("C25","resolve walks the loaded object as the raw document","For a loaded object, resolve(tokens) reaches the object built from exactly the JSON value those tokens reach in the raw document; a token that is no declared name raises. (Elements that are plain strings have no resolve, and tokens below a scalar field are ignored.)","every document and every token path through declared children to an object",inf,[O+":Base2Obj.resolve",O+":_Map.resolve",O+":_List.resolve"])
P("C26","get_path is the JSON pointer of the object","Every object inside a loaded document has as path the base path extended with the (encoded) tokens that resolve to it.","every document loaded with a non-empty base path and every contained object",inf,[O+":child",O+":_Map.__init__",O+":_List.__init__"])
P("C27","override injects the given object","Building with override {pointer: obj} yields a tree whose object at that pointer is obj itself, and which is otherwise the tree built without override.","every document, pointer and object, including keys that need escaping",inf,[O+":_Base.__init__",O+":child"])
P("C28","merge_children fills gaps only","After a.merge_children(b), every child a had is unchanged, every child missing in a is b's; b is unchanged; merging again changes nothing.","every pair of objects of one class",inf,[O+":Base2Obj.merge_children"])
P("C29","compare is reflexive","obj.compare(obj) never reports a difference: it says same when every declared field of the object and of the objects inside it can be read (required ones are set, restricted ones are not), and raises otherwise.","every object",inf,[O+":Base2Obj.compare",O+":_List.compare",O+":_Map.compare"])
P("C30","compare detects differences","If a.compare(b) says same then a and b have the same fields and children.","every pair of objects",inf,[O+":Base2Obj.compare",O+":_List.compare",O+":_Map.compare"])
P("C31","get_children reflects current children","After any sequence of attach_child / merge_children / item assignment / append / get_children, get_children returns the children currently attached.","every history of operations","A cache is invalidated by some mutations only: a statement about histories.",[O+":get_children",O+":attach_child",O+":invalidate_children_cache"])
# ---- G. scan
P("C32","Scanning visits every object exactly once","A scan terminates and visits the root and every descendant reachable without passing through a leaf class, each exactly once.","every object tree and every set of leaf classes",inf,[SC+":default_tree_traversal"])
P("C33","Scan paths are resolvable pointers","The path handed to a handler, split and resolved from the root, reaches the visited object.","every object tree",inf,[SC+":default_tree_traversal",O+":get_children"])
P("C34","Scan dispatch","Each visited object is handed, in registration order and once each, to the handlers registered for exactly its class; handlers of a parent class are not called by scan() (Scanner.scan, which calls them, is C102).","every route table and object tree, handlers that do not change the scanned objects",inf,[SC+":scan",SC+":_handle_cls_without_app",SC+":Dispatcher.register"])
# ---- H. store
P("C35","Store read-your-writes","After caching an object under (url, pointer, version), get returns it, and every pointer below it resolves inside it, as long as no other cached pointer is a prefix of the requested one.","every store reachable by any history of set / get_under / update_routes",inf,[ST+":SpecObjStore.set",ST+":SpecObjStore.get"])
P("C36","Store isolation","Caching under one (url, version) never changes what get returns for another url or version.","every store history",inf,[ST+":SpecObjStore.set",ST+":SpecObjStore.get"])
P("C37","Store lookup respects pointer segments","get(url, pointer, v) only returns an object cached at an ancestor (segment-wise) of that pointer.","every store and pointer","Requires all pairs of cached/requested pointers, e.g. User and UserList.",[ST+":SpecObjStore.get"])
P("C38","get_under returns and removes exactly what is below","get_under returns exactly the objects cached for that version at a pointer starting with the given one, keyed by the rest; with remove they (and nothing else) are gone afterwards.","every store",inf,[ST+":SpecObjStore.get_under"])
P("C39","get_until returns the newest cached migration","get_until returns the object of the newest version (not above until) under which the relocated pointer is cached, together with that pointer and version, and nothing if none is.","every store, pointer and version range",inf,[ST+":SpecObjStore.get_until"])
P("C40","Pointer relocation composes","Relocating from version a to c equals relocating from a to b and then from b to c, and from a version to itself is the identity.","every route history, every a <= b <= c, every pointer",inf,[ST+":SpecObjStore.relocate"])
P("C41","Relocation picks the longest matching route, in any order","The relocated pointer does not depend on the order in which routes are stored, and follows at each level the longest route that is a prefix; a pointer no route matches is unchanged; the search always terminates.","every nested route table and pointer",inf,[ST+":SpecObjStore._patch_jp"])
P("C42","Updating routes accumulates","After any sequence of update_routes, a pointer is relocated by the last route registered for it; an update for an unsupported version raises and changes no relocation between supported versions.","every history",inf,[ST+":SpecObjStore.update_routes"])
# ---- I. raw resolver
P("C43","Each document is fetched at most once","Over any sequence of resolve calls, the loader is invoked for a url only until it first returns a non-empty document; later calls use the cached one, whatever the loader would now return.","every sequence of references, every loader behaviour over time","Quantifies over call histories and loader behaviour.",[RS+":Resolver.resolve"])
P("C44","Raw resolution follows the JSON pointer","The value returned is the one the pointer's decoded tokens lead to in the document (list index or key), and an exception is raised when a step is impossible or the document is empty.","every document and pointer",inf,[RS+":Resolver.resolve"])
# ---- J. 2.0 -> 3.0.0 converters
P("C45","Parameter serialization style table","For each collectionFormat/location/type combination style and explode are the OpenAPI 3 equivalents; ssv and pipes outside query arrays raise SchemaError.","every string triple",inf,[CV+":to_style_and_explode"])
P("C46","Schema conversion preserves every constraint","Every validation keyword of a Swagger 2.0 schema (type, format, bounds, enum, required, ...) that is set appears with the same value in the converted schema, at every depth of allOf/items/properties/additionalProperties, and nothing else is invented.","every schema tree of regular shape (every child is an object of the class declared for it)",inf,[CV+":to_schema",CV+":_generate_fields"])
P("C47","Schema conversion of references and files","A schema with $ref converts to that $ref alone; a file schema converts to string/binary.","every schema",inf,[CV+":to_schema"])
P("C48","Parameters are partitioned, none lost","Converting an operation, each parameter goes either to the parameters list (in order) or into the request body, according to in/type of the dereferenced parameter; nothing is dropped or duplicated.","every operation, every list of parameters of regular shape, given directly or through references that lead to one",inf,[CV+":from_parameter",CV+":to_operation"])
P("C49","Form parameters become properties","Each form/file parameter becomes a property of every media type's schema with its name, is listed in required iff required, and duplicated names raise SchemaError.","every list of form parameters",inf,[CV+":to_media_type",CV+":to_request_body"])
P("C50","At most one body","Two body parameters raise SchemaError.","every operation",inf,[CV+":to_request_body"])
P("C51","Content types of a body","The media types of a converted body are the consumes entries allowed for its kind, or the documented default when none is.","every consumes list and parameter kind",inf,[PC+":ParameterContext.get_valid_mime_type"])
P("C52","Operations of one path do not influence each other","The request body of an operation only depends on the path-level parameters and on its own parameters.","every path item","Aliasing of a shared mutable dict shows only for certain combinations of operations.",[CV+":to_path_item",CV+":to_operation",CV+":to_request_body"])
P("C53","Paths and operations are preserved","The converted document has the same paths, and per path the same operations, with summary, description, operationId, deprecated and tags unchanged; extension keys in paths raise.","every Swagger 2.0 document of regular shape whose references lead somewhere and whose named parameters are valid",inf,[CV+":to_openapi",CV+":to_path_item",CV+":to_operation"])
P("C54","Definitions end where references are relocated to","For every definition, response and security definition, the relocation of its 2.0 pointer (and of any pointer below it) is the pointer at which the converter has put its conversion.","every Swagger 2.0 document",inf,[CV+":to_openapi",ST+":SpecObjStore._patch_jp"])
P("C55","Parameters end where references are relocated to","For every named global parameter, the relocation of its 2.0 pointer is where the converter has put it (components/parameters or components/requestBodies).","every Swagger 2.0 document","Names that are prefixes of other names, or need escaping, are the failing class.",[CV+":to_openapi",ST+":SpecObjStore._patch_jp"])
P("C56","Server url","The converted server url is scheme://host/basePath with the first scheme (https by default) when a basePath is given, the host alone otherwise, '/' when neither.","every host and basePath (string or absent) and every list of schemes among http, https, ws, wss",inf,[CV+":from_swagger_to_server"])
P("C57","Response conversion","A referenced response without schema stays a reference; otherwise each media type of produces (or the default) carries the converted schema and every header is converted.","every response",inf,[CV+":to_response"])
P("C58","Documents with global security can be loaded and converted","A valid Swagger 2.0 document with a non-empty root security list can be loaded.","every valid document","The set of valid documents is infinite; the failing class is every document with a non-empty root security list.",[O2+":Swagger",CV+":to_openapi"])
# ---- K. path items, yaml
P("C59","Path item merge","Merging a path item with its chain of references terminates on every graph (cyclic included) and for each operation takes the first path item along the chain that defines it; the original is unchanged. (Only operations, parameters and servers are merged: the summary or description of a path item is not.)","every reference graph",inf,[CM+":_merge_path_item"])
P("C60","Response codes become strings","After the YAML fix, every response key is a string, its response is unchanged, and string keys are untouched.","every responses map with int or string keys",inf,[YF+":YamlFixer._op"])
# ---- L. 1.2 -> 2.0
P("C61","Model scoping","A 1.2 model reference converts to '#/definitions/' + the very name under which the model of that resource is registered.","every resource of regular shape, resource path, model id and separator",inf,[UP+":update_type_and_ref",UP+":convert_model"])
P("C62","Subtypes inherit","Every subtype of a model gets the model in its allOf, whatever the order in which models are converted, and its own properties are kept.","every list of models, every order",inf,[UP+":convert_model"])
P("C63","Host extraction","When the basePaths of all resources have the same scheme and host, the upgraded document has that host, and scheme, host and path keys of the upgraded document give back exactly the original basePath + path of the operations.","every set of resources whose base paths have one scheme and host (or none) and that have at least one operation; the violations outside of these are proved too",inf,[UP+":Upgrade.get_swagger"])
P("C64","minimum/maximum conversion","Bounds are converted to numbers for integer/number types and rejected otherwise.","every parameter",inf,[UP+":convert_min_max"])
P("C65","allowMultiple conversion","A repeated primitive parameter becomes an array with csv collection format whose items carry the original type and enum.","every parameter",inf,[UP+":convert_parameter"])
# ---- M. application
P("C66","resolve_obj caches","Once an object is resolvable from the cache, resolving it again does not load anything and returns the same object.","every application history",inf,[BA+":ApiBase.resolve_obj"])
P("C67","current_spec_version is truthful","After migrate_obj of a root object, current_spec_version is the version of the object.","every object and target version",inf,[BA+":ApiBase.migrate_obj"])
P("C68","Loaded documents are cached under their own reference","After load_obj(jref) has built an object, the next load_obj(jref) gives the same object without building it again.","every application state, document and loader behaviour",inf,[BA+":ApiBase.load_obj"])
P("C69","original_spec_version","original_spec_version is the version of the root object load_obj built last; cached objects and non-root objects do not change it.","every application state and document",inf,[BA+":ApiBase.load_obj"])
P("C70","A migrated object is found where references to it are relocated","After a successful migrate_obj, resolve_obj of the same reference from the object's version to the target gives the migrated object, without loading or migrating anything.","every object, version pair and behaviour of the upgrade modules that leaves earlier relocations of this pointer alone, no object being cached at a proper prefix of the pointer (C37)",inf,[BA+":ApiBase.migrate_obj",BA+":ApiBase.resolve_obj"])
P("C71","Converted documents load","What the conversion to OpenAPI 3 produces from a Swagger 2.0 object of regular shape can be loaded as the corresponding OpenAPI 3 object.","every Swagger 2.0 object of regular shape, at every depth",inf,[CV+":to_schema",CV+":to_openapi",O3+":OpenApi"])
P("C72","Security schemes are converted","A converted security scheme says in OpenAPI 3 terms what the 2.0 scheme says: basic becomes http/basic, apiKey keeps name and in, the flow of an oauth2 scheme gets its OpenAPI 3 name, its urls and its scopes.","every security definition",inf,[CV+":to_security_scheme"])
P("C73","Servers of an operation","An operation with schemes gets one server per scheme, each the document's server url with that scheme.","every host, basePath, document schemes and operation schemes",inf,[CV+":to_operation",CV+":from_swagger_to_server"])
P("C74","References to models resolve","A reference to a model of a 1.2 resource resolves, in the upgraded 2.0 object, to the schema made of that model.","every resource path, model and document",inf,[UP+":update_type_and_ref",UP+":Upgrade.get_swagger"])
P("C75","Contents of the upgraded 1.2 document","The upgraded document has version 2.0, the info of the listing, one tag per resource, one definition per model, one security definition per authorization and one operation for each path and method, converted field by field; nothing is invented.","every resource listing and resources of regular shape",inf,[UP+":Upgrade",UP+":convert_operation",UP+":convert_model"])
P("C76","Security requirements name security definitions","Every name in the security of an upgraded operation that is an authorization of the listing is a key of securityDefinitions with that authorization converted.","every listing and operation",inf,[UP+":Upgrade._authorization",UP+":convert_operation"])
P("C77","Well-formed 1.2 documents are upgraded","A resource listing and resources that are valid Swagger 1.2 are upgraded without an exception, and the result is a 2.0 object.","every valid 1.2 document",inf,[UP+":Upgrade",UP+":Upgrade.get_swagger"])
P("C78","YAML response codes through the upgrade","A Swagger 2.0 document whose response codes are written as numbers in YAML is upgraded like the one with the codes quoted.","every operation with responses",inf,["pyopenapi/migration/versions/v2_0/main.py:upgrade",YF+":YamlFixer._op","pyopenapi/migration/spec/obj.py:Base2Obj.get_children"])
P("C79","References of a 2.0 document are resolved","After a 2.0 document has been upgraded without an exception, every Reference, Schema and PathItem in it with a $ref has the object the application finds for that $ref (made absolute with the url of the document), asked for as the kind of object declared at that place; nothing else is marked. When every $ref is a resolvable string, the upgrade raises nothing.","every 2.0 document, every behaviour of the application",inf,["pyopenapi/migration/versions/v2_0/scanner/norm_ref.py:NormalizeRef","pyopenapi/migration/versions/v2_0/scanner/resolve.py:Resolve"])
P("C80","References of a 3.0 document are resolved","After a 3.0 document has been upgraded without an exception, every Reference and PathItem with a $ref has the object the application finds for it, and its $ref and normalized reference are rewritten to where the object now is (local ones stay local); nothing else is changed.","every 3.0 document, every behaviour of the application",inf,["pyopenapi/migration/versions/v3_0_0/scanner/norm_ref.py:NormalizeRef","pyopenapi/migration/versions/v3_0_0/scanner/resolve.py:Resolve"])
P("C81","References to nothing are reported","A document with a reference the application cannot resolve is not upgraded: a JsonReferenceError is raised.","every document and reference",inf,["pyopenapi/migration/versions/v2_0/scanner/resolve.py:_resolve","pyopenapi/migration/versions/v3_0_0/scanner/resolve.py:_resolve"])
P("C82","Media types with examples","A 3.0 document in which a media type has examples is upgraded like any other.","every 3.0 document with such a media type","The set of such documents is infinite; the failing class is all of them.",["pyopenapi/migration/versions/v3_0_0/scanner/resolve.py:Resolve._media_type",O3+":MediaType"])
P("C83","Which file a local path means","Given a local path, the document loaded is the first of the known file names in that folder, else the file itself when it has the extension of a document (.json, .yaml, .yml), else the path with the first of these extensions that gives a file; a path that means nothing is refused with ValueError.","every path and every file system",inf,["pyopenapi/migration/getter.py:LocalGetter","pyopenapi/utils.py:patch_path"])
P("C84","Documents given as dictionaries","With a DictGetter whose urls are listed in the order in which the documents are first asked for, every reference of any sequence is answered from the dictionary of its own document, however often it is asked for again.","every sequence of references, every set of non-empty documents","Quantifies over call histories of any length.",["pyopenapi/migration/getter.py:DictGetter","pyopenapi/migration/resolve.py:Resolver.resolve"])
P("C85","Which getter is used","A getter given to resolve is used for that document; otherwise the default getter given to the resolver is used, for every url.","every url, hook and getter",inf,["pyopenapi/migration/resolve.py:Resolver.resolve","pyopenapi/migration/getter.py:SimpleGetter"])
P("C86","Self-contained documents are loaded and migrated","A document all of whose references point to objects in itself is loaded and migrated without an exception; afterwards every object with a $ref has the absolute reference and the very object it points to, everything in the document is found under its reference (without loading anything), and for a 2.0 document migrated to 3.0 the references have followed the moved parts.","every url and document of that kind",inf,[BA+":ApiBase.load_obj",BA+":ApiBase.migrate_obj",BA+":ApiBase.resolve_obj","pyopenapi/migration/versions/v2_0/main.py:upgrade","pyopenapi/migration/versions/v3_0_0/main.py:upgrade"])
P("C87","Objects of every kind are migrated","An object of a 2.0 document that is referenced from another one (a schema, parameter, response, path item, ...) can be migrated to 3.0 on its own.","every 2.0 object, place and application state",inf,["pyopenapi/migration/versions/v3_0_0/main.py:upgrade",BA+":ApiBase.migrate_obj"])
P("C88","Applications of many documents","A 2.0 document whose references lead to other documents (or other places), whose references may lead on or back again, is loaded and migrated to 2.0 without an exception: exactly the documents that can be reached are fetched, each once; every object with a $ref then has its absolute reference and the object it leads to; a path item with a $ref is merged with those along its references, the first that has an operation giving it; and everything in them is found again without loading anything.","every finite set of documents, referring to one another in any way, cycles included",inf,[BA+":ApiBase.load_obj",BA+":ApiBase.migrate_obj",BA+":ApiBase.resolve_obj",BA+":ApiBase.prepare_obj","pyopenapi/migration/versions/v2_0/main.py:upgrade","pyopenapi/migration/versions/v2_0/scanner/merge.py:Merge","pyopenapi/migration/versions/comm.py:_merge_path_item"])
P("C89","Every field of the specifications is kept","Every fixed field that Swagger 1.2, Swagger 2.0 or OpenAPI 3.0.0 defines for an object, given in a document, is read from the loaded object as it was given (or as the object loaded from it) and is there again in the dump.","every document, every object and fixed field of the three specifications",inf,["pyopenapi/migration/versions/v1_2/objects.py","pyopenapi/migration/versions/v2_0/objects.py","pyopenapi/migration/versions/v3_0_0/objects.py",O+":field",O+":child",O+":Base2Obj.dump"])
P("C90","Attributes in Python style","An attribute whose name is, but for underscores and capitals, that of a field of the specification (operation_id for operationId) gives that field.","every document, every object and attribute",inf,[O+":rename","pyopenapi/migration/versions/v3_0_0/objects.py:OAuthFlows"])
P("C91","What a class declares","A class has the fields and children it declares, else those of the first of its bases that has them; what is attached to it later counts first.","every sequence of class statements and attach_field calls","Quantifies over all sequences of statements that make and change classes.",[O+":FieldMeta",O+":Base2Obj.attach_field","pyopenapi/migration/versions/v3_0_0/objects.py:Header"])
P("C92","Local paths become file urls","normalize_url leaves a url with a scheme as it is, turns a Windows path or a local path into the file url of its absolute path, and refuses with ValueError what is neither (a query, a fragment, a bare authority, a malformed authority).","every string",inf,[U+":normalize_url"])
P("C93","References to parameters of a path item","After a 2.0 document has been converted, a reference to a parameter of a path item leads to what has been made of that parameter: the request body of the operations of the path for one that goes into the body, the converted parameter otherwise.","every Swagger 2.0 document, path and parameter",inf,[CV+":to_path_item",CV+":to_openapi",ST+":SpecObjStore._patch_jp"])
P("C94","Attributes attached to objects","An attribute read from the group of an object in a namespace is what was last written to that attribute of that object in that namespace, None before anything was; other objects, namespaces and attributes do not matter.","every sequence of reads and writes over all objects, with any classes of groups","Quantifies over histories of any length and over all objects.",["pyopenapi/migration/spec/attr.py:attr","pyopenapi/migration/spec/attr.py:AttributeMeta",O+":Base2Obj.get_attrs","pyopenapi/migration/versions/v2_0/attrs.py","pyopenapi/migration/versions/v3_0_0/attrs.py"])
P("C95","What was migrated before is reused","When a 2.0 document is migrated to 3.0.0 and an object below its root has been migrated on its own before, the document that results has that very object at its place, and is otherwise what it is without; so does a schema (or the information) that is migrated on its own after an object below it.","every document, object and place",inf,["pyopenapi/migration/versions/v3_0_0/main.py:upgrade",ST+":SpecObjStore.get_under",O+":_Base.__init__"])
P("C96","Applications of many documents are migrated to 3.0.0","A 2.0 document whose schemas lead to schemas in other documents (which may lead on, or back again) is loaded and migrated to 3.0.0 without an exception: exactly the documents that can be reached are fetched, each once; the result says in 3.0.0 terms what the document says; every reference of the result, and of every schema it leads to, has the 3.0.0 object of what it led to, and its $ref is rewritten to where that is now; any other schema that was reached is migrated when it is asked for, without fetching anything; the 2.0 objects keep what they refer to.","every finite set of documents, with schemas referring to one another in any way, cycles included",inf,[BA+":ApiBase.load_obj",BA+":ApiBase.migrate_obj",BA+":ApiBase.resolve_obj","pyopenapi/migration/versions/v2_0/main.py:upgrade","pyopenapi/migration/versions/v3_0_0/main.py:upgrade","pyopenapi/migration/versions/v3_0_0/scanner/resolve.py:Resolve",CV+":to_openapi",CV+":to_schema"])
P("C97","3.0.0 applications of many documents","A 3.0.0 document whose references lead to other documents (or other places), whose references may lead on or back again, is loaded and prepared as 3.0.0 without an exception: exactly the documents that can be reached are fetched, each once; every Reference and path item with a $ref then has its absolute reference, the object it leads to and a $ref that is written anew (without the url when it had none); a path item with a $ref is merged with those along its references; and everything in them is found again without loading anything.","every finite set of documents, referring to one another in any way, cycles included",inf,[BA+":ApiBase.load_obj",BA+":ApiBase.migrate_obj",BA+":ApiBase.resolve_obj",BA+":ApiBase.prepare_obj","pyopenapi/migration/versions/v3_0_0/main.py:upgrade","pyopenapi/migration/versions/v3_0_0/scanner/resolve.py:Resolve","pyopenapi/migration/versions/v3_0_0/scanner/merge.py:Merge"])
P("C98","Swagger 1.2 applications are loaded and migrated to 2.0","A Swagger 1.2 resource listing is loaded by fetching the listing and then each resource it names, once and in order; migrating it to 2.0 makes one document of all of them (as C61-C64, C75-C77 say), every reference of which is the absolute reference of a definition of the document and is resolved to that definition; the listing and the new document stay available under the url of the listing; nothing else is fetched.","every listing and every list of well formed resources of one site (or none)",inf,[BA+":ApiBase.load_obj",BA+":ApiBase.migrate_obj",BA+":ApiBase.resolve_obj","pyopenapi/migration/versions/v1_2/main.py:upgrade","pyopenapi/migration/versions/v1_2/scanner/upgrade.py:Upgrade","pyopenapi/migration/versions/v2_0/main.py:upgrade"])
P("C99","Swagger 1.2 applications are migrated to 3.0.0","Migrating a Swagger 1.2 application to 3.0.0 gives a document that says what the 2.0 document of C98 says (as C53-C60 say); its references are those to the models, rewritten, known and found; a reference of the 2.0 document is found at its new place; all three versions stay available; nothing but the listing and its resources is fetched.","every listing and every list of well formed resources of one site (or none) whose operations have a form or at most one body",inf,[BA+":ApiBase.load_obj",BA+":ApiBase.migrate_obj",BA+":ApiBase.resolve_obj","pyopenapi/migration/versions/v1_2/main.py:upgrade","pyopenapi/migration/versions/v2_0/main.py:upgrade","pyopenapi/migration/versions/v3_0_0/main.py:upgrade"])
P("C100","The parent of an object is the object that holds it","get_parent() of every object of a loaded document is the object that holds it; every object but the first is held by exactly one slot, and the first has no parent: the n-th parent of what lies n steps below an object is that object. Later on it answers the object attach_child attached it to last.","every class table, document and history of operations on the objects",inf,[O+":_Base.get_parent",O+":_Base.set_parent",O+":_List.__init__",O+":_Map.__init__",O+":Base2Obj.__init__",O+":Base2Obj.attach_child",O+":Base2Obj.merge_children"])
P("C101","Lists and maps of a document act as its JSON lists and objects","A map of a loaded document has the keys of the JSON object in its order, its length and its membership; m[k] and m.get(k) give what was loaded from the value under k, otherwise KeyError and the default; a list has the length and the elements of the JSON list, with Python's negative indices and IndexError; assignments change just the key assigned to; container == raw holds exactly when it holds no object of a class; iterating works.","every class table, every list and map of every document, and every sequence of assignments",inf,[O+":_Map.keys",O+":_Map.__getitem__",O+":_Map.__setitem__",O+":_Map.__contains__",O+":_Map.get",O+":_Map.items",O+":_Map.__len__",O+":_Map.__eq__",O+":_List.__iter__",O+":_List.__getitem__",O+":_List.__len__",O+":_List.__eq__",O+":_List.append",O+":_List.extend"])
P("C102","A Scanner also calls the handlers of base classes","Scanner(app).scan calls, for every visited object and route object in turn, the handlers registered for its class in the order of registration, then those for its base class, and so on up to (not including) Base2Obj; results are handed to the result function; a handler is called as often as classes it was registered for are among these; nothing else is called, and the first exception ends the scan.","every route table, class hierarchy with single inheritance, object tree and set of leaves",inf,[SC+":Scanner.scan",SC+":_handle_cls",SC+":_build_route"])
P("C103","Migration starts from the newest cached version","When resolve_obj is asked for an object in a version in which it is not cached, the object cached in the newest older version (at the place its reference has there) is migrated and the document is not loaded; when no version is cached the document is loaded if the reference is of the original version, and otherwise an exception is raised with nothing changed. The answer is the migrated object with the place its reference then has.","every application state reached by store calls, reference, pair of versions and behaviour of the upgrade modules",inf,[BA+":ApiBase.resolve_obj",ST+":SpecObjStore.get_until"])
P("C104","A failed load changes nothing","A load_obj that raises leaves the cache, original_spec_version and current_spec_version as they were; one that succeeds adds at most one object to the cache; unsupported versions and version-less documents without parser raise NotImplementedError.","every application state, document, loader and builder behaviour, at whatever point it fails",inf,[BA+":ApiBase.load_obj",ST+":SpecObjStore.get_under"])
P("C105","A failed migration keeps its finished stages only","A migrate_obj that raises leaves original_spec_version and current_spec_version as they were, caches exactly one object for each version migrated to before the failure, and changes nothing else in the cache. A version the application does not have (ValueError), an object without a version, or a reference that cannot be split changes nothing at all.","every application state, object, pair of versions and point of failure, for upgrade modules that do not use the application themselves",inf,[BA+":ApiBase.migrate_obj"])
P("C106","A path item that is moved to another document","Moving a path item of a Swagger 2.0 document into a document of its own, with a $ref to it in its place, does not change what it is migrated to in 3.0.0.","every path item, with any parameters, responses and operations",inf,[CV+":to_path_item",CV+":to_operation",CV+":to_response",CV+":to_request_body","pyopenapi/migration/versions/v3_0_0/main.py:upgrade"])
P("C107","An operation redefines a parameter of its path","The parameters that hold for an operation (its own, and those of its path item it does not redefine by name and in) are, after the conversion of the path item to 3.0.0, the conversions of those that held for it before; a path item in which an operation redefines a body or form parameter of the path is converted, too.","every path item, operation and parameters",inf,[CV+":to_path_item",CV+":to_operation",CV+":to_request_body",CV+":to_parameter"])
P("C108","A reference without url means the document of the application","resolve_obj('#/...') does exactly what resolve_obj(app.url + '#/...') does: the same answer or exception, the same new reference and the same effects on the application, also for all later calls; to_spec_version that is left out or empty means from_spec_version; the empty reference is refused with ValueError and nothing changes.","every application state, pointer, pair of versions, parser and flag",inf,[BA+":ApiBase.resolve_obj",U+":jr_split"])
P("C109","Response messages survive the upgrade from 1.2","An operation of Swagger 1.2 that says in responseMessages what it answers with which code says so in the 2.0 document, too, as responses under these codes; what it returns is its default response.","every resource listing and resources of regular shape, every operation and code",inf,["pyopenapi/migration/versions/v1_2/scanner/upgrade.py:convert_operation","pyopenapi/migration/versions/v1_2/objects.py:ResponseMessage"])
P("C110","Examples and descriptions survive the conversion","The examples of a 2.0 response are examples of the media types of the 3.0 response; the description of a part of a form, be it a file or not, is the description of its property.","every response and every list of parameters",inf,[CV+":to_response",CV+":to_media_type",CV+":to_schema"])
P("C111","A converted document names its servers","The servers of the converted document are the urls the 2.0 document can be reached at: scheme://host/basePath for each of its schemes (https when it names none).","every document with a host, any base path and schemes",inf,[CV+":from_swagger_to_server",CV+":to_openapi"])
P("C112","An application reads each document once","When the references of an application lead into documents (each to a JSON pointer in the document of its url), loading and migrating it reads exactly the documents that references lead to from the main one, directly or not, each exactly once - however many references lead into one document, at whatever places, and in whatever order and circles; no reference gets anything but what is at its place in its document.","every application of 2.0 (migrated to 2.0 or 3.0.0) or 3.0.0 as in C88, C96 and C97, with any number of documents and any references between them",inf,[RS+":Resolver.resolve",BA+":ApiBase.load_obj, resolve_obj, migrate_obj, prepare_obj"])
P("C113","A prepared document can be saved","A document that has been loaded and migrated to 3.0.0 - converted from 2.0, or written in 3.0.0 - can be saved with its rewritten references, and so can one of 2.0 that stays one: it has a dump, and whoever loads that dump from any url gets it prepared as it is, as a document of that version, without anything else being fetched; it says the same (but for empty containers), every `$ref` leads to the saved form of what it led to before, and everything is found under its reference.","every 2.0 document as in C86, migrated to 3.0.0 or not, and every 3.0.0 document as in C86, all urls at which it is and at which its dump is served, all applications loading it",inf,[O+":Base2Obj.dump","pyopenapi/migration/versions/v3_0_0/scanner/resolve.py:Resolve._resolve",BA+":ApiBase.load_obj, migrate_obj, resolve_obj"])
P("C114","compare says where","When a.compare(b, base) reports a difference, the JSON pointer that it gives (base, then the pointer) leads to a place in both objects at which they differ: values that are not equal or not of the same type, or a key only one of them has.","every pair of objects and every base",inf,[O+":Base2Obj.compare",O+":_List.compare",O+":_Map.compare"])
import manifest
write()
