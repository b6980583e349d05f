# Formal model of mission-liao/pyopenapi in Lean 4

## Technique
Shallow executable model: each modelled Python function is a total Lean function that mirrors
it branch by branch; exceptions are values (`Except Err`), mutation becomes returning the new
value, dictionaries are association lists in insertion order, strings are `List Char`.
Each property is a theorem quantified over *all* inputs/states/histories; specifications live in
`Verif/Spec` and do not mention the model's helpers. When the code violates the property, the
violation is proved with a concrete witness and the strongest true restriction is proved as
`..._partial`.

## Trusted base
* Lean 4.33.0 kernel. Axioms: at most `propext`, `Classical.choice`, `Quot.sound`, the three of Lean's own library; which
  theorem depends on which is listed, theorem by theorem, in AXIOMS.md (generated by tools/axioms.py from `#print axioms`).
  None of our own, no compiled evaluation (`decide +kernel` is reduction by the kernel).
* The reading of the Python source: every definition cites file and lines. The code is never run.
* The reading of the Python runtime: str.replace/split/find/endswith/startswith, dict order, `sorted` stability,
  urllib.parse.urlparse/urlunparse/urlsplit (CPython 3.11), os.path.dirname/splitext (posix), distutils StrictVersion, `int` of a string (Model/PyInt, with Unicode 14 digits) are
  modelled in Lean from CPython's source and documentation.

### What is a parameter (theorems hold for every value of it, or under the stated facts)
| parameter | where | stands for | facts assumed |
|---|---|---|---|
| `ok : Str -> Bool` | Model/Url, everywhere urls are split | the check of bracketed hosts and NFKC in urlsplit | `DocUrl` asks it of the urls used |
| `path2url`, `abspath` | jr_split, normalize_url | os.path and pathname2url | none (urls with a scheme never get there) |
| `Sorter` | compare_container | `sorted` with its key | the facts listed there; met by `simpleSorter` |
| `fetch` / loader, world `W` | Resolver, load_obj | network and file system | per theorem (e.g. `Served`) |
| `Outside` | Model/Getter | file system, json and yaml parsers | none |
| `AppEnv` | Model/App | upgrade modules, prepare_obj, builders | none (may do anything), or those named in the theorem |
| `Refs.Env` | Model/Refs | resolve_obj as the scanners see it | none, or `Steady` for the totality theorems |
| `Conv.Env` | Model/Conv | deref, the order of a Python set, normalized_ref | `EnvOk`, `SetOk`; discharged for real documents in Lemmas/MainEnv |
| `Up12.Env` | Model/Up12 | str.lower, float(), int(), separator | `Good` facts named in the theorems |
| `PathItem.Env` | Model/PathItem (heap model of the merge, C59) | the application | `Steady` |
| `rounds`, the number given to `application` | Model/Main | the loop of _merge_path_item and Python's recursion depth, which the code does not bound | large enough; how large is in the statements |

### Simplifications of the whole-application model (Model/Main; C86-C88, C95-C99)
* Objects are values; a loaded object carries the reference it was loaded from, so that objects at different places are
  different values. Identity is modelled where a property is about it (Model/Heap, Model/Deref, Model/PathItem).
* Attributes (`normalized_ref`, `ref_obj`, `final_obj`) are kept in a list beside the objects. Those a nested upgrade sets
  on objects of the document just being scanned are not modelled; the absolute references are visible to nested upgrades.
* An object given as `override` is copied, not shared. Converted objects have the pointer as path, without url.
* Tokens of pointers are no names of Python attributes (methods, renamed attributes, variables): `getattr` finds those too.
  Model/PyAttrs models `resolve` with them; C25_without_python_names says that it is the same without.
* All keys are strings there (numeric YAML keys: Model/Yaml, C60, C78).

### Code that is not modelled
Logging; HTTP and file I/O themselves; weakref lifetime and `__del__`; Python 2 branches; Windows branches; threads (the code
has none); floats beyond opaque values; messages of exceptions (kinds are modelled); the tests; mutation of an object while it is being
scanned, except where Model/Refs and Model/Heap say so. The list `required` that to_schema shares between the 2.0 and the 3.0.0 spec is copied.

## Layout
`Verif/Base` strings, dictionaries, JSON. `Verif/Model/*` the code:
| module | code |
|---|---|
| Utils, Url, Container, Deref, PyInt | utils.py, `int` of a string |
| Obj, PyAttrs, Heap, Parent, Access, Tables, Renames, Meta, Statements | spec/obj.py (values; with identity and caches; the metaclass), versions/*/objects.py (the class tables of 1.2, 2.0, 3.0.0) |
| Attr | spec/attr.py, get_attrs, versions/*/attrs.py |
| Scan, Refs, Yaml, PathItem | scan.py, v2_0/scanner, v3_0_0/scanner, comm.py |
| Store, Resolver, Getter, App | store.py, resolve.py, getter.py, base.py |
| Ops, Conv | v2_0/scanner/upgrade/ (converters, parameter_context, constants) |
| Up12 | v1_2/scanner/upgrade.py |
| Main | versions/*/main.py on top of all these |

`Verif/Spec/*` independent specifications. `Verif/Lemmas/*` helper lemmas. `Verif/Props/*` the property theorems with
non-vacuity examples; `Verif/Instances/*` more of these: applications of the theorems to concrete cases that meet all their hypotheses. `tools/` generates properties.jsonl, MANIFEST.json, AXIOMS.md and runs the mutants in `seeded/`.

## Plan per property
| id | modelled | proof |
|----|----------|-------|
| C01-C03 | jp_compose, jp_split over all strings | escape/unescape lemmas; split/join inverse; spec = one-pass RFC 6901 decoder |
| C04 | scope_compose/scope_split | general split of a composed string; counterexample by computation; partial theorem |
| C05 | ScopeDict.__getitem__ | decision theorem by cases |
| C06 | deref/CycleGuard over a heap `Nat -> Node` | pigeonhole measure for termination; chain induction |
| C07-C12 | urlparse/urlunparse (CPython), url helpers | structural lemmas on parse/unparse; stack machine for dot removal |
| C13 | os.path.splitext, patch_path | case analysis |
| C14-C16, C67 | version detection, StrictVersion sort, migrate_obj loop | sortedness + permutation; fold induction; C67 negated by witness |
| C17-C19 | compare_container on Json | mutual structural induction |
| C20-C31 | object builder over an arbitrary class table, dump, resolve, paths, override, merge, compare, children cache | structural induction on Json/Obj; counterexamples for C24, C27, C30, C31 |
| C32-C34 | default_tree_traversal worklist, scan dispatch | permutation with the declarative descendant list |
| C35-C42 | SpecObjStore as a state machine | invariants over operation histories; C37 negated; relocate as a fold |
| C43-C44 | Resolver with loader-per-call oracle | history induction |
| C45-C58 | converters 2.0 to 3.0.0 with a $ref environment | structural induction, list folds; C52, C55, C58 negated by witness, partial theorems |
| C59 | _merge_path_item over a reference graph | termination measure; chain spec |
| C60 | YamlFixer._op | list induction |
| C61-C65 | 1.2 upgrade pieces | string lemmas, fold induction |
| C66-C70 | ApiBase.load_obj, resolve_obj, migrate_obj over a parametric object type and arbitrary upgrade modules | case analysis of every branch; invariants over the loop of versions; C67, C68 negated by witness |
| C71 | what the converters produce, against the loader (C21) | structural induction over all converters; exact condition for whole documents |
| C72, C73 | to_security_scheme, server urls of operations | case analysis; url lemmas; negations by witness |
| C74-C77 | the whole 1.2 upgrade (Model/Up12) over loaded listings and resources | fold inductions over resources, operations, models; `DocumentTo12` as the separate specification; totality from `Upgradable` |
| C78 | the order of the scanners in v2_0/main.py with numeric YAML keys | case analysis over the key type |
| C79-C82 | NormalizeRef, Resolve of 2.0 and 3.0.0 (Model/Refs) over an arbitrary application that may change its state at every call | induction over the visits, inversion of every handler; totality |
| C83-C85 | getters and Resolver over an arbitrary file system | case analysis, history induction |
| C86 | everything put together (Model/Main): application made of store, loader, upgrade modules, scanners, converters | simulation lemmas for load / scan / convert / scan again; specification `Linked`, `Knows`, `Found`, `Moved` in Spec/Main, Spec/MainDoc; path items that refer to one another (Spec/MainPaths) as C88, C97 and C96 without other pieces |
| C87 | the dispatch on the class of the object in v3_0_0/main.py; load_obj, migrate_obj and resolve_obj of one object | case analysis; negation; for objects without references symbolic execution with the totality of the conversion (C53) |
| C88 | the same application over any finite graph of documents | induction over the number of pieces not yet loaded (nested upgrades), an invariant of the store (`Holds`), exactly-once accounting of fetches |
| C89 | the class tables (Model/Obj/Tables) against the fixed fields of the three specifications (Spec/Fields, generated from the specifications) | the tables are compared field by field by computation; that is a complete enumeration of a finite table, and the rest is C22 for every document |
| C90 | renamed attributes (Model/Obj/Renames) | reading an attribute of a loaded object, for every document; negation |
| C91 | the metaclass FieldMeta, attach_field (Model/Meta) over any sequence of class statements | induction over the statements; the class tables are derived from the statements |
| C92 | normalize_url over all strings, abspath and pathname2url as parameters | steps of urlparse |
| C93 | relocation tables made by to_path_item and to_openapi | exact outcome of the loop over the routes for every pointer to a parameter of a path item |
| C94 | attr.py, get_attrs (Model/Attr) over all objects | invariant over the history, per object and namespace |
| C95 | overrideFor, convert, upgrade30 (Model/Main) with the store's get_under | get_under of one object (C95_reuse) or of a family none inside another (C95_all, induction over the store's entries), then C27 / C27_many for the build of the converted document |
| C96 | the whole application of Model/Main over many documents, migrated to 3.0.0 | after C88: an invariant of the store and the attributes (`Holds3`) while pieces are converted, induction over the number of pieces not yet converted; the conversion by C53/C71 in an environment that follows references through all documents |
| C97 | the whole application of Model/Main over many 3.0.0 documents | as C88, with the resolving and merging scanners of 3.0.0, which also write `$ref` anew; induction over the number of pieces not yet fetched |
| C98 | the whole application of Model/Main over a 1.2 listing and its resources, with the upgrade of Model/Up12 | the upgraded document is shown to follow the conventions of C86 (every reference is to a definition that exists); the steps of the migration loop are chained |
| C99 | the same, with the converter of Model/Conv after it | the upgraded document is shown to be convertible (C53) and its names harmless (C55); then the steps of C86 from 2.0 to 3.0.0 |
| C100 | constructors that put their objects into a memory (Model/Parent `make`), and the operations of Model/Heap with parents | one equation: the memory is the tree of `build` laid out in order (strong induction on the document); then induction on the size of the tree; induction on histories |
| C101 | the container methods of `_List` and `_Map` (Model/Access) | from what `build` made of a list or map; induction on the assignments and, for equality, on the document |
| C102 | `Scanner.scan` over Python's `__mro__` of the class statements (Model/Scanner) | lineages by induction over the statements, then the calls by induction over the visits and route objects |
| C103 | `resolve_obj` over the store and arbitrary upgrade modules (Model/App) | get_until answers with the newest usable candidate (C39 both ways), then the code path by rewriting |
| C104 | `load_obj`, failing at any point (Model/App) | case analysis of every exit; removal by C38; the violation with `remove_dummy` |
| C105 | `migrate_obj`, failing at any stage (Model/App) | induction over the planned versions |
| C106 | `to_path_item` called for the root document and for a document of its own (Model/Conv, Model/Main) | congruence of every converter in the document's media types; concrete document for the negation |
| C107 | `to_path_item`, path-level parameters against those of operations (Model/Conv) | `Forall₂` relation of C53, filtered by identity; references: the entry of the components `C53`–`C60` relate to the shared parameter (Props/RedefineRef); for bodies: the fold over methods with the shared body present fails |
| C108 | `resolve_obj` with the real `jr_split` (Model/App, Model/Url) | both calls have the same parts after C10; the url condition shown necessary by witness |
| C109 | `convert_operation` (Model/Up12) | every item of the upgraded paths comes from one operation (invariant of the scan, C75); the only response is `default` |
| C110 | `to_response`, `to_media_type` (Model/Conv) | from C57 and C49: the members of what is made |
| C111 | `from_swagger_to_server` (Model/Conv) | from C56, against the list of urls a 2.0 document stands for |
| C112 | `Resolver.resolve` (Model/Resolver) under `application` (Model/Main): `stacked` (Spec/Stack) | C88, C96 and C97 give the fetches, one for each piece; over them, by induction: what has been read is what the resolver has, and nothing twice (`once_fold`) |
| C113 | `putRef`, `rewritten` (Model/Saved: what v3_0_0/scanner/resolve.py writes into the documents), `dump`, `application`; `SavedAs`, `Whole`, `Savable`, `SavableTwo` (Spec/Saved, Spec/SavedDoc, Spec/SavedTwo) | induction over builders for "dump, then build says the same" with rewritten references (`savedAs_of`) and for existence (`total_of`); then C86_native_partial for the saved document, whose references lead where `KnowsVia` of the first one says |
| C114 | `compare`, `cmpRaw`, `cmpElems`, `cmpItems` (Model/Ops); `RawDiffers`, `Different`, `ApartAt`, `placeAt` (Spec/CompareAt) | recursion over the first object along the code; the base that is handed down is composed token by token (`placeAt`) |
