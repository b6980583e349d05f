import Verif.Model.Obj

/-! # Specification of loading and dumping, independent of the loader -/

namespace Pyopenapi.Spec

/-- JSON equality up to the order of keys, at every depth. -/
inductive JEq : Json → Json → Prop
  | refl (j : Json) : JEq j j
  | nil : JEq (.arr []) (.arr [])
  | cons {x y : Json} {l m : List Json} : JEq x y → JEq (.arr l) (.arr m) →
      JEq (.arr (x :: l)) (.arr (y :: m))
  | obj {d e : Dict Json} : (∀ k, Dict.get? d k = none ↔ Dict.get? e k = none) →
      (∀ k x y, Dict.get? d k = some x → Dict.get? e k = some y → JEq x y) → JEq (.obj d) (.obj e)

/-- `k` is found by Python's `in` on a JSON value: a key of an object, an element of a list, or a
substring of a string. -/
def Within (k : Str) : Json → Prop
  | .obj d => ∃ v, Dict.get? d k = some v
  | .arr l => Json.str k ∈ l
  | .str s => ∃ a b, s = a ++ k ++ b
  | _ => False

/-- A JSON value one may search with `in`. -/
def Iterable : Json → Prop
  | .obj _ | .arr _ | .str _ => True
  | _ => False

/-- The documents a builder accepts.

The regular shapes are `clsObj`, `isStr`, `list`, `map`, `ref`, `notRef`, `bool`, `notBool`.  The
code also accepts values that are no documents of that kind at all: `clsLeaf` (anything, for a class
without children) and `clsOther` (a list or string in which no child name is found). -/
inductive Shaped (T : Table) : Builder → Json → Prop
  | clsObj {c : Str} {d : Dict Json} :
      (∀ k cd, (k, cd) ∈ (T c).children → cd.required = true → Dict.get? d k ≠ none) →
      (∀ k cd v, (k, cd) ∈ (T c).children → Dict.get? d k = some v → v ≠ .null → Shaped T cd.builder v) →
      Shaped T (.cls c) (.obj d)
  | clsLeaf {c : Str} {j : Json} : (T c).children = [] → Shaped T (.cls c) j
  | clsOther {c : Str} {j : Json} : (∀ d, j ≠ .obj d) → Iterable j →
      (∀ k cd, (k, cd) ∈ (T c).children → cd.required = false ∧ ¬ Within k j) → Shaped T (.cls c) j
  | isStr {s : Str} : Shaped T .isStr (.str s)
  | str {s : Str} : Shaped T .isStrOrInt (.str s)
  | int {n : Int} : Shaped T .isStrOrInt (.int n)
  | intBool {v : Bool} : Shaped T .isStrOrInt (.bool v)
  | list {b : Builder} {l : List Json} : (∀ x ∈ l, Shaped T b x) → Shaped T (.listOf b) (.arr l)
  | map {b : Builder} {d : Dict Json} : (∀ k x, (k, x) ∈ d → Shaped T b x) → Shaped T (.mapOf b) (.obj d)
  | ref {r : Str} {b : Builder} {j : Json} : Within (s% "$ref") j → Shaped T (.cls r) j →
      Shaped T (.ifNotRef r b) j
  | notRef {r : Str} {b : Builder} {j : Json} : Iterable j → ¬ Within (s% "$ref") j → Shaped T b j →
      Shaped T (.ifNotRef r b) j
  | bool {b : Builder} {v : Bool} : Shaped T (.ifNotBool b) (.bool v)
  | notBool {b : Builder} {j : Json} : (∀ v, j ≠ .bool v) → Shaped T b j → Shaped T (.ifNotBool b) j

/-- Where JSON pointer tokens lead in a raw document (RFC 6901: a member name, or the decimal index
of an element). -/
inductive RawAt : Json → List Str → Json → Prop
  | here (j : Json) : RawAt j [] j
  | key {d : Dict Json} {k : Str} {v w : Json} {ts : List Str} : Dict.get? d k = some v →
      RawAt v ts w → RawAt (.obj d) (k :: ts) w
  | idx {l : List Json} {n : Nat} {v w : Json} {ts : List Str} : l[n]? = some v →
      RawAt v ts w → RawAt (.arr l) (Str.ofNat n :: ts) w

/-- Walking a document together with the classes: after tokens `ts` from a value `j` read with
builder `b`, the value is `w`, read with builder `b'`. Every token is a declared child, an element
of a list or of a map; `null` children are absent. -/
inductive Reach (T : Table) : Builder → Json → List Str → Builder → Json → Prop
  | here {b : Builder} {j : Json} : Reach T b j [] b j
  | child {c : Str} {d : Dict Json} {k : Str} {cd : ChildDef} {v w : Json} {ts : List Str} {b' : Builder} :
      Dict.get? (T c).children k = some cd → Dict.get? d k = some v → v ≠ .null →
      Reach T cd.builder v ts b' w → Reach T (.cls c) (.obj d) (k :: ts) b' w
  | elem {b : Builder} {l : List Json} {n : Nat} {v w : Json} {ts : List Str} {b' : Builder} :
      l[n]? = some v → Reach T b v ts b' w → Reach T (.listOf b) (.arr l) (Str.ofNat n :: ts) b' w
  | item {b : Builder} {d : Dict Json} {k : Str} {v w : Json} {ts : List Str} {b' : Builder} :
      Dict.get? d k = some v → Reach T b v ts b' w → Reach T (.mapOf b) (.obj d) (k :: ts) b' w
  | ref {r : Str} {b : Builder} {d : Dict Json} {t : Str} {ts : List Str} {b' : Builder} {w v : Json} :
      Dict.get? d (s% "$ref") = some v → Reach T (.cls r) (.obj d) (t :: ts) b' w →
      Reach T (.ifNotRef r b) (.obj d) (t :: ts) b' w
  | notRef {r : Str} {b : Builder} {d : Dict Json} {t : Str} {ts : List Str} {b' : Builder} {w : Json} :
      Dict.get? d (s% "$ref") = none → Reach T b (.obj d) (t :: ts) b' w →
      Reach T (.ifNotRef r b) (.obj d) (t :: ts) b' w
  | notBool {b : Builder} {j : Json} {t : Str} {ts : List Str} {b' : Builder} {w : Json} :
      (∀ v, j ≠ .bool v) → Reach T b j (t :: ts) b' w → Reach T (.ifNotBool b) j (t :: ts) b' w

/-- Builders that always give an object, never a raw value. -/
def objBuilder : Builder → Bool
  | .cls _ | .listOf _ | .mapOf _ => true
  | .isStr | .isStrOrInt | .ifNotBool _ => false
  | .ifNotRef _ b => objBuilder b

/-- `r` is a `Reference` class: a single field `$ref`, no child. -/
def refClass (T : Table) (r : Str) : Bool :=
  (T r).children.isEmpty && match (T r).fields with
    | [(k, fd)] => k == s% "$ref" && !fd.restricted
    | _ => false

/-- An object of a class, or a map. -/
def clsOrMap : Builder → Bool
  | .cls _ | .mapOf _ => true
  | _ => false

/-- Builders the tables may use: elements of a list or map are all objects or all strings; a
reference stands for an object of a class or for a map. -/
def okBuilder (T : Table) : Builder → Bool
  | .cls _ | .isStr | .isStrOrInt => true
  | .listOf b | .mapOf b => okBuilder T b && (objBuilder b || b == .isStr || b == .isStrOrInt)
  | .ifNotRef r b => refClass T r && okBuilder T b && clsOrMap b
  | .ifNotBool b => okBuilder T b && objBuilder b

/-- A child builder gives an object of a class, a list, a map, a reference to an object of a class,
or, behind `if_not_bool_else`, a bool. -/
def childBuilder (T : Table) : Builder → Bool
  | .cls _ => true
  | .listOf b => okBuilder T (.listOf b)
  | .mapOf b => okBuilder T (.mapOf b)
  | .ifNotRef r (.cls _) => refClass T r
  | .ifNotBool (.cls _) => true
  | .ifNotBool (.ifNotRef r (.cls _)) => refClass T r
  | _ => false

/-- One class is well formed: unique names, no name both field and child, usable builders. -/
def okClass (T : Table) (c : ClassDef) : Bool :=
  decide (Dict.NodupKeys c.fields) && decide (Dict.NodupKeys c.children) &&
  c.children.all (fun kc => childBuilder T kc.2.builder && !Dict.has c.fields kc.1 && kc.1 != s% "$ref")

/-- A well-formed table. -/
def OkTable (T : Table) : Prop := ∀ c, okClass T (T c) = true

/-- The value is invisible in a dump: an empty list or map, or a bool behind `if_not_bool_else`
(`if child_:`, obj.py:650). -/
inductive Hidden : Builder → Json → Prop
  | list {b : Builder} : Hidden (.listOf b) (.arr [])
  | map {b : Builder} : Hidden (.mapOf b) (.obj [])
  | bool {b : Builder} {v : Bool} : Hidden (.ifNotBool b) (.bool v)
  | notBool {b : Builder} {j : Json} : Hidden b j → Hidden (.ifNotBool b) j
  | notRef {r : Str} {b : Builder} {j : Json} : ¬ Within (s% "$ref") j → Hidden b j →
      Hidden (.ifNotRef r b) j

/-- Documents that only use what the classes declare, with nothing a dump leaves out. -/
inductive Clean (T : Table) : Builder → Json → Prop
  | cls {c : Str} {d : Dict Json} : Dict.NodupKeys d →
      (∀ k cd, (k, cd) ∈ (T c).children → cd.required = true → Dict.get? d k ≠ none) →
      (∀ k cd v, Dict.get? (T c).children k = some cd → Dict.get? d k = some v →
        v ≠ .null ∧ ¬ Hidden cd.builder v) →
      (∀ k cd v, Dict.get? (T c).children k = some cd → Dict.get? d k = some v → Clean T cd.builder v) →
      (∀ k v, Dict.get? d k = some v → Dict.get? (T c).children k = none →
        v ≠ .null ∧ ∃ fd, Dict.get? (T c).fields k = some fd ∧ fd.restricted = false) →
      Clean T (.cls c) (.obj d)
  | isStr {s : Str} : Clean T .isStr (.str s)
  | str {s : Str} : Clean T .isStrOrInt (.str s)
  | int {n : Int} : Clean T .isStrOrInt (.int n)
  | intBool {v : Bool} : Clean T .isStrOrInt (.bool v)
  | list {b : Builder} {l : List Json} : (∀ x ∈ l, Clean T b x) → Clean T (.listOf b) (.arr l)
  | map {b : Builder} {d : Dict Json} : Dict.NodupKeys d → (∀ k x, (k, x) ∈ d → Clean T b x) →
      Clean T (.mapOf b) (.obj d)
  | ref {r : Str} {b : Builder} {d : Dict Json} {v : Json} : Dict.get? d (s% "$ref") = some v →
      Clean T (.cls r) (.obj d) → Clean T (.ifNotRef r b) (.obj d)
  | notRef {r : Str} {b : Builder} {d : Dict Json} : Dict.get? d (s% "$ref") = none →
      Clean T b (.obj d) → Clean T (.ifNotRef r b) (.obj d)
  | notBool {b : Builder} {j : Json} : (∀ v, j ≠ .bool v) → Clean T b j → Clean T (.ifNotBool b) j

/-- Documents whose required children are all visible in a dump, at every depth, and whose references
are not `null`: the dump can be loaded again. -/
inductive Keeps (T : Table) : Builder → Json → Prop
  | clsObj {c : Str} {d : Dict Json} :
      (∀ k cd, (k, cd) ∈ (T c).children → cd.required = true →
        ∃ v, Dict.get? d k = some v ∧ v ≠ .null ∧ ¬ Hidden cd.builder v) →
      (∀ k cd v, (k, cd) ∈ (T c).children → Dict.get? d k = some v → v ≠ .null → Keeps T cd.builder v) →
      Keeps T (.cls c) (.obj d)
  | clsOther {c : Str} {j : Json} : (∀ d, j ≠ .obj d) → Keeps T (.cls c) j
  | isStr {j : Json} : Keeps T .isStr j
  | isStrOrInt {j : Json} : Keeps T .isStrOrInt j
  | list {b : Builder} {l : List Json} : (∀ x ∈ l, Keeps T b x) → Keeps T (.listOf b) (.arr l)
  | map {b : Builder} {d : Dict Json} : (∀ k x, (k, x) ∈ d → Keeps T b x) → Keeps T (.mapOf b) (.obj d)
  | ref {r : Str} {b : Builder} {d : Dict Json} {v : Json} : Dict.get? d (s% "$ref") = some v →
      v ≠ .null → Keeps T (.ifNotRef r b) (.obj d)
  | notRef {r : Str} {b : Builder} {j : Json} : ¬ Within (s% "$ref") j → Keeps T b j →
      Keeps T (.ifNotRef r b) j
  | notBool {b : Builder} {j : Json} : Keeps T b j → Keeps T (.ifNotBool b) j

end Pyopenapi.Spec
