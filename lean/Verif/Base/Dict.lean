import Verif.Base.Str

/-!
# Dictionaries, errors

Python `dict` (and `OrderedDict`) as an association list in insertion order: assigning an
existing key keeps its position, assigning a new key appends.
-/

namespace Pyopenapi

/-- The exceptions the modelled code can raise, by Python class
(`generic` is a plain `Exception`). -/
inductive Err where
  | typeError | keyError | indexError | valueError | attributeError | notImplemented
  | schemaError | fieldNotExist | cycle | jsonRef | generic | stopIteration | recursion
  deriving DecidableEq, Repr

/-- A Python computation that may raise. -/
abbrev R (α : Type) := Except Err α

instance {ε α : Type} [DecidableEq ε] [DecidableEq α] : DecidableEq (Except ε α)
  | .ok a, .ok b => if h : a = b then .isTrue (by rw [h]) else .isFalse (fun e => h (Except.ok.inj e))
  | .error a, .error b =>
    if h : a = b then .isTrue (by rw [h]) else .isFalse (fun e => h (Except.error.inj e))
  | .ok _, .error _ => .isFalse nofun
  | .error _, .ok _ => .isFalse nofun

/-- A Python dictionary, generic in the key. -/
abbrev DictK (κ : Type) (α : Type) := List (κ × α)

/-- A Python dictionary with string keys. -/
abbrev Dict (α : Type) := DictK Str α

namespace Dict
variable {κ α : Type} [DecidableEq κ]

/-- `d.get(k)`. -/
def get? : DictK κ α → κ → Option α
  | [], _ => none
  | (k', v) :: d, k => if k' = k then some v else get? d k

/-- `k in d`. -/
def has (d : DictK κ α) (k : κ) : Bool := (get? d k).isSome

/-- `d[k]`. -/
def get! (d : DictK κ α) (k : κ) : R α :=
  match get? d k with
  | some v => .ok v
  | none => .error .keyError

/-- `d[k] = v`. -/
def set : DictK κ α → κ → α → DictK κ α
  | [], k, v => [(k, v)]
  | (k', v') :: d, k, v => if k' = k then (k', v) :: d else (k', v') :: set d k v

/-- `d.update(e)`. -/
def update (d e : DictK κ α) : DictK κ α := e.foldl (fun d kv => set d kv.1 kv.2) d

/-- `del d[k]` for a present key (no change otherwise). -/
def erase : DictK κ α → κ → DictK κ α
  | [], _ => []
  | (k', v') :: d, k => if k' = k then d else (k', v') :: erase d k

/-- `list(d.keys())`. -/
def keys (d : DictK κ α) : List κ := d.map Prod.fst

/-- Keys are unique, as in every Python dictionary. -/
def NodupKeys (d : DictK κ α) : Prop := (keys d).Nodup

instance (d : DictK κ α) : Decidable (NodupKeys d) := inferInstanceAs (Decidable (List.Nodup _))

/-- `[... for (k, v) in d.items()]` with a body that may raise: builds a new dictionary. -/
def mapM {β : Type} (f : κ → α → R β) : DictK κ α → R (DictK κ β)
  | [] => .ok []
  | (k, v) :: d => do
    let b ← f k v
    let r ← mapM f d
    pure ((k, b) :: r)

/-- The same, leaving out the entries for which the body gives `None`. -/
def collect {β : Type} (f : κ → α → R (Option β)) : DictK κ α → R (DictK κ β)
  | [] => .ok []
  | (k, v) :: d => do
    let o ← f k v
    let rest ← collect f d
    match o with
    | some o => .ok ((k, o) :: rest)
    | none => .ok rest

end Dict
end Pyopenapi
