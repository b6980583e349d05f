import Verif.Model.Main
import Verif.Model.Resolver
import Verif.Spec.Pieces

/-!
# Specification: an application on top of the resolver

What the application fetches by a reference is looked up in a document by the resolver (resolve.py), which reads the
document, when it does not have it yet, with a getter.  Here the documents do not change, and the getter notes the urls it
is asked for.
-/

namespace Pyopenapi.Main
open _root_.Pyopenapi.Spec _root_.Pyopenapi.Refs.Spec Obj

variable {W : Type}

/-- A getter for documents that do not change: it gives the document of the url, or raises, and notes the url
(getter.py: every call of `UrlGetter` or `LocalGetter` reads the file or makes a request). -/
def reading (docs : Str → Option Json) (log : List Str) (url : Str) : R Json × List Str :=
  ((match docs url with
    | some j => .ok j
    | none => .error .generic), log ++ [url])

/-- What the resolver has is what is in the documents. -/
def Consistent (docs : Str → Option Json) (s : Resolver.State (List Str)) : Prop :=
  ∀ url j, Dict.get? s.cache url = some (some j) → docs url = some j

theorem consistent_resolve {docs : Str → Option Json} {split : Str → R (Str × Str)} {s : Resolver.State (List Str)} {jref : Str}
    (h : Consistent docs s) : Consistent docs (Resolver.resolve split (reading docs) s jref).2 := by
  unfold Resolver.resolve
  split
  · exact h
  · rename_i url jp _
    split
    · exact h
    · unfold reading
      cases hd : docs url with
      | none => exact h
      | some d =>
        dsimp only
        have key : Consistent docs ⟨Dict.set s.cache url (if d.truthy then some d else none), s.world ++ [url]⟩ := by
          intro u j hj
          dsimp only at hj
          by_cases e : u = url
          · subst e
            rw [Dict.get?_set_self] at hj
            split at hj
            · cases hj; exact hd
            · cases hj
          · rw [Dict.get?_set_ne _ _ (Ne.symm e)] at hj
            exact h u j hj
        split
        · rename_i e
          rwa [if_pos e] at key
        · rename_i e
          rwa [if_neg e] at key

/-- A resolver that has read some of the documents. -/
def Reading (docs : Str → Option Json) : Type := { s : Resolver.State (List Str) // Consistent docs s }

/-- The resolver an application starts with: nothing has been read. -/
def Reading.start (docs : Str → Option Json) : Reading docs := ⟨⟨[], []⟩, fun _ _ h => by cases h⟩

/-- The urls that have been read, in this order. -/
def Reading.log {docs : Str → Option Json} (s : Reading docs) : List Str := s.1.world

/-- The application on top of the resolver (base.py:58-66, 139-150, resolve.py:40-83): it fetches by `Resolver.resolve`. -/
def stacked (out : Outer W) (docs : Str → Option Json) : Outer (Reading docs) where
  url := out.url
  ok := out.ok
  path2url := out.path2url
  abspath := out.abspath
  fetch := fun jref s =>
    ((Resolver.resolve (jrSplit out.ok out.path2url out.abspath) (reading docs) s.1 jref).1,
      ⟨(Resolver.resolve (jrSplit out.ok out.path2url out.abspath) (reading docs) s.1 jref).2, consistent_resolve s.2⟩)
  setOrder := out.setOrder
  up12 := out.up12
  rounds := out.rounds

/-- The content of a piece is at its place in the document of its url, which is not empty. -/
def Piece.InDocument (docs : Str → Option Json) (p : Piece) : Prop :=
  ∃ d, docs p.url = some d ∧ d.truthy = true ∧ RawAt d p.place p.json

end Pyopenapi.Main
