import Verif.Props.Stack
import Verif.Props.NativeExample
import Verif.Props.PiecesUpExample

/-!
# Instances of C112
-/

namespace Pyopenapi.Main
open _root_.Pyopenapi.Spec _root_.Pyopenapi.Refs.Spec Obj Conv

/-- The two documents `isle` and its pieces are in: four pieces are in the second. -/
def isleDocs : Str → Option Json := fun url =>
  if url = s% "http://h/d/a.json" then some isleMain
  else if url = s% "http://h/d/b.json" then some (.obj [(s% "parameters", .obj [(s% "p", isleParam)]), (s% "items", .obj [(s% "q", isleItem)]),
    (s% "definitions", .obj [(s% "A", isleA), (s% "B", isleB)])])
  else none

theorem isle_inDocs : ∀ p, p = isle ∨ p ∈ islePieces → p.InDocument isleDocs := by
  intro p hp
  simp only [islePieces, List.mem_cons, List.not_mem_nil, or_false] at hp
  rcases hp with rfl | rfl | rfl | rfl | rfl
  · exact ⟨isleMain, rfl, by decide, .here _⟩
  all_goals exact ⟨_, rfl, by decide, .key rfl (.key rfl (.here _))⟩

theorem isle_good' : ∀ p ∈ isle :: islePieces, p.Good (stacked isleOut isleDocs) := fun p hp =>
  have h := isle_good p hp
  ⟨h.url, h.safe, h.ref, h.class_, h.version, h.wf, h.built⟩

theorem isle_served' : ∀ p ∈ islePieces, p.Served (stacked isleOut isleDocs) := fun p hp =>
  have h := isle_served p hp
  have g := isle_good p (List.mem_cons_of_mem _ hp)
  ⟨C112_served isleOut p g.url g.safe g.ref (isle_inDocs p (.inr hp)), h.part, h.notRoot⟩

theorem isle_application' : Application (stacked isleOut isleDocs) isle islePieces :=
  application_check isle_good' isle_served' (by decide +kernel) (by decide +kernel) ⟨rfl, rfl, rfl⟩

/-- The documents meet the hypotheses of `C112_reads`. -/
example : ∃ a a', App.loadObj (application (stacked isleOut isleDocs) 5) isle.url none false (opened (Reading.start isleDocs)) = (.ok isle.obj, a) ∧
    App.migrateObj (application (stacked isleOut isleDocs) 5) isle.obj isle.url (s% "2.0") a = (.ok isle.obj, a') ∧
    a'.world.rest.log.Nodup ∧ ∀ u, u ∈ a'.world.rest.log ↔ ∃ p, Reached (stacked isleOut isleDocs) isle islePieces p ∧ p.url = u :=
  C112_reads isleOut isle islePieces isle_application' isle_inDocs (by decide +kernel) 4 (by decide) (by decide +kernel)

def coastDocs : Str → Option Json := fun url =>
  if url = s% "http://h/d/a.json" then some Native.coastMain
  else if url = s% "http://h/d/b.json" then some (.obj [(s% "parameters", .obj [(s% "p", Native.coastParam)]),
    (s% "items", .obj [(s% "q", Native.coastItem)]), (s% "schemas", .obj [(s% "A", Native.coastA)])])
  else if url = s% "http://h/d/c.json" then some Native.coastC
  else none

theorem coast_inDocs : ∀ p, p = Native.coast ∨ p ∈ Native.coastPieces → p.InDocument coastDocs := by
  intro p hp
  simp only [Native.coastPieces, List.mem_cons, List.not_mem_nil, or_false] at hp
  rcases hp with rfl | rfl | rfl | rfl | rfl
  · exact ⟨Native.coastMain, rfl, by decide, .here _⟩
  · exact ⟨_, rfl, by decide, .key rfl (.key rfl (.here _))⟩
  · exact ⟨_, rfl, by decide, .key rfl (.key rfl (.here _))⟩
  · exact ⟨_, rfl, by decide, .key rfl (.key rfl (.here _))⟩
  · exact ⟨Native.coastC, rfl, by decide, .here _⟩

theorem coast_good' : ∀ p ∈ Native.coast :: Native.coastPieces, Native.Good (stacked Native.coastOut coastDocs) p := fun p hp =>
  have h := Native.coast_good p hp
  ⟨h.url, h.safe, h.ref, h.class_, h.version, h.wf, h.built, h.noMix, h.noExamples⟩

theorem coast_application' : Native.Application (stacked Native.coastOut coastDocs) Native.coast Native.coastPieces :=
  Native.application_check coast_good' (fun p hp =>
    have h := Native.coast_served p hp
    have g := Native.coast_good p (List.mem_cons_of_mem _ hp)
    ⟨C112_served Native.coastOut p g.url g.safe g.ref (coast_inDocs p (.inr hp)), h.part, h.notRoot⟩)
    (by decide +kernel) (by decide +kernel) ⟨rfl, rfl, rfl⟩

/-- The documents meet the hypotheses of `C112_reads_native`. -/
example : ∃ a a', App.loadObj (application (stacked Native.coastOut coastDocs) 5) Native.coast.url none false (opened (Reading.start coastDocs)) =
      (.ok Native.coast.obj, a) ∧
    App.migrateObj (application (stacked Native.coastOut coastDocs) 5) Native.coast.obj Native.coast.url (s% "3.0.0") a = (.ok Native.coast.obj, a') ∧
    a'.world.rest.log.Nodup ∧
    ∀ u, u ∈ a'.world.rest.log ↔ ∃ p, Native.Reached (stacked Native.coastOut coastDocs) Native.coast Native.coastPieces p ∧ p.url = u :=
  C112_reads_native Native.coastOut Native.coast Native.coastPieces coast_application' coast_inDocs (by decide +kernel) 4 (by decide) (by decide +kernel)

def fleetDocs : Str → Option Json := fun url =>
  if url = s% "http://h/d/a.json" then some (.obj fleetDoc)
  else if url = s% "http://h/d/b.json" then some (.obj [(s% "definitions", .obj [(s% "A", isleA), (s% "B", isleB)])])
  else none

theorem fleet_inDocs : ∀ p, p = fleet ∨ p ∈ fleetPieces → p.InDocument fleetDocs := by
  intro p hp
  simp only [fleetPieces, List.mem_cons, List.not_mem_nil, or_false] at hp
  rcases hp with rfl | rfl | rfl
  · exact ⟨.obj fleetDoc, rfl, by decide, .here _⟩
  all_goals exact ⟨_, rfl, by decide, .key rfl (.key rfl (.here _))⟩

theorem fleet_good' : ∀ p ∈ fleet :: fleetPieces, p.Good (stacked fleetOut fleetDocs) := fun p hp =>
  have h := fleet_good p hp
  ⟨h.url, h.safe, h.ref, h.class_, h.version, h.wf, h.built⟩

theorem fleet_application' : Application (stacked fleetOut fleetDocs) fleet fleetPieces :=
  application_check fleet_good' (fun p hp =>
    have h := fleet_served p hp
    have g := fleet_good p (List.mem_cons_of_mem _ hp)
    ⟨C112_served fleetOut p g.url g.safe g.ref (fleet_inDocs p (.inr hp)), h.part, h.notRoot⟩)
    (by decide +kernel) (by decide +kernel) ⟨rfl, rfl, rfl⟩

theorem fleet_upgradable' : Upgradable (stacked fleetOut fleetDocs) fleet fleetPieces fleetDoc :=
  have h := fleet_upgradable
  { app := fleet_application', json := h.json, regular := h.regular, refs := h.refs, schemas := h.schemas, inner := h.inner,
    ends := fun p hp ts x hv => ends_check fleet_application' hp hv
      (List.all_eq_true.1 (List.all_eq_true.1 (show (fleet :: fleetPieces).all (fun p => (visits p.obj).all (fun v =>
        endsB (stacked fleetOut fleetDocs) fleet fleetPieces 3 p v.2)) = true by decide +kernel) p (List.mem_cons.2 hp)) (ts, x)
        (((fleet_good p (List.mem_cons.2 hp)).scan.2.2 _ _).2 hv)),
    noFiles := h.noFiles, names := h.names, resolves := h.resolves, able := h.able, scopes := h.scopes, sets := h.sets, places := h.places,
    differ := h.differ }

/-- The documents meet the hypotheses of `C112_reads_upgraded`. -/
example : ∃ a a' o3, App.loadObj (application (stacked fleetOut fleetDocs) 3) fleet.url none false (opened (Reading.start fleetDocs)) = (.ok fleet.obj, a) ∧
    App.migrateObj (application (stacked fleetOut fleetDocs) 3) fleet.obj fleet.url (s% "3.0.0") a = (.ok o3, a') ∧
    a'.world.rest.log.Nodup ∧ ∀ u, u ∈ a'.world.rest.log ↔ ∃ p, Reached (stacked fleetOut fleetDocs) fleet fleetPieces p ∧ p.url = u :=
  C112_reads_upgraded fleetOut fleet fleetPieces fleetDoc fleet_upgradable' fleet_inDocs (by decide +kernel) 2 (by decide) (by decide +kernel)

end Pyopenapi.Main
