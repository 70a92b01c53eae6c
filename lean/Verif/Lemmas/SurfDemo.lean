import Verif.Lemmas.SurfArea
import Mathlib.Data.Rat.Defs
/-!
Small surfaces for the examples beside the theorems (tables made by tools/surfgen.py), and a test of validity.
-/
namespace City
open Spec

/-- A surface from tables. -/
def ofTables (next prev opp vert : List Nat) (face : List (Option Nat)) (start : List Nat) (pts : List (V3 ℚ)) : Surf ℚ :=
  ⟨List.range next.length, List.range start.length, List.range pts.length, fun i => next.getD i 0, fun i => prev.getD i 0, fun i => opp.getD i 0,
    fun i => vert.getD i 0, fun i => face.getD i none, fun i => start.getD i 0, fun _ => 0, fun i => pts.getD i ⟨0, 0, 0⟩⟩

/-- The conditions of validity that are tested half-edge by half-edge. -/
def checkSurf {K : Type} (S : Surf K) : Bool :=
  decide S.hs.Nodup && decide S.fs.Nodup && (S.hs.all fun h =>
    decide (S.next h ∈ S.hs) && decide (S.prev h ∈ S.hs) && decide (S.opp h ∈ S.hs) && decide (S.vert h ∈ S.vs) &&
    decide (S.prev (S.next h) = h) && decide (S.next (S.prev h) = h) && decide (S.opp (S.opp h) = h) && decide (S.opp h ≠ h) &&
    decide (S.next h ≠ h) && decide (S.next (S.next h) ≠ h) && decide (S.vert h ≠ S.vert (S.opp h)) &&
    decide (S.vert (S.opp (S.next h)) = S.vert h) && decide (∀ f ∈ (S.face h).toList, f ∈ S.fs) && decide (S.face (S.next h) = S.face h)) &&
  (S.fs.all fun f => decide (S.start f ∈ S.hs) && decide (S.face (S.start f) = some f) &&
    S.hs.all fun h => decide (S.face h = some f → ∃ n ∈ List.range S.hs.length, S.next^[n] (S.start f) = h))

theorem checkSurf_valid {K : Type} {S : Surf K} (h : checkSurf S = true) : ValidSurf S := by
  unfold checkSurf at h
  simp only [Bool.and_eq_true, decide_eq_true_eq, List.all_eq_true] at h
  obtain ⟨⟨⟨h1, h2⟩, h3⟩, h4⟩ := h
  constructor
  · exact h1
  · exact h2
  · intro x hx; exact (h3 x hx).1.1.1.1.1.1.1.1.1.1.1.1.1
  · intro x hx; exact (h3 x hx).1.1.1.1.1.1.1.1.1.1.1.1.2
  · intro x hx; exact (h3 x hx).1.1.1.1.1.1.1.1.1.1.1.2
  · intro x hx; exact (h3 x hx).1.1.1.1.1.1.1.1.1.1.2
  · intro x hx; exact (h3 x hx).1.1.1.1.1.1.1.1.1.2
  · intro x hx; exact (h3 x hx).1.1.1.1.1.1.1.1.2
  · intro x hx; exact (h3 x hx).1.1.1.1.1.1.1.2
  · intro x hx; exact (h3 x hx).1.1.1.1.1.1.2
  · intro x hx; exact (h3 x hx).1.1.1.1.1.2
  · intro x hx; exact (h3 x hx).1.1.1.1.2
  · intro x hx; exact (h3 x hx).1.1.1.2
  · intro x hx; exact (h3 x hx).1.1.2
  · intro x hx f hf; exact (h3 x hx).1.2 f (by rw [hf]; simp)
  · intro x hx; exact (h3 x hx).2
  · intro f hf; exact (h4 f hf).1.1
  · intro f hf; exact (h4 f hf).1.2
  · intro f hf x hx hxf
    obtain ⟨n, _, hn⟩ := (h4 f hf).2 x hx hxf
    exact ⟨n, hn⟩

/-- A tetrahedron. -/
def tetra : Surf ℚ := ofTables
  [1, 2, 0, 4, 5, 3, 7, 8, 6, 10, 11, 9]
  [2, 0, 1, 5, 3, 4, 8, 6, 7, 11, 9, 10]
  [9, 6, 3, 2, 8, 10, 1, 11, 4, 0, 5, 7]
  [2, 1, 0, 1, 3, 0, 2, 3, 1, 0, 3, 2]
  [some 0, some 0, some 0, some 1, some 1, some 1, some 2, some 2, some 2, some 3, some 3, some 3]
  [0, 3, 6, 9]
  [⟨0, 0, 0⟩, ⟨2, 0, 0⟩, ⟨0, 2, 0⟩, ⟨0, 0, 2⟩]

/-- A square at height 3, cut in two triangles: an open surface. -/
def panel : Surf ℚ := ofTables
  [1, 2, 0, 4, 5, 3, 9, 6, 7, 8]
  [2, 0, 1, 5, 3, 4, 7, 8, 9, 6]
  [6, 7, 3, 2, 8, 9, 0, 1, 4, 5]
  [1, 2, 0, 2, 3, 0, 0, 1, 2, 3]
  [some 0, some 0, some 0, some 1, some 1, some 1, none, none, none, none]
  [0, 3]
  [⟨0, 0, 3⟩, ⟨2, 0, 3⟩, ⟨2, 2, 3⟩, ⟨0, 2, 3⟩]

/-- A closed pyramid whose base is three triangles around the point number 4. -/
def hut : Surf ℚ := ofTables
  [1, 2, 0, 4, 5, 3, 7, 8, 6, 10, 11, 9, 13, 14, 12, 16, 17, 15]
  [2, 0, 1, 5, 3, 4, 8, 6, 7, 11, 9, 10, 14, 12, 13, 17, 15, 16]
  [15, 5, 7, 12, 8, 1, 9, 2, 4, 6, 14, 16, 3, 17, 10, 0, 11, 13]
  [2, 4, 0, 1, 4, 2, 0, 4, 1, 1, 3, 0, 2, 3, 1, 0, 3, 2]
  [some 0, some 0, some 0, some 1, some 1, some 1, some 2, some 2, some 2, some 3, some 3, some 3, some 4, some 4, some 4, some 5, some 5, some 5]
  [0, 3, 6, 9, 12, 15]
  [⟨0, 0, 0⟩, ⟨3, 0, 0⟩, ⟨0, 3, 0⟩, ⟨1, 1, 3⟩, ⟨1, 1, 0⟩]

/-- Three quadrangles around a triangular hole in a horizontal plane. -/
def ring : Surf ℚ := ofTables
  [1, 2, 3, 0, 5, 6, 7, 4, 9, 10, 11, 8, 16, 15, 12, 17, 14, 13]
  [3, 0, 1, 2, 7, 4, 5, 6, 11, 8, 9, 10, 14, 17, 16, 13, 12, 15]
  [12, 7, 13, 9, 14, 11, 15, 1, 16, 3, 17, 5, 0, 2, 4, 6, 8, 10]
  [1, 4, 3, 0, 2, 5, 4, 1, 0, 3, 5, 2, 0, 4, 1, 5, 2, 3]
  [some 0, some 0, some 0, some 0, some 1, some 1, some 1, some 1, some 2, some 2, some 2, some 2, none, none, none, none, none, none]
  [0, 4, 8]
  [⟨0, 0, 0⟩, ⟨9, 0, 0⟩, ⟨0, 9, 0⟩, ⟨1, 1, 0⟩, ⟨4, 1, 0⟩, ⟨1, 4, 0⟩]

/-- Two triangles on the same side of their common edge: the second is folded over the first. -/
def fold : Surf ℚ := ofTables
  [1, 2, 0, 4, 5, 3, 9, 6, 7, 8]
  [2, 0, 1, 5, 3, 4, 7, 8, 9, 6]
  [3, 6, 7, 0, 8, 9, 1, 2, 4, 5]
  [1, 2, 0, 0, 3, 1, 1, 2, 0, 3]
  [some 0, some 0, some 0, some 1, some 1, some 1, none, none, none, none]
  [0, 3]
  [⟨0, 0, 0⟩, ⟨2, 0, 0⟩, ⟨1, 2, 0⟩, ⟨1, 1, 0⟩]

theorem tetra_valid : ValidSurf tetra := checkSurf_valid (by decide +kernel)
theorem panel_valid : ValidSurf panel := checkSurf_valid (by decide +kernel)
theorem hut_valid : ValidSurf hut := checkSurf_valid (by decide +kernel)
theorem ring_valid : ValidSurf ring := checkSurf_valid (by decide +kernel)
theorem fold_valid : ValidSurf fold := checkSurf_valid (by decide +kernel)

end City
