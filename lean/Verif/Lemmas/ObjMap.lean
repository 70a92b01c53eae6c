import Verif.Model.Obj
import Mathlib.Data.List.Perm.Basic
/-! Lemmas about the sorted map of objects and the positions of objects in the file. -/
namespace City.Obj

variable {α β : Type}

/-- Sorted by key, without repetition. -/
def Sorted (l : List (Text × α)) : Prop := l.Pairwise fun a b => a.1 < b.1

theorem mem_emplace {x y : Text × α} {l : List (Text × α)} (h : y ∈ emplace x l) : y = x ∨ y ∈ l := by
  induction l with
  | nil => simpa [emplace] using h
  | cons z zs ih =>
    rw [emplace] at h
    split at h
    · simpa using h
    · split at h
      · exact Or.inr h
      · rcases List.mem_cons.1 h with rfl | h
        · simp
        · rcases ih h with h | h <;> simp [h]

theorem sorted_emplace (x : Text × α) {l : List (Text × α)} (h : Sorted l) : Sorted (emplace x l) := by
  induction l with
  | nil => simp [emplace, Sorted]
  | cons z zs ih =>
    have hz := List.pairwise_cons.1 h
    rw [emplace]
    split
    · rename_i hlt
      refine List.pairwise_cons.2 ⟨?_, h⟩
      intro y hy
      rcases List.mem_cons.1 hy with rfl | hy
      · exact hlt
      · exact lt_trans hlt (hz.1 y hy)
    · rename_i hnlt
      split
      · exact h
      · rename_i hne
        refine List.pairwise_cons.2 ⟨?_, ih hz.2⟩
        intro y hy
        rcases mem_emplace hy with rfl | hy
        · exact lt_of_le_of_ne (not_lt.1 hnlt) (Ne.symm hne)
        · exact hz.1 y hy

theorem perm_emplace {x : Text × α} {l : List (Text × α)} (h : ∀ y ∈ l, y.1 ≠ x.1) : (emplace x l).Perm (x :: l) := by
  induction l with
  | nil => exact .refl _
  | cons z zs ih =>
    rw [emplace]
    split
    · exact .refl _
    · rw [if_neg (fun e => h z (by simp) e.symm)]
      exact ((ih fun y hy => h y (by simp [hy])).cons z).trans (.swap _ _ _)

theorem emplace_map (g : α → β) (x : Text × α) (l : List (Text × α)) :
    emplace (x.1, g x.2) (l.map fun y => (y.1, g y.2)) = (emplace x l).map fun y => (y.1, g y.2) := by
  induction l with
  | nil => rfl
  | cons z zs ih =>
    simp only [List.map_cons, emplace]
    split
    · rfl
    · split
      · rfl
      · simp [ih]

theorem emplace_last {x : Text × α} {l : List (Text × α)} (h : ∀ y ∈ l, y.1 < x.1) : emplace x l = l ++ [x] := by
  induction l with
  | nil => rfl
  | cons z zs ih =>
    have hz := h z (by simp)
    rw [emplace, if_neg hz.not_gt, if_neg hz.ne', ih fun y hy => h y (by simp [hy])]
    rfl

theorem foldl_emplace_sorted (xs : List (Text × α)) {m : List (Text × α)} (h : Sorted m) :
    Sorted (xs.foldl (fun m x => emplace x m) m) := by
  induction xs generalizing m with
  | nil => exact h
  | cons x xs ih => exact ih (sorted_emplace x h)

theorem sorted_emplaceAll (xs : List (Text × α)) : Sorted (emplaceAll xs) := foldl_emplace_sorted xs .nil

theorem foldl_emplace_mem {xs : List (Text × α)} {m : List (Text × α)} {y : Text × α}
    (h : y ∈ xs.foldl (fun m x => emplace x m) m) : y ∈ xs ∨ y ∈ m := by
  induction xs generalizing m with
  | nil => exact Or.inr h
  | cons x xs ih =>
    rcases ih h with h | h
    · simp [h]
    · rcases mem_emplace h with rfl | h
      · simp
      · exact Or.inr h

theorem mem_emplaceAll {xs : List (Text × α)} {y : Text × α} (h : y ∈ emplaceAll xs) : y ∈ xs := by
  rcases foldl_emplace_mem h with h | h
  · exact h
  · simp at h

theorem foldl_emplace_perm {xs m : List (Text × α)} (h : ((xs ++ m).map (·.1)).Nodup) :
    (xs.foldl (fun m x => emplace x m) m).Perm (xs ++ m) := by
  induction xs generalizing m with
  | nil => exact .refl _
  | cons x xs ih =>
    have h1 : ∀ y ∈ m, y.1 ≠ x.1 := by
      intro y hy e
      simp only [List.cons_append, List.map_cons, List.nodup_cons, List.mem_map] at h
      exact h.1 ⟨y, by simp [hy], e⟩
    have hp := perm_emplace h1
    have hp2 : (xs ++ emplace x m).Perm (x :: (xs ++ m)) :=
      (hp.append_left xs).trans List.perm_middle
    exact (ih ((hp2.map _).nodup_iff.2 h)).trans hp2

theorem perm_emplaceAll {xs : List (Text × α)} (h : (xs.map (·.1)).Nodup) : (emplaceAll xs).Perm xs := by
  have := foldl_emplace_perm (xs := xs) (m := []) (by simpa using h)
  unfold emplaceAll
  simpa using this

theorem emplaceAll_map (g : α → β) (xs : List (Text × α)) :
    emplaceAll (xs.map fun y => (y.1, g y.2)) = (emplaceAll xs).map fun y => (y.1, g y.2) := by
  unfold emplaceAll
  have : ∀ m : List (Text × α), (xs.map fun y => (y.1, g y.2)).foldl (fun m x => emplace x m) (m.map fun y => (y.1, g y.2)) =
      (xs.foldl (fun m x => emplace x m) m).map fun y => (y.1, g y.2) := by
    induction xs with
    | nil => intro m; rfl
    | cons x xs ih =>
      intro m
      simp only [List.map_cons, List.foldl_cons]
      rw [emplace_map g x m, ih]
  exact this []

theorem emplaceAll_of_sorted {xs : List (Text × α)} (h : Sorted xs) : emplaceAll xs = xs := by
  have : ∀ (xs m : List (Text × α)), Sorted (m ++ xs) → xs.foldl (fun m x => emplace x m) m = m ++ xs := by
    intro xs
    induction xs with
    | nil => intro m _; simp
    | cons x xs ih =>
      intro m hs
      rw [List.foldl_cons, emplace_last, ih]
      · simp
      · simpa [List.append_assoc] using hs
      · intro y hy
        exact (List.pairwise_append.1 hs).2.2 y hy x (by simp)
  exact this xs [] h

/-! ### Positions -/

/-- One object: its name line content and its facet lines. -/
def secLines (s : Text × List Text) : List Text := ('o' :: s.1) :: s.2

theorem objMarks_append (k : Nat) {b : List Text} (hb : ∀ l ∈ b, isO l = false) (r : List Text) :
    objMarks k (b ++ r) = objMarks (k + b.length) r := by
  induction b generalizing k with
  | nil => rfl
  | cons l b ih =>
    rw [List.cons_append, objMarks, hb l (by simp), if_neg (by simp), ih (k + 1) fun l hl => hb l (by simp [hl])]
    congr 1
    simp; omega

/-- The objects found in a list of sections, with their facet lines. -/
theorem resolve_sections (lines : List Text) (secs : List (Text × List Text)) :
    ∀ pre : List Text, lines = pre ++ secs.flatMap secLines → (∀ s ∈ secs, ∀ l ∈ s.2, isO l = false) →
      (withSizes lines.length (objMarks pre.length (secs.flatMap secLines))).map
        (fun o => (o.1, (lines.drop o.2.1).take o.2.2)) = secs.map fun s => (firstToken s.1, s.2) := by
  induction secs with
  | nil => intro pre _ _; rfl
  | cons s secs ih =>
    intro pre hl hb
    obtain ⟨n, b⟩ := s
    have hb1 := hb (n, b) (by simp)
    have hb2 : ∀ s ∈ secs, ∀ l ∈ s.2, isO l = false := fun s hs => hb s (by simp [hs])
    have hl' : lines = (pre ++ ('o' :: n) :: b) ++ secs.flatMap secLines := by
      rw [hl]; simp [secLines]
    have hrec := ih _ hl' hb2
    have hm : objMarks pre.length (((n, b) :: secs).flatMap secLines) =
        (firstToken n, pre.length + 1) :: objMarks (pre.length + 1 + b.length) (secs.flatMap secLines) := by
      rw [List.flatMap_cons, secLines, List.cons_append, objMarks, if_pos (by rfl), objMarks_append _ hb1]
      rfl
    have hlen : (pre ++ ('o' :: n) :: b).length = pre.length + 1 + b.length := by simp; omega
    rw [hlen] at hrec
    have hdrop : (lines.drop (pre.length + 1)).take b.length = b := by
      have e : lines = (pre ++ ['o' :: n]) ++ (b ++ secs.flatMap secLines) := by
        rw [hl']; simp
      rw [e, List.drop_left' (by simp), List.take_left' rfl]
    rw [hm]
    cases hsec : secs with
    | nil =>
      subst hsec
      have hlb : lines.length = pre.length + 1 + b.length := by rw [hl']; simp; omega
      simp only [List.flatMap_nil, objMarks, withSizes, List.map_cons, List.map_nil]
      rw [show lines.length + 1 - (pre.length + 1) - 1 = b.length by omega, hdrop]
    | cons s' secs' =>
      obtain ⟨n', b'⟩ := s'
      rw [hsec] at hrec
      have hm' : objMarks (pre.length + 1 + b.length) (((n', b') :: secs').flatMap secLines) =
          (firstToken n', pre.length + 1 + b.length + 1) ::
            objMarks (pre.length + 1 + b.length + 1) (b' ++ secs'.flatMap secLines) := by
        rw [List.flatMap_cons, secLines, List.cons_append, objMarks, if_pos (by rfl)]
        rfl
      rw [hm'] at hrec ⊢
      rw [withSizes, List.map_cons, hrec, List.map_cons]
      simp only
      rw [show pre.length + 1 + b.length + 1 - (pre.length + 1) - 1 = b.length by omega, hdrop]
      rfl

end City.Obj
