import Verif.Model.Obj
import Mathlib.Data.List.Nodup
/-! First-seen numbering. -/
namespace City.Obj

theorem addSeen_nil (s : List Nat) : addSeen s [] = s := rfl

theorem addSeen_cons (s : List Nat) (i : Nat) (is : List Nat) :
    addSeen s (i :: is) = addSeen (if i ∈ s then s else s ++ [i]) is := rfl

theorem addSeen_append (s a b : List Nat) : addSeen s (a ++ b) = addSeen (addSeen s a) b := by
  simp [addSeen, List.foldl_append]

theorem addSeen_nodup {s : List Nat} (h : s.Nodup) (is : List Nat) : (addSeen s is).Nodup := by
  induction is generalizing s with
  | nil => exact h
  | cons i is ih =>
    rw [addSeen_cons]
    apply ih
    split
    · exact h
    · rename_i hi
      rw [List.nodup_append]
      refine ⟨h, by simp, ?_⟩
      intro a ha b hb
      simp at hb
      rintro rfl
      rw [hb] at ha
      exact hi ha

theorem mem_addSeen {s is : List Nat} {a : Nat} : a ∈ addSeen s is ↔ a ∈ s ∨ a ∈ is := by
  induction is generalizing s with
  | nil => simp [addSeen_nil]
  | cons i is ih =>
    rw [addSeen_cons, ih]
    by_cases hi : i ∈ s
    · simp only [hi, if_true, List.mem_cons]
      constructor
      · rintro (h | h) <;> simp [h]
      · rintro (h | rfl | h)
        · exact Or.inl h
        · exact Or.inl hi
        · exact Or.inr h
    · simp only [hi, if_false, List.mem_append, List.mem_cons, List.not_mem_nil, or_false]
      tauto

theorem prefix_addSeen (s is : List Nat) : ∃ r, addSeen s is = s ++ r := by
  induction is generalizing s with
  | nil => exact ⟨[], by simp [addSeen_nil]⟩
  | cons i is ih =>
    rw [addSeen_cons]
    obtain ⟨r, hr⟩ := ih (if i ∈ s then s else s ++ [i])
    rw [hr]
    split
    · exact ⟨r, rfl⟩
    · exact ⟨i :: r, by simp⟩

theorem idxOf_addSeen {s : List Nat} {a : Nat} (h : a ∈ s) (is : List Nat) : (addSeen s is).idxOf a = s.idxOf a := by
  obtain ⟨r, hr⟩ := prefix_addSeen s is
  rw [hr, List.idxOf_append_of_mem h]

theorem addSeen_map {g : Nat → Nat} (s is : List Nat)
    (hg : ∀ a ∈ s ++ is, ∀ b ∈ s ++ is, g a = g b → a = b) :
    addSeen (s.map g) (is.map g) = (addSeen s is).map g := by
  induction is generalizing s with
  | nil => rfl
  | cons i is ih =>
    rw [List.map_cons, addSeen_cons, addSeen_cons]
    have hm : (g i ∈ s.map g) ↔ i ∈ s := by
      rw [List.mem_map]
      constructor
      · rintro ⟨a, ha, he⟩
        have := hg a (by simp [ha]) i (by simp) he
        rwa [← this]
      · intro h; exact ⟨i, h, rfl⟩
    by_cases hi : i ∈ s
    · rw [if_pos (hm.2 hi), if_pos hi]
      exact ih s fun a ha b hb => hg a (by simp only [List.mem_append, List.mem_cons] at ha ⊢; tauto) b
        (by simp only [List.mem_append, List.mem_cons] at hb ⊢; tauto)
    · rw [if_neg (mt hm.1 hi), if_neg hi, ← ih (s ++ [i])]
      · simp
      · intro a ha b hb
        exact hg a (by simpa [List.append_assoc] using ha) b (by simpa [List.append_assoc] using hb)

theorem idxOf_map_inj {g : Nat → Nat} {s : List Nat} {a : Nat} (hg : ∀ b ∈ s, g a = g b → a = b) :
    (s.map g).idxOf (g a) = s.idxOf a := by
  induction s with
  | nil => rfl
  | cons b s ih =>
    rw [List.map_cons, List.idxOf_cons, List.idxOf_cons]
    by_cases h : b = a
    · simp [h]
    · have : g b ≠ g a := fun e => h (hg b (by simp) e.symm).symm
      rw [ih fun c hc => hg c (by simp [hc]), beq_false_of_ne h, beq_false_of_ne this]

theorem map_idxOf_self {s : List Nat} (h : s.Nodup) : s.map (fun a => s.idxOf a) = List.range s.length := by
  apply List.ext_getElem
  · simp
  · intro i h1 h2
    simp only [List.getElem_map, List.getElem_range]
    rw [h.idxOf_getElem]

/-- Renumbering in first-seen order is canonical: a second renumbering is the identity. -/
theorem addSeen_renumber (L : List Nat) :
    addSeen [] (L.map fun a => (addSeen [] L).idxOf a) = List.range (addSeen [] L).length := by
  have hnd : (addSeen [] L).Nodup := addSeen_nodup List.nodup_nil L
  have h := addSeen_map (g := fun a => (addSeen [] L).idxOf a) [] L (by
    intro a ha b hb hab
    simp only [List.nil_append] at ha hb
    have ha' : a ∈ addSeen [] L := mem_addSeen.2 (Or.inr ha)
    have hb' : b ∈ addSeen [] L := mem_addSeen.2 (Or.inr hb)
    have e1 := List.getElem_idxOf (List.idxOf_lt_length_iff.2 ha')
    have e2 := List.getElem_idxOf (List.idxOf_lt_length_iff.2 hb')
    rw [← e1, ← e2]
    simp only [hab])
  rw [List.map_nil] at h
  rw [h, map_idxOf_self hnd]

/-- What reading the facets of an object computes. -/
theorem readFacets_spec {rnd : ℚ → ℚ} {ls : List Text} {seen : List Nat} {fs : List Face} {seen' : List Nat}
    (h : readFacets rnd ls seen = .ok (fs, seen')) :
    ∃ idxs : List (List Nat), List.Forall₂ (fun l is => Out.mapM toIndex (scanDecs rnd l.tail) = .ok is) ls idxs ∧
      seen' = addSeen seen idxs.flatten ∧ fs = idxs.map (fun is => ⟨is.map fun i => seen'.idxOf i⟩) ∧
      ∀ is ∈ idxs, 3 ≤ is.length := by
  induction ls generalizing seen fs with
  | nil => cases h; exact ⟨[], .nil, rfl, rfl, by simp⟩
  | cons l ls ih =>
    rw [readFacets] at h
    obtain ⟨⟨f, s1⟩, h1, h⟩ := Out.bind_eq_ok.1 h
    obtain ⟨⟨fs1, s2⟩, h2, h⟩ := Out.bind_eq_ok.1 h
    cases h
    obtain ⟨idxs, hF, hs, hfs, h3⟩ := ih h2
    unfold readFacet at h1
    obtain ⟨is, his, h1⟩ := Out.bind_eq_ok.1 h1
    obtain ⟨f', hf', h1⟩ := Out.bind_eq_ok.1 h1
    cases h1
    unfold Face.mk? at hf'
    split at hf'
    · cases hf'
    · rename_i hlen
      cases hf'
      refine ⟨is :: idxs, .cons his hF, ?_, ?_, ?_⟩
      · rw [List.flatten_cons, addSeen_append]; exact hs
      · rw [List.map_cons, hfs]
        simp only at hs ⊢
        congr 2
        apply List.map_congr_left
        intro i hi
        rw [hs, idxOf_addSeen (mem_addSeen.2 (Or.inr hi))]
      · intro x hx
        rcases List.mem_cons.1 hx with rfl | hx
        · simpa using hlen
        · exact h3 x hx

/-- The converse: lines whose indexes are known. -/
theorem readFacets_ok {rnd : ℚ → ℚ} {ls : List Text} (seen : List Nat) {idxs : List (List Nat)}
    (hF : List.Forall₂ (fun l is => Out.mapM toIndex (scanDecs rnd l.tail) = .ok is) ls idxs)
    (h3 : ∀ is ∈ idxs, 3 ≤ is.length) :
    readFacets rnd ls seen = .ok (idxs.map (fun is => ⟨is.map fun i => (addSeen seen idxs.flatten).idxOf i⟩),
      addSeen seen idxs.flatten) := by
  induction hF generalizing seen with
  | nil => rfl
  | @cons l is ls idxs hl hF ih =>
    have hlen := h3 is (by simp)
    rw [readFacets, readFacet, hl, Out.ok_bind]
    unfold Face.mk?
    rw [if_neg (by simpa using hlen), Out.ok_bind, Out.ok_bind]
    simp only
    rw [ih _ fun x hx => h3 x (by simp [hx]), Out.ok_bind]
    simp only [List.flatten_cons, addSeen_append, List.map_cons]
    congr 2
    congr 2
    apply List.map_congr_left
    intro i hi
    rw [idxOf_addSeen (mem_addSeen.2 (Or.inr hi))]

end City.Obj
