import Verif.Props.What
import Verif.Props.Obj
/-!
C128: the texts of the reader of OBJ texts, and what causes them.
-/
namespace City.Props
open City City.Spec

theorem mapM_thrown_mem {α β : Type} {f : α → Out β} {e : Exc} : ∀ {l : List α}, Out.mapM f l = .thrown e → ∃ a ∈ l, f a = .thrown e
  | [], h => by cases h
  | a :: l, h => by
    rw [Out.mapM_cons] at h
    rcases Out.bind_eq_thrown.1 h with h | ⟨b, -, h⟩
    · exact ⟨a, by simp, h⟩
    · rcases Out.bind_eq_thrown.1 h with h | ⟨bs, -, h⟩
      · obtain ⟨a', h1, h2⟩ := mapM_thrown_mem h
        exact ⟨a', by simp [h1], h2⟩
      · cases h

theorem line2pt_thrown {rnd : ℚ → ℚ} {l : Text} {e : Exc} : Obj.line2pt rnd l = .thrown e ↔ e = .failure ∧ (scanDecs rnd l).length ≠ 3 ∧ (scanDecs rnd l).length ≠ 4 := by
  unfold Obj.line2pt
  rcases scanDecs rnd l with _ | ⟨a, _ | ⟨b, _ | ⟨c, _ | ⟨d, _ | ⟨f, r⟩⟩⟩⟩⟩ <;> simp [Obj.str2pt, eq_comm]

theorem readFacets_thrown {rnd : ℚ → ℚ} {e : Exc} : ∀ {ls : List Text} {seen : List Nat}, Obj.readFacets rnd ls seen = .thrown e →
    e = .logicError ∧ ∃ l ∈ ls, (scanDecs rnd l.tail).length < 3
  | [], _, h => by cases h
  | l :: ls, seen, h => by
    rw [Obj.readFacets] at h
    rcases Out.bind_eq_thrown.1 h with h | ⟨r, -, h⟩
    · unfold Obj.readFacet at h
      rcases Out.bind_eq_thrown.1 h with h | ⟨is, his, h⟩
      · obtain ⟨q, -, h⟩ := mapM_thrown_mem h
        unfold Obj.toIndex at h
        split at h <;> cases h
      · rcases Out.bind_eq_thrown.1 h with h | ⟨f, -, h⟩
        · unfold Face.mk? at h
          split at h
          · rename_i h3
            injection h with h
            refine ⟨h.symm, l, by simp, ?_⟩
            rw [List.length_map, Out.mapM_length his] at h3
            exact h3
          · cases h
        · cases h
    · rcases Out.bind_eq_thrown.1 h with h | ⟨rs, -, h⟩
      · obtain ⟨h1, l', h2, h3⟩ := readFacets_thrown h
        exact ⟨h1, l', by simp [h2], h3⟩
      · cases h

theorem obj_thrown {rnd : ℚ → ℚ} {t : Text} {e : Exc} (h : Obj.read rnd t = .thrown e) (hne : objContent t ≠ []) :
    (e = .failure ∧ ∃ l ∈ vertexLines t, (scanDecs rnd l.tail).length ≠ 3 ∧ (scanDecs rnd l.tail).length ≠ 4) ∨
    (e = .logicError ∧ (∀ l ∈ vertexLines t, (scanDecs rnd l.tail).length = 3) ∧ ∃ l ∈ otherLines t, l.head? ≠ some 'o' ∧ (scanDecs rnd l.tail).length < 3) := by
  unfold Obj.read at h
  simp only at h
  rw [if_neg (show Obj.parse t ≠ [] from hne)] at h
  rcases Out.bind_eq_thrown.1 h with h | ⟨ps, hps, h⟩
  · unfold Obj.readPoints at h
    rcases Out.bind_eq_thrown.1 h with h | ⟨ps, -, h⟩
    · obtain ⟨l, h1, h2⟩ := mapM_thrown_mem h
      obtain ⟨h2, h3⟩ := line2pt_thrown.1 h2
      exact .inl ⟨h2, l, h1, h3⟩
    · cases h
  · right
    obtain ⟨o, ho, h⟩ := mapM_thrown_mem h
    have hv : ∀ l ∈ vertexLines t, (scanDecs rnd l.tail).length = 3 := by
      unfold Obj.readPoints at hps
      obtain ⟨qs, hq, -⟩ := Out.bind_eq_ok.1 hps
      intro l hl
      have hq' := Out.mapM_eq_ok.1 hq
      obtain ⟨b, hb⟩ : ∃ b, Obj.line2pt rnd l.tail = .ok b := by
        clear hps hq
        have hl' : l ∈ (Obj.parse t).takeWhile Obj.isV := hl
        generalize (Obj.parse t).takeWhile Obj.isV = L at hq' hl'
        induction hq' with
        | nil => cases hl'
        | cons h1 _ ih =>
          rcases List.mem_cons.1 hl' with rfl | h'
          · exact ⟨_, h1⟩
          · exact ih h'
      unfold Obj.line2pt at hb
      rcases hs : scanDecs rnd l.tail with _ | ⟨a, _ | ⟨b, _ | ⟨c, _ | ⟨d, _ | ⟨f, r⟩⟩⟩⟩⟩ <;> rw [hs] at hb <;> first | rfl | cases hb
    unfold Obj.readObject at h
    rcases Out.bind_eq_thrown.1 h with h | ⟨r, -, h⟩
    · obtain ⟨h1, l, h2, h3⟩ := readFacets_thrown h
      obtain ⟨h4, h5⟩ := object_lines ho l h2
      exact ⟨h1, hv, l, h4, by unfold Obj.isO at h5; simpa using h5, h3⟩
    · rcases Out.bind_eq_thrown.1 h with h | ⟨qs, -, h⟩
      · unfold Obj.select at h
        obtain ⟨i, -, h⟩ := mapM_thrown_mem h
        unfold Out.idx at h
        split at h <;> cases h
      · cases h

/-- C128: the texts of the reader of OBJ texts and what they say of the text `t`: there is nothing but comments and blank lines (exactly then); one of the leading vertex lines has neither three
nor four numbers (given exactly then if none has four, which is undefined: C26); all vertex lines are right and one of the other lines, which is not the name of an object, has less than three
numbers. There are no other texts of the library. -/
theorem C128_obj_partial (z : Suffixes) (rnd : ℚ → ℚ) (t : Text) :
    (Says (Obj.readSays z rnd t) onlyComments ↔ objContent t = []) ∧
    (Says (Obj.readSays z rnd t) (noPoints ++ z.stream) → ∃ l ∈ vertexLines t, (scanDecs rnd l.tail).length ≠ 3 ∧ (scanDecs rnd l.tail).length ≠ 4) ∧
    ((∀ l ∈ vertexLines t, (scanDecs rnd l.tail).length ≠ 4) → (∃ l ∈ vertexLines t, (scanDecs rnd l.tail).length ≠ 3) → Says (Obj.readSays z rnd t) (noPoints ++ z.stream)) ∧
    (Says (Obj.readSays z rnd t) fewVertices → (∀ l ∈ vertexLines t, (scanDecs rnd l.tail).length = 3) ∧
      ∃ l ∈ otherLines t, l.head? ≠ some 'o' ∧ (scanDecs rnd l.tail).length < 3) ∧
    ∀ w, Says (Obj.readSays z rnd t) w → w ∈ [onlyComments, noPoints ++ z.stream, fewVertices] := by
  have e5 : noPoints.take 4 = "Unab".toList ∧ 4 ≤ noPoints.length := by decide +kernel
  have e6 : ∀ w ∈ [onlyComments, fewVertices], w.take 4 ≠ "Unab".toList := by decide +kernel
  have n0 : onlyComments ≠ fewVertices := by decide +kernel
  have n1 : onlyComments ≠ noPoints ++ z.stream := fun h => e6 onlyComments (List.mem_cons_self ..) (by rw [h, take_of_prefix e5.2, e5.1])
  have n2 : fewVertices ≠ noPoints ++ z.stream := fun h => e6 fewVertices (List.mem_cons_of_mem _ (List.mem_cons_self ..)) (by rw [h, take_of_prefix e5.2, e5.1])
  have key : objContent t ≠ [] → ∀ w, Says (Obj.readSays z rnd t) w ↔
      (Obj.read rnd t = .thrown .failure ∧ w = noPoints ++ z.stream) ∨ (Obj.read rnd t = .thrown .logicError ∧ w = fewVertices) := by
    intro hne w
    unfold Obj.readSays
    rw [if_neg (show Obj.parse t ≠ [] from hne), Told.says_named]
    constructor
    · rintro ⟨e, h1, h2⟩
      rcases obj_thrown h1 hne with ⟨rfl, -⟩ | ⟨rfl, -⟩
      · exact .inl ⟨h1, (Option.some.inj h2).symm⟩
      · exact .inr ⟨h1, (Option.some.inj h2).symm⟩
    · rintro (⟨h1, rfl⟩ | ⟨h1, rfl⟩)
      · exact ⟨_, h1, rfl⟩
      · exact ⟨_, h1, rfl⟩
  have only : objContent t = [] → ∀ w, Says (Obj.readSays z rnd t) w ↔ w = onlyComments := by
    intro he w
    unfold Obj.readSays
    rw [if_pos (show Obj.parse t = [] from he), says_thrown, Option.some.injEq]
    exact eq_comm
  refine ⟨⟨fun h => ?_, fun h => (only h _).2 rfl⟩, fun h => ?_, fun h4 h3 => ?_, fun h => ?_, fun w h => ?_⟩
  · by_contra hne
    rcases (key hne _).1 h with ⟨-, h⟩ | ⟨-, h⟩
    · exact n1 h
    · exact n0 h
  · by_cases hne : objContent t = []
    · exact (n1 ((only hne _).1 h).symm).elim
    · rcases (key hne _).1 h with ⟨h, -⟩ | ⟨-, h⟩
      · rcases obj_thrown h hne with ⟨-, h⟩ | ⟨h, -⟩
        · exact h
        · cases h
      · exact (n2 h.symm).elim
  · obtain ⟨l, hl, h3⟩ := h3
    have hne : objContent t ≠ [] := by
      intro h
      unfold vertexLines at hl
      rw [h] at hl
      cases hl
    refine (key hne _).2 (.inl ⟨?_, rfl⟩)
    unfold Obj.read
    simp only
    rw [if_neg (show Obj.parse t ≠ [] from hne)]
    have : ∀ L : List Text, (∀ l ∈ L, (scanDecs rnd l.tail).length ≠ 4) → (∃ l ∈ L, (scanDecs rnd l.tail).length ≠ 3) → Out.mapM (fun l => Obj.line2pt rnd l.tail) L = .thrown .failure := by
      intro L
      induction L with
      | nil => rintro - ⟨l, hl, -⟩; cases hl
      | cons l L ih =>
        intro h4 h3
        rw [Out.mapM_cons]
        by_cases hl : (scanDecs rnd l.tail).length = 3
        · obtain ⟨p, hp⟩ : ∃ p, Obj.line2pt rnd l.tail = .ok p := by
            unfold Obj.line2pt
            rcases hs : scanDecs rnd l.tail with _ | ⟨a, _ | ⟨b, _ | ⟨c, _ | ⟨d, r⟩⟩⟩⟩ <;> rw [hs] at hl <;> simp at hl
            exact ⟨_, rfl⟩
          rw [hp, Out.ok_bind, ih (fun l' h' => h4 l' (by simp [h']))]
          · rfl
          · obtain ⟨l', h', h''⟩ := h3
            rcases List.mem_cons.1 h' with rfl | h'
            · exact (h'' hl).elim
            · exact ⟨l', h', h''⟩
        · rw [line2pt_thrown.2 ⟨rfl, hl, h4 l (by simp)⟩]
          rfl
    have hv : (Obj.parse t).takeWhile Obj.isV = vertexLines t := rfl
    unfold Obj.readPoints
    rw [hv, this _ h4 ⟨l, hl, h3⟩]
    rfl
  · by_cases hne : objContent t = []
    · exact (n0 ((only hne _).1 h).symm).elim
    · rcases (key hne _).1 h with ⟨-, h⟩ | ⟨h, -⟩
      · exact (n2 h).elim
      · rcases obj_thrown h hne with ⟨h, -⟩ | ⟨-, h⟩
        · cases h
        · exact h
  · simp only [List.mem_cons, List.not_mem_nil, or_false]
    by_cases hne : objContent t = []
    · exact .inl ((only hne _).1 h)
    · rcases (key hne _).1 h with ⟨-, h⟩ | ⟨-, h⟩
      · exact .inr (.inl h)
      · exact .inr (.inr h)

example : Says (Obj.readSays ⟨[], [], []⟩ _root_.id "# a\n\n".toList) onlyComments := ⟨.outOfRange, by decide +kernel⟩
example : Says (Obj.readSays ⟨[], [], "!".toList⟩ _root_.id "v 1 2\n".toList) (noPoints ++ "!".toList) := ⟨.failure, by decide +kernel⟩
example : Says (Obj.readSays ⟨[], [], []⟩ _root_.id "v 1 2 3\no a\nf 1 1\n".toList) fewVertices := ⟨.logicError, by decide +kernel⟩

end City.Props
